import Mathlib.Algebra.BigOperators.Group.Finset.Basic
import Mathlib.Algebra.BigOperators.Ring.Finset
import Mathlib.Tactic.Ring
import Mathlib.Tactic.FieldSimp
import Mathlib.Tactic.NormNum
import Mathlib.Tactic.Linarith
import Verif.Model.Radial

/-! # Lemmas on the nested radial grids -/

namespace Libgrpp

variable {κ : Type}

/-- Number of points after `k` refinements of a grid with `m` points. -/
def levelSize (m k : Nat) : Nat := 2 ^ k * (m + 1) - 1

theorem levelSize_zero (m : Nat) : levelSize m 0 = m := by simp [levelSize]

theorem levelSize_succ (m k : Nat) : levelSize m (k + 1) = 2 * levelSize m k + 1 := by
  have : 1 ≤ 2 ^ k * (m + 1) := Nat.mul_pos (Nat.pow_pos (by omega)) (by omega)
  simp only [levelSize, pow_succ]
  have e : 2 ^ k * 2 * (m + 1) = 2 * (2 ^ k * (m + 1)) := by ring
  omega

theorem levelSize_mono (m : Nat) {j k : Nat} (h : j ≤ k) : levelSize m j ≤ levelSize m k := by
  induction h with
  | refl => exact le_rfl
  | step _ ih => rw [levelSize_succ]; omega

theorem levelSize_strict (m : Nat) {j k : Nat} (h : levelSize m j < levelSize m k) : j < k := by
  by_contra hc
  have := levelSize_mono m (Nat.le_of_not_lt hc)
  omega

/-- The quadrature sum on the grid with `N` points. -/
noncomputable def fullQuad (F : ℝ → ℝ) (N : Nat) : ℝ :=
  ∑ i ∈ Finset.range N, gridW N (i + 1) * F (gridR N (i + 1))

theorem gridXi_double (N i : Nat) : gridXi (2 * N + 1) (2 * i) = gridXi N i := by
  unfold gridXi
  push_cast
  have h : (N : ℝ) + 1 ≠ 0 := by positivity
  have h' : (2 * (N : ℝ) + 1 + 1) ≠ 0 := by positivity
  rw [div_eq_div_iff h' h]; ring

theorem gridR_double (N i : Nat) : gridR (2 * N + 1) (2 * i) = gridR N i := by
  simp only [gridR, gridLn, gridXi_double]

theorem gridW_double (N i : Nat) : gridW (2 * N + 1) (2 * i) = gridW N i / 2 := by
  simp only [gridW, gridLn, gridXi_double]
  push_cast
  rw [show (2 * (N : ℝ) + 1 + 1) = 2 * (N + 1) by ring]
  rw [div_div]
  congr 1
  ring

/-- Splitting into even and odd points. -/
theorem fullQuad_double (F : ℝ → ℝ) (N : Nat) : fullQuad F (2 * N + 1) =
    1 / 2 * fullQuad F N + ∑ j ∈ Finset.range (N + 1), gridW (2 * N + 1) (2 * j + 1) * F (gridR (2 * N + 1) (2 * j + 1)) := by
  have split : ∀ (a : ℕ → ℝ) (n : ℕ), ∑ i ∈ Finset.range (2 * n + 1), a i =
      ∑ j ∈ Finset.range n, a (2 * j + 1) + ∑ j ∈ Finset.range (n + 1), a (2 * j) := by
    intro a n
    induction n with
    | zero => simp
    | succ n ih =>
      rw [show 2 * (n + 1) + 1 = (2 * n + 1) + 1 + 1 by ring, Finset.sum_range_succ, Finset.sum_range_succ, ih,
        Finset.sum_range_succ (fun j => a (2 * j + 1)) n, Finset.sum_range_succ (fun j => a (2 * j)) (n + 1)]
      have : 2 * (n + 1) = 2 * n + 1 + 1 := by ring
      rw [this]; ring
  unfold fullQuad
  rw [split]
  congr 1
  rw [Finset.mul_sum]
  refine Finset.sum_congr rfl fun j _ => ?_
  rw [show 2 * j + 1 + 1 = 2 * (j + 1) by ring, gridW_double, gridR_double]
  ring

/-- The contents of the arrays after `k` refinements. -/
noncomputable def levelPts (f : κ → ℝ → ℝ) (m : Nat) : Nat → List (Node κ)
  | 0 => (List.range m).map fun i => mkNode f m (i + 1)
  | k + 1 => levelPts f m k ++ (List.range (levelSize m k + 1)).map fun j => mkNode f (levelSize m (k + 1)) (2 * j + 1)

theorem levelPts_length (f : κ → ℝ → ℝ) (m k : Nat) : (levelPts f m k).length = levelSize m k := by
  induction k with
  | zero => simp [levelPts, levelSize_zero]
  | succ k ih => rw [levelPts, List.length_append, ih, List.length_map, List.length_range, levelSize_succ]; omega

theorem levelPts_prefix (f : κ → ℝ → ℝ) (m : Nat) {j k : Nat} (h : j ≤ k) :
    (levelPts f m k).take (levelSize m j) = levelPts f m j := by
  induction h with
  | refl => rw [← levelPts_length f m j, List.take_length]
  | @step k h ih =>
    rw [levelPts, List.take_append_of_le_length]
    · exact ih
    · rw [levelPts_length]; exact levelSize_mono m h

/-- A grid in some state of refinement. -/
def GridOk (f : κ → ℝ → ℝ) (m k : Nat) (g : RGrid κ) : Prop :=
  g.nr = levelSize m k ∧ levelSize m k ≤ maxGrid ∧ g.pts.length = maxGrid ∧
    g.pts.take (levelSize m k) = levelPts f m k

theorem take_set_ge {α : Type _} (l : List α) {n i : Nat} (v : α) (h : n ≤ i) : (l.set i v).take n = l.take n := by
  rw [List.take_set]
  apply List.set_eq_of_length_le
  rw [List.length_take]; omega

/-- A loop storing consecutive elements. -/
theorem forRange_store {α : Type _} (v : Nat → α) (a n : Nat) (l : List α) (h : a + n ≤ l.length) :
    ∃ l', forRange n l (fun j l => wr l (a + j) (v j)) = .ok l' ∧ l'.length = l.length ∧
      l'.take (a + n) = l.take a ++ (List.range n).map v := by
  refine forRange_spec (fun i l' => l'.length = l.length ∧ l'.take (a + i) = l.take a ++ (List.range i).map v) ?_ ?_ ?_
  · simp
  · rintro i l' hi ⟨h1, h2⟩
    have hlt : a + i < l'.length := by omega
    refine ⟨_, wr_ok _ hlt, by rw [List.length_set]; exact h1, ?_⟩
    rw [← Nat.add_assoc, List.take_add_one, take_set_ge l' (v i) (le_refl _), h2, List.getElem?_set_self hlt]
    rw [List.range_succ, List.map_append]
    simp
  · exact fun l' h' => h'

theorem createGrid_ok (f : κ → ℝ → ℝ) (m : Nat) (hm : m ≤ maxGrid) : ∃ g, createGrid f m = .ok g ∧ GridOk f m 0 g := by
  obtain ⟨l, h1, h2, h3⟩ := forRange_store (fun i => mkNode f m (i + 1)) 0 m
    (List.replicate maxGrid (⟨0, fun _ => 0⟩ : Node κ)) (by rw [List.length_replicate]; omega)
  simp only [Nat.zero_add] at h1 h3
  refine ⟨⟨m, l⟩, ?_, ?_⟩
  · unfold createGrid
    rw [h1]; rfl
  · refine ⟨(levelSize_zero m).symm, by rw [levelSize_zero]; exact hm, by rw [h2, List.length_replicate], ?_⟩
    rw [levelSize_zero, h3]; simp [levelPts]

theorem expandGrid_ok (f : κ → ℝ → ℝ) (m j k : Nat) (g : RGrid κ) (hg : GridOk f m k g) (hj : j ≤ k)
    (hmax : levelSize m (j + 1) ≤ maxGrid) :
    ∃ g' k', expandGrid f g (levelSize m (j + 1)) = .ok g' ∧ GridOk f m k' g' ∧ j + 1 ≤ k' := by
  obtain ⟨h1, h2, h3, h4⟩ := hg
  unfold expandGrid
  rw [if_neg (by omega)]
  by_cases hle : levelSize m (j + 1) ≤ g.nr
  · rw [if_pos hle]
    refine ⟨g, k, rfl, ⟨h1, h2, h3, h4⟩, ?_⟩
    rw [h1] at hle
    by_contra hc
    have hk : k = j := by omega
    rw [hk, levelSize_succ] at hle
    omega
  · rw [if_neg hle]
    have hk : k = j := by
      by_contra hc
      have := levelSize_mono m (show j + 1 ≤ k by omega)
      rw [h1] at hle
      omega
    subst hk
    have hcount : (levelSize m (k + 1) + 1) / 2 = levelSize m k + 1 := by rw [levelSize_succ]; omega
    rw [hcount, h1]
    obtain ⟨l, e1, e2, e3⟩ := forRange_store (fun i => mkNode f (levelSize m (k + 1)) (2 * i + 1)) (levelSize m k)
      (levelSize m k + 1) g.pts (by rw [h3]; rw [levelSize_succ] at hmax; omega)
    refine ⟨⟨levelSize m (k + 1), l⟩, k + 1, by rw [e1]; rfl, ⟨rfl, hmax, by rw [e2, h3], ?_⟩, le_rfl⟩
    have : levelSize m (k + 1) = levelSize m k + (levelSize m k + 1) := by rw [levelSize_succ]; omega
    show l.take (levelSize m (k + 1)) = _
    rw [this, e3, h4, levelPts]

/-- The summation loop in terms of the list of nodes. -/
theorem sumNodes_ok (g : RGrid κ) (key : κ) (a n : Nat) (s : ℝ) (ns : Nat → Node κ)
    (hn : ∀ j, j < n → g.pts[a + j]? = some (ns j)) :
    sumNodes g key a (a + n) s = .ok (s + ∑ j ∈ Finset.range n, (ns j).w * (ns j).val key) := by
  unfold sumNodes
  rw [Nat.add_sub_cancel_left]
  obtain ⟨s', e, hs'⟩ := forRange_inv (n := n) (s := s)
    (body := fun j s => do
      let p ← rd g.pts (a + j)
      Outcome.ok (s + p.w * p.val key))
    (fun i s' => s' = s + ∑ j ∈ Finset.range i, (ns j).w * (ns j).val key) (by simp) (by
      intro i s' hi hs'
      have : rd g.pts (a + i) = .ok (ns i) := by unfold rd; rw [hn i hi]
      refine ⟨_, by rw [this]; rfl, ?_⟩
      rw [hs', Finset.sum_range_succ]; ring)
  rw [e, hs']

theorem sum_first (f : κ → ℝ → ℝ) (m k : Nat) (g : RGrid κ) (hg : GridOk f m k g) (key : κ) :
    sumNodes g key 0 m 0 = .ok (fullQuad (f key) (levelSize m 0)) := by
  obtain ⟨h1, h2, h3, h4⟩ := hg
  have hpre := levelPts_prefix f m (Nat.zero_le k)
  rw [← h4, List.take_take, min_eq_left (levelSize_mono m (Nat.zero_le k))] at hpre
  rw [levelSize_zero] at hpre ⊢
  have hm : m ≤ maxGrid := by have := levelSize_mono m (Nat.zero_le k); rw [levelSize_zero] at this; omega
  have := sumNodes_ok g key 0 m 0 (fun j => mkNode f m (j + 1)) (by
    intro j hj
    rw [Nat.zero_add, ← List.getElem?_take_of_lt hj, hpre, levelPts]
    simp [hj])
  rw [Nat.zero_add] at this
  rw [this, fullQuad]
  simp [mkNode]

theorem sum_next (f : κ → ℝ → ℝ) (m j k : Nat) (g : RGrid κ) (hg : GridOk f m k g) (hj : j + 1 ≤ k) (key : κ) :
    sumNodes g key (levelSize m j) (levelSize m (j + 1)) (0.5 * fullQuad (f key) (levelSize m j)) =
      .ok (fullQuad (f key) (levelSize m (j + 1))) := by
  obtain ⟨h1, h2, h3, h4⟩ := hg
  have hpre := levelPts_prefix f m hj
  have hmono := levelSize_mono m hj
  rw [← h4, List.take_take, min_eq_left hmono] at hpre
  have e : levelSize m (j + 1) = levelSize m j + (levelSize m j + 1) := by rw [levelSize_succ]; omega
  have := sumNodes_ok g key (levelSize m j) (levelSize m j + 1) (0.5 * fullQuad (f key) (levelSize m j))
    (fun q => mkNode f (levelSize m (j + 1)) (2 * q + 1)) (by
    intro q hq
    rw [← List.getElem?_take_of_lt (show levelSize m j + q < levelSize m (j + 1) by omega), hpre, levelPts,
      List.getElem?_append_right (by rw [levelPts_length]; omega), levelPts_length, Nat.add_sub_cancel_left]
    simp [hq])
  rw [← e] at this
  rw [this]
  congr 1
  rw [levelSize_succ, fullQuad_double]
  simp only [mkNode]
  norm_num

/-- Refinement level `i` is accepted by the loop. -/
def Accepts (F : ℝ → ℝ) (m : Nat) (tol : ℝ) (screened : Option ℝ) (i : Nat) : Prop :=
  (∀ x, screened = some x → ¬ |fullQuad F (levelSize m i)| / |x| < 0.001) ∧
    |fullQuad F (levelSize m i) - fullQuad F (levelSize m (i - 1))| ≤ tol

theorem refineLoop_ok (f : κ → ℝ → ℝ) (m : Nat) (key : κ) (tol : ℝ) (screened : Option ℝ) :
    ∀ (d j k : Nat) (g : RGrid κ), maxGrid - levelSize m j = d → GridOk f m k g → j ≤ k →
      ∃ k' c g' e, refineLoop f key tol screened g (levelSize m j) (fullQuad (f key) (levelSize m j)) false =
          .ok (fullQuad (f key) (levelSize m k'), c, g') ∧ GridOk f m e g' ∧ j ≤ k' ∧ levelSize m k' ≤ maxGrid ∧
        (∀ i, j < i → i < k' → ¬ Accepts (f key) m tol screened i) ∧
        (c = true → j < k' ∧ Accepts (f key) m tol screened k') ∧
        (c = false → maxGrid < levelSize m (k' + 1) ∧ (j < k' → ¬ Accepts (f key) m tol screened k')) := by
  intro d
  induction d using Nat.strong_induction_on with
  | _ d ih =>
  intro j k g hd hg hjk
  have hjmax : levelSize m j ≤ maxGrid := le_trans (levelSize_mono m hjk) hg.2.1
  unfold refineLoop
  by_cases hmax : 2 * levelSize m j + 1 > maxGrid
  · rw [if_pos hmax]
    refine ⟨j, false, g, k, rfl, hg, le_rfl, hjmax, fun i h1 h2 => absurd h1 (by omega), fun h => Bool.noConfusion h, fun _ => ⟨?_, fun h => absurd h (by omega)⟩⟩
    rw [levelSize_succ]; exact hmax
  · rw [if_neg hmax, ← levelSize_succ]
    have hmax' : levelSize m (j + 1) ≤ maxGrid := by rw [levelSize_succ]; omega
    obtain ⟨g', k', e1, hg', hk'⟩ := expandGrid_ok f m j k g hg hjk hmax'
    rw [e1]
    simp only [Outcome.ok_bind]
    rw [sum_next f m j k' g' hg' hk' key]
    simp only [Outcome.ok_bind]
    have acc : Accepts (f key) m tol screened (j + 1) ↔
        (¬ tooSmall screened (fullQuad (f key) (levelSize m (j + 1))) = true) ∧
        |fullQuad (f key) (levelSize m (j + 1)) - fullQuad (f key) (levelSize m j)| ≤ tol := by
      unfold Accepts tooSmall
      cases screened with
      | none => simp
      | some x => simp
    have again : ¬ Accepts (f key) m tol screened (j + 1) →
        ∃ k'' c g'' e, refineLoop f key tol screened g' (levelSize m (j + 1)) (fullQuad (f key) (levelSize m (j + 1))) false =
          .ok (fullQuad (f key) (levelSize m k''), c, g'') ∧ GridOk f m e g'' ∧ j ≤ k'' ∧ levelSize m k'' ≤ maxGrid ∧
          (∀ i, j < i → i < k'' → ¬ Accepts (f key) m tol screened i) ∧
          (c = true → j < k'' ∧ Accepts (f key) m tol screened k'') ∧
          (c = false → maxGrid < levelSize m (k'' + 1) ∧ (j < k'' → ¬ Accepts (f key) m tol screened k'')) := by
      intro hna
      obtain ⟨k2, c, g2, e, r1, r2, r3, r4, r5, r6, r7⟩ := ih (maxGrid - levelSize m (j + 1))
        (by rw [levelSize_succ]; omega) (j + 1) k' g' rfl hg' hk'
      refine ⟨k2, c, g2, e, r1, r2, by omega, r4, ?_, ?_, ?_⟩
      · intro i hi hi2
        by_cases hij : i = j + 1
        · rw [hij]; exact hna
        · exact r5 i (by omega) hi2
      · intro hc
        exact ⟨by have := (r6 hc).1; omega, (r6 hc).2⟩
      · intro hc
        refine ⟨(r7 hc).1, fun _ => ?_⟩
        by_cases hij : k2 = j + 1
        · rw [hij]; exact hna
        · exact (r7 hc).2 (by omega)
    by_cases hts : tooSmall screened (fullQuad (f key) (levelSize m (j + 1))) = true
    · rw [if_pos hts]
      exact again (fun h => (acc.1 h).1 hts)
    · rw [if_neg hts]
      by_cases hcv : |fullQuad (f key) (levelSize m (j + 1)) - fullQuad (f key) (levelSize m j)| ≤ tol
      · rw [if_pos hcv]
        refine ⟨j + 1, true, g', k', rfl, hg', by omega, hmax', fun i h1 h2 => absurd h1 (by omega), fun _ => ⟨by omega, acc.2 ⟨hts, hcv⟩⟩, fun h => Bool.noConfusion h⟩
      · rw [if_neg hcv]
        exact again (fun h => hcv (acc.1 h).2)

/-- Result of an adaptive integration: described without the grid. -/
structure RadialResult (F : ℝ → ℝ) (m : Nat) (tol : ℝ) (screened : Option ℝ) (v : ℝ) (c : Bool) : Prop where
  cases : (∃ x, screened = some x ∧ |x| < tol ∧ v = x ∧ c = true) ∨
    ((∀ x, screened = some x → ¬ |x| < tol) ∧ ∃ k, v = fullQuad F (levelSize m k) ∧ levelSize m k ≤ maxGrid ∧
      (∀ i, 0 < i → i < k → ¬ Accepts F m tol screened i) ∧
      (c = true → 0 < k ∧ Accepts F m tol screened k) ∧
      (c = false → maxGrid < levelSize m (k + 1) ∧ (0 < k → ¬ Accepts F m tol screened k)))

theorem calcRadial_ok (f : κ → ℝ → ℝ) (m : Nat) (key : κ) (tol : ℝ) (screened : Option ℝ) (k : Nat) (g : RGrid κ)
    (hg : GridOk f m k g) : ∃ v c g' k', calcRadial f m key tol screened g = .ok (v, c, g') ∧ GridOk f m k' g' ∧
      RadialResult (f key) m tol screened v c := by
  obtain ⟨k', c, g', e, r1, r2, r3, r4, r5, r6, r7⟩ := refineLoop_ok f m key tol screened _ 0 k g rfl hg (Nat.zero_le k)
  have full : (do
      let s ← sumNodes g key 0 m 0
      refineLoop f key tol screened g m s false) = .ok (fullQuad (f key) (levelSize m k'), c, g') := by
    rw [sum_first f m k g hg key, Outcome.ok_bind]
    rw [levelSize_zero] at r1 ⊢
    exact r1
  unfold calcRadial
  cases hs : screened with
  | none =>
    subst hs
    refine ⟨_, c, g', e, full, r2, ⟨Or.inr ⟨fun x hx => (by cases hx), k', rfl, r4, r5, r6, r7⟩⟩⟩
  | some x =>
    subst hs
    dsimp only
    by_cases hx : |x| < tol
    · rw [if_pos hx]
      exact ⟨x, true, g, k, rfl, hg, ⟨Or.inl ⟨x, rfl, hx, rfl, rfl⟩⟩⟩
    · rw [if_neg hx]
      refine ⟨_, c, g', e, full, r2, ⟨Or.inr ⟨fun y hy => (by cases hy; exact hx), k', rfl, r4, r5, r6, r7⟩⟩⟩

/-- The result is determined by integrand, tolerance and screening alone. -/
theorem RadialResult.unique {F : ℝ → ℝ} {m : Nat} {tol : ℝ} {screened : Option ℝ} {v v' : ℝ} {c c' : Bool}
    (h : RadialResult F m tol screened v c) (h' : RadialResult F m tol screened v' c') : v = v' ∧ c = c' := by
  rcases h.cases with ⟨x, e, hx, rfl, rfl⟩ | ⟨hn, k, rfl, hk, h1, h2, h3⟩
  · rcases h'.cases with ⟨y, e', hy, rfl, rfl⟩ | ⟨hn, _⟩
    · rw [e] at e'; exact ⟨Option.some.inj e', rfl⟩
    · exact absurd hx (hn _ e)
  · rcases h'.cases with ⟨y, e', hy, rfl, rfl⟩ | ⟨_, k', rfl, hk', h1', h2', h3'⟩
    · exact absurd hy (hn _ e')
    · have key : ∀ {k k' : Nat} {c c' : Bool}, levelSize m k ≤ maxGrid → levelSize m k' ≤ maxGrid →
          (∀ i, 0 < i → i < k' → ¬ Accepts F m tol screened i) →
          (c = true → 0 < k ∧ Accepts F m tol screened k) →
          (c = false → maxGrid < levelSize m (k + 1) ∧ (0 < k → ¬ Accepts F m tol screened k)) →
          k' ≤ k := by
        intro k k' c c' hk hk' h1' h2 h3
        by_contra hlt
        cases c with
        | true => exact h1' k (h2 rfl).1 (by omega) (h2 rfl).2
        | false =>
          have := levelSize_mono m (show k + 1 ≤ k' by omega)
          have := (h3 rfl).1
          omega
      have hkk : k = k' := le_antisymm (key (c' := c) hk' hk h1 h2' h3') (key (c' := c) hk hk' h1' h2 h3)
      subst hkk
      refine ⟨rfl, ?_⟩
      cases c <;> cases c' <;> try rfl
      · exact absurd (h2' rfl).2 ((h3 rfl).2 (h2' rfl).1)
      · exact absurd (h2 rfl).2 ((h3' rfl).2 (h2 rfl).1)

end Libgrpp
