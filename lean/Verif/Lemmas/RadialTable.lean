import Verif.Lemmas.Radial
import Verif.Lemmas.Utils

/-! # The tables of radial integrals -/

namespace Libgrpp

variable {κ : Type}

/-- The value the adaptive integration gives for `key`, on any grid. -/
noncomputable def radialValue (f : κ → ℝ → ℝ) (m : Nat) (tol : ℝ) (screened : Option ℝ) (key : κ) : ℝ :=
  match createGrid f m with
  | .ok g => match calcRadial f m key tol screened g with
    | .ok r => r.1
    | _ => 0
  | _ => 0

theorem radialValue_result (f : κ → ℝ → ℝ) (m : Nat) (hm : m ≤ maxGrid) (tol : ℝ) (screened : Option ℝ) (key : κ) :
    ∃ c, RadialResult (f key) m tol screened (radialValue f m tol screened key) c := by
  obtain ⟨g, e, hg⟩ := createGrid_ok f m hm
  obtain ⟨v, c, g', k', e', _, hr⟩ := calcRadial_ok f m key tol screened 0 g hg
  refine ⟨c, ?_⟩
  unfold radialValue
  rw [e]; dsimp only; rw [e']; exact hr

/-- On a grid in any state of refinement. -/
theorem calcRadial_value (f : κ → ℝ → ℝ) (m : Nat) (hm : m ≤ maxGrid) (key : κ) (tol : ℝ) (screened : Option ℝ) (k : Nat)
    (g : RGrid κ) (hg : GridOk f m k g) : ∃ c g' k', calcRadial f m key tol screened g =
      .ok (radialValue f m tol screened key, c, g') ∧ GridOk f m k' g' ∧
      RadialResult (f key) m tol screened (radialValue f m tol screened key) c := by
  obtain ⟨v, c, g', k', e', hg', hr⟩ := calcRadial_ok f m key tol screened k g hg
  obtain ⟨c0, hr0⟩ := radialValue_result f m hm tol screened key
  obtain ⟨e1, e2⟩ := hr.unique hr0
  subst e1
  exact ⟨c, g', k', e', hg', hr⟩

/-- A loop that computes on the grid and stores at consecutive places. -/
theorem store_row (f : κ → ℝ → ℝ) (m : Nat) (hm : m ≤ maxGrid) (tol : ℝ) (screen : κ → Option ℝ) (key : Nat → κ)
    (base n : Nat) (t : List ℝ) (k : Nat) (g : RGrid κ) (hg : GridOk f m k g) (hb : base + n ≤ t.length) :
    ∃ t' g' k', forRange n (t, g) (fun i (st : List ℝ × RGrid κ) => do
        let q ← calcRadial f m (key i) tol (screen (key i)) st.2
        let t ← wr st.1 (base + i) q.1
        Outcome.ok (t, q.2.2)) = .ok (t', g') ∧ GridOk f m k' g' ∧ t'.length = t.length ∧
      (∀ i, i < n → t'[base + i]? = some (radialValue f m tol (screen (key i)) (key i))) ∧
      ∀ p, (p < base ∨ base + n ≤ p) → t'[p]? = t[p]? := by
  obtain ⟨⟨t', g'⟩, e, k', h1, h2, h3, h4⟩ := forRange_inv (n := n) (s := (t, g))
    (body := fun i (st : List ℝ × RGrid κ) => do
        let q ← calcRadial f m (key i) tol (screen (key i)) st.2
        let t ← wr st.1 (base + i) q.1
        Outcome.ok (t, q.2.2))
    (fun j st => ∃ k', GridOk f m k' st.2 ∧ st.1.length = t.length ∧
      (∀ i, i < j → st.1[base + i]? = some (radialValue f m tol (screen (key i)) (key i))) ∧
      ∀ p, (p < base ∨ base + j ≤ p) → st.1[p]? = t[p]?)
    ⟨k, hg, rfl, fun i hi => absurd hi (Nat.not_lt_zero _), fun _ _ => rfl⟩ (by
      rintro i ⟨t1, g1⟩ hi ⟨k1, a1, a2, a3, a4⟩
      obtain ⟨c, g2, k2, e2, hg2, _⟩ := calcRadial_value f m hm (key i) tol (screen (key i)) k1 g1 a1
      have hlt : base + i < t1.length := by
        have : t1.length = t.length := a2
        omega
      refine ⟨(t1.set (base + i) (radialValue f m tol (screen (key i)) (key i)), g2), ?_, k2, hg2, ?_, ?_, ?_⟩
      · dsimp only
        rw [e2, Outcome.ok_bind, wr_ok _ hlt]; rfl
      · show (t1.set _ _).length = _; rw [List.length_set]; exact a2
      · intro j hj
        show (t1.set _ _)[_]? = _
        by_cases hji : j = i
        · subst hji; rw [List.getElem?_set_self hlt]
        · rw [List.getElem?_set_ne (by omega)]; exact a3 j (by omega)
      · intro p hp
        show (t1.set _ _)[_]? = _
        rw [List.getElem?_set_ne (by omega)]; exact a4 p (by omega))
  exact ⟨t', g', k', e, h1, h2, h3, h4⟩

/-- The table of type-1 radial integrals when `n_max = lambda_max`. -/
theorem tabulateType1_ok {G : Type} (p : LibParams G) (f : Nat × Nat → ℝ → ℝ) (lmax : Nat) :
    ∃ t, tabulateType1 p f lmax lmax = .ok t ∧ t.length = (lmax + 1) * (lmax + 1) ∧
      ∀ lam n, lam ≤ lmax → n ≤ lmax → t[lam * (lmax + 1) + n]? = some (radialValue f 2047 p.radial none (n, lam)) := by
  have hm : 2047 ≤ maxGrid := by norm_num [maxGrid]
  obtain ⟨g, eg, hg⟩ := createGrid_ok f 2047 hm
  unfold tabulateType1
  rw [eg, Outcome.ok_bind]
  obtain ⟨⟨t, g'⟩, e, k', h1, h2, h3⟩ := forRange_inv (n := lmax + 1)
    (s := (List.replicate ((lmax + 1) * (lmax + 1)) (0:ℝ), g))
    (body := fun lam st => forRange (lmax + 1) st fun n (st : List ℝ × RGrid (Nat × Nat)) => do
      let q ← calcRadial f 2047 (n, lam) p.radial none st.2
      let t ← wr st.1 (lam * (lmax + 1) + n) q.1
      .ok (t, q.2.2))
    (fun j st => ∃ k', GridOk f 2047 k' st.2 ∧ st.1.length = (lmax + 1) * (lmax + 1) ∧
      ∀ lam n, lam < j → n ≤ lmax → st.1[lam * (lmax + 1) + n]? = some (radialValue f 2047 p.radial none (n, lam)))
    ⟨0, hg, by simp, fun lam _ hl => absurd hl (Nat.not_lt_zero _)⟩ (by
      rintro lam ⟨t1, g1⟩ hl ⟨k1, a1, a2, a3⟩
      have a2 : t1.length = (lmax + 1) * (lmax + 1) := a2
      have hb : lam * (lmax + 1) + (lmax + 1) ≤ t1.length := by
        rw [a2, ← Nat.succ_mul]; exact Nat.mul_le_mul_right _ hl
      obtain ⟨t2, g2, k2, e2, b1, b2, b3, b4⟩ := store_row f 2047 hm p.radial (fun _ => none) (fun n => (n, lam))
        (lam * (lmax + 1)) (lmax + 1) t1 k1 g1 a1 hb
      refine ⟨(t2, g2), e2, k2, b1, b2.trans a2, ?_⟩
      intro l n hl' hn
      by_cases hll : l = lam
      · subst hll; exact b3 n (by omega)
      · have : (l + 1) * (lmax + 1) ≤ lam * (lmax + 1) := Nat.mul_le_mul_right _ (by omega)
        rw [Nat.succ_mul] at this
        show t2[_]? = _
        rw [b4 _ (Or.inl (by omega))]
        exact a3 l n (by omega) hn)
  rw [e]
  exact ⟨t, rfl, h2, fun lam n hl hn => h3 lam n (by omega) hn⟩

/-- The table of type-2 radial integrals. -/
theorem tabulateType2_ok {G : Type} (p : LibParams G) (f : Nat × Nat × Nat → ℝ → ℝ) (screen : Nat × Nat × Nat → Option ℝ)
    (l1max l2max nmax : Nat) : ∃ t, tabulateType2 p f screen l1max l2max nmax = .ok t ∧
      ∀ l1 l2 n, l1 ≤ l1max → l2 ≤ l2max → n ≤ nmax → t[(l2max + 1) * (nmax + 1) * l1 + (nmax + 1) * l2 + n]? =
        some (radialValue f 31 1e-16 (screen (n, l1, l2)) (n, l1, l2)) := by
  have hm : 31 ≤ maxGrid := by norm_num [maxGrid]
  obtain ⟨g, eg, hg⟩ := createGrid_ok f 31 hm
  unfold tabulateType2
  rw [eg, Outcome.ok_bind]
  generalize hD : nmax + 1 = D
  generalize hD2 : l2max + 1 = D2
  generalize hD1 : l1max + 1 = D1
  have pos : ∀ l1 l2 n, D2 * D * l1 + D * l2 + n = (l1 * D2 + l2) * D + n := by intros; ring
  obtain ⟨⟨t, g'⟩, e, k', h1, h2, h3⟩ := forRange_inv (n := D1)
    (s := (List.replicate (D1 * D2 * D) (0:ℝ), g))
    (body := fun l1 st => forRange D2 st fun l2 st => forRange D st fun n (st : List ℝ × RGrid (Nat × Nat × Nat)) => do
      let q ← calcRadial f 31 (n, l1, l2) 1e-16 (screen (n, l1, l2)) st.2
      let t ← wr st.1 (D2 * D * l1 + D * l2 + n) q.1
      .ok (t, q.2.2))
    (fun j st => ∃ k', GridOk f 31 k' st.2 ∧ st.1.length = D1 * D2 * D ∧
      ∀ l1 l2 n, l1 < j → l2 < D2 → n < D → st.1[D2 * D * l1 + D * l2 + n]? =
        some (radialValue f 31 1e-16 (screen (n, l1, l2)) (n, l1, l2)))
    ⟨0, hg, by simp, fun l1 _ _ hl => absurd hl (Nat.not_lt_zero _)⟩ (by
      rintro l1 ⟨t1, g1⟩ hl1 ⟨k1, a1, a2, a3⟩
      refine forRange_spec (fun j st => ∃ k', GridOk f 31 k' st.2 ∧ st.1.length = D1 * D2 * D ∧
        (∀ l1' l2 n, l1' < l1 → l2 < D2 → n < D → st.1[D2 * D * l1' + D * l2 + n]? =
          some (radialValue f 31 1e-16 (screen (n, l1', l2)) (n, l1', l2))) ∧
        ∀ l2 n, l2 < j → n < D → st.1[D2 * D * l1 + D * l2 + n]? =
          some (radialValue f 31 1e-16 (screen (n, l1, l2)) (n, l1, l2)))
        ⟨k1, a1, a2, a3, fun l2 _ hl => absurd hl (Nat.not_lt_zero _)⟩ ?_ ?_
      · rintro l2 ⟨t2, g2⟩ hl2 ⟨k2, b1, b2, b3, b4⟩
        have b2 : t2.length = D1 * D2 * D := b2
        have hrow : l1 * D2 + l2 < D1 * D2 := rowMajor_lt hl1 hl2
        have hb : D2 * D * l1 + D * l2 + D ≤ t2.length := by
          rw [b2]
          have := Nat.mul_le_mul_right D (Nat.succ_le_of_lt hrow)
          have e : (l1 * D2 + l2).succ * D = D2 * D * l1 + D * l2 + D := by
            rw [Nat.succ_mul]; ring
          omega
        obtain ⟨t3, g3, k3, e3, c1, c2, c3, c4⟩ := store_row f 31 hm 1e-16 screen (fun n => (n, l1, l2))
          (D2 * D * l1 + D * l2) D t2 k2 g2 b1 hb
        have before : ∀ r n, r < l1 * D2 + l2 → n < D → r * D + n < D2 * D * l1 + D * l2 := by
          intro r n hr hn
          have h1 : r * D + D ≤ (l1 * D2 + l2) * D := by
            rw [← Nat.succ_mul]; exact Nat.mul_le_mul_right D hr
          have h2 : (l1 * D2 + l2) * D = D2 * D * l1 + D * l2 := by ring
          omega
        refine ⟨(t3, g3), e3, k3, c1, c2.trans b2, ?_, ?_⟩
        · intro l1' l2' n h1' h2' h3'
          show t3[_]? = _
          have hr : l1' * D2 + l2' < l1 * D2 + l2 := by
            have := Nat.mul_le_mul_right D2 (Nat.succ_le_of_lt h1')
            rw [Nat.succ_mul] at this
            omega
          rw [c4 _ (Or.inl (by rw [pos]; exact before _ n hr h3'))]
          exact b3 l1' l2' n h1' h2' h3'
        · intro l2' n h2' h3'
          show t3[_]? = _
          by_cases hll : l2' = l2
          · subst hll; exact c3 n h3'
          · rw [c4 _ (Or.inl (by rw [pos]; exact before _ n (by omega) h3'))]
            exact b4 l2' n (by omega) h3'
      · rintro ⟨t2, g2⟩ ⟨k2, b1, b2, b3, b4⟩
        refine ⟨k2, b1, b2, ?_⟩
        intro l1' l2 n h1' h2' h3'
        by_cases hll : l1' = l1
        · subst hll; exact b4 l2 n h2' h3'
        · exact b3 l1' l2 n (by omega) h2' h3')
  refine ⟨t, by rw [e]; rfl, fun l1 l2 n hl1 hl2 hn => h3 l1 l2 n (by omega) (by omega) (by omega)⟩

end Libgrpp
