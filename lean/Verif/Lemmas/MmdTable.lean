import Verif.Model.Mmd
import Verif.Lemmas.Hermite
import Verif.Lemmas.OneElectron

/-! What the table-filling loops of the McMurchie-Davidson routines compute. -/

namespace Libgrpp

theorem eGet_ok {E : Tab4} {c i j t : Nat} {v : ℝ} (hc : c < 3) (hi : i < 10) (hj : j < 10) (ht : t < 20)
    (h : E c i j t = some v) : eGet E c i j t = .ok v := by
  simp [eGet, maxBasisL, hc, hi, hj, ht, h]

theorem eSet_ok {E : Tab4} {c i j t : Nat} (v : ℝ) (hc : c < 3) (hi : i < 10) (hj : j < 10) (ht : t < 20) :
    eSet E c i j t v = .ok fun c' i' j' t' => if c' = c ∧ i' = i ∧ j' = j ∧ t' = t then some v else E c' i' j' t' := by
  simp [eSet, maxBasisL, hc, hi, hj, ht]

theorem eSet_ub {E : Tab4} {c i j t : Nat} (v : ℝ) (h : ¬ (i < 10 ∧ j < 10)) : eSet E c i j t v = .ub := by
  unfold eSet maxBasisL
  rw [if_neg (by omega)]

theorem rGet_ok {R : Tab4} {t u v n : Nat} {x : ℝ} (ht : t < 20) (hu : u < 20) (hv : v < 20) (hn : n < 20)
    (h : R t u v n = some x) : rGet R t u v n = .ok x := by
  simp [rGet, maxBasisL, ht, hu, hv, hn, h]

theorem rSet_ok {R : Tab4} {t u v n : Nat} (x : ℝ) (ht : t < 20) (hu : u < 20) (hv : v < 20) (hn : n < 20) :
    rSet R t u v n x = .ok fun t' u' v' n' => if t' = t ∧ u' = u ∧ v' = v ∧ n' = n then some x else R t' u' v' n' := by
  simp [rSet, maxBasisL, ht, hu, hv, hn]

/-! ## Expansion coefficients -/

/-- `E^{ij}_t` for coordinate `c`. -/
noncomputable def eVal (d : Mmd) (c : Fin 3) (i j t : Nat) : ℝ :=
  hermE d.q (d.Q c - d.A c) (d.Q c - d.B c) (d.K c) i j t

/-- All elements before `(c, i, j, t)` in the order of the loops are filled. -/
def EFilled (d : Mmd) (LA LB : Nat) (E : Tab4) (c i j t : Nat) : Prop :=
  ∀ (c' : Fin 3) (i' j' t' : Nat), i' ≤ LA → j' ≤ LB → t' ≤ i' + j' →
    (c'.val < c ∨ (c'.val = c ∧ (i' < i ∨ (i' = i ∧ (j' < j ∨ (j' = j ∧ t' < t)))))) →
    E c' i' j' t' = some (eVal d c' i' j' t')

theorem EFilled.set {d : Mmd} {LA LB : Nat} {E : Tab4} {c : Fin 3} {i j t : Nat} (h : EFilled d LA LB E c.val i j t) :
    EFilled d LA LB (fun c' i' j' t' => if c' = c.val ∧ i' = i ∧ j' = j ∧ t' = t then some (eVal d c i j t)
      else E c' i' j' t') c.val i j (t + 1) := by
  intro c' i' j' t' h1 h2 h3 h4
  beta_reduce
  by_cases hh : c'.val = c.val ∧ i' = i ∧ j' = j ∧ t' = t
  · rw [if_pos hh]
    obtain ⟨hc, rfl, rfl, rfl⟩ := hh
    rw [Fin.ext hc]
  · rw [if_neg hh]
    exact h c' i' j' t' h1 h2 h3 (by omega)

/-- With every earlier element in place, a step stores the right coefficient. -/
theorem eStep_eq (d : Mmd) (hq : d.q ≠ 0) (LA LB : Nat) (E : Tab4) (c : Fin 3) (i j t : Nat)
    (hi : i ≤ LA) (hj : j ≤ LB) (ht : t ≤ i + j) (hb : (i ≤ 10 ∧ j < 10) ∨ (i = 0 ∧ j ≤ 10))
    (h : EFilled d LA LB E c.val i j t) :
    eStep d c i j t E = eSet E c.val i j t (eVal d c i j t) := by
  have get : ∀ i' j' t', i' ≤ LA → j' ≤ LB → t' ≤ i' + j' → i' < 10 → j' < 10 →
      (i' < i ∨ (i' = i ∧ (j' < j ∨ (j' = j ∧ t' < t)))) → eGet E c.val i' j' t' = .ok (eVal d c i' j' t') :=
    fun i' j' t' h1 h2 h3 h4 h5 h6 => eGet_ok c.isLt h4 h5 (by omega) (h c i' j' t' h1 h2 h3 (Or.inr ⟨rfl, h6⟩))
  unfold eStep
  rcases Nat.eq_zero_or_pos t with rfl | htp
  · rw [if_pos rfl]
    by_cases h00 : i = 0 ∧ j = 0
    · obtain ⟨rfl, rfl⟩ := h00
      rw [if_pos ⟨rfl, rfl⟩]
      simp [eVal, hermE]
    rw [if_neg h00]
    by_cases h10 : i = 1 ∧ j = 0
    · obtain ⟨rfl, rfl⟩ := h10
      rw [if_pos ⟨rfl, rfl⟩, get 0 0 0 (by omega) (by omega) (by omega) (by omega) (by omega) (by omega)]
      simp only [Outcome.ok_bind]
      congr 1
      unfold eVal
      rw [hermE_succ_left]
      simp [raiseOp, hermE]
    rw [if_neg h10]
    by_cases h01 : i = 0 ∧ j = 1
    · obtain ⟨rfl, rfl⟩ := h01
      rw [if_pos ⟨rfl, rfl⟩, get 0 0 0 (by omega) (by omega) (by omega) (by omega) (by omega) (by omega)]
      simp only [Outcome.ok_bind]
      congr 1
      unfold eVal
      rw [hermE_succ_right]
      simp [raiseOp, hermE]
    rw [if_neg h01]
    by_cases hi0 : i = 0
    · subst hi0
      rw [if_pos rfl, get 0 (j - 1) 0 (by omega) (by omega) (by omega) (by omega) (by omega) (by omega),
        get 0 (j - 1) 1 (by omega) (by omega) (by omega) (by omega) (by omega) (by omega)]
      simp only [Outcome.ok_bind]
      congr 1
      obtain ⟨j, rfl⟩ : ∃ j', j = j' + 1 := ⟨j - 1, by omega⟩
      unfold eVal
      rw [hermE_succ_right]
      simp [raiseOp]
    · rw [if_neg hi0, get (i - 1) j 0 (by omega) (by omega) (by omega) (by omega) (by omega) (by omega),
        get (i - 1) j 1 (by omega) (by omega) (by omega) (by omega) (by omega) (by omega)]
      simp only [Outcome.ok_bind]
      congr 1
      obtain ⟨i, rfl⟩ : ∃ i', i = i' + 1 := ⟨i - 1, by omega⟩
      unfold eVal
      rw [hermE_succ_left]
      simp [raiseOp]
  · rw [if_neg (by omega)]
    obtain ⟨t, rfl⟩ : ∃ t', t = t' + 1 := ⟨t - 1, by omega⟩
    have key := hermE_lower hq (d.Q c - d.A c) (d.Q c - d.B c) (d.K c) i j t
    have val : eVal d c i j (t + 1) = 1 / (2 * d.q * (((t + 1 : ℕ) : ℕ) : ℝ)) * (i : ℝ) * eVal d c (i - 1) j t +
        1 / (2 * d.q * (((t + 1 : ℕ) : ℕ) : ℝ)) * (j : ℝ) * eVal d c i (j - 1) t := by
      unfold eVal
      have ht1 : ((t : ℝ) + 1) ≠ 0 := by positivity
      push_cast
      field_simp
      linear_combination key
    -- lowered elements are in range or carry a zero factor
    have g1 : 0 < i → eGet E c.val (i - 1) j t = .ok (eVal d c (i - 1) j t) := fun hp => by
      by_cases hb' : t ≤ i - 1 + j
      · exact get (i - 1) j t (by omega) (by omega) hb' (by omega) (by omega) (by omega)
      · omega
    have g2 : 0 < j → eGet E c.val i (j - 1) t = .ok (eVal d c i (j - 1) t) ∨ ¬ i < 10 := fun hp => by
      by_cases hi' : i < 10
      · exact Or.inl (get i (j - 1) t (by omega) (by omega) (by omega) hi' (by omega) (by omega))
      · exact Or.inr hi'
    simp only [Nat.add_sub_cancel]
    rcases Nat.eq_zero_or_pos i with rfl | hip <;> rcases Nat.eq_zero_or_pos j with rfl | hjp
    · omega
    · rw [if_neg (by omega)]
      simp only [Outcome.ok_bind]
      rw [if_pos hjp]
      rcases g2 hjp with g | g
      · rw [g]
        simp only [Outcome.ok_bind]
        rw [val]; simp
      · omega
    · rw [if_pos hip, g1 hip]
      simp only [Outcome.ok_bind]
      rw [if_neg (by omega), val]
      simp
    · rw [if_pos hip, g1 hip]
      simp only [Outcome.ok_bind]
      rw [if_pos hjp]
      rcases g2 hjp with g | g
      · rw [g]
        simp only [Outcome.ok_bind]
        rw [val]; simp
      · rw [eSet_ub _ (by omega)]
        unfold eGet maxBasisL
        rw [if_neg (by omega)]
        rfl

theorem setupE_spec (d : Mmd) (hq : d.q ≠ 0) (LA LB : Nat) (hA : LA ≤ 9) (hB : LB ≤ 9) :
    ∃ E, setupE d LA LB = .ok E ∧ ∀ (c : Fin 3) (i j t : Nat), i ≤ LA → j ≤ LB → t ≤ i + j →
      E c.val i j t = some (eVal d c i j t) := by
  unfold setupE
  refine forCoord_spec (fun c E => EFilled d LA LB E c 0 0 0) ?_ ?_ ?_
  · intro c' i' j' t' _ _ _ h; omega
  · intro c E hE
    refine forRange_spec (fun i E => EFilled d LA LB E c.val i 0 0) hE ?_ ?_
    · intro i E hi hE
      refine forRange_spec (fun j E => EFilled d LA LB E c.val i j 0) hE ?_ ?_
      · intro j E hj hE
        refine forRange_spec (fun t E => EFilled d LA LB E c.val i j t) hE ?_ ?_
        · intro t E ht hE
          rw [eStep_eq d hq LA LB E c i j t (by omega) (by omega) (by omega) (by omega) hE,
            eSet_ok _ c.isLt (by omega) (by omega) (by omega)]
          exact ⟨_, rfl, hE.set⟩
        · intro E hE c' i' j' t' h1 h2 h3 h4
          exact hE c' i' j' t' h1 h2 h3 (by omega)
      · intro E hE c' i' j' t' h1 h2 h3 h4
        exact hE c' i' j' t' h1 h2 h3 (by omega)
    · intro E hE c' i' j' t' h1 h2 h3 h4
      exact hE c' i' j' t' h1 h2 h3 (by omega)
  · intro E hE c i j t h1 h2 h3
    exact hE c i j t h1 h2 h3 (Or.inl c.isLt)

/-- With an angular momentum of ten or more, the table does not fit. -/
theorem setupE_ub (d : Mmd) (hq : d.q ≠ 0) (LA LB : Nat) (h : 10 ≤ LA ∨ 10 ≤ LB) : setupE d LA LB = .ub := by
  have h0 : EFilled d LA LB (fun _ _ _ _ => none) 0 0 0 0 := by intro c' i' j' t' _ _ _ h; omega
  unfold setupE
  apply forCoord_ub0
  have row : ∀ i j E, i < LA + 1 → j < LB + 1 → i < 10 → j < 10 → EFilled d LA LB E 0 i j 0 →
      ∃ E', (forRange (i + j + 1) E fun t E => eStep d 0 i j t E) = .ok E' ∧ EFilled d LA LB E' 0 i (j + 1) 0 := by
    intro i j E hi hj hi' hj' hE
    refine forRange_spec (fun t E => EFilled d LA LB E 0 i j t) hE ?_ ?_
    · intro t E ht hE
      rw [eStep_eq d hq LA LB E 0 i j t (by omega) (by omega) (by omega) (by omega) hE,
        eSet_ok _ (Fin.isLt 0) (by omega) (by omega) (by omega)]
      exact ⟨_, rfl, hE.set (c := 0)⟩
    · intro E hE c' i' j' t' h1 h2 h3 h4
      exact hE c' i' j' t' h1 h2 h3 (by omega)
  by_cases hj : 10 ≤ LB
  · apply forRange_ub (k := 0) (fun i E => EFilled d LA LB E 0 i 0 0) (by omega) h0 (by intro i s hi; omega)
    intro E hE
    apply forRange_ub (k := 10) (fun j E => EFilled d LA LB E 0 0 j 0) (by omega) hE
    · intro j E hj' hE
      exact row 0 j E (by omega) (by omega) (by omega) hj' hE
    · intro E hE
      apply forRange_ub (k := 0) (fun t E => EFilled d LA LB E 0 0 10 t) (by omega) hE (by intro i s hi; omega)
      intro E hE
      rw [eStep_eq d hq LA LB E 0 0 10 0 (by omega) (by omega) (by omega) (by omega) hE]
      exact eSet_ub _ (by omega)
  · apply forRange_ub (k := 10) (fun i E => EFilled d LA LB E 0 i 0 0) (by omega) h0
    · intro i E hi hE
      refine forRange_spec (fun j E => EFilled d LA LB E 0 i j 0) hE ?_ ?_
      · intro j E hj' hE
        exact row i j E (by omega) hj' (by omega) (by omega) hE
      · intro E hE c' i' j' t' h1 h2 h3 h4
        exact hE c' i' j' t' h1 h2 h3 (by omega)
    · intro E hE
      apply forRange_ub (k := 0) (fun j E => EFilled d LA LB E 0 10 j 0) (by omega) hE (by intro i s hi; omega)
      intro E hE
      apply forRange_ub (k := 0) (fun t E => EFilled d LA LB E 0 10 0 t) (by omega) hE (by intro i s hi; omega)
      intro E hE
      rw [eStep_eq d hq LA LB E 0 10 0 0 (by omega) (by omega) (by omega) (by omega) hE]
      exact eSet_ub _ (by omega)

/-! ## Hermite integrals -/

/-- `L_{t+1} = X·T L_t + t·T L_{t-1}` with `(T s)_n = s_{n+1} + κ s_n`. -/
noncomputable def ladder (κ X : ℝ) (s : ℕ → ℝ) : ℕ → ℕ → ℝ
  | 0 => s
  | t + 1 => fun n => X * (ladder κ X s t (n + 1) + κ * ladder κ X s t n) +
      (t : ℝ) * (ladder κ X s (t - 1) (n + 1) + κ * ladder κ X s (t - 1) n)
termination_by t => t
decreasing_by all_goals simp_wf; try omega

theorem ladder_zero (κ X : ℝ) (s : ℕ → ℝ) : ladder κ X s 0 = s := by rw [ladder]

theorem ladder_succ (κ X : ℝ) (s : ℕ → ℝ) (t n : ℕ) : ladder κ X s (t + 1) n =
    X * (ladder κ X s t (n + 1) + κ * ladder κ X s t n) +
      (t : ℝ) * (ladder κ X s (t - 1) (n + 1) + κ * ladder κ X s (t - 1) n) := by rw [ladder]

/-- `R^n_{tuv}` for given starting values. -/
noncomputable def rSol (base κ : ℝ) (X : Fin 3 → ℝ) (b : ℕ → ℝ) (t u v n : ℕ) : ℝ :=
  ladder κ (X 0) (ladder κ (X 1) (ladder κ (X 2) (fun n => base ^ n * b n) v) u) t n

/-- What `rLower` and `gLower` have in common. -/
def LowersBy (lower : ℝ → Nat → Nat → (Nat → Nat → Outcome ℝ) → Outcome ℝ) (κ : ℝ) : Prop :=
  ∀ (X : ℝ) (k n : Nat) (get : Nat → Nat → Outcome ℝ) (f : ℕ → ℕ → ℝ),
    (∀ k' n', k' ≤ k → (k' = k ∨ k' + 1 = k) → (n' = n ∨ n' = n + 1) → get k' n' = .ok (f k' n')) →
    lower X (k + 1) n get = .ok (X * (f k (n + 1) + κ * f k n) + (k : ℝ) * (f (k - 1) (n + 1) + κ * f (k - 1) n))

theorem rLower_lowersBy : LowersBy rLower 0 := by
  intro X k n get f h
  unfold rLower
  rcases Nat.eq_zero_or_pos k with rfl | hk
  · rw [if_neg (by omega)]
    simp only [Outcome.ok_bind, Nat.add_sub_cancel]
    rw [h 0 (n + 1) (by omega) (by omega) (by omega)]
    simp
  · rw [if_pos (by omega), show k + 1 - 2 = k - 1 by omega, h (k - 1) (n + 1) (by omega) (by omega) (by omega)]
    simp only [Outcome.ok_bind, Nat.add_sub_cancel]
    rw [h k (n + 1) (by omega) (by omega) (by omega)]
    simp only [Outcome.ok_bind]
    congr 1
    push_cast; ring

theorem gLower_lowersBy (q : ℝ) : LowersBy (gLower q) (-2 * q) := by
  intro X k n get f h
  unfold gLower
  rcases Nat.eq_zero_or_pos k with rfl | hk
  · rw [if_neg (by omega)]
    simp only [Outcome.ok_bind, Nat.add_sub_cancel]
    rw [h 0 (n + 1) (by omega) (by omega) (by omega), h 0 n (by omega) (by omega) (by omega)]
    simp only [Outcome.ok_bind]
    congr 1
    push_cast; ring
  · rw [if_pos (by omega), show k + 1 - 2 = k - 1 by omega, h (k - 1) (n + 1) (by omega) (by omega) (by omega),
      h (k - 1) n (by omega) (by omega) (by omega)]
    simp only [Outcome.ok_bind, Nat.add_sub_cancel]
    rw [h k (n + 1) (by omega) (by omega) (by omega), h k n (by omega) (by omega) (by omega)]
    simp only [Outcome.ok_bind]
    congr 1
    push_cast; ring

/-- All elements before `(t, u, v, n)` in the order of the loops are filled. -/
def RFilled (val : ℕ → ℕ → ℕ → ℕ → ℝ) (L : Nat) (R : Tab4) (t u v n : Nat) : Prop :=
  ∀ t' u' v' n', t' + u' + v' + n' ≤ L →
    (t' < t ∨ (t' = t ∧ (u' < u ∨ (u' = u ∧ (v' < v ∨ (v' = v ∧ n' < n)))))) → R t' u' v' n' = some (val t' u' v' n')

theorem setupRG_spec (lower : ℝ → Nat → Nat → (Nat → Nat → Outcome ℝ) → Outcome ℝ) (base κ : ℝ) (hl : LowersBy lower κ)
    (d : Mmd) (LA LB : Nat) (hL : LA + LB ≤ 19) (b : Aux) (bv : ℕ → ℝ) (hb : ∀ n ≤ LA + LB, b n = some (bv n)) :
    ∃ R, setupRG lower base d LA LB b = .ok R ∧ ∀ t u v n, t + u + v + n ≤ LA + LB →
      R t u v n = some (rSol base κ (fun c => d.Q c - d.C c) bv t u v n) := by
  unfold setupRG
  generalize hval : rSol base κ (fun c => d.Q c - d.C c) bv = val
  refine forRange_spec (fun t R => RFilled val (LA + LB) R t 0 0 0) (by intro t' u' v' n' _ h; omega) ?_ ?_
  · intro t R ht hR
    refine forRange_spec (fun u R => RFilled val (LA + LB) R t u 0 0) hR ?_ ?_
    · intro u R hu hR
      refine forRange_spec (fun v R => RFilled val (LA + LB) R t u v 0) hR ?_ ?_
      · intro v R hv hR
        by_cases hbig : t + u + v > LA + LB
        · rw [if_pos hbig]
          refine ⟨R, rfl, ?_⟩
          intro t' u' v' n' h1 h2
          exact hR t' u' v' n' h1 (by omega)
        rw [if_neg hbig]
        refine forRange_spec (fun n R => RFilled val (LA + LB) R t u v n) hR ?_ ?_
        · intro n R hn hR
          have get : ∀ t' u' v' n', t' + u' + v' + n' ≤ LA + LB →
              (t' < t ∨ (t' = t ∧ (u' < u ∨ (u' = u ∧ v' < v)))) → rGet R t' u' v' n' = .ok (val t' u' v' n') :=
            fun t' u' v' n' h1 h2 => rGet_ok (by omega) (by omega) (by omega) (by omega)
              (hR t' u' v' n' h1 (by omega))
          have hx : rValue lower base d b t u v n R = .ok (val t u v n) := by
            unfold rValue
            by_cases h0 : t + u + v = 0
            · rw [if_pos h0]
              obtain ⟨rfl, rfl, rfl⟩ : t = 0 ∧ u = 0 ∧ v = 0 := by omega
              have : auxGet b n = .ok (bv n) := by
                unfold auxGet
                rw [if_pos (by omega), hb n (by omega)]
              rw [this]
              simp only [Outcome.ok_bind]
              rw [← hval]
              unfold rSol
              rw [ladder_zero, ladder_zero, ladder_zero]
            rw [if_neg h0]
            by_cases h1 : t + u = 0
            · rw [if_pos h1]
              obtain ⟨rfl, rfl⟩ : t = 0 ∧ u = 0 := by omega
              obtain ⟨v, rfl⟩ : ∃ v', v = v' + 1 := ⟨v - 1, by omega⟩
              rw [hl _ v n _ (fun k n => val 0 0 k n) (fun k' n' h2 h3 h4 => get 0 0 k' n' (by omega) (by omega))]
              rw [← hval]
              unfold rSol
              simp only [ladder_zero]
              rw [ladder_succ]
            rw [if_neg h1]
            by_cases h2 : t = 0
            · rw [if_pos h2]
              subst h2
              obtain ⟨u, rfl⟩ : ∃ u', u = u' + 1 := ⟨u - 1, by omega⟩
              rw [hl _ u n _ (fun k n => val 0 k v n) (fun k' n' h2 h3 h4 => get 0 k' v n' (by omega) (by omega))]
              rw [← hval]
              unfold rSol
              simp only [ladder_zero]
              rw [ladder_succ]
            · rw [if_neg h2]
              obtain ⟨t, rfl⟩ : ∃ t', t = t' + 1 := ⟨t - 1, by omega⟩
              rw [hl _ t n _ (fun k n => val k u v n) (fun k' n' h2 h3 h4 => get k' u v n' (by omega) (by omega))]
              rw [← hval]
              unfold rSol
              rw [ladder_succ]
          rw [hx]
          simp only [Outcome.ok_bind]
          rw [rSet_ok _ (by omega) (by omega) (by omega) (by omega)]
          refine ⟨_, rfl, ?_⟩
          intro t' u' v' n' h1 h2
          beta_reduce
          by_cases hh : t' = t ∧ u' = u ∧ v' = v ∧ n' = n
          · rw [if_pos hh]
            obtain ⟨rfl, rfl, rfl, rfl⟩ := hh
            rfl
          · rw [if_neg hh]
            exact hR t' u' v' n' h1 (by omega)
        · intro R hR t' u' v' n' h1 h2
          exact hR t' u' v' n' h1 (by omega)
      · intro R hR t' u' v' n' h1 h2
        exact hR t' u' v' n' h1 (by omega)
    · intro R hR t' u' v' n' h1 h2
      exact hR t' u' v' n' h1 (by omega)
  · intro R hR t u v n h
    exact hR t u v n h (by omega)

end Libgrpp
