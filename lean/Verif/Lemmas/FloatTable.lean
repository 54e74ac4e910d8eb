import Verif.Lemmas.Float
import Verif.Lemmas.GaussianIntegral
import Mathlib.Analysis.Complex.ExponentialBounds

/-! # Auxiliary lemmas for Props/Float: the tables of one-dimensional integrals -/

namespace Libgrpp

open MeasureTheory Polynomial

/-- Like `FilledTo`, with a property instead of a value for each element. -/
def FilledQ (S : Table) (Q : Fin 3 → Nat → Nat → ℝ → Prop) (iMax jMax : Nat) (c i j : Nat) : Prop :=
  ∀ (c' : Fin 3) (i' j' : Nat), i' ≤ iMax → j' ≤ jMax →
    (c'.val < c ∨ (c'.val = c ∧ (i' < i ∨ (i' = i ∧ j' < j)))) → ∃ v, S c' i' j' = some v ∧ Q c' i' j' v

theorem filledQ_set {S : Table} {Q : Fin 3 → Nat → Nat → ℝ → Prop} {iMax jMax : Nat} {c : Fin 3} {i j : Nat}
    (hS : FilledQ S Q iMax jMax c.val i j) {v : ℝ} (hv : Q c i j v) :
    FilledQ (fun c' i' j' => if c' = c ∧ i' = i ∧ j' = j then some v else S c' i' j') Q iMax jMax c.val i (j + 1) := by
  intro c' i' j' h1 h2 h3
  by_cases h : c' = c ∧ i' = i ∧ j' = j
  · obtain ⟨rfl, rfl, rfl⟩ := h
    exact ⟨v, by simp, hv⟩
  · simp only [if_neg h]
    apply hS c' i' j' h1 h2
    rcases h3 with h3 | ⟨h3, h4⟩
    · exact Or.inl h3
    · refine Or.inr ⟨h3, ?_⟩
      have hc : c' = c := Fin.ext h3
      rcases h4 with h4 | ⟨h4, h5⟩
      · exact Or.inl h4
      · refine Or.inr ⟨h4, ?_⟩
        rcases Nat.lt_succ_iff_lt_or_eq.mp h5 with h6 | h6
        · exact h6
        · exact absurd ⟨hc, h4, h6⟩ h

theorem orTrap_tset {d : Nat} {S : Table} {Q : Fin 3 → Nat → Nat → ℝ → Prop} {iMax jMax : Nat} {c : Fin 3} {i j : Nat}
    (hi : i < d) (hj : j < d) (hS : FilledQ S Q iMax jMax c.val i j) {v : ℝ} (hv : Q c i j v) :
    OrTrap (tset d S c i j v) fun S' => FilledQ S' Q iMax jMax c.val i (j + 1) := by
  rw [tset_ok S c v hi hj]
  exact .ok (filledQ_set hS hv)

/-- The two inner loops. -/
theorem fill_rows (iMax jMax : Nat) (Q : Fin 3 → Nat → Nat → ℝ → Prop) (c : Fin 3) (body : Nat → Nat → Table → Outcome Table)
    (hbody : ∀ i j S, i ≤ iMax → j ≤ jMax → FilledQ S Q iMax jMax c.val i j →
      OrTrap (body i j S) fun S' => FilledQ S' Q iMax jMax c.val i (j + 1)) (S : Table) (hS : FilledQ S Q iMax jMax c.val 0 0) :
    OrTrap (forRange (iMax + 1) S fun i S => forRange (jMax + 1) S fun j S => body i j S)
      fun S' => FilledQ S' Q iMax jMax (c.val + 1) 0 0 := by
  refine orTrap_forRange (fun i S => FilledQ S Q iMax jMax c.val i 0) hS ?_ ?_
  · intro i S hi hS
    refine orTrap_forRange (fun j S => FilledQ S Q iMax jMax c.val i j) hS (fun j S hj hS => hbody i j S (by omega) (by omega) hS) ?_
    intro S hS c' i' j' h1 h2 h3
    exact hS c' i' j' h1 h2 (by omega)
  · intro S hS c' i' j' h1 h2 h3
    exact hS c' i' j' h1 h2 (by omega)

theorem filledQ_uninit (Q : Fin 3 → Nat → Nat → ℝ → Prop) (iMax jMax : Nat) : FilledQ Table.uninit Q iMax jMax 0 0 0 := by
  intro c' i' j' _ _ h
  omega

theorem FilledQ.get {S : Table} {Q : Fin 3 → Nat → Nat → ℝ → Prop} {iMax jMax c i j d : Nat} (h : FilledQ S Q iMax jMax c i j) (c' : Fin 3)
    {i' j' : Nat} (h1 : i' ≤ iMax) (h2 : j' ≤ jMax) (h3 : c'.val < c ∨ (c'.val = c ∧ (i' < i ∨ (i' = i ∧ j' < j)))) (hi : i' < d) (hj : j' < d) :
    OrTrap (tget d S c' i' j') (Q c' i' j') := by
  obtain ⟨v, e, hv⟩ := h c' i' j' h1 h2 h3
  rw [tget_ok hi hj e]
  exact .ok hv

section
variable {F : Arith} {w z : ℝ} (hF : F.Acc w z)
include hF

/-- `acc += k * pfac * s`. -/
theorem flTerm (k : ℕ) {pfac P s x T acc y a e : ℝ} (hP : Near (3 * w) pfac P) (hP0 : 0 < P) (hs : Close e s x T)
    (ha : Close (e + 5 * w) acc y a) :
    OrTrap (do
      let t ← F.mul (k : ℝ) pfac
      let t ← F.mul t s
      F.add acc t) fun v => Close (e + 6 * w) v (y + k * P * x) (a + k * P * T) := by
  have hw := hF.nonneg
  refine (hF.mulN (Near.refl le_rfl (k : ℝ)) hP).bind fun t ht => ?_
  have ht := ht.close (a := k * P) (by rw [abs_of_nonneg (by positivity)])
  refine (hF.mulC ht hs).bind fun t' ht' => ?_
  exact (hF.addC ha (ht'.mono (by linarith))).mono fun v hv => hv.mono (by linarith)

/-- Error exponent of the table. -/
noncomputable def tabExp (w z θ : ℝ) (n : Nat) : ℝ := (4 + 8 * θ + 9 * n) * w + z

omit hF in
theorem tabExp_succ (w z θ : ℝ) (n : Nat) : tabExp w z θ (n + 1) = tabExp w z θ n + 9 * w := by
  unfold tabExp
  push_cast
  ring

theorem flOsStep_ok (hw1 : w ≤ 1 / 49) (d iMax jMax : Nat) (hid : iMax < d) (hjd : jMax < d) (c : Fin 3) {p p' mu mu' xab xab' xpa xpa' xpb xpb' sa sb P P' θ : ℝ}
    (hp : Near w p' p) (hp0 : 0 < p) (hmu : Near (3 * w) mu' mu) (hmu0 : 0 ≤ mu) (hxab : Near w xab' xab) (hθ : mu * xab ^ 2 = θ)
    (hxpa : Close (5 * w) xpa' xpa sa) (hxpb : Close (5 * w) xpb' xpb sb) (hP : Near (3 * w) P' P) (hP0 : 0 < P)
    (f T : Nat → Nat → ℝ) (hf : OSRel f (Real.sqrt (Real.pi / p) * Real.exp (-mu * xab * xab)) xpa xpb P)
    (hT : OSRel T (Real.sqrt (Real.pi / p) * Real.exp (-mu * xab * xab)) sa sb P)
    (Q : Fin 3 → Nat → Nat → ℝ → Prop) (hQ : ∀ i j v, Q c i j v ↔ Close (tabExp w z θ (i + j)) v (f i j) (T i j))
    (i j : Nat) (S : Table) (hi : i ≤ iMax) (hj : j ≤ jMax) (hS : FilledQ S Q iMax jMax c.val i j) :
    OrTrap (flOsStep F d c p' mu' xab' xpa' xpb' P' i j S) fun S' => FilledQ S' Q iMax jMax c.val i (j + 1) := by
  have hw := hF.nonneg
  have hz := hF.nonneg'
  have hθ0 : 0 ≤ θ := hθ ▸ mul_nonneg hmu0 (sq_nonneg _)
  unfold flOsStep
  by_cases hij : i + j = 0
  · rw [if_pos hij]
    obtain rfl : i = 0 := by omega
    obtain rfl : j = 0 := by omega
    have hq0 : 0 < Real.pi / p := div_pos Real.pi_pos hp0
    refine (hF.divN hF.pi hp hp0).bind fun q hq => ?_
    refine (hF.sqrt q (hq.pos hq0).le).bind fun s hs => ?_
    have hs := hs.trans (hq.sqrt hq0)
    refine (hF.mulN hmu.neg hxab).bind fun x1 h1 => ?_
    refine (hF.mulN h1 hxab).bind fun x2 h2 => ?_
    refine (hF.exp x2).bind fun ex he => ?_
    have h2' : Near (7 * w) x2 (-mu * xab * xab) := h2.mono (by linarith)
    have hb : |(-mu * xab * xab)| ≤ θ := by
      rw [show -mu * xab * xab = -(mu * xab ^ 2) by ring, hθ, abs_neg, abs_of_nonneg hθ0]
    have he := he.trans (h2'.exp (by linarith) hb)
    refine (hF.mulN hs he).bind fun v hv => ?_
    refine orTrap_tset (by omega) (by omega) hS ((hQ 0 0 v).2 ?_)
    have e1 : Real.exp (7 * w) - 1 ≤ 8 * w := by
      have := Real.abs_exp_sub_one_sub_id_le (x := 7 * w) (by rw [abs_of_nonneg (by linarith)]; linarith)
      have := (abs_le.1 this).2
      nlinarith
    have e2 : θ * (Real.exp (7 * w) - 1) ≤ 8 * θ * w := by nlinarith
    have e3 : T 0 0 = f 0 0 := by rw [hT.zero, hf.zero]
    rw [e3, hf.zero]
    refine (hv.mono ?_).close ?_
    · unfold tabExp
      push_cast
      nlinarith
    · rw [abs_of_nonneg (by positivity)]
  rw [if_neg hij]
  by_cases hi0 : i = 0
  · subst hi0
    rw [if_pos rfl]
    obtain ⟨j, rfl⟩ : ∃ j', j = j' + 1 := ⟨j - 1, by omega⟩
    refine (hS.get c hi (j' := j + 1 - 1) (by omega) (by omega) (by omega) (by omega)).bind fun s1 h1 => ?_
    rw [hQ, Nat.add_sub_cancel] at h1
    refine (hF.mulC hxpb h1).bind fun t ht => ?_
    refine (hF.addC (Close.zero (by have := ht.nonneg; exact this)) ht).bind fun acc hacc => ?_
    have hacc' : Close (tabExp w z θ (0 + j) + 7 * w) acc (xpb * f 0 j) (sb * T 0 j) := by
      have := hacc.mono (e' := tabExp w z θ (0 + j) + 7 * w) (by linarith)
      rwa [zero_add (xpb * f 0 j), zero_add (sb * T 0 j)] at this
    rcases Nat.eq_zero_or_pos j with rfl | hj0
    · rw [if_neg (by omega)]
      refine orTrap_tset (by omega) (by omega) hS ((hQ _ _ _).2 ?_)
      rw [hf.right, hT.right]
      simp only [Nat.cast_zero, zero_mul, add_zero]
      refine hacc'.mono ?_
      rw [show 0 + (0 + 1) = (0 + 0) + 1 from rfl, tabExp_succ]
      linarith
    · rw [if_pos (by omega)]
      simp only [bind_assoc]
      refine (hS.get c hi (j' := j + 1 - 2) (by omega) (by omega) (by omega) (by omega)).bind fun s2 h2 => ?_
      rw [hQ] at h2
      have h2' : Close (tabExp w z θ (0 + j) + 2 * w) s2 (f 0 (j - 1)) (T 0 (j - 1)) := by
        rw [show j + 1 - 2 = j - 1 by omega] at h2
        refine h2.mono ?_
        have := tabExp_succ w z θ (0 + (j - 1))
        rw [show 0 + (j - 1) + 1 = 0 + j by omega] at this
        linarith
      have := flTerm hF j hP hP0 h2' (hacc'.mono (by linarith))
      simp only [Nat.add_sub_cancel]
      rw [← bind_assoc (m := Outcome) , ← bind_assoc (m := Outcome)]
      simp only [bind_assoc] at this ⊢
      refine OrTrap.bind (x := do
        let t ← F.mul (j : ℝ) P'
        let t ← F.mul t s2
        F.add acc t) this (k := fun v => tset d S c 0 (j + 1) v) ?_ |> fun h => by simpa only [bind_assoc] using h
      intro v hv
      refine orTrap_tset (by omega) (by omega) hS ((hQ _ _ _).2 ?_)
      rw [hf.right, hT.right]
      refine hv.mono ?_
      rw [show 0 + (j + 1) = (0 + j) + 1 from rfl, tabExp_succ]
      linarith
  · rw [if_neg hi0]
    obtain ⟨i, rfl⟩ : ∃ i', i = i' + 1 := ⟨i - 1, by omega⟩
    refine (hS.get c (i' := i + 1 - 1) (by omega) hj (by omega) (by omega) (by omega)).bind fun s1 h1 => ?_
    rw [hQ, Nat.add_sub_cancel] at h1
    refine (hF.mulC hxpa h1).bind fun t ht => ?_
    refine (hF.addC (Close.zero (by have := ht.nonneg; exact this)) ht).bind fun acc hacc => ?_
    have hacc' : Close (tabExp w z θ (i + j) + 7 * w) acc (xpa * f i j) (sa * T i j) := by
      have := hacc.mono (e' := tabExp w z θ (i + j) + 7 * w) (by linarith)
      rwa [zero_add (xpa * f i j), zero_add (sa * T i j)] at this
    have step2 : OrTrap (if i + 1 - 1 > 0 then do
        let s2 ← tget d S c (i + 1 - 2) j
        let t ← F.mul ((i + 1 - 1 : ℕ) : ℝ) P'
        let t ← F.mul t s2
        F.add acc t
      else .ok acc) fun v => Close (tabExp w z θ (i + j) + 8 * w) v (xpa * f i j + i * P * f (i - 1) j) (sa * T i j + i * P * T (i - 1) j) := by
      rcases Nat.eq_zero_or_pos i with rfl | hi'
      · rw [if_neg (by omega)]
        refine .ok ?_
        simp only [Nat.cast_zero, zero_mul, add_zero]
        exact hacc'.mono (by linarith)
      · rw [if_pos (by omega)]
        refine (hS.get c (i' := i + 1 - 2) (by omega) hj (by omega) (by omega) (by omega)).bind fun s2 h2 => ?_
        rw [hQ] at h2
        have h2' : Close (tabExp w z θ (i + j) + 2 * w) s2 (f (i - 1) j) (T (i - 1) j) := by
          rw [show i + 1 - 2 = i - 1 by omega] at h2
          refine h2.mono ?_
          have := tabExp_succ w z θ (i - 1 + j)
          rw [show i - 1 + j + 1 = i + j by omega] at this
          linarith
        have := flTerm hF i hP hP0 h2' (hacc'.mono (by linarith))
        simp only [Nat.add_sub_cancel]
        exact this.mono fun v hv => hv.mono (by linarith)
    have key : OrTrap ((if i + 1 - 1 > 0 then do
        let s2 ← tget d S c (i + 1 - 2) j
        let t ← F.mul ((i + 1 - 1 : ℕ) : ℝ) P'
        let t ← F.mul t s2
        F.add acc t
      else .ok acc) >>= fun acc2 => (if j > 0 then do
        let s3 ← tget d S c (i + 1 - 1) (j - 1)
        let t ← F.mul (j : ℝ) P'
        let t ← F.mul t s3
        F.add acc2 t
      else .ok acc2) >>= fun v => tset d S c (i + 1) j v) fun S' => FilledQ S' Q iMax jMax c.val (i + 1) (j + 1) := by
      refine step2.bind fun acc2 hacc2 => ?_
      have step3 : OrTrap (if j > 0 then do
          let s3 ← tget d S c (i + 1 - 1) (j - 1)
          let t ← F.mul (j : ℝ) P'
          let t ← F.mul t s3
          F.add acc2 t
        else .ok acc2) fun v => Close (tabExp w z θ (i + j) + 9 * w) v (f (i + 1) j) (T (i + 1) j) := by
        rw [hf.left, hT.left]
        rcases Nat.eq_zero_or_pos j with rfl | hj'
        · rw [if_neg (by omega)]
          refine .ok ?_
          simp only [Nat.cast_zero, zero_mul, add_zero]
          exact hacc2.mono (by simp only [add_zero]; linarith)
        · rw [if_pos (by omega)]
          refine (hS.get c (i' := i + 1 - 1) (j' := j - 1) (by omega) (by omega) (by omega) (by omega) (by omega)).bind fun s3 h3 => ?_
          rw [hQ, Nat.add_sub_cancel] at h3
          have h3' : Close (tabExp w z θ (i + j) + 3 * w) s3 (f i (j - 1)) (T i (j - 1)) := by
            refine h3.mono ?_
            have := tabExp_succ w z θ (i + (j - 1))
            rw [show i + (j - 1) + 1 = i + j by omega] at this
            linarith
          have := flTerm hF j hP hP0 h3' (hacc2.mono (by linarith))
          exact this.mono fun v hv => hv.mono (by linarith)
      refine step3.bind fun v hv => ?_
      refine orTrap_tset (by omega) (by omega) hS ((hQ _ _ _).2 ?_)
      refine hv.mono ?_
      rw [show i + 1 + j = (i + j) + 1 by omega, tabExp_succ]
    refine Eq.mp (congrArg (fun x => OrTrap x fun S' => FilledQ S' Q iMax jMax c.val (i + 1) (j + 1)) ?_) key
    by_cases h1 : i + 1 - 1 > 0 <;> by_cases h2 : j > 0 <;> simp only [h1, h2, if_true, if_false, bind_assoc] <;> rfl

end

/-! ## The majorant -/

/-- The integral with the distances of the centres replaced by `s` and `t`. -/
noncomputable def gaussMaj (p s t : ℝ) (i j : Nat) : ℝ := ∫ x : ℝ, (x + s) ^ i * (x + t) ^ j * Real.exp (-p * x ^ 2)

theorem integrable_gaussMaj {p : ℝ} (hp : 0 < p) (s t : ℝ) (i j : Nat) :
    Integrable fun x : ℝ => (x + s) ^ i * (x + t) ^ j * Real.exp (-p * x ^ 2) := by
  have := integrable_poly_gauss ((X + C s) ^ i * (X + C t) ^ j) hp
  simpa using this

theorem integrable_gaussMaj_x {p : ℝ} (hp : 0 < p) (s t : ℝ) (i j : Nat) :
    Integrable fun x : ℝ => x * ((x + s) ^ i * (x + t) ^ j * Real.exp (-p * x ^ 2)) := by
  have := integrable_poly_gauss (X * ((X + C s) ^ i * (X + C t) ^ j)) hp
  simpa [mul_assoc] using this

theorem gaussMaj_parts {p : ℝ} (hp : 0 < p) (s t : ℝ) (i j : Nat) :
    2 * p * (∫ x : ℝ, x * ((x + s) ^ i * (x + t) ^ j * Real.exp (-p * x ^ 2))) =
      i * gaussMaj p s t (i - 1) j + j * gaussMaj p s t i (j - 1) := by
  have hd : ∀ x : ℝ, HasDerivAt (fun x : ℝ => (x + s) ^ i * (x + t) ^ j * Real.exp (-p * x ^ 2))
      ((i : ℝ) * ((x + s) ^ (i - 1) * (x + t) ^ j * Real.exp (-p * x ^ 2)) + (j : ℝ) * ((x + s) ^ i * (x + t) ^ (j - 1) * Real.exp (-p * x ^ 2)) +
        (-(2 * p)) * (x * ((x + s) ^ i * (x + t) ^ j * Real.exp (-p * x ^ 2)))) x := by
    intro x
    have hA : HasDerivAt (fun x : ℝ => x + s) 1 x := (hasDerivAt_id x).add_const s
    have hB : HasDerivAt (fun x : ℝ => x + t) 1 x := (hasDerivAt_id x).add_const t
    have h3 := ((hA.pow i).mul (hB.pow j)).mul (((hasDerivAt_id x).pow 2).const_mul (-p)).exp
    refine h3.congr_deriv ?_
    simp only [Pi.pow_apply, Pi.mul_apply, id]
    push_cast
    ring
  have I1 := (integrable_gaussMaj hp s t (i - 1) j).const_mul (i : ℝ)
  have I2 := (integrable_gaussMaj hp s t i (j - 1)).const_mul (j : ℝ)
  have I3 := (integrable_gaussMaj_x hp s t i j).const_mul (-(2 * p))
  have h0 := integral_eq_zero_of_hasDerivAt_of_integrable hd ((I1.add I2).add I3) (integrable_gaussMaj hp s t i j)
  rw [show (∫ x : ℝ, ((i : ℝ) * ((x + s) ^ (i - 1) * (x + t) ^ j * Real.exp (-p * x ^ 2)) + (j : ℝ) * ((x + s) ^ i * (x + t) ^ (j - 1) * Real.exp (-p * x ^ 2)) +
        (-(2 * p)) * (x * ((x + s) ^ i * (x + t) ^ j * Real.exp (-p * x ^ 2))))) = _ from integral_add (I1.add I2) I3,
    integral_add I1 I2, integral_const_mul, integral_const_mul, integral_const_mul] at h0
  unfold gaussMaj
  linarith

theorem gaussMaj_left {p : ℝ} (hp : 0 < p) (s t : ℝ) (i j : Nat) :
    gaussMaj p s t (i + 1) j = s * gaussMaj p s t i j + ∫ x : ℝ, x * ((x + s) ^ i * (x + t) ^ j * Real.exp (-p * x ^ 2)) := by
  unfold gaussMaj
  rw [← integral_const_mul, ← integral_add ((integrable_gaussMaj hp s t i j).const_mul s) (integrable_gaussMaj_x hp s t i j)]
  congr 1
  funext x
  ring

theorem gaussMaj_right {p : ℝ} (hp : 0 < p) (s t : ℝ) (i j : Nat) :
    gaussMaj p s t i (j + 1) = t * gaussMaj p s t i j + ∫ x : ℝ, x * ((x + s) ^ i * (x + t) ^ j * Real.exp (-p * x ^ 2)) := by
  unfold gaussMaj
  rw [← integral_const_mul, ← integral_add ((integrable_gaussMaj hp s t i j).const_mul t) (integrable_gaussMaj_x hp s t i j)]
  congr 1
  funext x
  ring

theorem gaussMaj_os {p : ℝ} (hp : 0 < p) (s t K : ℝ) :
    OSRel (fun i j => K * gaussMaj p s t i j) (Real.sqrt (Real.pi / p) * K) s t (1 / (2 * p)) where
  zero := by
    unfold gaussMaj
    simp only [pow_zero, one_mul]
    rw [integral_gaussian, mul_comm]
  right j := by
    have h := gaussMaj_parts hp s t 0 j
    have h2 := gaussMaj_right hp s t 0 j
    simp only [Nat.cast_zero, zero_mul, zero_add] at h
    rw [h2]
    generalize (∫ x : ℝ, x * ((x + s) ^ 0 * (x + t) ^ j * Real.exp (-p * x ^ 2))) = I at h ⊢
    field_simp
    linear_combination K * h
  left i j := by
    have h := gaussMaj_parts hp s t i j
    have h2 := gaussMaj_left hp s t i j
    rw [h2]
    generalize (∫ x : ℝ, x * ((x + s) ^ i * (x + t) ^ j * Real.exp (-p * x ^ 2))) = I at h ⊢
    field_simp
    linear_combination K * h

end Libgrpp
