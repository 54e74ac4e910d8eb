import Verif.Lemmas.Screening1

/-! # Screening of type-1 radial integrals: C114

`screening_radial_type1` estimates the radial integrals of a local potential, to be used in place of integrals which are negligible. It is declared in
screening.h, but its only call is inside of a comment. `some (some E)`: success with the estimate `E`; `some none`: success with an estimate which is
not a number; `none`: failure. -/

namespace Libgrpp

open MeasureTheory Set

/-- **C114, partial.** For `k = 0` (both shells on the centre, or the product of the two Gaussian functions centred there) and the order zero, the
routine succeeds. If no term of the potential is negative, its estimate is not below the integral. -/
theorem screening1_bound_partial (bt : BesselTab) (pot : Potential) (n : ℕ) (CA2 CB2 a b D : ℝ) (hD : 0 ≤ D)
    (hreg : ∀ i < pot.num, 0 ≤ (n : ℤ) + pot.powers.getD i 0 ∧ 0 < a + b + pot.alpha.getD i 0) (hc : ∀ i < pot.num, 0 ≤ pot.coeffs.getD i 0) :
    ∃ E, screenType1 bt 0 n CA2 CB2 a b 0 D pot = some (some E) ∧ 0 ≤ localRadial (potentialRadial pot) 0 n CA2 CB2 a b 0 D ∧
      localRadial (potentialRadial pot) 0 n CA2 CB2 a b 0 D ≤ E := by
  refine ⟨_, screenType1_sum bt 0 n CA2 CB2 a b 0 D pot (by simp)
    (fun i => momentEstimate ((n : ℤ) + pot.powers.getD i 0).toNat (a + b + pot.alpha.getD i 0) * Real.exp (-a * CA2 - b * CB2)) fun i hi => ?_, ?_, ?_⟩
  · obtain ⟨h1, h2⟩ := hreg i hi
    rw [← screenPrimitive1_zero bt _ CA2 CB2 a b _ h2, Int.toNat_of_nonneg h1]
  · rw [localRadial_zero pot n CA2 CB2 a b D hreg]
    refine Finset.sum_nonneg fun i hi => ?_
    exact mul_nonneg (mul_nonneg hD (hc i (Finset.mem_range.1 hi))) (mul_nonneg (moment_nonneg _ _) (Real.exp_pos _).le)
  · rw [localRadial_zero pot n CA2 CB2 a b D hreg]
    refine Finset.sum_le_sum fun i hi => ?_
    refine mul_le_mul_of_nonneg_left ?_ (mul_nonneg hD (hc i (Finset.mem_range.1 hi)))
    exact mul_le_mul_of_nonneg_right (moment_le _ (hreg i (Finset.mem_range.1 hi)).2) (Real.exp_pos _).le

/-- **C114, partial.** If moreover the power of `r` of every term vanishes together with `n`, the estimate is the integral, whatever the signs of the
coefficients. -/
theorem screening1_exact_partial (bt : BesselTab) (pot : Potential) (n : ℕ) (CA2 CB2 a b D : ℝ)
    (hreg : ∀ i < pot.num, (n : ℤ) + pot.powers.getD i 0 = 0 ∧ 0 < a + b + pot.alpha.getD i 0) :
    screenType1 bt 0 n CA2 CB2 a b 0 D pot = some (some (localRadial (potentialRadial pot) 0 n CA2 CB2 a b 0 D)) := by
  rw [localRadial_zero pot n CA2 CB2 a b D fun i hi => ⟨(hreg i hi).1.ge, (hreg i hi).2⟩]
  refine screenType1_sum bt 0 n CA2 CB2 a b 0 D pot (by simp) _ fun i hi => ?_
  obtain ⟨h1, h2⟩ := hreg i hi
  rw [h1, Int.toNat_zero, moment_zero h2, ← screenPrimitive1_zero bt 0 CA2 CB2 a b _ h2]
  rfl

/-- **C114, partial.** For orders from one on, the estimate is `0` when `k` is (up to `1e-14`); for `k = 0` so is the integral. -/
theorem screening1_order_partial (bt : BesselTab) (pot : Potential) (lam n : ℕ) (hl : 1 ≤ lam) (CA2 CB2 a b D : ℝ) :
    (∀ k, |k| ≤ 1e-14 → screenType1 bt lam n CA2 CB2 a b k D pot = some (some 0)) ∧
      ∀ U : ℝ → ℝ, localRadial U lam n CA2 CB2 a b 0 D = 0 := by
  refine ⟨fun k hk => ?_, fun U => ?_⟩
  · unfold screenType1
    rw [if_pos ⟨hl, by unfold zeroThresh; exact hk⟩]
  · unfold localRadial
    have : ∀ r : ℝ, besselI lam (0 * r) = 0 := fun r => by rw [zero_mul, besselI_zero_arg, if_neg (by omega)]
    simp only [this, mul_zero, integral_zero]

/-- **C114, refuted.** The estimates of the terms are added with the signs of their coefficients. For every bound `M` there is a potential with two
terms for which the estimate is `0` although the integral exceeds `M`. -/
theorem screening1_discards_large (M : ℝ) : ∃ pot : Potential, pot.WF ∧ pot.Regular ∧ pot.num = 2 ∧
    (∀ bt, screenType1 bt 0 0 0 0 (1 / 4) (1 / 4) 0 1 pot = some (some 0)) ∧ M < localRadial (potentialRadial pot) 0 0 0 0 (1 / 4) (1 / 4) 0 1 := by
  set E0 := momentEstimate 0 1 with hE0
  set E2 := momentEstimate 2 1 with hE2
  set I2 := ∫ r in Ioi (0:ℝ), r ^ 2 * Real.exp (-1 * r ^ 2) with hI2
  have i0 := moment_zero (p := 1) one_pos
  rw [← hE0] at i0
  have p0 : 0 < E0 := by
    rw [← i0]
    simp only [pow_zero, one_mul]
    rw [integral_gaussian_Ioi, div_one]
    have := Real.sqrt_pos.2 Real.pi_pos
    linarith
  have gap : 0 < E0 * (E2 - I2) := mul_pos p0 (sub_pos.2 moment_two)
  obtain ⟨t, ht⟩ : ∃ t : ℝ, M < t * (E0 * (E2 - I2)) := ⟨M / (E0 * (E2 - I2)) + 1, by
    rw [add_mul, div_mul_cancel₀ _ gap.ne']
    linarith⟩
  let pot : Potential := { L := 0, J := 0, num := 2, powers := [0, 2], coeffs := [t * E2, -(t * E0)], alpha := [1 / 2, 1 / 2] }
  have hreg : ∀ i < pot.num, 0 ≤ ((0 : ℕ) : ℤ) + pot.powers.getD i 0 ∧ (0:ℝ) < 1 / 4 + 1 / 4 + pot.alpha.getD i 0 := by
    intro i hi
    have : i = 0 ∨ i = 1 := by
      change i < 2 at hi
      omega
    rcases this with rfl | rfl <;> norm_num [pot]
  refine ⟨pot, by simp [Potential.WF, pot], fun i hi => ?_, rfl, fun bt => ?_, ?_⟩
  · have : i = 0 ∨ i = 1 := by
      change i < 2 at hi
      omega
    rcases this with rfl | rfl <;> norm_num [pot]
  · rw [screenType1_sum bt 0 0 0 0 (1 / 4) (1 / 4) 0 1 pot (by simp)
      (fun i => momentEstimate (((0 : ℕ) : ℤ) + pot.powers.getD i 0).toNat (1 / 4 + 1 / 4 + pot.alpha.getD i 0) *
        Real.exp (-(1 / 4) * 0 - (1 / 4) * 0)) fun i hi => ?_]
    · show some (some (∑ i ∈ Finset.range 2, _)) = _
      rw [Finset.sum_range_succ, Finset.sum_range_one]
      have e : (1 / 4 + 1 / 4 + 1 / 2 : ℝ) = 1 := by norm_num
      simp only [pot, List.getD_cons_zero, List.getD_cons_succ, e]
      norm_num
      rw [show momentEstimate 0 1 = E0 from rfl, show momentEstimate (Int.toNat 2) 1 = E2 from rfl]
      ring
    · obtain ⟨h1, h2⟩ := hreg i hi
      rw [← screenPrimitive1_zero bt _ 0 0 (1 / 4) (1 / 4) _ h2, Int.toNat_of_nonneg h1]
  · rw [localRadial_zero pot 0 0 0 (1 / 4) (1 / 4) 1 hreg]
    show M < ∑ i ∈ Finset.range 2, _
    rw [Finset.sum_range_succ, Finset.sum_range_one]
    have e : (1 / 4 + 1 / 4 + 1 / 2 : ℝ) = 1 := by norm_num
    simp only [pot, List.getD_cons_zero, List.getD_cons_succ, e]
    have t0 : (((0 : ℕ) : ℤ) + 0).toNat = 0 := rfl
    have t2 : (((0 : ℕ) : ℤ) + 2).toNat = 2 := rfl
    rw [t0, t2, i0, ← hI2]
    simp only [mul_zero, sub_zero, Real.exp_zero, mul_one, one_mul]
    linarith

/-- **C114, refuted.** Nor does it hold for one positive term. The maximum of the integrand is sought to within `0.01` only, whatever the width of the
integrand, and the search starts from the distances of the centres, not from their product centre. For all `M` and `ε > 0` there are two narrow `s`
functions and a potential with one positive term for which the estimate is below `ε` although the integral exceeds `M`. -/
theorem screening1_discards_narrow (M ε : ℝ) (hε : 0 < ε) : ∃ (CA CB : Point) (a b c : ℝ) (pot : Potential), 0 < a ∧ 0 < b ∧ 0 < c ∧
    pot.WF ∧ pot.Regular ∧ pot.num = 1 ∧ pot.coeffs = [c] ∧
    (∀ bt, ∃ E, screenType1 bt 0 0 (∑ i, CA i ^ 2) (∑ i, CB i ^ 2) a b (2 * Real.sqrt (∑ i, (a * CA i + b * CB i) ^ 2)) 1 pot = some (some E) ∧
      |E| < ε) ∧
    M < localRadial (potentialRadial pot) 0 0 (∑ i, CA i ^ 2) (∑ i, CB i ^ 2) a b (2 * Real.sqrt (∑ i, (a * CA i + b * CB i) ^ 2)) 1 := by
  set δ := ε / 2 with hδ
  have d0 : 0 < δ := by linarith
  set p := max 1e6 (M / δ * 4 * 160000 + 1) with hp
  have p1 : 1e6 ≤ p := le_max_left _ _
  have p2 : M / δ * 4 * 160000 + 1 ≤ p := le_max_right _ _
  have p0 : 0 < p := by linarith
  set S := Real.sqrt (Real.pi / p) * (1 / (0.01 * p)) * Real.exp (-1e-4 * p) with hS
  have S0 : 0 < S := by
    have := Real.sqrt_pos.2 (div_pos Real.pi_pos p0)
    positivity
  set c := δ / S with hc
  have c0 : 0 < c := div_pos d0 S0
  let w : ℝ := Real.sqrt (15 / 16)
  have hw : w ^ 2 = 15 / 16 := Real.sq_sqrt (by norm_num)
  let CA : Point := ![0.0025, 0.01 * w, 0]
  let CB : Point := ![0.0025, -(0.01 * w), 0]
  let pot : Potential := { L := 0, J := 0, num := 1, powers := [1], coeffs := [c], alpha := [0] }
  have eA : ∑ i, CA i ^ 2 = 1e-4 := by
    simp only [Fin.sum_univ_three, CA, Matrix.cons_val_zero, Matrix.cons_val_one, Matrix.cons_val]
    rw [mul_pow, hw]
    norm_num
  have eB : ∑ i, CB i ^ 2 = 1e-4 := by
    simp only [Fin.sum_univ_three, CB, Matrix.cons_val_zero, Matrix.cons_val_one, Matrix.cons_val]
    rw [neg_sq, mul_pow, hw]
    norm_num
  have ek : 2 * Real.sqrt (∑ i, (p / 2 * CA i + p / 2 * CB i) ^ 2) = 0.005 * p := by
    have : ∑ i, (p / 2 * CA i + p / 2 * CB i) ^ 2 = (0.0025 * p) ^ 2 := by
      simp only [Fin.sum_univ_three, CA, CB, Matrix.cons_val_zero, Matrix.cons_val_one, Matrix.cons_val]
      ring
    rw [this, Real.sqrt_sq (by linarith)]
    ring
  refine ⟨CA, CB, p / 2, p / 2, c, pot, by linarith, by linarith, c0, by simp [Potential.WF, pot], fun i hi => ?_, rfl, rfl, fun bt => ?_, ?_⟩
  · have : i = 0 := by
      change i < 1 at hi
      omega
    subst this
    norm_num [pot]
  · rw [eA, eB, ek]
    obtain ⟨h1, h2⟩ := half_erf_le p0 0.005
    refine ⟨_, screenType1_sum bt 0 0 1e-4 1e-4 (p / 2) (p / 2) (0.005 * p) 1 pot (by simp)
      (fun _ => Real.sqrt (Real.pi / p) * (1 / (0.01 * p)) * Real.exp (-1e-4 * p) * 0.5 * (1 + erfC (Real.sqrt p * 0.005))) fun i hi => ?_, ?_⟩
    · have : i = 0 := by
        change i < 1 at hi
        omega
      subst this
      exact sharp_estimate bt p1
    · show |∑ i ∈ Finset.range 1, _| < ε
      rw [Finset.sum_range_one, show pot.coeffs.getD 0 0 = c from rfl, ← hS]
      have e : 1 * c * (S * 0.5 * (1 + erfC (Real.sqrt p * 0.005))) = δ * (0.5 * (1 + erfC (Real.sqrt p * 0.005))) := by
        rw [hc]
        field_simp
      rw [e, abs_of_nonneg (mul_nonneg d0.le h1)]
      nlinarith
  · rw [eA, eB, ek]
    have h := sharp_integral p1
    rw [← hS] at h
    have e : localRadial (potentialRadial pot) 0 0 1e-4 1e-4 (p / 2) (p / 2) (0.005 * p) 1 =
        c * ∫ r in Ioi (0:ℝ), r * (Real.exp (-p * r ^ 2 - 1e-4 * p) * besselI 0 (0.005 * p * r)) := by
      unfold localRadial
      rw [← integral_const_mul]
      refine setIntegral_congr_fun measurableSet_Ioi fun r hr => ?_
      have r0 : (0:ℝ) < r := hr
      have ep : potentialRadial pot r = c * r⁻¹ := by
        unfold potentialRadial
        show ∑ i ∈ Finset.range 1, _ = _
        rw [Finset.sum_range_one]
        show c * (r ^ ((1:ℤ) - 2) * Real.exp (-0 * r ^ 2)) = _
        rw [show (1:ℤ) - 2 = -1 by norm_num, zpow_neg_one]
        simp
      simp only [ep, pow_zero, one_mul]
      rw [show -(p / 2 + p / 2) * r ^ 2 - p / 2 * 1e-4 - p / 2 * 1e-4 = -p * r ^ 2 - 1e-4 * p by ring]
      field_simp
    rw [e]
    have h3 := mul_le_mul_of_nonneg_left h c0.le
    refine lt_of_lt_of_le ?_ h3
    have h4 : c * (S * (0.25 * Real.exp (6.25e-6 * p))) = δ * (0.25 * Real.exp (6.25e-6 * p)) := by
      rw [hc]
      field_simp
    rw [h4]
    have h5 := Real.add_one_le_exp (6.25e-6 * p)
    have h6 : M < δ * (0.25 * (6.25e-6 * p)) := by
      have : M / δ < 0.25 * (6.25e-6 * p) := by linarith
      rw [div_lt_iff₀ d0] at this
      linarith
    nlinarith

/-- **C114, refuted.** Success is reported with an estimate which is not a number: for `k = 0` and terms whose power of `r` is negative together with
`n`, and for the orders from four on when `k` is small, where both Bessel functions of the quotient are zero. -/
theorem screening1_not_a_number (bt : BesselTab) (pot : Potential) (n : ℕ) (CA2 CB2 a b D : ℝ) (h0 : 0 < pot.num)
    (hp : ∀ i < pot.num, 0 < a + b + pot.alpha.getD i 0) :
    ((∀ i < pot.num, (n : ℤ) + pot.powers.getD i 0 < 0) → screenType1 bt 0 n CA2 CB2 a b 0 D pot = some none) ∧
      ∀ (lam : ℕ) (k : ℝ), 4 ≤ lam → 1e-14 < |k| →
        (∀ i < pot.num, k * ((a * Real.sqrt CA2 + b * Real.sqrt CB2) / (a + b + pot.alpha.getD i 0)) ≤ 1e-7) →
        screenType1 bt lam n CA2 CB2 a b k D pot = some none := by
  refine ⟨fun hn => ?_, fun lam k hl hk hs => ?_⟩
  · refine screenType1_nan bt 0 n CA2 CB2 a b 0 D pot (by simp) h0 fun i hi => ?_
    unfold screenPrimitive1
    simp only
    rw [if_neg (not_le.2 (hp i hi)), screenLoop1]
    have : ∀ r, screenNext1 bt ((n : ℤ) + pot.powers.getD i 0) 0 (a + b + pot.alpha.getD i 0) 0 r = none := by
      intro r
      unfold screenNext1
      rw [zero_mul, screenRatio_small bt (x := 0) (by norm_num)]
      simp only [Option.bind_eq_bind, Option.bind_some, lt_irrefl, if_false]
      unfold rootC
      rw [if_pos]
      refine div_neg_of_neg_of_pos ?_ (by linarith [hp i hi])
      have : (((n : ℤ) + pot.powers.getD i 0 : ℤ) : ℝ) < 0 := by exact_mod_cast hn i hi
      linarith
    rw [this]
  · refine screenType1_nan bt lam n CA2 CB2 a b k D pot ?_ h0 fun i hi => ?_
    · rintro ⟨-, h⟩
      unfold zeroThresh at h
      linarith
    · unfold screenPrimitive1
      simp only
      rw [if_neg (not_le.2 (hp i hi)), screenLoop1]
      have : screenNext1 bt ((n : ℤ) + pot.powers.getD i 0) lam (a + b + pot.alpha.getD i 0) k
          ((a * Real.sqrt CA2 + b * Real.sqrt CB2) / (a + b + pot.alpha.getD i 0)) = none := by
        unfold screenNext1 screenRatio
        rw [if_neg (by omega)]
        have z : besselScaled bt lam (k * ((a * Real.sqrt CA2 + b * Real.sqrt CB2) / (a + b + pot.alpha.getD i 0))) = .ok 0 := by
          unfold besselScaled
          rw [if_pos (hs i hi)]
          match lam, hl with
          | m + 4, _ => rfl
        rw [z]
        unfold quotC
        rw [if_pos (show (Outcome.ok (0:ℝ)).getD 0 = 0 from rfl)]
        rfl
      rw [this]

/-- **C114.** The search for the maximum is given up after nine rounds, and failure is reported then. With a term `c / r`, two functions with the
exponent `p / 2` at the distance `R x^512` and their product at the distance `R`, the points of the search are `R x^256`, `R x^128`, …, `R x`: the
routine fails if the last of the nine steps exceeds `0.01`, and succeeds if it is the first which does not. -/
theorem screening1_gives_up (bt : BesselTab) (p R x c D : ℝ) (hp : 0 < p) (hR : 0 < R) (hx : 1 < x) (hf : 16 < 2 * p * R ^ 2) (pot : Potential)
    (hn : pot.num = 1) (h1 : pot.powers = [1]) (h2 : pot.coeffs = [c]) (h3 : pot.alpha = [0]) :
    (1e-2 < R * x * (x - 1) →
      screenType1 bt 0 0 ((R * x ^ 512) ^ 2) ((R * x ^ 512) ^ 2) (p / 2) (p / 2) (2 * p * R) D pot = none) ∧
    (R * x * (x - 1) ≤ 1e-2 → 1e-2 < R * x ^ 2 * (x ^ 2 - 1) →
      ∃ E, screenType1 bt 0 0 ((R * x ^ 512) ^ 2) ((R * x ^ 512) ^ 2) (p / 2) (p / 2) (2 * p * R) D pot = some (some E)) := by
  have hf' : 16 < 2 * p * R * R := by rw [mul_assoc, ← sq]; exact hf
  have hs : Real.sqrt ((R * x ^ 512) ^ 2) = R * x ^ 512 := Real.sqrt_sq (by positivity)
  have ep : p / 2 + p / 2 + 0 = p := by ring
  have es : (p / 2 * (R * x ^ 512) + p / 2 * (R * x ^ 512)) / p = R * x ^ 2 ^ 9 := by
    norm_num
    field_simp
    ring
  refine ⟨fun hd => ?_, fun hd hd2 => ?_⟩
  · have h := screenLoop1_fails bt hp hR hx hf' hd 9
    unfold screenType1
    rw [if_neg (by simp), hn, h1, h3]
    show ((match screenPrimitive1 bt 0 1 ((R * x ^ 512) ^ 2) ((R * x ^ 512) ^ 2) (p / 2) (p / 2) (2 * p * R) 0 with
      | none => none
      | some v => _ : Option (Option ℝ)).bind _) = none
    have : screenPrimitive1 bt 0 1 ((R * x ^ 512) ^ 2) ((R * x ^ 512) ^ 2) (p / 2) (p / 2) (2 * p * R) 0 = none := by
      unfold screenPrimitive1
      simp only [hs, ep, es]
      rw [if_neg (not_le.2 hp), h]
    rw [this]
    rfl
  · have h := screenLoop1_last bt hp hR hx hf' hd hd2 8
    obtain ⟨v, hv⟩ : ∃ v, screenPrimitive1 bt 0 1 ((R * x ^ 512) ^ 2) ((R * x ^ 512) ^ 2) (p / 2) (p / 2) (2 * p * R) 0 = some (some v) := by
      unfold screenPrimitive1
      simp only [hs, ep, es]
      rw [if_neg (not_le.2 hp), h]
      simp only
      rw [if_neg (by norm_num)]
      exact ⟨_, rfl⟩
    refine ⟨_, screenType1_sum bt 0 0 _ _ _ _ _ D pot (by simp) (fun _ => v) fun i hi => ?_⟩
    have : i = 0 := by omega
    subst this
    rw [h1, h3]
    exact hv

/-- A potential with one term. -/
noncomputable def oneTermPotential : Potential := { L := 0, J := 0, num := 1, powers := [2], coeffs := [3], alpha := [1] }

example : ∃ E, screenType1 besselTab0 0 0 1 1 1 1 0 1 oneTermPotential = some (some E) ∧
    localRadial (potentialRadial oneTermPotential) 0 0 1 1 1 1 0 1 ≤ E := by
  have h : ∀ i < oneTermPotential.num, i = 0 := fun i hi => by
    change i < 1 at hi
    omega
  obtain ⟨E, h1, -, h2⟩ := screening1_bound_partial besselTab0 oneTermPotential 0 1 1 1 1 1 zero_le_one
    (fun i hi => by rw [h i hi]; norm_num [oneTermPotential]) (fun i hi => by rw [h i hi]; norm_num [oneTermPotential])
  exact ⟨E, h1, h2⟩

example : screenType1 besselTab0 0 0 0 0 1 1 0 1 { oneTermPotential with powers := [0] } =
    some (some (localRadial (potentialRadial { oneTermPotential with powers := [0] }) 0 0 0 0 1 1 0 1)) := by
  have h : ∀ i < ({ oneTermPotential with powers := [0] } : Potential).num, i = 0 := fun i hi => by
    change i < 1 at hi
    omega
  exact screening1_exact_partial besselTab0 _ 0 0 0 1 1 1 fun i hi => by rw [h i hi]; norm_num [oneTermPotential]

example : screenType1 besselTab0 2 0 0 0 1 1 1e-15 1 oneTermPotential = some (some 0) :=
  (screening1_order_partial besselTab0 oneTermPotential 2 0 (by norm_num) 0 0 1 1 1).1 _ (by rw [abs_of_pos] <;> norm_num)

example : screenType1 besselTab0 5 0 0 0 1 1 1e-8 1 oneTermPotential = some none := by
  have h : ∀ i < oneTermPotential.num, i = 0 := fun i hi => by
    change i < 1 at hi
    omega
  refine (screening1_not_a_number besselTab0 oneTermPotential 0 0 0 1 1 1 (by norm_num [oneTermPotential])
    (fun i hi => by rw [h i hi]; norm_num [oneTermPotential])).2 5 1e-8 (by norm_num) (by rw [abs_of_pos] <;> norm_num) fun i hi => ?_
  rw [h i hi]
  norm_num [oneTermPotential]

/-- A failure at moderate distances: the search starts at about 33 and would have to go on to 20. -/
example : screenType1 besselTab0 0 0 ((20 * 1.001 ^ 512) ^ 2) ((20 * 1.001 ^ 512) ^ 2) (1 / 2) (1 / 2) (2 * 1 * 20) 1
    { oneTermPotential with powers := [1], alpha := [0] } = none :=
  (screening1_gives_up besselTab0 1 20 1.001 3 1 (by norm_num) (by norm_num) (by norm_num) (by norm_num) _ rfl rfl rfl rfl).1 (by norm_num)

example : ∃ E, screenType1 besselTab0 0 0 ((9.5 * 1.001 ^ 512) ^ 2) ((9.5 * 1.001 ^ 512) ^ 2) (1 / 2) (1 / 2) (2 * 1 * 9.5) 1
    { oneTermPotential with powers := [1], alpha := [0] } = some (some E) :=
  (screening1_gives_up besselTab0 1 9.5 1.001 3 1 (by norm_num) (by norm_num) (by norm_num) (by norm_num) _ rfl rfl rfl rfl).2 (by norm_num) (by norm_num)

end Libgrpp
