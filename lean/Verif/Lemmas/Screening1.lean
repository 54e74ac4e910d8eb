import Verif.Model.Screening1
import Verif.Lemmas.Screening
import Verif.Lemmas.QuadMiss

/-! # Lemmas for the screening of type-1 radial integrals -/

namespace Libgrpp

open MeasureTheory Set

/-- A Gaussian function beside the origin. -/
theorem integral_gauss_shift {p : ℝ} (hp : 0 < p) (r0 : ℝ) : IntegrableOn (fun r => Real.exp (-p * (r - r0) ^ 2)) (Ioi 0) ∧
    ∫ r in Ioi (0:ℝ), Real.exp (-p * (r - r0) ^ 2) = Real.sqrt (Real.pi / p) * 0.5 * (1 + erfC (Real.sqrt p * r0)) := by
  have hi := integrable_exp_neg_mul_sq hp
  refine ⟨(hi.comp_sub_right r0).integrableOn, ?_⟩
  have h1 := integral_gaussian_Ioi p
  have h2 := erfC_scaled hp r0
  have c : Continuous fun s : ℝ => Real.exp (-p * s ^ 2) := by fun_prop
  have h3 : ∫ r in Ioi (0:ℝ), Real.exp (-p * (r - r0) ^ 2) = ∫ s in Ioi (-r0), Real.exp (-p * s ^ 2) := by
    rw [← integral_indicator measurableSet_Ioi, ← integral_indicator measurableSet_Ioi,
      ← integral_sub_right_eq_self (fun s => (Ioi (-r0)).indicator (fun s : ℝ => Real.exp (-p * s ^ 2)) s) r0]
    congr 1
    funext r
    simp only [indicator, mem_Ioi]
    by_cases h : 0 < r
    · rw [if_pos h, if_pos (by linarith)]
    · rw [if_neg h, if_neg (by linarith)]
  have h4 : ∫ s in (-r0)..0, Real.exp (-p * s ^ 2) = ∫ s in (0:ℝ)..r0, Real.exp (-p * s ^ 2) := by
    have := intervalIntegral.integral_comp_neg (a := 0) (b := r0) (fun s : ℝ => Real.exp (-p * s ^ 2))
    simp only [neg_sq, neg_zero] at this
    exact this.symm
  have h5 := intervalIntegral.integral_interval_add_Ioi (a := -r0) (b := 0) (f := fun s : ℝ => Real.exp (-p * s ^ 2)) hi.integrableOn hi.integrableOn
  rw [h3, ← h5, h4, h1, h2, Real.sqrt_div Real.pi_pos.le]
  have : Real.sqrt p ≠ 0 := (Real.sqrt_pos.2 hp).ne'
  field_simp
  ring

/-- The envelope of a moment: a Gaussian function at the maximum. -/
theorem moment_envelope (n : ℕ) {p r0 : ℝ} (hn : (n : ℝ) = 2 * p * r0 ^ 2) (h0 : 0 ≤ r0) {r : ℝ} (hr : 0 < r) :
    r ^ n * Real.exp (-p * r ^ 2) ≤ r0 ^ n * Real.exp (-p * r0 * r0) * Real.exp (-p * (r - r0) ^ 2) := by
  rcases h0.eq_or_lt with h | h
  · have : n = 0 := by
      have : (n : ℝ) = 0 := by rw [hn, ← h]; ring
      exact_mod_cast this
    subst this
    rw [← h]
    simp
  · have h1 : r / r0 ≤ Real.exp (r / r0 - 1) := by have := Real.add_one_le_exp (r / r0 - 1); linarith
    have h2 : (r / r0) ^ n ≤ Real.exp (2 * p * r0 * (r - r0)) := by
      refine (pow_le_pow_left₀ (by positivity) h1 n).trans (le_of_eq ?_)
      rw [← Real.exp_nat_mul, hn]
      congr 1
      field_simp
    rw [div_pow, div_le_iff₀ (by positivity)] at h2
    refine (mul_le_mul_of_nonneg_right h2 (Real.exp_pos _).le).trans (le_of_eq ?_)
    have e : Real.exp (2 * p * r0 * (r - r0)) * Real.exp (-p * r ^ 2) = Real.exp (-p * r0 * r0) * Real.exp (-p * (r - r0) ^ 2) := by
      rw [← Real.exp_add, ← Real.exp_add]
      congr 1
      ring
    linear_combination r0 ^ n * e

/-- The estimate of the moment `∫ r^n exp(-p r²) dr`. -/
noncomputable def momentEstimate (n : ℕ) (p : ℝ) : ℝ :=
  Real.sqrt (Real.pi / p) * Real.sqrt (n / (2 * p)) ^ n * Real.exp (-p * Real.sqrt (n / (2 * p)) * Real.sqrt (n / (2 * p))) * 0.5 *
    (1 + erfC (Real.sqrt p * Real.sqrt (n / (2 * p))))

theorem moment_root (n : ℕ) {p : ℝ} (hp : 0 < p) : (n : ℝ) = 2 * p * Real.sqrt (n / (2 * p)) ^ 2 := by
  rw [Real.sq_sqrt (by positivity)]
  field_simp

theorem moment_integrable (n : ℕ) {p : ℝ} (hp : 0 < p) : IntegrableOn (fun r : ℝ => r ^ n * Real.exp (-p * r ^ 2)) (Ioi 0) :=
  semiIntegral_monomial_integrable n hp

theorem moment_le (n : ℕ) {p : ℝ} (hp : 0 < p) : ∫ r in Ioi (0:ℝ), r ^ n * Real.exp (-p * r ^ 2) ≤ momentEstimate n p := by
  set r0 := Real.sqrt (n / (2 * p)) with hr0
  obtain ⟨i1, e1⟩ := integral_gauss_shift hp r0
  have h := setIntegral_mono_on (moment_integrable n hp) (i1.const_mul (r0 ^ n * Real.exp (-p * r0 * r0))) measurableSet_Ioi
    fun r hr => moment_envelope n (moment_root n hp) (Real.sqrt_nonneg _) hr
  rw [integral_const_mul, e1] at h
  refine h.trans (le_of_eq ?_)
  unfold momentEstimate
  rw [← hr0]
  ring

theorem moment_zero {p : ℝ} (hp : 0 < p) : ∫ r in Ioi (0:ℝ), r ^ 0 * Real.exp (-p * r ^ 2) = momentEstimate 0 p := by
  have := integral_gaussian_Ioi p
  simp only [pow_zero, one_mul]
  rw [this]
  unfold momentEstimate erfC
  simp
  ring

theorem moment_nonneg (n : ℕ) (p : ℝ) : 0 ≤ ∫ r in Ioi (0:ℝ), r ^ n * Real.exp (-p * r ^ 2) :=
  setIntegral_nonneg measurableSet_Ioi fun r hr => mul_nonneg (pow_nonneg (le_of_lt hr) n) (Real.exp_pos _).le

theorem screenNext1_zero (bt : BesselTab) (n : ℕ) {p : ℝ} (hp : 0 < p) (r : ℝ) : screenNext1 bt n 0 p 0 r = some (Real.sqrt (n / (2 * p))) := by
  unfold screenNext1
  rw [zero_mul, screenRatio_small bt (x := 0) (by norm_num)]
  simp only [Option.bind_eq_bind, Option.bind_some, lt_irrefl, if_false]
  unfold rootC
  have e : ((n : ℤ) : ℝ) + 0 / 3 * 0 * r = n := by
    push_cast
    ring
  rw [e, if_neg (not_lt.2 (by positivity))]

theorem screenLoop1_const {next : ℝ → Option ℝ} {r1 : ℝ} (h : ∀ r, next r = some r1) (r0 : ℝ) (m : ℕ) :
    screenLoop1 next (m + 2) r0 = some (some r1) := by
  have h1 : screenLoop1 next (m + 1) r1 = some (some r1) := by
    rw [screenLoop1, h]
    simp only [sub_self, abs_zero]
    rw [if_neg (by norm_num)]
  rw [screenLoop1, h]
  simp only
  split
  · exact h1
  · rfl

theorem screenPrimitive1_zero (bt : BesselTab) (n : ℕ) (CA2 CB2 a b eta : ℝ) (hp : 0 < a + b + eta) :
    screenPrimitive1 bt 0 n CA2 CB2 a b 0 eta = some (some (momentEstimate n (a + b + eta) * Real.exp (-a * CA2 - b * CB2))) := by
  unfold screenPrimitive1
  simp only
  rw [if_neg (not_le.2 hp), screenLoop1_const (screenNext1_zero bt n hp) _ 7]
  simp only
  rw [if_neg (by rintro ⟨-, h⟩; omega), zero_mul, besselScaled_small0 bt (by norm_num)]
  congr 2
  unfold momentEstimate
  set r0 := Real.sqrt (n / (2 * (a + b + eta)))
  rw [show -(a + b + eta) * r0 * r0 - a * CA2 - b * CB2 + 0 = -(a + b + eta) * r0 * r0 + (-a * CA2 - b * CB2) by ring, Real.exp_add, zpow_natCast]
  show Real.sqrt (Real.pi / (a + b + eta)) * r0 ^ n * (1 - 0) * _ * _ * _ = _
  ring

/-- The estimate when none of its parts fails. -/
theorem screenType1_sum (bt : BesselTab) (lam n : ℕ) (CA2 CB2 a b k D : ℝ) (pot : Potential) (hl : ¬ (1 ≤ lam ∧ |k| ≤ zeroThresh)) (e : ℕ → ℝ)
    (h : ∀ i < pot.num, screenPrimitive1 bt lam ((n : ℤ) + pot.powers.getD i 0) CA2 CB2 a b k (pot.alpha.getD i 0) = some (some (e i))) :
    screenType1 bt lam n CA2 CB2 a b k D pot = some (some (∑ i ∈ Finset.range pot.num, D * pot.coeffs.getD i 0 * e i)) := by
  unfold screenType1
  rw [if_neg hl]
  have : ∀ m ≤ pot.num, (List.range m).foldlM (fun (s : Option ℝ) i =>
    match screenPrimitive1 bt lam ((n : ℤ) + pot.powers.getD i 0) CA2 CB2 a b k (pot.alpha.getD i 0) with
    | none => none
    | some v => some (do
      let s ← s
      let v ← v
      some (s + D * pot.coeffs.getD i 0 * v))) (some 0) = some (some (∑ i ∈ Finset.range m, D * pot.coeffs.getD i 0 * e i)) := by
    intro m
    induction m with
    | zero => intro _; simp
    | succ m ih =>
      intro hm
      rw [List.range_succ, List.foldlM_append, ih (by omega)]
      simp only [Option.bind_eq_bind, Option.bind_some, List.foldlM_cons, List.foldlM_nil]
      rw [h m (by omega), Finset.sum_range_succ]
      simp
  exact this _ le_rfl

/-- A sum of estimates in which one is not a number. -/
theorem screenType1_nan (bt : BesselTab) (lam n : ℕ) (CA2 CB2 a b k D : ℝ) (pot : Potential) (hl : ¬ (1 ≤ lam ∧ |k| ≤ zeroThresh))
    (h0 : 0 < pot.num)
    (h : ∀ i < pot.num, screenPrimitive1 bt lam ((n : ℤ) + pot.powers.getD i 0) CA2 CB2 a b k (pot.alpha.getD i 0) = some none) :
    screenType1 bt lam n CA2 CB2 a b k D pot = some none := by
  unfold screenType1
  rw [if_neg hl]
  have : ∀ m, m + 1 ≤ pot.num → (List.range (m + 1)).foldlM (fun (s : Option ℝ) i =>
    match screenPrimitive1 bt lam ((n : ℤ) + pot.powers.getD i 0) CA2 CB2 a b k (pot.alpha.getD i 0) with
    | none => none
    | some v => some (do
      let s ← s
      let v ← v
      some (s + D * pot.coeffs.getD i 0 * v))) (some 0) = some none := by
    intro m
    induction m with
    | zero =>
      intro hm
      rw [List.range_succ, List.range_zero, List.nil_append, List.foldlM_cons, h 0 (by omega)]
      simp
    | succ m ih =>
      intro hm
      rw [List.range_succ, List.foldlM_append, ih (by omega)]
      simp only [Option.bind_eq_bind, Option.bind_some, List.foldlM_cons, List.foldlM_nil]
      rw [h (m + 1) (by omega)]
      simp
  have := this (pot.num - 1) (by omega)
  rwa [Nat.sub_add_cancel h0] at this

/-- The estimate of the second moment is too large. -/
theorem moment_two : ∫ r in Ioi (0:ℝ), r ^ 2 * Real.exp (-1 * r ^ 2) < momentEstimate 2 1 := by
  have h := gaussMoment_ok (n := 2) (by norm_num) (a := 1) (by norm_num)
  have h2 : gaussMoment ((2 : ℕ) : ℤ) 1 = .ok (1 / 4 * Real.sqrt Real.pi) := by
    unfold gaussMoment
    rw [if_pos (by decide), show Int.tdiv ((2:ℕ) : ℤ) 2 = 1 from rfl]
    have hd : doubleFactorialC (2 * 1 - 1) = .ok 1 := by
      norm_num [doubleFactorialC, doubleFactorialTable]
    dsimp only
    rw [hd]
    show Outcome.ok (1 / ((2:ℝ) ^ ((1:ℤ) + 1) * 1 ^ (1:ℤ)) * Real.sqrt (Real.pi / 1)) = _
    norm_num
  rw [h2] at h
  have h3 : (1 / 4 * Real.sqrt Real.pi) = ∫ r in Ioi (0:ℝ), r ^ 2 * Real.exp (-1 * r ^ 2) := by
    injection h
  rw [← h3]
  have e2 : (0.36786 : ℝ) ≤ Real.exp (-1) := by
    rw [Real.exp_neg, le_inv_comm₀ (by norm_num) (Real.exp_pos 1)]
    have := Real.exp_one_lt_d9
    norm_num
    linarith
  have e3 := erfC_ge (y := 1) le_rfl
  have e4 : 0 < Real.sqrt Real.pi := Real.sqrt_pos.2 Real.pi_pos
  have e5 : momentEstimate 2 1 = Real.sqrt Real.pi * (Real.exp (-1) * (0.5 * (1 + erfC 1))) := by
    unfold momentEstimate
    norm_num
    ring
  rw [e5]
  have e6 : (0.36786 : ℝ) * (0.5 * (1 + 3 / 4)) ≤ Real.exp (-1) * (0.5 * (1 + erfC 1)) :=
    mul_le_mul e2 (by linarith) (by norm_num) (Real.exp_pos _).le
  nlinarith

/-- The radial integral of a potential on the axis `k = 0`, term by term. -/
theorem localRadial_zero (pot : Potential) (n : ℕ) (CA2 CB2 a b D : ℝ) (hreg : ∀ i < pot.num, 0 ≤ (n : ℤ) + pot.powers.getD i 0 ∧
      0 < a + b + pot.alpha.getD i 0) :
    localRadial (potentialRadial pot) 0 n CA2 CB2 a b 0 D = ∑ i ∈ Finset.range pot.num, D * pot.coeffs.getD i 0 *
      ((∫ r in Ioi (0:ℝ), r ^ ((n : ℤ) + pot.powers.getD i 0).toNat * Real.exp (-(a + b + pot.alpha.getD i 0) * r ^ 2)) *
        Real.exp (-a * CA2 - b * CB2)) := by
  unfold localRadial
  have e : ∀ r ∈ Ioi (0:ℝ), r ^ 2 * (potentialRadial pot r * (r ^ n * (D * (Real.exp (-(a + b) * r ^ 2 - a * CA2 - b * CB2) * besselI 0 (0 * r))))) =
      ∑ i ∈ Finset.range pot.num, D * pot.coeffs.getD i 0 * Real.exp (-a * CA2 - b * CB2) *
        (r ^ ((n : ℤ) + pot.powers.getD i 0).toNat * Real.exp (-(a + b + pot.alpha.getD i 0) * r ^ 2)) := by
    intro r hr
    have hr0 : (0:ℝ) < r := hr
    unfold potentialRadial
    rw [Finset.sum_mul, Finset.mul_sum]
    refine Finset.sum_congr rfl fun i hi => ?_
    obtain ⟨h1, -⟩ := hreg i (Finset.mem_range.1 hi)
    have e1 : r ^ ((n : ℤ) + pot.powers.getD i 0).toNat = r ^ (2:ℤ) * (r ^ (pot.powers.getD i 0 - 2) * r ^ (n : ℤ)) := by
      rw [← zpow_add₀ hr0.ne', ← zpow_add₀ hr0.ne', ← zpow_natCast, Int.toNat_of_nonneg h1]
      congr 1
      ring
    have e2 : Real.exp (-(a + b + pot.alpha.getD i 0) * r ^ 2) * Real.exp (-a * CA2 - b * CB2) =
        Real.exp (-pot.alpha.getD i 0 * r ^ 2) * Real.exp (-(a + b) * r ^ 2 - a * CA2 - b * CB2) := by
      rw [← Real.exp_add, ← Real.exp_add]
      congr 1
      ring
    rw [zero_mul, besselI_zero_arg, if_pos rfl, mul_one, e1, zpow_natCast, zpow_ofNat]
    linear_combination -(D * pot.coeffs.getD i 0 * (r ^ 2 * (r ^ (pot.powers.getD i 0 - 2) * r ^ n))) * e2
  rw [setIntegral_congr_fun measurableSet_Ioi e, integral_finset_sum]
  · refine Finset.sum_congr rfl fun i _ => ?_
    rw [integral_const_mul]
    ring
  · intro i hi
    exact (moment_integrable _ (hreg i (Finset.mem_range.1 hi)).2).const_mul _

/-! ## Sharp functions on both sides of the centre -/

theorem rfun_first : rfunLiteral 0 0 = 1 ∧ rfunLiteral 1 0 = 1 ∧ rfunLiteral 1 1 = 1 := by
  have h0 : rfunRows.getD 0 0 / 10 ^ (20 * 0) % 10 ^ 20 = 10 ^ 19 := by decide +kernel
  have h1 : rfunRows.getD 1 0 / 10 ^ (20 * 0) % 10 ^ 20 = 10 ^ 19 := by decide +kernel
  have h2 : rfunRows.getD 1 0 / 10 ^ (20 * 1) % 10 ^ 20 = 10 ^ 19 := by decide +kernel
  refine ⟨?_, ?_, ?_⟩
  · unfold rfunLiteral
    rw [h0]
    norm_num
  · unfold rfunLiteral
    rw [h1]
    norm_num
  · unfold rfunLiteral
    rw [h2]
    norm_num

theorem besselScaled_far (bt : BesselTab) {x : ℝ} (hx : 16 < x) :
    besselScaled bt 0 x = .ok (1 / (2 * x)) ∧ besselScaled bt 1 x = .ok ((1 - 1 / x) / (2 * x)) := by
  obtain ⟨r0, r1, r2⟩ := rfun_first
  refine ⟨?_, ?_⟩
  · unfold besselScaled
    rw [if_neg (by norm_num; linarith), if_neg (by linarith), besselR_eq (by norm_num), Finset.sum_range_one, r0]
    simp only [Outcome.ok_bind, pow_zero, mul_one]
  · unfold besselScaled
    rw [if_neg (by norm_num; linarith), if_neg (by linarith), besselR_eq (by norm_num), Finset.sum_range_succ, Finset.sum_range_one, r1, r2]
    simp only [Outcome.ok_bind, pow_zero, mul_one, one_mul, pow_one]
    congr 2
    rw [one_div, inv_neg, one_div]
    ring

theorem screenNext1_far (bt : BesselTab) {p k r : ℝ} (hp : 0 < p) (hx : 16 < k * r) :
    screenNext1 bt 1 0 p k r = some (Real.sqrt (k * r / (2 * p))) := by
  obtain ⟨b0, b1⟩ := besselScaled_far bt hx
  have hx0 : k * r ≠ 0 := by linarith
  have hq : screenRatio bt 0 (k * r) = some (1 - 1 / (k * r)) := by
    unfold screenRatio quotC
    rw [if_pos rfl, b0, b1]
    show (if (1 / (2 * (k * r))) = 0 then none else some ((1 - 1 / (k * r)) / (2 * (k * r)) / (1 / (2 * (k * r))))) = _
    rw [if_neg (by positivity)]
    congr 1
    generalize k * r = x at hx0
    field_simp
  unfold screenNext1
  rw [hq]
  simp only [Option.bind_eq_bind, Option.bind_some, lt_irrefl, if_false]
  have e : ((1 : ℤ) : ℝ) + (1 - 1 / (k * r)) * k * r = k * r := by
    rw [mul_assoc]
    generalize k * r = x at hx0
    push_cast
    field_simp
    ring
  unfold rootC
  rw [e, if_neg (not_lt.2 (by have : 0 < k * r := by linarith
                              positivity))]

/-- The estimate for two functions with the exponent `p / 2` at the distance `0.01`, on directions which nearly cancel. -/
theorem sharp_estimate (bt : BesselTab) {p : ℝ} (hp : 1e6 ≤ p) :
    screenPrimitive1 bt 0 1 1e-4 1e-4 (p / 2) (p / 2) (0.005 * p) 0 =
      some (some (Real.sqrt (Real.pi / p) * (1 / (0.01 * p)) * Real.exp (-1e-4 * p) * 0.5 * (1 + erfC (Real.sqrt p * 0.005)))) := by
  have p0 : 0 < p := by linarith
  have hs : Real.sqrt (1e-4 : ℝ) = 0.01 := by
    rw [show (1e-4 : ℝ) = 0.01 ^ 2 by norm_num, Real.sqrt_sq (by norm_num)]
  have hs2 : Real.sqrt (2.5e-5 : ℝ) = 0.005 := by
    rw [show (2.5e-5 : ℝ) = 0.005 ^ 2 by norm_num, Real.sqrt_sq (by norm_num)]
  have ep : p / 2 + p / 2 + 0 = p := by ring
  have es : (p / 2 * 0.01 + p / 2 * 0.01) / p = 0.01 := by field_simp; ring
  have en : screenNext1 bt 1 0 p (0.005 * p) 0.01 = some 0.005 := by
    rw [screenNext1_far bt p0 (by linarith), show 0.005 * p * 0.01 / (2 * p) = (2.5e-5 : ℝ) by field_simp; norm_num, hs2]
  unfold screenPrimitive1
  simp only [hs, ep, es]
  rw [if_neg (not_le.2 p0), screenLoop1, en]
  simp only
  rw [if_neg (by rw [abs_of_neg] <;> norm_num)]
  simp only
  rw [if_neg (by norm_num), (besselScaled_far bt (x := 0.005 * p * 0.005) (by linarith)).1]
  congr 2
  show Real.sqrt (Real.pi / p) * 0.005 ^ (1:ℤ) * (1 / (2 * (0.005 * p * 0.005))) * _ * _ * _ = _
  rw [zpow_one, show -p * 0.005 * 0.005 - p / 2 * 1e-4 - p / 2 * 1e-4 + 0.005 * p * 0.005 = -1e-4 * p by ring]
  have e3 : (0.005 : ℝ) * (1 / (2 * (0.005 * p * 0.005))) = 1 / (0.01 * p) := by
    field_simp
    norm_num
  rw [mul_assoc (Real.sqrt (Real.pi / p)) 0.005, e3]

theorem half_erf_le {p : ℝ} (hp : 0 < p) (r0 : ℝ) : 0 ≤ 0.5 * (1 + erfC (Real.sqrt p * r0)) ∧ 0.5 * (1 + erfC (Real.sqrt p * r0)) ≤ 1 := by
  obtain ⟨h1, h2⟩ := integral_gauss_shift hp r0
  have hs : 0 < Real.sqrt (Real.pi / p) := Real.sqrt_pos.2 (div_pos Real.pi_pos hp)
  have h3 : ∫ r in Ioi (0:ℝ), Real.exp (-p * (r - r0) ^ 2) ≤ Real.sqrt (Real.pi / p) := by
    have hi := (integrable_exp_neg_mul_sq hp).comp_sub_right r0
    have := setIntegral_le_integral hi (s := Ioi 0) (Filter.Eventually.of_forall fun r => (Real.exp_pos _).le)
    refine this.trans (le_of_eq ?_)
    rw [integral_sub_right_eq_self (fun s => Real.exp (-p * s ^ 2)) r0, integral_gaussian]
  have h4 : 0 ≤ ∫ r in Ioi (0:ℝ), Real.exp (-p * (r - r0) ^ 2) := setIntegral_nonneg measurableSet_Ioi fun r _ => (Real.exp_pos _).le
  rw [h2, mul_assoc] at h3 h4
  refine ⟨nonneg_of_mul_nonneg_right h4 hs, ?_⟩
  by_contra h
  have := mul_lt_mul_of_pos_left (not_le.1 h) hs
  linarith

/-- The integral for the same functions. -/
theorem sharp_integral {p : ℝ} (hp : 1e6 ≤ p) : Real.sqrt (Real.pi / p) * (1 / (0.01 * p)) * Real.exp (-1e-4 * p) * (0.25 * Real.exp (6.25e-6 * p)) ≤
    ∫ r in Ioi (0:ℝ), r * (Real.exp (-p * r ^ 2 - 1e-4 * p) * besselI 0 (0.005 * p * r)) := by
  have p0 : 0 < p := by linarith
  have hk : (0:ℝ) ≤ 0.005 * p := by linarith
  have hint : IntegrableOn (fun r : ℝ => r * (Real.exp (-p * r ^ 2 - 1e-4 * p) * besselI 0 (0.005 * p * r))) (Ioi 0) := by
    have h := (mild_integrable mild_inv_sq 1 0 0 p0 hk (le_refl (0:ℝ))).const_mul (Real.exp (-1e-4 * p))
    refine IntegrableOn.congr_fun h (fun r hr => ?_) measurableSet_Ioi
    have hr0 : (0:ℝ) < r := hr
    simp only [mul_zero, besselI_zero_arg, if_true]
    rw [sub_eq_add_neg, Real.exp_add, show -(1e-4 * p) = -1e-4 * p by ring, mul_comm (0.005 * p) r]
    field_simp
  have hg : ∫ r in Ioi (0.0025:ℝ), Real.exp (-p * (r - 0.0025) ^ 2) = Real.sqrt (Real.pi / p) / 2 := by
    rw [← integral_gaussian_Ioi p, ← integral_indicator measurableSet_Ioi, ← integral_indicator measurableSet_Ioi,
      ← integral_sub_right_eq_self (fun s => (Ioi 0).indicator (fun s : ℝ => Real.exp (-p * s ^ 2)) s) 0.0025]
    congr 1
    funext r
    simp only [indicator, mem_Ioi]
    by_cases h : 0.0025 < r
    · rw [if_pos h, if_pos (by linarith)]
    · rw [if_neg h, if_neg (by linarith)]
  have hgi : IntegrableOn (fun r : ℝ => 1 / (0.02 * p) * (Real.exp (-1e-4 * p) * Real.exp (6.25e-6 * p)) * Real.exp (-p * (r - 0.0025) ^ 2)) (Ioi 0.0025) :=
    (((integrable_exp_neg_mul_sq p0).comp_sub_right 0.0025).integrableOn).const_mul _
  have h1 : ∫ r in Ioi (0.0025:ℝ), 1 / (0.02 * p) * (Real.exp (-1e-4 * p) * Real.exp (6.25e-6 * p)) * Real.exp (-p * (r - 0.0025) ^ 2) ≤
      ∫ r in Ioi (0.0025:ℝ), r * (Real.exp (-p * r ^ 2 - 1e-4 * p) * besselI 0 (0.005 * p * r)) := by
    refine setIntegral_mono_on hgi (hint.mono_set (Ioi_subset_Ioi (by norm_num))) measurableSet_Ioi fun r hr => ?_
    have hr1 : (0.0025:ℝ) < r := hr
    have r0 : 0 < r := by linarith
    have hx : 1 ≤ 0.005 * p * r := by nlinarith
    have hb := besselI_zero_ge hx
    have e : 1 / (0.02 * p) * (Real.exp (-1e-4 * p) * Real.exp (6.25e-6 * p)) * Real.exp (-p * (r - 0.0025) ^ 2) =
        r * (Real.exp (-p * r ^ 2 - 1e-4 * p) * (Real.exp (0.005 * p * r) / (4 * (0.005 * p * r)))) := by
      have e1 : Real.exp (-1e-4 * p) * Real.exp (6.25e-6 * p) * Real.exp (-p * (r - 0.0025) ^ 2) =
          Real.exp (-p * r ^ 2 - 1e-4 * p) * Real.exp (0.005 * p * r) := by
        rw [← Real.exp_add, ← Real.exp_add, ← Real.exp_add]
        congr 1
        ring
      rw [mul_assoc, e1, mul_div_assoc']
      generalize Real.exp (-p * r ^ 2 - 1e-4 * p) * Real.exp (0.005 * p * r) = z
      field_simp
      ring
    rw [e]
    exact mul_le_mul_of_nonneg_left (mul_le_mul_of_nonneg_left hb (Real.exp_pos _).le) r0.le
  have h2 : ∫ r in Ioi (0.0025:ℝ), r * (Real.exp (-p * r ^ 2 - 1e-4 * p) * besselI 0 (0.005 * p * r)) ≤
      ∫ r in Ioi (0:ℝ), r * (Real.exp (-p * r ^ 2 - 1e-4 * p) * besselI 0 (0.005 * p * r)) := by
    refine setIntegral_mono_set hint ?_ (HasSubset.Subset.eventuallyLE (Ioi_subset_Ioi (by norm_num)))
    refine (ae_restrict_mem measurableSet_Ioi).mono fun r hr => ?_
    have hr0 : (0:ℝ) < r := hr
    exact mul_nonneg hr0.le (mul_nonneg (Real.exp_pos _).le (besselI_nonneg 0 (by positivity)))
  rw [integral_const_mul, hg] at h1
  refine le_trans (le_of_eq ?_) (h1.trans h2)
  field_simp
  norm_num

/-! ## The number of rounds -/

theorem screenNext1_geometric (bt : BesselTab) {p R y : ℝ} (hp : 0 < p) (hR : 0 < R) (hy : 1 ≤ y) (hf : 16 < 2 * p * R * R) :
    screenNext1 bt 1 0 p (2 * p * R) (R * y ^ 2) = some (R * y) := by
  have h1 : 1 ≤ y ^ 2 := one_le_pow₀ hy
  have h2 : 2 * p * R * R ≤ 2 * p * R * (R * y ^ 2) := mul_le_mul_of_nonneg_left (le_mul_of_one_le_right hR.le h1) (by positivity)
  rw [screenNext1_far bt hp (by linarith), show 2 * p * R * (R * y ^ 2) / (2 * p) = (R * y) ^ 2 by field_simp, Real.sqrt_sq (by positivity)]

/-- Successive points of the search. -/
theorem geometric_gap {R x : ℝ} (hR : 0 < R) (hx : 1 ≤ x) (m : ℕ) : R * x * (x - 1) ≤ |R * x ^ 2 ^ m - R * x ^ 2 ^ (m + 1)| := by
  have e : x ^ 2 ^ (m + 1) = (x ^ 2 ^ m) ^ 2 := by rw [← pow_mul, ← pow_succ]
  have h1 : x ≤ x ^ 2 ^ m := le_self_pow₀ hx (by positivity)
  rw [e, abs_sub_comm, abs_of_nonneg]
  · have : R * (x * (x - 1)) ≤ R * (x ^ 2 ^ m * (x ^ 2 ^ m - 1)) :=
      mul_le_mul_of_nonneg_left (mul_le_mul h1 (by linarith) (by linarith) (by linarith)) hR.le
    nlinarith
  · have h2 : 1 ≤ x ^ 2 ^ m := hx.trans h1
    have : 0 ≤ R * (x ^ 2 ^ m * (x ^ 2 ^ m - 1)) := mul_nonneg hR.le (mul_nonneg (by linarith) (by linarith))
    nlinarith

theorem screenLoop1_fails (bt : BesselTab) {p R x : ℝ} (hp : 0 < p) (hR : 0 < R) (hx : 1 < x) (hf : 16 < 2 * p * R * R) (hd : 1e-2 < R * x * (x - 1))
    (m : ℕ) : screenLoop1 (screenNext1 bt 1 0 p (2 * p * R)) m (R * x ^ 2 ^ m) = none := by
  induction m with
  | zero => rfl
  | succ m ih =>
    have e : x ^ 2 ^ (m + 1) = (x ^ 2 ^ m) ^ 2 := by rw [← pow_mul, ← pow_succ]
    have hg := geometric_gap hR hx.le m
    rw [screenLoop1, e, screenNext1_geometric bt hp hR (one_le_pow₀ hx.le) hf, ← e]
    simp only
    rw [if_pos (by linarith), ih]

theorem screenLoop1_last (bt : BesselTab) {p R x : ℝ} (hp : 0 < p) (hR : 0 < R) (hx : 1 < x) (hf : 16 < 2 * p * R * R) (hd : R * x * (x - 1) ≤ 1e-2)
    (hd2 : 1e-2 < R * x ^ 2 * (x ^ 2 - 1)) (m : ℕ) :
    screenLoop1 (screenNext1 bt 1 0 p (2 * p * R)) (m + 1) (R * x ^ 2 ^ (m + 1)) = some (some (R * x)) := by
  induction m with
  | zero =>
    rw [screenLoop1, zero_add, pow_one, screenNext1_geometric bt hp hR hx.le hf]
    simp only
    rw [if_neg]
    rw [abs_sub_comm, abs_of_nonneg (by nlinarith)]
    nlinarith
  | succ m ih =>
    have e : x ^ 2 ^ (m + 1 + 1) = (x ^ 2 ^ (m + 1)) ^ 2 := by rw [← pow_mul, ← pow_succ]
    have hg := geometric_gap hR (one_le_pow₀ hx.le (n := 2)) m
    rw [← pow_mul, ← pow_mul, ← pow_succ', ← pow_succ'] at hg
    rw [screenLoop1, e, screenNext1_geometric bt hp hR (one_le_pow₀ hx.le) hf, ← e]
    simp only
    rw [if_pos (by linarith), ih]

end Libgrpp
