import Verif.Lemmas.FermiFunction
import Verif.Lemmas.GaussMoment
import Verif.Model.NuclearModels
import Mathlib.Analysis.SpecificLimits.Normed

/-! # Lemmas about nuclear charge distributions -/

namespace Libgrpp

open MeasureTheory Filter Topology

/-! ## Fermi models -/

theorem tConst_zero : tConst 0 = 1 := by simp [tConst]
theorem tConst_one : tConst 1 = 0 := by simp [tConst]
theorem tConst_two : tConst 2 = Real.pi ^ 2 / 6 := by rw [tConst_big le_rfl, fermiS_two_zero]; ring
theorem tConst_three : tConst 3 = 0 := by rw [tConst_big (by norm_num)]; ring
theorem tConst_four : tConst 4 = 7 * Real.pi ^ 4 / 360 := by rw [tConst_big (by norm_num), fermiS_four_zero]; ring
theorem tConst_five : tConst 5 = 0 := by rw [tConst_big (by norm_num)]; ring
theorem tConst_six : tConst 6 = 31 * Real.pi ^ 6 / 15120 := by rw [tConst_big (by norm_num), fermiS_six_zero]; ring
theorem tConst_seven : tConst 7 = 0 := by rw [tConst_big (by norm_num)]; ring

theorem tPoly_two (x : ℝ) : tPoly 2 x = x ^ 2 / 2 + Real.pi ^ 2 / 6 := by
  simp only [tPoly, Finset.sum_range_succ, Finset.sum_range_zero, tConst_zero, tConst_one, tConst_two]
  norm_num [Nat.factorial]

theorem tPoly_three (x : ℝ) : tPoly 3 x = x ^ 3 / 6 + Real.pi ^ 2 / 6 * x := by
  simp only [tPoly, Finset.sum_range_succ, Finset.sum_range_zero, tConst_zero, tConst_one, tConst_two, tConst_three]
  norm_num [Nat.factorial]

theorem tPoly_four (x : ℝ) : tPoly 4 x = x ^ 4 / 24 + Real.pi ^ 2 / 6 * (x ^ 2 / 2) + 7 * Real.pi ^ 4 / 360 := by
  simp only [tPoly, Finset.sum_range_succ, Finset.sum_range_zero, tConst_zero, tConst_one, tConst_two, tConst_three,
    tConst_four]
  norm_num [Nat.factorial]

theorem tPoly_five (x : ℝ) : tPoly 5 x = x ^ 5 / 120 + Real.pi ^ 2 / 6 * (x ^ 3 / 6) + 7 * Real.pi ^ 4 / 360 * x := by
  simp only [tPoly, Finset.sum_range_succ, Finset.sum_range_zero, tConst_zero, tConst_one, tConst_two, tConst_three,
    tConst_four, tConst_five]
  norm_num [Nat.factorial]

theorem tPoly_seven (x : ℝ) : tPoly 7 x = x ^ 7 / 5040 + Real.pi ^ 2 / 6 * (x ^ 5 / 120) + 7 * Real.pi ^ 4 / 360 * (x ^ 3 / 6) +
    31 * Real.pi ^ 6 / 15120 * x := by
  simp only [tPoly, Finset.sum_range_succ, Finset.sum_range_zero, tConst_zero, tConst_one, tConst_two, tConst_three,
    tConst_four, tConst_five, tConst_six, tConst_seven]
  norm_num [Nat.factorial]

/-- Normalisation factor of the bubble model with exact special functions. -/
noncomputable def bubbleN (c a k : ℝ) : ℝ :=
  1 + Real.pi * Real.pi * (a * a) / (c * c) - 6 * (a * a * a) / (c * c * c) * fermiS 3 (-c / a) + 3 / 5 * k +
    2 * Real.pi * Real.pi * a ^ 2 * k / c ^ 2 +
    7 * Real.pi * Real.pi * Real.pi * Real.pi * a ^ 4 * k / (5 * c ^ 4) - 72 * a ^ 5 * k / c ^ 5 * fermiS 5 (-c / a)

theorem momB2_zero {c a : ℝ} (hc : 0 < c) (ha : 0 < a) :
    -momB c a 2 0 0 = c ^ 3 / 3 + Real.pi ^ 2 / 3 * c * a ^ 2 - 2 * a ^ 3 * fermiS 3 (-c / a) := by
  have hx : (0 - c) / a = -c / a := by rw [zero_sub]
  have hx0 : -c / a ≤ 0 := div_nonpos_of_nonpos_of_nonneg (by linarith) ha.le
  simp only [momB, hx]
  norm_num
  rw [fermiT_nonpos (by norm_num) hx0, tPoly_three]
  field_simp
  ring

theorem momB4_zero {c a : ℝ} (hc : 0 < c) (ha : 0 < a) :
    -momB c a 4 0 0 = c ^ 5 / 5 + 2 * c ^ 3 * a ^ 2 * Real.pi ^ 2 / 3 + 7 * a ^ 4 * c * Real.pi ^ 4 / 15 -
      24 * a ^ 5 * fermiS 5 (-c / a) := by
  have hx : (0 - c) / a = -c / a := by rw [zero_sub]
  have hx0 : -c / a ≤ 0 := div_nonpos_of_nonpos_of_nonneg (by linarith) ha.le
  simp only [momB, hx]
  norm_num
  rw [fermiT_nonpos (by norm_num) hx0, tPoly_five]
  field_simp
  ring

theorem momB6_zero {c a : ℝ} (hc : 0 < c) (ha : 0 < a) :
    -momB c a 6 0 0 = c ^ 7 / 7 * (1 + 7 * a * a * Real.pi * Real.pi / (c * c) + 49 / 3 * Real.pi ^ 4 * a ^ 4 / c ^ 4 +
      31 / 3 * Real.pi ^ 6 * a ^ 6 / c ^ 6 - 5040 * a ^ 7 / c ^ 7 * fermiS 7 (-c / a)) := by
  have hx : (0 - c) / a = -c / a := by rw [zero_sub]
  have hx0 : -c / a ≤ 0 := div_nonpos_of_nonpos_of_nonneg (by linarith) ha.le
  simp only [momB, hx]
  norm_num
  rw [fermiT_nonpos (by norm_num) hx0, tPoly_seven]
  field_simp
  ring

/-- Density of the bubble model. -/
noncomputable def bubbleRho (Z c a k r : ℝ) : ℝ :=
  3 * Z / (4 * Real.pi * (c * c * c) * bubbleN c a k) * (1 + k * (r / c) ^ 2) / (1 + Real.exp ((r - c) / a))

theorem bubbleRho_eq (Z c a k r : ℝ) : bubbleRho Z c a k r =
    3 * Z / (4 * Real.pi * (c * c * c) * bubbleN c a k) * ((1 + k * (r / c) ^ 2) * fermiFn c a r) := by
  unfold bubbleRho fermiFn
  ring

/-- `∫ 4π s^(m+2) ρ` above `r`. -/
theorem bubble_moment (Z k : ℝ) {c a : ℝ} (hc : 0 < c) (ha : 0 < a) (m : ℕ) {r : ℝ} (hr : 0 ≤ r) :
    ∫ s in Set.Ioi r, 4 * Real.pi * s ^ m * bubbleRho Z c a k s =
      3 * Z / (c ^ 3 * bubbleN c a k) * (-momB c a m 0 r + k / c ^ 2 * -momB c a (m + 2) 0 r) := by
  obtain ⟨i1, e1⟩ := fermiFn_moment c ha m hr
  obtain ⟨i2, e2⟩ := fermiFn_moment c ha (m + 2) hr
  have h : ∀ s, 4 * Real.pi * s ^ m * bubbleRho Z c a k s = 3 * Z / (c ^ 3 * bubbleN c a k) *
      (s ^ m * fermiFn c a s + k / c ^ 2 * (s ^ (m + 2) * fermiFn c a s)) := by
    intro s
    rw [bubbleRho_eq]
    have := Real.pi_pos
    rcases eq_or_ne (bubbleN c a k) 0 with hN | hN
    · simp [hN]
    · field_simp
      ring
  simp only [h]
  rw [integral_const_mul, integral_add i1 (i2.const_mul _), integral_const_mul, e1, e2]

theorem bubble_moment_below (Z k : ℝ) {c a : ℝ} (hc : 0 < c) (ha : 0 < a) (m : ℕ) (r : ℝ) :
    ∫ s in (0 : ℝ)..r, 4 * Real.pi * s ^ m * bubbleRho Z c a k s =
      3 * Z / (c ^ 3 * bubbleN c a k) * (momB c a m 0 r - momB c a m 0 0 +
        k / c ^ 2 * (momB c a (m + 2) 0 r - momB c a (m + 2) 0 0)) := by
  have h : ∀ s, 4 * Real.pi * s ^ m * bubbleRho Z c a k s = 3 * Z / (c ^ 3 * bubbleN c a k) *
      (s ^ m * fermiFn c a s + k / c ^ 2 * (s ^ (m + 2) * fermiFn c a s)) := by
    intro s
    rw [bubbleRho_eq]
    have := Real.pi_pos
    rcases eq_or_ne (bubbleN c a k) 0 with hN | hN
    · simp [hN]
    · field_simp
      ring
  have ci : ∀ m : ℕ, Continuous fun s => s ^ m * fermiFn c a s := by
    intro m
    unfold fermiFn
    exact Continuous.mul (by fun_prop) (Continuous.div continuous_const (by fun_prop) fun s => by positivity)
  simp only [h]
  rw [intervalIntegral.integral_const_mul, intervalIntegral.integral_add ((ci m).intervalIntegrable _ _)
    (((ci (m + 2)).const_mul _).intervalIntegrable _ _), intervalIntegral.integral_const_mul, fermiFn_moment_below c ha,
    fermiFn_moment_below c ha]

theorem bubbleN_eq {c a : ℝ} (k : ℝ) (hc : 0 < c) (ha : 0 < a) :
    bubbleN c a k = 3 / c ^ 3 * (-momB c a 2 0 0 + k / c ^ 2 * -momB c a 4 0 0) := by
  rw [momB2_zero hc ha, momB4_zero hc ha]
  unfold bubbleN
  field_simp
  ring

/-- The normalisation factor is positive for a nonnegative `k`. -/
theorem bubbleN_pos {c a k : ℝ} (hc : 0 < c) (ha : 0 < a) (hk : 0 ≤ k) : 0 < bubbleN c a k := by
  rw [bubbleN_eq k hc ha]
  have hpos : ∀ m : ℕ, 0 < -momB c a m 0 0 := by
    intro m
    obtain ⟨i, e⟩ := fermiFn_moment c ha m (le_refl (0 : ℝ))
    rw [← e, setIntegral_pos_iff_support_of_nonneg_ae]
    · have : Function.support (fun s => s ^ m * fermiFn c a s) ∩ Set.Ioi 0 = Set.Ioi 0 := by
        refine Set.inter_eq_right.2 fun s hs => ?_
        have hs' : (0 : ℝ) < s := hs
        simp only [Function.mem_support]
        unfold fermiFn
        positivity
      rw [this]
      simp
    · refine (ae_restrict_mem measurableSet_Ioi).mono fun s hs => ?_
      have hs' : (0 : ℝ) < s := hs
      simp only [Pi.zero_apply]
      unfold fermiFn
      positivity
    · exact i
  have h2 := hpos 2
  have h4 := hpos 4
  positivity

theorem bubble_charge (Z k : ℝ) {c a : ℝ} (hc : 0 < c) (ha : 0 < a) (hN : bubbleN c a k ≠ 0) :
    totalCharge (bubbleRho Z c a k) = Z := by
  unfold totalCharge
  rw [bubble_moment Z k hc ha 2 le_rfl]
  have e := bubbleN_eq k hc ha
  have : -momB c a 2 0 0 + k / c ^ 2 * -momB c a (2 + 2) 0 0 = bubbleN c a k * c ^ 3 / 3 := by
    rw [e]
    field_simp
  rw [this]
  field_simp

/-- Potential of the bubble model in terms of the repeated antiderivatives. -/
theorem bubble_energy (Z k : ℝ) {c a : ℝ} (hc : 0 < c) (ha : 0 < a) {r : ℝ} (hr : 0 < r) :
    electronEnergy (bubbleRho Z c a k) r = -(3 * Z / (c ^ 3 * bubbleN c a k)) * (1 / r) *
      ((-momB c a 2 0 0 - a ^ 2 * r * fermiT 2 ((r - c) / a) + 2 * a ^ 3 * fermiT 3 ((r - c) / a)) +
        k / c ^ 2 * (-momB c a 4 0 0 - a ^ 2 * r ^ 3 * fermiT 2 ((r - c) / a) + 6 * a ^ 3 * r ^ 2 * fermiT 3 ((r - c) / a) -
          18 * a ^ 4 * r * fermiT 4 ((r - c) / a) + 24 * a ^ 5 * fermiT 5 ((r - c) / a))) := by
  unfold electronEnergy
  have h1 := bubble_moment Z k hc ha 1 hr.le
  simp only [pow_one] at h1
  rw [bubble_moment_below Z k hc ha 2 r, h1]
  have e2 : momB c a 2 0 r = a * r ^ 2 * fermiT 1 ((r - c) / a) - 2 * a * (a * r * fermiT 2 ((r - c) / a) -
      a * (a * fermiT 3 ((r - c) / a))) := by simp only [momB]; norm_num
  have e1 : momB c a 1 0 r = a * r * fermiT 1 ((r - c) / a) - a * (a * fermiT 2 ((r - c) / a)) := by
    simp only [momB]; norm_num
  have e3 : momB c a (1 + 2) 0 r = a * r ^ 3 * fermiT 1 ((r - c) / a) - 3 * a * (a * r ^ 2 * fermiT 2 ((r - c) / a) - 2 * a *
      (a * r * fermiT 3 ((r - c) / a) - a * (a * fermiT 4 ((r - c) / a)))) := by
    simp only [momB]; norm_num
  have e4 : momB c a (2 + 2) 0 r = a * r ^ 4 * fermiT 1 ((r - c) / a) - 4 * a * (a * r ^ 3 * fermiT 2 ((r - c) / a) - 3 * a *
      (a * r ^ 2 * fermiT 3 ((r - c) / a) - 2 * a * (a * r * fermiT 4 ((r - c) / a) - a * (a * fermiT 5 ((r - c) / a))))) := by
    simp only [momB]; norm_num
  rw [e1, e2, e3, e4]
  rcases eq_or_ne (bubbleN c a k) 0 with hN | hN
  · simp [hN]
  · field_simp
    ring

theorem bubble_second (Z k : ℝ) {c a : ℝ} (hc : 0 < c) (ha : 0 < a) :
    secondMoment (bubbleRho Z c a k) =
      3 * Z / (c ^ 3 * bubbleN c a k) * (-momB c a 4 0 0 + k / c ^ 2 * -momB c a 6 0 0) := by
  unfold secondMoment
  rw [bubble_moment Z k hc ha 4 le_rfl]

theorem fermiS_terms_antitone (k : ℕ) {x : ℝ} (hx : x ≤ 0) :
    Antitone fun n : ℕ => Real.exp (((n : ℝ) + 1) * x) / ((n : ℝ) + 1) ^ k := by
  refine antitone_nat_of_succ_le fun n => ?_
  have hn : (0 : ℝ) ≤ n := Nat.cast_nonneg n
  refine div_le_div₀ (Real.exp_pos _).le (Real.exp_le_exp.2 ?_) (by positivity) ?_
  · push_cast
    nlinarith
  · push_cast
    exact pow_le_pow_left₀ (by positivity) (by linarith) k

/-- An alternating series with decreasing terms. -/
theorem fermiS_bounds {k : ℕ} (hk : 2 ≤ k) {x : ℝ} (hx : x ≤ 0) : -Real.exp x ≤ fermiS k x ∧ fermiS k x ≤ 0 := by
  have hs := sTerm_summable' hk hx
  have ht : Tendsto (fun N => ∑ n ∈ Finset.range N, (-1 : ℝ) ^ n * (Real.exp (((n : ℝ) + 1) * x) / ((n : ℝ) + 1) ^ k)) atTop
      (𝓝 (-fermiS k x)) := by
    have := hs.hasSum.tendsto_sum_nat.neg
    refine this.congr fun N => ?_
    rw [← Finset.sum_neg_distrib]
    refine Finset.sum_congr rfl fun n _ => ?_
    unfold sTerm
    rw [pow_succ]
    ring
  have ha := fermiS_terms_antitone k hx
  have h1 := ha.alternating_series_le_tendsto ht 0
  have h2 := ha.tendsto_le_alternating_series ht 0
  simp at h1 h2
  constructor <;> linarith

/-! ## Charged ball -/

theorem ball_above (Z R : ℝ) (m : ℕ) {r : ℝ} (h : Real.sqrt (5 / 3) * R ≤ r) :
    ∫ s in Set.Ioi r, 4 * Real.pi * s ^ m * densBall s Z R = 0 := by
  rw [setIntegral_congr_fun (g := fun _ => (0 : ℝ)) measurableSet_Ioi]
  · simp
  · intro s hs
    have hs' : r < s := hs
    have : ¬s ≤ Real.sqrt (5 / 3) * R := by linarith
    simp only [densBall, if_neg this, mul_zero]

theorem ball_between (Z R : ℝ) (m : ℕ) {r q : ℝ} (h : r ≤ q) (hq : q ≤ Real.sqrt (5 / 3) * R) :
    ∫ s in r..q, 4 * Real.pi * s ^ m * densBall s Z R =
      3 * Z / (Real.sqrt (5 / 3) * R) ^ 3 * ((q ^ (m + 1) - r ^ (m + 1)) / (m + 1)) := by
  rw [intervalIntegral.integral_congr (g := fun s => 3 * Z / (Real.sqrt (5 / 3) * R) ^ 3 * s ^ m)]
  · rw [intervalIntegral.integral_const_mul, integral_pow]
  · intro s hs
    rw [Set.uIcc_of_le h] at hs
    have : s ≤ Real.sqrt (5 / 3) * R := hs.2.trans hq
    have hp := Real.pi_pos.ne'
    simp only [densBall, this, if_true]
    rcases eq_or_ne R 0 with hR | hR
    · simp [hR]
    · have h5 : Real.sqrt (5 / 3) ≠ 0 := by positivity
      field_simp

theorem ball_tail (Z R : ℝ) (m : ℕ) {r : ℝ} (h : r ≤ Real.sqrt (5 / 3) * R) :
    ∫ s in Set.Ioi r, 4 * Real.pi * s ^ m * densBall s Z R =
      3 * Z / (Real.sqrt (5 / 3) * R) ^ 3 * (((Real.sqrt (5 / 3) * R) ^ (m + 1) - r ^ (m + 1)) / (m + 1)) := by
  rw [← ball_between Z R m h le_rfl, intervalIntegral.integral_of_le h]
  refine setIntegral_eq_of_subset_of_forall_sdiff_eq_zero measurableSet_Ioi Set.Ioc_subset_Ioi_self fun s hs => ?_
  have : ¬s ≤ Real.sqrt (5 / 3) * R := fun hle => hs.2 ⟨hs.1, hle⟩
  simp only [densBall, if_neg this, mul_zero]

theorem ball_inside_integrable (Z R : ℝ) (m : ℕ) (r q : ℝ) :
    IntervalIntegrable (fun s => 4 * Real.pi * s ^ m * densBall s Z R) volume r q := by
  have : (fun s => 4 * Real.pi * s ^ m * densBall s Z R) = Set.indicator (Set.Iic (Real.sqrt (5 / 3) * R)) fun s =>
      4 * Real.pi * s ^ m * (3 * Z / (4 * Real.pi * (Real.sqrt (5 / 3) * R) * (Real.sqrt (5 / 3) * R) * (Real.sqrt (5 / 3) * R))) := by
    funext s
    by_cases hs : s ≤ Real.sqrt (5 / 3) * R
    · simp [densBall, Set.indicator]
    · simp [densBall, Set.indicator]
  rw [this, intervalIntegrable_iff]
  have hc : Continuous fun s : ℝ => 4 * Real.pi * s ^ m *
      (3 * Z / (4 * Real.pi * (Real.sqrt (5 / 3) * R) * (Real.sqrt (5 / 3) * R) * (Real.sqrt (5 / 3) * R))) := by fun_prop
  exact ((intervalIntegrable_iff.1 (hc.intervalIntegrable r q)).indicator measurableSet_Iic)

/-- Charge inside the sphere of radius `r`. -/
theorem ball_within (Z : ℝ) {R : ℝ} (hR : 0 < R) {r : ℝ} (hr : 0 ≤ r) :
    ∫ s in (0 : ℝ)..r, 4 * Real.pi * s ^ 2 * densBall s Z R =
      if r ≤ Real.sqrt (5 / 3) * R then Z * r ^ 3 / (Real.sqrt (5 / 3) * R) ^ 3 else Z := by
  split_ifs with h
  · rw [ball_between Z R 2 hr h]
    norm_num
    ring
  · push Not at h
    have hq : 0 < Real.sqrt (5 / 3) * R := by positivity
    rw [← intervalIntegral.integral_add_adjacent_intervals (b := Real.sqrt (5 / 3) * R) (ball_inside_integrable Z R 2 _ _)
      (ball_inside_integrable Z R 2 _ _), ball_between Z R 2 hq.le le_rfl]
    have : ∫ s in (Real.sqrt (5 / 3) * R)..r, 4 * Real.pi * s ^ 2 * densBall s Z R = 0 := by
      rw [intervalIntegral.integral_of_le h.le]
      rw [setIntegral_congr_fun (g := fun _ => (0 : ℝ)) measurableSet_Ioc]
      · simp
      · intro s hs
        have : ¬s ≤ Real.sqrt (5 / 3) * R := by have := hs.1; linarith
        simp only [densBall, if_neg this, mul_zero]
    rw [this]
    norm_num
    field_simp

/-! ## Gaussian distribution -/

theorem gauss_xi {R : ℝ} (hR : 0 < R) : 0 < 3 / (2 * R * R) := by positivity

theorem densGauss_eq (s Z : ℝ) {R : ℝ} (hR : 0 < R) : densGauss s Z R =
    Z * (3 / (2 * R * R) / Real.pi * Real.sqrt (3 / (2 * R * R) / Real.pi)) * Real.exp (-(3 / (2 * R * R)) * s ^ 2) := by
  have hxi := gauss_xi hR
  have hp := Real.pi_pos
  have e : (3 / (2 * R * R) / Real.pi) ^ (1.5 : ℝ) = 3 / (2 * R * R) / Real.pi * Real.sqrt (3 / (2 * R * R) / Real.pi) := by
    rw [Real.sqrt_eq_rpow, show (1.5 : ℝ) = 1 + 1 / 2 by norm_num, Real.rpow_add (by positivity), Real.rpow_one]
  unfold densGauss
  simp only [e]
  congr 2
  ring

/-- Half-line moments of the Gaussian density. -/
theorem gauss_moment (Z : ℝ) {R : ℝ} (hR : 0 < R) (m : ℕ) :
    ∫ s in Set.Ioi (0 : ℝ), 4 * Real.pi * s ^ (2 * m) * densGauss s Z R =
      4 * Z * (3 / (2 * R * R)) * ((Nat.doubleFactorial (2 * m - 1) : ℝ) / (2 ^ (m + 1) * (3 / (2 * R * R)) ^ m)) := by
  have hxi := gauss_xi hR
  have hp := Real.pi_pos
  have h := moment_even m hxi
  simp only [densGauss_eq _ Z hR]
  generalize 3 / (2 * R * R) = xi at *
  have e : ∀ s : ℝ, 4 * Real.pi * s ^ (2 * m) * (Z * (xi / Real.pi * Real.sqrt (xi / Real.pi)) * Real.exp (-xi * s ^ 2)) =
      4 * Z * xi * Real.sqrt (xi / Real.pi) * (s ^ (2 * m) * Real.exp (-xi * s ^ 2)) := by
    intro s
    field_simp
  simp only [e]
  rw [integral_const_mul, h]
  have hs : Real.sqrt (xi / Real.pi) * Real.sqrt (Real.pi / xi) = 1 := by
    rw [← Real.sqrt_mul (by positivity)]
    rw [show xi / Real.pi * (Real.pi / xi) = 1 by field_simp]
    simp
  linear_combination (4 * Z * xi * ((Nat.doubleFactorial (2 * m - 1) : ℝ) / (2 ^ (m + 1) * xi ^ m))) * hs

theorem gauss_tail {b : ℝ} (hb : 0 < b) (r : ℝ) :
    ∫ s in Set.Ioi r, s * Real.exp (-b * s ^ 2) = Real.exp (-b * r ^ 2) / (2 * b) := by
  have hd : ∀ s ∈ Set.Ici r, HasDerivAt (fun s => -(Real.exp (-b * s ^ 2) / (2 * b))) (s * Real.exp (-b * s ^ 2)) s := by
    intro s _
    have h1 : HasDerivAt (fun s : ℝ => -b * s ^ 2) (-b * (2 * s)) s := by
      simpa using (hasDerivAt_pow 2 s).const_mul (-b)
    have h2 := ((h1.exp).div_const (2 * b)).neg
    have e : s * Real.exp (-b * s ^ 2) = -(Real.exp (-b * s ^ 2) * (-b * (2 * s)) / (2 * b)) := by
      field_simp
    rw [e]
    exact h2
  have ht : Tendsto (fun s => -(Real.exp (-b * s ^ 2) / (2 * b))) atTop (𝓝 0) := by
    have h1 : Tendsto (fun s : ℝ => -b * s ^ 2) atTop atBot :=
      (tendsto_pow_atTop (by norm_num : (2 : ℕ) ≠ 0)).const_mul_atTop_of_neg (by linarith)
    have h2 := ((Real.tendsto_exp_atBot.comp h1).div_const (2 * b)).neg
    simpa using h2
  have hi : IntegrableOn (fun s => s * Real.exp (-b * s ^ 2)) (Set.Ioi r) := (integrable_mul_exp_neg_mul_sq hb).integrableOn
  have := integral_Ioi_of_hasDerivAt_of_tendsto' hd hi ht
  rw [this]
  ring

theorem gauss_below {b : ℝ} (hb : 0 < b) (r : ℝ) :
    ∫ s in (0 : ℝ)..r, s ^ 2 * Real.exp (-b * s ^ 2) =
      -(r * Real.exp (-b * r ^ 2)) / (2 * b) + (1 / (2 * b)) * ∫ s in (0 : ℝ)..r, Real.exp (-b * s ^ 2) := by
  have hd : ∀ s ∈ Set.uIcc 0 r, HasDerivAt (fun s => -(s * Real.exp (-b * s ^ 2)) / (2 * b))
      (s ^ 2 * Real.exp (-b * s ^ 2) - (1 / (2 * b)) * Real.exp (-b * s ^ 2)) s := by
    intro s _
    have h1 : HasDerivAt (fun s : ℝ => -b * s ^ 2) (-b * (2 * s)) s := by
      simpa using (hasDerivAt_pow 2 s).const_mul (-b)
    have h2 := (((hasDerivAt_id s).mul h1.exp).neg).div_const (2 * b)
    have e : s ^ 2 * Real.exp (-b * s ^ 2) - (1 / (2 * b)) * Real.exp (-b * s ^ 2) =
        -(1 * Real.exp (-b * s ^ 2) + id s * (Real.exp (-b * s ^ 2) * (-b * (2 * s)))) / (2 * b) := by
      simp only [id]
      field_simp
      ring
    rw [e]
    exact h2
  have c1 : Continuous fun s : ℝ => s ^ 2 * Real.exp (-b * s ^ 2) := by fun_prop
  have c2 : Continuous fun s : ℝ => (1 / (2 * b)) * Real.exp (-b * s ^ 2) := by fun_prop
  have h := intervalIntegral.integral_eq_sub_of_hasDerivAt hd ((c1.sub c2).intervalIntegrable _ _)
  rw [intervalIntegral.integral_sub (c1.intervalIntegrable _ _) (c2.intervalIntegrable _ _),
    intervalIntegral.integral_const_mul] at h
  simp only [zero_mul, neg_zero, zero_div, sub_zero] at h
  linarith

theorem erfC_scaled {b : ℝ} (hb : 0 < b) (r : ℝ) :
    ∫ s in (0 : ℝ)..r, Real.exp (-b * s ^ 2) = Real.sqrt Real.pi / (2 * Real.sqrt b) * erfC (Real.sqrt b * r) := by
  have hs : 0 < Real.sqrt b := Real.sqrt_pos.2 hb
  have h := intervalIntegral.integral_comp_mul_left (a := 0) (b := r) (fun t => Real.exp (-t ^ 2)) hs.ne'
  have e : ∀ s : ℝ, -(Real.sqrt b * s) ^ 2 = -b * s ^ 2 := by
    intro s
    rw [mul_pow, Real.sq_sqrt hb.le]
    ring
  simp only [e, mul_zero, smul_eq_mul] at h
  rw [h]
  unfold erfC
  have hp : Real.sqrt Real.pi ≠ 0 := (Real.sqrt_pos.2 Real.pi_pos).ne'
  field_simp

theorem gauss_energy (Z : ℝ) {R : ℝ} (hR : 0 < R) {r : ℝ} (hr : 0 < r) :
    electronEnergy (fun s => densGauss s Z R) r = potGauss r Z R := by
  have hxi := gauss_xi hR
  have hp := Real.pi_pos
  unfold electronEnergy potGauss
  simp only [densGauss_eq _ Z hR]
  generalize 3 / (2 * R * R) = xi at *
  have e1 : ∀ s : ℝ, 4 * Real.pi * s ^ 2 * (Z * (xi / Real.pi * Real.sqrt (xi / Real.pi)) * Real.exp (-xi * s ^ 2)) =
      4 * Z * xi * Real.sqrt (xi / Real.pi) * (s ^ 2 * Real.exp (-xi * s ^ 2)) := by
    intro s
    field_simp
  have e2 : ∀ s : ℝ, 4 * Real.pi * s * (Z * (xi / Real.pi * Real.sqrt (xi / Real.pi)) * Real.exp (-xi * s ^ 2)) =
      4 * Z * xi * Real.sqrt (xi / Real.pi) * (s * Real.exp (-xi * s ^ 2)) := by
    intro s
    field_simp
  simp only [e1, e2]
  rw [integral_const_mul, intervalIntegral.integral_const_mul, gauss_tail hxi, gauss_below hxi, erfC_scaled hxi,
    Real.sqrt_div hxi.le]
  have h1 : Real.sqrt xi ≠ 0 := (Real.sqrt_pos.2 hxi).ne'
  have h2 : Real.sqrt Real.pi ≠ 0 := (Real.sqrt_pos.2 hp).ne'
  field_simp
  ring

/-- `erf(b r)/r` tends to `2 b/√π`. -/
theorem erfC_div_tendsto (b : ℝ) :
    Tendsto (fun r => erfC (b * r) / r) (𝓝[≠] 0) (𝓝 (2 * b / Real.sqrt Real.pi)) := by
  have hd : HasDerivAt (fun x : ℝ => ∫ t in (0 : ℝ)..x, Real.exp (-t ^ 2)) (Real.exp (-(0 : ℝ) ^ 2)) 0 := by
    have c : Continuous fun t : ℝ => Real.exp (-t ^ 2) := by fun_prop
    exact intervalIntegral.integral_hasDerivAt_right (c.intervalIntegrable _ _) (c.stronglyMeasurableAtFilter _ _)
      c.continuousAt
  have h2 : HasDerivAt (fun r : ℝ => erfC (b * r)) (2 * b / Real.sqrt Real.pi) 0 := by
    have hb : HasDerivAt (fun r : ℝ => b * r) b 0 := by simpa using (hasDerivAt_id (0 : ℝ)).const_mul b
    have hd' : HasDerivAt (fun x : ℝ => ∫ t in (0 : ℝ)..x, Real.exp (-t ^ 2)) (Real.exp (-(0 : ℝ) ^ 2)) (b * 0) := by
      rw [mul_zero]; exact hd
    have := (hd'.comp (0 : ℝ) hb).const_mul (2 / Real.sqrt Real.pi)
    unfold erfC
    have e : 2 * b / Real.sqrt Real.pi = 2 / Real.sqrt Real.pi * (Real.exp (-(0 : ℝ) ^ 2) * b) := by
      norm_num
      ring
    rw [e]
    exact this
  rw [hasDerivAt_iff_tendsto_slope] at h2
  refine h2.congr fun r => ?_
  simp [slope, erfC]
  ring

end Libgrpp
