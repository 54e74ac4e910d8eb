import Verif.Model.SpecNuclear
import Mathlib.Analysis.Calculus.SmoothSeries
import Mathlib.Analysis.Calculus.MeanValue
import Mathlib.Analysis.SpecialFunctions.Log.Deriv
import Mathlib.Analysis.SpecialFunctions.ExpDeriv
import Mathlib.Analysis.PSeries
import Mathlib.NumberTheory.ZetaValues
import Mathlib.MeasureTheory.Integral.IntegralEqImproper
import Mathlib.Analysis.Calculus.FDeriv.Extend
import Mathlib.Analysis.SpecificLimits.Normed

/-! # The functions `S_k` and the repeated antiderivatives of the Fermi function -/

namespace Libgrpp

open MeasureTheory Filter Topology

/-- One term of the series. -/
noncomputable def sTerm (k n : ℕ) (x : ℝ) : ℝ := (-1 : ℝ) ^ (n + 1) * Real.exp (((n : ℝ) + 1) * x) / ((n : ℝ) + 1) ^ k

theorem sTerm_abs (k n : ℕ) (x : ℝ) : |sTerm k n x| = Real.exp (((n : ℝ) + 1) * x) / ((n : ℝ) + 1) ^ k := by
  unfold sTerm
  rw [abs_div, abs_mul, abs_pow, abs_neg, abs_one, one_pow, one_mul, abs_of_pos (Real.exp_pos _),
    abs_of_pos (by positivity)]

theorem sTerm_le_exp (k n : ℕ) (x : ℝ) : |sTerm k n x| ≤ Real.exp x * Real.exp x ^ n := by
  rw [sTerm_abs]
  have h : Real.exp (((n : ℝ) + 1) * x) = Real.exp x * Real.exp x ^ n := by
    rw [← Real.exp_nat_mul, ← Real.exp_add]
    congr 1
    ring
  rw [h]
  exact div_le_self (by positivity) (one_le_pow₀ (by linarith [(Nat.cast_nonneg n : (0 : ℝ) ≤ n)]))

theorem summable_geo {x : ℝ} (hx : x < 0) : Summable fun n : ℕ => Real.exp x * Real.exp x ^ n :=
  (summable_geometric_of_lt_one (Real.exp_pos x).le (Real.exp_lt_one_iff.2 hx)).mul_left _

theorem sTerm_summable (k : ℕ) {x : ℝ} (hx : x < 0) : Summable fun n => sTerm k n x :=
  Summable.of_norm_bounded (summable_geo hx) fun n => sTerm_le_exp k n x

theorem sTerm_hasDerivAt (k n : ℕ) (x : ℝ) : HasDerivAt (sTerm (k + 1) n) (sTerm k n x) x := by
  have h1 : HasDerivAt (fun x : ℝ => ((n : ℝ) + 1) * x) ((n : ℝ) + 1) x := by
    simpa using (hasDerivAt_id x).const_mul ((n : ℝ) + 1)
  have h2 := ((h1.exp.const_mul ((-1 : ℝ) ^ (n + 1))).div_const (((n : ℝ) + 1) ^ (k + 1)))
  refine h2.congr_deriv ?_
  unfold sTerm
  have : ((n : ℝ) + 1) ≠ 0 := by positivity
  field_simp
  ring

theorem fermiS_hasDerivAt (k : ℕ) {x : ℝ} (hx : x < 0) : HasDerivAt (fermiS (k + 1)) (fermiS k x) x := by
  have hx2 : x / 2 < 0 := by linarith
  have := hasDerivAt_tsum_of_isPreconnected (summable_geo hx2) (isOpen_Iio (a := x / 2)) isPreconnected_Iio
    (g := fun n => sTerm (k + 1) n) (g' := fun n y => sTerm k n y)
    (fun n y _ => sTerm_hasDerivAt k n y)
    (fun n y hy => by
      refine (sTerm_le_exp k n y).trans ?_
      have : Real.exp y ≤ Real.exp (x / 2) := Real.exp_le_exp.2 (le_of_lt hy)
      have h0 := Real.exp_pos y
      gcongr)
    (y₀ := x) (by simp only [Set.mem_Iio]; linarith) (sTerm_summable (k + 1) hx) (y := x) (by simp only [Set.mem_Iio]; linarith)
  exact this

theorem summable_inv_pow {k : ℕ} (hk : 2 ≤ k) : Summable fun n : ℕ => 1 / ((n : ℝ) + 1) ^ k := by
  have := (summable_nat_add_iff 1).2 (Real.summable_one_div_nat_pow.2 (show 1 < k by omega))
  simpa using this

theorem sTerm_le_exp_inv (k n : ℕ) {x : ℝ} (hx : x ≤ 0) : |sTerm k n x| ≤ Real.exp x * (1 / ((n : ℝ) + 1) ^ k) := by
  rw [sTerm_abs, mul_one_div]
  have : ((n : ℝ) + 1) * x ≤ x := by nlinarith [(Nat.cast_nonneg n : (0 : ℝ) ≤ n)]
  gcongr

theorem sTerm_summable' {k : ℕ} (hk : 2 ≤ k) {x : ℝ} (hx : x ≤ 0) : Summable fun n => sTerm k n x :=
  Summable.of_norm_bounded ((summable_inv_pow hk).mul_left (Real.exp x)) fun n => sTerm_le_exp_inv k n hx

theorem fermiS_bound {k : ℕ} (hk : 2 ≤ k) {x : ℝ} (hx : x ≤ 0) :
    |fermiS k x| ≤ Real.exp x * ∑' n : ℕ, 1 / ((n : ℝ) + 1) ^ k := by
  rw [← tsum_mul_left]
  exact tsum_of_norm_bounded (f := fun n => sTerm k n x) ((summable_inv_pow hk).mul_left (Real.exp x)).hasSum
    fun n => sTerm_le_exp_inv k n hx

theorem fermiS_continuousOn {k : ℕ} (hk : 2 ≤ k) : ContinuousOn (fermiS k) (Set.Iic 0) := by
  refine continuousOn_tsum (u := fun n : ℕ => 1 / ((n : ℝ) + 1) ^ k) (fun n => ?_) (summable_inv_pow hk) fun n x hx => ?_
  · exact Continuous.continuousOn (by fun_prop)
  · refine (sTerm_le_exp_inv k n hx).trans ?_
    have : Real.exp x ≤ 1 := Real.exp_le_one_iff.2 hx
    have h0 : 0 ≤ 1 / ((n : ℝ) + 1) ^ k := by positivity
    nlinarith

theorem fermiS_one {x : ℝ} (hx : x < 0) : fermiS 1 x = -Real.log (1 + Real.exp x) := by
  have h := Real.hasSum_pow_div_log_of_abs_lt_one (x := -Real.exp x) (by
    rw [abs_neg, abs_of_pos (Real.exp_pos x)]; exact Real.exp_lt_one_iff.2 hx)
  rw [sub_neg_eq_add] at h
  rw [← h.tsum_eq]
  refine tsum_congr fun n => ?_
  rw [neg_pow (Real.exp x), ← Real.exp_nat_mul, pow_one]
  push_cast
  rfl

/-- Alternating sums from the zeta function. -/
theorem alternating_zeta {k : ℕ} (hk : 2 ≤ k) {z : ℝ} (hz : HasSum (fun n : ℕ => (1 : ℝ) / (n : ℝ) ^ k) z) :
    fermiS k 0 = 2 * z / 2 ^ k - z := by
  have hev : HasSum (fun m : ℕ => (1 : ℝ) / ((2 * m : ℕ) : ℝ) ^ k) (z / 2 ^ k) := by
    have := hz.div_const (2 ^ k)
    refine this.congr_fun ?_ |> fun h => h
    intro m
    push_cast
    rw [mul_pow]
    field_simp
  have hodd : Summable fun m : ℕ => (1 : ℝ) / ((2 * m + 1 : ℕ) : ℝ) ^ k :=
    hz.summable.comp_injective (i := fun m : ℕ => 2 * m + 1) (fun a b h => by simpa using h)
  have htot := HasSum.even_add_odd (f := fun n : ℕ => (1 : ℝ) / (n : ℝ) ^ k) hev hodd.hasSum
  have ho := hz.unique htot
  have halt : HasSum (fun n : ℕ => (-1 : ℝ) ^ n * (1 / (n : ℝ) ^ k))
      (z / 2 ^ k + -∑' m : ℕ, (1 : ℝ) / ((2 * m + 1 : ℕ) : ℝ) ^ k) := by
    refine HasSum.even_add_odd ?_ ?_
    · simpa [pow_mul] using hev
    · have := hodd.hasSum.neg
      simpa [pow_succ, pow_mul] using this
  have hs := (hasSum_nat_add_iff' 1).2 halt
  have e : fermiS k 0 = z / 2 ^ k + -∑' m : ℕ, (1 : ℝ) / ((2 * m + 1 : ℕ) : ℝ) ^ k -
      ∑ i ∈ Finset.range 1, (-1 : ℝ) ^ i * (1 / (i : ℝ) ^ k) := by
    rw [← hs.tsum_eq]
    refine tsum_congr fun n => ?_
    simp [mul_zero, div_eq_mul_inv]
  rw [e]
  have h0 : (1 : ℝ) / ((0 : ℕ) : ℝ) ^ k = 0 := by
    rw [Nat.cast_zero, zero_pow (by omega)]
    simp
  rw [Finset.sum_range_one, h0]
  have : ∑' m : ℕ, (1 : ℝ) / ((2 * m + 1 : ℕ) : ℝ) ^ k = z - z / 2 ^ k := by linarith
  rw [this]
  ring

theorem fermiS_two_zero : fermiS 2 0 = -(Real.pi ^ 2 / 12) := by
  rw [alternating_zeta le_rfl hasSum_zeta_two]
  ring

theorem fermiS_four_zero : fermiS 4 0 = -(7 * Real.pi ^ 4 / 720) := by
  rw [alternating_zeta (by norm_num) hasSum_zeta_four]
  ring

theorem bernoulli_six : bernoulli 6 = 1 / 42 := by
  rw [bernoulli_eq_bernoulli'_of_ne_one (by norm_num), bernoulli'_def]
  have h5 : bernoulli' 5 = 0 := bernoulli'_eq_zero_of_odd (by decide) (by norm_num)
  norm_num [Finset.sum_range_succ, Nat.choose, h5]

theorem fermiS_six_zero : fermiS 6 0 = -(31 * Real.pi ^ 6 / 30240) := by
  have h := hasSum_zeta_nat (k := 3) (by norm_num)
  rw [alternating_zeta (by norm_num) h]
  norm_num [bernoulli_six, Nat.factorial]
  ring

/-- Constants of integration at 0. -/
noncomputable def tConst (i : ℕ) : ℝ := if i = 0 then 1 else if i = 1 then 0 else ((-1 : ℝ) ^ (i + 1) - 1) * fermiS i 0

/-- The polynomial part of the repeated antiderivative for negative arguments. -/
noncomputable def tPoly (k : ℕ) (x : ℝ) : ℝ := ∑ i ∈ Finset.range (k + 1), tConst i * (x ^ (k - i) / ((k - i).factorial : ℝ))

theorem tPoly_hasDerivAt (k : ℕ) (x : ℝ) : HasDerivAt (tPoly (k + 1)) (tPoly k x) x := by
  have : ∀ i ∈ Finset.range (k + 1 + 1), HasDerivAt (fun x : ℝ => tConst i * (x ^ (k + 1 - i) / ((k + 1 - i).factorial : ℝ)))
      (if i ≤ k then tConst i * (x ^ (k - i) / ((k - i).factorial : ℝ)) else 0) x := by
    intro i hi
    rw [Finset.mem_range] at hi
    split_ifs with h
    · have e : k + 1 - i = (k - i) + 1 := by omega
      rw [e]
      have := ((hasDerivAt_pow (k - i + 1) x).div_const (((k - i + 1).factorial : ℝ))).const_mul (tConst i)
      refine this.congr_deriv ?_
      rw [Nat.factorial_succ]
      push_cast
      have h1 : ((k - i : ℕ) : ℝ) + 1 ≠ 0 := by positivity
      have h2 : ((k - i).factorial : ℝ) ≠ 0 := by positivity
      field_simp
    · have e : i = k + 1 := by omega
      subst e
      simpa using hasDerivAt_const x (tConst (k + 1))
  have h := HasDerivAt.fun_sum this
  refine h.congr_deriv ?_
  rw [Finset.sum_range_succ, if_neg (by omega), add_zero]
  exact Finset.sum_congr rfl fun i hi => if_pos (by rw [Finset.mem_range] at hi; omega)

theorem tPoly_zero (k : ℕ) : tPoly k 0 = tConst k := by
  unfold tPoly
  rw [Finset.sum_eq_single k]
  · simp
  · intro i hi hne
    rw [Finset.mem_range] at hi
    rw [zero_pow (by omega)]
    simp
  · simp

/-- Repeated antiderivatives of the Fermi function `1/(1+e^x)`, vanishing at infinity. -/
noncomputable def fermiT (k : ℕ) (x : ℝ) : ℝ :=
  if k = 0 then 1 / (1 + Real.exp x)
  else if k = 1 then -Real.log (1 + Real.exp (-x))
  else if 0 ≤ x then (-1 : ℝ) ^ (k + 1) * fermiS k (-x)
  else fermiS k x + tPoly k x

theorem fermiT_nonneg {k : ℕ} (hk : 2 ≤ k) {x : ℝ} (hx : 0 ≤ x) : fermiT k x = (-1 : ℝ) ^ (k + 1) * fermiS k (-x) := by
  unfold fermiT
  rw [if_neg (by omega), if_neg (by omega), if_pos hx]

theorem tConst_big {k : ℕ} (hk : 2 ≤ k) : tConst k = ((-1 : ℝ) ^ (k + 1) - 1) * fermiS k 0 := by
  unfold tConst
  rw [if_neg (by omega), if_neg (by omega)]

theorem fermiT_nonpos {k : ℕ} (hk : 2 ≤ k) {x : ℝ} (hx : x ≤ 0) : fermiT k x = fermiS k x + tPoly k x := by
  unfold fermiT
  rw [if_neg (by omega), if_neg (by omega)]
  split_ifs with h
  · have : x = 0 := le_antisymm hx h
    subst this
    rw [tPoly_zero, tConst_big hk, neg_zero]
    ring
  · rfl

theorem fermiT_continuous {k : ℕ} (hk : 2 ≤ k) : Continuous (fermiT k) := by
  have e : fermiT k = fun x => fermiT k (max x 0) + (fermiT k (min x 0) - fermiT k 0) := by
    funext x
    rcases le_total 0 x with h | h
    · rw [max_eq_left h, min_eq_right h, sub_self, add_zero]
    · rw [max_eq_right h, min_eq_left h]
      ring
  rw [e]
  refine Continuous.add ?_ (Continuous.sub ?_ continuous_const)
  · have : (fun x : ℝ => fermiT k (max x 0)) = fun x => (-1 : ℝ) ^ (k + 1) * fermiS k (-(max x 0)) := by
      funext x
      exact fermiT_nonneg hk (le_max_right _ _)
    rw [this]
    refine continuous_const.mul ?_
    exact (fermiS_continuousOn hk).comp_continuous (by fun_prop) fun x => by
      simp only [Set.mem_Iic, Left.neg_nonpos_iff]
      exact le_max_right _ _
  · have : (fun x : ℝ => fermiT k (min x 0)) = fun x => fermiS k (min x 0) + tPoly k (min x 0) := by
      funext x
      exact fermiT_nonpos hk (min_le_right _ _)
    rw [this]
    refine Continuous.add ?_ ?_
    · exact (fermiS_continuousOn hk).comp_continuous (by fun_prop) fun x => Set.mem_Iic.2 (min_le_right _ _)
    · unfold tPoly
      fun_prop

theorem fermiT_one_hasDerivAt (x : ℝ) : HasDerivAt (fermiT 1) (fermiT 0 x) x := by
  have h1 : HasDerivAt (fun x : ℝ => 1 + Real.exp (-x)) (-Real.exp (-x)) x := by
    simpa using ((hasDerivAt_neg x).exp).const_add 1
  have h2 := (h1.log (by positivity)).neg
  have e : fermiT 1 = fun x => -Real.log (1 + Real.exp (-x)) := by
    funext x
    simp [fermiT]
  rw [e]
  refine h2.congr_deriv ?_
  simp only [fermiT, if_true]
  rw [Real.exp_neg]
  have := Real.exp_pos x
  field_simp
  ring

theorem fermiT_one_continuous : Continuous (fermiT 1) := by
  rw [continuous_iff_continuousAt]
  exact fun x => (fermiT_one_hasDerivAt x).continuousAt

/-- Derivative away from 0, given the value of `S_k` and the polynomial. -/
theorem fermiT_hasDerivAt_ne (k : ℕ) (hk : 1 ≤ k) {x : ℝ} (hx : x ≠ 0) : HasDerivAt (fermiT (k + 1)) (fermiT k x) x := by
  rcases lt_or_gt_of_ne hx with h | h
  · have h1 := (fermiS_hasDerivAt k h).add (tPoly_hasDerivAt k x)
    have ev : fermiT (k + 1) =ᶠ[𝓝 x] fun x => fermiS (k + 1) x + tPoly (k + 1) x := by
      filter_upwards [Iio_mem_nhds h] with y hy
      exact fermiT_nonpos (by omega) (le_of_lt hy)
    refine (h1.congr_of_eventuallyEq ev).congr_deriv ?_
    rcases Nat.lt_or_ge 1 k with h2 | h2
    · exact (fermiT_nonpos (by omega) h.le).symm
    · have : k = 1 := by omega
      subst this
      rw [fermiS_one h]
      simp only [tPoly, Finset.sum_range_succ, Finset.sum_range_zero, tConst, fermiT]
      norm_num
      have : Real.log (1 + Real.exp (-x)) = Real.log (Real.exp (-x) * (1 + Real.exp x)) := by
        rw [mul_add, ← Real.exp_add]
        norm_num [add_comm]
      rw [this, Real.log_mul (Real.exp_ne_zero _) (by positivity), Real.log_exp]
      ring
  · have h0 : -x < 0 := by linarith
    have h1 := ((fermiS_hasDerivAt k h0).comp x (hasDerivAt_neg x)).const_mul ((-1 : ℝ) ^ (k + 1 + 1))
    have ev : fermiT (k + 1) =ᶠ[𝓝 x] fun x => (-1 : ℝ) ^ (k + 1 + 1) * (fermiS (k + 1) ∘ Neg.neg) x := by
      filter_upwards [Ioi_mem_nhds h] with y hy
      exact fermiT_nonneg (by omega) (le_of_lt hy)
    refine (h1.congr_of_eventuallyEq ev).congr_deriv ?_
    rcases Nat.lt_or_ge 1 k with h2 | h2
    · rw [fermiT_nonneg (by omega) h.le]
      ring
    · have : k = 1 := by omega
      subst this
      rw [fermiS_one h0]
      simp only [fermiT, one_ne_zero, if_false, if_true]
      ring

theorem fermiT_hasDerivAt (k : ℕ) (x : ℝ) : HasDerivAt (fermiT (k + 1)) (fermiT k x) x := by
  rcases Nat.eq_zero_or_pos k with rfl | hk
  · exact fermiT_one_hasDerivAt x
  rcases eq_or_ne x 0 with rfl | hx
  · refine hasDerivAt_of_hasDerivAt_of_ne (fun y hy => fermiT_hasDerivAt_ne k hk hy)
      (fermiT_continuous (by omega)).continuousAt ?_
    rcases Nat.lt_or_ge 1 k with h2 | h2
    · exact (fermiT_continuous (by omega)).continuousAt
    · have : k = 1 := by omega
      subst this
      exact fermiT_one_continuous.continuousAt
  · exact fermiT_hasDerivAt_ne k hk hx

/-- Exponential decay. -/
theorem fermiT_decay (k : ℕ) : ∃ C : ℝ, ∀ x, 0 ≤ x → |fermiT k x| ≤ C * Real.exp (-x) := by
  rcases Nat.lt_or_ge k 2 with h | h
  · refine ⟨1, fun x hx => ?_⟩
    rw [one_mul]
    interval_cases k
    · simp only [fermiT, if_true]
      rw [abs_of_pos (by positivity), Real.exp_neg, ← one_div]
      exact one_div_le_one_div_of_le (Real.exp_pos x) (by linarith)
    · simp only [fermiT, one_ne_zero, if_false, if_true]
      rw [abs_neg, abs_of_nonneg (Real.log_nonneg (by linarith [Real.exp_pos (-x)]))]
      have := Real.log_le_sub_one_of_pos (show 0 < 1 + Real.exp (-x) by positivity)
      linarith
  · refine ⟨∑' n : ℕ, 1 / ((n : ℝ) + 1) ^ k, fun x hx => ?_⟩
    rw [fermiT_nonneg h hx, abs_mul, abs_pow, abs_neg, abs_one, one_pow, one_mul, mul_comm]
    exact fermiS_bound h (by linarith)

/-! ## Moments of the Fermi function -/

/-- Antiderivative of `s^m T_j((s-c)/a)`. -/
noncomputable def momB (c a : ℝ) : ℕ → ℕ → ℝ → ℝ
  | 0, j, s => a * fermiT (j + 1) ((s - c) / a)
  | m + 1, j, s => a * s ^ (m + 1) * fermiT (j + 1) ((s - c) / a) - ((m : ℝ) + 1) * a * momB c a m (j + 1) s

theorem phi_hasDerivAt (c a : ℝ) (j : ℕ) (s : ℝ) :
    HasDerivAt (fun s => fermiT (j + 1) ((s - c) / a)) (fermiT j ((s - c) / a) / a) s := by
  have h1 : HasDerivAt (fun s : ℝ => (s - c) / a) (1 / a) s := ((hasDerivAt_id s).sub_const c).div_const a
  have := (fermiT_hasDerivAt j ((s - c) / a)).comp s h1
  refine this.congr_deriv ?_
  ring

theorem momB_hasDerivAt (c : ℝ) {a : ℝ} (ha : a ≠ 0) (m : ℕ) : ∀ (j : ℕ) (s : ℝ),
    HasDerivAt (momB c a m j) (s ^ m * fermiT j ((s - c) / a)) s := by
  induction m with
  | zero =>
    intro j s
    have := (phi_hasDerivAt c a j s).const_mul a
    refine this.congr_deriv ?_
    field_simp
  | succ m ih =>
    intro j s
    have h1 := ((hasDerivAt_pow (m + 1) s).const_mul a).mul (phi_hasDerivAt c a j s)
    have h2 := (ih (j + 1) s).const_mul (((m : ℝ) + 1) * a)
    refine (h1.sub h2).congr_deriv ?_
    rw [show m + 1 - 1 = m by omega]
    push_cast
    field_simp
    ring

theorem momB_tendsto (c : ℝ) {a : ℝ} (ha : 0 < a) (m : ℕ) : ∀ j : ℕ, Tendsto (momB c a m j) atTop (𝓝 0) := by
  have key : ∀ (m k : ℕ), Tendsto (fun s : ℝ => s ^ m * fermiT k ((s - c) / a)) atTop (𝓝 0) := by
    intro m k
    obtain ⟨C, hC⟩ := fermiT_decay k
    have h1 : Tendsto (fun s : ℝ => (C * Real.exp (c / a)) * (s ^ m * Real.exp (-(1 / a) * s))) atTop (𝓝 0) := by
      have := (Real.tendsto_pow_mul_exp_neg_atTop_nhds_zero m).comp
        (tendsto_id.const_mul_atTop (show (0 : ℝ) < 1 / a by positivity))
      have h2 := this.const_mul ((C * Real.exp (c / a)) * a ^ m)
      rw [mul_zero] at h2
      refine h2.congr fun s => ?_
      simp only [Function.comp, id]
      rw [show -(1 / a * s) = -(1 / a) * s by ring, mul_pow, one_div, inv_pow]
      have : a ^ m ≠ 0 := by positivity
      field_simp
    refine squeeze_zero_norm' ?_ h1
    filter_upwards [eventually_ge_atTop (max c 0)] with s hs
    have hsc : 0 ≤ (s - c) / a := div_nonneg (by linarith [le_max_left c 0]) ha.le
    have hs0 : 0 ≤ s := le_trans (le_max_right c 0) hs
    rw [norm_mul, Real.norm_eq_abs, Real.norm_eq_abs, abs_of_nonneg (pow_nonneg hs0 m)]
    have := hC _ hsc
    have e : Real.exp (-((s - c) / a)) = Real.exp (c / a) * Real.exp (-(1 / a) * s) := by
      rw [← Real.exp_add]
      congr 1
      field_simp
      ring
    rw [e] at this
    calc s ^ m * |fermiT k ((s - c) / a)| ≤ s ^ m * (C * (Real.exp (c / a) * Real.exp (-(1 / a) * s))) := by gcongr
      _ = _ := by ring
  induction m with
  | zero =>
    intro j
    have := (key 0 (j + 1)).const_mul a
    simpa [momB] using this
  | succ m ih =>
    intro j
    have h1 := (key (m + 1) (j + 1)).const_mul a
    have h2 := (ih (j + 1)).const_mul (((m : ℝ) + 1) * a)
    have := h1.sub h2
    simp only [mul_zero, sub_zero] at this
    refine this.congr fun s => ?_
    simp only [momB]
    ring

/-- The Fermi function. -/
noncomputable def fermiFn (c a s : ℝ) : ℝ := 1 / (1 + Real.exp ((s - c) / a))

theorem fermiFn_moment (c : ℝ) {a : ℝ} (ha : 0 < a) (m : ℕ) {r : ℝ} (hr : 0 ≤ r) :
    IntegrableOn (fun s => s ^ m * fermiFn c a s) (Set.Ioi r) ∧
    ∫ s in Set.Ioi r, s ^ m * fermiFn c a s = -momB c a m 0 r := by
  have hd : ∀ x ∈ Set.Ici r, HasDerivAt (momB c a m 0) (x ^ m * fermiFn c a x) x := fun x _ => by
    have := momB_hasDerivAt c ha.ne' m 0 x
    simpa [fermiT, fermiFn] using this
  have hp : ∀ x ∈ Set.Ioi r, 0 ≤ x ^ m * fermiFn c a x := fun x hx => by
    have : 0 ≤ x := hr.trans (le_of_lt hx)
    unfold fermiFn
    positivity
  refine ⟨integrableOn_Ioi_deriv_of_nonneg' hd hp (momB_tendsto c ha m 0), ?_⟩
  rw [integral_Ioi_of_hasDerivAt_of_nonneg' hd hp (momB_tendsto c ha m 0), zero_sub]

theorem fermiFn_moment_below (c : ℝ) {a : ℝ} (ha : 0 < a) (m : ℕ) (r : ℝ) :
    ∫ s in (0 : ℝ)..r, s ^ m * fermiFn c a s = momB c a m 0 r - momB c a m 0 0 := by
  refine intervalIntegral.integral_eq_sub_of_hasDerivAt (fun x _ => ?_) ?_
  · have := momB_hasDerivAt c ha.ne' m 0 x
    simpa [fermiT, fermiFn] using this
  · refine Continuous.intervalIntegrable ?_ _ _
    unfold fermiFn
    refine Continuous.mul (by fun_prop) (Continuous.div continuous_const (by fun_prop) fun s => by positivity)

end Libgrpp
