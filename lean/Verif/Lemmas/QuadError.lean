import Mathlib.Analysis.Calculus.MeanValue
import Verif.Lemmas.Type2Main

/-! # An a-priori bound for the error of the radial quadrature -/

namespace Libgrpp

open MeasureTheory Set Filter Topology

/-- Left Riemann sums of a Lipschitz function. -/
theorem riemann_lipschitz {h : ℝ → ℝ} {K : ℝ} (hc : ContinuousOn h (Icc 0 1))
    (hK : ∀ x y, 0 ≤ x → x ≤ y → y ≤ 1 → |h y - h x| ≤ K * (y - x)) (n : ℕ) :
    |∑ i ∈ Finset.range (n + 1), h (i / (n + 1)) / (n + 1) - ∫ x in (0:ℝ)..1, h x| ≤ K / (2 * (n + 1)) := by
  have hn1 : (0 : ℝ) < n + 1 := by positivity
  set a : ℕ → ℝ := fun i => i / (n + 1) with ha
  have ha0 : a 0 = 0 := by simp [ha]
  have ha1 : a (n + 1) = 1 := by
    simp only [ha]; push_cast; exact div_self hn1.ne'
  have hmem : ∀ i ≤ n + 1, a i ∈ Icc (0:ℝ) 1 := by
    intro i hi
    refine ⟨by positivity, ?_⟩
    simp only [ha]
    rw [div_le_one hn1]
    exact_mod_cast hi
  have hmono : ∀ i, a i ≤ a (i + 1) := by
    intro i; simp only [ha]; push_cast
    exact div_le_div_of_nonneg_right (by linarith) hn1.le
  have hlen : ∀ i, a (i + 1) - a i = 1 / (n + 1) := by
    intro i; simp only [ha]; push_cast; field_simp; ring
  have hint : ∀ i < n + 1, IntervalIntegrable h volume (a i) (a (i + 1)) := by
    intro i hi
    apply ContinuousOn.intervalIntegrable
    rw [uIcc_of_le (hmono i)]
    exact hc.mono (Icc_subset_Icc (hmem i (by omega)).1 (hmem (i + 1) (by omega)).2)
  have hsum := intervalIntegral.sum_integral_adjacent_intervals hint
  rw [ha0, ha1] at hsum
  rw [← hsum, ← Finset.sum_sub_distrib]
  have hterm : ∀ i ∈ Finset.range (n + 1), |h (i / (n + 1)) / (n + 1) - ∫ x in a i..a (i + 1), h x| ≤ K * (1 / (n + 1)) ^ 2 / 2 := by
    intro i hi
    have hi' := Finset.mem_range.1 hi
    have e1 : h (i / (n + 1)) / (n + 1) = ∫ _ in a i..a (i + 1), h (a i) := by
      rw [intervalIntegral.integral_const, hlen, smul_eq_mul]
      simp only [ha]; ring
    rw [e1, ← intervalIntegral.integral_sub (by simp) (hint i hi')]
    have e2 : (∫ x in a i..a (i + 1), K * (x - a i)) = K * (1 / (n + 1)) ^ 2 / 2 := by
      rw [intervalIntegral.integral_const_mul, intervalIntegral.integral_comp_sub_right (fun x => x), sub_self, hlen, integral_id]
      ring
    rw [← e2]
    refine (intervalIntegral.abs_integral_le_integral_abs (hmono i)).trans ?_
    refine intervalIntegral.integral_mono_on (hmono i) ?_ (by apply Continuous.intervalIntegrable; fun_prop) fun x hx => ?_
    · exact (intervalIntegrable_const.sub (hint i hi')).abs
    · rw [abs_sub_comm]
      exact hK (a i) x (hmem i (by omega)).1 hx.1 (hx.2.trans (hmem (i + 1) (by omega)).2)
  calc _ ≤ ∑ i ∈ Finset.range (n + 1), |h (i / (n + 1)) / (n + 1) - ∫ x in a i..a (i + 1), h x| := Finset.abs_sum_le_sum_abs _ _
    _ ≤ ∑ i ∈ Finset.range (n + 1), K * (1 / ((n:ℝ) + 1)) ^ 2 / 2 := Finset.sum_le_sum hterm
    _ = K / (2 * (n + 1)) := by rw [Finset.sum_const, Finset.card_range, nsmul_eq_mul]; push_cast; field_simp

theorem phiMap_exp {x : ℝ} (hx : x ∈ Ioo (0:ℝ) 1) : Real.exp (phiMap x / 5) = (1 - x ^ 3)⁻¹ := by
  have h1 : x ^ 3 < 1 := pow_lt_one₀ hx.1.le hx.2 (by norm_num)
  unfold phiMap
  rw [show -5 * Real.log (1 - x ^ 3) / 5 = -Real.log (1 - x ^ 3) by ring, Real.exp_neg, Real.exp_log (by linarith)]

theorem pulled_deriv {h h' : ℝ → ℝ} (hd : ∀ r, 0 < r → HasDerivAt h (h' r) r) {x : ℝ} (hx : x ∈ Ioo (0:ℝ) 1) :
    HasDerivAt (pulled h) ((15 * x ^ 2 / (1 - x ^ 3)) ^ 2 * h' (phiMap x) +
      (30 * x / (1 - x ^ 3) + 45 * x ^ 4 / (1 - x ^ 3) ^ 2) * h (phiMap x)) x := by
  have h1 : x ^ 3 < 1 := pow_lt_one₀ hx.1.le hx.2 (by norm_num)
  have h0 : (1 : ℝ) - x ^ 3 ≠ 0 := by linarith
  have a1 : HasDerivAt (fun y : ℝ => 15 * y ^ 2) (30 * x) x := by
    refine ((hasDerivAt_pow 2 x).const_mul 15).congr_deriv ?_
    norm_num
    ring
  have a2 : HasDerivAt (fun y : ℝ => 1 - y ^ 3) (-(3 * x ^ 2)) x := by
    simpa using (hasDerivAt_pow 3 x).const_sub 1
  have a3 := (a1.div a2 h0).mul ((hd _ (phiMap_pos hx)).comp x (phiMap_deriv hx))
  refine (a3.congr_deriv ?_).congr_of_eventuallyEq ?_
  · simp only [Function.comp, Pi.div_apply]
    field_simp
    ring
  · filter_upwards [Ioo_mem_nhds hx.1 hx.2] with y hy
    unfold pulled
    rw [if_pos hy]
    rfl

/-- The error of the rule with `N` nodes, for a function that decays, together with its derivative, at least like `exp(-2r/5)`. -/
theorem quad_error {F h h' : ℝ → ℝ} {a M0 M1 : ℝ} (hF : ∀ r, 0 < r → r ^ 2 * F r = h r) (hd : ∀ r, 0 < r → HasDerivAt h (h' r) r)
    (ha : Tendsto h (𝓝[>] 0) (𝓝 a)) (b0 : ∀ r, 0 < r → |h r| * Real.exp (2 * r / 5) ≤ M0) (b1 : ∀ r, 0 < r → |h' r| * Real.exp (2 * r / 5) ≤ M1) (N : ℕ) :
    |fullQuad F N - ∫ r in Ioi (0:ℝ), r ^ 2 * F r| ≤ (225 * M1 + 75 * M0) / (2 * (N + 1)) := by
  have e0 : ∫ r in Ioi (0:ℝ), r ^ 2 * F r = ∫ x in (0:ℝ)..1, pulled h x := by
    rw [pulled_integral]
    exact setIntegral_congr_fun measurableSet_Ioi fun r hr => hF r hr
  have m0 : 0 ≤ M0 := le_trans (by positivity) (b0 1 one_pos)
  have m1 : 0 ≤ M1 := le_trans (by positivity) (b1 1 one_pos)
  have hcont : ContinuousOn (pulled h) (Icc 0 1) := by
    refine pulled_continuous (fun r hr => (hd r hr).continuousAt.continuousWithinAt) ha ?_
    have hlim : Tendsto (fun r : ℝ => M0 * Real.exp (-(r / 5))) atTop (𝓝 0) := by
      have h1 : Tendsto (fun r : ℝ => r / 5) atTop atTop := tendsto_id.atTop_div_const (by norm_num)
      simpa using (Real.tendsto_exp_neg_atTop_nhds_zero.comp h1).const_mul M0
    refine squeeze_zero_norm' ?_ hlim
    filter_upwards [eventually_gt_atTop 0] with r hr
    rw [norm_mul, Real.norm_eq_abs, Real.norm_eq_abs, Real.abs_exp]
    have := mul_le_mul_of_nonneg_right (b0 r hr) (Real.exp_pos (-(r / 5))).le
    rwa [mul_assoc, ← Real.exp_add, show 2 * r / 5 + -(r / 5) = r / 5 by ring] at this
  have e1 : fullQuad F N = ∑ i ∈ Finset.range (N + 1), pulled h (i / (N + 1)) / (N + 1) := by
    rw [Finset.sum_range_succ']
    have h0 : pulled h (((0:ℕ) : ℝ) / (N + 1)) / (N + 1) = 0 := by
      rw [pulled, if_neg (by simp)]; simp
    rw [h0, add_zero, fullQuad]
    refine Finset.sum_congr rfl fun i hi => ?_
    rw [gridW_term F N (i + 1) (by omega) (by have := Finset.mem_range.1 hi; omega)]
    unfold pulled
    split_ifs with hx
    · beta_reduce
      rw [hF _ (phiMap_pos hx)]
    · rfl
  rw [e0, e1]
  refine riemann_lipschitz hcont (fun x y hx hxy hy => ?_) N
  rcases hxy.eq_or_lt with rfl | hlt
  · simp
  obtain ⟨c, hc, he⟩ := exists_hasDerivAt_eq_slope (pulled h) _ hlt (hcont.mono (Icc_subset_Icc hx hy))
    (fun z hz => pulled_deriv hd ⟨lt_of_le_of_lt hx hz.1, lt_of_lt_of_le hz.2 hy⟩)
  have hcm : c ∈ Ioo (0:ℝ) 1 := ⟨lt_of_le_of_lt hx hc.1, lt_of_lt_of_le hc.2 hy⟩
  have hyx : 0 < y - x := by linarith
  rw [eq_div_iff hyx.ne'] at he
  rw [← he, abs_mul, abs_of_pos hyx]
  refine mul_le_mul_of_nonneg_right ?_ hyx.le
  have hr := phiMap_pos hcm
  have hE : Real.exp (2 * phiMap c / 5) = (1 - c ^ 3)⁻¹ ^ 2 := by
    rw [← phiMap_exp hcm, ← Real.exp_nat_mul]
    congr 1
    push_cast
    ring
  have c0 := b0 _ hr
  have c1 := b1 _ hr
  rw [hE] at c0 c1
  have p3 : c ^ 3 < 1 := pow_lt_one₀ hcm.1.le hcm.2 (by norm_num)
  have p30 : 0 < c ^ 3 := pow_pos hcm.1 3
  set u := (1 - c ^ 3)⁻¹ with hu
  have hu1 : 1 ≤ u := by
    rw [hu]
    exact (one_le_inv₀ (by linarith)).2 (by linarith)
  have c2 : c ^ 4 ≤ 1 := pow_le_one₀ hcm.1.le hcm.2.le
  have f1 : |(15 * c ^ 2 / (1 - c ^ 3)) ^ 2 * h' (phiMap c)| ≤ 225 * M1 := by
    rw [abs_mul, abs_of_nonneg (sq_nonneg _), div_eq_mul_inv, ← hu]
    have : (15 * c ^ 2 * u) ^ 2 * |h' (phiMap c)| = 225 * c ^ 4 * (|h' (phiMap c)| * u ^ 2) := by ring
    rw [this]
    exact mul_le_mul (by linarith) c1 (by positivity) (by norm_num)
  have f2 : |(30 * c / (1 - c ^ 3) + 45 * c ^ 4 / (1 - c ^ 3) ^ 2) * h (phiMap c)| ≤ 75 * M0 := by
    have hw : 30 * c / (1 - c ^ 3) + 45 * c ^ 4 / (1 - c ^ 3) ^ 2 = 30 * c * u + 45 * c ^ 4 * u ^ 2 := by
      rw [hu, div_eq_mul_inv, div_eq_mul_inv, inv_pow]
    have hw0 : 0 ≤ 30 * c * u + 45 * c ^ 4 * u ^ 2 := by
      have := hcm.1.le
      positivity
    have hw1 : 30 * c * u + 45 * c ^ 4 * u ^ 2 ≤ 75 * u ^ 2 := by
      have g1 : c * u ≤ 1 * u ^ 2 := mul_le_mul hcm.2.le (by nlinarith) (by linarith) zero_le_one
      have g2 : c ^ 4 * u ^ 2 ≤ 1 * u ^ 2 := mul_le_mul_of_nonneg_right c2 (by positivity)
      linarith
    rw [hw, abs_mul, abs_of_nonneg hw0]
    calc _ ≤ 75 * u ^ 2 * |h (phiMap c)| := mul_le_mul_of_nonneg_right hw1 (abs_nonneg _)
      _ = 75 * (|h (phiMap c)| * u ^ 2) := by ring
      _ ≤ _ := by linarith
  exact (abs_add_le _ _).trans (add_le_add f1 f2)

/-- Sums of the rule are bounded by the maximum of the function. -/
theorem fullQuad_sup {F : ℝ → ℝ} {M : ℝ} (b : ∀ r, 0 < r → r ^ 2 * |F r| * Real.exp (2 * r / 5) ≤ M) (N : ℕ) : |fullQuad F N| ≤ 15 * M := by
  have m0 : 0 ≤ M := le_trans (by positivity) (b 1 one_pos)
  unfold fullQuad
  refine (Finset.abs_sum_le_sum_abs _ _).trans ?_
  have hn1 : (0:ℝ) < N + 1 := by positivity
  have h1 : ∀ i ∈ Finset.range N, |gridW N (i + 1) * F (gridR N (i + 1))| ≤ 15 * M / (N + 1) := by
    intro i hi
    have hi := Finset.mem_range.1 hi
    rw [gridW_term F N (i + 1) (by omega) (by omega), abs_div, abs_of_pos hn1]
    refine div_le_div_of_nonneg_right ?_ hn1.le
    unfold pulled
    split_ifs with hx
    · set x := (((i + 1 : ℕ):ℝ)) / (N + 1)
      have p3 : x ^ 3 < 1 := pow_lt_one₀ hx.1.le hx.2 (by norm_num)
      have p30 : 0 < x ^ 3 := pow_pos hx.1 3
      have hb := b _ (phiMap_pos hx)
      have hE : Real.exp (2 * phiMap x / 5) = (1 - x ^ 3)⁻¹ ^ 2 := by
        rw [← phiMap_exp hx, ← Real.exp_nat_mul]
        congr 1
        push_cast
        ring
      rw [hE] at hb
      have hu1 : 1 ≤ (1 - x ^ 3)⁻¹ := (one_le_inv₀ (by linarith)).2 (by linarith)
      set u := (1 - x ^ 3)⁻¹ with hu
      have x2 : x ^ 2 ≤ 1 := pow_le_one₀ hx.1.le hx.2.le
      rw [div_eq_mul_inv, ← hu, abs_mul, abs_mul _ (F _), abs_of_nonneg (show 0 ≤ 15 * x ^ 2 * u by positivity), abs_of_nonneg (sq_nonneg (phiMap x))]
      have g1 : x ^ 2 * u ≤ 1 * u ^ 2 := mul_le_mul x2 (by nlinarith) (by linarith) zero_le_one
      have := mul_le_mul_of_nonneg_right g1 (show 0 ≤ phiMap x ^ 2 * |F (phiMap x)| by positivity)
      nlinarith
    · rw [abs_zero]
      linarith
  refine (Finset.sum_le_sum h1).trans ?_
  rw [Finset.sum_const, Finset.card_range, nsmul_eq_mul, ← mul_div_assoc, div_le_iff₀ hn1]
  nlinarith

/-! ## The semilocal integrands -/

/-- A bound for `r² |U(r)|`. -/
noncomputable def potEnv (p : Potential) (r : ℝ) : ℝ :=
  ∑ k ∈ Finset.range p.num, |p.coeffs.getD k 0| * (r ^ (p.powers.getD k 0).toNat * Real.exp (-p.alpha.getD k 0 * r ^ 2))

/-- A bound for the derivative of `r² U(r)`. -/
noncomputable def potSlope (p : Potential) (r : ℝ) : ℝ :=
  ∑ k ∈ Finset.range p.num, |p.coeffs.getD k 0| * (((p.powers.getD k 0).toNat * r ^ ((p.powers.getD k 0).toNat - 1) +
    r ^ (p.powers.getD k 0).toNat * (2 * p.alpha.getD k 0 * r)) * Real.exp (-p.alpha.getD k 0 * r ^ 2))

/-- A bound for the derivative of the radial functions of a shell. -/
noncomputable def radSlope (s : Shell) (C : Point) (r : ℝ) : ℝ :=
  ∑ i ∈ Finset.range s.num, |s.weight i| * (2 * s.alphaAt i * (r + vnorm (toC s C)) * Real.exp (-s.alphaAt i * (r - vnorm (toC s C)) ^ 2))

/-- A bound for the integrand. -/
noncomputable def semiEnv (p : Potential) (A B : Shell) (C : Point) (n : ℕ) (r : ℝ) : ℝ := potEnv p r * (r ^ n * (radEnv A C r * radEnv B C r))

/-- A bound for the derivative of the integrand. -/
noncomputable def semiSlope (p : Potential) (A B : Shell) (C : Point) (n : ℕ) (r : ℝ) : ℝ :=
  potSlope p r * (r ^ n * (radEnv A C r * radEnv B C r)) +
    potEnv p r * (n * r ^ (n - 1) * (radEnv A C r * radEnv B C r) + r ^ n * (radSlope A C r * radEnv B C r + radEnv A C r * radSlope B C r))

/-- `r² U(r)`. -/
noncomputable def potNumer (p : Potential) (r : ℝ) : ℝ :=
  ∑ k ∈ Finset.range p.num, p.coeffs.getD k 0 * (r ^ (p.powers.getD k 0).toNat * Real.exp (-p.alpha.getD k 0 * r ^ 2))

theorem potNumer_eq {p : Potential} (h : p.Regular) {r : ℝ} (hr : 0 < r) : potentialRadial p r = potNumer p r / r ^ 2 := by
  unfold potentialRadial potNumer
  rw [Finset.sum_div]
  refine Finset.sum_congr rfl fun k hk => ?_
  obtain ⟨h1, -⟩ := h k (Finset.mem_range.1 hk)
  have e : r ^ (p.powers.getD k 0 - 2) = r ^ (p.powers.getD k 0).toNat / r ^ 2 := by
    rw [zpow_sub₀ hr.ne']
    congr 1
    · conv_lhs => rw [← Int.toNat_of_nonneg h1]
      rw [zpow_natCast]
  rw [e]
  ring

theorem potNumer_le (p : Potential) {r : ℝ} (hr : 0 ≤ r) : |potNumer p r| ≤ potEnv p r := by
  unfold potNumer potEnv
  refine (Finset.abs_sum_le_sum_abs _ _).trans (Finset.sum_le_sum fun k _ => ?_)
  rw [abs_mul, abs_of_nonneg (a := r ^ _ * _) (by positivity)]

theorem potNumer_deriv {p : Potential} (h : p.Regular) {r : ℝ} (hr : 0 ≤ r) :
    ∃ d, HasDerivAt (potNumer p) d r ∧ |d| ≤ potSlope p r := by
  refine ⟨_, HasDerivAt.fun_sum fun k _ => (((hasDerivAt_pow (p.powers.getD k 0).toNat r).mul
    (((hasDerivAt_pow 2 r).const_mul (-p.alpha.getD k 0)).exp)).const_mul (p.coeffs.getD k 0)), ?_⟩
  unfold potSlope
  refine (Finset.abs_sum_le_sum_abs _ _).trans (Finset.sum_le_sum fun k hk => ?_)
  obtain ⟨-, h2⟩ := h k (Finset.mem_range.1 hk)
  rw [abs_mul]
  refine mul_le_mul_of_nonneg_left ?_ (abs_nonneg _)
  have e1 : 0 ≤ ((p.powers.getD k 0).toNat : ℝ) * r ^ ((p.powers.getD k 0).toNat - 1) := by positivity
  have e2 : 0 ≤ r ^ (p.powers.getD k 0).toNat * (2 * p.alpha.getD k 0 * r) := by positivity
  have e : ∀ x y z E : ℝ, 0 ≤ x → 0 ≤ y → y = -z → 0 ≤ E → |x * E + z * E| ≤ (x + y) * E := by
    intro x y z E hx hy hz hE
    rw [← add_mul, abs_mul, abs_of_nonneg hE]
    refine mul_le_mul_of_nonneg_right ?_ hE
    rw [abs_le]
    constructor <;> linarith
  have := e _ _ (-(r ^ (p.powers.getD k 0).toNat * (2 * p.alpha.getD k 0 * r))) (Real.exp (-p.alpha.getD k 0 * r ^ 2)) e1 e2 (by ring) (Real.exp_pos _).le
  refine le_trans (le_of_eq (congrArg _ ?_)) this
  push_cast
  ring

theorem radF_deriv (s : Shell) (hs : s.Pos) (C : Point) (lam : ℕ) {r : ℝ} (hr : 0 ≤ r) :
    ∃ d, HasDerivAt (radF s C lam) d r ∧ |d| ≤ radSlope s C r := by
  set c := vnorm (toC s C) with hc
  have hc0 : 0 ≤ c := vnorm_nonneg _
  refine ⟨_, HasDerivAt.fun_sum fun i _ => ((((((hasDerivAt_pow 2 r).add_const (∑ k, toC s C k ^ 2)).const_mul (-s.alphaAt i)).exp).mul
    ((besselI_hasDerivAt lam _).comp r ((hasDerivAt_id r).mul_const (2 * s.alphaAt i * vnorm (toC s C))))).const_mul (s.weight i)), ?_⟩
  unfold radSlope
  refine (Finset.abs_sum_le_sum_abs _ _).trans (Finset.sum_le_sum fun i hi => ?_)
  have ha := hs.at (Finset.mem_range.1 hi)
  rw [abs_mul, ← hc]
  refine mul_le_mul_of_nonneg_left ?_ (abs_nonneg _)
  simp only [Function.comp, id_eq]
  set x := r * (2 * s.alphaAt i * c) with hx
  have x0 : 0 ≤ x := by positivity
  have b0 := besselI_le_exp lam x0
  have n0 := besselI_nonneg lam x0
  have b1 := besselI_le_exp (lam - 1) x0
  have n1 := besselI_nonneg (lam - 1) x0
  have b2 := besselI_le_exp (lam + 1) x0
  have n2 := besselI_nonneg (lam + 1) x0
  set D := (lam : ℝ) / (2 * lam + 1) * besselI (lam - 1) x + ((lam : ℝ) + 1) / (2 * lam + 1) * besselI (lam + 1) x with hD
  have D0 : 0 ≤ D := by positivity
  have D1 : D ≤ Real.exp x := by
    have q1 : (lam : ℝ) / (2 * lam + 1) * besselI (lam - 1) x ≤ (lam : ℝ) / (2 * lam + 1) * Real.exp x := mul_le_mul_of_nonneg_left b1 (by positivity)
    have q2 : ((lam : ℝ) + 1) / (2 * lam + 1) * besselI (lam + 1) x ≤ ((lam : ℝ) + 1) / (2 * lam + 1) * Real.exp x :=
      mul_le_mul_of_nonneg_left b2 (by positivity)
    have q3 : (lam : ℝ) / (2 * lam + 1) * Real.exp x + ((lam : ℝ) + 1) / (2 * lam + 1) * Real.exp x = Real.exp x := by
      have : (2 * (lam : ℝ) + 1) ≠ 0 := by positivity
      field_simp
      ring
    linarith
  have hE : Real.exp (-s.alphaAt i * (r ^ 2 + ∑ k, toC s C k ^ 2)) * Real.exp x = Real.exp (-s.alphaAt i * (r - c) ^ 2) := by
    rw [← Real.exp_add, ← vnorm_sq, ← hc, hx]
    congr 1
    ring
  rw [← hE]
  set E := Real.exp (-s.alphaAt i * (r ^ 2 + ∑ k, toC s C k ^ 2)) with hEd
  have E0 : 0 < E := Real.exp_pos _
  have f1 : |E * (-s.alphaAt i * (((2:ℕ):ℝ) * r ^ (2 - 1))) * besselI lam x| ≤ 2 * s.alphaAt i * r * (E * Real.exp x) := by
    rw [abs_mul, abs_mul, abs_of_pos E0, abs_of_nonneg n0, abs_of_nonpos (by norm_num; positivity)]
    push_cast
    have := mul_le_mul_of_nonneg_left b0 (show 0 ≤ 2 * s.alphaAt i * r * E by positivity)
    norm_num
    linarith
  have f2 : |E * (D * (1 * (2 * s.alphaAt i * c)))| ≤ 2 * s.alphaAt i * c * (E * Real.exp x) := by
    rw [abs_of_nonneg (by positivity)]
    have := mul_le_mul_of_nonneg_left D1 (show 0 ≤ 2 * s.alphaAt i * c * E by positivity)
    linarith
  refine (abs_add_le _ _).trans ((add_le_add f1 f2).trans (le_of_eq ?_))
  ring

theorem potEnv_nonneg (p : Potential) {r : ℝ} (hr : 0 ≤ r) : 0 ≤ potEnv p r := Finset.sum_nonneg fun k _ => by positivity

theorem radSlope_nonneg (s : Shell) (hs : s.Pos) (C : Point) {r : ℝ} (hr : 0 ≤ r) : 0 ≤ radSlope s C r :=
  Finset.sum_nonneg fun i hi => by
    have ha := hs.at (Finset.mem_range.1 hi)
    have := vnorm_nonneg (toC s C)
    positivity

/-- The error of the radial quadrature of a semilocal integral, exact Bessel functions. -/
theorem semi_quad_error {p : Potential} (hp : p.Regular) (A B : Shell) (hA : A.Pos) (hB : B.Pos) (C : Point) (l1 l2 n : ℕ) {M0 M1 : ℝ}
    (b0 : ∀ r, 0 < r → semiEnv p A B C n r * Real.exp (2 * r / 5) ≤ M0) (b1 : ∀ r, 0 < r → semiSlope p A B C n r * Real.exp (2 * r / 5) ≤ M1) (N : ℕ) :
    |fullQuad (semiIntegrand (potentialRadial p) A B C l1 l2 n) N - semiExact (potentialRadial p) A B C l1 l2 n| ≤ (225 * M1 + 75 * M0) / (2 * (N + 1)) := by
  have hW : ∀ r, 0 ≤ r → ∃ d, HasDerivAt (fun r => potNumer p r * (r ^ n * (radF A C l1 r * radF B C l2 r))) d r ∧ |d| ≤ semiSlope p A B C n r := by
    intro r hr
    obtain ⟨dU, hU, bU⟩ := potNumer_deriv hp hr
    obtain ⟨dA, hdA, bA⟩ := radF_deriv A hA C l1 hr
    obtain ⟨dB, hdB, bB⟩ := radF_deriv B hB C l2 hr
    refine ⟨_, hU.mul ((hasDerivAt_pow n r).mul (hdA.mul hdB)), ?_⟩
    have cA := radF_le A hA C l1 hr
    have cB := radF_le B hB C l2 hr
    have nA := radEnv_nonneg A C r
    have nB := radEnv_nonneg B C r
    have cAB : |radF A C l1 r * radF B C l2 r| ≤ radEnv A C r * radEnv B C r := by rw [abs_mul]; exact mul_le_mul cA cB (abs_nonneg _) nA
    unfold semiSlope
    refine (abs_add_le _ _).trans (add_le_add ?_ ?_)
    · rw [abs_mul, abs_mul, abs_of_nonneg (pow_nonneg hr n)]
      exact mul_le_mul bU (mul_le_mul_of_nonneg_left cAB (pow_nonneg hr n)) (by positivity) ((abs_nonneg _).trans bU)
    · rw [abs_mul]
      refine mul_le_mul (potNumer_le p hr) ?_ (abs_nonneg _) (potEnv_nonneg p hr)
      refine (abs_add_le _ _).trans (add_le_add ?_ ?_)
      · rw [abs_mul, abs_of_nonneg (show 0 ≤ (n:ℝ) * r ^ (n - 1) by positivity)]
        exact mul_le_mul_of_nonneg_left cAB (by positivity)
      · rw [abs_mul, abs_of_nonneg (pow_nonneg hr n)]
        refine mul_le_mul_of_nonneg_left ((abs_add_le _ _).trans (add_le_add ?_ ?_)) (pow_nonneg hr n)
        · rw [abs_mul]
          exact mul_le_mul bA cB (abs_nonneg _) ((abs_nonneg _).trans bA)
        · rw [abs_mul]
          exact mul_le_mul cA bB (abs_nonneg _) nA
  choose! d hd hb using hW
  have hF : ∀ r, 0 < r → r ^ 2 * semiIntegrand (potentialRadial p) A B C l1 l2 n r = potNumer p r * (r ^ n * (radF A C l1 r * radF B C l2 r)) := by
    intro r hr
    unfold semiIntegrand
    rw [potNumer_eq hp hr]
    field_simp
  refine quad_error (a := potNumer p 0 * (0 ^ n * (radF A C l1 0 * radF B C l2 0))) hF (fun r hr => hd r hr.le)
    ((hd 0 le_rfl).continuousAt.tendsto.mono_left nhdsWithin_le_nhds) (fun r hr => le_trans ?_ (b0 r hr)) (fun r hr => le_trans ?_ (b1 r hr)) N
  · refine mul_le_mul_of_nonneg_right ?_ (Real.exp_pos _).le
    unfold semiEnv
    rw [abs_mul, abs_mul, abs_mul, abs_of_pos (pow_pos hr n)]
    refine mul_le_mul (potNumer_le p hr.le) (mul_le_mul_of_nonneg_left ?_ (pow_nonneg hr.le n)) (by positivity) (potEnv_nonneg p hr.le)
    exact mul_le_mul (radF_le A hA C l1 hr.le) (radF_le B hB C l2 hr.le) (abs_nonneg _) (radEnv_nonneg A C r)
  · exact mul_le_mul_of_nonneg_right (hb r hr.le) (Real.exp_pos _).le

/-! ## The bounds are finite -/

/-- `0 ≤ f(r) ≤ K exp(c r)` for `r > 0`. -/
def ExpB (c : ℝ) (f : ℝ → ℝ) : Prop := ∃ K, 0 ≤ K ∧ ∀ r, 0 < r → 0 ≤ f r ∧ f r ≤ K * Real.exp (c * r)

theorem ExpB.mul {c c' : ℝ} {f g : ℝ → ℝ} (hf : ExpB c f) (hg : ExpB c' g) : ExpB (c + c') fun r => f r * g r := by
  obtain ⟨K, k0, h⟩ := hf
  obtain ⟨K', k0', h'⟩ := hg
  refine ⟨K * K', mul_nonneg k0 k0', fun r hr => ?_⟩
  obtain ⟨a1, a2⟩ := h r hr
  obtain ⟨b1, b2⟩ := h' r hr
  refine ⟨mul_nonneg a1 b1, (mul_le_mul a2 b2 b1 (by positivity)).trans (le_of_eq ?_)⟩
  rw [add_mul, Real.exp_add]
  ring

theorem ExpB.add {c : ℝ} {f g : ℝ → ℝ} (hf : ExpB c f) (hg : ExpB c g) : ExpB c fun r => f r + g r := by
  obtain ⟨K, k0, h⟩ := hf
  obtain ⟨K', k0', h'⟩ := hg
  refine ⟨K + K', add_nonneg k0 k0', fun r hr => ?_⟩
  obtain ⟨a1, a2⟩ := h r hr
  obtain ⟨b1, b2⟩ := h' r hr
  exact ⟨add_nonneg a1 b1, by linarith⟩

theorem ExpB.sum {c : ℝ} {n : ℕ} {f : ℕ → ℝ → ℝ} (hf : ∀ i < n, ExpB c (f i)) : ExpB c fun r => ∑ i ∈ Finset.range n, f i r := by
  induction n with
  | zero => exact ⟨0, le_rfl, fun r _ => by simp⟩
  | succ n ih =>
    simp only [Finset.sum_range_succ]
    exact (ih fun i hi => hf i (by omega)).add (hf n (by omega))

theorem ExpB.const {k : ℝ} (hk : 0 ≤ k) : ExpB 0 fun _ => k := ⟨k, hk, fun r _ => by simp [hk]⟩

theorem ExpB.mono {c c' : ℝ} {f : ℝ → ℝ} (hf : ExpB c f) (h : c ≤ c') : ExpB c' f := by
  obtain ⟨K, k0, h1⟩ := hf
  refine ⟨K, k0, fun r hr => ⟨(h1 r hr).1, (h1 r hr).2.trans (mul_le_mul_of_nonneg_left (Real.exp_le_exp.2 ?_) k0)⟩⟩
  exact mul_le_mul_of_nonneg_right h hr.le

theorem ExpB.pow (n : ℕ) : ExpB 1 fun r => r ^ n := by
  refine ⟨n.factorial, by positivity, fun r hr => ⟨by positivity, ?_⟩⟩
  have := Real.pow_div_factorial_le_exp r hr.le n
  rw [div_le_iff₀ (by positivity)] at this
  rw [one_mul]
  linarith

theorem ExpB.gauss {a : ℝ} (ha : 0 < a) (d c : ℝ) : ExpB c fun r => Real.exp (-a * (r - d) ^ 2) := by
  refine ⟨Real.exp (c ^ 2 / (4 * a) - c * d), (Real.exp_pos _).le, fun r _ => ⟨(Real.exp_pos _).le, ?_⟩⟩
  rw [← Real.exp_add]
  refine Real.exp_le_exp.2 ?_
  have h1 : c ^ 2 / (4 * a) - c * d + c * r - -a * (r - d) ^ 2 = (c / 2 + a * (r - d)) ^ 2 / a := by
    field_simp
    ring
  have h2 : 0 ≤ (c / 2 + a * (r - d)) ^ 2 / a := by positivity
  linarith

theorem radEnv_expB (s : Shell) (hs : s.Pos) (C : Point) (c : ℝ) : ExpB c (radEnv s C) := by
  unfold radEnv
  refine ExpB.sum fun i hi => ?_
  have := (ExpB.const (abs_nonneg (s.weight i))).mul (ExpB.gauss (hs.at hi) (vnorm (toC s C)) c)
  rwa [zero_add] at this

theorem radSlope_expB (s : Shell) (hs : s.Pos) (C : Point) (c : ℝ) : ExpB c (radSlope s C) := by
  unfold radSlope
  refine ExpB.sum fun i hi => ?_
  have ha := hs.at hi
  have h1 : ExpB 1 fun r => r := by simpa using ExpB.pow 1
  have h2 := h1.add ((ExpB.const (vnorm_nonneg (toC s C))).mono zero_le_one)
  have := (ExpB.const (abs_nonneg (s.weight i))).mul (((ExpB.const (show 0 ≤ 2 * s.alphaAt i by linarith)).mul h2).mul
    (ExpB.gauss ha (vnorm (toC s C)) (c - 1)))
  exact this.mono (by linarith)

theorem gaussOne_expB {a : ℝ} (ha : 0 ≤ a) : ExpB 0 fun r => Real.exp (-a * r ^ 2) := by
  refine ⟨1, zero_le_one, fun r _ => ⟨(Real.exp_pos _).le, ?_⟩⟩
  rw [zero_mul, Real.exp_zero, mul_one, Real.exp_le_one_iff]
  nlinarith [sq_nonneg r]

theorem potEnv_expB {p : Potential} (hp : p.Regular) : ExpB 1 (potEnv p) := by
  unfold potEnv
  refine ExpB.sum fun k hk => ?_
  have := (ExpB.const (abs_nonneg (p.coeffs.getD k 0))).mul ((ExpB.pow (p.powers.getD k 0).toNat).mul (gaussOne_expB (hp k hk).2))
  exact this.mono (by norm_num)

theorem potSlope_expB {p : Potential} (hp : p.Regular) : ExpB 2 (potSlope p) := by
  unfold potSlope
  refine ExpB.sum fun k hk => ?_
  have ha := (hp k hk).2
  have h1 : ExpB 1 fun r => r := by simpa using ExpB.pow 1
  have q1 := ((ExpB.const (Nat.cast_nonneg (α := ℝ) (p.powers.getD k 0).toNat)).mul (ExpB.pow ((p.powers.getD k 0).toNat - 1))).mono
    (show 0 + 1 ≤ (2:ℝ) by norm_num)
  have q2 := ((ExpB.pow (p.powers.getD k 0).toNat).mul ((ExpB.const (show 0 ≤ 2 * p.alpha.getD k 0 by linarith)).mul h1)).mono
    (show 1 + (0 + 1) ≤ (2:ℝ) by norm_num)
  have := (ExpB.const (abs_nonneg (p.coeffs.getD k 0))).mul ((q1.add q2).mul (gaussOne_expB ha))
  exact this.mono (by norm_num)

theorem semiEnv_bounded {p : Potential} (hp : p.Regular) (A B : Shell) (hA : A.Pos) (hB : B.Pos) (C : Point) (n : ℕ) :
    ∃ M0 M1, (∀ r, 0 < r → semiEnv p A B C n r * Real.exp (2 * r / 5) ≤ M0) ∧ ∀ r, 0 < r → semiSlope p A B C n r * Real.exp (2 * r / 5) ≤ M1 := by
  have hAB := (radEnv_expB A hA C (-5)).mul (radEnv_expB B hB C 0)
  have hS := ((radSlope_expB A hA C (-5)).mul (radEnv_expB B hB C 0)).add ((radEnv_expB A hA C (-5)).mul (radSlope_expB B hB C 0))
  have h0 : ExpB (-1) (semiEnv p A B C n) := ((potEnv_expB hp).mul ((ExpB.pow n).mul hAB)).mono (by norm_num)
  have h1 : ExpB (-1) (semiSlope p A B C n) := by
    have q1 := ((potSlope_expB hp).mul ((ExpB.pow n).mul hAB)).mono (show 2 + (1 + (-5 + 0)) ≤ (-1:ℝ) by norm_num)
    have q2 := (((ExpB.const (Nat.cast_nonneg (α := ℝ) n)).mul (ExpB.pow (n - 1))).mul hAB).mono (show 0 + 1 + (-5 + 0) ≤ (-4:ℝ) by norm_num)
    have q3 := ((ExpB.pow n).mul hS).mono (show 1 + (-5 + 0) ≤ (-4:ℝ) by norm_num)
    exact q1.add (((potEnv_expB hp).mul (q2.add q3)).mono (by norm_num))
  have fin : ∀ f : ℝ → ℝ, ExpB (-1) f → ∃ M, ∀ r, 0 < r → f r * Real.exp (2 * r / 5) ≤ M := by
    rintro f ⟨K, k0, h⟩
    refine ⟨K, fun r hr => ?_⟩
    have := mul_le_mul_of_nonneg_right (h r hr).2 (Real.exp_pos (2 * r / 5)).le
    refine this.trans ?_
    rw [mul_assoc, ← Real.exp_add]
    exact mul_le_of_le_one_right k0 (Real.exp_le_one_iff.2 (by linarith))
  obtain ⟨M0, m0⟩ := fin _ h0
  obtain ⟨M1, m1⟩ := fin _ h1
  exact ⟨M0, M1, m0, m1⟩

theorem semiBound_mono (thrF thrQ b e : ℝ) (hb : 0 ≤ b) (L : ℕ) (CA CB : Point) (LA LB : ℕ) (Qt Qt' Q : ℕ → ℕ → ℕ → ℝ)
    (h : ∀ l1 l2 n, l1 ≤ L + LA → l2 ≤ L + LB → n ≤ LA + LB → |Qt l1 l2 n - Q l1 l2 n| ≤ |Qt' l1 l2 n - Q l1 l2 n|) (x y : Comp)
    (hx : cdeg x = LA) (hy : cdeg y = LB) : semiBound thrF thrQ b e L CA CB Qt Q x y ≤ semiBound thrF thrQ b e L CA CB Qt' Q x y := by
  unfold semiBound
  refine Finset.sum_le_sum fun p hp => Finset.sum_le_sum fun q hq => Finset.sum_le_sum fun l1 h1 => Finset.sum_le_sum fun l2 h2 => ?_
  have dp : cdeg p ≤ cdeg x := by have := mem_box.1 hp; unfold cdeg; omega
  have dq : cdeg q ≤ cdeg y := by have := mem_box.1 hq; unfold cdeg; omega
  have h1 := Finset.mem_range.1 h1
  have h2 := Finset.mem_range.1 h2
  have := h l1 l2 (cdeg p + cdeg q) (by omega) (by omega) (by omega)
  have t := mul_le_mul_of_nonneg_left (mul_le_mul_of_nonneg_right (add_le_add_left this thrQ) hb) (abs_nonneg (boxCoef x CA p * boxCoef y CB q))
  linarith

end Libgrpp
