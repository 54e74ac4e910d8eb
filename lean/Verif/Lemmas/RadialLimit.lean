import Mathlib.MeasureTheory.Integral.IntervalIntegral.Basic
import Mathlib.MeasureTheory.Function.JacobianOneDim
import Mathlib.Analysis.SpecialFunctions.Log.Deriv
import Mathlib.Topology.UniformSpace.HeineCantor
import Verif.Lemmas.Radial

/-! # The radial quadrature converges to the radial integral -/

namespace Libgrpp

open Filter Topology MeasureTheory Set

/-- Left Riemann sums of a continuous function on `[0, 1]`. -/
theorem riemann_tendsto {h : ℝ → ℝ} (hc : ContinuousOn h (Icc 0 1)) :
    Tendsto (fun n : ℕ => ∑ i ∈ Finset.range (n + 1), h (i / (n + 1)) / (n + 1)) atTop (𝓝 (∫ x in (0:ℝ)..1, h x)) := by
  rw [Metric.tendsto_atTop]
  intro ε hε
  have huc := isCompact_Icc.uniformContinuousOn_of_continuous hc
  rw [Metric.uniformContinuousOn_iff] at huc
  obtain ⟨δ, hδ, hu⟩ := huc (ε / 2) (by linarith)
  obtain ⟨N, hN⟩ := exists_nat_gt (1 / δ)
  refine ⟨N, fun n hn => ?_⟩
  have hn1 : (0 : ℝ) < n + 1 := by positivity
  have hstep : 1 / ((n : ℝ) + 1) < δ := by
    rw [div_lt_iff₀ hn1]
    rw [div_lt_iff₀ hδ] at hN
    have : (N : ℝ) ≤ n := by exact_mod_cast hn
    nlinarith
  set a : ℕ → ℝ := fun i => i / (n + 1) with ha
  have ha0 : a 0 = 0 := by simp [ha]
  have ha1 : a (n + 1) = 1 := by
    simp only [ha]; push_cast; exact div_self hn1.ne'
  have hmem : ∀ i ≤ n + 1, a i ∈ Icc (0:ℝ) 1 := by
    intro i hi
    refine ⟨by positivity, ?_⟩
    simp only [ha]
    rw [div_le_one hn1]
    exact_mod_cast hi
  have hmono : ∀ i, a i ≤ a (i + 1) := by
    intro i; simp only [ha]; push_cast
    exact div_le_div_of_nonneg_right (by linarith) hn1.le
  have hlen : ∀ i, a (i + 1) - a i = 1 / (n + 1) := by
    intro i; simp only [ha]; push_cast; field_simp; ring
  have hint : ∀ i < n + 1, IntervalIntegrable h volume (a i) (a (i + 1)) := by
    intro i hi
    apply ContinuousOn.intervalIntegrable
    rw [uIcc_of_le (hmono i)]
    exact hc.mono (Icc_subset_Icc (hmem i (by omega)).1 (hmem (i + 1) (by omega)).2)
  have hsum := intervalIntegral.sum_integral_adjacent_intervals hint
  rw [ha0, ha1] at hsum
  rw [← hsum, Real.dist_eq, ← Finset.sum_sub_distrib]
  have hterm : ∀ i ∈ Finset.range (n + 1), |h (i / (n + 1)) / (n + 1) - ∫ x in a i..a (i + 1), h x| ≤ ε / 2 * (1 / (n + 1)) := by
    intro i hi
    have hi' := Finset.mem_range.1 hi
    have e1 : h (i / (n + 1)) / (n + 1) = ∫ _ in a i..a (i + 1), h (a i) := by
      rw [intervalIntegral.integral_const, hlen, smul_eq_mul]
      simp only [ha]; ring
    rw [e1, ← intervalIntegral.integral_sub (by simp) (hint i hi')]
    have := intervalIntegral.norm_integral_le_of_norm_le_const (a := a i) (b := a (i + 1)) (C := ε / 2)
      (f := fun x => h (a i) - h x) (by
        intro x hx
        rw [uIoc_of_le (hmono i)] at hx
        have hx1 : x ∈ Icc (0:ℝ) 1 := ⟨(hmem i (by omega)).1.trans hx.1.le, hx.2.trans (hmem (i + 1) (by omega)).2⟩
        have hd := hu (a i) (hmem i (by omega)) x hx1 (by
          rw [Real.dist_eq, abs_sub_comm, abs_of_nonneg (by linarith [hx.1])]
          have := hlen i
          linarith [hx.2])
        rw [Real.dist_eq] at hd
        exact hd.le)
    rw [Real.norm_eq_abs, hlen, abs_of_pos (show (0:ℝ) < 1 / (n + 1) by positivity)] at this
    exact this
  calc |∑ i ∈ Finset.range (n + 1), (h (i / (n + 1)) / (n + 1) - ∫ x in a i..a (i + 1), h x)|
      ≤ ∑ i ∈ Finset.range (n + 1), |h (i / (n + 1)) / (n + 1) - ∫ x in a i..a (i + 1), h x| := Finset.abs_sum_le_sum_abs _ _
    _ ≤ ∑ i ∈ Finset.range (n + 1), ε / 2 * (1 / ((n:ℝ) + 1)) := Finset.sum_le_sum hterm
    _ = ε / 2 := by rw [Finset.sum_const, Finset.card_range, nsmul_eq_mul]; push_cast; field_simp
    _ < ε := by linarith

/-- The substitution of the quadrature. -/
noncomputable def phiMap (x : ℝ) : ℝ := -5 * Real.log (1 - x ^ 3)

theorem phiMap_deriv {x : ℝ} (hx : x ∈ Ioo (0:ℝ) 1) : HasDerivAt phiMap (15 * x ^ 2 / (1 - x ^ 3)) x := by
  have h1 : (1 : ℝ) - x ^ 3 ≠ 0 := by
    have : x ^ 3 < 1 := pow_lt_one₀ hx.1.le hx.2 (by norm_num)
    linarith
  have h2 : HasDerivAt (fun y : ℝ => 1 - y ^ 3) (-(3 * x ^ 2)) x := by
    simpa using (hasDerivAt_pow 3 x).const_sub 1
  have h3 := (h2.log h1).const_mul (-5)
  refine h3.congr_deriv ?_
  field_simp
  ring

theorem phiMap_inj : InjOn phiMap (Ioo (0:ℝ) 1) := by
  intro x hx y hy h
  have pos : ∀ z ∈ Ioo (0:ℝ) 1, 0 < 1 - z ^ 3 := fun z hz => by
    have : z ^ 3 < 1 := pow_lt_one₀ hz.1.le hz.2 (by norm_num)
    linarith
  have h1 : Real.log (1 - x ^ 3) = Real.log (1 - y ^ 3) := by simp only [phiMap] at h; linarith
  have h2 := Real.log_injOn_pos (pos x hx) (pos y hy) h1
  have h3 : x ^ 3 = y ^ 3 := by linarith
  exact (pow_left_inj₀ hx.1.le hy.1.le (by norm_num)).1 h3

theorem phiMap_pos {x : ℝ} (hx : x ∈ Ioo (0:ℝ) 1) : 0 < phiMap x := by
  have h1 : x ^ 3 < 1 := pow_lt_one₀ hx.1.le hx.2 (by norm_num)
  have h2 : 0 < x ^ 3 := pow_pos hx.1 3
  have := Real.log_neg (show (0:ℝ) < 1 - x ^ 3 by linarith) (by linarith)
  simp only [phiMap]; linarith

theorem phiMap_image : phiMap '' Ioo (0:ℝ) 1 = Ioi 0 := by
  ext r
  constructor
  · rintro ⟨x, hx, rfl⟩
    exact phiMap_pos hx
  · intro hr
    have hr : 0 < r := hr
    have he : Real.exp (-r / 5) < 1 := by rw [Real.exp_lt_one_iff]; linarith
    have he0 := Real.exp_pos (-r / 5)
    have hy0 : 0 < 1 - Real.exp (-r / 5) := by linarith
    refine ⟨(1 - Real.exp (-r / 5)) ^ ((1:ℝ) / 3), ⟨Real.rpow_pos_of_pos hy0 _, ?_⟩, ?_⟩
    · exact Real.rpow_lt_one hy0.le (by linarith) (by norm_num)
    · have : ((1 - Real.exp (-r / 5)) ^ ((1:ℝ) / 3)) ^ 3 = 1 - Real.exp (-r / 5) := by
        rw [← Real.rpow_natCast, ← Real.rpow_mul hy0.le]; norm_num
      simp only [phiMap]
      rw [this, show 1 - (1 - Real.exp (-r / 5)) = Real.exp (-r / 5) by ring, Real.log_exp]; ring

/-- The integrand after the substitution, extended by zero. -/
noncomputable def pulled (H : ℝ → ℝ) (x : ℝ) : ℝ :=
  if x ∈ Ioo (0:ℝ) 1 then 15 * x ^ 2 / (1 - x ^ 3) * H (phiMap x) else 0

theorem pulled_integral (H : ℝ → ℝ) : ∫ x in (0:ℝ)..1, pulled H x = ∫ r in Ioi (0:ℝ), H r := by
  rw [intervalIntegral.integral_of_le (by norm_num), integral_Ioc_eq_integral_Ioo]
  rw [← phiMap_image, integral_image_eq_integral_abs_deriv_smul measurableSet_Ioo
    (fun x hx => (phiMap_deriv hx).hasDerivWithinAt) phiMap_inj]
  refine setIntegral_congr_fun measurableSet_Ioo fun x hx => ?_
  have h1 : x ^ 3 < 1 := pow_lt_one₀ hx.1.le hx.2 (by norm_num)
  have : 0 ≤ 15 * x ^ 2 / (1 - x ^ 3) := div_nonneg (by positivity) (by linarith)
  simp only [pulled, if_pos hx, smul_eq_mul, abs_of_nonneg this]

theorem pulled_continuous {H : ℝ → ℝ} {a : ℝ} (h1 : ContinuousOn H (Ioi 0)) (h2 : Tendsto H (𝓝[>] 0) (𝓝 a))
    (h3 : Tendsto (fun r => H r * Real.exp (r / 5)) atTop (𝓝 0)) : ContinuousOn (pulled H) (Icc 0 1) := by
  have pos : ∀ z ∈ Ioo (0:ℝ) 1, 0 < 1 - z ^ 3 := fun z hz => by
    have : z ^ 3 < 1 := pow_lt_one₀ hz.1.le hz.2 (by norm_num)
    linarith
  have hphi : ContinuousOn phiMap (Ioo 0 1) := fun x hx => (phiMap_deriv hx).continuousAt.continuousWithinAt
  have hin : ContinuousOn (fun x : ℝ => 15 * x ^ 2 / (1 - x ^ 3) * H (phiMap x)) (Ioo 0 1) := by
    apply ContinuousOn.mul
    · apply ContinuousOn.div (by fun_prop) (by fun_prop)
      intro x hx; exact (pos x hx).ne'
    · exact h1.comp hphi (fun x hx => phiMap_pos hx)
  intro x hx
  by_cases hxi : x ∈ Ioo (0:ℝ) 1
  · have : ContinuousAt (pulled H) x := by
      have hA := hin.continuousAt (Ioo_mem_nhds hxi.1 hxi.2)
      refine hA.congr ?_
      filter_upwards [Ioo_mem_nhds hxi.1 hxi.2] with y hy
      simp only [pulled, if_pos hy]
    exact this.continuousWithinAt
  · have hx01 : x = 0 ∨ x = 1 := by
      rcases hx with ⟨ha, hb⟩
      by_contra hc
      push Not at hc
      exact hxi ⟨lt_of_le_of_ne ha (Ne.symm hc.1), lt_of_le_of_ne hb hc.2⟩
    have hval : pulled H x = 0 := if_neg hxi
    rw [ContinuousWithinAt, hval]
    -- limits of the inner expression along `Ioo 0 1`
    have hlim : Tendsto (fun y : ℝ => 15 * y ^ 2 / (1 - y ^ 3) * H (phiMap y)) (𝓝[Ioo 0 1] x) (𝓝 0) := by
      rcases hx01 with rfl | rfl
      · have t1 : Tendsto phiMap (𝓝[Ioo 0 1] 0) (𝓝[>] 0) := by
          rw [tendsto_nhdsWithin_iff]
          constructor
          · have : ContinuousAt phiMap 0 := by
              unfold phiMap
              apply ContinuousAt.mul continuousAt_const
              apply ContinuousAt.log
              · fun_prop
              · norm_num
            have h0 : phiMap 0 = 0 := by simp [phiMap]
            have := this.tendsto
            rw [h0] at this
            exact this.mono_left nhdsWithin_le_nhds
          · filter_upwards [self_mem_nhdsWithin] with y hy using phiMap_pos hy
        have t2 : Tendsto (fun y : ℝ => 15 * y ^ 2 / (1 - y ^ 3)) (𝓝[Ioo 0 1] 0) (𝓝 0) := by
          have : ContinuousAt (fun y : ℝ => 15 * y ^ 2 / (1 - y ^ 3)) 0 := by
            apply ContinuousAt.div
            · fun_prop
            · fun_prop
            · norm_num
          have h := this.tendsto
          norm_num at h
          exact h.mono_left nhdsWithin_le_nhds
        have := t2.mul (h2.comp t1)
        simpa using this
      · have t1 : Tendsto phiMap (𝓝[Ioo 0 1] 1) atTop := by
          have s1 : Tendsto (fun y : ℝ => 1 - y ^ 3) (𝓝[Ioo 0 1] 1) (𝓝[>] 0) := by
            rw [tendsto_nhdsWithin_iff]
            constructor
            · have : ContinuousAt (fun y : ℝ => 1 - y ^ 3) 1 := by fun_prop
              have h := this.tendsto
              norm_num at h
              exact h.mono_left nhdsWithin_le_nhds
            · filter_upwards [self_mem_nhdsWithin] with y hy using pos y hy
          have s2 := Real.tendsto_log_nhdsGT_zero.comp s1
          have s3 := s2.const_mul_atBot_of_neg (show (-5:ℝ) < 0 by norm_num)
          exact s3
        have t2 := h3.comp t1
        have t3 : Tendsto (fun y : ℝ => 15 * y ^ 2) (𝓝[Ioo 0 1] 1) (𝓝 15) := by
          have : ContinuousAt (fun y : ℝ => 15 * y ^ 2) 1 := by fun_prop
          have h := this.tendsto
          norm_num at h
          exact h.mono_left nhdsWithin_le_nhds
        have t4 := t3.mul t2
        rw [mul_zero] at t4
        refine t4.congr' ?_
        filter_upwards [self_mem_nhdsWithin] with y hy
        have hp := pos y hy
        have he : Real.exp (phiMap y / 5) = (1 - y ^ 3)⁻¹ := by
          simp only [phiMap]
          rw [show -5 * Real.log (1 - y ^ 3) / 5 = -Real.log (1 - y ^ 3) by ring, Real.exp_neg, Real.exp_log hp]
        simp only [Function.comp]
        rw [he]; field_simp
    rw [tendsto_nhds]
    intro s hs hs0
    have h1 := hlim (hs.mem_nhds hs0)
    rw [mem_map, mem_nhdsWithin] at h1
    obtain ⟨u, hu, hxu, hsub⟩ := h1
    rw [mem_nhdsWithin]
    refine ⟨u, hu, hxu, ?_⟩
    rintro y ⟨hyu, hyI⟩
    by_cases hy : y ∈ Ioo (0:ℝ) 1
    · have := hsub ⟨hyu, hy⟩
      simp only [mem_preimage] at this ⊢
      rw [pulled, if_pos hy]; exact this
    · simp only [mem_preimage]; rw [pulled, if_neg hy]; exact hs0

theorem gridW_term (F : ℝ → ℝ) (N i : ℕ) (hi : 0 < i) (hiN : i ≤ N) :
    gridW N i * F (gridR N i) = pulled (fun r => r ^ 2 * F r) ((i : ℝ) / (N + 1)) / (N + 1) := by
  have hx : (i : ℝ) / (N + 1) ∈ Ioo (0:ℝ) 1 := by
    have hi' : (0:ℝ) < i := by exact_mod_cast hi
    have hN : (i : ℝ) < N + 1 := by exact_mod_cast Nat.lt_succ_of_le hiN
    exact ⟨by positivity, (div_lt_one (by positivity)).2 hN⟩
  have hpos : 0 < 1 - ((i : ℝ) / (N + 1)) ^ 3 := by
    have : ((i : ℝ) / (N + 1)) ^ 3 < 1 := pow_lt_one₀ hx.1.le hx.2 (by norm_num)
    linarith
  have hn1 : (0 : ℝ) < N + 1 := by positivity
  have hr : gridR N i = phiMap ((i : ℝ) / (N + 1)) := by
    simp only [gridR, gridLn, gridXi, phiMap]
    congr 3; ring
  have hcube : (i : ℝ) / (N + 1) * (i / (N + 1)) * (i / (N + 1)) = ((i : ℝ) / (N + 1)) ^ 3 := by ring
  rw [pulled, if_pos hx, hr]
  simp only [gridW, gridLn, gridXi, hcube]
  generalize (i : ℝ) / (N + 1) = x at *
  have hl : Real.log (1 - x ^ 3) = -phiMap x / 5 := by simp only [phiMap]; ring
  rw [hl]
  field_simp
  ring

theorem quad_tendsto {F : ℝ → ℝ} {a : ℝ} (h1 : ContinuousOn (fun r => r ^ 2 * F r) (Ioi 0))
    (h2 : Tendsto (fun r => r ^ 2 * F r) (𝓝[>] 0) (𝓝 a))
    (h3 : Tendsto (fun r => r ^ 2 * F r * Real.exp (r / 5)) atTop (𝓝 0)) :
    Tendsto (fun N => fullQuad F N) atTop (𝓝 (∫ r in Ioi (0:ℝ), r ^ 2 * F r)) := by
  rw [← pulled_integral]
  refine (riemann_tendsto (pulled_continuous h1 h2 h3)).congr fun N => ?_
  rw [Finset.sum_range_succ']
  have h0 : pulled (fun r => r ^ 2 * F r) (((0:ℕ) : ℝ) / (N + 1)) / (N + 1) = 0 := by
    rw [pulled, if_neg (by simp)]; simp
  rw [h0, add_zero, fullQuad]
  refine Finset.sum_congr rfl fun i hi => ?_
  rw [gridW_term F N (i + 1) (by omega) (by have := Finset.mem_range.1 hi; omega)]

end Libgrpp
