import Verif.Lemmas.Hermite
import Verif.Lemmas.Basis
import Mathlib.MeasureTheory.Integral.Prod
import Mathlib.MeasureTheory.Function.JacobianOneDim
import Mathlib.Analysis.SpecialFunctions.ImproperIntegrals
import Mathlib.Analysis.SpecialFunctions.Sqrt

/-! Inverse powers of the distance as integrals over Gaussians; exchange of the two integrations. -/

namespace Libgrpp

open MeasureTheory Polynomial Set

/-- Squared distance to `C`. -/
noncomputable def dist2 (C r : Point) : ℝ := ∑ k, (r k - C k) ^ 2

theorem dist2_nonneg (C r : Point) : 0 ≤ dist2 C r := Finset.sum_nonneg fun _ _ => sq_nonneg _

theorem continuous_dist2 (C : Point) : Continuous (dist2 C) := by
  unfold dist2; fun_prop

theorem inv_sqrt_eq (ρ : ℝ) : (Real.sqrt ρ)⁻¹ = 2 / Real.sqrt Real.pi * ∫ s in Ioi (0 : ℝ), Real.exp (-s ^ 2 * ρ) := by
  have h : ∀ s : ℝ, Real.exp (-s ^ 2 * ρ) = Real.exp (-ρ * s ^ 2) := fun s => by congr 1; ring
  simp only [h]
  rw [integral_gaussian_Ioi]
  rw [Real.sqrt_div Real.pi_pos.le ρ]
  have hp : Real.sqrt Real.pi ≠ 0 := (Real.sqrt_pos.2 Real.pi_pos).ne'
  by_cases hρ : Real.sqrt ρ = 0
  · rw [hρ]; simp
  · field_simp

theorem inv_eq_integral {ρ : ℝ} (h : 0 ≤ ρ) : ρ⁻¹ = ∫ s in Ioi (0 : ℝ), Real.exp (-s * ρ) := by
  rcases h.eq_or_lt with rfl | hpos
  · simp [Measure.real]
  · have e : ∀ s : ℝ, Real.exp (-s * ρ) = Real.exp (-ρ * s) := fun s => by congr 1; ring
    simp only [e]
    rw [integral_exp_mul_Ioi (by linarith)]
    simp

/-- Integration over space and over the auxiliary variable may be exchanged. -/
theorem gauss_transform (F : Fin 3 → ℝ → ℝ) (hc : ∀ k, Continuous (F k)) {M p : ℝ} (hp : 0 < p) (Q C : Point)
    (hb : ∀ k x, |F k x| ≤ M * Real.exp (-p * (x - Q k) ^ 2)) (h : ℝ → ℝ) (hcont : Continuous h)
    (hpos : ∀ s, 0 < s → 0 ≤ h s) (hint : IntegrableOn (fun s => Real.sqrt (Real.pi / (p + h s)) ^ 3) (Ioi 0)) :
    Integrable (fun r => prod3 F r * ∫ s in Ioi (0 : ℝ), Real.exp (-h s * dist2 C r)) ∧
    ∫ r, prod3 F r * (∫ s in Ioi (0 : ℝ), Real.exp (-h s * dist2 C r)) =
      ∫ s in Ioi (0 : ℝ), ∏ k, ∫ x, F k x * Real.exp (-h s * (x - C k) ^ 2) := by
  have hM : 0 ≤ M := by
    have := (abs_nonneg _).trans (hb 0 (Q 0))
    simpa using this
  have hcp : Continuous fun r : Point => prod3 F r := by unfold prod3; fun_prop
  have e : ∀ s r, prod3 F r * Real.exp (-h s * dist2 C r) =
      prod3 (fun k x => F k x * Real.exp (-h s * (x - C k) ^ 2)) r := by
    intro s r
    unfold prod3 dist2
    rw [Finset.prod_mul_distrib, ← Real.exp_sum, ← Finset.mul_sum]
  have hi1 : ∀ s, 0 < s → ∀ k, Integrable fun x => F k x * Real.exp (-h s * (x - C k) ^ 2) := by
    intro s hs k
    have hg := (integrable_poly_gauss2 (1 : ℝ[X]) (show 0 < p + h s by linarith [hpos s hs]) (Q k) (C k)).const_mul M
    refine hg.mono' ((hc k).mul (by fun_prop)).aestronglyMeasurable (Filter.Eventually.of_forall fun x => ?_)
    rw [Real.norm_eq_abs, abs_mul, Real.abs_exp, eval_one, one_mul, Real.exp_add, ← mul_assoc]
    exact mul_le_mul_of_nonneg_right (hb k x) (Real.exp_pos _).le
  have hm : AEStronglyMeasurable (fun z : ℝ × Point => prod3 F z.2 * Real.exp (-h z.1 * dist2 C z.2))
      ((volume.restrict (Ioi (0 : ℝ))).prod volume) := by
    refine Continuous.aestronglyMeasurable ?_
    have := continuous_dist2 C
    fun_prop
  have hI : Integrable (fun z : ℝ × Point => prod3 F z.2 * Real.exp (-h z.1 * dist2 C z.2))
      ((volume.restrict (Ioi (0 : ℝ))).prod volume) := by
    rw [integrable_prod_iff hm]
    constructor
    · filter_upwards [ae_restrict_mem measurableSet_Ioi] with s hs
      simp only [e]
      exact integrable_prod3 _ (hi1 s hs)
    · refine (hint.const_mul (M ^ 3)).mono' hm.norm.integral_prod_right' ?_
      filter_upwards [ae_restrict_mem measurableSet_Ioi] with s hs
      simp only [e]
      rw [Real.norm_of_nonneg (integral_nonneg fun _ => norm_nonneg _)]
      have e2 : ∀ r, ‖prod3 (fun k x => F k x * Real.exp (-h s * (x - C k) ^ 2)) r‖ =
          prod3 (fun k x => |F k x * Real.exp (-h s * (x - C k) ^ 2)|) r := by
        intro r; unfold prod3; rw [Real.norm_eq_abs, Finset.abs_prod]
      simp only [e2]
      rw [integral_prod3]
      have hp' : 0 < p + h s := by linarith [hpos s hs]
      have hk : ∀ k, ∫ x, |F k x * Real.exp (-h s * (x - C k) ^ 2)| ≤ M * Real.sqrt (Real.pi / (p + h s)) := by
        intro k
        calc ∫ x, |F k x * Real.exp (-h s * (x - C k) ^ 2)|
            ≤ ∫ x, M * Real.exp (-p * (x - Q k) ^ 2 + -h s * (x - C k) ^ 2) := by
              refine integral_mono_of_nonneg (Filter.Eventually.of_forall fun x => abs_nonneg _) ?_
                (Filter.Eventually.of_forall fun x => ?_)
              · have := (integrable_poly_gauss2 (1 : ℝ[X]) hp' (Q k) (C k)).const_mul M
                simpa using this
              · beta_reduce
                rw [abs_mul, Real.abs_exp, Real.exp_add, ← mul_assoc]
                exact mul_le_mul_of_nonneg_right (hb k x) (Real.exp_pos _).le
          _ = M * (Real.sqrt (Real.pi / (p + h s)) * Real.exp (-(p * h s / (p + h s)) * (Q k - C k) * (Q k - C k))) := by
              rw [integral_const_mul]
              have := gauss1_zero hp' (Q k) (C k)
              unfold gauss1 at this
              simp only [pow_zero, one_mul] at this
              rw [this]
          _ ≤ M * Real.sqrt (Real.pi / (p + h s)) := by
              refine mul_le_mul_of_nonneg_left ?_ hM
              refine mul_le_of_le_one_right (Real.sqrt_nonneg _) (Real.exp_le_one_iff.2 ?_)
              have : 0 ≤ p * h s / (p + h s) := div_nonneg (mul_nonneg hp.le (hpos s hs)) hp'.le
              nlinarith [mul_self_nonneg (Q k - C k)]
      calc ∏ k, ∫ x, |F k x * Real.exp (-h s * (x - C k) ^ 2)|
          ≤ ∏ _k : Fin 3, M * Real.sqrt (Real.pi / (p + h s)) :=
            Finset.prod_le_prod (fun k _ => integral_nonneg fun _ => abs_nonneg _) fun k _ => hk k
        _ = M ^ 3 * Real.sqrt (Real.pi / (p + h s)) ^ 3 := by
            rw [Finset.prod_const, Finset.card_univ, Fintype.card_fin, mul_pow]
  have e3 : ∀ r, prod3 F r * (∫ s in Ioi (0 : ℝ), Real.exp (-h s * dist2 C r)) =
      ∫ s in Ioi (0 : ℝ), prod3 F r * Real.exp (-h s * dist2 C r) := fun r => by rw [integral_const_mul]
  simp only [e3]
  refine ⟨hI.integral_prod_right, ?_⟩
  rw [← integral_integral_swap (f := fun s r => prod3 F r * Real.exp (-h s * dist2 C r)) hI]
  refine setIntegral_congr_fun measurableSet_Ioi fun s _ => ?_
  simp only [e]
  rw [integral_prod3]

/-- A polynomial times a Gaussian is bounded. -/
theorem poly_gauss_bounded (P : ℝ[X]) {p : ℝ} (hp : 0 < p) : ∃ M, ∀ y, |P.eval y| * Real.exp (-p * y ^ 2) ≤ M := by
  induction P using Polynomial.induction_on' with
  | add P Q hP hQ =>
    obtain ⟨M, hM⟩ := hP
    obtain ⟨N, hN⟩ := hQ
    refine ⟨M + N, fun y => ?_⟩
    rw [eval_add]
    have := mul_le_mul_of_nonneg_right (abs_add_le (P.eval y) (Q.eval y)) (Real.exp_pos (-p * y ^ 2)).le
    rw [add_mul] at this
    linarith [hM y, hN y]
  | monomial n a =>
    refine ⟨|a| * (1 + (n.factorial : ℝ) / p ^ n), fun y => ?_⟩
    rw [eval_monomial, abs_mul, abs_pow, mul_assoc]
    refine mul_le_mul_of_nonneg_left ?_ (abs_nonneg _)
    have h1 : |y| ^ n ≤ 1 + (y ^ 2) ^ n := by
      rcases le_total (|y| ^ n) 1 with h | h
      · have := pow_nonneg (sq_nonneg y) n; linarith
      · have e : (y ^ 2) ^ n = |y| ^ n * |y| ^ n := by rw [← sq_abs y]; ring
        rw [e]; nlinarith
    have h2 := Real.pow_div_factorial_le_exp (x := p * y ^ 2) (by positivity) n
    have hf : (0 : ℝ) < n.factorial := by exact_mod_cast Nat.factorial_pos n
    have hpn : 0 < p ^ n := by positivity
    have h3 : (y ^ 2) ^ n * Real.exp (-p * y ^ 2) ≤ (n.factorial : ℝ) / p ^ n := by
      rw [div_le_iff₀ hf, mul_pow] at h2
      rw [le_div_iff₀ hpn, show -p * y ^ 2 = -(p * y ^ 2) by ring, Real.exp_neg]
      have := Real.exp_pos (p * y ^ 2)
      rw [mul_right_comm, ← div_eq_mul_inv, div_le_iff₀ this]
      linarith
    have h4 : Real.exp (-p * y ^ 2) ≤ 1 := Real.exp_le_one_iff.2 (by nlinarith [sq_nonneg y])
    calc |y| ^ n * Real.exp (-p * y ^ 2) ≤ (1 + (y ^ 2) ^ n) * Real.exp (-p * y ^ 2) :=
          mul_le_mul_of_nonneg_right h1 (Real.exp_pos _).le
      _ = Real.exp (-p * y ^ 2) + (y ^ 2) ^ n * Real.exp (-p * y ^ 2) := by ring
      _ ≤ 1 + (n.factorial : ℝ) / p ^ n := by linarith

theorem integrableOn_gt1 {p : ℝ} (hp : 0 < p) : IntegrableOn (fun s : ℝ => Real.sqrt (Real.pi / (p + s)) ^ 3) (Ioi 0) := by
  have h : IntegrableOn (fun s : ℝ => Real.sqrt Real.pi ^ 3 * (s + p) ^ (-3 / 2 : ℝ)) (Ioi 0) :=
    (integrableOn_add_rpow_Ioi_of_lt (show (-3 / 2 : ℝ) < -1 by norm_num) (show -p < 0 by linarith)).const_mul
      (Real.sqrt Real.pi ^ 3)
  refine h.congr_fun (fun s hs => ?_) measurableSet_Ioi
  have hs' : 0 < s := hs
  have hps : 0 < p + s := by linarith
  beta_reduce
  rw [Real.sqrt_div Real.pi_pos.le, div_pow, div_eq_mul_inv]
  congr 1
  rw [Real.sqrt_eq_rpow, ← Real.rpow_natCast, ← Real.rpow_mul hps.le, ← Real.rpow_neg hps.le, add_comm]
  congr 1
  norm_num

theorem integrableOn_gt2 {p : ℝ} (hp : 0 < p) :
    IntegrableOn (fun s : ℝ => Real.sqrt (Real.pi / (p + s ^ 2)) ^ 3) (Ioi 0) := by
  have h := (integrable_inv_one_add_sq.integrableOn (s := Ioi (0 : ℝ))).const_mul
    (Real.sqrt (Real.pi / p) * (Real.pi / min p 1))
  have hcont : Continuous fun s : ℝ => Real.sqrt (Real.pi / (p + s ^ 2)) ^ 3 := by
    have : ∀ s : ℝ, p + s ^ 2 ≠ 0 := fun s => by positivity
    fun_prop (disch := exact this _)
  refine h.mono' hcont.aestronglyMeasurable ?_
  filter_upwards with s
  have hps : 0 < p + s ^ 2 := by positivity
  have hm : 0 < min p 1 := lt_min hp one_pos
  rw [Real.norm_of_nonneg (by positivity)]
  have e1 : Real.sqrt (Real.pi / (p + s ^ 2)) ^ 3 = Real.sqrt (Real.pi / (p + s ^ 2)) * (Real.pi / (p + s ^ 2)) := by
    have := Real.sq_sqrt (show 0 ≤ Real.pi / (p + s ^ 2) from div_nonneg Real.pi_pos.le hps.le)
    rw [pow_succ, this]; ring
  rw [e1, mul_assoc]
  have hpi := Real.pi_pos
  refine mul_le_mul (Real.sqrt_le_sqrt ?_) ?_ (by positivity) (Real.sqrt_nonneg _)
  · exact div_le_div_of_nonneg_left hpi.le hp (by nlinarith [sq_nonneg s])
  · rw [div_mul_eq_mul_div, ← div_eq_mul_inv, div_div]
    refine div_le_div_of_nonneg_left hpi.le (by positivity) ?_
    have h1 : min p 1 ≤ p := min_le_left _ _
    have h2 : min p 1 ≤ 1 := min_le_right _ _
    nlinarith [sq_nonneg s]

/-! ## Substitutions to the unit interval -/

theorem subst_coulomb {q : ℝ} (hq : 0 < q) (g : ℝ → ℝ) :
    ∫ s in Ioi (0 : ℝ), Real.sqrt (Real.pi / (q + s ^ 2)) ^ 3 * g (q * s ^ 2 / (q + s ^ 2)) =
      Real.sqrt Real.pi ^ 3 / q * ∫ u in Ioo (0 : ℝ) 1, g (q * u ^ 2) := by
  let f : ℝ → ℝ := fun s => s / Real.sqrt (q + s ^ 2)
  have hpos : ∀ s : ℝ, 0 < q + s ^ 2 := fun s => by positivity
  have hsq : ∀ s : ℝ, Real.sqrt (q + s ^ 2) ^ 2 = q + s ^ 2 := fun s => Real.sq_sqrt (hpos s).le
  have hne : ∀ s : ℝ, Real.sqrt (q + s ^ 2) ≠ 0 := fun s => (Real.sqrt_pos.2 (hpos s)).ne'
  have hf : ∀ s, HasDerivAt f (q / Real.sqrt (q + s ^ 2) ^ 3) s := by
    intro s
    have h1 : HasDerivAt (fun s : ℝ => q + s ^ 2) (2 * s) s := by
      simpa using ((hasDerivAt_id s).pow 2).const_add q
    have h2 := (hasDerivAt_id s).div (h1.sqrt (hpos s).ne') (hne s)
    refine h2.congr_deriv ?_
    simp only [id]
    have := hne s
    have hs2 := hsq s
    field_simp
    rw [hs2]; ring
  have f2 : ∀ s, f s ^ 2 = s ^ 2 / (q + s ^ 2) := fun s => by simp only [f]; rw [div_pow, hsq]
  have himg : f '' Ioi 0 = Ioo 0 1 := by
    ext u
    constructor
    · rintro ⟨s, hs, rfl⟩
      have hs' : 0 < s := hs
      have h0 : 0 < f s := div_pos hs' (Real.sqrt_pos.2 (hpos s))
      refine ⟨h0, ?_⟩
      have : f s ^ 2 < 1 := by rw [f2, div_lt_one (hpos s)]; linarith
      nlinarith
    · rintro ⟨h0, h1⟩
      have hu : 0 < 1 - u ^ 2 := by nlinarith
      refine ⟨Real.sqrt (q * u ^ 2 / (1 - u ^ 2)), Real.sqrt_pos.2 (by positivity), ?_⟩
      have hs2 : Real.sqrt (q * u ^ 2 / (1 - u ^ 2)) ^ 2 = q * u ^ 2 / (1 - u ^ 2) := Real.sq_sqrt (by positivity)
      have h2 : f (Real.sqrt (q * u ^ 2 / (1 - u ^ 2))) ^ 2 = u ^ 2 := by
        rw [f2, hs2]
        field_simp
        ring
      have hfp : 0 ≤ f (Real.sqrt (q * u ^ 2 / (1 - u ^ 2))) := div_nonneg (Real.sqrt_nonneg _) (Real.sqrt_nonneg _)
      exact (pow_left_inj₀ hfp h0.le two_ne_zero).1 h2
  have hinj : InjOn f (Ioi 0) := by
    have hmono : StrictMono f := strictMono_of_deriv_pos fun s => by
      rw [(hf s).deriv]
      have := Real.sqrt_pos.2 (hpos s)
      positivity
    exact hmono.injective.injOn
  have key := integral_image_eq_integral_abs_deriv_smul measurableSet_Ioi
    (fun s _ => (hf s).hasDerivWithinAt) hinj (fun u => g (q * u ^ 2))
  rw [himg] at key
  rw [key, ← integral_const_mul]
  refine setIntegral_congr_fun measurableSet_Ioi fun s _ => ?_
  have hsp := Real.sqrt_pos.2 (hpos s)
  rw [abs_of_pos (by positivity), smul_eq_mul, f2, Real.sqrt_div Real.pi_pos.le, div_pow, mul_div_assoc]
  field_simp

theorem subst_inverse_square {q : ℝ} (hq : 0 < q) (g : ℝ → ℝ) :
    ∫ s in Ioi (0 : ℝ), Real.sqrt (Real.pi / (q + s)) ^ 3 * g (q * s / (q + s)) =
      2 * Real.sqrt Real.pi ^ 3 / Real.sqrt q * ∫ u in Ioo (0 : ℝ) 1, g (q * (1 - u ^ 2)) := by
  let f : ℝ → ℝ := fun s => Real.sqrt q / Real.sqrt (q + s)
  have hqs : 0 < Real.sqrt q := Real.sqrt_pos.2 hq
  have hq2 : Real.sqrt q ^ 2 = q := Real.sq_sqrt hq.le
  have hpos : ∀ s : ℝ, s ∈ Ioi (0 : ℝ) → 0 < q + s := fun s hs => by
    have : 0 < s := hs
    linarith
  have f2 : ∀ s ∈ Ioi (0 : ℝ), f s ^ 2 = q / (q + s) := fun s hs => by
    simp only [f]; rw [div_pow, hq2, Real.sq_sqrt (hpos s hs).le]
  have hf : ∀ s ∈ Ioi (0 : ℝ), HasDerivAt f (-(Real.sqrt q / (2 * Real.sqrt (q + s) ^ 3))) s := by
    intro s hs
    have hp := hpos s hs
    have h1 : HasDerivAt (fun s : ℝ => q + s) 1 s := (hasDerivAt_id s).const_add q
    have hne := (Real.sqrt_pos.2 hp).ne'
    have h2 := (hasDerivAt_const s (Real.sqrt q)).div (h1.sqrt hp.ne') hne
    refine h2.congr_deriv ?_
    field_simp
    ring
  have himg : f '' Ioi 0 = Ioo 0 1 := by
    ext u
    constructor
    · rintro ⟨s, hs, rfl⟩
      have hs' : 0 < s := hs
      have h0 : 0 < f s := div_pos hqs (Real.sqrt_pos.2 (hpos s hs))
      refine ⟨h0, ?_⟩
      have : f s ^ 2 < 1 := by rw [f2 s hs, div_lt_one (hpos s hs)]; linarith
      nlinarith
    · rintro ⟨h0, h1⟩
      have hu : 0 < 1 - u ^ 2 := by nlinarith
      have hs : q / u ^ 2 - q ∈ Ioi (0 : ℝ) := by
        have : q / u ^ 2 - q = q * (1 - u ^ 2) / u ^ 2 := by field_simp
        rw [this]
        show 0 < q * (1 - u ^ 2) / u ^ 2
        positivity
      refine ⟨q / u ^ 2 - q, hs, ?_⟩
      have h2 : f (q / u ^ 2 - q) ^ 2 = u ^ 2 := by
        rw [f2 _ hs, show q + (q / u ^ 2 - q) = q / u ^ 2 by ring]
        field_simp
      have hfp : 0 ≤ f (q / u ^ 2 - q) := div_nonneg (Real.sqrt_nonneg _) (Real.sqrt_nonneg _)
      exact (pow_left_inj₀ hfp h0.le two_ne_zero).1 h2
  have hinj : InjOn f (Ioi 0) := by
    intro s hs t ht hst
    have h1 := f2 s hs
    have h2 := f2 t ht
    rw [hst, h2, div_eq_div_iff (hpos t ht).ne' (hpos s hs).ne'] at h1
    have := mul_left_cancel₀ hq.ne' h1
    linarith
  have key := integral_image_eq_integral_abs_deriv_smul measurableSet_Ioi
    (fun s hs => (hf s hs).hasDerivWithinAt) hinj (fun u => g (q * (1 - u ^ 2)))
  rw [himg] at key
  rw [key, ← integral_const_mul]
  refine setIntegral_congr_fun measurableSet_Ioi fun s hs => ?_
  have hp := hpos s hs
  have hsp := Real.sqrt_pos.2 hp
  have hap : 0 < Real.sqrt q / (2 * Real.sqrt (q + s) ^ 3) := by positivity
  rw [abs_neg, abs_of_pos hap, smul_eq_mul, f2 s hs, Real.sqrt_div Real.pi_pos.le, div_pow,
    show q * (1 - q / (q + s)) = q * s / (q + s) by field_simp; ring]
  field_simp

end Libgrpp
