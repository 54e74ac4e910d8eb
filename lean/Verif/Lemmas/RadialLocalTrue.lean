import Verif.Lemmas.RadialLocal
import Verif.Lemmas.Sphere
import Verif.Lemmas.MmdIntegral

/-! The exact partial-wave form of the integrals of a radially local potential. -/

namespace Libgrpp

open MeasureTheory Set

/-- A potential function of the distance that is continuous for positive distances and, up to a factor, at most
`1 + 1/r + 1/r²`. -/
def Tame (V : ℝ → ℝ) : Prop := ContinuousOn V (Ioi 0) ∧ ∃ K, ∀ r, 0 < r → |V r| ≤ K * (1 + r⁻¹ + (r ^ 2)⁻¹)

theorem vnorm_pos {s : Point} (hs : s ≠ 0) : 0 < vnorm s := by
  rcases (vnorm_nonneg s).lt_or_eq with h | h
  · exact h
  · exact absurd (funext fun i => vnorm_eq_zero h.symm i) hs

theorem ae_ne_zero : ∀ᵐ s : Point, s ≠ 0 := by
  simp [ae_iff, measure_singleton]

theorem measurable_vnorm : Measurable vnorm := by
  unfold vnorm
  fun_prop

theorem continuous_monoAt (p : Comp) : Continuous (monoAt p) := by
  unfold monoAt
  fun_prop

theorem tame_majorant (p : Comp) {β : ℝ} (hβ : 0 < β) :
    Integrable fun s : Point => monoAt p s * Real.exp (-β * ∑ i, s i ^ 2) * (1 + (vnorm s)⁻¹ + (vnorm s ^ 2)⁻¹) := by
  have e : ∀ s : Point, prod3 (mmdFactor β 0 0 (fun _ => 0) (fun _ => 0) (fun _ => 0) p (0, 0, 0)) s =
      monoAt p s * Real.exp (-β * ∑ i, s i ^ 2) := by
    intro s
    unfold prod3 mmdFactor monoAt
    rw [Finset.prod_mul_distrib, ← Real.exp_sum]
    simp only [sub_zero, neg_zero, zero_mul, add_zero]
    rw [← Finset.mul_sum]
    congr 1
    simp [Fin.prod_univ_three, Comp.exp]
  have er : ∀ s : Point, radius (fun _ => 0) s = vnorm s := by
    intro s
    unfold radius vnorm
    simp
  have h0 := (prim_gauss (a := β) (b := 0) (c := 0) (by linarith) (fun _ => 0) (fun _ => 0) (fun _ => 0) p (0, 0, 0)).1
  have h1 := (coulomb_true (a := β) (b := 0) (c := 0) (by linarith) (fun _ => 0) (fun _ => 0) (fun _ => 0) p (0, 0, 0)).1
  have h2 := (inverse_square_true (a := β) (b := 0) (c := 0) (by linarith) (fun _ => 0) (fun _ => 0) (fun _ => 0) p (0, 0, 0)).1
  simp only [e, er] at h1 h2
  have h0' : Integrable fun s : Point => monoAt p s * Real.exp (-β * ∑ i, s i ^ 2) := by
    refine h0.congr (Filter.Eventually.of_forall fun s => ?_)
    exact e s
  refine ((h0'.add h1).add h2).congr (Filter.Eventually.of_forall fun s => ?_)
  simp only [Pi.add_apply]
  ring

theorem exp_shift_le {β : ℝ} (hβ : 0 < β) (k : Point) (s : Point) :
    -β * ∑ i, s i ^ 2 + ∑ i, k i * s i ≤ -(β / 2) * ∑ i, s i ^ 2 + (∑ i, k i ^ 2) / (2 * β) := by
  have h : ∀ i, k i * s i ≤ β / 2 * s i ^ 2 + k i ^ 2 / (2 * β) := by
    intro i
    have := sq_nonneg (β * s i - k i)
    have e : β / 2 * s i ^ 2 + k i ^ 2 / (2 * β) - k i * s i = (β * s i - k i) ^ 2 / (2 * β) := by
      field_simp
      ring
    have := div_nonneg this (by linarith : 0 ≤ 2 * β)
    linarith
  have := Finset.sum_le_sum fun i (_ : i ∈ (Finset.univ : Finset (Fin 3))) => h i
  rw [Finset.sum_add_distrib, ← Finset.mul_sum, ← Finset.sum_div] at this
  linarith

/-- Polynomials times Gaussians times tame potentials are integrable. -/
theorem tame_integrable {V : ℝ → ℝ} (hV : Tame V) (p : Comp) {β : ℝ} (hβ : 0 < β) (k : Point) :
    Integrable fun s : Point => monoAt p s * (Real.exp (-β * ∑ i, s i ^ 2 + ∑ i, k i * s i) * V (vnorm s)) := by
  obtain ⟨hm, K, hK⟩ := hV
  have hmaj := ((tame_majorant p (β := β / 2) (by linarith)).norm.const_mul (Real.exp ((∑ i, k i ^ 2) / (2 * β)) * |K|))
  refine hmaj.mono' ?_ ?_
  · have := (continuous_monoAt p).measurable
    have h3 : Measurable fun s : Point => Real.exp (-β * ∑ i, s i ^ 2 + ∑ i, k i * s i) := by fun_prop
    classical
    have h2 : Measurable ((Ioi (0:ℝ)).piecewise V 0) :=
      hm.measurable_piecewise continuousOn_const measurableSet_Ioi
    refine (this.mul (h3.mul (h2.comp measurable_vnorm))).aestronglyMeasurable.congr ?_
    filter_upwards [ae_ne_zero] with s hs
    have hmem : vnorm s ∈ Ioi (0:ℝ) := vnorm_pos hs
    simp only [Pi.mul_apply, Function.comp_apply, piecewise_eq_of_mem _ _ _ hmem]
  · filter_upwards [ae_ne_zero] with s hs
    have hpos : 0 < vnorm s := vnorm_pos hs
    have h1 := hK _ hpos
    have h2 := Real.exp_le_exp.2 (exp_shift_le hβ k s)
    rw [Real.exp_add (-(β / 2) * _)] at h2
    set w := 1 + (vnorm s)⁻¹ + (vnorm s ^ 2)⁻¹
    have hw : 0 ≤ w := by positivity
    rw [norm_mul, norm_mul, norm_mul, norm_mul, Real.norm_eq_abs, Real.norm_eq_abs, Real.norm_eq_abs, Real.norm_eq_abs, Real.norm_eq_abs, Real.abs_exp, Real.abs_exp,
      abs_of_nonneg hw]
    have h3 : |V (vnorm s)| ≤ |K| * w := h1.trans (mul_le_mul_of_nonneg_right (le_abs_self K) hw)
    calc |monoAt p s| * (Real.exp (-β * ∑ i, s i ^ 2 + ∑ i, k i * s i) * |V (vnorm s)|)
        ≤ |monoAt p s| * ((Real.exp (-(β / 2) * ∑ i, s i ^ 2) * Real.exp ((∑ i, k i ^ 2) / (2 * β))) * (|K| * w)) :=
          mul_le_mul_of_nonneg_left (mul_le_mul h2 h3 (abs_nonneg _) (by positivity)) (abs_nonneg _)
      _ = Real.exp ((∑ i, k i ^ 2) / (2 * β)) * |K| * (|monoAt p s| * Real.exp (-(β / 2) * ∑ i, s i ^ 2) * w) := by ring

/-- The radial functions are integrable. -/
theorem tame_radial_integrable {V : ℝ → ℝ} (hV : Tame V) (n l : ℕ) {β : ℝ} (hβ : 0 < β) {κ : ℝ} (hκ : 0 ≤ κ) :
    IntegrableOn (fun r => r ^ 2 * (r ^ n * (Real.exp (-β * r ^ 2) * V r * besselI l (r * κ)))) (Ioi 0) := by
  obtain ⟨hm, K, hK⟩ := hV
  have base : ∀ m : ℕ, IntegrableOn (fun r : ℝ => r ^ m * Real.exp (-(β / 2) * r ^ 2)) (Ioi 0) := by
    intro m
    have := integrableOn_rpow_mul_exp_neg_mul_sq (b := β / 2) (by linarith) (s := (m : ℝ)) (by
      have : (0 : ℝ) ≤ m := Nat.cast_nonneg m
      linarith)
    refine this.congr_fun (fun r _ => ?_) measurableSet_Ioi
    simp only [Real.rpow_natCast]
  have hmaj : IntegrableOn (fun r : ℝ => Real.exp (κ ^ 2 / (2 * β)) * |K| *
      (r ^ (n + 2) * Real.exp (-(β / 2) * r ^ 2) + r ^ (n + 1) * Real.exp (-(β / 2) * r ^ 2) + r ^ n * Real.exp (-(β / 2) * r ^ 2))) (Ioi 0) :=
    (((base (n + 2)).add (base (n + 1))).add (base n)).const_mul _
  refine hmaj.mono' ?_ ?_
  · have hb : Continuous (besselI l) := continuous_iff_continuousAt.2 fun x => (besselI_hasDerivAt l x).continuousAt
    have hb2 : Continuous fun r : ℝ => besselI l (r * κ) := hb.comp (by fun_prop)
    refine ContinuousOn.aestronglyMeasurable ?_ measurableSet_Ioi
    exact (by fun_prop : ContinuousOn (fun r : ℝ => r ^ 2) (Ioi 0)).mul ((by fun_prop : ContinuousOn (fun r : ℝ => r ^ n) (Ioi 0)).mul
      (((by fun_prop : ContinuousOn (fun r : ℝ => Real.exp (-β * r ^ 2)) (Ioi 0)).mul hm).mul hb2.continuousOn))
  · refine (ae_restrict_iff' measurableSet_Ioi).2 (Filter.Eventually.of_forall fun r hr => ?_)
    have hr : 0 < r := hr
    have h1 := hK r hr
    have hx : 0 ≤ r * κ := mul_nonneg hr.le hκ
    have hb := besselI_le_exp l hx
    have hb0 := besselI_nonneg l hx
    have hw : 0 ≤ 1 + r⁻¹ + (r ^ 2)⁻¹ := by positivity
    have h3 : |V r| ≤ |K| * (1 + r⁻¹ + (r ^ 2)⁻¹) := h1.trans (mul_le_mul_of_nonneg_right (le_abs_self K) hw)
    have h4 : Real.exp (-β * r ^ 2) * Real.exp (r * κ) ≤ Real.exp (κ ^ 2 / (2 * β)) * Real.exp (-(β / 2) * r ^ 2) := by
      rw [← Real.exp_add, ← Real.exp_add, Real.exp_le_exp]
      have e : κ ^ 2 / (2 * β) + -(β / 2) * r ^ 2 - (-β * r ^ 2 + r * κ) = (β * r - κ) ^ 2 / (2 * β) := by
        field_simp
        ring
      have := div_nonneg (sq_nonneg (β * r - κ)) (by linarith : 0 ≤ 2 * β)
      linarith
    rw [Real.norm_eq_abs, abs_mul, abs_mul, abs_mul, abs_mul, Real.abs_exp, abs_of_nonneg hb0, abs_of_pos (pow_pos hr 2), abs_of_pos (pow_pos hr n)]
    calc r ^ 2 * (r ^ n * (Real.exp (-β * r ^ 2) * |V r| * besselI l (r * κ)))
        ≤ r ^ 2 * (r ^ n * (Real.exp (-β * r ^ 2) * (|K| * (1 + r⁻¹ + (r ^ 2)⁻¹)) * Real.exp (r * κ))) := by
          refine mul_le_mul_of_nonneg_left (mul_le_mul_of_nonneg_left ?_ (by positivity)) (by positivity)
          exact mul_le_mul (mul_le_mul_of_nonneg_left h3 (Real.exp_pos _).le) hb hb0 (by positivity)
      _ = (Real.exp (-β * r ^ 2) * Real.exp (r * κ)) * (|K| * (r ^ (n + 2) + r ^ (n + 1) + r ^ n)) := by
          field_simp
          ring
      _ ≤ (Real.exp (κ ^ 2 / (2 * β)) * Real.exp (-(β / 2) * r ^ 2)) * (|K| * (r ^ (n + 2) + r ^ (n + 1) + r ^ n)) :=
          mul_le_mul_of_nonneg_right h4 (by positivity)
      _ = _ := by ring

/-- A monomial, a Gaussian, an exponential and a radial function: integration over all space. -/
theorem tame_integral {V : ℝ → ℝ} (hV : Tame V) (p : Comp) {β : ℝ} (hβ : 0 < β) (k : Point) (hk : VecOk k) {D : ℕ}
    (hD : p.1 + p.2.1 + p.2.2 ≤ D) :
    ∫ s : Point, monoAt p s * (Real.exp (-β * ∑ i, s i ^ 2 + ∑ i, k i * s i) * V (vnorm s)) =
      4 * Real.pi * ∑ l ∈ Finset.range (D + 1), angOmega l p k *
        ∫ r in Ioi (0:ℝ), r ^ 2 * (r ^ (p.1 + p.2.1 + p.2.2) * (Real.exp (-β * r ^ 2) * V r * besselI l (r * vnorm k))) := by
  rw [integral_polar _ (tame_integrable hV p hβ k)]
  have hi := fun l => tame_radial_integrable hV (p.1 + p.2.1 + p.2.2) l hβ (vnorm_nonneg k)
  have e : ∀ r ∈ Ioi (0:ℝ), r ^ 2 • sphInt (fun ω => (fun s : Point => monoAt p s * (Real.exp (-β * ∑ i, s i ^ 2 + ∑ i, k i * s i) *
      V (vnorm s))) fun i => r * ω i) =
      ∑ l ∈ Finset.range (D + 1), 4 * Real.pi * angOmega l p k *
        (r ^ 2 * (r ^ (p.1 + p.2.1 + p.2.2) * (Real.exp (-β * r ^ 2) * V r * besselI l (r * vnorm k)))) := by
    intro r hr
    have hr : 0 < r := hr
    have e1 : sphInt (fun ω => (fun s : Point => monoAt p s * (Real.exp (-β * ∑ i, s i ^ 2 + ∑ i, k i * s i) *
        V (vnorm s))) fun i => r * ω i) =
        sphInt fun ω => (r ^ (p.1 + p.2.1 + p.2.2) * (Real.exp (-β * r ^ 2) * V r)) * (monoAt p ω * Real.exp (r * ∑ i, k i * ω i)) := by
      refine sphInt_congr fun ω hω => ?_
      have h1 : vnorm (fun i => r * ω i) = r := by
        unfold vnorm
        simp only [mul_pow]
        rw [← Finset.mul_sum, hω, mul_one, Real.sqrt_sq hr.le]
      have h2 : ∑ i, (r * ω i) ^ 2 = r ^ 2 := by
        simp only [mul_pow]
        rw [← Finset.mul_sum, hω, mul_one]
      have h3 : ∑ i, k i * (r * ω i) = r * ∑ i, k i * ω i := by
        rw [Finset.mul_sum]
        exact Finset.sum_congr rfl fun i _ => by ring
      have h4 : monoAt p (fun i => r * ω i) = r ^ (p.1 + p.2.1 + p.2.2) * monoAt p ω := by
        unfold monoAt
        ring
      beta_reduce
      rw [h1, h2, h3, h4, Real.exp_add]
      ring
    rw [e1, sphInt_const_mul_real, sphInt_mono_exp p hD r k hk, smul_eq_mul, Finset.mul_sum, Finset.mul_sum, Finset.mul_sum]
    refine Finset.sum_congr rfl fun l _ => ?_
    ring
  rw [setIntegral_congr_fun measurableSet_Ioi e, integral_finsetSum _ fun l _ => (hi l).const_mul _, Finset.mul_sum]
  refine Finset.sum_congr rfl fun l _ => ?_
  rw [integral_const_mul]
  ring

/-- The exact radial integral of order `lam` and power `n`. -/
noncomputable def radialExact (V : ℝ → ℝ) (A B : Shell) (C : Point) (a b : ℝ) (lam n : ℕ) : ℝ :=
  4 * Real.pi * gaussianNormFactor A.L 0 0 a * gaussianNormFactor B.L 0 0 b *
    ∫ r in Ioi (0:ℝ), r ^ 2 * (r ^ n * (Real.exp (-(a + b) * r ^ 2 - a * ∑ i, toC A C i ^ 2 - b * ∑ i, toC B C i ^ 2) * V r *
      besselI lam (r * vnorm (kVec A B C a b))))

/-- The partial-wave form without any screening and with exact radial integrals. -/
noncomputable def localSumExact (CA CB k : Point) (lmax : ℕ) (Q : ℕ → ℕ → ℝ) (x y : Comp) : ℝ :=
  ∑ p ∈ box x, ∑ q ∈ box y, boxCoef x CA p * boxCoef y CB q * ∑ lam ∈ Finset.range (lmax + 1),
    angOmega lam (p + q) k * Q lam (p.1 + p.2.1 + p.2.2 + q.1 + q.2.1 + q.2.2)

theorem monoAt_mul (p q : Comp) (s : Point) : monoAt p s * monoAt q s = monoAt (p + q) s := by
  unfold monoAt
  simp only [Prod.fst_add, Prod.snd_add, pow_add]
  ring

theorem primFn_shift (L : ℕ) (O C : Point) (x : Comp) (a : ℝ) (s : Point) : primFn L O x a (s + C) =
    gaussianNormFactor L 0 0 a * (monoAt x (fun i => s i + (C i - O i)) * Real.exp (-a * ∑ i, (s i + (C i - O i)) ^ 2)) := by
  rw [primFn_eq]
  unfold prod3 gfun monoAt
  rw [Finset.prod_mul_distrib, ← Real.exp_sum, ← Finset.mul_sum]
  have e : ∀ i, (s + C) i - O i = s i + (C i - O i) := fun i => by simp only [Pi.add_apply]; ring
  simp only [e]
  congr 2
  simp [Fin.prod_univ_three, Comp.exp]

theorem prim_product_shift (V : ℝ → ℝ) (A B : Shell) (C : Point) (a b : ℝ) (x y : Comp) (s : Point) :
    primFn A.L A.origin x a (s + C) * V (radius C (s + C)) * primFn B.L B.origin y b (s + C) =
      ∑ p ∈ box x, ∑ q ∈ box y, (gaussianNormFactor A.L 0 0 a * gaussianNormFactor B.L 0 0 b *
        Real.exp (- a * ∑ i, toC A C i ^ 2 - b * ∑ i, toC B C i ^ 2) * (boxCoef x (toC A C) p * boxCoef y (toC B C) q)) *
        (monoAt (p + q) s * (Real.exp (-(a + b) * ∑ i, s i ^ 2 + ∑ i, kVec A B C a b i * s i) * V (vnorm s))) := by
  have h1 : radius C (s + C) = vnorm s := by
    unfold radius vnorm
    congr 1
    exact Finset.sum_congr rfl fun i _ => by simp only [Pi.add_apply]; ring
  have h2 : Real.exp (-a * ∑ i, (s i + (C i - A.origin i)) ^ 2) * Real.exp (-b * ∑ i, (s i + (C i - B.origin i)) ^ 2) =
      Real.exp (- a * ∑ i, toC A C i ^ 2 - b * ∑ i, toC B C i ^ 2) *
        Real.exp (-(a + b) * ∑ i, s i ^ 2 + ∑ i, kVec A B C a b i * s i) := by
    rw [← Real.exp_add, ← Real.exp_add]
    congr 1
    simp only [Fin.sum_univ_three, toC, kVec]
    ring
  rw [primFn_shift, primFn_shift, h1, monoAt_add, monoAt_add]
  have h3 : ∀ (n1 n2 s1 s2 e1 e2 v : ℝ), n1 * (s1 * e1) * v * (n2 * (s2 * e2)) = (n1 * n2 * (e1 * e2) * v) * (s1 * s2) := by
    intros; ring
  rw [h3, h2, Finset.sum_mul_sum, Finset.mul_sum]
  refine Finset.sum_congr rfl fun p _ => ?_
  rw [Finset.mul_sum]
  refine Finset.sum_congr rfl fun q _ => ?_
  rw [← monoAt_mul]
  unfold toC
  ring

/-- Products of primitives with a tame potential are integrable. -/
theorem local_integrable {V : ℝ → ℝ} (hV : Tame V) (A B : Shell) (C : Point) {a b : ℝ} (ha : 0 < a) (hb : 0 < b) (x y : Comp) :
    Integrable fun r => primFn A.L A.origin x a r * V (radius C r) * primFn B.L B.origin y b r := by
  have h : Integrable fun s => primFn A.L A.origin x a (s + C) * V (radius C (s + C)) * primFn B.L B.origin y b (s + C) := by
    simp only [prim_product_shift]
    exact integrable_finsetSum _ fun p _ => integrable_finsetSum _ fun q _ =>
      (tame_integrable hV _ (by linarith) _).const_mul _
  have h' := h.comp_add_right (-C)
  simp only [neg_add_cancel_right] at h'
  exact h'

/-- **The partial-wave expansion is exact.** -/
theorem local_exact {V : ℝ → ℝ} (hV : Tame V) (A B : Shell) (C : Point) {a b : ℝ} (ha : 0 < a) (hb : 0 < b)
    (hk : VecOk (kVec A B C a b)) (x y : Comp) {D : ℕ} (hD : x.1 + x.2.1 + x.2.2 + y.1 + y.2.1 + y.2.2 ≤ D) :
    ∫ r, primFn A.L A.origin x a r * V (radius C r) * primFn B.L B.origin y b r =
      localSumExact (toC A C) (toC B C) (kVec A B C a b) D (radialExact V A B C a b) x y := by
  have hab : 0 < a + b := by linarith
  rw [← integral_add_right_eq_self _ C]
  simp only [prim_product_shift]
  set E0 := - a * ∑ i, toC A C i ^ 2 - b * ∑ i, toC B C i ^ 2 with hE0
  set k := kVec A B C a b with hkdef
  have hint := fun p => tame_integrable hV p hab k
  rw [integral_finsetSum _ fun p _ => integrable_finsetSum _ fun q _ => (hint _).const_mul _]
  unfold localSumExact
  refine Finset.sum_congr rfl fun p hp => ?_
  rw [integral_finsetSum _ fun q _ => (hint _).const_mul _]
  refine Finset.sum_congr rfl fun q hq => ?_
  rw [mem_box] at hp hq
  have hN : (p + q).1 + (p + q).2.1 + (p + q).2.2 = p.1 + p.2.1 + p.2.2 + q.1 + q.2.1 + q.2.2 := by
    show p.1 + q.1 + (p.2.1 + q.2.1) + (p.2.2 + q.2.2) = _
    omega
  rw [integral_const_mul, tame_integral hV (p + q) hab k hk (D := D) (by omega), hN, Finset.mul_sum, Finset.mul_sum, Finset.mul_sum]
  refine Finset.sum_congr rfl fun lam _ => ?_
  unfold radialExact
  have e4 : ∀ r : ℝ, Real.exp (-(a + b) * r ^ 2 - a * ∑ i, toC A C i ^ 2 - b * ∑ i, toC B C i ^ 2) =
      Real.exp E0 * Real.exp (-(a + b) * r ^ 2) := by
    intro r
    rw [← Real.exp_add]
    congr 1
    rw [hE0]
    ring
  simp only [e4]
  have e5 : ∀ r : ℝ, r ^ 2 * (r ^ (p.1 + p.2.1 + p.2.2 + q.1 + q.2.1 + q.2.2) * (Real.exp E0 * Real.exp (-(a + b) * r ^ 2) * V r *
      besselI lam (r * vnorm k))) = Real.exp E0 * (r ^ 2 * (r ^ (p.1 + p.2.1 + p.2.2 + q.1 + q.2.1 + q.2.2) *
        (Real.exp (-(a + b) * r ^ 2) * V r * besselI lam (r * vnorm k)))) := fun r => by ring
  rw [← hkdef]
  simp only [e5]
  rw [integral_const_mul]
  ring

/-- Error of a sum with small terms left out and approximate radial integrals. -/
theorem localSum_error (CA CB k : Point) (lmax : ℕ) (Qt Q : ℕ → ℕ → ℝ) (x y : Comp) :
    |localSum CA CB k lmax Qt x y - localSumExact CA CB k lmax Q x y| ≤
      ∑ p ∈ box x, ∑ q ∈ box y, ∑ lam ∈ Finset.range (lmax + 1), |angOmega lam (p + q) k| *
        (|boxCoef x CA p * boxCoef y CB q| * (|Qt lam (p.1 + p.2.1 + p.2.2 + q.1 + q.2.1 + q.2.2) -
          Q lam (p.1 + p.2.1 + p.2.2 + q.1 + q.2.1 + q.2.2)| + 1e-16) +
          1e-13 * |Q lam (p.1 + p.2.1 + p.2.2 + q.1 + q.2.1 + q.2.2)|) := by
  unfold localSum localSumExact
  rw [← Finset.sum_sub_distrib]
  refine (Finset.abs_sum_le_sum_abs _ _).trans (Finset.sum_le_sum fun p _ => ?_)
  rw [← Finset.sum_sub_distrib]
  refine (Finset.abs_sum_le_sum_abs _ _).trans (Finset.sum_le_sum fun q _ => ?_)
  generalize boxCoef x CA p * boxCoef y CB q = F
  generalize p.1 + p.2.1 + p.2.2 + q.1 + q.2.1 + q.2.2 = N
  split_ifs with h
  · rw [zero_sub, abs_neg, abs_mul]
    refine (mul_le_mul_of_nonneg_left (Finset.abs_sum_le_sum_abs _ _) (abs_nonneg F)).trans ?_
    rw [Finset.mul_sum]
    refine Finset.sum_le_sum fun lam _ => ?_
    rw [abs_mul]
    have h1 : |F| * (|angOmega lam (p + q) k| * |Q lam N|) ≤ 1e-13 * (|angOmega lam (p + q) k| * |Q lam N|) :=
      mul_le_mul_of_nonneg_right h.le (by positivity)
    have h2 : 0 ≤ |angOmega lam (p + q) k| * (|F| * (|Qt lam N - Q lam N| + 1e-16)) := by positivity
    nlinarith
  · rw [← mul_sub, abs_mul, ← Finset.sum_sub_distrib]
    refine (mul_le_mul_of_nonneg_left (Finset.abs_sum_le_sum_abs _ _) (abs_nonneg F)).trans ?_
    rw [Finset.mul_sum]
    refine Finset.sum_le_sum fun lam _ => ?_
    have h0 : 0 ≤ |angOmega lam (p + q) k| * (1e-13 * |Q lam N|) := by positivity
    have key : |(if |Qt lam N| < 1e-16 then 0 else angOmega lam (p + q) k * Qt lam N) - angOmega lam (p + q) k * Q lam N| ≤
        |angOmega lam (p + q) k| * (|Qt lam N - Q lam N| + 1e-16) := by
      split_ifs with h'
      · rw [zero_sub, abs_neg, abs_mul]
        refine mul_le_mul_of_nonneg_left ?_ (abs_nonneg _)
        have : |Q lam N| ≤ |Qt lam N - Q lam N| + |Qt lam N| := by
          have := abs_sub_abs_le_abs_sub (Q lam N) (Qt lam N)
          rw [abs_sub_comm] at this
          linarith
        linarith
      · rw [← mul_sub, abs_mul]
        refine mul_le_mul_of_nonneg_left ?_ (abs_nonneg _)
        norm_num
    calc |F| * |(if |Qt lam N| < 1e-16 then 0 else angOmega lam (p + q) k * Qt lam N) - angOmega lam (p + q) k * Q lam N|
        ≤ |F| * (|angOmega lam (p + q) k| * (|Qt lam N - Q lam N| + 1e-16)) := mul_le_mul_of_nonneg_left key (abs_nonneg _)
      _ ≤ _ := by
        rw [mul_add]
        linarith [mul_left_comm |F| |angOmega lam (p + q) k| (|Qt lam N - Q lam N| + 1e-16)]

end Libgrpp
