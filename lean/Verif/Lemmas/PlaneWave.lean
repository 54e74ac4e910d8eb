import Verif.Lemmas.HarmonicSpan
import Mathlib.MeasureTheory.Integral.DominatedConvergence
import Mathlib.Analysis.SpecialFunctions.Exponential

/-! Expansion of polynomials and exponentials on the unit sphere in real spherical harmonics. -/

namespace Libgrpp

open MeasureTheory Set Polynomial
open scoped Nat ComplexConjugate

theorem continuous_rsh (l : ℕ) (m : ℤ) : Continuous (rsh l m) := by
  unfold rsh
  have h2 : Continuous fun ω : Point => (legendreDeriv l m.natAbs).eval (ω 2) := (legendreDeriv l m.natAbs).continuous.comp (continuous_apply 2)
  have h3 : Continuous fun ω : Point => uC ω ^ m.natAbs := continuous_uC.pow _
  have h4 : Continuous fun ω : Point => (uC ω ^ m.natAbs).re := Complex.continuous_re.comp h3
  have h5 : Continuous fun ω : Point => (uC ω ^ m.natAbs).im := Complex.continuous_im.comp h3
  split_ifs
  · exact (continuous_const.mul h2).mul h4
  · exact (continuous_const.mul h2).mul h5

theorem continuous_rsh_ofReal (l : ℕ) (m : ℤ) : Continuous fun ω => (rsh l m ω : ℂ) := Complex.continuous_ofReal.comp (continuous_rsh l m)

/-- The coefficients of a combination of harmonics are its integrals with the harmonics. -/
theorem Spanned.coeff {D : ℕ} {f : Point → ℂ} {c : (Σ _ : ℕ, ℤ) → ℂ}
    (hc : ∀ ω : Point, ∑ k, ω k ^ 2 = 1 → f ω = ∑ p ∈ lmSet D, c p * Libgrpp.rsh p.1 p.2 ω) (l : ℕ) (m : ℤ) (hm : m.natAbs ≤ l) :
    sphInt (fun ω => f ω * Libgrpp.rsh l m ω) = if l ≤ D then c ⟨l, m⟩ else 0 := by
  have h1 : sphInt (fun ω => f ω * (Libgrpp.rsh l m ω : ℂ)) =
      sphInt (fun ω => ∑ p ∈ lmSet D, c p * ((Libgrpp.rsh p.1 p.2 ω * Libgrpp.rsh l m ω : ℝ) : ℂ)) := by
    apply sphInt_congr
    intro ω hω
    rw [hc ω hω, Finset.sum_mul]
    refine Finset.sum_congr rfl fun p _ => ?_
    push_cast
    ring
  rw [h1, sphInt_sum (f := fun p (ω : Point) => c p * ((Libgrpp.rsh p.1 p.2 ω * Libgrpp.rsh l m ω : ℝ) : ℂ)) _
    fun p _ => continuous_const.mul (Complex.continuous_ofReal.comp ((continuous_rsh _ _).mul (continuous_rsh _ _)))]
  have h2 : ∀ p ∈ lmSet D, sphInt (fun ω : Point => c p * ((Libgrpp.rsh p.1 p.2 ω * Libgrpp.rsh l m ω : ℝ) : ℂ)) =
      if p = ⟨l, m⟩ then c p else 0 := by
    intro p hp
    rw [sphInt_const_mul, sphInt_ofReal, rsh_orthonormal' _ _ _ _ (mem_lmSet.1 hp).2 hm]
    obtain ⟨a, b⟩ := p
    by_cases h : a = l ∧ b = m
    · obtain ⟨rfl, rfl⟩ := h
      simp
    · rw [if_neg h, if_neg]
      · simp
      · intro h'
        apply h
        cases h'
        exact ⟨rfl, rfl⟩
  rw [Finset.sum_congr rfl h2, Finset.sum_ite_eq']
  congr 1
  apply propext
  rw [mem_lmSet]
  simp [hm]

theorem Spanned.orthogonal {D : ℕ} {f : Point → ℂ} (hf : Spanned D f) (l : ℕ) (m : ℤ) (hm : m.natAbs ≤ l) (hl : D < l) :
    sphInt (fun ω => f ω * Libgrpp.rsh l m ω) = 0 := by
  obtain ⟨c, hc⟩ := hf
  rw [Spanned.coeff hc l m hm, if_neg (by omega)]

/-- Integral of a product, by expansion of the first factor. -/
theorem Spanned.integral_mul {D : ℕ} {f : Point → ℂ} (hf : Spanned D f) {g : Point → ℂ} (hg : Continuous g) :
    sphInt (fun ω => f ω * g ω) = ∑ p ∈ lmSet D, sphInt (fun ω => f ω * Libgrpp.rsh p.1 p.2 ω) * sphInt (fun ω => Libgrpp.rsh p.1 p.2 ω * g ω) := by
  obtain ⟨c, hc⟩ := hf
  have h1 : sphInt (fun ω => f ω * g ω) = sphInt (fun ω => ∑ p ∈ lmSet D, c p * (Libgrpp.rsh p.1 p.2 ω * g ω)) := by
    apply sphInt_congr
    intro ω hω
    rw [hc ω hω, Finset.sum_mul]
    exact Finset.sum_congr rfl fun p _ => by ring
  rw [h1, sphInt_sum (f := fun p (ω : Point) => c p * (Libgrpp.rsh p.1 p.2 ω * g ω)) _
    fun p _ => continuous_const.mul ((continuous_rsh_ofReal _ _).mul hg)]
  refine Finset.sum_congr rfl fun p hp => ?_
  rw [sphInt_const_mul, Spanned.coeff hc p.1 p.2 (mem_lmSet.1 hp).2, if_pos (mem_lmSet.1 hp).1]

theorem nullC_div (l i : ℕ) : nullC l i / ((l + 2 * i)! : ℂ) = 4 * (Real.pi : ℂ) * (1 / ((2 * i)‼ * (2 * l + 2 * i + 1)‼ : ℂ)) := by
  have c1 : ((l + i).choose l : ℂ) * (l ! : ℂ) * (i ! : ℂ) = ((l + i)! : ℂ) := by
    have := Nat.choose_mul_factorial_mul_factorial (n := l + i) (k := l) (by omega)
    rw [show l + i - l = i by omega] at this
    exact_mod_cast this
  have c2 : ((2 * l + 2 * i).choose l : ℂ) * (l ! : ℂ) * ((l + 2 * i)! : ℂ) = ((2 * l + 2 * i)! : ℂ) := by
    have := Nat.choose_mul_factorial_mul_factorial (n := 2 * l + 2 * i) (k := l) (by omega)
    rw [show 2 * l + 2 * i - l = l + 2 * i by omega] at this
    exact_mod_cast this
  have c3 : ((2 * l + 2 * i)! : ℂ) * (2 * l + 2 * i + 1) = 2 ^ (l + i) * ((l + i)! : ℂ) * ((2 * l + 2 * i + 1)‼ : ℂ) := by
    have h1 := Nat.factorial_eq_mul_doubleFactorial (2 * l + 2 * i)
    have h2 := Nat.doubleFactorial_two_mul (l + i)
    rw [show 2 * (l + i) = 2 * l + 2 * i by ring] at h2
    rw [h2, Nat.factorial_succ] at h1
    have h3 : ((2 * l + 2 * i + 1 : ℕ) : ℂ) * ((2 * l + 2 * i)! : ℂ) = ((2 * l + 2 * i + 1)‼ : ℂ) * (2 ^ (l + i) * ((l + i)! : ℂ)) := by
      exact_mod_cast h1
    push_cast at h3
    linear_combination h3
  have c4 : ((2 * i)‼ : ℂ) = 2 ^ i * (i ! : ℂ) := by exact_mod_cast Nat.doubleFactorial_two_mul i
  have n1 : (l ! : ℂ) ≠ 0 := by exact_mod_cast (Nat.factorial_pos _).ne'
  have n2 : (i ! : ℂ) ≠ 0 := by exact_mod_cast (Nat.factorial_pos _).ne'
  have n3 : ((l + 2 * i)! : ℂ) ≠ 0 := by exact_mod_cast (Nat.factorial_pos _).ne'
  have n4 : ((l + i)! : ℂ) ≠ 0 := by exact_mod_cast (Nat.factorial_pos _).ne'
  have n5 : ((2 * l + 2 * i + 1)‼ : ℂ) ≠ 0 := by exact_mod_cast (Nat.doubleFactorial_pos _).ne'
  have n6 : ((2 * l + 2 * i).choose l : ℂ) ≠ 0 := by exact_mod_cast (Nat.choose_pos (by omega)).ne'
  have n7 : (2 * (l : ℂ) + 2 * i + 1) ≠ 0 := by exact_mod_cast Nat.succ_ne_zero (2 * l + 2 * i)
  have n8 : ((2 * l + 2 * i)! : ℂ) ≠ 0 := by exact_mod_cast (Nat.factorial_pos _).ne'
  have d1 : ((l + i).choose l : ℂ) = ((l + i)! : ℂ) / ((l ! : ℂ) * (i ! : ℂ)) := by
    rw [eq_div_iff (mul_ne_zero n1 n2)]
    linear_combination c1
  have d2 : ((2 * l + 2 * i).choose l : ℂ) = ((2 * l + 2 * i)! : ℂ) / ((l ! : ℂ) * ((l + 2 * i)! : ℂ)) := by
    rw [eq_div_iff (mul_ne_zero n1 n3)]
    linear_combination c2
  have d3 : ((2 * l + 2 * i + 1)‼ : ℂ) = ((2 * l + 2 * i)! : ℂ) * (2 * l + 2 * i + 1) / (2 ^ (l + i) * ((l + i)! : ℂ)) := by
    rw [eq_div_iff (mul_ne_zero (by simp) n4)]
    linear_combination -c3
  rw [nullC, c4, d1, d2, d3, pow_add]
  field_simp

theorem harmV_smul (l j : ℕ) (hj : j ≤ 2 * l) (c : ℂ) (k : Fin 3 → ℂ) : harmV l j (fun i => c * k i) = c ^ l * harmV l j k := by
  refine poly_coeff_ext (N := 2 * l + 1) (f := fun j => harmV l j (fun i => c * k i)) (g := fun j => c ^ l * harmV l j k) ?_ j (by omega)
  intro t
  rw [← harmV_sum]
  have : cdot (nullV t) (fun i => c * k i) = c * cdot (nullV t) k := by
    unfold cdot
    rw [Finset.mul_sum]
    exact Finset.sum_congr rfl fun i _ => by ring
  rw [this, mul_pow, harmV_sum, Finset.mul_sum]
  exact Finset.sum_congr rfl fun i _ => by ring

/-- `n·ω` -/
def rdot (n ω : Point) : ℝ := ∑ k, n k * ω k

theorem continuous_rdot (n : Point) : Continuous (rdot n) := by
  unfold rdot
  fun_prop

theorem abs_rdot_le (n ω : Point) (hn : ∑ k, n k ^ 2 = 1) (hω : ∑ k, ω k ^ 2 = 1) : |rdot n ω| ≤ 1 := by
  have h := Finset.sum_mul_sq_le_sq_mul_sq Finset.univ n ω
  rw [hn, hω] at h
  have : rdot n ω ^ 2 ≤ 1 := by simpa [rdot] using h
  exact (sq_le_one_iff_abs_le_one _).1 this

theorem cdot_real (κ : ℝ) (n ω : Point) : cdot (fun i => (κ : ℂ) * n i) (fun i => ω i) = ((κ * rdot n ω : ℝ) : ℂ) := by
  unfold cdot rdot
  push_cast
  rw [Finset.mul_sum]
  exact Finset.sum_congr rfl fun i _ => by ring

theorem harmV_pow_int (l j : ℕ) (hj : j ≤ 2 * l) (κ : ℝ) (n : Point) (hn : ∑ k, n k ^ 2 = 1) (i : ℕ) :
    sphInt (fun ω : Point => harmV l j (fun i => ω i) * ((κ * rdot n ω : ℝ) : ℂ) ^ (l + 2 * i)) =
      nullC l i * (κ : ℂ) ^ (l + 2 * i) * harmV l j (fun i => n i) := by
  have h := harmV_moment l i (fun i => (κ : ℂ) * n i) j hj
  simp only [cdot_real] at h
  rw [h, harmV_smul l j hj]
  have : cdot (fun i => (κ : ℂ) * n i) (fun i => (κ : ℂ) * n i) = (κ : ℂ) ^ 2 := by
    have h1 : (∑ k, (n k : ℂ) ^ 2) = 1 := by exact_mod_cast hn
    unfold cdot
    rw [← mul_one ((κ : ℂ) ^ 2), ← h1, Finset.mul_sum]
    exact Finset.sum_congr rfl fun i _ => by ring
  rw [this, pow_add, ← pow_mul]
  ring

theorem harmV_pow_zero (l j : ℕ) (hj : j ≤ 2 * l) (κ : ℝ) (n : Point) (N : ℕ) (h : ¬ ∃ i, N = l + 2 * i) :
    sphInt (fun ω : Point => harmV l j (fun i => ω i) * ((κ * rdot n ω : ℝ) : ℂ) ^ N) = 0 := by
  have h := harmV_moment_zero l N ?_ (fun i => (κ : ℂ) * n i) j hj
  · simpa only [cdot_real] using h
  · by_contra hc
    push Not at hc
    apply h
    obtain ⟨⟨r, hr⟩, hc2⟩ := hc
    exact ⟨r - l, by omega⟩

/-- Integral of a solid harmonic with an exponential. -/
theorem harmV_exp (l j : ℕ) (hj : j ≤ 2 * l) (κ : ℝ) (n : Point) (hn : ∑ k, n k ^ 2 = 1) :
    sphInt (fun ω : Point => harmV l j (fun i => ω i) * (Real.exp (κ * rdot n ω) : ℂ)) =
      4 * (Real.pi : ℂ) * (besselI l κ : ℂ) * harmV l j (fun i => n i) := by
  obtain ⟨M, hM⟩ : ∃ M, ∀ ω : Metric.sphere (0 : EuclideanSpace ℝ (Fin 3)) 1, ‖harmV l j (fun i => (((ω : EuclideanSpace ℝ (Fin 3)) i : ℝ) : ℂ))‖ ≤ M := by
    have hc : Continuous fun ω : Metric.sphere (0 : EuclideanSpace ℝ (Fin 3)) 1 => harmV l j (fun i => (((ω : EuclideanSpace ℝ (Fin 3)) i : ℝ) : ℂ)) :=
      (continuous_harmV l j).comp continuous_sph
    obtain ⟨M, hM⟩ := (isCompact_range hc).isBounded.exists_norm_le
    exact ⟨M, fun ω => hM _ ⟨ω, rfl⟩⟩
  have key : HasSum (fun N : ℕ => sphInt (fun ω : Point => harmV l j (fun i => ω i) * (((κ * rdot n ω : ℝ) : ℂ) ^ N / (N ! : ℂ))))
      (sphInt (fun ω : Point => harmV l j (fun i => ω i) * (Real.exp (κ * rdot n ω) : ℂ))) := by
    unfold sphInt
    refine hasSum_integral_of_dominated_convergence (fun N _ => M * (|κ| ^ N / N !)) ?_ ?_ ?_ ?_ ?_
    · intro N
      have hc : Continuous fun ω : Point => harmV l j (fun i => ω i) * (((κ * rdot n ω : ℝ) : ℂ) ^ N / (N ! : ℂ)) :=
        (continuous_harmV l j).mul (((Complex.continuous_ofReal.comp (continuous_const.mul (continuous_rdot n))).pow N).div_const _)
      exact (sphInt_integrable hc).aestronglyMeasurable
    · intro N
      refine Filter.Eventually.of_forall fun ω => ?_
      rw [norm_mul, norm_div, norm_pow, Complex.norm_real, Complex.norm_natCast, Real.norm_eq_abs, abs_mul]
      have h1 := abs_rdot_le n (fun k => (ω : EuclideanSpace ℝ (Fin 3)) k) hn (sphere_norm ω)
      have h2 : |κ| * |rdot n (fun k => (ω : EuclideanSpace ℝ (Fin 3)) k)| ≤ |κ| := by
        nlinarith [abs_nonneg κ]
      have h3 : 0 ≤ |κ| * |rdot n (fun k => (ω : EuclideanSpace ℝ (Fin 3)) k)| := by positivity
      have hM0 : 0 ≤ M := (norm_nonneg _).trans (hM ω)
      gcongr
      exact hM ω
    · refine Filter.Eventually.of_forall fun ω => ?_
      exact (Real.summable_pow_div_factorial |κ|).mul_left M
    · exact integrable_const _
    · refine Filter.Eventually.of_forall fun ω => ?_
      apply HasSum.mul_left
      have h := NormedSpace.expSeries_div_hasSum_exp (𝔸 := ℂ) ((κ * rdot n (fun k => (ω : EuclideanSpace ℝ (Fin 3)) k) : ℝ) : ℂ)
      rw [← Complex.exp_eq_exp_ℂ, ← Complex.ofReal_exp] at h
      exact h
  have hval : ∀ N : ℕ, sphInt (fun ω : Point => harmV l j (fun i => ω i) * (((κ * rdot n ω : ℝ) : ℂ) ^ N / (N ! : ℂ))) =
      sphInt (fun ω : Point => harmV l j (fun i => ω i) * ((κ * rdot n ω : ℝ) : ℂ) ^ N) / (N ! : ℂ) := by
    intro N
    rw [div_eq_inv_mul, ← sphInt_const_mul]
    congr 1
    funext ω
    ring
  simp only [hval] at key
  have hinj : Function.Injective fun i : ℕ => l + 2 * i := fun a b h => by
    simp only at h
    omega
  rw [← hinj.hasSum_iff] at key
  · have h2 := key.tsum_eq
    rw [← h2]
    have h3 : ∀ i : ℕ, ((fun N : ℕ => sphInt (fun ω : Point => harmV l j (fun i => ω i) * ((κ * rdot n ω : ℝ) : ℂ) ^ N) / (N ! : ℂ)) ∘ fun i => l + 2 * i) i =
        4 * (Real.pi : ℂ) * ((κ ^ (l + 2 * i) / ((2 * i)‼ * (2 * l + 2 * i + 1)‼ : ℝ) : ℝ) : ℂ) * harmV l j (fun i => n i) := by
      intro i
      simp only [Function.comp]
      rw [harmV_pow_int l j hj κ n hn i]
      have := nullC_div l i
      push_cast
      linear_combination ((κ : ℂ) ^ (l + 2 * i) * harmV l j (fun i => n i)) * this
    simp only [h3]
    rw [tsum_mul_right, tsum_mul_left, besselI, Complex.ofReal_tsum]
  · intro N hN
    rw [harmV_pow_zero l j hj κ n N ?_, zero_div]
    rintro ⟨i, rfl⟩
    exact hN ⟨i, rfl⟩

/-- `∫ S_lm(ω) exp(κ n·ω) dω = 4π i_l(κ) S_lm(n)`. -/
theorem rsh_exp (l : ℕ) (m : ℤ) (hm : m.natAbs ≤ l) (κ : ℝ) (n : Point) (hn : ∑ k, n k ^ 2 = 1) :
    sphInt (fun ω => rsh l m ω * Real.exp (κ * rdot n ω)) = 4 * Real.pi * besselI l κ * rsh l m n := by
  have h := harmV_exp l (l - m.natAbs) (by omega) κ n hn
  have hC : sphInt (fun ω => rshC l m.natAbs ω * (Real.exp (κ * rdot n ω) : ℂ)) =
      ((4 * Real.pi * besselI l κ : ℝ) : ℂ) * rshC l m.natAbs n := by
    rw [rshC_eq l _ hm n hn]
    have e : sphInt (fun ω => rshC l m.natAbs ω * (Real.exp (κ * rdot n ω) : ℂ)) =
        sphInt (fun ω => ((rshNorm l m.natAbs / kap l m.natAbs : ℝ) : ℂ) * (harmV l (l - m.natAbs) (fun i => ω i) * (Real.exp (κ * rdot n ω) : ℂ))) := by
      apply sphInt_congr
      intro ω hω
      rw [rshC_eq l _ hm ω hω]
      ring
    rw [e, sphInt_const_mul, h]
    push_cast
    ring
  have hcont : Continuous fun ω : Point => rshC l m.natAbs ω * (Real.exp (κ * rdot n ω) : ℂ) :=
    (continuous_rshC _ _).mul (Complex.continuous_ofReal.comp (Real.continuous_exp.comp (continuous_const.mul (continuous_rdot n))))
  rcases lt_or_ge m 0 with s | s
  · have e : m = -(m.natAbs : ℤ) := by omega
    have := congrArg Complex.im hC
    rw [sphInt_im hcont] at this
    simp only [Complex.im_mul_ofReal, Complex.im_ofReal_mul, rshC_im l m.natAbs (by omega), ← e] at this
    exact this
  · have e : m = (m.natAbs : ℤ) := by omega
    have := congrArg Complex.re hC
    rw [sphInt_re hcont] at this
    simp only [Complex.re_mul_ofReal, Complex.re_ofReal_mul, rshC_re, ← e] at this
    exact this

end Libgrpp
