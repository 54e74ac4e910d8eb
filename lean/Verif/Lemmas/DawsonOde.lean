import Verif.Lemmas.SpecFun
import Mathlib.Analysis.Calculus.MeanValue
import Mathlib.Analysis.Calculus.Deriv.MeanValue
import Mathlib.RingTheory.Polynomial.Chebyshev
import Mathlib.Analysis.SpecialFunctions.Trigonometric.Chebyshev.RootsExtrema

/-! # The Dawson function: differential equation, comparison, expansions -/

namespace Libgrpp

open Polynomial

theorem hasDerivAt_dawsonF (x : ℝ) : HasDerivAt dawsonF (1 - 2 * x * dawsonF x) x := by
  have h1 : HasDerivAt (fun y : ℝ => Real.exp (-y ^ 2)) (Real.exp (-x ^ 2) * (-(2 * x))) x := by
    have := ((hasDerivAt_pow 2 x).neg).exp
    simpa using this
  have hc : Continuous fun s : ℝ => Real.exp (s ^ 2) := by fun_prop
  have h2 : HasDerivAt (fun y : ℝ => ∫ s in (0 : ℝ)..y, Real.exp (s ^ 2)) (Real.exp (x ^ 2)) x :=
    intervalIntegral.integral_hasDerivAt_right (hc.intervalIntegrable _ _) (hc.stronglyMeasurableAtFilter _ _) hc.continuousAt
  have h := h1.mul h2
  have e : Real.exp (-x ^ 2) * Real.exp (x ^ 2) = 1 := by rw [← Real.exp_add]; simp
  refine h.congr_deriv ?_
  unfold dawsonF
  linear_combination e

theorem dawsonF_zero : dawsonF 0 = 0 := by simp [dawsonF]

theorem dawsonF_neg (x : ℝ) : dawsonF (-x) = -dawsonF x := by
  unfold dawsonF
  have h : ∫ s in (0 : ℝ)..(-x), Real.exp (s ^ 2) = -∫ s in (0 : ℝ)..x, Real.exp (s ^ 2) := by
    have := intervalIntegral.integral_comp_neg (a := 0) (b := x) fun s : ℝ => Real.exp (s ^ 2)
    simp only [neg_zero, even_two.neg_pow] at this
    rw [this, intervalIntegral.integral_symm]
  rw [h, neg_pow_two]
  ring

/-- Comparison for the equation `f' + 2 t f = 1` of the Dawson function. -/
theorem dawson_compare {a x : ℝ} (hax : a ≤ x) {f g f' g' : ℝ → ℝ} (hf : ∀ t ∈ Set.Icc a x, HasDerivAt f (f' t) t)
    (hg : ∀ t ∈ Set.Icc a x, HasDerivAt g (g' t) t) (hr : ∀ t ∈ Set.Icc a x, |f' t + 2 * t * f t - 1| ≤ g' t + 2 * t * g t)
    (h0 : |f a - dawsonF a| ≤ g a) : |f x - dawsonF x| ≤ g x := by
  have key : ∀ σ : ℝ, |σ| = 1 → 0 ≤ g x + σ * (f x - dawsonF x) := by
    intro σ hσ
    have hd : ∀ t ∈ Set.Icc a x, HasDerivAt (fun t => Real.exp (t ^ 2) * (g t + σ * (f t - dawsonF t)))
        (Real.exp (t ^ 2) * (g' t + 2 * t * g t + σ * (f' t + 2 * t * f t - 1))) t := by
      intro t ht
      have h1 : HasDerivAt (fun y : ℝ => Real.exp (y ^ 2)) (Real.exp (t ^ 2) * (2 * t)) t := by
        have := (hasDerivAt_pow 2 t).exp
        simpa using this
      refine (h1.mul ((hg t ht).add (((hf t ht).sub (hasDerivAt_dawsonF t)).const_mul σ))).congr_deriv ?_
      simp only [Pi.add_apply, Pi.sub_apply]
      ring
    have hm : MonotoneOn (fun t => Real.exp (t ^ 2) * (g t + σ * (f t - dawsonF t))) (Set.Icc a x) := by
      refine monotoneOn_of_deriv_nonneg (convex_Icc a x) (fun t ht => (hd t ht).continuousAt.continuousWithinAt)
        (fun t ht => (hd t (interior_subset ht)).differentiableAt.differentiableWithinAt) fun t ht => ?_
      have ht' := interior_subset ht
      rw [(hd t ht').deriv]
      refine mul_nonneg (Real.exp_pos _).le ?_
      have h1 := hr t ht'
      have h2 : -(|f' t + 2 * t * f t - 1|) ≤ σ * (f' t + 2 * t * f t - 1) := by
        have := neg_abs_le (σ * (f' t + 2 * t * f t - 1))
        rwa [abs_mul, hσ, one_mul] at this
      linarith
    have h1 := hm (Set.left_mem_Icc.2 hax) (Set.right_mem_Icc.2 hax) hax
    have h2 : 0 ≤ g a + σ * (f a - dawsonF a) := by
      have := neg_abs_le (σ * (f a - dawsonF a))
      rw [abs_mul, hσ, one_mul] at this
      linarith
    have h3 : 0 ≤ Real.exp (x ^ 2) * (g x + σ * (f x - dawsonF x)) := (mul_nonneg (Real.exp_pos _).le h2).trans h1
    exact nonneg_of_mul_nonneg_right h3 (Real.exp_pos _)
  have h1 := key 1 (by simp)
  have h2 := key (-1) (by simp)
  rw [abs_le]
  constructor <;> linarith

/-- Lower bound of the Dawson function. -/
theorem dawsonF_lower {x : ℝ} (hx : 0 ≤ x) : x / (1 + 2 * x ^ 2) ≤ dawsonF x := by
  have hd : ∀ t : ℝ, HasDerivAt (fun t : ℝ => t / (1 + 2 * t ^ 2)) ((1 - 2 * t ^ 2) / (1 + 2 * t ^ 2) ^ 2) t := by
    intro t
    have h : (1 + 2 * t ^ 2) ≠ 0 := by positivity
    have h1 : HasDerivAt (fun t : ℝ => 1 + 2 * t ^ 2) (2 * (2 * t)) t := by
      have := ((hasDerivAt_pow 2 t).const_mul 2).const_add 1
      simpa using this
    refine ((hasDerivAt_id t).div h1 h).congr_deriv ?_
    simp only [id]
    congr 1
    ring
  have hm : MonotoneOn (fun t => Real.exp (t ^ 2) * (dawsonF t - t / (1 + 2 * t ^ 2))) (Set.Icc 0 x) := by
    have hd' : ∀ t : ℝ, HasDerivAt (fun t => Real.exp (t ^ 2) * (dawsonF t - t / (1 + 2 * t ^ 2)))
        (Real.exp (t ^ 2) * (4 * t ^ 2 / (1 + 2 * t ^ 2) ^ 2)) t := by
      intro t
      have h1 : HasDerivAt (fun y : ℝ => Real.exp (y ^ 2)) (Real.exp (t ^ 2) * (2 * t)) t := by
        have := (hasDerivAt_pow 2 t).exp
        simpa using this
      have h : (1 + 2 * t ^ 2) ≠ 0 := by positivity
      refine (h1.mul ((hasDerivAt_dawsonF t).sub (hd t))).congr_deriv ?_
      simp only [Pi.sub_apply]
      field_simp
      ring
    refine monotoneOn_of_deriv_nonneg (convex_Icc 0 x) (fun t _ => (hd' t).continuousAt.continuousWithinAt)
      (fun t _ => (hd' t).differentiableAt.differentiableWithinAt) fun t _ => ?_
    rw [(hd' t).deriv]
    positivity
  have h1 := hm (Set.left_mem_Icc.2 hx) (Set.right_mem_Icc.2 hx) hx
  simp only [dawsonF_zero, zero_div, sub_zero, mul_zero] at h1
  have := nonneg_of_mul_nonneg_right h1 (Real.exp_pos _)
  linarith

/-! ## Power series -/

/-- `(2 j + 1)!!`. -/
noncomputable def oddFac : ℕ → ℝ
  | 0 => 1
  | j + 1 => oddFac j * (2 * j + 3)

theorem oddFac_pos (j : ℕ) : 0 < oddFac j := by
  induction j with
  | zero => simp [oddFac]
  | succ j ih => unfold oddFac; positivity

/-- Terms of the power series. -/
noncomputable def dawTerm (x : ℝ) (j : ℕ) : ℝ := (-2 * x * x) ^ j / oddFac j

theorem dawTerm_succ (x : ℝ) (j : ℕ) : dawTerm x (j + 1) = dawTerm x j * (-2 * x * x) / (2 * j + 3) := by
  have := oddFac_pos j
  unfold dawTerm
  rw [oddFac, pow_succ]
  field_simp

theorem hasDerivAt_dawTerm (x : ℝ) (j : ℕ) : HasDerivAt (fun x => x * dawTerm x j) ((2 * j + 1) * dawTerm x j) x := by
  have e : (fun x : ℝ => x * dawTerm x j) = fun x => (-2) ^ j / oddFac j * x ^ (2 * j + 1) := by
    funext x
    unfold dawTerm
    rw [show -2 * x * x = -2 * x ^ 2 by ring, mul_pow, ← pow_mul]
    ring
  rw [e]
  refine ((hasDerivAt_pow (2 * j + 1) x).const_mul _).congr_deriv ?_
  unfold dawTerm
  rw [show -2 * x * x = -2 * x ^ 2 by ring, mul_pow, ← pow_mul]
  push_cast
  ring

/-- The partial sums miss the Dawson function by at most the next term. -/
theorem dawson_power {x : ℝ} (hx : 0 ≤ x) (N : ℕ) : |x * ∑ j ∈ Finset.range N, dawTerm x j - dawsonF x| ≤ |x * dawTerm x N| := by
  have hd : ∀ t : ℝ, HasDerivAt (fun t => ∑ j ∈ Finset.range N, t * dawTerm t j) (∑ j ∈ Finset.range N, (2 * (j : ℝ) + 1) * dawTerm t j) t :=
    fun t => HasDerivAt.fun_sum fun j _ => hasDerivAt_dawTerm t j
  have hres : ∀ (t : ℝ) (N : ℕ), (∑ j ∈ Finset.range N, (2 * (j : ℝ) + 1) * dawTerm t j) + 2 * t * (∑ j ∈ Finset.range N, t * dawTerm t j) - 1 =
      -((2 * (N : ℝ) + 1) * dawTerm t N) := by
    intro t N
    induction N with
    | zero => simp [dawTerm, oddFac]
    | succ N ih =>
      rw [Finset.sum_range_succ, Finset.sum_range_succ]
      have h2 : (2 * ((N + 1 : ℕ) : ℝ) + 1) * dawTerm t (N + 1) = dawTerm t N * (-2 * t * t) := by
        rw [dawTerm_succ]
        have : (2 * (N : ℝ) + 3) ≠ 0 := by positivity
        push_cast
        field_simp
        ring
      rw [h2]
      linear_combination ih
  have hs : ∀ t, t * dawTerm t N * (-1) ^ N = |(-2) ^ N / oddFac N| * t ^ (2 * N + 1) := by
    intro t
    unfold dawTerm
    rw [abs_div, abs_pow, abs_of_pos (oddFac_pos N), show -2 * t * t = -1 * (2 * t ^ 2) by ring, mul_pow, mul_pow, ← pow_mul,
      show |(-2 : ℝ)| = 2 by norm_num]
    have : ((-1 : ℝ) ^ N) * (-1) ^ N = 1 := by rw [← mul_pow]; norm_num
    linear_combination t * (2 ^ N * t ^ (2 * N)) / oddFac N * this
  have hg : ∀ t : ℝ, HasDerivAt (fun t => t * dawTerm t N * (-1) ^ N) ((2 * (N : ℝ) + 1) * dawTerm t N * (-1) ^ N) t :=
    fun t => (hasDerivAt_dawTerm t N).mul_const _
  have h := dawson_compare hx (fun t _ => hd t) (fun t _ => hg t) (fun t ht => ?_) (by simp [dawsonF_zero])
  · rw [← Finset.mul_sum] at h
    refine h.trans ?_
    refine (le_abs_self _).trans ?_
    rw [abs_mul, abs_pow, abs_neg, abs_one, one_pow, mul_one]
  · have e1 : |(2 * (N : ℝ) + 1) * dawTerm t N| = (2 * (N : ℝ) + 1) * dawTerm t N * (-1) ^ N := by
      have : (2 * (N : ℝ) + 1) * dawTerm t N = (2 * (N : ℝ) + 1) * (((2 : ℝ) * t ^ 2) ^ N / oddFac N) * (-1) ^ N := by
        unfold dawTerm
        rw [show -2 * t * t = -1 * (2 * t ^ 2) by ring, mul_pow]
        ring
      rw [this, abs_mul, abs_pow, abs_neg, abs_one, one_pow, mul_one, mul_assoc, ← mul_pow]
      have := oddFac_pos N
      rw [abs_of_nonneg (by positivity)]
      norm_num
    rw [hres, abs_neg, e1, hs]
    have : 0 ≤ 2 * t * (|(-2) ^ N / oddFac N| * t ^ (2 * N + 1)) := by
      have := ht.1
      positivity
    linarith

end Libgrpp
