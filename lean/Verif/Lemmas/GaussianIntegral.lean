import Mathlib.Analysis.SpecialFunctions.Gaussian.GaussianIntegral
import Mathlib.MeasureTheory.Integral.IntegralEqImproper
import Mathlib.MeasureTheory.Measure.Haar.NormedSpace
import Mathlib.Algebra.Polynomial.Eval.Degree
import Mathlib.Analysis.Polynomial.Basic
import Verif.Lemmas.OneElectron

/-! Integrals of polynomials times Gaussians on the line: integrability, integration by parts, and the
Obara-Saika relations for the true overlap integrals. -/

namespace Libgrpp

open MeasureTheory Polynomial

/-- Polynomial times a centred Gaussian is integrable. -/
theorem integrable_poly_gauss (Q : ℝ[X]) {p : ℝ} (hp : 0 < p) :
    Integrable fun x : ℝ => Q.eval x * Real.exp (-p * x ^ 2) := by
  induction Q using Polynomial.induction_on' with
  | add P Q hP hQ =>
    simp only [eval_add, add_mul]
    exact hP.add hQ
  | monomial n a =>
    have h := (integrable_rpow_mul_exp_neg_mul_sq hp (s := (n : ℝ)) (by
      have : (0 : ℝ) ≤ n := Nat.cast_nonneg n
      linarith)).const_mul a
    simp only [Real.rpow_natCast] at h
    simp only [eval_monomial, mul_assoc]
    exact h

/-- Completing the square. -/
theorem gauss_product {a b A B : ℝ} (hp : a + b ≠ 0) (x : ℝ) :
    -a * (x - A) ^ 2 + -b * (x - B) ^ 2 =
      -(a * b / (a + b)) * (A - B) * (A - B) + -(a + b) * (x - (a * A + b * B) / (a + b)) ^ 2 := by
  field_simp
  ring

/-- Polynomial times a product of two Gaussians is integrable. -/
theorem integrable_poly_gauss2 (Q : ℝ[X]) {a b : ℝ} (hp : 0 < a + b) (A B : ℝ) :
    Integrable fun x : ℝ => Q.eval x * Real.exp (-a * (x - A) ^ 2 + -b * (x - B) ^ 2) := by
  have h := ((integrable_poly_gauss (Q.comp (X + C ((a * A + b * B) / (a + b)))) hp).comp_sub_right
    ((a * A + b * B) / (a + b))).const_mul (Real.exp (-(a * b / (a + b)) * (A - B) * (A - B)))
  refine h.congr (Filter.Eventually.of_forall fun x => ?_)
  simp only [eval_comp, eval_add, eval_X, eval_C, sub_add_cancel]
  rw [gauss_product hp.ne', Real.exp_add]
  ring

/-- The one-dimensional overlap integral `∫ (x-A)^i (x-B)^j exp(-a(x-A)² - b(x-B)²) dx`. -/
noncomputable def gauss1 (a b A B : ℝ) (i j : Nat) : ℝ :=
  ∫ x : ℝ, (x - A) ^ i * (x - B) ^ j * Real.exp (-a * (x - A) ^ 2 + -b * (x - B) ^ 2)

theorem integrable_gauss1 {a b : ℝ} (hp : 0 < a + b) (A B : ℝ) (i j : Nat) :
    Integrable fun x : ℝ => (x - A) ^ i * (x - B) ^ j * Real.exp (-a * (x - A) ^ 2 + -b * (x - B) ^ 2) := by
  have := integrable_poly_gauss2 ((X - C A) ^ i * (X - C B) ^ j) hp A B
  simpa using this

theorem hasDerivAt_gauss1 (a b A B : ℝ) (i j : Nat) (x : ℝ) :
    HasDerivAt (fun x : ℝ => (x - A) ^ i * (x - B) ^ j * Real.exp (-a * (x - A) ^ 2 + -b * (x - B) ^ 2))
      ((i : ℝ) * ((x - A) ^ (i - 1) * (x - B) ^ j * Real.exp (-a * (x - A) ^ 2 + -b * (x - B) ^ 2)) +
        (j : ℝ) * ((x - A) ^ i * (x - B) ^ (j - 1) * Real.exp (-a * (x - A) ^ 2 + -b * (x - B) ^ 2)) +
        (-2 * a) * ((x - A) ^ (i + 1) * (x - B) ^ j * Real.exp (-a * (x - A) ^ 2 + -b * (x - B) ^ 2)) +
        (-2 * b) * ((x - A) ^ i * (x - B) ^ (j + 1) * Real.exp (-a * (x - A) ^ 2 + -b * (x - B) ^ 2))) x := by
  have hA : HasDerivAt (fun x : ℝ => x - A) 1 x := (hasDerivAt_id x).sub_const A
  have hB : HasDerivAt (fun x : ℝ => x - B) 1 x := (hasDerivAt_id x).sub_const B
  have h1 := (hA.pow i).mul (hB.pow j)
  have h2 := (((hA.pow 2).const_mul (-a)).add ((hB.pow 2).const_mul (-b))).exp
  have h3 := h1.mul h2
  refine h3.congr_deriv ?_
  simp only [Pi.pow_apply, Pi.add_apply, Pi.mul_apply]
  push_cast
  ring

theorem integral_add4 {f g h k : ℝ → ℝ} (hf : Integrable f) (hg : Integrable g) (hh : Integrable h)
    (hk : Integrable k) : ∫ x, (f x + g x + h x + k x) = (∫ x, f x) + (∫ x, g x) + (∫ x, h x) + ∫ x, k x := by
  rw [integral_add (f := fun x => f x + g x + h x) ((hf.add hg).add hh) hk,
    integral_add (f := fun x => f x + g x) (hf.add hg) hh, integral_add hf hg]

/-- Integration by parts: the fundamental relation between the one-dimensional integrals. -/
theorem gauss1_parts {a b : ℝ} (hp : 0 < a + b) (A B : ℝ) (i j : Nat) :
    (i : ℝ) * gauss1 a b A B (i - 1) j + (j : ℝ) * gauss1 a b A B i (j - 1) +
      (-2 * a) * gauss1 a b A B (i + 1) j + (-2 * b) * gauss1 a b A B i (j + 1) = 0 := by
  have I : ∀ i j, Integrable fun x : ℝ =>
      (x - A) ^ i * (x - B) ^ j * Real.exp (-a * (x - A) ^ 2 + -b * (x - B) ^ 2) := integrable_gauss1 hp A B
  have hi := ((((I (i - 1) j).const_mul (i : ℝ)).add ((I i (j - 1)).const_mul (j : ℝ))).add
    ((I (i + 1) j).const_mul (-2 * a))).add ((I i (j + 1)).const_mul (-2 * b))
  have h0 := integral_eq_zero_of_hasDerivAt_of_integrable (hasDerivAt_gauss1 a b A B i j) hi (I i j)
  have e : (∫ x : ℝ, ((i : ℝ) * ((x - A) ^ (i - 1) * (x - B) ^ j * Real.exp (-a * (x - A) ^ 2 + -b * (x - B) ^ 2)) +
        (j : ℝ) * ((x - A) ^ i * (x - B) ^ (j - 1) * Real.exp (-a * (x - A) ^ 2 + -b * (x - B) ^ 2)) +
        (-2 * a) * ((x - A) ^ (i + 1) * (x - B) ^ j * Real.exp (-a * (x - A) ^ 2 + -b * (x - B) ^ 2)) +
        (-2 * b) * ((x - A) ^ i * (x - B) ^ (j + 1) * Real.exp (-a * (x - A) ^ 2 + -b * (x - B) ^ 2)))) =
      (i : ℝ) * gauss1 a b A B (i - 1) j + (j : ℝ) * gauss1 a b A B i (j - 1) +
      (-2 * a) * gauss1 a b A B (i + 1) j + (-2 * b) * gauss1 a b A B i (j + 1) := by
    rw [integral_add4 ((I (i - 1) j).const_mul (i : ℝ)) ((I i (j - 1)).const_mul (j : ℝ))
      ((I (i + 1) j).const_mul (-2 * a)) ((I i (j + 1)).const_mul (-2 * b))]
    simp only [integral_const_mul]
    rfl
  rw [← e]
  exact h0

/-- `s(i, j+1) = s(i+1, j) + (A-B) s(i, j)` -/
theorem gauss1_shift {a b : ℝ} (hp : 0 < a + b) (A B : ℝ) (i j : Nat) :
    gauss1 a b A B i (j + 1) = gauss1 a b A B (i + 1) j + (A - B) * gauss1 a b A B i j := by
  unfold gauss1
  rw [← integral_const_mul, ← integral_add (integrable_gauss1 hp A B (i + 1) j)
    ((integrable_gauss1 hp A B i j).const_mul (A - B))]
  congr 1
  funext x
  ring

theorem gauss1_zero {a b : ℝ} (hp : 0 < a + b) (A B : ℝ) :
    gauss1 a b A B 0 0 = Real.sqrt (Real.pi / (a + b)) * Real.exp (-(a * b / (a + b)) * (A - B) * (A - B)) := by
  unfold gauss1
  simp only [pow_zero, one_mul]
  have : ∀ x : ℝ, Real.exp (-a * (x - A) ^ 2 + -b * (x - B) ^ 2) =
      Real.exp (-(a * b / (a + b)) * (A - B) * (A - B)) *
        Real.exp (-(a + b) * (x - (a * A + b * B) / (a + b)) ^ 2) := by
    intro x
    rw [gauss_product hp.ne', Real.exp_add]
  simp only [this]
  rw [integral_const_mul, integral_sub_right_eq_self (fun x : ℝ => Real.exp (-(a + b) * x ^ 2)),
    integral_gaussian]
  ring

/-- The true one-dimensional overlap integrals satisfy the Obara-Saika relations. -/
theorem gauss1_os {a b : ℝ} (hp : 0 < a + b) (A B : ℝ) :
    OSRel (gauss1 a b A B) (Real.sqrt (Real.pi / (a + b)) * Real.exp (-(a * b / (a + b)) * (A - B) * (A - B)))
      ((a * A + b * B) / (a + b) - A) ((a * A + b * B) / (a + b) - B) (1 / (2 * (a + b))) where
  zero := gauss1_zero hp A B
  right j := by
    have h1 := gauss1_parts hp A B 0 j
    have h2 := gauss1_shift hp A B 0 j
    have hne := hp.ne'
    simp only [Nat.cast_zero, zero_mul, zero_add] at h1 h2
    have h3 : gauss1 a b A B 1 j = gauss1 a b A B 0 (j + 1) - (A - B) * gauss1 a b A B 0 j := by
      rw [h2]; ring
    rw [h3] at h1
    field_simp
    linear_combination (-1) * h1
  left i j := by
    have h1 := gauss1_parts hp A B i j
    rw [gauss1_shift hp A B i j] at h1
    have hne := hp.ne'
    field_simp
    linear_combination (-1) * h1

end Libgrpp
