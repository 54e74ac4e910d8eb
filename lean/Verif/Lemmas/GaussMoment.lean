import Verif.Model.GaussMoment
import Verif.Lemmas.Factorial
import Verif.Props.Factorial
import Mathlib.MeasureTheory.Integral.Gamma
import Mathlib.Analysis.SpecialFunctions.Gaussian.GaussianIntegral

namespace Libgrpp

open MeasureTheory Set
open scoped Nat

theorem moment_gamma (n : Nat) {a : ℝ} (ha : 0 < a) :
    ∫ r in Ioi (0:ℝ), r ^ n * Real.exp (-a * r ^ 2) = a ^ (-((n:ℝ) + 1) / 2) * (1 / 2) * Real.Gamma (((n:ℝ) + 1) / 2) := by
  have h := integral_rpow_mul_exp_neg_mul_rpow (p := 2) (q := n) (b := a) (by norm_num)
    (by have : (0:ℝ) ≤ n := Nat.cast_nonneg n; linarith) ha
  rw [← h]
  refine setIntegral_congr_fun measurableSet_Ioi fun r hr => ?_
  simp only [Real.rpow_natCast, Real.rpow_ofNat]

theorem moment_odd (k : Nat) {a : ℝ} (ha : 0 < a) :
    ∫ r in Ioi (0:ℝ), r ^ (2 * k + 1) * Real.exp (-a * r ^ 2) = (k ! : ℝ) / (2 * a ^ (k + 1)) := by
  rw [moment_gamma _ ha]
  have e : (((2 * k + 1 : ℕ) : ℝ) + 1) / 2 = k + 1 := by push_cast; ring
  rw [neg_div, e, Real.Gamma_nat_eq_factorial, Real.rpow_neg ha.le]
  rw [show (k : ℝ) + 1 = ((k + 1 : ℕ) : ℝ) by push_cast; ring, Real.rpow_natCast]
  field_simp

theorem moment_even (k : Nat) {a : ℝ} (ha : 0 < a) :
    ∫ r in Ioi (0:ℝ), r ^ (2 * k) * Real.exp (-a * r ^ 2) =
      ((2 * k - 1)‼ : ℝ) / (2 ^ (k + 1) * a ^ k) * Real.sqrt (Real.pi / a) := by
  rw [moment_gamma _ ha]
  have e : (((2 * k : ℕ) : ℝ) + 1) / 2 = k + 1 / 2 := by push_cast; ring
  rw [neg_div, e, Real.Gamma_nat_add_half, Real.rpow_neg ha.le, Real.rpow_add ha, Real.rpow_natCast, ← Real.sqrt_eq_rpow,
    Real.sqrt_div Real.pi_pos.le]
  have hs : Real.sqrt a ≠ 0 := (Real.sqrt_pos.2 ha).ne'
  field_simp
  ring

end Libgrpp
