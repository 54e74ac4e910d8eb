import Verif.Lemmas.GaussMoment

/-! # C50: Gaussian moments -/

namespace Libgrpp

open MeasureTheory Set
open scoped Nat

/-- C50. Odd `n`: the formula is the integral. -/
theorem gauss_moment_odd (k : Nat) {a : ℝ} (ha : 0 < a) :
    gaussMoment (2 * k + 1) a = .ok (∫ r in Ioi (0:ℝ), r ^ (2 * k + 1) * Real.exp (-a * r ^ 2)) := by
  unfold gaussMoment
  rw [if_neg (by rw [Int.tmod_eq_emod_of_nonneg (by omega)]; omega),
    show Int.tdiv (2 * (k:ℤ) + 1 - 1) 2 = k by rw [Int.tdiv_eq_ediv_of_nonneg (by omega)]; omega, moment_odd k ha]
  dsimp only
  rw [factorial_correct]
  rw [Outcome.ok_bind, show ((k:ℤ) + 1) = ((k + 1 : ℕ) : ℤ) by push_cast; rfl, zpow_natCast]

/-- C50. Even `n` up to 30: the formula is the integral. -/
theorem gauss_moment_even_partial (k : Nat) (hk : k ≤ 15) {a : ℝ} (ha : 0 < a) :
    gaussMoment (2 * k) a = .ok (∫ r in Ioi (0:ℝ), r ^ (2 * k) * Real.exp (-a * r ^ 2)) := by
  unfold gaussMoment
  rw [if_pos (by rw [Int.tmod_eq_emod_of_nonneg (by omega)]; omega),
    show Int.tdiv (2 * (k:ℤ)) 2 = k by rw [Int.tdiv_eq_ediv_of_nonneg (by omega)]; omega, moment_even k ha]
  dsimp only
  have hd : doubleFactorialC (2 * (k:ℤ) - 1) = .ok (((2 * k - 1)‼ : ℕ) : ℝ) := by
    rcases Nat.eq_zero_or_pos k with rfl | h
    · simpa using double_factorial_minus_one
    · rw [show (2 * (k:ℤ) - 1) = ((2 * k - 1 : ℕ) : ℤ) by omega, double_factorial_correct _ (by omega)]
  rw [hd, Outcome.ok_bind, show ((k:ℤ) + 1) = ((k + 1 : ℕ) : ℤ) by push_cast; rfl, zpow_natCast, zpow_natCast]

/-- C50 is false for even `n ≥ 32`: the routine aborts. -/
theorem gauss_moment_aborts (k : Nat) (hk : 16 ≤ k) (a : ℝ) : gaussMoment (2 * k) a = .abort := by
  unfold gaussMoment
  rw [if_pos (by rw [Int.tmod_eq_emod_of_nonneg (by omega)]; omega),
    show Int.tdiv (2 * (k:ℤ)) 2 = k by rw [Int.tdiv_eq_ediv_of_nonneg (by omega)]; omega]
  dsimp only
  rw [(double_factorial_abort_iff _).2 (Or.inr (by omega))]; rfl

/-- `∫ r^4 exp(-r²) = 3/8 √π`. -/
example : gaussMoment 4 1 = .ok (3 / 8 * Real.sqrt Real.pi) := by
  have := gauss_moment_even_partial 2 (by norm_num) (a := 1) one_pos
  rw [moment_even 2 one_pos] at this
  norm_num [Nat.doubleFactorial] at this
  exact_mod_cast this

end Libgrpp
