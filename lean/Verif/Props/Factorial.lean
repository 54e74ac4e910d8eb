import Verif.Lemmas.Factorial

/-! # C02: factorial helpers -/

namespace Libgrpp
open scoped Nat

/-- **C02.** `factorial(n)` is `n!` for every non-negative `n`. -/
theorem factorial_correct (n : ℕ) : factorialC n = .ok (n ! : ℝ) := factorialC_nat n

/-- **C02.** `factorial(n)` is `1` for every negative `n`. -/
theorem factorial_negative (n : ℤ) (h : n < 0) : factorialC n = .ok 1 := by
  rw [factorialC, if_pos h]

/-- **C02.** `factorial_ratio(n, m)` is `n!/m!` for all non-negative `n`, `m`. -/
theorem factorial_ratio_correct (n m : ℕ) : factorialRatio n m = (n ! : ℝ) / (m ! : ℝ) := by
  have hm : (m ! : ℝ) ≠ 0 := by exact_mod_cast m.factorial_ne_zero
  have hn : (n ! : ℝ) ≠ 0 := by exact_mod_cast n.factorial_ne_zero
  unfold factorialRatio
  by_cases h : n = m
  · subst h; simp [hm]
  rw [if_neg (by exact_mod_cast h)]
  by_cases h2 : n < m
  · rw [if_pos (by exact_mod_cast h2)]
    obtain ⟨k, rfl⟩ := Nat.exists_eq_add_of_le h2.le
    rw [factorialRatioUp_nat, one_div_div]
  · rw [if_neg (by exact_mod_cast h2)]
    obtain ⟨k, rfl⟩ := Nat.exists_eq_add_of_le (Nat.le_of_not_lt h2)
    rw [factorialRatioUp_nat]

/-- **C02.** `double_factorial(n)` is `n!!` for `0 ≤ n ≤ 30`. -/
theorem double_factorial_correct (n : ℕ) (h : n ≤ 30) : doubleFactorialC n = .ok (n ‼ : ℝ) := by
  unfold doubleFactorialC
  rw [Outcome.assert_pos ⟨by omega, by exact_mod_cast h⟩]
  simp only [Outcome.ok_bind]
  rw [if_neg (by omega), Int.toNat_natCast, doubleFactorialTable_get n h]

/-- **C02.** `double_factorial(-1)` is `1`. -/
theorem double_factorial_minus_one : doubleFactorialC (-1) = .ok 1 := by
  unfold doubleFactorialC
  rw [Outcome.assert_pos ⟨by norm_num, by norm_num⟩]
  simp

/-- **C02.** `double_factorial` returns normally exactly for `-1 ≤ n ≤ 30`; it aborts otherwise. -/
theorem double_factorial_abort_iff (n : ℤ) : doubleFactorialC n = .abort ↔ n < -1 ∨ 30 < n := by
  constructor
  · intro h
    by_contra hc
    have h1 : -1 ≤ n := by omega
    have h2 : n ≤ 30 := by omega
    rcases Int.lt_or_le n 0 with h3 | h3
    · have : n = -1 := by omega
      rw [this, double_factorial_minus_one] at h
      cases h
    · obtain ⟨k, rfl⟩ := Int.eq_ofNat_of_zero_le h3
      rw [double_factorial_correct k (by omega)] at h
      cases h
  · intro h
    unfold doubleFactorialC
    rw [Outcome.assert_neg (by omega)]
    rfl

example : factorialC 25 = .ok (15511210043330985984000000 : ℝ) := by
  have := factorial_correct 25
  norm_num [Nat.factorial] at this ⊢
  exact this
example : doubleFactorialC 31 = .abort := (double_factorial_abort_iff 31).2 (by norm_num)

end Libgrpp
