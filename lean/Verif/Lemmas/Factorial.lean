import Verif.Model.Factorial
import Mathlib.Data.Nat.Factorial.DoubleFactorial
import Mathlib.Data.Nat.Factorial.Basic
import Mathlib.Tactic.Ring
import Mathlib.Tactic.FieldSimp
import Mathlib.Tactic.NormNum

namespace Libgrpp
open scoped Nat

theorem factorialTable_get (n : ℕ) (h : n ≤ 20) : factorialTable[n]? = some n ! := by
  have : ∀ m ∈ List.range 21, factorialTable[m]? = some m ! := by decide +kernel
  exact this n (List.mem_range.2 (by omega))

theorem doubleFactorialTable_get (n : ℕ) (h : n ≤ 30) : doubleFactorialTable[n]? = some n ‼ := by
  have : ∀ m ∈ List.range 31, doubleFactorialTable[m]? = some m ‼ := by decide +kernel
  exact this n (List.mem_range.2 (by omega))

theorem factorialC_nat (n : ℕ) : factorialC n = .ok (n ! : ℝ) := by
  induction n with
  | zero =>
    rw [factorialC, if_neg (by simp), if_pos (by simp)]
    have := factorialTable_get 0 (by omega)
    simp only [Nat.cast_zero, Int.toNat_zero, this]
  | succ n ih =>
    rw [factorialC, if_neg (by omega)]
    by_cases h : n + 1 ≤ 20
    · rw [if_pos (by exact_mod_cast h)]
      have := factorialTable_get (n + 1) h
      simp only [Int.toNat_natCast, this]
    · rw [if_neg (by exact_mod_cast h)]
      have e : ((n + 1 : ℕ) : ℤ) - 1 = (n : ℤ) := by push_cast; ring
      rw [e, ih]
      simp [Nat.factorial_succ]

theorem factorialRatioUp_nat (m k : ℕ) :
    factorialRatioUp ((m + k : ℕ) : ℤ) m = ((m + k)! : ℝ) / (m ! : ℝ) := by
  have hm : (m ! : ℝ) ≠ 0 := by exact_mod_cast m.factorial_ne_zero
  unfold factorialRatioUp
  have e : (((m + k : ℕ) : ℤ) - m).toNat = k := by push_cast; simp
  rw [e]
  induction k with
  | zero => simp [hm]
  | succ k ih =>
    rw [List.range_succ, List.foldl_append, ih (by push_cast; simp)]
    simp only [List.foldl_cons, List.foldl_nil]
    rw [← Nat.add_assoc, Nat.factorial_succ]
    push_cast
    field_simp
    ring

end Libgrpp
