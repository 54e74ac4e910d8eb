import Verif.Lemmas.Float
import Mathlib.Analysis.Real.Pi.Bounds

/-! # Auxiliary lemmas for Props/Float: IEEE rounding -/

namespace Libgrpp

theorem roundEven_err (x : ℝ) : |(roundEven x : ℝ) - x| ≤ 1 / 2 := by
  have h1 := Int.floor_le x
  have h2 := Int.lt_floor_add_one x
  unfold roundEven
  split_ifs <;> rw [abs_le] <;> push_cast <;> constructor <;> linarith

theorem roundEven_int (n : ℤ) : roundEven (n : ℝ) = n := by
  unfold roundEven
  rw [if_pos (by simp), Int.floor_intCast]

theorem round53_zero : round53 0 = 0 := by
  have := roundEven_int 0
  unfold round53
  rw [zero_div, show roundEven (0 : ℝ) = 0 by exact_mod_cast this]
  simp

/-- Half a unit in the last place. -/
theorem round53_abs (x : ℝ) : |round53 x - x| ≤ 2 ^ (Int.log 2 |x| - 53) := by
  have hk : (0 : ℝ) < 2 ^ (Int.log 2 |x| - 52) := by positivity
  have h := roundEven_err (x / 2 ^ (Int.log 2 |x| - 52))
  have e : round53 x - x = ((roundEven (x / 2 ^ (Int.log 2 |x| - 52)) : ℝ) - x / 2 ^ (Int.log 2 |x| - 52)) * 2 ^ (Int.log 2 |x| - 52) := by
    unfold round53
    field_simp
  rw [e, abs_mul, abs_of_pos hk, show Int.log 2 |x| - 53 = Int.log 2 |x| - 52 + (-1 : ℤ) by ring, zpow_add₀ (by norm_num)]
  calc _ ≤ 1 / 2 * (2 : ℝ) ^ (Int.log 2 |x| - 52) := mul_le_mul_of_nonneg_right h hk.le
    _ = _ := by rw [zpow_neg_one]; ring

theorem round53_err (x : ℝ) : |round53 x - x| ≤ 2 ^ (-53 : ℤ) * |x| := by
  rcases eq_or_ne x 0 with rfl | hx
  · rw [round53_zero]; simp
  refine (round53_abs x).trans ?_
  rw [show Int.log 2 |x| - 53 = (-53 : ℤ) + Int.log 2 |x| by ring, zpow_add₀ (by norm_num)]
  refine mul_le_mul_of_nonneg_left ?_ (by positivity)
  exact_mod_cast Int.zpow_log_le_self (b := 2) (r := |x|) (by norm_num) (abs_pos.2 hx)

/-- Numbers with at most 53 binary digits are not changed. -/
theorem round53_exact (m k : ℤ) (hm : |m| < 2 ^ 53) : round53 ((m : ℝ) * 2 ^ k) = m * 2 ^ k := by
  rcases eq_or_ne m 0 with rfl | h0
  · simpa using round53_zero
  have hx : (0 : ℝ) < |(m : ℝ) * 2 ^ k| := abs_pos.2 (mul_ne_zero (by exact_mod_cast h0) (by positivity))
  have hle : Int.log 2 |(m : ℝ) * 2 ^ k| - 52 ≤ k := by
    have h1 : ((2 : ℕ) : ℝ) ^ Int.log 2 |(m : ℝ) * 2 ^ k| ≤ |(m : ℝ) * 2 ^ k| := Int.zpow_log_le_self (by norm_num) hx
    have h2 : |(m : ℝ) * 2 ^ k| < 2 ^ ((53 : ℤ) + k) := by
      rw [abs_mul, abs_of_pos (by positivity : (0 : ℝ) < 2 ^ k), zpow_add₀ (by norm_num)]
      refine mul_lt_mul_of_pos_right ?_ (by positivity)
      exact_mod_cast hm
    have h3 : (2 : ℝ) ^ Int.log 2 |(m : ℝ) * 2 ^ k| < 2 ^ ((53 : ℤ) + k) := by
      push_cast at h1
      exact h1.trans_lt h2
    have := (zpow_lt_zpow_iff_right₀ (by norm_num : (1 : ℝ) < 2)).1 h3
    omega
  unfold round53
  obtain ⟨d, hd⟩ : ∃ d : ℕ, k = Int.log 2 |(m : ℝ) * 2 ^ k| - 52 + d := ⟨(k - (Int.log 2 |(m : ℝ) * 2 ^ k| - 52)).toNat, by omega⟩
  generalize Int.log 2 |(m : ℝ) * 2 ^ k| - 52 = q at hd
  subst hd
  have e : (m : ℝ) * 2 ^ (q + d) / 2 ^ q = ((m * 2 ^ d : ℤ) : ℝ) := by
    rw [zpow_add₀ (by norm_num)]
    push_cast
    field_simp
    simp
  rw [e, roundEven_int, zpow_add₀ (by norm_num)]
  push_cast
  rw [zpow_natCast]
  ring

theorem double_or (x : ℝ) : OrTrap (double x) fun v => |v - x| ≤ 2 ^ (-53 : ℤ) * |x| := by
  unfold double
  split_ifs
  · exact .ok (round53_err x)
  · exact .inl rfl

theorem piLit_err : |round53 3.14159265358979323846 - Real.pi| ≤ 2 ^ (-53 : ℤ) * |Real.pi| := by
  have h1 := round53_abs 3.14159265358979323846
  have h2 : (2 : ℝ) ^ (Int.log 2 |(3.14159265358979323846 : ℝ)| - 53) ≤ 2 ^ (-52 : ℤ) := by
    refine zpow_le_zpow_right₀ (by norm_num) ?_
    have h3 : ((2 : ℕ) : ℝ) ^ Int.log 2 |(3.14159265358979323846 : ℝ)| ≤ |(3.14159265358979323846 : ℝ)| := Int.zpow_log_le_self (by norm_num) (by norm_num)
    have h4 : (2 : ℝ) ^ Int.log 2 |(3.14159265358979323846 : ℝ)| < 2 ^ (2 : ℤ) := by
      push_cast at h3
      refine h3.trans_lt ?_
      norm_num
    have := (zpow_lt_zpow_iff_right₀ (by norm_num : (1 : ℝ) < 2)).1 h4
    omega
  have h3 := Real.pi_gt_d20
  have h4 := Real.pi_lt_d20
  rw [abs_of_pos Real.pi_pos]
  have h5 : |(3.14159265358979323846 : ℝ) - Real.pi| ≤ 1 / 10 ^ 19 := by
    rw [abs_le]
    constructor <;> norm_num at h3 h4 ⊢ <;> linarith
  have h6 := abs_add_le (round53 3.14159265358979323846 - 3.14159265358979323846) (3.14159265358979323846 - Real.pi)
  rw [show round53 3.14159265358979323846 - 3.14159265358979323846 + (3.14159265358979323846 - Real.pi) = round53 3.14159265358979323846 - Real.pi by ring] at h6
  have h7 : (2 : ℝ) ^ (-53 : ℤ) * 3.14 ≤ 2 ^ (-53 : ℤ) * Real.pi := mul_le_mul_of_nonneg_left (by norm_num at h3 ⊢; linarith) (by positivity)
  have h8 : (2 : ℝ) ^ (-52 : ℤ) + 1 / 10 ^ 19 ≤ 2 ^ (-53 : ℤ) * 3.14 := by norm_num
  linarith

/-- IEEE arithmetic with library functions of relative error `e`. -/
theorem ieee_rounds_aux {exp : ℝ → Outcome ℝ} {pow : ℝ → ℝ → Outcome ℝ} {e : ℝ}
    (hexp : ∀ x, OrTrap (exp x) fun v => |v - Real.exp x| ≤ e * Real.exp x)
    (hpow : ∀ x y, 0 < x → OrTrap (pow x y) fun v => |v - x ^ y| ≤ e * x ^ y) : (Arith.ieee exp pow).Rounds (2 ^ (-53 : ℤ)) e where
  add x y := double_or _
  sub x y := double_or _
  mul x y := double_or _
  div x y _ := double_or _
  sqrt x _ := double_or _
  exp x := by rw [abs_of_pos (Real.exp_pos x)]; exact hexp x
  pow x y hx := by rw [abs_of_pos (Real.rpow_pos_of_pos hx y)]; exact hpow x y hx
  pi := piLit_err

end Libgrpp
