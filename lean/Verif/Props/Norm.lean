import Verif.Props.OneElectron
import Mathlib.Data.Nat.Factorial.DoubleFactorial

/-! # C20: normalisation factor -/

namespace Libgrpp

open MeasureTheory
open scoped Nat

theorem gauss1_self {α : ℝ} (h : 0 < α) (O : ℝ) (i : Nat) :
    gauss1 α α O O i i = ((2 * i - 1)‼ : ℕ) / (4 * α) ^ i * Real.sqrt (Real.pi / (2 * α)) := by
  have hp : 0 < α + α := by linarith
  induction i with
  | zero => rw [gauss1_zero hp]; simp [two_mul]
  | succ i ih =>
    have h1 := gauss1_parts hp O O i (i + 1)
    have h2 := gauss1_shift hp O O i (i + 1)
    have h3 : (i : ℝ) * gauss1 α α O O (i - 1) (i + 1) = i * gauss1 α α O O i i := by
      rcases i with _ | i
      · simp
      · have := gauss1_shift hp O O i (i + 1)
        simp only [Nat.add_sub_cancel]
        rw [this]; ring
    simp only [Nat.add_sub_cancel] at h1
    rw [h2, h3] at h1
    have h4 : gauss1 α α O O (i + 1) (i + 1) = (2 * i + 1) / (4 * α) * gauss1 α α O O i i := by
      field_simp
      push_cast at h1
      linear_combination (-1) * h1
    rw [h4, ih]
    have e : 2 * (i + 1) - 1 = 2 * i + 1 := by omega
    rw [e]
    have e2 : (2 * i + 1)‼ = (2 * i + 1) * (2 * i - 1)‼ := by
      rcases i with _ | i
      · rfl
      · have : 2 * (i + 1) - 1 = 2 * i + 1 := by omega
        rw [this, show 2 * (i + 1) + 1 = (2 * i + 1) + 2 by ring, Nat.doubleFactorial_add_two]
    rw [e2]
    push_cast
    field_simp
    ring

/-- **C20.** Self-overlap of the normalised primitive with exponents `(n, l, m)`; `(-1)!! = 1`
(`(2*0-1)‼ = 0‼ = 1` in truncated subtraction). -/
theorem norm_self_overlap (n l m : Nat) (α : ℝ) (h : 0 < α) (O : Point) :
    ∫ r : Point, (gaussianNormFactor n l m α *
        ((r 0 - O 0) ^ n * (r 1 - O 1) ^ l * (r 2 - O 2) ^ m) *
        Real.exp (-α * ((r 0 - O 0) ^ 2 + (r 1 - O 1) ^ 2 + (r 2 - O 2) ^ 2))) ^ 2 =
      ((2 * n - 1)‼ : ℕ) * ((2 * l - 1)‼ : ℕ) * ((2 * m - 1)‼ : ℕ) := by
  have e : ∀ r : Point, (gaussianNormFactor n l m α * ((r 0 - O 0) ^ n * (r 1 - O 1) ^ l * (r 2 - O 2) ^ m) *
        Real.exp (-α * ((r 0 - O 0) ^ 2 + (r 1 - O 1) ^ 2 + (r 2 - O 2) ^ 2))) ^ 2 =
      gaussianNormFactor n l m α ^ 2 *
        prod3 (fun k x => gfun α (O k) (Comp.exp (n, l, m) k) x * gfun α (O k) (Comp.exp (n, l, m) k) x) r := by
    intro r
    simp only [prod3, Fin.prod_univ_three, gfun, Comp.exp_zero, Comp.exp_one, Comp.exp_two]
    rw [show -α * ((r 0 - O 0) ^ 2 + (r 1 - O 1) ^ 2 + (r 2 - O 2) ^ 2) =
      -α * (r 0 - O 0) ^ 2 + -α * (r 1 - O 1) ^ 2 + -α * (r 2 - O 2) ^ 2 by ring, Real.exp_add, Real.exp_add]
    ring
  simp only [e]
  rw [integral_const_mul, integral_prod3]
  simp only [integral_gfun_mul, gauss1_self h, Fin.prod_univ_three, Comp.exp_zero, Comp.exp_one, Comp.exp_two]
  have hN : gaussianNormFactor n l m α ^ 2 = Real.sqrt (2 * α / Real.pi) ^ 3 * (4 * α) ^ (n + l + m) := by
    unfold gaussianNormFactor
    have p1 : 0 < 2 * α / Real.pi := div_pos (by linarith) Real.pi_pos
    have p2 : 0 < 4 * α := by linarith
    rw [mul_pow, ← Real.rpow_natCast ((2 * α / Real.pi) ^ (0.75 : ℝ)), ← Real.rpow_mul p1.le,
      ← Real.rpow_natCast ((4 * α) ^ _), ← Real.rpow_mul p2.le, Real.sqrt_eq_rpow,
      ← Real.rpow_natCast ((2 * α / Real.pi) ^ (1 / 2 : ℝ)), ← Real.rpow_mul p1.le,
      ← Real.rpow_natCast (4 * α)]
    push_cast
    congr 2 <;> ring
  have hs : Real.sqrt (2 * α / Real.pi) * Real.sqrt (Real.pi / (2 * α)) = 1 := by
    rw [← Real.sqrt_mul (div_pos (by linarith) Real.pi_pos).le]
    have : 2 * α / Real.pi * (Real.pi / (2 * α)) = 1 := by
      have := Real.pi_pos.ne'
      field_simp
    rw [this, Real.sqrt_one]
  rw [hN, pow_add, pow_add]
  have p2 : (4 * α) ≠ 0 := by linarith
  have hs3 : Real.sqrt (2 * α / Real.pi) ^ 3 * Real.sqrt (Real.pi / (2 * α)) ^ 3 = 1 := by
    rw [← mul_pow, hs, one_pow]
  generalize Real.sqrt (2 * α / Real.pi) = s at *
  generalize Real.sqrt (Real.pi / (2 * α)) = t at *
  have c : ∀ i : Nat, (4 * α) ^ i * (1 / (4 * α) ^ i) = 1 := fun i => by
    rw [mul_one_div, div_self (pow_ne_zero i p2)]
  rw [div_eq_mul_one_div _ ((4 * α) ^ n), div_eq_mul_one_div _ ((4 * α) ^ l), div_eq_mul_one_div _ ((4 * α) ^ m)]
  calc _ = ((2 * n - 1)‼ : ℕ) * ((2 * l - 1)‼ : ℕ) * ((2 * m - 1)‼ : ℕ) * (s ^ 3 * t ^ 3) *
        ((4 * α) ^ n * (1 / (4 * α) ^ n)) * ((4 * α) ^ l * (1 / (4 * α) ^ l)) *
        ((4 * α) ^ m * (1 / (4 * α) ^ m)) := by ring
    _ = _ := by rw [hs3, c, c, c]; ring

/-- **C20.** Components with all exponents at most one (all s and p functions among them) have unit norm. -/
theorem norm_unit (n l m : Nat) (hn : n ≤ 1) (hl : l ≤ 1) (hm : m ≤ 1) (α : ℝ) (h : 0 < α) (O : Point) :
    ∫ r : Point, (gaussianNormFactor n l m α *
        ((r 0 - O 0) ^ n * (r 1 - O 1) ^ l * (r 2 - O 2) ^ m) *
        Real.exp (-α * ((r 0 - O 0) ^ 2 + (r 1 - O 1) ^ 2 + (r 2 - O 2) ^ 2))) ^ 2 = 1 := by
  rw [norm_self_overlap n l m α h O]
  have : ∀ i : Nat, i ≤ 1 → (2 * i - 1)‼ = 1 := by
    intro i hi
    have : i = 0 ∨ i = 1 := by omega
    rcases this with rfl | rfl <;> rfl
  simp [this n hn, this l hl, this m hm]

/-- The shell normalisation `N(L,0,0)` used in all integral routines gives each component the factor of its own
exponents. -/
theorem norm_depends_on_total (n l m : Nat) (α : ℝ) :
    gaussianNormFactor n l m α = gaussianNormFactor (n + l + m) 0 0 α := by
  unfold gaussianNormFactor
  push_cast
  congr 2
  ring

example : (0 : ℝ) < 5 / 2 ∧ ((2 * 3 - 1)‼ : ℕ) = 15 := ⟨by norm_num, rfl⟩

end Libgrpp
