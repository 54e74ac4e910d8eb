import Verif.Model.SpecSphere
import Verif.Lemmas.SkChain
import Mathlib.Analysis.SpecialFunctions.Exponential
import Mathlib.Analysis.Calculus.SmoothSeries
import Mathlib.Analysis.SpecialFunctions.Trigonometric.Series
import Mathlib.Analysis.SpecialFunctions.Trigonometric.DerivHyp

/-! # The modified spherical Bessel functions: series, derivatives, recurrence, closed form -/

namespace Libgrpp

open scoped Nat

/-- Power series with coefficients `a`. -/
noncomputable def eSeries (a : ℕ → ℝ) (x : ℝ) : ℝ := ∑' n, a n * x ^ n

/-- Coefficients bounded by those of the exponential series. -/
def ExpBounded (a : ℕ → ℝ) : Prop := ∀ n, |a n| ≤ 1 / (n ! : ℝ)

theorem ExpBounded.summable {a : ℕ → ℝ} (h : ExpBounded a) (x : ℝ) : Summable fun n => a n * x ^ n := by
  refine Summable.of_norm_bounded (Real.summable_pow_div_factorial |x|) fun n => ?_
  rw [Real.norm_eq_abs, abs_mul, abs_pow]
  calc |a n| * |x| ^ n ≤ 1 / (n ! : ℝ) * |x| ^ n := mul_le_mul_of_nonneg_right (h n) (by positivity)
    _ = |x| ^ n / n ! := by ring

/-- Coefficients of the derivative. -/
def shiftCoef (a : ℕ → ℝ) (n : ℕ) : ℝ := ((n : ℝ) + 1) * a (n + 1)

theorem ExpBounded.shift {a : ℕ → ℝ} (h : ExpBounded a) : ExpBounded (shiftCoef a) := by
  intro n
  unfold shiftCoef
  rw [abs_mul, abs_of_nonneg (by positivity : (0 : ℝ) ≤ (n : ℝ) + 1)]
  calc ((n : ℝ) + 1) * |a (n + 1)| ≤ ((n : ℝ) + 1) * (1 / ((n + 1)! : ℝ)) := mul_le_mul_of_nonneg_left (h _) (by positivity)
    _ = 1 / (n ! : ℝ) := by
      rw [Nat.factorial_succ]
      push_cast
      have h1 : (n ! : ℝ) ≠ 0 := by positivity
      have h2 : (n : ℝ) + 1 ≠ 0 := by positivity
      field_simp

theorem ExpBounded.hasDerivAt {a : ℕ → ℝ} (h : ExpBounded a) (x : ℝ) : HasDerivAt (eSeries a) (eSeries (shiftCoef a) x) x := by
  have key : HasDerivAt (fun z => ∑' n, a n * z ^ n) (∑' n, a n * ((n : ℝ) * x ^ (n - 1))) x := by
    refine hasDerivAt_tsum_of_isPreconnected (𝕜 := ℝ) (g := fun n z => a n * z ^ n) (g' := fun n z => a n * ((n : ℝ) * z ^ (n - 1))) (u := fun n => |a n| * ((n : ℝ) * (|x| + 1) ^ (n - 1))) (t := Metric.ball 0 (|x| + 1)) ?_ Metric.isOpen_ball
      (convex_ball _ _).isPreconnected (fun n y _ => (hasDerivAt_pow n y).const_mul _) ?_ (y₀ := 0) ?_ ?_ ?_
    · have e := (h.shift.summable (|x| + 1)).norm
      rw [← summable_nat_add_iff 1]
      refine e.congr fun n => ?_
      rw [shiftCoef, Real.norm_eq_abs, abs_mul, abs_mul, abs_pow, abs_of_nonneg (by positivity : (0 : ℝ) ≤ |x| + 1),
        abs_of_nonneg (by positivity : (0 : ℝ) ≤ (n : ℝ) + 1)]
      simp only [Nat.add_sub_cancel]
      push_cast
      ring
    · intro n y hy
      rw [Metric.mem_ball, dist_zero_right, Real.norm_eq_abs] at hy
      rw [Real.norm_eq_abs, abs_mul, abs_mul, abs_pow, Nat.abs_cast]
      gcongr
    · simp only [Metric.mem_ball, dist_self]; positivity
    · exact h.summable 0
    · simp [Real.norm_eq_abs]
  have e : (∑' n, a n * ((n : ℝ) * x ^ (n - 1))) = eSeries (shiftCoef a) x := by
    unfold eSeries shiftCoef
    rw [tsum_eq_zero_add']
    · simp only [Nat.cast_zero, zero_mul, mul_zero, zero_add, Nat.add_sub_cancel]
      refine tsum_congr fun n => ?_
      push_cast
      ring
    · refine (h.shift.summable x).congr fun n => ?_
      simp only [Nat.add_sub_cancel, shiftCoef]
      push_cast
      ring
  rw [e] at key
  exact key

/-- Coefficients of `i_l`. -/
noncomputable def besCoef (l n : ℕ) : ℝ := if l ≤ n ∧ (n - l) % 2 = 0 then 1 / ((n - l)‼ * (n + l + 1)‼ : ℝ) else 0

theorem besCoef_even (l j : ℕ) : besCoef l (l + 2 * j) = 1 / ((2 * j)‼ * (2 * l + 2 * j + 1)‼ : ℝ) := by
  unfold besCoef
  rw [if_pos ⟨by omega, by omega⟩, show l + 2 * j - l = 2 * j by omega, show l + 2 * j + l + 1 = 2 * l + 2 * j + 1 by omega]

theorem besCoef_zero {l n : ℕ} (h : ∀ j, n ≠ l + 2 * j) : besCoef l n = 0 := by
  unfold besCoef
  rw [if_neg]
  rintro ⟨h1, h2⟩
  exact h ((n - l) / 2) (by omega)

theorem factorial_le_dfact (l j : ℕ) : (l + 2 * j)! ≤ (2 * j)‼ * (2 * l + 2 * j + 1)‼ := by
  induction l with
  | zero =>
    have h := Nat.factorial_eq_mul_doubleFactorial (2 * j)
    simp only [Nat.zero_add, Nat.mul_zero]
    calc (2 * j)! ≤ (2 * j + 1)! := Nat.factorial_le (by omega)
      _ = _ := by rw [h]; ring
  | succ l ih =>
    rw [show l + 1 + 2 * j = (l + 2 * j) + 1 by omega, Nat.factorial_succ, show 2 * (l + 1) + 2 * j + 1 = (2 * l + 2 * j + 1) + 2 by omega,
      Nat.doubleFactorial_add_two]
    calc (l + 2 * j + 1) * (l + 2 * j)! ≤ (2 * l + 2 * j + 1 + 2) * ((2 * j)‼ * (2 * l + 2 * j + 1)‼) := Nat.mul_le_mul (by omega) ih
      _ = _ := by ring

theorem besCoef_nonneg (l n : ℕ) : 0 ≤ besCoef l n := by
  unfold besCoef
  split_ifs <;> positivity

theorem besCoef_le (l n : ℕ) : besCoef l n ≤ 1 / (n ! : ℝ) := by
  by_cases h : ∃ j, n = l + 2 * j
  · obtain ⟨j, rfl⟩ := h
    rw [besCoef_even]
    have h1 : ((l + 2 * j)! : ℝ) ≤ (2 * j)‼ * (2 * l + 2 * j + 1)‼ := by exact_mod_cast factorial_le_dfact l j
    exact one_div_le_one_div_of_le (by positivity) h1
  · rw [besCoef_zero fun j hj => h ⟨j, hj⟩]
    positivity

theorem besCoef_bounded (l : ℕ) : ExpBounded (besCoef l) := fun n => by
  rw [abs_of_nonneg (besCoef_nonneg l n)]
  exact besCoef_le l n

theorem besselI_series (l : ℕ) (x : ℝ) : besselI l x = eSeries (besCoef l) x := by
  unfold besselI eSeries
  have hinj : Function.Injective fun j : ℕ => l + 2 * j := fun a b h => by simp only at h; omega
  rw [← hinj.tsum_eq (f := fun n => besCoef l n * x ^ n)]
  · refine tsum_congr fun j => ?_
    rw [besCoef_even]
    ring
  · intro n hn
    rw [Function.mem_support] at hn
    by_contra hc
    exact hn (by rw [besCoef_zero fun j hj => hc ⟨j, hj.symm⟩, zero_mul])

/-- `(2l+1) (n+1) a_l(n+1) = l a_{l-1}(n) + (l+1) a_{l+1}(n)` -/
theorem besCoef_deriv (l n : ℕ) : (2 * (l : ℝ) + 1) * shiftCoef (besCoef l) n =
    (l : ℝ) * besCoef (l - 1) n + ((l : ℝ) + 1) * besCoef (l + 1) n := by
  unfold shiftCoef
  by_cases h : ∃ j, n + 1 = l + 2 * j
  · obtain ⟨j, hj⟩ := h
    rw [hj, besCoef_even]
    have hn : ((n : ℝ) + 1) = l + 2 * j := by exact_mod_cast hj
    rw [hn]
    have A : (0 : ℝ) < (2 * j)‼ := by positivity
    have B : (0 : ℝ) < (2 * l + 2 * j + 1)‼ := by positivity
    have e1 : (l : ℝ) * besCoef (l - 1) n = l * (2 * l + 2 * j + 1) / ((2 * j)‼ * (2 * l + 2 * j + 1)‼ : ℝ) := by
      rcases l with _ | l
      · simp
      · rw [show l + 1 - 1 = l by omega, show n = l + 2 * j by omega, besCoef_even,
          show 2 * (l + 1) + 2 * j + 1 = (2 * l + 2 * j + 1) + 2 by omega, Nat.doubleFactorial_add_two]
        push_cast
        have : ((2 * l + 2 * j + 1)‼ : ℝ) ≠ 0 := by positivity
        have : (2 * (l : ℝ) + 2 * j + 1 + 2) ≠ 0 := by positivity
        field_simp
        ring
    have e2 : besCoef (l + 1) n = 2 * j / ((2 * j)‼ * (2 * l + 2 * j + 1)‼ : ℝ) := by
      rcases j with _ | j
      · rw [besCoef_zero (fun j => by omega)]; simp
      · rw [show n = l + 1 + 2 * j by omega, besCoef_even, show 2 * (j + 1) = 2 * j + 2 by omega, Nat.doubleFactorial_add_two,
          show 2 * (l + 1) + 2 * j + 1 = 2 * l + (2 * j + 2) + 1 by omega]
        push_cast
        have : ((2 * j)‼ : ℝ) ≠ 0 := by positivity
        have : ((2 * l + (2 * j + 2) + 1)‼ : ℝ) ≠ 0 := by positivity
        have : (2 * (j : ℝ) + 2) ≠ 0 := by positivity
        field_simp
    rw [e1, e2]
    field_simp
    ring
  · rw [besCoef_zero (fun j hj => h ⟨j, hj⟩), besCoef_zero (l := l + 1) (fun j hj => h ⟨j + 1, by omega⟩)]
    rcases l with _ | l
    · simp
    · rw [show l + 1 - 1 = l by omega, besCoef_zero (l := l) (fun j hj => h ⟨j, by omega⟩)]
      simp

/-- `(2l+3) a_{l+1}(n+1) = a_l(n) - a_{l+2}(n)` -/
theorem besCoef_rec (l n : ℕ) : (2 * (l : ℝ) + 3) * besCoef (l + 1) (n + 1) = besCoef l n - besCoef (l + 2) n := by
  by_cases h : ∃ j, n = l + 2 * j
  · obtain ⟨j, rfl⟩ := h
    rw [show l + 2 * j + 1 = l + 1 + 2 * j by omega, besCoef_even, besCoef_even,
      show 2 * (l + 1) + 2 * j + 1 = (2 * l + 2 * j + 1) + 2 by omega, Nat.doubleFactorial_add_two]
    have e2 : besCoef (l + 2) (l + 2 * j) = 2 * j / ((2 * j)‼ * ((2 * l + 2 * j + 1 + 2) * (2 * l + 2 * j + 1)‼) : ℝ) := by
      rcases j with _ | j
      · rw [besCoef_zero (fun j => by omega)]; simp
      · rw [show l + 2 * (j + 1) = l + 2 + 2 * j by omega, besCoef_even, show 2 * (j + 1) = 2 * j + 2 by omega, Nat.doubleFactorial_add_two,
          show 2 * (l + 2) + 2 * j + 1 = (2 * l + (2 * j + 2) + 1) + 2 by omega, Nat.doubleFactorial_add_two]
        push_cast
        have : ((2 * j)‼ : ℝ) ≠ 0 := by positivity
        have : ((2 * l + (2 * j + 2) + 1)‼ : ℝ) ≠ 0 := by positivity
        have : (2 * (j : ℝ) + 2) ≠ 0 := by positivity
        have : (2 * (l : ℝ) + (2 * j + 2) + 1 + 2) ≠ 0 := by positivity
        field_simp
    rw [e2]
    push_cast
    have A : ((2 * j)‼ : ℝ) ≠ 0 := by positivity
    have B : ((2 * l + 2 * j + 1)‼ : ℝ) ≠ 0 := by positivity
    have : (2 * (l : ℝ) + 2 * j + 1 + 2) ≠ 0 := by positivity
    field_simp
    ring
  · rw [besCoef_zero (l := l) (fun j hj => h ⟨j, hj⟩), besCoef_zero (l := l + 1) (fun j hj => h ⟨j, by omega⟩),
      besCoef_zero (l := l + 2) (fun j hj => h ⟨j + 1, by omega⟩)]
    simp

theorem besselI_hasDerivAt (l : ℕ) (x : ℝ) : HasDerivAt (besselI l)
    ((l : ℝ) / (2 * l + 1) * besselI (l - 1) x + ((l : ℝ) + 1) / (2 * l + 1) * besselI (l + 1) x) x := by
  have h := (besCoef_bounded l).hasDerivAt x
  have e : besselI l = eSeries (besCoef l) := funext (besselI_series l)
  rw [e]
  refine h.congr_deriv ?_
  rw [besselI_series, besselI_series]
  unfold eSeries
  rw [← tsum_mul_left, ← tsum_mul_left, ← Summable.tsum_add (((besCoef_bounded (l - 1)).summable x).mul_left _)
    (((besCoef_bounded (l + 1)).summable x).mul_left _)]
  refine tsum_congr fun n => ?_
  have h1 := besCoef_deriv l n
  have h2 : (2 * (l : ℝ) + 1) ≠ 0 := by positivity
  have h3 : shiftCoef (besCoef l) n = ((l : ℝ) * besCoef (l - 1) n + ((l : ℝ) + 1) * besCoef (l + 1) n) / (2 * (l : ℝ) + 1) := by
    rw [← h1]; field_simp
  rw [h3]
  ring

theorem besselI_rec (l : ℕ) (x : ℝ) : (2 * (l : ℝ) + 3) * besselI (l + 1) x = x * (besselI l x - besselI (l + 2) x) := by
  have s0 := (besCoef_bounded l).summable x
  have s1 := (besCoef_bounded (l + 1)).summable x
  have s2 := (besCoef_bounded (l + 2)).summable x
  have e0 : besCoef (l + 1) 0 * x ^ 0 = 0 := by rw [besCoef_zero (fun j => by omega), zero_mul]
  have h : besselI (l + 1) x = ∑' n, besCoef (l + 1) (n + 1) * x ^ (n + 1) := by
    have h := s1.tsum_eq_zero_add
    simp only [e0, zero_add] at h
    rw [besselI_series (l + 1) x]
    exact h
  have h2 : besselI l x - besselI (l + 2) x = ∑' n, (besCoef l n * x ^ n - besCoef (l + 2) n * x ^ n) := by
    rw [besselI_series l x, besselI_series (l + 2) x]
    exact (s0.tsum_sub s2).symm
  rw [h, h2, ← tsum_mul_left, ← tsum_mul_left]
  refine tsum_congr fun n => ?_
  have h1 := besCoef_rec l n
  linear_combination x ^ (n + 1) * h1

theorem besselI_nonneg (l : ℕ) {x : ℝ} (hx : 0 ≤ x) : 0 ≤ besselI l x := by
  rw [besselI_series]
  exact tsum_nonneg fun n => mul_nonneg (besCoef_nonneg l n) (by positivity)

theorem besselI_le_exp (l : ℕ) {x : ℝ} (hx : 0 ≤ x) : besselI l x ≤ Real.exp x := by
  rw [besselI_series, Real.exp_eq_exp_ℝ, NormedSpace.exp_eq_tsum_div]
  refine Summable.tsum_le_tsum (fun n => ?_) ((besCoef_bounded l).summable x) (Real.summable_pow_div_factorial x)
  calc besCoef l n * x ^ n ≤ 1 / (n ! : ℝ) * x ^ n := mul_le_mul_of_nonneg_right (besCoef_le l n) (by positivity)
    _ = x ^ n / n ! := by ring

/-- The scaled function `exp(-x) i_l(x)`. -/
noncomputable def besselK (l : ℕ) (x : ℝ) : ℝ := Real.exp (-x) * besselI l x

theorem besselK_nonneg (l : ℕ) {x : ℝ} (hx : 0 ≤ x) : 0 ≤ besselK l x := mul_nonneg (Real.exp_pos _).le (besselI_nonneg l hx)

theorem besselK_le_one (l : ℕ) {x : ℝ} (hx : 0 ≤ x) : besselK l x ≤ 1 := by
  unfold besselK
  calc Real.exp (-x) * besselI l x ≤ Real.exp (-x) * Real.exp x := mul_le_mul_of_nonneg_left (besselI_le_exp l hx) (Real.exp_pos _).le
    _ = 1 := by rw [← Real.exp_add]; simp

/-- The derivative relation applied to a sequence of numbers indexed by the order. -/
noncomputable def besDer (f : ℕ → ℝ) (l : ℕ) : ℝ := (l : ℝ) / (2 * l + 1) * f (l - 1) + ((l : ℝ) + 1) / (2 * l + 1) * f (l + 1) - f l

/-- Iterated derivatives. -/
noncomputable def besChain : ℕ → ℕ → ℝ → ℝ
  | 0, l, x => besselK l x
  | k + 1, l, x => besDer (fun l => besChain k l x) l

theorem besselK_hasDerivAt (l : ℕ) (x : ℝ) : HasDerivAt (besselK l) (besDer (fun l => besselK l x) l) x := by
  have h := ((Real.hasDerivAt_exp (-x)).comp x (hasDerivAt_neg x)).mul (besselI_hasDerivAt l x)
  refine (h.congr_deriv ?_)
  simp only [besDer, besselK, Function.comp]
  ring

theorem besChain_hasDerivAt (k l : ℕ) (x : ℝ) : HasDerivAt (besChain k l) (besChain (k + 1) l x) x := by
  induction k generalizing l with
  | zero => exact besselK_hasDerivAt l x
  | succ k ih =>
    have h := (((ih (l - 1)).const_mul ((l : ℝ) / (2 * l + 1))).add ((ih (l + 1)).const_mul (((l : ℝ) + 1) / (2 * l + 1)))).sub (ih l)
    exact h

theorem besDer_avg (l : ℕ) : (l : ℝ) / (2 * l + 1) + ((l : ℝ) + 1) / (2 * l + 1) = 1 := by
  have h : (2 * (l : ℝ) + 1) ≠ 0 := by positivity
  field_simp
  ring

theorem besDer_abs {f : ℕ → ℝ} {B : ℝ} (l : ℕ) (h1 : |f (l - 1)| ≤ B) (h2 : |f (l + 1)| ≤ B) (h3 : |f l| ≤ B) : |besDer f l| ≤ 2 * B := by
  unfold besDer
  have e := besDer_avg l
  have p1 : 0 ≤ (l : ℝ) / (2 * l + 1) := by positivity
  have p2 : 0 ≤ ((l : ℝ) + 1) / (2 * l + 1) := by positivity
  generalize (l : ℝ) / (2 * l + 1) = u at *
  generalize ((l : ℝ) + 1) / (2 * l + 1) = v at *
  rw [abs_le] at *
  constructor <;> nlinarith

theorem besDer_sub (f g : ℕ → ℝ) (l : ℕ) : besDer f l - besDer g l = besDer (fun l => f l - g l) l := by
  unfold besDer; ring

theorem besChain_bound (k l : ℕ) {x : ℝ} (hx : 0 ≤ x) : |besChain (k + 1) l x| ≤ 2 ^ k := by
  induction k generalizing l with
  | zero =>
    simp only [besChain, besDer, pow_zero]
    have e := besDer_avg l
    have p1 : 0 ≤ (l : ℝ) / (2 * l + 1) := by positivity
    have p2 : 0 ≤ ((l : ℝ) + 1) / (2 * l + 1) := by positivity
    have a1 := besselK_nonneg (l - 1) hx
    have a2 := besselK_le_one (l - 1) hx
    have b1 := besselK_nonneg (l + 1) hx
    have b2 := besselK_le_one (l + 1) hx
    have c1 := besselK_nonneg l hx
    have c2 := besselK_le_one l hx
    generalize (l : ℝ) / (2 * l + 1) = u at *
    generalize ((l : ℝ) + 1) / (2 * l + 1) = v at *
    rw [abs_le]
    constructor <;> nlinarith
  | succ k ih =>
    rw [pow_succ, mul_comm]
    exact besDer_abs l (ih _) (ih _) (ih _)

/-- Taylor's formula with remainder, both directions. -/
theorem besChain_taylor (l n : ℕ) {x y : ℝ} (hx : 0 ≤ x) (hy : 0 ≤ y) :
    |besselK l y - ∑ m ∈ Finset.range (n + 1), besChain m l x * ((y - x) ^ m / (m ! : ℝ))| ≤ 2 ^ n * (|y - x| ^ (n + 1) / ((n + 1)! : ℝ)) := by
  rcases le_total x y with hxy | hxy
  · have h := chain_taylor (n + 1) (fun m => besChain m l) x (2 ^ n) (fun j _ t => besChain_hasDerivAt j l t) (y - x) (by linarith)
      fun t ht _ => besChain_bound n l (hx.trans ht)
    rw [abs_of_nonneg (by linarith : 0 ≤ y - x)]
    rw [show x + (y - x) = y by ring] at h
    exact h
  · have h := chain_taylor (n + 1) (fun m t => (-1) ^ m * besChain m l (-t)) (-x) (2 ^ n) (fun j _ t => ?_) (x - y) (by linarith)
      fun t ht ht2 => ?_
    · rw [abs_sub_comm y x, abs_of_nonneg (by linarith : 0 ≤ x - y)]
      refine le_of_eq_of_le ?_ h
      congr 1
      rw [show -(-x + (x - y)) = y by ring]
      simp only [pow_zero, one_mul, neg_neg]
      congr 1
      refine Finset.sum_congr rfl fun m _ => ?_
      rw [show (y - x) ^ m = (-1) ^ m * (x - y) ^ m by rw [← mul_pow]; ring]
      ring
    · have h1 := ((besChain_hasDerivAt j l (-t)).comp t (hasDerivAt_neg t)).const_mul ((-1 : ℝ) ^ j)
      refine h1.congr_deriv ?_
      rw [pow_succ]
      ring
    · rw [abs_mul, abs_pow, abs_neg, abs_one, one_pow, one_mul]
      exact besChain_bound n l (by linarith)

/-! ## Closed form -/

/-- Coefficients of `R_n`: `(n+k)! / (2^k k! (n-k)!)`, by their recurrence. -/
def rCoef : ℕ → ℕ → ℕ
  | 0, 0 => 1
  | 0, _ + 1 => 0
  | 1, 0 => 1
  | 1, 1 => 1
  | 1, _ + 2 => 0
  | _ + 2, 0 => 1
  | n + 2, k + 1 => rCoef n (k + 1) + (2 * n + 3) * rCoef (n + 1) k

theorem rCoef_zero (n : ℕ) : rCoef n 0 = 1 := by
  rcases n with _ | _ | n <;> simp [rCoef]

theorem rCoef_gt (n k : ℕ) (h : n < k) : rCoef n k = 0 := by
  induction n using Nat.strong_induction_on generalizing k with
  | _ n ih =>
    rcases n with _ | _ | n
    · rcases k with _ | k
      · omega
      · simp [rCoef]
    · rcases k with _ | _ | k
      · omega
      · omega
      · simp [rCoef]
    · rcases k with _ | k
      · omega
      · simp only [rCoef]
        rw [ih n (by omega) (k + 1) (by omega), ih (n + 1) (by omega) k (by omega)]
        simp

/-- `R_n(x) = Σ_k (n+k)!/(k!(n-k)!) (2x)^(-k)` -/
noncomputable def besR (n : ℕ) (x : ℝ) : ℝ := ∑ k ∈ Finset.range (n + 1), (rCoef n k : ℝ) * (1 / x) ^ k

theorem besR_more (n N : ℕ) (h : n ≤ N) (x : ℝ) : ∑ k ∈ Finset.range (N + 1), (rCoef n k : ℝ) * (1 / x) ^ k = besR n x := by
  unfold besR
  symm
  refine Finset.sum_subset (Finset.range_mono (by omega)) fun k _ hk => ?_
  rw [rCoef_gt n k (by simpa using hk)]
  simp

theorem besR_rec (n : ℕ) (x : ℝ) : besR (n + 2) x = besR n x + (2 * n + 3) / x * besR (n + 1) x := by
  rw [← besR_more n (n + 2) (by omega), Finset.sum_range_succ']
  unfold besR
  rw [Finset.sum_range_succ' _ (n + 1 + 1), Finset.mul_sum]
  simp only [rCoef, rCoef_zero]
  rw [add_right_comm (∑ k ∈ Finset.range (n + 1 + 1), (rCoef n (k + 1) : ℝ) * (1 / x) ^ (k + 1)), ← Finset.sum_add_distrib]
  congr 1
  refine Finset.sum_congr rfl fun k _ => ?_
  push_cast
  rw [pow_succ]
  ring

theorem besselI_zero_eq {x : ℝ} (hx : x ≠ 0) : besselI 0 x = Real.sinh x / x := by
  have h := (Real.hasSum_sinh x).tsum_eq
  unfold besselI
  rw [← h, ← tsum_div_const]
  refine tsum_congr fun j => ?_
  have e := Nat.factorial_eq_mul_doubleFactorial (2 * j)
  rw [e]
  push_cast
  simp only [Nat.zero_add]
  rw [pow_succ]
  have : ((2 * j)‼ : ℝ) ≠ 0 := by positivity
  have : ((2 * j + 1)‼ : ℝ) ≠ 0 := by positivity
  field_simp

theorem besselI_closed (n : ℕ) {x : ℝ} (hx : x ≠ 0) :
    besselI n x = (Real.exp x * besR n (-x) - (-1) ^ n * Real.exp (-x) * besR n x) / (2 * x) := by
  induction n using Nat.strong_induction_on with
  | _ n ih =>
    rcases n with _ | _ | n
    · rw [besselI_zero_eq hx, Real.sinh_eq]
      simp [besR, rCoef]
      field_simp
    · have h0 : HasDerivAt (besselI 0) (besselI 1 x) x := by
        have := besselI_hasDerivAt 0 x
        simpa using this
      have e : besselI 0 =ᶠ[nhds x] fun y => Real.sinh y / y := by
        filter_upwards [isOpen_ne.mem_nhds hx] with y hy
        exact besselI_zero_eq hy
      have h1 := ((Real.hasDerivAt_sinh x).div (hasDerivAt_id x) hx).congr_of_eventuallyEq e
      rw [h0.unique h1, Real.sinh_eq, Real.cosh_eq]
      simp [besR, rCoef, Finset.sum_range_succ]
      field_simp
      ring
    · have h1 := ih n (by omega)
      have h2 := ih (n + 1) (by omega)
      have h3 := besselI_rec n x
      have e : besselI (n + 2) x = besselI n x - (2 * n + 3) / x * besselI (n + 1) x := by
        rw [eq_sub_iff_add_eq, div_mul_eq_mul_div, h3]
        field_simp
        ring
      rw [e, h1, h2, besR_rec, besR_rec]
      rw [pow_succ, pow_succ]
      field_simp
      ring

theorem besselK_closed (n : ℕ) {x : ℝ} (hx : x ≠ 0) :
    besselK n x = besR n (-x) / (2 * x) - (-1) ^ n * Real.exp (-(2 * x)) * besR n x / (2 * x) := by
  unfold besselK
  rw [besselI_closed n hx, show -(2 * x) = -x + -x by ring, Real.exp_add]
  have : Real.exp (-x) * Real.exp x = 1 := by rw [← Real.exp_add]; simp
  have e : Real.exp (-x) * ((Real.exp x * besR n (-x) - (-1) ^ n * Real.exp (-x) * besR n x) / (2 * x)) =
    ((Real.exp (-x) * Real.exp x) * besR n (-x) - (-1) ^ n * (Real.exp (-x) * Real.exp (-x)) * besR n x) / (2 * x) := by ring
  rw [e, this]
  ring

end Libgrpp
