import Verif.Model.SpecFun
import Verif.Model.SpecLocal
import Verif.Props.Factorial
import Verif.Lemmas.GaussMoment
import Mathlib.Analysis.SpecialFunctions.Integrals.Basic
import Mathlib.Analysis.SpecialFunctions.ExpDeriv
import Mathlib.Analysis.Complex.Exponential
import Mathlib.Analysis.Complex.ExponentialBounds
import Mathlib.Tactic.NormNum.NatFactorial
import Mathlib.MeasureTheory.Integral.IntervalIntegral.IntegrationByParts

/-! Facts about the Boys and `G` functions and about the code that evaluates them. -/

namespace Libgrpp

open MeasureTheory intervalIntegral
open scoped Nat

theorem auxSet_ok {b : Aux} {n : Nat} (v : ℝ) (h : n < 100) : auxSet b n v = .ok fun k => if k = n then some v else b k :=
  if_pos h

theorem auxGet_ok {b : Aux} {n : Nat} {v : ℝ} (h : n < 100) (hb : b n = some v) : auxGet b n = .ok v := by
  unfold auxGet; rw [if_pos h, hb]

theorem auxZero_ok {nmax : Nat} (h : nmax < 100) : ∃ b, auxZero nmax = .ok b ∧ True := by
  unfold auxZero
  refine forRange_spec (fun _ _ => True) trivial ?_ (fun _ _ => trivial)
  intro i s hi _
  exact ⟨_, auxSet_ok 0 (by omega), trivial⟩

/-! ## Boys function -/

/-- The row of the table used for `x`. -/
noncomputable def boysRow (x : ℝ) : Int := truncInt ((roundC (x / (0.1 : ℝ)) : ℝ) + 1e-6)

theorem boysRow_eq {x : ℝ} (h0 : 0 ≤ x) : boysRow x = ⌊x / 0.1 + 1 / 2⌋ := by
  have hr : roundC (x / (0.1 : ℝ)) = ⌊x / 0.1 + 1 / 2⌋ := by
    unfold roundC; rw [if_pos (by positivity)]
  unfold boysRow
  rw [hr]
  generalize hN : ⌊x / (0.1 : ℝ) + 1 / 2⌋ = N
  have hNn : 0 ≤ N := by rw [← hN]; exact Int.floor_nonneg.2 (by positivity)
  unfold truncInt
  have : (0 : ℝ) ≤ N := by exact_mod_cast hNn
  rw [if_pos (by norm_num; linarith)]
  rw [Int.floor_eq_iff]
  constructor <;> norm_num

theorem boysRow_range {x : ℝ} (h0 : 0 ≤ x) (h1 : x ≤ 30) : 0 ≤ boysRow x ∧ boysRow x < 301 := by
  rw [boysRow_eq h0]
  refine ⟨Int.floor_nonneg.2 (by positivity), ?_⟩
  rw [Int.floor_lt]
  push_cast
  have : x / 0.1 = 10 * x := by ring
  rw [this]
  linarith

theorem boysRow_close {x : ℝ} (h0 : 0 ≤ x) : |x - (boysRow x : ℝ) * 0.1| ≤ 0.05 := by
  rw [boysRow_eq h0]
  have h1 := Int.floor_le (x / 0.1 + 1 / 2)
  have h2 := Int.lt_floor_add_one (x / 0.1 + 1 / 2)
  have : x / 0.1 = 10 * x := by ring
  rw [this] at h1 h2 ⊢
  rw [abs_le]
  constructor <;> linarith

/-- Value returned by `boys_function` for small arguments. -/
noncomputable def boysTaylor (f : ℕ → ℝ) (n : ℕ) (dx : ℝ) : ℝ :=
  f n - f (n + 1) * dx + f (n + 2) * dx ^ 2 / 2 - f (n + 3) * dx ^ 3 / 6 + f (n + 4) * dx ^ 4 / 24 -
    f (n + 5) * dx ^ 5 / 120 + f (n + 6) * dx ^ 6 / 720

/-- Entry of the table, zero outside. -/
noncomputable def boysAt (tab : BoysTable) (idx : Int) (k : Nat) : ℝ :=
  if h : 0 ≤ idx ∧ idx < 301 ∧ k < 40 then tab ⟨idx.toNat, by omega⟩ ⟨k, h.2.2⟩ else 0

theorem boysEntry_ok (tab : BoysTable) {idx : Int} {k : Nat} (h0 : 0 ≤ idx) (h1 : idx < 301) (h2 : k < 40) :
    boysEntry tab idx k = .ok (boysAt tab idx k) := by
  unfold boysEntry boysAt; rw [dif_pos ⟨h0, h1, h2⟩, dif_pos ⟨h0, h1, h2⟩]

theorem boysFunction_small (tab : BoysTable) {n : Nat} {x : ℝ} (h0 : 0 ≤ x) (h1 : x ≤ 30) (hn : n ≤ 33) :
    boysFunction tab n x = .ok (boysTaylor (boysAt tab (boysRow x)) n (x - (boysRow x : ℝ) * 0.1)) := by
  obtain ⟨r0, r1⟩ := boysRow_range h0 h1
  unfold boysFunction
  rw [if_pos h1]
  unfold boysTaylor boysRow
  unfold boysRow at r0 r1
  dsimp only
  generalize truncInt ((roundC (x / (0.1 : ℝ)) : ℝ) + 1e-6) = r at r0 r1 ⊢
  have e : ∀ k, k < 40 → boysEntry tab r k = .ok (boysAt tab r k) := fun k hk => boysEntry_ok tab r0 r1 hk
  rw [e n (by omega), e (n + 1) (by omega), e (n + 2) (by omega), e (n + 3) (by omega), e (n + 4) (by omega),
    e (n + 5) (by omega), e (n + 6) (by omega)]
  rfl

/-- Leading asymptotic term of the Boys function. -/
noncomputable def boysAsym (n : ℕ) (x : ℝ) : ℝ :=
  ((2 * n - 1) ‼ : ℝ) / 2 ^ (n + 1) * Real.sqrt (Real.pi / x ^ (2 * n + 1))

theorem boysFunction_large (tab : BoysTable) {n : Nat} {x : ℝ} (h1 : 30 < x) (hn : n ≤ 15) :
    boysFunction tab n x = .ok (boysAsym n x) := by
  unfold boysFunction
  rw [if_neg (by linarith)]
  rcases Nat.eq_zero_or_pos n with rfl | hp
  · rw [show 2 * ((0 : ℕ) : Int) - 1 = -1 by norm_num, double_factorial_minus_one]
    simp [boysAsym]
  · rw [show 2 * ((n : ℕ) : Int) - 1 = ((2 * n - 1 : ℕ) : Int) by omega, double_factorial_correct _ (by omega)]
    simp only [Outcome.ok_bind]
    rfl

theorem boysFunction_abort (tab : BoysTable) {n : Nat} {x : ℝ} (h1 : 30 < x) (hn : 16 ≤ n) :
    boysFunction tab n x = .abort := by
  unfold boysFunction
  rw [if_neg (by linarith), (double_factorial_abort_iff _).2 (Or.inr (by omega))]
  rfl

theorem boysValues_ok (tab : BoysTable) {x : ℝ} {nmax : Nat} (hn : nmax < 100) (v : ℕ → ℝ)
    (h : ∀ n ≤ nmax, boysFunction tab n x = .ok (v n)) :
    ∃ b, boysValues tab x nmax = .ok b ∧ ∀ n ≤ nmax, b n = some (v n) := by
  obtain ⟨b0, hb0, -⟩ := auxZero_ok hn
  unfold boysValues
  rw [hb0]
  simp only [Outcome.ok_bind]
  refine forRange_spec (fun k b => ∀ n < k, b n = some (v n)) (by intro n h; omega) ?_ (fun b hb n hn => hb n (by omega))
  intro i b hi hb
  rw [h i (by omega)]
  simp only [Outcome.ok_bind]
  rw [auxSet_ok _ (by omega)]
  refine ⟨_, rfl, ?_⟩
  intro n hn
  by_cases e : n = i
  · subst e; simp
  · rw [if_neg e]; exact hb n (by omega)

theorem boysValues_abort (tab : BoysTable) {x : ℝ} {nmax : Nat} (h1 : 30 < x) (hn : nmax < 100) (h : 16 ≤ nmax) :
    boysValues tab x nmax = .abort := by
  obtain ⟨b0, hb0, -⟩ := auxZero_ok hn
  unfold boysValues
  rw [hb0]
  simp only [Outcome.ok_bind]
  apply forRange_abort (k := 16) (fun _ _ => True) (by omega) trivial
  · intro i s hi _
    rw [boysFunction_large tab h1 (by omega)]
    simp only [Outcome.ok_bind]
    exact ⟨_, auxSet_ok _ (by omega), trivial⟩
  · intro s _
    rw [boysFunction_abort tab h1 le_rfl]
    rfl

theorem continuous_boys_integrand (n : ℕ) (x : ℝ) : Continuous fun t : ℝ => t ^ (2 * n) * Real.exp (-x * t ^ 2) := by
  fun_prop

/-- Truncated Taylor expansion of the Boys function about `x₀`: exact table values give an accurate result. -/
theorem boysTaylor_close (n : ℕ) {x0 dx : ℝ} (h0 : 0 ≤ x0) (hdx : |dx| ≤ 0.05) :
    |boysTaylor (fun k => boysF k x0) n dx - boysF n (x0 + dx)| ≤ 1.2e-14 := by
  have hI : ∀ k, IntervalIntegrable (fun t : ℝ => t ^ (2 * k) * Real.exp (-x0 * t ^ 2)) volume 0 1 :=
    fun k => (continuous_boys_integrand k x0).intervalIntegrable _ _
  have e : boysTaylor (fun k => boysF k x0) n dx - boysF n (x0 + dx) =
      ∫ t in (0 : ℝ)..1, t ^ (2 * n) * Real.exp (-x0 * t ^ 2) *
        ((∑ m ∈ Finset.range 7, (-dx * t ^ 2) ^ m / m !) - Real.exp (-dx * t ^ 2)) := by
    have e1 : boysTaylor (fun k => boysF k x0) n dx = ∑ m ∈ Finset.range 7, (-dx) ^ m / m ! * boysF (n + m) x0 := by
      simp only [Finset.sum_range_succ, Finset.range_zero, Finset.sum_empty, boysTaylor]
      norm_num [Nat.factorial]
      ring
    rw [e1]
    unfold boysF
    simp only [← intervalIntegral.integral_const_mul]
    rw [← intervalIntegral.integral_finsetSum fun m _ => (hI (n + m)).const_mul _,
      ← intervalIntegral.integral_sub (by
        refine Continuous.intervalIntegrable ?_ _ _
        fun_prop) ((continuous_boys_integrand n (x0 + dx)).intervalIntegrable _ _)]
    refine intervalIntegral.integral_congr fun t _ => ?_
    rw [mul_sub, Finset.mul_sum, show -(x0 + dx) * t ^ 2 = -x0 * t ^ 2 + -dx * t ^ 2 by ring, Real.exp_add, mul_assoc]
    congr 1
    refine Finset.sum_congr rfl fun m _ => ?_
    rw [mul_pow, mul_add, pow_add, pow_mul t 2 m]
    ring
  rw [e]
  have key : ∀ t ∈ Set.uIoc (0 : ℝ) 1, ‖t ^ (2 * n) * Real.exp (-x0 * t ^ 2) *
      ((∑ m ∈ Finset.range 7, (-dx * t ^ 2) ^ m / m !) - Real.exp (-dx * t ^ 2))‖ ≤ 0.05 ^ 7 * (8 / 35280) * t ^ 14 := by
    intro t ht
    rw [Set.uIoc_of_le zero_le_one] at ht
    obtain ⟨ht0, ht1⟩ := ht
    have ht2 : t ^ 2 ≤ 1 := by nlinarith
    have hy : |-dx * t ^ 2| ≤ 0.05 * t ^ 2 := by
      rw [abs_mul, abs_neg, abs_of_nonneg (sq_nonneg t)]
      exact mul_le_mul_of_nonneg_right hdx (sq_nonneg t)
    have hb := Real.exp_bound (x := -dx * t ^ 2) (n := 7) (by nlinarith) (by norm_num)
    rw [norm_mul, norm_mul, Real.norm_eq_abs, Real.norm_eq_abs, Real.norm_eq_abs, abs_sub_comm, Real.abs_exp,
      abs_of_nonneg (by positivity)]
    have h1 : t ^ (2 * n) * Real.exp (-x0 * t ^ 2) ≤ 1 := by
      have a1 : t ^ (2 * n) ≤ 1 := pow_le_one₀ ht0.le ht1
      have a2 : Real.exp (-x0 * t ^ 2) ≤ 1 := Real.exp_le_one_iff.2 (by nlinarith [sq_nonneg t])
      calc _ ≤ (1 : ℝ) * 1 := mul_le_mul a1 a2 (Real.exp_pos _).le zero_le_one
        _ = 1 := by ring
    have h2 : |Real.exp (-dx * t ^ 2) - ∑ m ∈ Finset.range 7, (-dx * t ^ 2) ^ m / m !| ≤
        0.05 ^ 7 * (8 / 35280) * t ^ 14 := by
      refine hb.trans ?_
      have : |-dx * t ^ 2| ^ 7 ≤ (0.05 * t ^ 2) ^ 7 := pow_le_pow_left₀ (abs_nonneg _) hy 7
      have h3 : ((Nat.succ 7 : ℕ) : ℝ) / ((7 ! : ℕ) * (7 : ℕ)) = 8 / 35280 := by norm_num [Nat.factorial]
      rw [h3]
      calc |-dx * t ^ 2| ^ 7 * (8 / 35280) ≤ (0.05 * t ^ 2) ^ 7 * (8 / 35280) :=
            mul_le_mul_of_nonneg_right this (by norm_num)
        _ = 0.05 ^ 7 * (8 / 35280) * t ^ 14 := by ring
    calc _ ≤ 1 * (0.05 ^ 7 * (8 / 35280) * t ^ 14) := mul_le_mul h1 h2 (abs_nonneg _) zero_le_one
      _ = _ := by ring
  have hg : IntervalIntegrable (fun t : ℝ => 0.05 ^ 7 * (8 / 35280) * t ^ 14) volume 0 1 :=
    Continuous.intervalIntegrable (by fun_prop) _ _
  rw [← Real.norm_eq_abs]
  refine le_trans (norm_integral_le_of_norm_le zero_le_one ?_ hg) ?_
  · filter_upwards with t ht
    exact key t (by rw [Set.uIoc_of_le zero_le_one]; exact ht)
  · rw [intervalIntegral.integral_const_mul, integral_pow]
    norm_num

/-- Accuracy of the leading asymptotic term. -/
theorem boysAsym_close {n : ℕ} (hn : n ≤ 15) {x : ℝ} (hx : 30 < x) : |boysAsym n x - boysF n x| ≤ 7e-15 := by
  have hx0 : 0 < x := by linarith
  have hn' : (n : ℝ) ≤ 15 := by exact_mod_cast hn
  have hxn : 15 < x - n := by linarith
  have hI : IntegrableOn (fun t : ℝ => t ^ (2 * n) * Real.exp (-x * t ^ 2)) (Set.Ioi 0) := by
    by_contra h
    have h2 := moment_even n hx0
    rw [integral_undef h] at h2
    have : (0 : ℝ) < ((2 * n - 1) ‼ : ℝ) := by exact_mod_cast Nat.doubleFactorial_pos _
    have : (0 : ℝ) < ((2 * n - 1) ‼ : ℝ) / (2 ^ (n + 1) * x ^ n) * Real.sqrt (Real.pi / x) := by
      have := Real.pi_pos
      positivity
    linarith
  have hA : boysAsym n x = ∫ t in Set.Ioi (0 : ℝ), t ^ (2 * n) * Real.exp (-x * t ^ 2) := by
    rw [moment_even n hx0]
    unfold boysAsym
    rw [show Real.pi / x ^ (2 * n + 1) = Real.pi / x * ((x ^ n)⁻¹) ^ 2 by rw [pow_succ, mul_comm 2 n, pow_mul]; field_simp,
      Real.sqrt_mul (by positivity), Real.sqrt_sq (by positivity)]
    field_simp
  have hB : boysF n x = ∫ t in Set.Ioc (0 : ℝ) 1, t ^ (2 * n) * Real.exp (-x * t ^ 2) := by
    unfold boysF; rw [intervalIntegral.integral_of_le zero_le_one]
  have hsplit : ∫ t in Set.Ioi (0 : ℝ), t ^ (2 * n) * Real.exp (-x * t ^ 2) =
      (∫ t in Set.Ioc (0 : ℝ) 1, t ^ (2 * n) * Real.exp (-x * t ^ 2)) +
        ∫ t in Set.Ioi (1 : ℝ), t ^ (2 * n) * Real.exp (-x * t ^ 2) := by
    rw [← Set.Ioc_union_Ioi_eq_Ioi (zero_le_one' ℝ)]
    exact setIntegral_union (Set.Ioc_disjoint_Ioi le_rfl) measurableSet_Ioi (hI.mono_set Set.Ioc_subset_Ioi_self)
      (hI.mono_set (Set.Ioi_subset_Ioi zero_le_one))
  rw [hA, hB, hsplit, add_sub_cancel_left]
  have hpos : 0 ≤ ∫ t in Set.Ioi (1 : ℝ), t ^ (2 * n) * Real.exp (-x * t ^ 2) :=
    setIntegral_nonneg measurableSet_Ioi fun t ht => by
      have : (0 : ℝ) < t := lt_trans one_pos ht
      positivity
  rw [abs_of_nonneg hpos]
  -- `t^(2n) exp(-x t²) ≤ exp(-n) exp(-(x-n) t)` for `t ≥ 1`
  have hg : IntegrableOn (fun t : ℝ => Real.exp (-(n : ℝ)) * Real.exp (-(x - n) * t)) (Set.Ioi 1) :=
    (exp_neg_integrableOn_Ioi 1 (by linarith)).const_mul _
  have hle : ∫ t in Set.Ioi (1 : ℝ), t ^ (2 * n) * Real.exp (-x * t ^ 2) ≤
      ∫ t in Set.Ioi (1 : ℝ), Real.exp (-(n : ℝ)) * Real.exp (-(x - n) * t) := by
    refine setIntegral_mono_on (hI.mono_set (Set.Ioi_subset_Ioi zero_le_one)) hg measurableSet_Ioi fun t ht => ?_
    have ht1 : (1 : ℝ) < t := ht
    have h1 : t ^ 2 ≤ Real.exp (t ^ 2 - 1) := by
      have := Real.add_one_le_exp (t ^ 2 - 1)
      linarith
    have h2 : t ^ (2 * n) ≤ Real.exp ((n : ℝ) * (t ^ 2 - 1)) := by
      rw [pow_mul, Real.exp_nat_mul]
      exact pow_le_pow_left₀ (sq_nonneg t) h1 n
    calc t ^ (2 * n) * Real.exp (-x * t ^ 2) ≤ Real.exp ((n : ℝ) * (t ^ 2 - 1)) * Real.exp (-x * t ^ 2) :=
          mul_le_mul_of_nonneg_right h2 (Real.exp_pos _).le
      _ = Real.exp (-(n : ℝ)) * Real.exp (-(x - n) * t ^ 2) := by
          rw [← Real.exp_add, ← Real.exp_add]; congr 1; ring
      _ ≤ _ := by
          refine mul_le_mul_of_nonneg_left (Real.exp_le_exp.2 ?_) (Real.exp_pos _).le
          have : 0 ≤ (x - n) * (t * (t - 1)) :=
            mul_nonneg (by linarith) (mul_nonneg (by linarith) (by linarith))
          nlinarith
  refine hle.trans ?_
  rw [MeasureTheory.integral_const_mul, integral_exp_mul_Ioi (by linarith)]
  have h3 : Real.exp (-(n : ℝ)) * (-Real.exp (-(x - n) * 1) / -(x - n)) = Real.exp (-x) / (x - n) := by
    rw [neg_div_neg_eq, ← mul_div_assoc, ← Real.exp_add]; congr 2; ring
  rw [h3]
  rw [div_le_iff₀ (by linarith)]
  have h4 : Real.exp (-x) ≤ Real.exp (-30) := Real.exp_le_exp.2 (by linarith)
  have h5 : Real.exp (-30) ≤ 7e-15 * 15 := by
    have h7 : (2.7182818283 : ℝ) ^ 30 ≤ Real.exp 30 := by
      calc (2.7182818283 : ℝ) ^ 30 ≤ Real.exp 1 ^ 30 := pow_le_pow_left₀ (by norm_num) Real.exp_one_gt_d9.le 30
        _ = Real.exp 30 := by rw [← Real.exp_nat_mul]; norm_num
    rw [Real.exp_neg, inv_le_comm₀ (Real.exp_pos _) (by norm_num)]
    refine le_trans ?_ h7
    norm_num
  linarith [mul_le_mul_of_nonneg_left hxn.le (show (0 : ℝ) ≤ 7e-15 by norm_num)]

/-! ## The G function -/

theorem continuous_g_integrand (n : ℕ) (x : ℝ) : Continuous fun t : ℝ => t ^ (2 * n) * Real.exp (-x * (1 - t ^ 2)) := by
  fun_prop

/-- The three-term relation. -/
theorem gF_rec (n : ℕ) (x : ℝ) : (2 * (n : ℝ) + 1) * gF n x + 2 * x * gF (n + 1) x = 1 := by
  have hd : ∀ t : ℝ, HasDerivAt (fun t : ℝ => t ^ (2 * n + 1) * Real.exp (-x * (1 - t ^ 2)))
      ((2 * (n : ℝ) + 1) * (t ^ (2 * n) * Real.exp (-x * (1 - t ^ 2))) +
        2 * x * (t ^ (2 * (n + 1)) * Real.exp (-x * (1 - t ^ 2)))) t := by
    intro t
    have h1 := (hasDerivAt_id t).pow (2 * n + 1)
    have h2 := ((((hasDerivAt_id t).pow 2).const_sub 1).const_mul (-x)).exp
    refine (h1.mul h2).congr_deriv ?_
    simp only [id, Pi.pow_apply, Nat.add_sub_cancel]
    push_cast
    ring
  have hI : ∀ k, IntervalIntegrable (fun t : ℝ => t ^ (2 * k) * Real.exp (-x * (1 - t ^ 2))) volume 0 1 :=
    fun k => (continuous_g_integrand k x).intervalIntegrable _ _
  have key := integral_eq_sub_of_hasDerivAt (fun t _ => hd t)
    (((hI n).const_mul (2 * (n : ℝ) + 1)).add ((hI (n + 1)).const_mul (2 * x)))
  rw [intervalIntegral.integral_add ((hI n).const_mul _) ((hI (n + 1)).const_mul _), intervalIntegral.integral_const_mul, intervalIntegral.integral_const_mul] at key
  unfold gF
  rw [key]
  norm_num

/-- The Dawson function `D(y) = exp(-y²) ∫_0^y exp(s²) ds`. -/
noncomputable def dawsonF (y : ℝ) : ℝ := Real.exp (-y ^ 2) * ∫ s in (0 : ℝ)..y, Real.exp (s ^ 2)

theorem gF_zero {x : ℝ} (hx : 0 < x) : gF 0 x = dawsonF (Real.sqrt x) / Real.sqrt x := by
  have hs := Real.sqrt_pos.2 hx
  unfold gF dawsonF
  have h := intervalIntegral.integral_comp_mul_left (a := 0) (b := 1) (fun s : ℝ => Real.exp (s ^ 2)) hs.ne'
  rw [mul_zero, mul_one] at h
  rw [eq_div_iff hs.ne', ← intervalIntegral.integral_const_mul]
  have h2 : (∫ s in (0 : ℝ)..Real.sqrt x, Real.exp (s ^ 2)) = Real.sqrt x * ∫ t in (0 : ℝ)..1, Real.exp ((Real.sqrt x * t) ^ 2) := by
    rw [h, smul_eq_mul]; field_simp
  rw [intervalIntegral.integral_const_mul, h2, Real.sq_sqrt hx.le, ← intervalIntegral.integral_const_mul, ← intervalIntegral.integral_const_mul, ← intervalIntegral.integral_mul_const]
  refine intervalIntegral.integral_congr fun t _ => ?_
  rw [mul_pow, Real.sq_sqrt hx.le, show -x * (1 - t ^ 2) = -x + x * t ^ 2 by ring, Real.exp_add]
  ring

/-- Terms of the Taylor series. -/
noncomputable def gTerm (n : ℕ) (x : ℝ) (k : ℕ) : ℝ := Real.exp (-x) * x ^ k / (k ! : ℝ) / (2 * (n : ℝ) + 2 * (k : ℝ) + 1)

theorem gfunTerm_eq (n k : ℕ) (x : ℝ) : gfunTerm n k x = .ok (gTerm n x k) := by
  unfold gfunTerm
  rw [factorial_correct]
  rfl

/-- The partial sum is below the true value, by the integral of the tail of the exponential series. -/
theorem gF_sub_partial (n K : ℕ) (x : ℝ) : gF n x - ∑ k ∈ Finset.range K, gTerm n x k =
    ∫ t in (0 : ℝ)..1, t ^ (2 * n) * Real.exp (-x) * (Real.exp (x * t ^ 2) - ∑ k ∈ Finset.range K, (x * t ^ 2) ^ k / k !) := by
  have e : ∑ k ∈ Finset.range K, gTerm n x k =
      ∫ t in (0 : ℝ)..1, ∑ k ∈ Finset.range K, t ^ (2 * n) * Real.exp (-x) * ((x * t ^ 2) ^ k / k !) := by
    rw [intervalIntegral.integral_finsetSum fun k _ => Continuous.intervalIntegrable (by fun_prop) _ _]
    refine Finset.sum_congr rfl fun k _ => ?_
    have : ∀ t : ℝ, t ^ (2 * n) * Real.exp (-x) * ((x * t ^ 2) ^ k / k !) =
        Real.exp (-x) * x ^ k / (k ! : ℝ) * t ^ (2 * n + 2 * k) := fun t => by
      rw [mul_pow, pow_add, pow_mul t 2 k]; ring
    simp only [this]
    rw [intervalIntegral.integral_const_mul, integral_pow]
    unfold gTerm
    push_cast
    simp
    ring
  rw [e]
  unfold gF
  rw [← intervalIntegral.integral_sub ((continuous_g_integrand n x).intervalIntegrable _ _) (Continuous.intervalIntegrable (by fun_prop) _ _)]
  refine intervalIntegral.integral_congr fun t _ => ?_
  rw [show -x * (1 - t ^ 2) = -x + x * t ^ 2 by ring, Real.exp_add, ← Finset.mul_sum]
  ring

/-- Tail of the exponential series after term `k` when the ratio of successive terms is at most one half. -/
theorem exp_tail {y : ℝ} (hy : 0 ≤ y) {K : ℕ} (hK : 2 * y ≤ K + 1) :
    Real.exp y - ∑ k ∈ Finset.range (K + 1), y ^ k / k ! ≤ y ^ K / K ! := by
  have h := NormedSpace.expSeries_div_hasSum_exp (𝔸 := ℝ) y
  rw [← Real.exp_eq_exp_ℝ] at h
  have ht := h.summable.sum_add_tsum_nat_add (K + 1)
  rw [h.tsum_eq] at ht
  rw [← ht, add_sub_cancel_left]
  have hb : ∀ i, y ^ (i + (K + 1)) / ((i + (K + 1)) ! : ℝ) ≤ y ^ K / K ! * (1 / 2) ^ (i + 1) := by
    intro i
    induction i with
    | zero =>
      rw [Nat.zero_add, pow_succ, Nat.factorial_succ]
      push_cast
      have hKp : (0 : ℝ) < (K : ℝ) + 1 := by positivity
      have hf : (0 : ℝ) < (K ! : ℝ) := by exact_mod_cast Nat.factorial_pos K
      have : y ^ K * y / (((K : ℝ) + 1) * K !) = y ^ K / K ! * (y / (K + 1)) := by field_simp
      rw [this]
      refine mul_le_mul_of_nonneg_left ?_ (by positivity)
      rw [div_le_iff₀ hKp]; norm_num; linarith
    | succ i ih =>
      rw [show i + 1 + (K + 1) = (i + (K + 1)) + 1 by ring, pow_succ, Nat.factorial_succ]
      push_cast
      have hKp : (0 : ℝ) < (i : ℝ) + (K + 1) + 1 := by positivity
      have hf : (0 : ℝ) < ((i + (K + 1)) ! : ℝ) := by exact_mod_cast Nat.factorial_pos _
      have e : y ^ (i + (K + 1)) * y / (((i : ℝ) + (K + 1) + 1) * (i + (K + 1)) !) =
          y ^ (i + (K + 1)) / (i + (K + 1)) ! * (y / ((i : ℝ) + (K + 1) + 1)) := by field_simp
      rw [e, pow_succ (1 / 2 : ℝ) (i + 1), ← mul_assoc]
      refine mul_le_mul ih ?_ (by positivity) (by positivity)
      rw [div_le_iff₀ hKp]
      have : (0 : ℝ) ≤ i := Nat.cast_nonneg i
      norm_num; linarith
  have hgeo : Summable fun i : ℕ => y ^ K / (K ! : ℝ) * (1 / 2 : ℝ) ^ (i + 1) :=
    ((summable_nat_add_iff 1).2 (summable_geometric_of_lt_one (by norm_num) (by norm_num))).mul_left _
  refine (((summable_nat_add_iff (K + 1)).2 h.summable).tsum_le_tsum hb hgeo).trans ?_
  rw [tsum_mul_left]
  have : ∑' i : ℕ, (1 / 2 : ℝ) ^ (i + 1) = 1 := by
    simp only [pow_succ]
    rw [tsum_mul_right, tsum_geometric_of_lt_one (by norm_num) (by norm_num)]
    norm_num
  rw [this, mul_one]

theorem exp_partial_le {y : ℝ} (hy : 0 ≤ y) (K : ℕ) : ∑ k ∈ Finset.range K, y ^ k / (k ! : ℝ) ≤ Real.exp y :=
  Real.sum_le_exp_of_nonneg hy K

/-- Remainder of the Taylor series. -/
theorem gF_tail (n K : ℕ) {x : ℝ} (hx : 0 ≤ x) (hK : 2 * x ≤ K + 1) :
    0 ≤ gF n x - ∑ k ∈ Finset.range (K + 1), gTerm n x k ∧
      gF n x - ∑ k ∈ Finset.range (K + 1), gTerm n x k ≤ gTerm n x K := by
  rw [gF_sub_partial]
  constructor
  · refine intervalIntegral.integral_nonneg zero_le_one fun t ht => ?_
    have := exp_partial_le (mul_nonneg hx (sq_nonneg t)) (K + 1)
    have ht0 := ht.1
    refine mul_nonneg (mul_nonneg (pow_nonneg ht0 _) (Real.exp_pos _).le) (by linarith)
  · have e : gTerm n x K = ∫ t in (0 : ℝ)..1, t ^ (2 * n) * Real.exp (-x) * ((x * t ^ 2) ^ K / K !) := by
      have : ∀ t : ℝ, t ^ (2 * n) * Real.exp (-x) * ((x * t ^ 2) ^ K / K !) =
          Real.exp (-x) * x ^ K / (K ! : ℝ) * t ^ (2 * n + 2 * K) := fun t => by
        rw [mul_pow, pow_add, pow_mul t 2 K]; ring
      simp only [this]
      rw [intervalIntegral.integral_const_mul, integral_pow]
      unfold gTerm
      push_cast
      simp
      ring
    rw [e]
    refine intervalIntegral.integral_mono_on zero_le_one (Continuous.intervalIntegrable (by fun_prop) _ _)
      (Continuous.intervalIntegrable (by fun_prop) _ _) fun t ht => ?_
    have ht0 := ht.1
    have ht2 : t ^ 2 ≤ 1 := by nlinarith [ht.2]
    refine mul_le_mul_of_nonneg_left ?_ (by positivity)
    exact exp_tail (mul_nonneg hx (sq_nonneg t)) (by nlinarith)

/-- The loop of `gfun_taylor` returns a partial sum; it ends on a term below the threshold or after the last allowed
term. -/
theorem gfunTaylorLoop_eq (n : ℕ) (x : ℝ) (fuel k : ℕ) (sum : ℝ) :
    ∃ K, K ≤ fuel ∧ gfunTaylorLoop n x fuel k sum = .ok (sum + ∑ i ∈ Finset.range K, gTerm n x (k + i)) ∧
      (K = fuel ∨ (0 < K ∧ |gTerm n x (k + (K - 1))| < 1e-15)) := by
  induction fuel generalizing k sum with
  | zero => exact ⟨0, le_rfl, by simp [gfunTaylorLoop], Or.inl rfl⟩
  | succ fuel ih =>
    unfold gfunTaylorLoop
    rw [gfunTerm_eq]
    simp only [Outcome.ok_bind]
    by_cases h : |gTerm n x k| < 1e-15
    · rw [if_pos h]
      exact ⟨1, by omega, by simp, Or.inr ⟨by omega, by simpa using h⟩⟩
    · rw [if_neg h]
      obtain ⟨K, h1, h2, h3⟩ := ih (k + 1) (sum + gTerm n x k)
      refine ⟨K + 1, by omega, ?_, ?_⟩
      · rw [h2, Finset.sum_range_succ']
        congr 1
        simp only [add_zero]
        rw [add_assoc, add_comm (gTerm n x k)]
        congr 2
        refine Finset.sum_congr rfl fun i _ => ?_
        congr 1; ring
      · rcases h3 with h3 | ⟨h3, h4⟩
        · exact Or.inl (by omega)
        · refine Or.inr ⟨by omega, ?_⟩
          rw [show k + (K + 1 - 1) = k + 1 + (K - 1) by omega]
          exact h4

theorem pow_le_factorial99 : (12 : ℝ) ^ 99 ≤ 1e-15 * ((99 ! : ℕ) : ℝ) := by
  have h : 12 ^ 99 * 10 ^ 15 ≤ 99 ! := by norm_num
  have h' : ((12 ^ 99 * 10 ^ 15 : ℕ) : ℝ) ≤ ((99 ! : ℕ) : ℝ) := by exact_mod_cast h
  rw [Nat.cast_mul, Nat.cast_pow, Nat.cast_pow] at h'
  generalize ((99 ! : ℕ) : ℝ) = F at h'
  norm_num at h' ⊢
  linarith

theorem factorial_le_half_pow (k : ℕ) (hk : k ≤ 22) : k ! * 2 ^ k ≤ (k + 1) ^ k := by
  interval_cases k <;> norm_num [Nat.factorial]

/-- Accuracy of `gfun_taylor` in exact arithmetic. -/
theorem gfunTaylor_close (n : ℕ) (hn : n ≤ 1000) {x : ℝ} (hx : 0 ≤ x) (h12 : x ≤ 12) :
    ∃ v, gfunTaylor n x = .ok v ∧ 0 ≤ gF n x - v ∧ gF n x - v ≤ 1e-15 := by
  obtain ⟨K, h1, h2, h3⟩ := gfunTaylorLoop_eq n x 100 0 0
  have tpos : ∀ k, 0 ≤ gTerm n x k := fun k => by unfold gTerm; positivity
  -- the last term is small and the ratio of later terms is at most one half
  have key : ∃ k, K = k + 1 ∧ gTerm n x k ≤ 1e-15 ∧ 2 * x ≤ k + 1 := by
    rcases h3 with rfl | ⟨hp, h4⟩
    · refine ⟨99, rfl, ?_, by norm_num; linarith⟩
      have hF := pow_le_factorial99
      generalize hm : (99 : ℕ) = N at hF
      have hF' : (12 : ℝ) ^ N ≤ 1e-15 * ((N ! : ℕ) : ℝ) := hF
      unfold gTerm
      have e1 : Real.exp (-x) ≤ 1 := Real.exp_le_one_iff.2 (by linarith)
      have e2 : x ^ N ≤ 12 ^ N := pow_le_pow_left₀ hx h12 N
      have hf : (0 : ℝ) < ((N ! : ℕ) : ℝ) := by exact_mod_cast Nat.factorial_pos N
      have h0 : (1 : ℝ) ≤ 2 * (n : ℝ) + 2 * (N : ℝ) + 1 := by
        have : (0 : ℝ) ≤ n := Nat.cast_nonneg n
        have : (0 : ℝ) ≤ N := Nat.cast_nonneg N
        linarith
      have e3 : Real.exp (-x) * x ^ N / ((N ! : ℕ) : ℝ) ≤ 1e-15 := by
        rw [div_le_iff₀ hf]
        calc Real.exp (-x) * x ^ N ≤ 1 * 12 ^ N := mul_le_mul e1 e2 (by positivity) zero_le_one
          _ ≤ 1e-15 * ((N ! : ℕ) : ℝ) := by rw [one_mul]; exact hF'
      exact (div_le_self (by positivity) h0).trans e3
    · obtain ⟨k, rfl⟩ : ∃ k, K = k + 1 := ⟨K - 1, by omega⟩
      simp only [Nat.zero_add, Nat.add_sub_cancel] at h4
      rw [abs_of_nonneg (tpos k)] at h4
      refine ⟨k, rfl, h4.le, ?_⟩
      by_contra hc
      rw [not_le] at hc
      have hk : k ≤ 22 := by
        have : (k : ℝ) + 1 < 24 := by linarith
        have : k + 1 < 24 := by exact_mod_cast this
        omega
      -- then the term cannot be small
      have hf : (0 : ℝ) < (k ! : ℝ) := by exact_mod_cast Nat.factorial_pos k
      have hpow : (k ! : ℝ) ≤ x ^ k := by
        have h5 : ((k ! * 2 ^ k : ℕ) : ℝ) ≤ (((k + 1) ^ k : ℕ) : ℝ) := by exact_mod_cast factorial_le_half_pow k hk
        push_cast at h5
        have h6 : ((k : ℝ) + 1) ^ k ≤ (2 * x) ^ k := pow_le_pow_left₀ (by positivity) hc.le k
        rw [mul_pow] at h6
        have h7 : (0 : ℝ) < 2 ^ k := by positivity
        nlinarith
      have hexp : (1e-6 : ℝ) ≤ Real.exp (-x) := by
        have h8 : Real.exp (-12) ≤ Real.exp (-x) := Real.exp_le_exp.2 (by linarith)
        have h9 : Real.exp 12 ≤ 1000000 := by
          have := Real.exp_one_lt_d9
          calc Real.exp 12 = Real.exp 1 ^ 12 := by rw [← Real.exp_nat_mul]; norm_num
            _ ≤ 2.7182818286 ^ 12 := pow_le_pow_left₀ (Real.exp_pos 1).le this.le 12
            _ ≤ 1000000 := by norm_num
        refine le_trans ?_ h8
        rw [Real.exp_neg]
        rw [le_inv_comm₀ (by norm_num) (Real.exp_pos _)]
        refine h9.trans (by norm_num)
      have hden : 2 * (n : ℝ) + 2 * (k : ℝ) + 1 ≤ 2045 := by
        have : (n : ℝ) ≤ 1000 := by exact_mod_cast hn
        have : (k : ℝ) ≤ 22 := by exact_mod_cast hk
        linarith
      have hdenp : 0 < 2 * (n : ℝ) + 2 * (k : ℝ) + 1 := by positivity
      unfold gTerm at h4
      rw [div_div, div_lt_iff₀ (by positivity)] at h4
      have : (1e-6 : ℝ) * k ! ≤ Real.exp (-x) * x ^ k := mul_le_mul hexp hpow hf.le (Real.exp_pos _).le
      have h10 : (1e-15 : ℝ) * (k ! * (2 * (n : ℝ) + 2 * (k : ℝ) + 1)) ≤ 1e-15 * (k ! * 2045) := by
        gcongr
      have : (1e-6 : ℝ) * k ! < 1e-15 * (k ! * 2045) := by linarith
      have h11 : (1e-6 : ℝ) * k ! < (1e-15 * 2045) * k ! := by linarith
      have := lt_of_mul_lt_mul_right h11 hf.le
      norm_num at this
  obtain ⟨k, rfl, h4, h5⟩ := key
  obtain ⟨t1, t2⟩ := gF_tail n k hx h5
  refine ⟨∑ i ∈ Finset.range (k + 1), gTerm n x i, ?_, t1, t2.trans h4⟩
  unfold gfunTaylor
  rw [h2]
  simp

/-- Values produced by the downward recursion, counted from the top. -/
noncomputable def gDown (x v : ℝ) (nmax : ℕ) : ℕ → ℝ
  | 0 => v
  | j + 1 => (1 - 2 * x * gDown x v nmax j) / (2 * ((nmax - j : ℕ) : ℝ) - 1)

/-- Values produced by the upward recursion. -/
noncomputable def gUp (x v : ℝ) : ℕ → ℝ
  | 0 => v
  | n + 1 => (1 - (2 * (n : ℝ) + 1) * gUp x v n) / (2 * x)

theorem gfunValues_down (dawson : ℝ → ℝ) {x v : ℝ} {nmax : Nat} (hx : x ≤ 12) (hn : nmax < 100)
    (hv : gfunTaylor nmax x = .ok v) :
    ∃ g, gfunValues dawson x nmax = .ok g ∧ ∀ n ≤ nmax, g n = some (gDown x v nmax (nmax - n)) := by
  obtain ⟨b0, hb0, -⟩ := auxZero_ok hn
  unfold gfunValues
  rw [hb0]
  simp only [Outcome.ok_bind]
  rw [if_pos hx, hv]
  simp only [Outcome.ok_bind]
  rw [auxSet_ok _ hn]
  simp only [Outcome.ok_bind]
  refine forRange_spec (fun k g => ∀ n, nmax - k ≤ n → n ≤ nmax → g n = some (gDown x v nmax (nmax - n))) ?_ ?_ ?_
  · intro n h1 h2
    have : n = nmax := by omega
    subst this
    simp [gDown]
  · intro k g hk hg
    rw [auxGet_ok (by omega) (hg (nmax - k) le_rfl (by omega))]
    simp only [Outcome.ok_bind]
    rw [auxSet_ok _ (by omega)]
    refine ⟨_, rfl, ?_⟩
    intro n h1 h2
    by_cases e : n = nmax - k - 1
    · subst e
      rw [if_pos rfl, show nmax - (nmax - k) = k by omega, show nmax - (nmax - k - 1) = k + 1 by omega, gDown]
    · rw [if_neg e]; exact hg n (by omega) h2
  · intro g hg n h
    exact hg n (by omega) h

theorem gfunValues_up (dawson : ℝ → ℝ) {x : ℝ} {nmax : Nat} (hx : 12 < x) (hn : nmax < 100) :
    ∃ g, gfunValues dawson x nmax = .ok g ∧ ∀ n ≤ nmax, g n = some (gUp x (dawson (Real.sqrt x) / Real.sqrt x) n) := by
  obtain ⟨b0, hb0, -⟩ := auxZero_ok hn
  unfold gfunValues
  rw [hb0]
  simp only [Outcome.ok_bind]
  rw [if_neg (by linarith)]
  rw [auxSet_ok _ (by omega)]
  simp only [Outcome.ok_bind]
  refine forRange_spec (fun k g => ∀ n ≤ k, g n = some (gUp x (dawson (Real.sqrt x) / Real.sqrt x) n)) ?_ ?_ ?_
  · intro n h1
    have : n = 0 := by omega
    subst this
    simp [gUp]
  · intro k g hk hg
    rw [auxGet_ok (by omega) (hg k le_rfl)]
    simp only [Outcome.ok_bind]
    rw [auxSet_ok _ (by omega)]
    refine ⟨_, rfl, ?_⟩
    intro n h1
    by_cases e : n = k + 1
    · subst e
      rw [if_pos rfl, gUp]
    · rw [if_neg e]; exact hg n (by omega)
  · intro g hg n h
    exact hg n h

theorem gDown_rec (x v : ℝ) {nmax n : ℕ} (h : n < nmax) :
    (2 * (n : ℝ) + 1) * gDown x v nmax (nmax - n) + 2 * x * gDown x v nmax (nmax - (n + 1)) = 1 := by
  obtain ⟨j, rfl⟩ : ∃ j, nmax = n + 1 + j := ⟨nmax - (n + 1), by omega⟩
  rw [show n + 1 + j - n = j + 1 by omega, show n + 1 + j - (n + 1) = j by omega, gDown,
    show n + 1 + j - j = n + 1 by omega]
  push_cast
  have : 2 * ((n : ℝ) + 1) - 1 ≠ 0 := by
    have : (0 : ℝ) ≤ n := Nat.cast_nonneg n
    linarith
  field_simp
  ring

theorem gUp_rec {x : ℝ} (hx : x ≠ 0) (v : ℝ) (n : ℕ) : (2 * (n : ℝ) + 1) * gUp x v n + 2 * x * gUp x v (n + 1) = 1 := by
  rw [gUp]; field_simp; ring

/-- Any solution of the relation is determined by its first value. -/
theorem gRec_unique {x : ℝ} (hx : x ≠ 0) {f : ℕ → ℝ} {nmax : ℕ} (h0 : f 0 = gF 0 x)
    (hf : ∀ n < nmax, (2 * (n : ℝ) + 1) * f n + 2 * x * f (n + 1) = 1) : ∀ n ≤ nmax, f n = gF n x := by
  intro n
  induction n with
  | zero => intro _; exact h0
  | succ n ih =>
    intro hn
    have h1 := hf n (by omega)
    have h2 := gF_rec n x
    rw [ih (by omega)] at h1
    have : 2 * x * f (n + 1) = 2 * x * gF (n + 1) x := by linarith
    exact mul_left_cancel₀ (by simpa using hx) this

/-- Error of any solution of the relation, in terms of the error at the top. -/
theorem gRec_error {x : ℝ} (hx : 0 ≤ x) {f : ℕ → ℝ} {nmax : ℕ}
    (hf : ∀ n < nmax, (2 * (n : ℝ) + 1) * f n + 2 * x * f (n + 1) = 1) (d : ℕ) (hd : d ≤ nmax) :
    |f (nmax - d) - gF (nmax - d) x| =
      |f nmax - gF nmax x| * ∏ j ∈ Finset.Ico (nmax - d) nmax, (2 * x / (2 * (j : ℝ) + 1)) := by
  induction d with
  | zero => simp
  | succ d ih =>
    have h1 := hf (nmax - (d + 1)) (by omega)
    have h2 := gF_rec (nmax - (d + 1)) x
    have e : nmax - (d + 1) + 1 = nmax - d := by omega
    rw [e] at h1 h2
    rw [Finset.prod_eq_prod_Ico_succ_bot (by omega), e, mul_left_comm, ← ih (by omega)]
    have hp : (0 : ℝ) < 2 * ((nmax - (d + 1) : ℕ) : ℝ) + 1 := by positivity
    have : f (nmax - (d + 1)) - gF (nmax - (d + 1)) x =
        -(2 * x / (2 * ((nmax - (d + 1) : ℕ) : ℝ) + 1)) * (f (nmax - d) - gF (nmax - d) x) := by
      rw [neg_mul, ← mul_div_right_comm, eq_comm, neg_eq_iff_eq_neg, div_eq_iff hp.ne']
      linarith
    rw [this, abs_mul, abs_neg, abs_of_nonneg (by positivity)]

end Libgrpp
