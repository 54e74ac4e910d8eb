import Verif.Lemmas.NuclearModels

/-! # The functions `-S_k`, `k = 7, 6, ..., -8`, as a chain of derivatives; Taylor's formula along the chain -/

namespace Libgrpp

open Filter Topology

/-- `e^x/(1+e^x)` -/
noncomputable def logi (x : ℝ) : ℝ := Real.exp x / (1 + Real.exp x)

theorem logi_hasDerivAt (x : ℝ) : HasDerivAt logi (logi x * (1 - logi x)) x := by
  have h := (Real.hasDerivAt_exp x).div ((Real.hasDerivAt_exp x).const_add 1) (by positivity)
  refine h.congr_deriv ?_
  unfold logi
  have : 1 + Real.exp x ≠ 0 := by positivity
  field_simp

theorem logi_bounds (x : ℝ) : 0 ≤ logi x ∧ logi x ≤ 1 := by
  unfold logi
  have := Real.exp_pos x
  constructor
  · positivity
  · rw [div_le_one (by positivity)]
    linarith

/-- Value of the polynomial with these coefficients. -/
def evalL : List ℤ → ℝ → ℝ
  | [], _ => 0
  | c :: l, y => (c : ℝ) + y * evalL l y

/-- Its derivative. -/
def evalD : List ℤ → ℝ → ℝ
  | [], _ => 0
  | _ :: l, y => evalL l y + y * evalD l y

theorem evalL_hasDerivAt (l : List ℤ) (y : ℝ) : HasDerivAt (evalL l) (evalD l y) y := by
  induction l with
  | nil => exact hasDerivAt_const y 0
  | cons c l ih =>
    have h := ((hasDerivAt_id y).mul ih).const_add (c : ℝ)
    refine h.congr_deriv ?_
    simp only [evalD, id]
    ring

/-- `-S_{-p}` as a polynomial of `e^x/(1+e^x)`. -/
def lowC : ℕ → List ℤ
  | 0 => [0, 1]
  | 1 => [0, 1, -1]
  | 2 => [0, 1, -3, 2]
  | 3 => [0, 1, -7, 12, -6]
  | 4 => [0, 1, -15, 50, -60, 24]
  | 5 => [0, 1, -31, 180, -390, 360, -120]
  | 6 => [0, 1, -63, 602, -2100, 3360, -2520, 720]
  | 7 => [0, 1, -127, 1932, -10206, 25200, -31920, 20160, -5040]
  | _ => [0, 1, -255, 6050, -46620, 166824, -317520, 332640, -181440, 40320]

/-- The chain. -/
noncomputable def qChain (j : ℕ) (x : ℝ) : ℝ :=
  if j < 7 then -(fermiT (7 - j) x - tPoly (7 - j) x) else evalL (lowC (j - 7)) (logi x)

theorem low_hasDerivAt (p : ℕ) (hp : p ≤ 7) (x : ℝ) :
    HasDerivAt (fun x => evalL (lowC p) (logi x)) (evalL (lowC (p + 1)) (logi x)) x := by
  have h := (evalL_hasDerivAt (lowC p) (logi x)).comp x (logi_hasDerivAt x)
  refine h.congr_deriv ?_
  generalize logi x = y
  interval_cases p <;> simp only [lowC, evalL, evalD] <;> push_cast <;> ring

theorem qChain_hasDerivAt (j : ℕ) (hj : j ≤ 14) (x : ℝ) : HasDerivAt (qChain j) (qChain (j + 1) x) x := by
  rcases lt_or_ge j 7 with h | h
  · have e : qChain j = fun x => -(fermiT (7 - j) x - tPoly (7 - j) x) := by
      funext x
      rw [qChain, if_pos h]
    obtain ⟨k, hk⟩ : ∃ k, 7 - j = k + 1 := ⟨6 - j, by omega⟩
    rw [e, hk]
    refine (((fermiT_hasDerivAt k x).sub (tPoly_hasDerivAt k x)).neg).congr_deriv ?_
    unfold qChain
    split_ifs with h1
    · rw [show 7 - (j + 1) = k by omega]
    · have : k = 0 := by omega
      subst this
      rw [show j + 1 - 7 = 0 by omega]
      have : 1 + Real.exp x ≠ 0 := by positivity
      simp [lowC, evalL, fermiT, tPoly, logi, tConst]
      field_simp
      ring
  · have e : qChain j = fun x => evalL (lowC (j - 7)) (logi x) := by
      funext x
      rw [qChain, if_neg (by omega)]
    rw [e, qChain, if_neg (by omega), show j + 1 - 7 = (j - 7) + 1 by omega]
    exact low_hasDerivAt (j - 7) (by omega) x

/-- Relation to `S_k`. -/
theorem qChain_fermiS {k : ℕ} (hk : 2 ≤ k) (hk7 : k ≤ 7) {x : ℝ} (hx : x ≤ 0) : qChain (7 - k) x = -fermiS k x := by
  rw [qChain, if_pos (by omega), show 7 - (7 - k) = k by omega, fermiT_nonpos hk hx]
  ring

theorem qChain_one {x : ℝ} (hx : x < 0) : qChain 6 x = -fermiS 1 x := by
  rw [qChain, if_pos (by norm_num), fermiS_one hx]
  norm_num [fermiT, tPoly, Finset.sum_range_succ, tConst]
  have e : 1 + Real.exp x = Real.exp x * (1 + Real.exp (-x)) := by
    rw [mul_add, ← Real.exp_add]
    simp
    ring
  rw [e, Real.log_mul (Real.exp_pos x).ne' (by positivity), Real.log_exp]

/-- Taylor's formula along a chain of derivatives. -/
theorem chain_taylor (n : ℕ) : ∀ (f : ℕ → ℝ → ℝ) (x B : ℝ), (∀ j < n, ∀ t, HasDerivAt (f j) (f (j + 1) t) t) →
    ∀ h, 0 ≤ h → (∀ t, x ≤ t → t ≤ x + h → |f n t| ≤ B) →
    |f 0 (x + h) - ∑ m ∈ Finset.range n, f m x * (h ^ m / (m.factorial : ℝ))| ≤ B * (h ^ n / (n.factorial : ℝ)) := by
  induction n with
  | zero =>
    intro f x B _ h hh hB
    simpa using hB (x + h) (by linarith) le_rfl
  | succ n ih =>
    intro f x B hd h hh hB
    have key : ∀ t, 0 ≤ t → t ≤ h →
        |f 1 (x + t) - ∑ m ∈ Finset.range n, f (m + 1) x * (t ^ m / (m.factorial : ℝ))| ≤ B * (t ^ n / (n.factorial : ℝ)) := by
      intro t ht hth
      exact ih (fun j => f (j + 1)) x B (fun j hj s => hd (j + 1) (by omega) s) t ht
        fun s h1 h2 => hB s h1 (by linarith)
    have hpow : ∀ (m : ℕ) (t : ℝ), HasDerivAt (fun t : ℝ => t ^ (m + 1) / ((m + 1).factorial : ℝ)) (t ^ m / (m.factorial : ℝ)) t := by
      intro m t
      refine ((hasDerivAt_pow (m + 1) t).div_const _).congr_deriv ?_
      rw [Nat.factorial_succ]
      push_cast
      have h1 : (m : ℝ) + 1 ≠ 0 := by positivity
      have h2 : (m.factorial : ℝ) ≠ 0 := by positivity
      field_simp
    have hg : ∀ t, HasDerivAt (fun t => f 0 (x + t) - ∑ m ∈ Finset.range (n + 1), f m x * (t ^ m / (m.factorial : ℝ)))
        (f 1 (x + t) - ∑ m ∈ Finset.range n, f (m + 1) x * (t ^ m / (m.factorial : ℝ))) t := by
      intro t
      have h1 : HasDerivAt (fun t => f 0 (x + t)) (f 1 (x + t)) t := by
        have h := (hd 0 (by omega) (x + t)).comp t ((hasDerivAt_id t).const_add x)
        rw [mul_one] at h
        exact h
      have h2 : HasDerivAt (fun t : ℝ => ∑ m ∈ Finset.range (n + 1), f m x * (t ^ m / (m.factorial : ℝ)))
          (∑ m ∈ Finset.range n, f (m + 1) x * (t ^ m / (m.factorial : ℝ))) t := by
        have e : (fun t : ℝ => ∑ m ∈ Finset.range (n + 1), f m x * (t ^ m / (m.factorial : ℝ))) = fun t =>
            (∑ m ∈ Finset.range n, f (m + 1) x * (t ^ (m + 1) / ((m + 1).factorial : ℝ))) + f 0 x := by
          funext t
          rw [Finset.sum_range_succ']
          simp
        rw [e]
        exact (HasDerivAt.fun_sum fun m _ => (hpow m t).const_mul _).add_const _
      exact h1.sub h2
    have hG : ∀ t, HasDerivAt (fun t : ℝ => B * (t ^ (n + 1) / ((n + 1).factorial : ℝ))) (B * (t ^ n / (n.factorial : ℝ))) t :=
      fun t => (hpow n t).const_mul B
    have hmono : ∀ (s : ℝ), (s = 1 ∨ s = -1) → 0 ≤ B * (h ^ (n + 1) / ((n + 1).factorial : ℝ)) +
        s * (f 0 (x + h) - ∑ m ∈ Finset.range (n + 1), f m x * (h ^ m / (m.factorial : ℝ))) := by
      intro s hs
      have hd' : ∀ t, HasDerivAt (fun t => B * (t ^ (n + 1) / ((n + 1).factorial : ℝ)) +
          s * (f 0 (x + t) - ∑ m ∈ Finset.range (n + 1), f m x * (t ^ m / (m.factorial : ℝ)))) _ t :=
        fun t => (hG t).add ((hg t).const_mul s)
      have hm : MonotoneOn (fun t => B * (t ^ (n + 1) / ((n + 1).factorial : ℝ)) +
          s * (f 0 (x + t) - ∑ m ∈ Finset.range (n + 1), f m x * (t ^ m / (m.factorial : ℝ)))) (Set.Icc 0 h) := by
        refine monotoneOn_of_deriv_nonneg (convex_Icc 0 h) (fun t _ => (hd' t).continuousAt.continuousWithinAt)
          (fun t _ => (hd' t).differentiableAt.differentiableWithinAt) fun t ht => ?_
        rw [interior_Icc] at ht
        rw [(hd' t).deriv]
        have := abs_le.1 (key t ht.1.le ht.2.le)
        rcases hs with rfl | rfl <;> linarith
      have h0 := hm (Set.left_mem_Icc.2 hh) (Set.right_mem_Icc.2 hh) hh
      refine le_trans (le_of_eq ?_) h0
      beta_reduce
      rw [Finset.sum_range_succ']
      simp
    rw [abs_le]
    constructor
    · have := hmono 1 (Or.inl rfl); linarith
    · have := hmono (-1) (Or.inr rfl); linarith

theorem evalL_abs (l : List ℤ) {y : ℝ} (h0 : 0 ≤ y) (h1 : y ≤ 1) : |evalL l y| ≤ (((l.map Int.natAbs).sum : ℕ) : ℝ) := by
  induction l with
  | nil => simp [evalL]
  | cons c l ih =>
    simp only [evalL, List.map_cons, List.sum_cons]
    rw [Nat.cast_add, Nat.cast_natAbs, Int.cast_abs]
    refine (abs_add_le _ _).trans ?_
    rw [abs_mul, abs_of_nonneg h0]
    have : y * |evalL l y| ≤ 1 * |evalL l y| := mul_le_mul_of_nonneg_right h1 (abs_nonneg _)
    linarith

/-- The derivatives of the highest order used are bounded. -/
theorem qChain_bound (j : ℕ) (h1 : 7 ≤ j) (h2 : j ≤ 15) (x : ℝ) : |qChain j x| ≤ 1091670 := by
  rw [qChain, if_neg (by omega)]
  refine (evalL_abs _ (logi_bounds x).1 (logi_bounds x).2).trans ?_
  have : ∀ p, p ≤ 8 → (((lowC p).map Int.natAbs).sum) ≤ 1091670 := by
    intro p hp
    interval_cases p <;> decide
  exact_mod_cast this (j - 7) (by omega)

/-- Partial sums of the alternating series. -/
theorem fermiS_partial (k : ℕ) {x : ℝ} (hx : x < 0) (N : ℕ) :
    |fermiS k x - ∑ n ∈ Finset.range N, (-1 : ℝ) ^ (n + 1) * Real.exp (((n : ℝ) + 1) * x) / ((n : ℝ) + 1) ^ k| ≤
      Real.exp (((N : ℝ) + 1) * x) := by
  have hs := sTerm_summable k hx
  have ht : Tendsto (fun N => ∑ n ∈ Finset.range N, (-1 : ℝ) ^ n * (Real.exp (((n : ℝ) + 1) * x) / ((n : ℝ) + 1) ^ k)) atTop
      (𝓝 (-fermiS k x)) := by
    have := hs.hasSum.tendsto_sum_nat.neg
    refine this.congr fun N => ?_
    rw [← Finset.sum_neg_distrib]
    refine Finset.sum_congr rfl fun n _ => ?_
    unfold sTerm
    rw [pow_succ]
    ring
  have ha := fermiS_terms_antitone k hx.le
  have e : ∑ n ∈ Finset.range N, (-1 : ℝ) ^ (n + 1) * Real.exp (((n : ℝ) + 1) * x) / ((n : ℝ) + 1) ^ k =
      -∑ n ∈ Finset.range N, (-1 : ℝ) ^ n * (Real.exp (((n : ℝ) + 1) * x) / ((n : ℝ) + 1) ^ k) := by
    rw [← Finset.sum_neg_distrib]
    refine Finset.sum_congr rfl fun n _ => ?_
    rw [pow_succ]
    ring
  rw [e]
  have hterm : Real.exp (((N : ℝ) + 1) * x) / ((N : ℝ) + 1) ^ k ≤ Real.exp (((N : ℝ) + 1) * x) := by
    refine div_le_self (Real.exp_pos _).le ?_
    exact one_le_pow₀ (by have : (0 : ℝ) ≤ N := Nat.cast_nonneg N; linarith)
  rcases Nat.even_or_odd' N with ⟨m, rfl | rfl⟩
  · have h1 := ha.alternating_series_le_tendsto ht m
    have h2 := ha.tendsto_le_alternating_series ht m
    rw [Finset.sum_range_succ, pow_mul] at h2
    norm_num at h2 hterm ⊢
    rw [abs_le]
    constructor <;> linarith
  · have h1 := ha.alternating_series_le_tendsto ht (m + 1)
    have h2 := ha.tendsto_le_alternating_series ht m
    rw [show 2 * (m + 1) = 2 * m + 1 + 1 by ring, Finset.sum_range_succ _ (2 * m + 1), pow_succ, pow_mul] at h1
    norm_num at h1 hterm ⊢
    rw [abs_le]
    constructor <;> linarith [Real.exp_pos ((2 * (m : ℝ) + 1 + 1) * x)]

end Libgrpp
