import Verif.Lemmas.DawsonCheb

/-! # The six Chebyshev expansions of `specfunc_dawson.c` -/

namespace Libgrpp

/-- The coefficient of `T_k` in the `i`-th expansion. -/
def dawQ (i k : ℕ) : ℚ := ((dawRows.getD i []).getD k 0 : ℚ) / 10 ^ 45
def dawLo (i : ℕ) : ℚ := (dawIntervals.getD i (0, 0)).1
def dawHi (i : ℕ) : ℚ := (dawIntervals.getD i (0, 0)).2
def dawMid (i : ℕ) : ℚ := (dawHi i + dawLo i) / 2
def dawHalf (i : ℕ) : ℚ := (dawHi i - dawLo i) / 2

/-- Coefficients of the derivative with respect to the variable of the expansion. -/
def dawD (i k : ℕ) : ℚ := ∑ j ∈ Finset.range 11, 2 * ((k : ℚ) + 2 * j + 1) * dawQ i (k + 2 * j + 1)

/-- Coefficients of `h` times the residual in the differential equation. -/
def dawRes (i k : ℕ) : ℚ := dawD i k + 2 * dawMid i * dawHalf i * dawQ i k + 2 * dawHalf i ^ 2 * chebMulX (dawQ i) k -
  if k = 0 then dawD i 0 / 2 + dawHalf i else 0

theorem dawRows_shape : dawRows.length = 6 ∧ ∀ r ∈ dawRows, r.length = 21 := by decide +kernel

theorem dawQ_beyond (i : ℕ) {k : ℕ} (hk : 21 ≤ k) : dawQ i k = 0 := by
  have h : (dawRows.getD i []).length ≤ 21 := by
    by_cases hi : i < dawRows.length
    · have := dawRows_shape.2 (dawRows[i]) (List.getElem_mem hi)
      rw [List.getD_eq_getElem?_getD, List.getElem?_eq_getElem hi]
      exact this.le
    · rw [List.getD_eq_getElem?_getD, List.getElem?_eq_none (by omega)]
      simp
  unfold dawQ
  rw [List.getD_eq_getElem?_getD (l := dawRows.getD i []), List.getElem?_eq_none (by omega)]
  simp

theorem dawRes_small : ∀ i < 6, ∑ k ∈ Finset.range 22, |dawRes i k| ≤ dawHalf i * (2 * dawLo i * (16 / 10 ^ 21)) := by decide +kernel

theorem dawJoin : ∀ i < 5, |∑ k ∈ Finset.range 21, dawQ i k - ∑ k ∈ Finset.range 21, dawQ (i + 1) k * (-1) ^ k| ≤ 1 / 10 ^ 22 := by decide +kernel

theorem dawOrder : ∀ i < 6, 1 ≤ dawLo i ∧ dawLo i < dawHi i := by decide +kernel

theorem dawNext : ∀ i < 5, dawHi i = dawLo (i + 1) := by decide +kernel

/-- `(2 j + 1)!!`. -/
def oddFacQ : ℕ → ℚ
  | 0 => 1
  | j + 1 => oddFacQ j * (2 * j + 3)

theorem dawStart : |∑ k ∈ Finset.range 21, dawQ 0 k * (-1) ^ k - ∑ j ∈ Finset.range 30, (-2) ^ j / oddFacQ j| ≤ 5 / 10 ^ 23 ∧
    |(-2) ^ 30 / oddFacQ 30| ≤ 1 / 10 ^ 23 := by decide +kernel

theorem dawD_step (i k : ℕ) : dawD i k = dawD i (k + 2) + 2 * (k + 1) * dawQ i (k + 1) := by
  unfold dawD
  have e : ∀ j : ℕ, 2 * (((k + 2 : ℕ) : ℚ) + 2 * j + 1) * dawQ i (k + 2 + 2 * j + 1) =
      2 * ((k : ℚ) + 2 * ((j + 1 : ℕ) : ℚ) + 1) * dawQ i (k + 2 * (j + 1) + 1) := by
    intro j
    rw [show k + 2 + 2 * j + 1 = k + 2 * (j + 1) + 1 by ring]
    push_cast
    ring
  simp only [e]
  rw [Finset.sum_range_succ', Finset.sum_range_succ (fun j => 2 * ((k : ℚ) + 2 * ((j + 1 : ℕ) : ℚ) + 1) * dawQ i (k + 2 * (j + 1) + 1)) 10,
    dawQ_beyond i (show 21 ≤ k + 2 * (10 + 1) + 1 by omega)]
  simp

theorem dawD_beyond (i : ℕ) {k : ℕ} (hk : 20 ≤ k) : dawD i k = 0 := by
  unfold dawD
  exact Finset.sum_eq_zero fun j _ => by rw [dawQ_beyond i (by omega), mul_zero]

/-- The `i`-th expansion as a function of `|x|`. -/
noncomputable def dawP (i : ℕ) (x : ℝ) : ℝ := ∑ k ∈ Finset.range 21, (dawQ i k : ℝ) * chebT k ((x - dawMid i) / dawHalf i)

theorem dawHalf_pos {i : ℕ} (hi : i < 6) : 0 < dawHalf i := by
  have := (dawOrder i hi).2
  unfold dawHalf
  linarith

theorem chebT_neg_one (k : ℕ) : chebT k (-1) = (-1) ^ k := by
  unfold chebT
  rw [Polynomial.Chebyshev.T_eval_neg_one]
  simp [Int.negOnePow_def]

theorem dawP_lo {i : ℕ} (hi : i < 6) : dawP i (dawLo i) = ((∑ k ∈ Finset.range 21, dawQ i k * (-1) ^ k : ℚ) : ℝ) := by
  have h : ((dawLo i : ℝ) - dawMid i) / dawHalf i = -1 := by
    have h1 := dawHalf_pos hi
    rw [div_eq_iff (by exact_mod_cast h1.ne')]
    unfold dawMid dawHalf
    push_cast
    ring
  unfold dawP
  simp only [h, chebT_neg_one]
  push_cast
  rfl

theorem dawP_hi {i : ℕ} (hi : i < 6) : dawP i (dawHi i) = ((∑ k ∈ Finset.range 21, dawQ i k : ℚ) : ℝ) := by
  have h : ((dawHi i : ℝ) - dawMid i) / dawHalf i = 1 := by
    have h1 := dawHalf_pos hi
    rw [div_eq_iff (by exact_mod_cast h1.ne')]
    unfold dawMid dawHalf
    push_cast
    ring
  unfold dawP
  simp only [h, chebT, Polynomial.Chebyshev.T_eval_one]
  push_cast
  simp

/-- The derivative of the expansion. -/
noncomputable def dawP' (i : ℕ) (x : ℝ) : ℝ :=
  (∑ k ∈ Finset.range 21, (dawQ i k : ℝ) * (k * chebU ((k : ℤ) - 1) ((x - dawMid i) / dawHalf i))) / dawHalf i

theorem hasDerivAt_dawP (i : ℕ) (x : ℝ) : HasDerivAt (dawP i) (dawP' i x) x := by
  have h1 : HasDerivAt (fun x : ℝ => (x - dawMid i) / dawHalf i) (1 / dawHalf i) x := ((hasDerivAt_id x).sub_const _).div_const _
  have h2 : ∀ k : ℕ, HasDerivAt (fun x : ℝ => (dawQ i k : ℝ) * chebT k ((x - dawMid i) / dawHalf i))
      ((dawQ i k : ℝ) * (k * chebU ((k : ℤ) - 1) ((x - dawMid i) / dawHalf i) * (1 / dawHalf i))) x :=
    fun k => ((hasDerivAt_chebT k _).comp x h1).const_mul _
  refine (HasDerivAt.fun_sum fun k _ => h2 k).congr_deriv ?_
  unfold dawP'
  rw [Finset.sum_div]
  exact Finset.sum_congr rfl fun k _ => by ring

theorem dawP_residual {i : ℕ} (hi : i < 6) (x : ℝ) : dawHalf i * (dawP' i x + 2 * x * dawP i x - 1) =
    ∑ k ∈ Finset.range 22, (dawRes i k : ℝ) * chebT k ((x - dawMid i) / dawHalf i) := by
  have hp : (dawHalf i : ℝ) ≠ 0 := by exact_mod_cast (dawHalf_pos hi).ne'
  set s := (x - dawMid i) / dawHalf i with hs
  have hx : x = dawMid i + dawHalf i * s := by rw [hs]; field_simp; ring
  have h22 : dawP i x = ∑ k ∈ Finset.range 22, (dawQ i k : ℝ) * chebT k s := by
    rw [Finset.sum_range_succ, dawQ_beyond i le_rfl]
    simp [dawP, hs]
  have h1 : dawHalf i * dawP' i x = ∑ k ∈ Finset.range 22, (dawD i k : ℝ) * chebT k s - dawD i 0 / 2 := by
    have h := cheb_deriv (fun k => (dawQ i k : ℝ)) (fun k => (dawD i k : ℝ)) (fun k => by exact_mod_cast dawD_step i k) 22 s
    beta_reduce at h
    rw [dawD_beyond i (show 20 ≤ 22 by norm_num), dawD_beyond i (show 20 ≤ 22 + 1 by norm_num), Finset.sum_range_succ, Finset.sum_range_succ,
      dawQ_beyond i (show 21 ≤ 22 by norm_num), dawQ_beyond i (show 21 ≤ 21 by norm_num)] at h
    have e : ∑ k ∈ Finset.range 22, (dawD i k : ℝ) * (2 * chebT k s) = 2 * ∑ k ∈ Finset.range 22, (dawD i k : ℝ) * chebT k s := by
      rw [Finset.mul_sum]
      exact Finset.sum_congr rfl fun k _ => by ring
    rw [e] at h
    unfold dawP'
    rw [mul_div_cancel₀ _ hp, ← hs]
    push_cast at h
    linarith
  have h2 : s * dawP i x = ∑ k ∈ Finset.range 22, ((chebMulX (dawQ i) k : ℚ) : ℝ) * chebT k s := by
    have h := cheb_mulX (fun k => (dawQ i k : ℝ)) 20 s
    beta_reduce at h
    rw [dawQ_beyond i (show 21 ≤ 20 + 1 by norm_num), dawQ_beyond i (show 21 ≤ 20 + 2 by norm_num), ← h22] at h
    rw [h]
    have e : ∀ k, chebMulX (fun k => (dawQ i k : ℝ)) k = ((chebMulX (dawQ i) k : ℚ) : ℝ) := by
      intro k
      match k with
      | 0 => simp [chebMulX]
      | 1 => simp [chebMulX]
      | k + 2 => simp [chebMulX]
    simp only [e]
    simp
  have h3 : ∑ k ∈ Finset.range 22, (dawRes i k : ℝ) * chebT k s = ∑ k ∈ Finset.range 22, (dawD i k : ℝ) * chebT k s +
      2 * dawMid i * dawHalf i * ∑ k ∈ Finset.range 22, (dawQ i k : ℝ) * chebT k s +
      2 * dawHalf i ^ 2 * ∑ k ∈ Finset.range 22, ((chebMulX (dawQ i) k : ℚ) : ℝ) * chebT k s - (dawD i 0 / 2 + dawHalf i) := by
    have e : (dawD i 0 / 2 + dawHalf i : ℝ) = ∑ k ∈ Finset.range 22, (if k = 0 then (dawD i 0 / 2 + dawHalf i : ℝ) else 0) * chebT k s := by
      rw [Finset.sum_eq_single 0 (fun k _ hk => by rw [if_neg hk, zero_mul]) (by simp)]
      simp [chebT]
    rw [e, Finset.mul_sum, Finset.mul_sum, ← Finset.sum_add_distrib, ← Finset.sum_add_distrib, ← Finset.sum_sub_distrib]
    refine Finset.sum_congr rfl fun k _ => ?_
    unfold dawRes
    split_ifs <;> push_cast <;> ring
  rw [h3, ← h22, ← h2]
  clear_value s
  linear_combination h1 + 2 * dawHalf i * dawP i x * hx

theorem ratCast_abs_sub_le {a b e : ℚ} (h : |a - b| ≤ e) : |(a : ℝ) - (b : ℝ)| ≤ (e : ℝ) := by
  have := (Rat.cast_le (K := ℝ)).2 h
  rwa [Rat.cast_abs, Rat.cast_sub] at this

theorem dawP_close : ∀ i, i < 6 → ∀ x : ℝ, dawLo i ≤ x → x ≤ dawHi i → |dawP i x - dawsonF x| ≤ 16 / 10 ^ 21 + i / 10 ^ 22 := by
  have step : ∀ i, i < 6 → ∀ G : ℝ, 16 / 10 ^ 21 ≤ G → |dawP i (dawLo i) - dawsonF (dawLo i)| ≤ G →
      ∀ x : ℝ, dawLo i ≤ x → x ≤ dawHi i → |dawP i x - dawsonF x| ≤ G := by
    intro i hi G hG h0 x hx1 hx2
    refine dawson_compare (g := fun _ => G) (g' := fun _ => 0) hx1 (fun t _ => hasDerivAt_dawP i t) (fun t _ => hasDerivAt_const t G)
      (fun t ht => ?_) h0
    have hp : (0 : ℝ) < dawHalf i := by exact_mod_cast dawHalf_pos hi
    have hlo : (1 : ℝ) ≤ dawLo i := by exact_mod_cast (dawOrder i hi).1
    have hs : |(t - dawMid i) / dawHalf i| ≤ 1 := by
      rw [abs_div, abs_of_pos hp, div_le_one hp, abs_le]
      have h1 := ht.1
      have h2 := ht.2.trans hx2
      unfold dawHalf dawMid
      push_cast
      constructor <;> linarith
    have h1 : |dawHalf i * (dawP' i t + 2 * t * dawP i t - 1)| ≤ dawHalf i * (2 * dawLo i * (16 / 10 ^ 21)) := by
      rw [dawP_residual hi]
      refine (Finset.abs_sum_le_sum_abs _ _).trans ?_
      have h2 : ((∑ k ∈ Finset.range 22, |dawRes i k| : ℚ) : ℝ) ≤ ((dawHalf i * (2 * dawLo i * (16 / 10 ^ 21)) : ℚ) : ℝ) := by
        exact_mod_cast dawRes_small i hi
      push_cast at h2
      refine le_trans (Finset.sum_le_sum fun k _ => ?_) h2
      rw [abs_mul]
      exact mul_le_of_le_one_right (abs_nonneg _) (abs_chebT_le k hs)
    rw [abs_mul, abs_of_pos hp] at h1
    have h2 := le_of_mul_le_mul_left h1 hp
    refine h2.trans ?_
    have h3 : (dawLo i : ℝ) ≤ t := ht.1
    have h4 : (dawLo i : ℝ) * (16 / 10 ^ 21) ≤ t * G := mul_le_mul h3 hG (by positivity) (by linarith)
    linarith
  intro i
  induction i with
  | zero =>
    intro hi x h1 h2
    refine (step 0 hi (16 / 10 ^ 21) le_rfl ?_ x h1 h2).trans (by norm_num)
    rw [dawP_lo hi]
    have e1 : ((dawLo 0 : ℚ) : ℝ) = 1 := by
      have : dawLo 0 = 1 := by decide +kernel
      rw [this]; norm_num
    have hq : ∀ j, ((oddFacQ j : ℚ) : ℝ) = oddFac j := by
      intro j
      induction j with
      | zero => simp [oddFacQ, oddFac]
      | succ j ih =>
        simp only [oddFacQ, oddFac]
        push_cast
        rw [ih]
    have h3 := dawson_power (x := 1) (by norm_num) 30
    obtain ⟨s1, s2⟩ := dawStart
    have ht : ∀ j, dawTerm 1 j = (((-2) ^ j / oddFacQ j : ℚ) : ℝ) := by
      intro j
      unfold dawTerm
      push_cast
      rw [hq]
      norm_num
    simp only [ht, one_mul] at h3
    rw [e1]
    have s1' : |((∑ k ∈ Finset.range 21, dawQ 0 k * (-1) ^ k : ℚ) : ℝ) - ((∑ j ∈ Finset.range 30, (-2) ^ j / oddFacQ j : ℚ) : ℝ)| ≤ 5 / 10 ^ 23 :=
      (ratCast_abs_sub_le s1).trans (by norm_num)
    have s2' : |(((-2) ^ 30 / oddFacQ 30 : ℚ) : ℝ)| ≤ 1 / 10 ^ 23 := by
      have := (Rat.cast_le (K := ℝ)).2 s2
      rw [Rat.cast_abs] at this
      exact this.trans (by norm_num)
    have h4 : |((∑ j ∈ Finset.range 30, (-2) ^ j / oddFacQ j : ℚ) : ℝ) - dawsonF 1| ≤ 1 / 10 ^ 23 := by
      rw [Rat.cast_sum]
      exact h3.trans s2'
    have := abs_sub_le ((∑ k ∈ Finset.range 21, dawQ 0 k * (-1) ^ k : ℚ) : ℝ) ((∑ j ∈ Finset.range 30, (-2) ^ j / oddFacQ j : ℚ) : ℝ) (dawsonF 1)
    refine (this.trans (add_le_add s1' h4)).trans (by norm_num)
  | succ i ih =>
    intro hi x h1 h2
    refine step (i + 1) hi _ (by have : (0 : ℝ) ≤ ((i + 1 : ℕ) : ℝ) / 10 ^ 22 := by positivity
                                 linarith) ?_ x h1 h2
    have hi' : i < 6 := by omega
    have h3 := ih hi' (dawHi i) (by exact_mod_cast (dawOrder i hi').2.le) le_rfl
    rw [dawNext i (by omega)] at h3
    have h4 : dawP i (dawLo (i + 1)) = ((∑ k ∈ Finset.range 21, dawQ i k : ℚ) : ℝ) := by rw [← dawNext i (by omega)]; exact dawP_hi hi'
    have h5 : |((∑ k ∈ Finset.range 21, dawQ i k : ℚ) : ℝ) - ((∑ k ∈ Finset.range 21, dawQ (i + 1) k * (-1) ^ k : ℚ) : ℝ)| ≤ 1 / 10 ^ 22 :=
      (ratCast_abs_sub_le (dawJoin i (by omega))).trans (by norm_num)
    rw [h4] at h3
    rw [dawP_lo hi]
    rw [abs_sub_comm] at h5
    refine ((abs_sub_le _ _ _).trans (add_le_add h5 h3)).trans (le_of_eq ?_)
    push_cast
    ring

end Libgrpp
