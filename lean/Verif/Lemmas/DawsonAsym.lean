import Verif.Lemmas.DawsonTable

/-! # Asymptotic expansion of the Dawson function -/

namespace Libgrpp

/-- `(2 j - 1)!! / 2^(j + 1)`. -/
def asyC : ℕ → ℚ
  | 0 => 1 / 2
  | j + 1 => asyC j * (2 * j + 1) / 2

theorem asyC_pos (j : ℕ) : 0 < asyC j := by
  induction j with
  | zero => norm_num [asyC]
  | succ j ih => unfold asyC; positivity

/-- Terms of the asymptotic expansion. -/
noncomputable def asyU (x : ℝ) (j : ℕ) : ℝ := asyC j / x ^ (2 * j + 1)

theorem asyU_pos {x : ℝ} (hx : 0 < x) (j : ℕ) : 0 < asyU x j := by
  have : (0 : ℝ) < asyC j := by exact_mod_cast asyC_pos j
  unfold asyU
  positivity

theorem asyU_succ {x : ℝ} (hx : x ≠ 0) (j : ℕ) : asyU x (j + 1) = asyU x j * ((2 * j + 1) / (2 * x ^ 2)) := by
  unfold asyU
  rw [asyC]
  push_cast
  rw [show 2 * (j + 1) + 1 = 2 * j + 1 + 2 by ring, pow_add]
  field_simp

theorem asyU_zero (x : ℝ) : asyU x 0 = 1 / (2 * x) := by
  unfold asyU asyC
  push_cast
  rw [pow_one, div_div]

theorem hasDerivAt_asyU {x : ℝ} (hx : x ≠ 0) (j : ℕ) : HasDerivAt (fun x => asyU x j) (-(2 * x * asyU x (j + 1))) x := by
  have h := (hasDerivAt_const x (asyC j : ℝ)).div (hasDerivAt_pow (2 * j + 1) x) (pow_ne_zero _ hx)
  refine h.congr_deriv ?_
  rw [asyU_succ hx]
  unfold asyU
  push_cast
  rw [pow_succ]
  field_simp
  ring

theorem asyCheck : ∀ N < 29, |∑ j ∈ Finset.range (N + 3), asyC j / (29 / 4) ^ (2 * j + 1) - ∑ k ∈ Finset.range 21, dawQ 5 k| ≤
    3 * (asyC (N + 3) / (29 / 4) ^ (2 * (N + 3) + 1)) := by decide +kernel

theorem dawHi_five : dawHi 5 = 29 / 4 := by decide +kernel

theorem asy_close {N : ℕ} (h2 : 2 ≤ N) (h30 : N ≤ 30) {x : ℝ} (hx : 29 / 4 ≤ x) :
    |∑ j ∈ Finset.range (N + 1), asyU x j - dawsonF x| ≤ 3 * asyU x (N + 1) + 12 / 10 ^ 20 / x := by
  have hd : ∀ t : ℝ, 29 / 4 ≤ t → HasDerivAt (fun t => ∑ j ∈ Finset.range (N + 1), asyU t j)
      (∑ j ∈ Finset.range (N + 1), -(2 * t * asyU t (j + 1))) t :=
    fun t ht => HasDerivAt.fun_sum fun j _ => hasDerivAt_asyU (by linarith) j
  have hg : ∀ t : ℝ, 29 / 4 ≤ t → HasDerivAt (fun t => 3 * asyU t (N + 1) + 12 / 10 ^ 20 / t)
      (3 * (-(2 * t * asyU t (N + 1 + 1))) + -(12 / 10 ^ 20 / t ^ 2)) t := by
    intro t ht
    refine ((hasDerivAt_asyU (by linarith) (N + 1)).const_mul 3).add ?_
    have h := (hasDerivAt_const t (12 / 10 ^ 20 : ℝ)).div (hasDerivAt_id t) (by simp only [id]; linarith)
    refine h.congr_deriv ?_
    simp only [id]
    ring
  refine dawson_compare hx (fun t ht => hd t ht.1) (fun t ht => hg t ht.1) (fun t ht => ?_) ?_
  · have ht0 : (0 : ℝ) < t := by have := ht.1; linarith
    have e : (∑ j ∈ Finset.range (N + 1), -(2 * t * asyU t (j + 1))) + 2 * t * (∑ j ∈ Finset.range (N + 1), asyU t j) - 1 =
        -(2 * t * asyU t (N + 1)) := by
      have : 2 * t * asyU t 0 = 1 := by rw [asyU_zero]; field_simp
      rw [Finset.sum_neg_distrib, ← Finset.mul_sum, Finset.sum_range_succ (fun j => asyU t (j + 1)), Finset.sum_range_succ' (fun j => asyU t j)]
      linear_combination this
    rw [e, abs_neg, abs_of_pos (mul_pos (by linarith) (asyU_pos ht0 _)), asyU_succ ht0.ne' (N + 1)]
    have h1 : (2 * ((N + 1 : ℕ) : ℝ) + 1) / (2 * t ^ 2) ≤ 2 / 3 := by
      rw [div_le_div_iff₀ (by positivity) (by norm_num)]
      have h3 : (N : ℝ) ≤ 30 := by exact_mod_cast h30
      have h4 : (29 / 4 : ℝ) ^ 2 ≤ t ^ 2 := pow_le_pow_left₀ (by norm_num) ht.1 2
      push_cast
      linarith
    have h2 := asyU_pos ht0 (N + 1)
    have h3 : 0 ≤ asyU t (N + 1) * (2 / 3 - (2 * ((N + 1 : ℕ) : ℝ) + 1) / (2 * t ^ 2)) := mul_nonneg h2.le (by linarith)
    have h4 : 0 ≤ t * (asyU t (N + 1) * (2 / 3 - (2 * ((N + 1 : ℕ) : ℝ) + 1) / (2 * t ^ 2))) := mul_nonneg ht0.le h3
    have h5 : 2 * t * (12 / 10 ^ 20 / t) = (24 / 10 ^ 20 : ℝ) := by field_simp; norm_num
    have h6 : (12 / 10 ^ 20 / t ^ 2 : ℝ) ≤ 12 / 10 ^ 20 := div_le_self (by positivity) (one_le_pow₀ (by have := ht.1; linarith))
    nlinarith
  · have h1 := dawP_close 5 (by norm_num) (29 / 4) (by
      have := (dawOrder 5 (by norm_num)).2.le
      rw [dawHi_five] at this
      exact ((Rat.cast_le (K := ℝ)).2 this).trans (by norm_num)) (by rw [dawHi_five]; norm_num)
    have h2' := dawP_hi (i := 5) (by norm_num)
    rw [dawHi_five] at h2'
    push_cast at h2'
    rw [h2'] at h1
    obtain ⟨M, rfl⟩ : ∃ M, N = M + 2 := ⟨N - 2, by omega⟩
    have h3 := ratCast_abs_sub_le (asyCheck M (by omega))
    have e1 : ((∑ j ∈ Finset.range (M + 3), asyC j / (29 / 4) ^ (2 * j + 1) : ℚ) : ℝ) = ∑ j ∈ Finset.range (M + 2 + 1), asyU (29 / 4) j := by
      push_cast
      rfl
    have e2 : ((3 * (asyC (M + 3) / (29 / 4) ^ (2 * (M + 3) + 1)) : ℚ) : ℝ) = 3 * asyU (29 / 4) (M + 2 + 1) := by
      push_cast
      rfl
    rw [e1, e2, Rat.cast_sum] at h3
    refine (abs_sub_le _ _ _).trans ((add_le_add h3 h1).trans ?_)
    norm_num

theorem asyU_le_succ {x : ℝ} (hx : 29 / 4 ≤ x) {j : ℕ} (hj : j ≤ 50) : asyU x (j + 1) ≤ asyU x j := by
  have h0 : (0 : ℝ) < x := by linarith
  rw [asyU_succ h0.ne']
  refine mul_le_of_le_one_right (asyU_pos h0 j).le ?_
  rw [div_le_one (by positivity)]
  have h3 : (j : ℝ) ≤ 50 := by exact_mod_cast hj
  have h4 : (29 / 4 : ℝ) ^ 2 ≤ x ^ 2 := pow_le_pow_left₀ (by norm_num) hx 2
  linarith

theorem asyC_check : 2 * asyC 31 / (29 / 4) ^ 62 ≤ 4 / 10 ^ 21 := by decide +kernel

theorem asyU_31 {x : ℝ} (hx : 29 / 4 ≤ x) : 2 * x * asyU x 31 ≤ 4 / 10 ^ 21 := by
  have h0 : (0 : ℝ) < x := by linarith
  have h := (Rat.cast_le (K := ℝ)).2 asyC_check
  push_cast at h
  refine le_trans ?_ h
  have e : 2 * x * asyU x 31 = 2 * asyC 31 / x ^ 62 := by
    unfold asyU
    rw [show 2 * 31 + 1 = 62 + 1 by norm_num, pow_succ]
    field_simp
  rw [e]
  refine div_le_div_of_nonneg_left (by have : (0 : ℝ) < asyC 31 := by exact_mod_cast asyC_pos 31
                                       positivity) (by positivity) (pow_le_pow_left₀ (by norm_num) hx 62)

/-- The error of the expansion cut after term `N`. -/
theorem asy_error {N : ℕ} (h2 : 2 ≤ N) (h50 : N ≤ 50) {x δ : ℝ} (hx : 29 / 4 ≤ x) (hN : N = 50 ∨ 2 * x * asyU x N ≤ δ) (hδ : 0 ≤ δ) :
    |∑ j ∈ Finset.range (N + 1), asyU x j - dawsonF x| ≤ (19 / 10 * δ + 35 / 10 ^ 20) * (1 / (2 * x)) := by
  have h0 : (0 : ℝ) < x := by linarith
  have e : (19 / 10 * δ + 35 / 10 ^ 20) * (1 / (2 * x)) = (19 / 10 * δ) * (1 / (2 * x)) + 175 / 10 ^ 21 / x := by field_simp; ring
  have eG : (12 / 10 ^ 20 / x : ℝ) = 120 / 10 ^ 21 / x := by norm_num
  by_cases h30 : N ≤ 30
  · have h := asy_close h2 h30 hx
    have hN' := hN.resolve_left (by omega)
    refine h.trans ?_
    rw [e]
    have h1 : (2 * (N : ℝ) + 1) / (2 * x ^ 2) ≤ 6 / 10 := by
      rw [div_le_div_iff₀ (by positivity) (by norm_num)]
      have h3 : (N : ℝ) ≤ 30 := by exact_mod_cast h30
      have h4 : (29 / 4 : ℝ) ^ 2 ≤ x ^ 2 := pow_le_pow_left₀ (by norm_num) hx 2
      linarith
    have h3 : asyU x N ≤ δ * (1 / (2 * x)) := by
      rw [mul_one_div, le_div_iff₀ (by positivity)]
      linarith
    have h4 : asyU x (N + 1) ≤ δ * (1 / (2 * x)) * (6 / 10) := by
      rw [asyU_succ h0.ne']
      exact mul_le_mul h3 h1 (by positivity) (by positivity)
    have h5 : (120 / 10 ^ 21 / x : ℝ) ≤ 175 / 10 ^ 21 / x := div_le_div_of_nonneg_right (by norm_num) h0.le
    have h6 : 0 ≤ δ * (1 / (2 * x)) := by positivity
    rw [eG]
    linarith
  · have h := asy_close (N := 30) (by norm_num) le_rfl hx
    have hu := asyU_31 hx
    have hs : ∀ M, 30 ≤ M → M ≤ 50 → |∑ j ∈ Finset.range (M + 1), asyU x j - ∑ j ∈ Finset.range (30 + 1), asyU x j| ≤ (M - 30) * asyU x 31 ∧
        asyU x (M + 1) ≤ asyU x 31 := by
      intro M hM
      induction M, hM using Nat.le_induction with
      | base => intro _; simp
      | succ M hM ih =>
        intro hM'
        obtain ⟨i1, i2⟩ := ih (by omega)
        refine ⟨?_, (asyU_le_succ hx (by omega)).trans i2⟩
        rw [Finset.sum_range_succ, add_sub_right_comm]
        refine (abs_add_le _ _).trans ?_
        rw [abs_of_pos (asyU_pos h0 (M + 1))]
        push_cast
        linarith
    obtain ⟨i1, -⟩ := hs N (by omega) h50
    have h5 : ((N : ℝ) - 30) * asyU x 31 ≤ 20 * asyU x 31 := by
      refine mul_le_mul_of_nonneg_right ?_ (asyU_pos h0 31).le
      have : (N : ℝ) ≤ 50 := by exact_mod_cast h50
      linarith
    refine (abs_sub_le _ _ _).trans ((add_le_add i1 h).trans ?_)
    rw [e]
    have h6 : asyU x 31 ≤ 2 / 10 ^ 21 / x := by
      rw [le_div_iff₀ h0]
      linarith
    have h7 : 0 ≤ 19 / 10 * δ * (1 / (2 * x)) := by positivity
    have h8 : (23 * (2 / 10 ^ 21 / x) + 120 / 10 ^ 21 / x : ℝ) ≤ 175 / 10 ^ 21 / x := by
      rw [← mul_div_assoc, ← add_div]
      exact div_le_div_of_nonneg_right (by norm_num) h0.le
    rw [eG]
    linarith

end Libgrpp
