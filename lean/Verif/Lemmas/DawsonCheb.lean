import Verif.Model.Dawson
import Verif.Lemmas.DawsonOde

/-! # Chebyshev series: evaluation, derivative, and the residual in the equation of the Dawson function -/

namespace Libgrpp

open Polynomial

/-- `T_k(s)`. -/
noncomputable def chebT (k : ℤ) (s : ℝ) : ℝ := (Chebyshev.T ℝ k).eval s
/-- `U_k(s)`. -/
noncomputable def chebU (k : ℤ) (s : ℝ) : ℝ := (Chebyshev.U ℝ k).eval s

theorem chebT_next (k : ℤ) (s : ℝ) : chebT (k + 1) s = 2 * s * chebT k s - chebT (k - 1) s := by
  unfold chebT
  rw [Chebyshev.T_add_one]
  simp

theorem chebU_step (k : ℤ) (s : ℝ) : chebU k s = 2 * chebT k s + chebU (k - 2) s := by
  unfold chebT chebU
  have := Chebyshev.U_eq_two_mul_T_add_U ℝ (k - 2)
  rw [sub_add_cancel] at this
  conv_lhs => rw [this]
  simp

theorem hasDerivAt_chebT (k : ℕ) (s : ℝ) : HasDerivAt (chebT k) (k * chebU (k - 1) s) s := by
  have h := (Chebyshev.T ℝ k).hasDerivAt s
  rw [Chebyshev.T_derivative_eq_U] at h
  unfold chebU chebT
  simpa using h

theorem abs_chebT_le (k : ℤ) {s : ℝ} (hs : |s| ≤ 1) : |chebT k s| ≤ 1 := Chebyshev.abs_eval_T_real_le_one k hs

theorem chebSeries_eq (x : ℝ) (a : List ℝ) (d : ℕ) (hd : d < a.length) :
    chebSeries x a d = .ok (∑ k ∈ Finset.range (d + 1), a.getD k 0 * chebT k x) := by
  unfold chebSeries
  rw [if_neg (by omega)]
  have key : ∃ s : ℝ × ℝ, (forRange (d : Int).toNat ((0 : ℝ), (0 : ℝ)) fun i s => do
      let ak ← rd a ((d : Int).toNat - i)
      .ok (s.2, (x + x) * s.2 - s.1 + ak)) = .ok s ∧
      ∑ j ∈ Finset.Ico 1 (d + 1), a.getD j 0 * chebT j x = s.2 * chebT 1 x - s.1 * chebT 0 x := by
    rw [Int.toNat_natCast]
    refine forRange_spec (fun i (s : ℝ × ℝ) => ∑ j ∈ Finset.Ico (d - i + 1) (d + 1), a.getD j 0 * chebT j x =
      s.2 * chebT ((d - i : ℕ) + 1) x - s.1 * chebT (d - i : ℕ) x) ?_ ?_ ?_
    · simp
    · intro i s hi hs
      refine ⟨_, by rw [rd_ok (show d - i < a.length by omega)]; rfl, ?_⟩
      obtain ⟨m, hm⟩ : ∃ m, d - i = m + 1 := ⟨d - i - 1, by omega⟩
      have hm' : d - (i + 1) = m := by omega
      rw [hm] at hs
      rw [hm', Finset.sum_eq_sum_Ico_succ_bot (by omega), hs]
      have e1 : a[d - i]'(by omega) = a.getD (m + 1) 0 := by
        rw [← hm, List.getD_eq_getElem?_getD, List.getElem?_eq_getElem (by omega)]
        rfl
      simp only [e1]
      have h := chebT_next ((m : ℤ) + 1) x
      rw [add_sub_cancel_right] at h
      push_cast
      rw [h]
      ring
    · intro s hs
      simpa using hs
  obtain ⟨s, h1, h2⟩ := key
  rw [h1, Outcome.ok_bind, rd_ok (show 0 < a.length by omega), Outcome.ok_bind, Finset.range_eq_Ico, Finset.sum_eq_sum_Ico_succ_bot (by omega), h2]
  have e0 : a[0]'(by omega) = a.getD 0 0 := by
    rw [List.getD_eq_getElem?_getD, List.getElem?_eq_getElem (by omega)]
    rfl
  rw [e0]
  congr 1
  simp only [chebT, Chebyshev.T_zero, Chebyshev.T_one, eval_one, eval_X, Nat.cast_zero, mul_one]
  ring

/-! ## Derivative and multiplication by the variable -/

theorem cheb_deriv (a d : ℕ → ℝ) (h : ∀ k, d k = d (k + 2) + 2 * (k + 1) * a (k + 1)) (N : ℕ) (s : ℝ) :
    2 * ∑ k ∈ Finset.range (N + 1), a k * (k * chebU ((k : ℤ) - 1) s) =
      ∑ k ∈ Finset.range N, d k * (2 * chebT k s) - d 0 - d N * chebU ((N : ℤ) - 2) s - d (N + 1) * chebU ((N : ℤ) - 1) s := by
  induction N with
  | zero =>
    simp [chebU]
  | succ N ih =>
    rw [Finset.sum_range_succ, mul_add, ih, Finset.sum_range_succ]
    have h1 := h N
    have h2 := chebU_step N s
    push_cast
    rw [add_sub_cancel_right, show (N : ℤ) + 1 - 2 = N - 1 by ring]
    linear_combination (-chebU N s) * h1 + d N * h2

/-- Coefficients of `s` times a series. -/
def chebMulX {R : Type*} [Field R] (a : ℕ → R) : ℕ → R
  | 0 => a 1 / 2
  | 1 => a 0 + a 2 / 2
  | k + 2 => (a (k + 1) + a (k + 3)) / 2

theorem cheb_mulX (a : ℕ → ℝ) (N : ℕ) (s : ℝ) : s * ∑ k ∈ Finset.range (N + 2), a k * chebT k s =
    ∑ k ∈ Finset.range (N + 2), chebMulX a k * chebT k s + a (N + 1) / 2 * chebT (N + 2) s - a (N + 2) / 2 * chebT (N + 1) s := by
  induction N with
  | zero =>
    have h := chebT_next 1 s
    norm_num [Finset.sum_range_succ, chebMulX] at h ⊢
    rw [h]
    simp [chebT]
    ring
  | succ N ih =>
    rw [Finset.sum_range_succ, mul_add, ih, Finset.sum_range_succ (fun k => chebMulX a k * chebT k s) (N + 2)]
    have h := chebT_next ((N : ℤ) + 2) s
    rw [show (N : ℤ) + 2 - 1 = N + 1 by ring] at h
    push_cast
    rw [show (N : ℤ) + 1 + 2 = N + 2 + 1 by ring, show (N : ℤ) + 1 + 1 = N + 2 by ring, h]
    simp only [chebMulX]
    rw [show N + 1 + 1 = N + 2 by ring, show N + 1 + 2 = N + 3 by ring]
    ring

end Libgrpp
