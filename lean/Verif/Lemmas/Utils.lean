import Verif.Model.Utils
import Mathlib.Algebra.BigOperators.Group.Finset.Basic
import Mathlib.Algebra.BigOperators.Intervals
import Mathlib.Tactic.NormNum
import Mathlib.Tactic.FinCases
import Mathlib.Tactic.Linarith
import Mathlib.Tactic.Ring

/-! Helper lemmas for `utils.c` and row-major matrices. -/

namespace Libgrpp

theorem matMulSum_correct (i j N K : Nat) (A B : List ℝ)
    (hA : ∀ k < K, i * K + k < A.length) (hB : ∀ k < K, k * N + j < B.length) :
    matMulSum i j N K A B =
      .ok (∑ k ∈ Finset.range K, (A[i * K + k]?).getD 0 * (B[k * N + j]?).getD 0) := by
  unfold matMulSum
  obtain ⟨s, hs, he⟩ := forRange_inv (n := K) (s := (0 : ℝ))
    (body := fun k sum => do
      let a ← rd A (i * K + k)
      let b ← rd B (k * N + j)
      .ok (sum + a * b))
    (fun m s => s = ∑ k ∈ Finset.range m, (A[i * K + k]?).getD 0 * (B[k * N + j]?).getD 0)
    (by simp) (by
      rintro k s hk rfl
      refine ⟨_, ?_, rfl⟩
      rw [rd_ok (hA k hk), rd_ok (hB k hk)]
      simp only [Outcome.ok_bind]
      rw [Finset.sum_range_succ, List.getElem?_eq_getElem (hA k hk), List.getElem?_eq_getElem (hB k hk)]
      simp)
  rw [hs, he]

theorem rowMajor_lt {M N i j : Nat} (hi : i < M) (hj : j < N) : i * N + j < M * N := by
  calc i * N + j < i * N + N := by omega
    _ = (i + 1) * N := by ring
    _ ≤ M * N := Nat.mul_le_mul_right _ hi

theorem rowMajor_inj {N i j i' j' : Nat} (hj : j < N) (hj' : j' < N) (h : i * N + j = i' * N + j') :
    i = i' ∧ j = j' := by
  have hN : 0 < N := by omega
  have h1 : (i * N + j) / N = i := by
    rw [Nat.add_comm, Nat.add_mul_div_right _ _ hN, Nat.div_eq_of_lt hj, Nat.zero_add]
  have h2 : (i' * N + j') / N = i' := by
    rw [Nat.add_comm, Nat.add_mul_div_right _ _ hN, Nat.div_eq_of_lt hj', Nat.zero_add]
  have hi : i = i' := by rw [← h1, ← h2, h]
  subst hi
  exact ⟨rfl, by omega⟩

end Libgrpp
