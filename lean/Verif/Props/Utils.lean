import Verif.Lemmas.Utils

/-! # C10, C11: coincidence of centres, accumulating matrix kernels -/

namespace Libgrpp

/-! ## C10 -/

/-- **C10** (true part). Coincidence of centres is reflexive. -/
theorem points_equal_refl (a : Point) : pointsAreEqual a a := by
  simp only [pointsAreEqual, sub_self, abs_zero]; norm_num

/-- **C10** (true part). Coincidence of centres is symmetric. -/
theorem points_equal_symm {a b : Point} (h : pointsAreEqual a b) : pointsAreEqual b a := by
  unfold pointsAreEqual at *
  simpa only [abs_sub_comm] using h

/-- **C10** is false as stated: coincidence is not transitive. -/
theorem points_equal_not_transitive :
    ∃ a b c : Point, pointsAreEqual a b ∧ pointsAreEqual b c ∧ ¬ pointsAreEqual a c := by
  refine ⟨fun _ => 0, fun _ => 8e-13, fun _ => 16e-13, ?_, ?_, ?_⟩
  · unfold pointsAreEqual; norm_num [abs_of_nonneg]
  · unfold pointsAreEqual; norm_num [abs_lt]
  · unfold pointsAreEqual; norm_num [abs_lt]

/-- **C10, partial.** Full statement: `pointsAreEqual a b → pointsAreEqual b c → pointsAreEqual a c`.
That is false (`points_equal_not_transitive`). What holds: the conclusion with twice the threshold, and the
full conclusion when one of the two pairs is exactly equal. -/
theorem points_equal_trans_partial {a b c : Point} (h1 : pointsAreEqual a b) (h2 : pointsAreEqual b c) :
    (∀ i : Fin 3, |a i - c i| < 2e-12) ∧ (a = b ∨ b = c → pointsAreEqual a c) := by
  constructor
  · obtain ⟨x1, x2, x3⟩ := h1
    obtain ⟨y1, y2, y3⟩ := h2
    intro i
    have key : ∀ i : Fin 3, |a i - b i| < 1e-12 → |b i - c i| < 1e-12 → |a i - c i| < 2e-12 := by
      intro i h h'
      rw [abs_lt] at *
      norm_num at *
      constructor <;> linarith
    fin_cases i
    · exact key 0 x1 y1
    · exact key 1 x2 y2
    · exact key 2 x3 y3
  · rintro (rfl | rfl)
    · exact h2
    · exact h1

example : pointsAreEqual (fun _ => 0) (fun _ => 5e-13) := by unfold pointsAreEqual; norm_num [abs_lt]

/-! ## C11 -/

/-- **C11.** `libgrpp_daxpy` reads and writes only the first `n` elements, and computes `y + a x` there;
every other element of `y` keeps its value. -/
theorem daxpy_correct (n : Nat) (a : ℝ) (x y : List ℝ) (hx : n ≤ x.length) (hy : n ≤ y.length) :
    ∃ y', daxpy n a x y = .ok y' ∧ y'.length = y.length ∧
      (∀ i (h : i < n), y'[i]? = some (y[i] + a * x[i])) ∧ (∀ i, n ≤ i → y'[i]? = y[i]?) := by
  unfold daxpy
  refine forRange_spec
    (fun k (s : List ℝ) => s.length = y.length ∧
      (∀ i (h : i < k), i < n → s[i]? = some ((y[i]?).getD 0 + a * (x[i]?).getD 0)) ∧
      (∀ i, k ≤ i → s[i]? = y[i]?))
    ⟨rfl, by intro i h; omega, fun _ _ => rfl⟩ ?_ ?_
  · rintro i s hi ⟨hl, hd, hu⟩
    have h1 : i < s.length := by omega
    have h2 : i < x.length := by omega
    have h3 : i < y.length := by omega
    refine ⟨s.set i (y[i] + a * x[i]), ?_, by simp [hl], ?_, ?_⟩
    · rw [rd_ok h2, rd_ok h1]
      simp only [Outcome.ok_bind, wr_ok _ h1]
      have : s[i] = y[i] := by
        have := hu i le_rfl
        rw [List.getElem?_eq_getElem h1, List.getElem?_eq_getElem h3] at this
        exact Option.some.inj this
      rw [this]
    · intro j hj hjn
      by_cases hji : j = i
      · subst hji
        rw [List.getElem?_set_self h1, List.getElem?_eq_getElem h3, List.getElem?_eq_getElem h2]
        rfl
      · rw [List.getElem?_set_ne (Ne.symm hji)]
        exact hd j (by omega) hjn
    · intro j hj
      rw [List.getElem?_set_ne (by omega)]
      exact hu j (by omega)
  · rintro y' ⟨hl, hd, hu⟩
    refine ⟨hl, fun i hi => ?_, hu⟩
    have := hd i hi hi
    rw [List.getElem?_eq_getElem (show i < y.length by omega),
      List.getElem?_eq_getElem (show i < x.length by omega)] at this
    simpa using this

/-- **C11.** `libgrpp_multiply_matrices` adds the product `A·B` of the `M×K` and `K×N` row-major matrices to
the `M×N` matrix `C`, with all accesses inside the arrays, and changes nothing outside these `M·N` elements. -/
theorem multiply_matrices_correct (M N K : Nat) (A B C : List ℝ)
    (hA : M * K ≤ A.length) (hB : K * N ≤ B.length) (hC : M * N ≤ C.length) :
    ∃ C', multiplyMatrices M N K A B C = .ok C' ∧ C'.length = C.length ∧
      (∀ i j, i < M → j < N → C'[i * N + j]? = some ((C[i * N + j]?).getD 0 +
        ∑ k ∈ Finset.range K, (A[i * K + k]?).getD 0 * (B[k * N + j]?).getD 0)) ∧
      (∀ p, M * N ≤ p → C'[p]? = C[p]?) := by
  let S : Nat → Nat → ℝ := fun i j => ∑ k ∈ Finset.range K, (A[i * K + k]?).getD 0 * (B[k * N + j]?).getD 0
  unfold multiplyMatrices
  refine forRange_spec
    (fun m (s : List ℝ) => s.length = C.length ∧
      (∀ i j, i < m → i < M → j < N → s[i * N + j]? = some ((C[i * N + j]?).getD 0 + S i j)) ∧
      (∀ p, (∀ i j, i < m → j < N → p ≠ i * N + j) → s[p]? = C[p]?))
    ⟨rfl, by intro i j h; omega, fun _ _ => rfl⟩ ?_ ?_
  · rintro i s hi ⟨hl, hd, hu⟩
    refine forRange_spec
      (fun m (t : List ℝ) => t.length = C.length ∧
        (∀ i' j, i' < i → i' < M → j < N → t[i' * N + j]? = some ((C[i' * N + j]?).getD 0 + S i' j)) ∧
        (∀ j, j < m → j < N → t[i * N + j]? = some ((C[i * N + j]?).getD 0 + S i j)) ∧
        (∀ p, (∀ i' j, i' < i → j < N → p ≠ i' * N + j) → (∀ j, j < m → j < N → p ≠ i * N + j) → t[p]? = C[p]?))
      ⟨hl, hd, by intro j h; omega, fun p h _ => hu p h⟩ ?_ ?_
    · rintro j t hj ⟨hl, hd, he, hu⟩
      have hp : i * N + j < M * N := rowMajor_lt hi hj
      have h1 : i * N + j < t.length := by omega
      have h2 : i * N + j < C.length := by omega
      have hAi : ∀ k < K, i * K + k < A.length := fun k hk => (rowMajor_lt hi hk).trans_le hA
      have hBi : ∀ k < K, k * N + j < B.length := fun k hk => (rowMajor_lt hk hj).trans_le hB
      have hval : t[i * N + j] = C[i * N + j] := by
        have := hu (i * N + j) (fun i' j' hi' hj' h => by
          have := (rowMajor_inj hj hj' h).1; omega) (fun j' hj' hjN h => by
          have := (rowMajor_inj hj hjN h).2; omega)
        rw [List.getElem?_eq_getElem h1, List.getElem?_eq_getElem h2] at this
        exact Option.some.inj this
      refine ⟨t.set (i * N + j) (C[i * N + j] + S i j), ?_, by simp [hl], ?_, ?_, ?_⟩
      · rw [matMulSum_correct i j N K A B hAi hBi]
        simp only [Outcome.ok_bind, rd_ok h1, wr_ok _ h1, hval]
        rfl
      · intro i' j' h3 h4 h5
        rw [List.getElem?_set_ne]
        · exact hd i' j' h3 h4 h5
        · intro h
          have := (rowMajor_inj hj h5 h).1
          omega
      · intro j' h3 h4
        by_cases h5 : j' = j
        · subst h5
          rw [List.getElem?_set_self h1, List.getElem?_eq_getElem h2]
          rfl
        · rw [List.getElem?_set_ne (by omega)]
          exact he j' (by omega) h4
      · intro p h3 h4
        rw [List.getElem?_set_ne (Ne.symm (h4 j (by omega) hj))]
        exact hu p h3 (fun j' h5 h6 => h4 j' (by omega) h6)
    · rintro t ⟨hl, hd, he, hu⟩
      refine ⟨hl, fun i' j h1 h2 h3 => ?_, fun p h => ?_⟩
      · by_cases h4 : i' = i
        · subst h4; exact he j h3 h3
        · exact hd i' j (by omega) h2 h3
      · exact hu p (fun i' j h1 h2 => h i' j (by omega) h2) (fun j h1 h2 => h i j (by omega) h2)
  · rintro C' ⟨hl, hd, hu⟩
    refine ⟨hl, fun i j hi hj => hd i j hi hi hj, fun p hp => hu p fun i j hi hj h => ?_⟩
    have := rowMajor_lt hi hj
    omega

example : (2 * 1 ≤ [(1 : ℝ), 2].length) ∧ (1 * 2 ≤ [(3 : ℝ), 4].length) ∧ (2 * 2 ≤ [(0 : ℝ), 0, 0, 1].length) := by
  simp

end Libgrpp
