import Verif.Props.Dawson

/-! Local-potential integrals with the library's own special functions: what remains of the error. -/

namespace Libgrpp

open MeasureTheory

/-- The special functions are those of the library: the table of Boys functions and the Dawson function, computed with the given
`LDBL_EPSILON`. -/
structure LibSpec (eps : ℝ) (sf : SpecFun) : Prop where
  ldbl : LdblEps eps
  boys : sf.boys = boysLiteral
  dawson : ∀ y, dawsonC eps y = .ok (sf.dawson y)

/-- Bound for the error of the auxiliary functions of `r⁻¹` (power 1) and `r⁻²` (power 0). -/
noncomputable def auxErr (power : Int) : ℝ := if power = 1 then 1.7e-14 else if power = 0 then 1.16e-10 else 0

/-- Bound for the error of one term of the potential with coefficient one: the sum of the absolute weights of the auxiliary functions (C63) times
`auxErr`. -/
noncomputable def termErr (power : Int) (A B : Shell) (C : Point) (c : ℝ) (m n : ℕ) : ℝ :=
  auxErr power * ∑ i ∈ Finset.range A.num, ∑ j ∈ Finset.range B.num, ∑ k ∈ Finset.range (A.L + B.L + 1), |termWeight power A B C c i j m n k|

/-- Bound for the error of a matrix element of a local potential. -/
noncomputable def localErr (A B : Shell) (C : Point) (p : Potential) (m n : ℕ) : ℝ :=
  ∑ k ∈ Finset.range p.num, |p.coeffs.getD k 0| * termErr (p.powers.getD k 0) A B C (p.alpha.getD k 0) m n

theorem auxErr_nonneg (power : Int) : 0 ≤ auxErr power := by
  unfold auxErr
  split_ifs <;> norm_num

theorem localErr_nonneg (A B : Shell) (C : Point) (p : Potential) (m n : ℕ) : 0 ≤ localErr A B C p m n :=
  Finset.sum_nonneg fun _ _ => mul_nonneg (abs_nonneg _) (mul_nonneg (auxErr_nonneg _)
    (Finset.sum_nonneg fun _ _ => Finset.sum_nonneg fun _ _ => Finset.sum_nonneg fun _ _ => abs_nonneg _))

theorem weight_close {power : Int} (h2 : power ≠ 2) {A B : Shell} (sA : A.Supported) (sB : B.Supported) (C : Point) (c : ℝ) {bv bx : ℕ → ℕ → ℕ → ℝ}
    (h : ∀ i < A.num, ∀ j < B.num, ∀ k ≤ A.L + B.L, |bv i j k - bx i j k| ≤ auxErr power) {m n : ℕ} (hm : m < A.cart_size) (hn : n < B.cart_size) :
    |termValue power A B C c bv m n - termValue power A B C c bx m n| ≤ termErr power A B C c m n := by
  rw [termValue_linear power h2 A B sA sB C c _ hm hn, termValue_linear power h2 A B sA sB C c _ hm hn, termErr, ← Finset.sum_sub_distrib,
    Finset.mul_sum]
  refine (Finset.abs_sum_le_sum_abs _ _).trans (Finset.sum_le_sum fun i hi => ?_)
  rw [← Finset.sum_sub_distrib, Finset.mul_sum]
  refine (Finset.abs_sum_le_sum_abs _ _).trans (Finset.sum_le_sum fun j hj => ?_)
  rw [← Finset.sum_sub_distrib, Finset.mul_sum]
  refine (Finset.abs_sum_le_sum_abs _ _).trans (Finset.sum_le_sum fun k hk => ?_)
  rw [Finset.mem_range] at hi hj hk
  rw [← mul_sub, abs_mul, mul_comm]
  exact mul_le_mul_of_nonneg_right (h i hi j hj k (by omega)) (abs_nonneg _)

/-- Values the special-function code returns for one term, and how far the term is off. -/
theorem term_numeric {eps : ℝ} {sf : SpecFun} (hs : LibSpec eps sf) {A B : Shell} (sA : A.Supported) (sB : B.Supported) {C : Point} {power : Int} {c : ℝ}
    (hr : InRange A B C power c) : ∃ bv : ℕ → ℕ → ℕ → ℝ,
      (∀ i < A.num, ∀ j < B.num, Supplies sf power (auxArg A B C c i j) (A.L + B.L) (bv i j)) ∧
      ∀ m n, m < A.cart_size → n < B.cart_size →
        |termValue power A B C c bv m n - ∫ r, basisFn (dropTiny A) m r * localTerm power c C r * basisFn (dropTiny B) n r| ≤
          termErr power A B C c m n := by
  have hA := sA.L9
  have hB := sB.L9
  have hx : ∀ i < A.num, ∀ j < B.num, 0 ≤ pairArg A B C c i j := fun i hi j hj => by
    rw [← auxArg_eq]
    exact auxArg_nonneg A B C c i j (by have := sA.pos.at hi; have := sB.pos.at hj; have := hr.2.1; linarith)
  by_cases h2 : power = 2
  · obtain ⟨bv, hbv⟩ := hr.supplies sf sA sB
    refine ⟨bv, hbv, fun m n _ _ => ?_⟩
    rw [(termValue_exact power hr.1 A B sA.pos sB.pos C c hr.2.1 m n).2, termValue_congr h2 A B C c bv _ m n, sub_self, abs_zero]
    exact mul_nonneg (auxErr_nonneg _) (Finset.sum_nonneg fun _ _ => Finset.sum_nonneg fun _ _ => Finset.sum_nonneg fun _ _ => abs_nonneg _)
  · have hacc : ∀ i j, ∃ bv : ℕ → ℝ, i < A.num → j < B.num → Supplies sf power (pairArg A B C c i j) (A.L + B.L) bv ∧
        ∀ k ≤ A.L + B.L, |bv k - auxExact power k (pairArg A B C c i j)| ≤ auxErr power := by
      intro i j
      by_cases h : i < A.num ∧ j < B.num
      · have hx := hx i h.1 j h.2
        rcases hr.1 with rfl | rfl | rfl
        · obtain ⟨g, f, h1, h2⟩ := gfun_accuracy hs.ldbl sf.dawson hs.dawson hx (show A.L + B.L ≤ 32 by omega)
          refine ⟨f, fun _ _ => ⟨⟨fun h => by norm_num at h, fun _ => ⟨g, h1, fun k hk => (h2 k hk).1⟩⟩, fun k hk => ?_⟩⟩
          have := (h2 k hk).2.1
          unfold auxExact auxErr
          rw [if_neg (by norm_num), if_neg (by norm_num), if_pos rfl]
          exact this
        · have : ∀ k, ∃ v, k ≤ A.L + B.L → boysFunction boysLiteral k (pairArg A B C c i j) = .ok v ∧
              |v - boysF k (pairArg A B C c i j)| ≤ 1.7e-14 := by
            intro k
            by_cases hk : k ≤ A.L + B.L
            · obtain ⟨v, h3, h4⟩ := boysFunction_close boysLiteral (ε := 4e-15) (by norm_num) boysLiteral_close k
                (pairArg A B C c i j) hx (by
                  rcases hr.2.2 rfl with h' | h'
                  · exact Or.inr (by omega)
                  · exact Or.inl ⟨h' i h.1 j h.2, by omega⟩)
              exact ⟨v, fun _ => ⟨h3, h4.trans (by norm_num)⟩⟩
            · exact ⟨0, fun h => absurd h hk⟩
          choose v hv using this
          refine ⟨v, fun _ _ => ⟨⟨fun _ => boysValues_ok sf.boys (by omega) _ fun n hn => by rw [hs.boys]; exact (hv n hn).1,
            fun h => by norm_num at h⟩, fun k hk => ?_⟩⟩
          unfold auxExact auxErr
          rw [if_pos rfl, if_pos rfl]
          exact (hv k hk).2
        · exact absurd rfl h2
      · exact ⟨fun _ => 0, fun h1 h2 => absurd ⟨h1, h2⟩ h⟩
    choose bv hbv using hacc
    refine ⟨bv, fun i hi j hj => by rw [auxArg_eq]; exact (hbv i j hi hj).1, fun m n hm hn => ?_⟩
    rw [(termValue_exact power hr.1 A B sA.pos sB.pos C c hr.2.1 m n).2]
    exact weight_close h2 sA sB C c (fun i hi j hj k hk => (hbv i j hi hj).2 k hk) hm hn

/-- Local potentials with the library's special functions: a matrix of numbers, close to the matrix elements, which the routine computes whatever the
buffer contains. -/
theorem type1_numeric {eps : ℝ} {sf : SpecFun} (hs : LibSpec eps sf) {A B : Shell} (sA : A.Supported) (sB : B.Supported) (C : Point) {p : Potential}
    (hp : p.WF) (hr : ∀ k < p.num, InRange A B C (p.powers.getD k 0) (p.alpha.getD k 0)) : ∃ V : ℕ → ℕ → ℝ,
      (∀ out : List ℝ, A.cart_size * B.cart_size ≤ out.length → ∃ out', type1Integrals sf true A B C (some p) out = .ok out' ∧
        MatIs A.cart_size B.cart_size out' V ∧ SameBeyond (A.cart_size * B.cart_size) out' out) ∧
      ∀ m n, m < A.cart_size → n < B.cart_size →
        |V m n - ∫ r, basisFn (dropTiny A) m r * potentialFn p C r * basisFn (dropTiny B) n r| ≤ localErr A B C p m n := by
  choose! bv hbv using fun k hk => term_numeric hs sA sB (hr k hk)
  refine ⟨_, fun out hlen => type1_spec sf A B C p hp (fun k => termValue (p.powers.getD k 0) A B C (p.alpha.getD k 0) (bv k))
    (fun k hk buf hb => mmdIntegrals_spec sf _ (hr k hk).1 A B sA sB C _ (hr k hk).2.1 _ (hbv k hk).1 buf hb) out hlen, fun m n hm hn => ?_⟩
  have e : ∀ r, basisFn (dropTiny A) m r * potentialFn p C r * basisFn (dropTiny B) n r =
      ∑ k ∈ Finset.range p.num, p.coeffs.getD k 0 * (basisFn (dropTiny A) m r *
        localTerm (p.powers.getD k 0) (p.alpha.getD k 0) C r * basisFn (dropTiny B) n r) := by
    intro r
    unfold potentialFn
    rw [Finset.mul_sum, Finset.sum_mul]
    exact Finset.sum_congr rfl fun k _ => by ring
  simp only [e]
  rw [integral_finsetSum _ fun k hk => (termValue_exact _ (hr k (Finset.mem_range.1 hk)).1 A B sA.pos sB.pos C _
    (hr k (Finset.mem_range.1 hk)).2.1 m n).1.const_mul _, ← Finset.sum_sub_distrib]
  refine (Finset.abs_sum_le_sum_abs _ _).trans (Finset.sum_le_sum fun k hk => ?_)
  rw [integral_const_mul, ← mul_sub, abs_mul]
  exact mul_le_mul_of_nonneg_left ((hbv k (Finset.mem_range.1 hk)).2 m n hm hn) (abs_nonneg _)

end Libgrpp
