import Verif.Lemmas.MmdDeriv
import Verif.Lemmas.BoysTable

/-! # C28-C32, C63: radially local potentials

`basisFn` (file `Verif/Model/Spec.lean`), `localTerm`, `potentialFn`, `boysF`, `gF`, `pairArg`, `dropTiny` (file
`Verif/Model/SpecLocal.lean`) define the mathematical objects; nothing there depends on the algorithm. `Supported` holds for
every shell built by the constructor with a documented component order, positive exponents and `L ≤ 9`
(`newShell_supported`). Contraction coefficients below `1e-14` in absolute value are skipped by the code (documented as
`LIBGRPP_ZERO_THRESH`), hence `dropTiny`; it changes nothing when there are none (`dropTiny_same`). -/

namespace Libgrpp

open MeasureTheory

/-- Without tiny coefficients `dropTiny` does not change the functions. -/
theorem dropTiny_same (A : Shell) (h : ∀ i < A.num, |A.coeffs.getD i 0| < 1e-14 → A.coeffs.getD i 0 = 0) (m : Nat) :
    basisFn (dropTiny A) m = basisFn A m := by
  funext r
  unfold basisFn
  refine Finset.sum_congr rfl fun i hi => ?_
  have e : (dropTiny A).coeffs.getD i 0 = A.coeffs.getD i 0 := by
    have := dropTiny_coeffAt A i
    unfold Shell.coeffAt at this
    rw [this]
    split_ifs with h'
    · exact (h i (Finset.mem_range.1 hi) h').symm
    · rfl
  rw [e]
  rfl

/-! ## C28 and C63 -/

/-- The special-function code returns the exact values of the auxiliary function of the given power (`F_n` for `r⁻¹`,
`G_n` for `r⁻²`, nothing needed for `r⁰`) for every pair of primitives and every order up to `L_A + L_B`. -/
def ExactAux (sf : SpecFun) (A B : Shell) (C : Point) (power : Int) (c : ℝ) : Prop :=
  ∀ i < A.num, ∀ j < B.num,
    (power = 1 → ∀ k ≤ A.L + B.L, boysFunction sf.boys k (pairArg A B C c i j) = .ok (boysF k (pairArg A B C c i j))) ∧
    (power = 0 → ∃ g, gfunValues sf.dawson (pairArg A B C c i j) (A.L + B.L) = .ok g ∧
      ∀ k ≤ A.L + B.L, g k = some (gF k (pairArg A B C c i j)))

theorem ExactAux.supplies {sf : SpecFun} {A B : Shell} (sA : A.Supported) (sB : B.Supported) {C : Point} {power : Int}
    {c : ℝ} (h : ExactAux sf A B C power c) : ∀ i < A.num, ∀ j < B.num,
      Supplies sf power (auxArg A B C c i j) (A.L + B.L) (fun k => auxExact power k (pairArg A B C c i j)) := by
  intro i hi j hj
  obtain ⟨h1, h0⟩ := h i hi j hj
  have := sA.L9
  have := sB.L9
  rw [auxArg_eq]
  constructor
  · rintro rfl
    exact boysValues_ok sf.boys (by omega) _ fun n hn => by rw [h1 rfl n hn]; rfl
  · rintro rfl
    exact h0 rfl

/-- **C28, C63.** For any potential whose terms have powers 0, 1, 2 and nonnegative exponents, the matrix of type-1
integrals is exactly the matrix of the potential between the contracted functions, provided the auxiliary functions are
exact for the terms with power 0 or 1. -/
theorem type1_true (sf : SpecFun) (A B : Shell) (sA : A.Supported) (sB : B.Supported) (C : Point) (p : Potential)
    (hp : p.WF) (hterm : ∀ k < p.num, (p.powers.getD k 0 = 0 ∨ p.powers.getD k 0 = 1 ∨ p.powers.getD k 0 = 2) ∧
      0 ≤ p.alpha.getD k 0 ∧ ExactAux sf A B C (p.powers.getD k 0) (p.alpha.getD k 0))
    (out : List ℝ) (hlen : A.cart_size * B.cart_size ≤ out.length) :
    ∃ out', type1Integrals sf true A B C (some p) out = .ok out' ∧ out'.length = out.length ∧
      (∀ m n, m < A.cart_size → n < B.cart_size → out'[m * B.cart_size + n]? =
        some (∫ r, basisFn (dropTiny A) m r * potentialFn p C r * basisFn (dropTiny B) n r)) ∧
      (∀ q, A.cart_size * B.cart_size ≤ q → out'[q]? = out[q]?) := by
  obtain ⟨out', h1, h2, h3, h4⟩ := type1_spec sf A B C p hp
    (fun k => termValue (p.powers.getD k 0) A B C (p.alpha.getD k 0) (fun i j l =>
      auxExact (p.powers.getD k 0) l (pairArg A B C (p.alpha.getD k 0) i j)))
    (fun k hk buf hb => mmdIntegrals_spec sf _ (hterm k hk).1 A B sA sB C _ (hterm k hk).2.1 _
      ((hterm k hk).2.2.supplies sA sB) buf hb) out hlen
  refine ⟨out', h1, h3, fun m n hm hn => ?_, h4⟩
  rw [h2 m n hm hn]
  congr 1
  have e : ∀ r, basisFn (dropTiny A) m r * potentialFn p C r * basisFn (dropTiny B) n r =
      ∑ k ∈ Finset.range p.num, p.coeffs.getD k 0 * (basisFn (dropTiny A) m r *
        localTerm (p.powers.getD k 0) (p.alpha.getD k 0) C r * basisFn (dropTiny B) n r) := by
    intro r
    unfold potentialFn
    rw [Finset.mul_sum, Finset.sum_mul]
    exact Finset.sum_congr rfl fun k _ => by ring
  simp only [e]
  rw [integral_finsetSum _ fun k hk => (termValue_exact _ (hterm k (Finset.mem_range.1 hk)).1 A B sA.pos sB.pos C _
    (hterm k (Finset.mem_range.1 hk)).2.1 m n).1.const_mul _]
  refine Finset.sum_congr rfl fun k hk => ?_
  rw [integral_const_mul, (termValue_exact _ (hterm k (Finset.mem_range.1 hk)).1 A B sA.pos sB.pos C _
    (hterm k (Finset.mem_range.1 hk)).2.1 m n).2]

/-- **C28.** With powers 2 only (pure Gaussians) the matrix is the true one unconditionally: nothing is assumed about the
special-function code. -/
theorem type1_gaussian_true (sf : SpecFun) (A B : Shell) (sA : A.Supported) (sB : B.Supported) (C : Point) (p : Potential)
    (hp : p.WF) (hpow : ∀ k < p.num, p.powers.getD k 0 = 2) (hα : ∀ k < p.num, 0 ≤ p.alpha.getD k 0)
    (out : List ℝ) (hlen : A.cart_size * B.cart_size ≤ out.length) :
    ∃ out', type1Integrals sf true A B C (some p) out = .ok out' ∧ out'.length = out.length ∧
      (∀ m n, m < A.cart_size → n < B.cart_size → out'[m * B.cart_size + n]? =
        some (∫ r, basisFn (dropTiny A) m r * (∑ k ∈ Finset.range p.num, p.coeffs.getD k 0 *
          Real.exp (-p.alpha.getD k 0 * ∑ l, (r l - C l) ^ 2)) * basisFn (dropTiny B) n r)) ∧
      (∀ q, A.cart_size * B.cart_size ≤ q → out'[q]? = out[q]?) := by
  obtain ⟨out', h1, h2, h3, h4⟩ := type1_true sf A B sA sB C p hp (fun k hk => ⟨Or.inr (Or.inr (hpow k hk)), hα k hk,
    fun i _ j _ => ⟨fun h => by rw [hpow k hk] at h; norm_num at h, fun h => by rw [hpow k hk] at h; norm_num at h⟩⟩) out hlen
  refine ⟨out', h1, h2, fun m n hm hn => ?_, h4⟩
  rw [h3 m n hm hn]
  congr 2
  funext r
  congr 2
  unfold potentialFn
  refine Finset.sum_congr rfl fun k hk => ?_
  rw [hpow k (Finset.mem_range.1 hk)]
  unfold localTerm
  rw [dist2_radius]
  simp [dist2]

/-- **C63.** One `r⁻¹` or `r⁻²` term: the computed matrix element is the true integral with each value of the auxiliary
function replaced by the number the special-function code returned, with weights that do not depend on that code. -/
theorem local_term_weights (A B : Shell) (sA : A.Supported) (sB : B.Supported) (C : Point) (c : ℝ) (hc : 0 ≤ c) (power : Int)
    (hpow : power = 0 ∨ power = 1) :
    ∃ W : ℕ → ℕ → ℕ → ℕ → ℕ → ℝ,
      (∀ m n, m < A.cart_size → n < B.cart_size →
        ∫ r, basisFn (dropTiny A) m r * localTerm power c C r * basisFn (dropTiny B) n r =
          ∑ i ∈ Finset.range A.num, ∑ j ∈ Finset.range B.num, ∑ k ∈ Finset.range (A.L + B.L + 1),
            W i j m n k * (if power = 1 then boysF k (pairArg A B C c i j) else gF k (pairArg A B C c i j))) ∧
      ∀ (sf : SpecFun) (bv : ℕ → ℕ → ℕ → ℝ)
        (_ : ∀ i < A.num, ∀ j < B.num, Supplies sf power (pairArg A B C c i j) (A.L + B.L) (bv i j))
        (out : List ℝ) (_ : A.cart_size * B.cart_size ≤ out.length),
        ∃ out', mmdIntegrals sf A B C c power out = .ok out' ∧
          ∀ m n, m < A.cart_size → n < B.cart_size → out'[m * B.cart_size + n]? =
            some (∑ i ∈ Finset.range A.num, ∑ j ∈ Finset.range B.num, ∑ k ∈ Finset.range (A.L + B.L + 1),
              W i j m n k * bv i j k) := by
  have h2 : power ≠ 2 := by rcases hpow with rfl | rfl <;> norm_num
  have h3 : power = 0 ∨ power = 1 ∨ power = 2 := by tauto
  refine ⟨termWeight power A B C c, fun m n hm hn => ?_, fun sf bv hs out hlen => ?_⟩
  · rw [(termValue_exact power h3 A B sA.pos sB.pos C c hc m n).2, termValue_linear power h2 A B sA sB C c _ hm hn]
    rfl
  · obtain ⟨out', h4, h5, -⟩ := mmdIntegrals_spec sf power h3 A B sA sB C c hc bv
      (fun i hi j hj => by rw [auxArg_eq]; exact hs i hi j hj) out hlen
    refine ⟨out', h4, fun m n hm hn => ?_⟩
    rw [h5 m n hm hn, termValue_linear power h2 A B sA sB C c _ hm hn]

/-- **C63**, consequence for `r⁻¹` with the table of the source: the error of a matrix element is at most `1.7e-14` times the
sum of the absolute weights, whenever the routine does not abort (`InRange`). -/
theorem local_coulomb_accuracy (sf : SpecFun) (hsf : sf.boys = boysLiteral) (A B : Shell) (sA : A.Supported)
    (sB : B.Supported) (C : Point) (c : ℝ) (hr : InRange A B C 1 c) :
    ∃ W : ℕ → ℕ → ℕ → ℕ → ℕ → ℝ,
      (∀ m n, m < A.cart_size → n < B.cart_size →
        ∫ r, basisFn (dropTiny A) m r * localTerm 1 c C r * basisFn (dropTiny B) n r =
          ∑ i ∈ Finset.range A.num, ∑ j ∈ Finset.range B.num, ∑ k ∈ Finset.range (A.L + B.L + 1),
            W i j m n k * boysF k (pairArg A B C c i j)) ∧
      ∀ (out : List ℝ) (_ : A.cart_size * B.cart_size ≤ out.length),
        ∃ out', mmdIntegrals sf A B C c 1 out = .ok out' ∧
          ∀ m n, m < A.cart_size → n < B.cart_size → ∃ v, out'[m * B.cart_size + n]? = some v ∧
            |v - ∫ r, basisFn (dropTiny A) m r * localTerm 1 c C r * basisFn (dropTiny B) n r| ≤
              1.7e-14 * ∑ i ∈ Finset.range A.num, ∑ j ∈ Finset.range B.num, ∑ k ∈ Finset.range (A.L + B.L + 1),
                |W i j m n k| := by
  obtain ⟨-, hc, h1⟩ := hr
  obtain ⟨W, hW, hcode⟩ := local_term_weights A B sA sB C c hc 1 (Or.inr rfl)
  simp only [if_true] at hW
  have hA := sA.L9
  have hB := sB.L9
  have hacc : ∀ i j, ∃ bv : ℕ → ℝ, i < A.num → j < B.num → ∀ k ≤ A.L + B.L,
      boysFunction boysLiteral k (pairArg A B C c i j) = .ok (bv k) ∧ |bv k - boysF k (pairArg A B C c i j)| ≤ 1.7e-14 := by
    intro i j
    by_cases h : i < A.num ∧ j < B.num
    · have hx : 0 ≤ pairArg A B C c i j := by
        rw [← auxArg_eq]
        exact auxArg_nonneg A B C c i j (by have := sA.pos.at h.1; have := sB.pos.at h.2; linarith)
      have : ∀ k, ∃ v, k ≤ A.L + B.L → boysFunction boysLiteral k (pairArg A B C c i j) = .ok v ∧
          |v - boysF k (pairArg A B C c i j)| ≤ 1.7e-14 := by
        intro k
        by_cases hk : k ≤ A.L + B.L
        · obtain ⟨v, h3, h4⟩ := boysFunction_close boysLiteral (ε := 4e-15) (by norm_num) boysLiteral_close k
            (pairArg A B C c i j) hx (by
              rcases h1 rfl with h | h'
              · exact Or.inr (by omega)
              · exact Or.inl ⟨h' i h.1 j h.2, by omega⟩)
          exact ⟨v, fun _ => ⟨h3, h4.trans (by norm_num)⟩⟩
        · exact ⟨0, fun h => absurd h hk⟩
      choose v hv using this
      exact ⟨v, fun _ _ k hk => hv k hk⟩
    · exact ⟨fun _ => 0, fun h1 h2 => absurd ⟨h1, h2⟩ h⟩
  choose bv hbv using hacc
  refine ⟨W, hW, fun out hlen => ?_⟩
  obtain ⟨out', h3, h4⟩ := hcode sf bv (fun i hi j hj => ⟨fun _ => boysValues_ok sf.boys (by omega) _ fun n hn => by
    rw [hsf]; exact (hbv i j hi hj n hn).1, fun h => by norm_num at h⟩) out hlen
  refine ⟨out', h3, fun m n hm hn => ⟨_, h4 m n hm hn, ?_⟩⟩
  rw [hW m n hm hn, ← Finset.sum_sub_distrib, Finset.mul_sum]
  refine (Finset.abs_sum_le_sum_abs _ _).trans (Finset.sum_le_sum fun i hi => ?_)
  rw [← Finset.sum_sub_distrib, Finset.mul_sum]
  refine (Finset.abs_sum_le_sum_abs _ _).trans (Finset.sum_le_sum fun j hj => ?_)
  rw [← Finset.sum_sub_distrib, Finset.mul_sum]
  refine (Finset.abs_sum_le_sum_abs _ _).trans (Finset.sum_le_sum fun k hk => ?_)
  rw [Finset.mem_range] at hi hj hk
  rw [← mul_sub, abs_mul, mul_comm]
  exact mul_le_mul_of_nonneg_right (hbv i j hi hj k (by omega)).2 (abs_nonneg _)

/-! ## C29 -/

/-- **C29.** The coefficients built for primitives with exponents `a`, `b`, centres `A`, `B` and a potential Gaussian with
exponent `c ` at `C` expand the product of the three Gaussians times `(x-A)^i (x-B)^j` exactly in Hermite Gaussians, that
is in derivatives of `exp(-q(x-Q)²)` with respect to the centre `Q`; for every coordinate, every `i`, `j` and every `x`. -/
theorem hermite_expansion (A B C : Point) (a b c : ℝ) (hq : a + b + c ≠ 0) (LA LB : Nat) (hLA : LA ≤ 9) (hLB : LB ≤ 9) :
    ∃ E, setupE (mmdData A a B b C c) LA LB = .ok E ∧
      ∀ (k : Fin 3) (i j : Nat), i ≤ LA → j ≤ LB → ∃ e : ℕ → ℝ,
        (∀ t ≤ i + j, E k.val i j t = some (e t)) ∧
        ∀ x : ℝ, (x - A k) ^ i * (x - B k) ^ j *
            Real.exp (-a * (x - A k) ^ 2 + -b * (x - B k) ^ 2 + -c * (x - C k) ^ 2) =
          ∑ t ∈ Finset.range (i + j + 1), e t *
            iteratedDeriv t (fun Q => Real.exp (-(a + b + c) * (x - Q) ^ 2)) ((a * A k + b * B k + c * C k) / (a + b + c)) := by
  obtain ⟨E, hE, hv⟩ := setupE_spec (mmdData A a B b C c) hq LA LB hLA hLB
  refine ⟨E, hE, fun k i j hi hj => ⟨eVal (mmdData A a B b C c) k i j, fun t ht => hv k i j t hi hj ht, fun x => ?_⟩⟩
  have := hermE_expand hq (A k) (B k) ((mmdData A a B b C c).Q k) ((mmdData A a B b C c).K k) x i j (i + j + 1) (by omega)
  simp only [herG_center_deriv]
  rw [gauss_product3 hq]
  exact this

/-! ## C30 -/

/-- **C30** (`r⁻¹`). With exact values of the Boys functions, `R[t][u][v][0]` is the `t`-th, `u`-th and `v`-th partial
derivative of `P ↦ F_0(q|P-C|²)` at `P = Q`. -/
theorem hermite_coulomb_table (d : Mmd) (LA LB : Nat) (hL : LA + LB ≤ 19) (f : Aux)
    (hf : ∀ k ≤ LA + LB, f k = some (boysF k (d.q * ∑ l, (d.Q l - d.C l) ^ 2))) :
    ∃ R, setupRG rLower (-2 * d.q) d LA LB f = .ok R ∧ ∀ t u v, t + u + v ≤ LA + LB → R t u v 0 =
      some ((pderiv 0)^[t] ((pderiv 1)^[u] ((pderiv 2)^[v] fun P => boysF 0 (d.q * ∑ l, (P l - d.C l) ^ 2))) d.Q) := by
  obtain ⟨R, hR, hv⟩ := setupRG_spec rLower (-2 * d.q) 0 rLower_lowersBy d LA LB hL f _ hf
  refine ⟨R, hR, fun t u v h => ?_⟩
  rw [hv t u v 0 (by omega), rSol_boys]
  simp only [boysF_superposition, pow_zero, one_mul]
  rw [iterate_pderiv_dgs3 (p := fun s => d.q * s ^ 2) (by fun_prop)]

/-- **C30** (`r⁻²`). The same for the table of the `r⁻²` routine and `P ↦ G_0(q|P-C|²)`. -/
theorem hermite_inverse_square_table (d : Mmd) (LA LB : Nat) (hL : LA + LB ≤ 19) (f : Aux)
    (hf : ∀ k ≤ LA + LB, f k = some (gF k (d.q * ∑ l, (d.Q l - d.C l) ^ 2))) :
    ∃ R, setupRG (gLower d.q) (2 * d.q) d LA LB f = .ok R ∧ ∀ t u v, t + u + v ≤ LA + LB → R t u v 0 =
      some ((pderiv 0)^[t] ((pderiv 1)^[u] ((pderiv 2)^[v] fun P => gF 0 (d.q * ∑ l, (P l - d.C l) ^ 2))) d.Q) := by
  obtain ⟨R, hR, hv⟩ := setupRG_spec (gLower d.q) (2 * d.q) (-2 * d.q) (gLower_lowersBy d.q) d LA LB hL f _ hf
  refine ⟨R, hR, fun t u v h => ?_⟩
  rw [hv t u v 0 (by omega), rSol_g]
  simp only [gF_superposition, pow_zero, one_mul]
  rw [iterate_pderiv_dgs3 (p := fun s => d.q * (1 - s ^ 2)) (by fun_prop)]

/-! ## C31 -/

/-- **C31, partial.** Full statement: for `L_A, L_B ≤ 10` and all distances the local-potential integrals access only memory
inside their work arrays and return. False for `L = 10` (`type1_overflow`) and, for `r⁻¹` terms, for `L_A + L_B ≥ 16` at
large distances (`type1_aborts`). Holds for `L_A, L_B ≤ 9` when every `r⁻¹` term has `L_A + L_B ≤ 15` or arguments of the Boys
function not above 30. -/
theorem type1_in_bounds_partial (sf : SpecFun) (A B : Shell) (sA : A.Supported) (sB : B.Supported) (C : Point) (p : Potential)
    (hp : p.WF) (hr : ∀ k < p.num, InRange A B C (p.powers.getD k 0) (p.alpha.getD k 0))
    (out : List ℝ) (hlen : A.cart_size * B.cart_size ≤ out.length) :
    ∃ out', type1Integrals sf true A B C (some p) out = .ok out' ∧ out'.length = out.length ∧
      ∀ q, A.cart_size * B.cart_size ≤ q → out'[q]? = out[q]? := by
  choose! bv hbv using fun k hk => InRange.supplies sf sA sB (hr k hk)
  obtain ⟨out', h1, -, h3, h4⟩ := type1_spec sf A B C p hp
    (fun k => termValue (p.powers.getD k 0) A B C (p.alpha.getD k 0) (bv k))
    (fun k hk buf hb => mmdIntegrals_spec sf _ (hr k hk).1 A B sA sB C _ (hr k hk).2.1 _ (hbv k hk) buf hb) out hlen
  exact ⟨out', h1, h3, h4⟩

/-- **C31** is false at the documented maximum: with `L = 10` on either side and a first primitive that is not screened, a
Gaussian (`r⁰`) or `r⁻²` potential term writes outside the coefficient table. -/
theorem type1_overflow (sf : SpecFun) (A B : Shell) (hA : A.WF) (hB : B.WF) (pA : A.Pos) (pB : B.Pos) (nA : 0 < A.num)
    (nB : 0 < B.num) (cA : 1e-14 ≤ |A.coeffs.getD 0 0|) (cB : 1e-14 ≤ |B.coeffs.getD 0 0|) (hL : 10 ≤ A.L ∨ 10 ≤ B.L)
    (hLL : A.L + B.L < 100) (C : Point) (c : ℝ) (hc : 0 ≤ c) (power : Int) (hpow : power = 2 ∨ power = 0)
    (out : List ℝ) (hlen : A.cart_size * B.cart_size ≤ out.length) :
    mmdIntegrals sf A B C c power out = .ub := by
  unfold mmdIntegrals
  rw [Outcome.assert_pos (by tauto)]
  simp only [Outcome.ok_bind]
  refine (contractScreened_first A B hA hB nA nB cA cB _ out hlen).1 fun buf => ?_
  have hq : A.alpha.getD 0 0 + B.alpha.getD 0 0 + c ≠ 0 := by
    have h1 : 0 < A.alpha.getD 0 0 := pA 0 nA
    have h2 : 0 < B.alpha.getD 0 0 := pB 0 nB
    linarith
  have hE := setupE_ub (mmdData A.origin (A.alpha.getD 0 0) B.origin (B.alpha.getD 0 0) C c) hq A.L B.L hL
  rcases hpow with rfl | rfl
  · simp only [mmdPrim, if_true, mmdPrim2, hE, Outcome.ub_bind]
  · obtain ⟨bv, hbv⟩ := supplies_zero sf ((mmdData A.origin (A.alpha.getD 0 0) B.origin (B.alpha.getD 0 0) C c).q *
      (mmdData A.origin (A.alpha.getD 0 0) B.origin (B.alpha.getD 0 0) C c).rqc2) hLL
    obtain ⟨f, hf, -⟩ := hbv.2 rfl
    simp only [mmdPrim, show ((0 : Int) = 2) = False by simp, show ((0 : Int) = 1) = False by simp, if_false, if_true,
      mmdPrim0, hf, hE, Outcome.ok_bind, Outcome.ub_bind]

/-- **C31** is false within `L ≤ 9` too: with `L_A + L_B ≥ 16`, a first pair of primitives that is not screened and an argument
of the Boys function above 30 (distant centres), an `r⁻¹` term aborts the process. -/
theorem type1_aborts (sf : SpecFun) (A B : Shell) (hA : A.WF) (hB : B.WF) (nA : 0 < A.num)
    (nB : 0 < B.num) (cA : 1e-14 ≤ |A.coeffs.getD 0 0|) (cB : 1e-14 ≤ |B.coeffs.getD 0 0|) (hL : 16 ≤ A.L + B.L)
    (hLL : A.L + B.L < 100) (C : Point) (c : ℝ) (hx : 30 < pairArg A B C c 0 0)
    (out : List ℝ) (hlen : A.cart_size * B.cart_size ≤ out.length) :
    mmdIntegrals sf A B C c 1 out = .abort := by
  unfold mmdIntegrals
  rw [Outcome.assert_pos (by tauto)]
  simp only [Outcome.ok_bind]
  refine (contractScreened_first A B hA hB nA nB cA cB _ out hlen).2 fun buf => ?_
  have h := boysValues_abort sf.boys hx hLL hL
  rw [← auxArg_eq] at h
  have h' : boysValues sf.boys ((mmdData A.origin (A.alpha.getD 0 0) B.origin (B.alpha.getD 0 0) C c).q *
      (mmdData A.origin (A.alpha.getD 0 0) B.origin (B.alpha.getD 0 0) C c).rqc2) (A.L + B.L) = .abort := h
  simp only [mmdPrim, show ((1 : Int) = 2) = False by simp, if_false, if_true, mmdPrim1, h']
  rfl

/-- **C31** is false, at the entry point: the two failures above for a potential whose first term is of that kind. -/
theorem type1_integrals_fail (sf : SpecFun) (A B : Shell) (hA : A.WF) (hB : B.WF) (pA : A.Pos) (pB : B.Pos) (nA : 0 < A.num)
    (nB : 0 < B.num) (cA : 1e-14 ≤ |A.coeffs.getD 0 0|) (cB : 1e-14 ≤ |B.coeffs.getD 0 0|) (hLL : A.L + B.L < 100)
    (C : Point) (p : Potential) (hp : p.WF) (np : 0 < p.num) (out : List ℝ) (hlen : A.cart_size * B.cart_size ≤ out.length) :
    ((10 ≤ A.L ∨ 10 ≤ B.L) → 0 ≤ p.alpha.getD 0 0 → (p.powers.getD 0 0 = 2 ∨ p.powers.getD 0 0 = 0) →
      type1Integrals sf true A B C (some p) out = .ub) ∧
    (16 ≤ A.L + B.L → p.powers.getD 0 0 = 1 → 30 < pairArg A B C (p.alpha.getD 0 0) 0 0 →
      type1Integrals sf true A B C (some p) out = .abort) := by
  constructor
  · intro hL hα hpow
    obtain ⟨out0, hm, -, hsl, -⟩ := memset0_spec (A.cart_size * B.cart_size) out hlen
    unfold type1Integrals
    rw [Outcome.assert_pos rfl]
    simp only [hm, Outcome.ok_bind]
    rw [forRange_ub (k := 0) (fun _ (st : List ℝ × List ℝ) => st.1.length = A.cart_size * B.cart_size) np (by simp)
      (by intro i s hi; omega)]
    · rfl
    · rintro ⟨buf, o⟩ hbl
      have r3 : rd p.powers 0 = .ok (p.powers.getD 0 0) := by
        rw [rd_ok (lt_of_lt_of_le np hp.1)]
        simp [List.getD, List.getElem?_eq_getElem (lt_of_lt_of_le np hp.1)]
      have hmm := type1_overflow sf A B hA hB pA pB nA nB cA cB hL hLL C _ hα _ hpow buf hbl.ge
      simp only [rd_getD (lt_of_lt_of_le np hp.2.1), rd_getD (lt_of_lt_of_le np hp.2.2), r3, Outcome.ok_bind, hmm]
      rfl
  · intro hL hpow hx
    exact type1_abort sf A B C p hp np (by intro k hk; omega) (fun buf hb => by
      rw [hpow]; exact type1_aborts sf A B hA hB nA nB cA cB hL hLL C _ hx buf hb) out hlen

/-! ## C32 -/

/-- **C32.** There is a matrix for each power and exponent, depending on the shells and the centre only, such that the type-1
matrix of any potential in range is the combination of them with the potential's coefficients, whatever the output buffer
held before. -/
theorem type1_linear (sf : SpecFun) (A B : Shell) (sA : A.Supported) (sB : B.Supported) (C : Point) :
    ∃ M : Int → ℝ → ℕ → ℕ → ℝ, ∀ (p : Potential) (_ : p.WF)
      (_ : ∀ k < p.num, InRange A B C (p.powers.getD k 0) (p.alpha.getD k 0))
      (out : List ℝ) (_ : A.cart_size * B.cart_size ≤ out.length),
      ∃ out', type1Integrals sf true A B C (some p) out = .ok out' ∧
        ∀ m n, m < A.cart_size → n < B.cart_size → out'[m * B.cart_size + n]? =
          some (∑ k ∈ Finset.range p.num, p.coeffs.getD k 0 * M (p.powers.getD k 0) (p.alpha.getD k 0) m n) := by
  have h : ∀ (power : Int) (c : ℝ), ∃ bv : ℕ → ℕ → ℕ → ℝ, InRange A B C power c → ∀ i < A.num, ∀ j < B.num,
      Supplies sf power (auxArg A B C c i j) (A.L + B.L) (bv i j) := by
    intro power c
    by_cases h : InRange A B C power c
    · obtain ⟨bv, hbv⟩ := InRange.supplies sf sA sB h
      exact ⟨bv, fun _ => hbv⟩
    · exact ⟨fun _ _ _ => 0, fun h' => absurd h' h⟩
  choose bv hbv using h
  refine ⟨fun power c => termValue power A B C c (bv power c), fun p hp hr out hlen => ?_⟩
  obtain ⟨out', h1, h2, -⟩ := type1_spec sf A B C p hp
    (fun k => termValue (p.powers.getD k 0) A B C (p.alpha.getD k 0) (bv _ _))
    (fun k hk buf hb => mmdIntegrals_spec sf _ (hr k hk).1 A B sA sB C _ (hr k hk).2.1 _ (hbv _ _ (hr k hk)) buf hb) out hlen
  exact ⟨out', h1, h2⟩

/-- **C32** (null potential). The matrix is filled with zeros, for any shells. -/
theorem type1_null (sf : SpecFun) (A B : Shell) (C : Point) (out : List ℝ) (hlen : A.cart_size * B.cart_size ≤ out.length) :
    ∃ out', type1Integrals sf true A B C none out = .ok out' ∧ out'.length = out.length ∧
      (∀ q < A.cart_size * B.cart_size, out'[q]? = some 0) ∧ ∀ q, A.cart_size * B.cart_size ≤ q → out'[q]? = out[q]? := by
  obtain ⟨out0, hm, hz, hsl, hsb⟩ := memset0_spec (A.cart_size * B.cart_size) out hlen
  refine ⟨out0, ?_, hsl, hz, hsb⟩
  unfold type1Integrals
  rw [Outcome.assert_pos rfl]
  simp only [hm, Outcome.ok_bind]

/-- **C32** (powers). A term with a power outside {0, 1, 2} aborts the process, after any terms in range. -/
theorem type1_bad_power (sf : SpecFun) (A B : Shell) (sA : A.Supported) (sB : B.Supported) (C : Point) (p : Potential)
    (hp : p.WF) (k0 : Nat) (hk0 : k0 < p.num) (hr : ∀ k < k0, InRange A B C (p.powers.getD k 0) (p.alpha.getD k 0))
    (hbad : ¬ (p.powers.getD k0 0 = 0 ∨ p.powers.getD k0 0 = 1 ∨ p.powers.getD k0 0 = 2))
    (out : List ℝ) (hlen : A.cart_size * B.cart_size ≤ out.length) :
    type1Integrals sf true A B C (some p) out = .abort := by
  apply type1_abort sf A B C p hp hk0 _ _ out hlen
  · intro k hk buf hb
    obtain ⟨bv, hbv⟩ := InRange.supplies sf sA sB (hr k hk)
    obtain ⟨buf', h1, -, h2, -⟩ := mmdIntegrals_spec sf _ (hr k hk).1 A B sA sB C _ (hr k hk).2.1 _ hbv buf hb
    exact ⟨buf', h1, h2⟩
  · intro buf _
    unfold mmdIntegrals
    rw [Outcome.assert_neg hbad]
    rfl

/-- Before initialisation the process is aborted. -/
theorem type1_uninitialised (sf : SpecFun) (A B : Shell) (C : Point) (pot : Option Potential) (out : List ℝ) :
    type1Integrals sf false A B C pot out = .abort := by
  unfold type1Integrals
  rw [Outcome.assert_neg (by simp)]
  rfl

/-! ## Concrete cases -/

/-- Two `s` primitives at the origin. -/
noncomputable def sShell : Shell :=
  { L := 0, origin := fun _ => 0, cart_size := 1, cartList := [(0, 0, 0)], num := 1, coeffs := [1], alpha := [1] }

theorem sShell_supported : sShell.Supported := by
  refine ⟨⟨by simp [sShell], by simp [sShell]⟩, ⟨by simp [sShell], by simp [sShell]⟩, by simp [Shell.SumLe, sShell], ?_,
    by simp [sShell]⟩
  intro i hi
  have : i = 0 := by simp only [sShell] at hi; omega
  subst this
  simp [sShell]

/-- A potential with all three kinds of terms. -/
noncomputable def mixedPotential : Potential :=
  { L := 0, J := 0, num := 3, powers := [2, 1, 0], coeffs := [1, -2, 3], alpha := [1, 0.5, 0] }

theorem mixedPotential_wf : mixedPotential.WF := by simp [Potential.WF, mixedPotential]

/-- The hypotheses of the theorems are satisfiable with a potential that uses all three routines. -/
example (sf : SpecFun) (C : Point) :
    ∃ out', type1Integrals sf true sShell sShell C (some mixedPotential) [7, 7] = .ok out' ∧ out'.length = 2 ∧
      out'[1]? = some 7 := by
  obtain ⟨out', h1, h2, h3⟩ := type1_in_bounds_partial sf sShell sShell sShell_supported sShell_supported C mixedPotential
    mixedPotential_wf (by
      intro k hk
      have : k = 0 ∨ k = 1 ∨ k = 2 := by simp only [mixedPotential] at hk; omega
      rcases this with rfl | rfl | rfl <;>
        exact ⟨by simp [mixedPotential], by simp [mixedPotential] <;> norm_num, fun _ => Or.inl (by simp [sShell])⟩)
    [7, 7] (by simp [sShell])
  exact ⟨out', h1, h2, by rw [h3 1 (by simp [sShell])]; rfl⟩

/-- A Gaussian potential term between `s` functions, unconditionally: a number that is not zero by accident. -/
example (sf : SpecFun) (C : Point) :
    ∃ v, type1Integrals sf true sShell sShell C (some { mixedPotential with num := 1 }) [7] = .ok [v] ∧
      v = ∫ r, basisFn sShell 0 r * Real.exp (-1 * ∑ l, (r l - C l) ^ 2) * basisFn sShell 0 r := by
  obtain ⟨out', h1, h2, h3, -⟩ := type1_gaussian_true sf sShell sShell sShell_supported sShell_supported C
    { mixedPotential with num := 1 } (by simp [Potential.WF, mixedPotential])
    (by intro k hk; have : k = 0 := by simp only at hk; omega
        subst this; simp [mixedPotential])
    (by intro k hk; have : k = 0 := by simp only at hk; omega
        subst this; simp [mixedPotential]) [7] (by simp [sShell])
  have h4 := h3 0 0 (by simp [sShell]) (by simp [sShell])
  rw [dropTiny_same sShell (by
    intro i hi h
    have : i = 0 := by simp only [sShell] at hi; omega
    subst this
    norm_num [sShell] at h)] at h4
  obtain ⟨v, rfl⟩ : ∃ v, out' = [v] := List.length_eq_one_iff.1 h2
  refine ⟨v, h1, ?_⟩
  simp only [Nat.zero_mul, Nat.zero_add, List.getElem?_cons_zero, Option.some.injEq] at h4
  rw [h4]
  simp [mixedPotential]

/-- A shell with `L = 10` overflows; the hypotheses are satisfiable. -/
example (sf : SpecFun) (C : Point) (out : List ℝ) (h : 1 ≤ out.length) :
    mmdIntegrals sf { sShell with L := 10 } sShell C 0 2 out = .ub :=
  type1_overflow sf { sShell with L := 10 } sShell (by simp [Shell.WF, sShell]) (by simp [Shell.WF, sShell])
    (by intro i hi; exact sShell_supported.pos i hi) sShell_supported.pos
    (by simp [sShell]) (by simp [sShell]) (by norm_num [sShell]) (by norm_num [sShell]) (Or.inl (by simp)) (by simp [sShell])
    C 0 le_rfl 2 (Or.inl rfl) out (by simpa [sShell] using h)

/-- Two shells with `L = 8` at the origin and a centre at distance 6 (bohr): the process is aborted. -/
example (sf : SpecFun) (out : List ℝ) (h : 1 ≤ out.length) :
    mmdIntegrals sf { sShell with L := 8 } { sShell with L := 8 } (fun k => if k = 0 then 6 else 0) 0 1 out = .abort :=
  type1_aborts sf _ _ (by simp [Shell.WF, sShell]) (by simp [Shell.WF, sShell]) (by simp [sShell]) (by simp [sShell])
    (by norm_num [sShell]) (by norm_num [sShell]) (by simp) (by simp) _ 0
    (by norm_num [pairArg, sShell, Fin.sum_univ_three]) out (by simpa [sShell] using h)

end Libgrpp
