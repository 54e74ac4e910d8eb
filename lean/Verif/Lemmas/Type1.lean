import Verif.Lemmas.Mmd
import Verif.Lemmas.SpecFun
import Verif.Lemmas.Potential

/-! The local-potential integrals for all three powers, in terms of the values of the auxiliary functions. -/

namespace Libgrpp

open MeasureTheory Set

/-- What the constructor guarantees about a shell, together with positive exponents and `L ≤ 9`. -/
structure Shell.Supported (s : Shell) : Prop where
  wf : s.WF
  listed : s.Listed
  sumLe : s.SumLe
  pos : s.Pos
  L9 : s.L ≤ 9

theorem newShell_supported {gen : Nat → List Comp} (hg : DocumentedOrder gen) {origin : Point} {L num : Nat}
    {coeffs alpha : List ℝ} (hc : num ≤ coeffs.length) (ha : num ≤ alpha.length) (hL : L ≤ 9)
    (hp : ∀ i < num, 0 < alpha.getD i 0) {s : Shell}
    (hs : newShell gen origin L num coeffs alpha = .ok s) : s.Supported := by
  have hs' := hs
  rw [new_shell_value gen origin L num coeffs alpha hc ha] at hs'
  obtain ⟨h1, h2⟩ := newShell_listed hg hc ha hs
  refine ⟨h1, h2, newShell_sumLe hg hc ha hs, ?_, ?_⟩
  · cases hs'
    intro i hi
    have := hp i hi
    simp only at hi ⊢
    simpa [List.getD, List.getElem?_take, hi] using this
  · cases hs'; exact hL

theorem auxArg_eq (A B : Shell) (C : Point) (c : ℝ) (i j : Nat) : auxArg A B C c i j = pairArg A B C c i j := by
  unfold auxArg pairData
  rw [rqc2_eq]
  rfl

/-- The special-function code returns the numbers `bv 0, …, bv nmax` for the argument `x`. -/
def Supplies (sf : SpecFun) (power : Int) (x : ℝ) (nmax : Nat) (bv : ℕ → ℝ) : Prop :=
  (power = 1 → ∃ f, boysValues sf.boys x nmax = .ok f ∧ ∀ k ≤ nmax, f k = some (bv k)) ∧
  (power = 0 → ∃ f, gfunValues sf.dawson x nmax = .ok f ∧ ∀ k ≤ nmax, f k = some (bv k))

/-- The exact auxiliary function. -/
noncomputable def auxExact (power : Int) (k : ℕ) (x : ℝ) : ℝ := if power = 1 then boysF k x else gF k x

/-- Matrix element of a pair of primitives in terms of the values of the auxiliary function. -/
noncomputable def pairValue (power : Int) (A B : Shell) (C : Point) (c : ℝ) (i j : Nat) (bv : ℕ → ℝ) (m n : Nat) : ℝ :=
  let q := A.alphaAt i + B.alphaAt j + c
  let d := mmdData A.origin (A.alphaAt i) B.origin (B.alphaAt j) C c
  if power = 2 then Real.sqrt (Real.pi / q) ^ 3 * ∏ k, eVal d k ((A.comp m).exp k) ((B.comp n).exp k) 0
  else if power = 1 then 2 * Real.pi / q * tuvSum d (A.comp m) (B.comp n) fun t u v =>
    rSol (-2 * q) 0 (fun k => d.Q k - C k) bv t u v 0
  else 2 * Real.sqrt Real.pi ^ 3 / Real.sqrt q * tuvSum d (A.comp m) (B.comp n) fun t u v =>
    rSol (2 * q) (-2 * q) (fun k => d.Q k - C k) bv t u v 0

theorem mmdPrim_spec (sf : SpecFun) (power : Int) (hp : power = 0 ∨ power = 1 ∨ power = 2) (A B : Shell) (sA : A.Supported)
    (sB : B.Supported) (C : Point) (c : ℝ) (i j : Nat) (hq : 0 < A.alphaAt i + B.alphaAt j + c) (bv : ℕ → ℝ)
    (hs : Supplies sf power (auxArg A B C c i j) (A.L + B.L) bv)
    (buf : List ℝ) (hlen : A.cart_size * B.cart_size ≤ buf.length) :
    ∃ buf', mmdPrim sf power A B C c (A.alphaAt i) (B.alphaAt j) buf = .ok buf' ∧
      (MatIs A.cart_size B.cart_size buf' (fun m n =>
        gaussianNormFactor A.L 0 0 (A.alphaAt i) * gaussianNormFactor B.L 0 0 (B.alphaAt j) *
          pairValue power A B C c i j bv m n) ∧
      SameBeyond (A.cart_size * B.cart_size) buf' buf) := by
  unfold mmdPrim pairValue
  rcases hp with rfl | rfl | rfl
  · obtain ⟨f, hf, hb⟩ := hs.2 rfl
    simpa using mmdPrim0_spec sf A B sA.listed sB.listed sA.sumLe sB.sumLe sA.L9 sB.L9 C c _ _ hq f bv hf hb buf hlen
  · obtain ⟨f, hf, hb⟩ := hs.1 rfl
    simpa using mmdPrim1_spec sf A B sA.listed sB.listed sA.sumLe sB.sumLe sA.L9 sB.L9 C c _ _ hq f bv hf hb buf hlen
  · simpa using mmdPrim2_spec A B sA.listed sB.listed sA.L9 sB.L9 C c _ _ hq buf hlen

/-- Matrix element of contracted functions (tiny coefficients dropped) in terms of the auxiliary values `bv i j`. -/
noncomputable def termValue (power : Int) (A B : Shell) (C : Point) (c : ℝ) (bv : ℕ → ℕ → ℕ → ℝ) (m n : Nat) : ℝ :=
  ∑ i ∈ Finset.range A.num, ∑ j ∈ Finset.range B.num, (dropTiny A).coeffAt i * (dropTiny B).coeffAt j *
    (gaussianNormFactor A.L 0 0 (A.alphaAt i) * gaussianNormFactor B.L 0 0 (B.alphaAt j) *
      pairValue power A B C c i j (bv i j) m n)

theorem mmdIntegrals_spec (sf : SpecFun) (power : Int) (hp : power = 0 ∨ power = 1 ∨ power = 2) (A B : Shell)
    (sA : A.Supported) (sB : B.Supported) (C : Point) (c : ℝ) (hc : 0 ≤ c) (bv : ℕ → ℕ → ℕ → ℝ)
    (hs : ∀ i < A.num, ∀ j < B.num, Supplies sf power (auxArg A B C c i j) (A.L + B.L) (bv i j))
    (out : List ℝ) (hlen : A.cart_size * B.cart_size ≤ out.length) :
    ∃ out', mmdIntegrals sf A B C c power out = .ok out' ∧
      MatIs A.cart_size B.cart_size out' (termValue power A B C c bv) ∧
      SameBeyond (A.cart_size * B.cart_size) out' out := by
  unfold mmdIntegrals
  rw [Outcome.assert_pos hp]
  simp only [Outcome.ok_bind]
  exact contractScreened_spec A B sA.wf sB.wf _ _ out (fun i j buf hi hj hb => mmdPrim_spec sf power hp A B sA sB C c i j
    (by have := sA.pos.at hi; have := sB.pos.at hj; linarith) (bv i j) (hs i hi j hj) buf hb) hlen

/-- With the exact auxiliary functions the expression is the true integral. -/
theorem termValue_exact (power : Int) (hp : power = 0 ∨ power = 1 ∨ power = 2) (A B : Shell) (pA : A.Pos) (pB : B.Pos)
    (C : Point) (c : ℝ) (hc : 0 ≤ c) (m n : Nat) :
    Integrable (fun r => basisFn (dropTiny A) m r * localTerm power c C r * basisFn (dropTiny B) n r) ∧
    ∫ r, basisFn (dropTiny A) m r * localTerm power c C r * basisFn (dropTiny B) n r =
      termValue power A B C c (fun i j k => auxExact power k (pairArg A B C c i j)) m n := by
  have main := integral_contracted (dropTiny A) (dropTiny B) m n C c (fun r => radius C r ^ (power - 2))
    (fun i j => pairValue power A B C c i j (fun k => auxExact power k (auxArg A B C c i j)) m n) (by
      intro i hi j hj
      have hq : 0 < A.alphaAt i + B.alphaAt j + c := by
        have := pA.at hi; have := pB.at hj; linarith
      rcases hp with rfl | rfl | rfl
      · have := inverse_square_true hq A.origin B.origin C (A.comp m) (B.comp n)
        have e : ∀ r, radius C r ^ ((0 : ℤ) - 2) = (radius C r ^ 2)⁻¹ := fun r => by
          rw [zero_sub, zpow_neg]; rfl
        simp only [e]
        exact ⟨this.1, this.2.trans (by
          simp only [pairValue, auxExact]
          norm_num
          exact Or.inl rfl)⟩
      · have := coulomb_true hq A.origin B.origin C (A.comp m) (B.comp n)
        have e : ∀ r, radius C r ^ ((1 : ℤ) - 2) = (radius C r)⁻¹ := fun r => by
          norm_num
        simp only [e]
        exact ⟨this.1, this.2.trans (by
          simp only [pairValue, auxExact]
          norm_num
          exact Or.inl rfl)⟩
      · have := prim_gauss hq A.origin B.origin C (A.comp m) (B.comp n)
        have e : ∀ r, radius C r ^ ((2 : ℤ) - 2) = 1 := fun r => by norm_num
        simp only [e, mul_one]
        exact ⟨this.1, this.2.trans (by simp only [pairValue]; norm_num)⟩)
  simp only [auxArg_eq] at main
  exact main

theorem tuvSum_sum (d : Mmd) (x y : Comp) (w : ℕ → ℕ → ℕ → ℕ → ℝ) (b : ℕ → ℝ) (N : ℕ) :
    (tuvSum d x y fun t u v => ∑ k ∈ Finset.range N, b k * w k t u v) =
      ∑ k ∈ Finset.range N, tuvSum d x y (w k) * b k := by
  induction N with
  | zero => simp [tuvSum]
  | succ N ih =>
    rw [Finset.sum_range_succ, ← ih]
    unfold tuvSum
    rw [Finset.sum_mul, ← Finset.sum_add_distrib]
    refine Finset.sum_congr rfl fun t _ => ?_
    rw [Finset.sum_mul, ← Finset.sum_add_distrib]
    refine Finset.sum_congr rfl fun u _ => ?_
    rw [Finset.sum_mul, ← Finset.sum_add_distrib]
    refine Finset.sum_congr rfl fun v _ => ?_
    beta_reduce
    rw [Finset.sum_range_succ]
    ring

theorem tuvSum_linear (d : Mmd) (x y : Comp) (base κ : ℝ) (X : Fin 3 → ℝ) (b : ℕ → ℝ) (L : ℕ)
    (hL : x.1 + y.1 + (x.2.1 + y.2.1) + (x.2.2 + y.2.2) ≤ L) :
    (tuvSum d x y fun t u v => rSol base κ X b t u v 0) =
      ∑ k ∈ Finset.range (L + 1), (tuvSum d x y fun t u v => rWeight base κ X k t u v) * b k := by
  rw [← tuvSum_sum]
  unfold tuvSum
  refine Finset.sum_congr rfl fun t ht => Finset.sum_congr rfl fun u hu => Finset.sum_congr rfl fun v hv => ?_
  rw [Finset.mem_range] at ht hu hv
  beta_reduce
  rw [rSol_linear base κ X b t u v L (by omega)]

/-- Weight of the `k`-th auxiliary value in a primitive matrix element. -/
noncomputable def pairWeight (power : Int) (A B : Shell) (C : Point) (c : ℝ) (i j m n k : Nat) : ℝ :=
  pairValue power A B C c i j (fun l => if l = k then 1 else 0) m n

theorem pairValue_linear (power : Int) (hp : power ≠ 2) (A B : Shell) (sA : A.Supported) (sB : B.Supported) (C : Point)
    (c : ℝ) (i j : Nat) (bv : ℕ → ℝ) {m n : Nat} (hm : m < A.cart_size) (hn : n < B.cart_size) :
    pairValue power A B C c i j bv m n =
      ∑ k ∈ Finset.range (A.L + B.L + 1), pairWeight power A B C c i j m n k * bv k := by
  have h1 := A.comp_sum sA.listed sA.sumLe hm
  have h2 := B.comp_sum sB.listed sB.sumLe hn
  unfold pairWeight pairValue
  simp only [if_neg hp]
  by_cases h : power = 1
  · simp only [if_pos h]
    rw [tuvSum_linear _ _ _ _ _ _ bv (A.L + B.L) (by omega), Finset.mul_sum]
    exact Finset.sum_congr rfl fun k _ => by rw [← mul_assoc]; rfl
  · simp only [if_neg h]
    rw [tuvSum_linear _ _ _ _ _ _ bv (A.L + B.L) (by omega), Finset.mul_sum]
    exact Finset.sum_congr rfl fun k _ => by rw [← mul_assoc]; rfl

/-- Weight of the `k`-th auxiliary value of the pair `i`, `j` in a contracted matrix element. -/
noncomputable def termWeight (power : Int) (A B : Shell) (C : Point) (c : ℝ) (i j m n k : Nat) : ℝ :=
  (dropTiny A).coeffAt i * (dropTiny B).coeffAt j *
    (gaussianNormFactor A.L 0 0 (A.alphaAt i) * gaussianNormFactor B.L 0 0 (B.alphaAt j) *
      pairWeight power A B C c i j m n k)

theorem termValue_linear (power : Int) (hp : power ≠ 2) (A B : Shell) (sA : A.Supported) (sB : B.Supported) (C : Point)
    (c : ℝ) (bv : ℕ → ℕ → ℕ → ℝ) {m n : Nat} (hm : m < A.cart_size) (hn : n < B.cart_size) :
    termValue power A B C c bv m n = ∑ i ∈ Finset.range A.num, ∑ j ∈ Finset.range B.num,
      ∑ k ∈ Finset.range (A.L + B.L + 1), termWeight power A B C c i j m n k * bv i j k := by
  unfold termValue termWeight
  refine Finset.sum_congr rfl fun i _ => Finset.sum_congr rfl fun j _ => ?_
  rw [pairValue_linear power hp A B sA sB C c i j (bv i j) hm hn, Finset.mul_sum, Finset.mul_sum]
  exact Finset.sum_congr rfl fun k _ => by ring

theorem termValue_congr {power : Int} (hp : power = 2) (A B : Shell) (C : Point) (c : ℝ) (bv bv' : ℕ → ℕ → ℕ → ℝ)
    (m n : Nat) : termValue power A B C c bv m n = termValue power A B C c bv' m n := by
  subst hp
  simp [termValue, pairValue]

/-! ## When the special-function code returns -/

theorem supplies_two (sf : SpecFun) (x : ℝ) (nmax : Nat) (bv : ℕ → ℝ) : Supplies sf 2 x nmax bv :=
  ⟨fun h => by norm_num at h, fun h => by norm_num at h⟩

theorem supplies_zero (sf : SpecFun) (x : ℝ) {nmax : Nat} (hn : nmax < 100) : ∃ bv, Supplies sf 0 x nmax bv := by
  by_cases h : x ≤ 12
  · obtain ⟨K, -, h2, -⟩ := gfunTaylorLoop_eq nmax x 100 0 0
    obtain ⟨g, hg, hv⟩ := gfunValues_down sf.dawson h hn h2
    exact ⟨_, fun h => by norm_num at h, fun _ => ⟨g, hg, hv⟩⟩
  · obtain ⟨g, hg, hv⟩ := gfunValues_up sf.dawson (not_le.1 h) hn
    exact ⟨_, fun h => by norm_num at h, fun _ => ⟨g, hg, hv⟩⟩

theorem supplies_one (sf : SpecFun) {x : ℝ} {nmax : Nat} (hx : 0 ≤ x) (hn : nmax ≤ 33) (h : nmax ≤ 15 ∨ x ≤ 30) :
    Supplies sf 1 x nmax (fun n => if x ≤ 30 then
      boysTaylor (boysAt sf.boys (boysRow x)) n (x - (boysRow x : ℝ) * 0.1) else boysAsym n x) := by
  refine ⟨fun _ => ?_, fun h => by norm_num at h⟩
  apply boysValues_ok sf.boys (by omega)
  intro n hn'
  by_cases h30 : x ≤ 30
  · rw [if_pos h30]; exact boysFunction_small sf.boys hx h30 (by omega)
  · rw [if_neg h30]; exact boysFunction_large sf.boys (not_le.1 h30)
      (hn'.trans (h.resolve_right h30))

/-- The range in which the auxiliary functions are available. -/
def InRange (A B : Shell) (C : Point) (power : Int) (c : ℝ) : Prop :=
  (power = 0 ∨ power = 1 ∨ power = 2) ∧ 0 ≤ c ∧
    (power = 1 → A.L + B.L ≤ 15 ∨ ∀ i < A.num, ∀ j < B.num, pairArg A B C c i j ≤ 30)

theorem InRange.supplies (sf : SpecFun) {A B : Shell} (sA : A.Supported) (sB : B.Supported) {C : Point} {power : Int} {c : ℝ}
    (h : InRange A B C power c) : ∃ bv : ℕ → ℕ → ℕ → ℝ, ∀ i < A.num, ∀ j < B.num,
      Supplies sf power (auxArg A B C c i j) (A.L + B.L) (bv i j) := by
  have := sA.L9
  have := sB.L9
  obtain ⟨hp, hc, h1⟩ := h
  rcases hp with rfl | rfl | rfl
  · choose bv hbv using fun i j => supplies_zero sf (auxArg A B C c i j) (nmax := A.L + B.L) (by omega)
    exact ⟨bv, fun i _ j _ => hbv i j⟩
  · refine ⟨_, fun i hi j hj => supplies_one sf (auxArg_nonneg A B C c i j ?_) (by omega) ?_⟩
    · have := sA.pos.at hi; have := sB.pos.at hj; linarith
    · rcases h1 rfl with h | h
      · exact Or.inl h
      · exact Or.inr (by rw [auxArg_eq]; exact h i hi j hj)
  · exact ⟨fun _ _ _ => 0, fun i _ j _ => supplies_two sf _ _ _⟩

/-! ## The sum over the terms of the potential -/

theorem type1_spec (sf : SpecFun) (A B : Shell) (C : Point) (p : Potential) (hp : p.WF) (g : Nat → Nat → Nat → ℝ)
    (h : ∀ k < p.num, ∀ buf : List ℝ, A.cart_size * B.cart_size ≤ buf.length →
      ∃ buf', mmdIntegrals sf A B C (p.alpha.getD k 0) (p.powers.getD k 0) buf = .ok buf' ∧
        MatIs A.cart_size B.cart_size buf' (g k) ∧ SameBeyond (A.cart_size * B.cart_size) buf' buf)
    (out : List ℝ) (hlen : A.cart_size * B.cart_size ≤ out.length) :
    ∃ out', type1Integrals sf true A B C (some p) out = .ok out' ∧
      MatIs A.cart_size B.cart_size out' (fun m n => ∑ k ∈ Finset.range p.num, p.coeffs.getD k 0 * g k m n) ∧
      SameBeyond (A.cart_size * B.cart_size) out' out := by
  obtain ⟨out0, hm, hz, hsl, hsb⟩ := memset0_spec (A.cart_size * B.cart_size) out hlen
  have key : ∃ r, (forRange p.num (List.replicate (A.cart_size * B.cart_size) (0 : ℝ), out0)
      fun k (st : List ℝ × List ℝ) => do
        let c ← rd p.coeffs k
        let a ← rd p.alpha k
        let w ← rd p.powers k
        let buf ← mmdIntegrals sf A B C a w st.1
        let out ← daxpy (A.cart_size * B.cart_size) c buf st.2
        .ok (buf, out)) = .ok r ∧
      (MatIs A.cart_size B.cart_size r.2 (fun m n => ∑ k ∈ Finset.range p.num, p.coeffs.getD k 0 * g k m n) ∧
        SameBeyond (A.cart_size * B.cart_size) r.2 out) := by
    refine forRange_spec (fun k (st : List ℝ × List ℝ) => st.1.length = A.cart_size * B.cart_size ∧
      MatIs A.cart_size B.cart_size st.2 (fun m n => ∑ k ∈ Finset.range k, p.coeffs.getD k 0 * g k m n) ∧
      SameBeyond (A.cart_size * B.cart_size) st.2 out) ⟨by simp, ?_, hsl, hsb⟩ ?_ ?_
    · intro i j hi hj
      simp only [Finset.range_zero, Finset.sum_empty]
      exact hz _ (rowMajor_lt hi hj)
    · rintro k ⟨buf, o⟩ hk ⟨hbl, hmat, hsame⟩
      simp only at hbl hmat hsame ⊢
      rw [rd_getD (show k < p.coeffs.length from lt_of_lt_of_le hk hp.2.1),
        rd_getD (show k < p.alpha.length from lt_of_lt_of_le hk hp.2.2),
        rd_ok (a := p.powers) (show k < p.powers.length from lt_of_lt_of_le hk hp.1)]
      simp only [Outcome.ok_bind]
      obtain ⟨buf', hb, hb1, hb2, hb3⟩ := h k hk buf hbl.ge
      have e : p.powers[k]'(lt_of_lt_of_le hk hp.1) = p.powers.getD k 0 := by
        simp [List.getD, List.getElem?_eq_getElem (lt_of_lt_of_le hk hp.1)]
      rw [e, hb]
      simp only [Outcome.ok_bind]
      obtain ⟨o', ho, ho1, ho2, ho3⟩ := daxpy_matIs A.cart_size B.cart_size (p.coeffs.getD k 0) buf' o _ _ hb1
        (by omega) hmat (by rw [hsame.1]; exact hlen)
      rw [ho]
      refine ⟨(buf', o'), rfl, by rw [← hbl]; exact hb2, ?_, ?_⟩
      · intro m n hm hn
        rw [ho1 m n hm hn]
        beta_reduce
        rw [Finset.sum_range_succ]
      · exact ⟨by rw [← hsame.1, ← ho2], fun q hq => by rw [ho3 q hq, hsame.2 q hq]⟩
    · rintro ⟨buf, o⟩ ⟨-, h2, h3⟩
      exact ⟨h2, h3⟩
  obtain ⟨r, hr, h1, h2⟩ := key
  refine ⟨r.2, ?_, h1, h2⟩
  unfold type1Integrals
  rw [Outcome.assert_pos rfl]
  simp only [hm, Outcome.ok_bind]
  rw [hr]
  rfl

theorem type1_abort (sf : SpecFun) (A B : Shell) (C : Point) (p : Potential) (hp : p.WF) {k0 : Nat} (hk0 : k0 < p.num)
    (h : ∀ k < k0, ∀ buf : List ℝ, A.cart_size * B.cart_size ≤ buf.length →
      ∃ buf', mmdIntegrals sf A B C (p.alpha.getD k 0) (p.powers.getD k 0) buf = .ok buf' ∧ buf'.length = buf.length)
    (hab : ∀ buf : List ℝ, A.cart_size * B.cart_size ≤ buf.length →
      mmdIntegrals sf A B C (p.alpha.getD k0 0) (p.powers.getD k0 0) buf = .abort)
    (out : List ℝ) (hlen : A.cart_size * B.cart_size ≤ out.length) :
    type1Integrals sf true A B C (some p) out = .abort := by
  obtain ⟨out0, hm, hz, hsl, hsb⟩ := memset0_spec (A.cart_size * B.cart_size) out hlen
  unfold type1Integrals
  rw [Outcome.assert_pos rfl]
  simp only [hm, Outcome.ok_bind]
  have rds : ∀ k < p.num, rd p.coeffs k = .ok (p.coeffs.getD k 0) ∧ rd p.alpha k = .ok (p.alpha.getD k 0) ∧
      rd p.powers k = .ok (p.powers.getD k 0) := by
    intro k hk
    refine ⟨rd_getD (lt_of_lt_of_le hk hp.2.1), rd_getD (lt_of_lt_of_le hk hp.2.2), ?_⟩
    rw [rd_ok (lt_of_lt_of_le hk hp.1)]
    simp [List.getD, List.getElem?_eq_getElem (lt_of_lt_of_le hk hp.1)]
  rw [forRange_abort (k := k0) (fun _ (st : List ℝ × List ℝ) => st.1.length = A.cart_size * B.cart_size ∧
    A.cart_size * B.cart_size ≤ st.2.length) hk0 ⟨by simp, by rw [hsl]; exact hlen⟩]
  · rfl
  · rintro k ⟨buf, o⟩ hk ⟨hbl, hol⟩
    obtain ⟨r1, r2, r3⟩ := rds k (by omega)
    simp only [r1, r2, r3, Outcome.ok_bind]
    obtain ⟨buf', hb, hb1⟩ := h k hk buf hbl.ge
    simp only [hb, Outcome.ok_bind]
    simp only at hbl hol
    obtain ⟨o', ho, ho1, -⟩ := daxpy_correct (A.cart_size * B.cart_size) (p.coeffs.getD k 0) buf' o (by omega) hol
    rw [ho]
    exact ⟨(buf', o'), rfl, by simp only; omega, by simp only; omega⟩
  · rintro ⟨buf, o⟩ ⟨hbl, hol⟩
    obtain ⟨r1, r2, r3⟩ := rds k0 hk0
    simp only [r1, r2, r3, Outcome.ok_bind, hab buf hbl.ge]
    rfl

/-- A failure of the primitive routine at the first pair of primitives is a failure of the contraction. -/
theorem contractScreened_first (A B : Shell) (hA : A.WF) (hB : B.WF) (nA : 0 < A.num) (nB : 0 < B.num)
    (cA : 1e-14 ≤ |A.coeffs.getD 0 0|) (cB : 1e-14 ≤ |B.coeffs.getD 0 0|) (prim : ℝ → ℝ → List ℝ → Outcome (List ℝ))
    (out : List ℝ) (hlen : A.cart_size * B.cart_size ≤ out.length) :
    ((∀ buf, prim (A.alpha.getD 0 0) (B.alpha.getD 0 0) buf = .ub) → contractScreened A B prim out = .ub) ∧
    ((∀ buf, prim (A.alpha.getD 0 0) (B.alpha.getD 0 0) buf = .abort) → contractScreened A B prim out = .abort) := by
  obtain ⟨out0, hm, -⟩ := memset0_spec (A.cart_size * B.cart_size) out hlen
  have tA : ¬ |A.coeffs.getD 0 0| < zeroThresh := not_lt.2 cA
  have tB : ¬ |B.coeffs.getD 0 0| < zeroThresh := not_lt.2 cB
  constructor <;> intro hp
  · unfold contractScreened
    simp only [hm, Outcome.ok_bind]
    rw [forRange_ub (k := 0) (fun _ _ => True) nA trivial (by intro i s hi; omega) ?_]
    · rfl
    · intro st _
      rw [rd_getD (lt_of_lt_of_le nA hA.1)]
      simp only [Outcome.ok_bind, if_neg tA]
      apply forRange_ub (k := 0) (fun _ _ => True) nB trivial (by intro i s hi; omega)
      intro st _
      rw [rd_getD (lt_of_lt_of_le nB hB.1)]
      simp only [Outcome.ok_bind, if_neg tB]
      rw [rd_getD (lt_of_lt_of_le nA hA.2), rd_getD (lt_of_lt_of_le nB hB.2)]
      simp only [Outcome.ok_bind, hp, Outcome.ub_bind]
  · unfold contractScreened
    simp only [hm, Outcome.ok_bind]
    rw [forRange_abort (k := 0) (fun _ _ => True) nA trivial (by intro i s hi; omega) ?_]
    · rfl
    · intro st _
      rw [rd_getD (lt_of_lt_of_le nA hA.1)]
      simp only [Outcome.ok_bind, if_neg tA]
      apply forRange_abort (k := 0) (fun _ _ => True) nB trivial (by intro i s hi; omega)
      intro st _
      rw [rd_getD (lt_of_lt_of_le nB hB.1)]
      simp only [Outcome.ok_bind, if_neg tB]
      rw [rd_getD (lt_of_lt_of_le nA hA.2), rd_getD (lt_of_lt_of_le nB hB.2)]
      simp only [Outcome.ok_bind, hp]
      rfl

end Libgrpp
