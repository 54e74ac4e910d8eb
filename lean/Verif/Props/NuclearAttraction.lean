import Verif.Lemmas.NuclearEntry

/-! # C33, C34, C35, C75: nuclear attraction integrals

`pairScreened A B C V m n` (file `Verif/Model/SpecLocal.lean`) is the matrix element of the potential `V(|r-C|)` between the
contracted functions without the pairs of primitives whose coefficients have a product below `1e-13`; when there are none it is
`∫ χ_m V χ_n` (`pairScreened_full`). -/

namespace Libgrpp

open MeasureTheory Set Filter Topology

/-! ## C33: the point nucleus -/

/-- **C33.** There is a matrix, depending on the shells and the centre only, such that the matrix for a point nucleus is `-Z` times
it, for every charge (except the smallest `int`, whose negation is undefined); and the elements differ from the true matrix elements
of `-Z/r` by at most `1.7e-14 |Z|` times the sum of the absolute weights with which the Boys functions enter the true element. -/
theorem point_nucleus {G : Type} (env : NucEnv G) (hi : env.init = true) (hb : env.sf.boys = boysLiteral) (A B : Shell)
    (sA : A.Supported) (sB : B.Supported) (C : Point) (hr : InRange A B C 1 0) :
    ∃ (M : ℕ → ℕ → ℝ) (W : ℕ → ℕ → ℕ → ℕ → ℕ → ℝ),
      (∀ m n, m < A.cart_size → n < B.cart_size →
        ∀ Z : ℝ, pairScreened A B C (fun r => -Z / r) m n =
          -Z * ∑ i ∈ Finset.range A.num, ∑ j ∈ Finset.range B.num, ∑ k ∈ Finset.range (A.L + B.L + 1),
            W i j m n k * boysF k (pairArg A B C 0 i j)) ∧
      (∀ (charge : Int) (mp out : List ℝ), charge ≠ -2147483648 → A.cart_size * B.cart_size ≤ out.length →
        ∃ out', nuclearAttraction env A B C charge modelPoint mp out = .ok out' ∧ out'.length = out.length ∧
          (∀ m n, m < A.cart_size → n < B.cart_size → out'[m * B.cart_size + n]? = some (-(charge : ℝ) * M m n)) ∧
          ∀ q, A.cart_size * B.cart_size ≤ q → out'[q]? = out[q]?) ∧
      ∀ m n, m < A.cart_size → n < B.cart_size → ∀ Z : ℝ,
        |-Z * M m n - pairScreened A B C (fun r => -Z / r) m n| ≤
          1.7e-14 * |Z| * ∑ i ∈ Finset.range A.num, ∑ j ∈ Finset.range B.num, ∑ k ∈ Finset.range (A.L + B.L + 1), |W i j m n k| := by
  obtain ⟨-, -, h1⟩ := hr
  have hA := sA.L9
  have hB := sB.L9
  have hq : ∀ i < A.num, ∀ j < B.num, 0 < A.alphaAt i + B.alphaAt j + 0 := by
    intro i hi j hj
    have := sA.pos.at hi
    have := sB.pos.at hj
    linarith
  have hacc : ∀ i j, ∃ bv : ℕ → ℝ, i < A.num → j < B.num → ∀ k ≤ A.L + B.L,
      boysFunction boysLiteral k (pairArg A B C 0 i j) = .ok (bv k) ∧ |bv k - boysF k (pairArg A B C 0 i j)| ≤ 1.7e-14 := by
    intro i j
    by_cases h : i < A.num ∧ j < B.num
    · have hx : 0 ≤ pairArg A B C 0 i j := by
        rw [← auxArg_eq]
        exact auxArg_nonneg A B C 0 i j (hq i h.1 j h.2).le
      have : ∀ k, ∃ v, k ≤ A.L + B.L → boysFunction boysLiteral k (pairArg A B C 0 i j) = .ok v ∧
          |v - boysF k (pairArg A B C 0 i j)| ≤ 1.7e-14 := by
        intro k
        by_cases hk : k ≤ A.L + B.L
        · obtain ⟨v, h3, h4⟩ := boysFunction_close boysLiteral (ε := 4e-15) (by norm_num) boysLiteral_close k
            (pairArg A B C 0 i j) hx (by
              rcases h1 rfl with h | h'
              · exact Or.inr (by omega)
              · exact Or.inl ⟨h' i h.1 j h.2, by omega⟩)
          exact ⟨v, fun _ => ⟨h3, h4.trans (by norm_num)⟩⟩
        · exact ⟨0, fun h => absurd h hk⟩
      choose v hv using this
      exact ⟨v, fun _ _ k hk => hv k hk⟩
    · exact ⟨fun _ => 0, fun h1 h2 => absurd ⟨h1, h2⟩ h⟩
  choose bv hbv using hacc
  let nrm : ℕ → ℕ → ℝ := fun i j => gaussianNormFactor A.L 0 0 (A.alphaAt i) * gaussianNormFactor B.L 0 0 (B.alphaAt j)
  let W : ℕ → ℕ → ℕ → ℕ → ℕ → ℝ := fun i j m n k => pairCoef A B i j * (nrm i j * pairWeight 1 A B C 0 i j m n k)
  let M : ℕ → ℕ → ℝ := fun m n => ∑ i ∈ Finset.range A.num, ∑ j ∈ Finset.range B.num, pairCoef A B i j *
    (nrm i j * pairValue 1 A B C 0 i j (bv i j) m n)
  have hlin : ∀ m n, m < A.cart_size → n < B.cart_size → ∀ i j (b : ℕ → ℝ), pairCoef A B i j *
      (nrm i j * pairValue 1 A B C 0 i j b m n) = ∑ k ∈ Finset.range (A.L + B.L + 1), W i j m n k * b k := by
    intro m n hm hn i j b
    rw [pairValue_linear 1 (by norm_num) A B sA sB C 0 i j b hm hn, Finset.mul_sum, Finset.mul_sum]
    exact Finset.sum_congr rfl fun k _ => by simp only [W]; ring
  have htrue : ∀ m n, m < A.cart_size → n < B.cart_size → ∀ Z : ℝ, pairScreened A B C (fun r => -Z / r) m n =
      -Z * ∑ i ∈ Finset.range A.num, ∑ j ∈ Finset.range B.num, ∑ k ∈ Finset.range (A.L + B.L + 1),
        W i j m n k * boysF k (pairArg A B C 0 i j) := by
    intro m n hm hn Z
    rw [pairScreened_point]
    congr 1
    refine Finset.sum_congr rfl fun i hi => Finset.sum_congr rfl fun j hj => ?_
    rw [← hlin m n hm hn, prim_coulomb_value A B C i j (hq i (Finset.mem_range.1 hi) j (Finset.mem_range.1 hj))]
  refine ⟨M, W, htrue, ?_, ?_⟩
  · intro charge mp out hch hlen
    obtain ⟨out', h3, h4, h5, h6⟩ := nuclearAttraction_spec env hi A B sA.wf sB.wf C charge modelPoint mp
      (fun i j m n => nrm i j * pairValue 1 A B C 0 i j (bv i j) m n * (-(charge : ℝ)))
      (fun i j buf hi hj _ hbl => nucPrim_point env A B sA sB C charge hch mp i j (hq i hi j hj) (bv i j)
        ⟨fun _ => by
          rw [auxArg_eq]
          exact boysValues_ok env.sf.boys (by omega) _ fun n hn => by rw [hb]; exact (hbv i j hi hj n hn).1,
          fun h => by norm_num at h⟩ buf hbl) out hlen
    refine ⟨out', h3, h5, fun m n hm hn => ?_, h6⟩
    rw [h4 m n hm hn]
    congr 1
    simp only [M]
    rw [Finset.mul_sum]
    refine Finset.sum_congr rfl fun i _ => ?_
    rw [Finset.mul_sum]
    exact Finset.sum_congr rfl fun j _ => by ring
  · intro m n hm hn Z
    rw [htrue m n hm hn, ← mul_sub, abs_mul, abs_neg, mul_comm (1.7e-14 : ℝ), mul_assoc]
    refine mul_le_mul_of_nonneg_left ?_ (abs_nonneg Z)
    simp only [M]
    rw [← Finset.sum_sub_distrib, Finset.mul_sum]
    refine (Finset.abs_sum_le_sum_abs _ _).trans (Finset.sum_le_sum fun i hi => ?_)
    rw [← Finset.sum_sub_distrib, Finset.mul_sum]
    refine (Finset.abs_sum_le_sum_abs _ _).trans (Finset.sum_le_sum fun j hj => ?_)
    rw [hlin m n hm hn, ← Finset.sum_sub_distrib, Finset.mul_sum]
    refine (Finset.abs_sum_le_sum_abs _ _).trans (Finset.sum_le_sum fun k hk => ?_)
    rw [Finset.mem_range] at hi hj hk
    rw [← mul_sub, abs_mul, mul_comm]
    exact mul_le_mul_of_nonneg_right (hbv i j hi hj k (by omega)).2 (abs_nonneg _)

/-- **C33**, contractions: for given origins, exponents and angular momenta the matrix of a point nucleus is a bilinear expression in the
contraction coefficients, except that products of coefficients below `1e-13` count as zero. -/
theorem point_nucleus_bilinear {G : Type} (env : NucEnv G) (hi : env.init = true) (A B : Shell) (sA : A.Supported) (sB : B.Supported)
    (C : Point) (hr : InRange A B C 1 0) : ∃ D : ℕ → ℕ → ℕ → ℕ → ℝ,
      ∀ (cA cB : List ℝ), A.num ≤ cA.length → B.num ≤ cB.length → ∀ (charge : Int) (mp out : List ℝ), charge ≠ -2147483648 →
        A.cart_size * B.cart_size ≤ out.length →
        ∃ out', nuclearAttraction env { A with coeffs := cA } { B with coeffs := cB } C charge modelPoint mp out = .ok out' ∧
          ∀ m n, m < A.cart_size → n < B.cart_size → out'[m * B.cart_size + n]? = some (-(charge : ℝ) *
            ∑ i ∈ Finset.range A.num, ∑ j ∈ Finset.range B.num,
              (if |cA.getD i 0 * cB.getD j 0| < 1e-13 then 0 else cA.getD i 0 * cB.getD j 0) * D i j m n) := by
  obtain ⟨bv, hbv⟩ := InRange.supplies env.sf sA sB hr
  refine ⟨fun i j m n => gaussianNormFactor A.L 0 0 (A.alphaAt i) * gaussianNormFactor B.L 0 0 (B.alphaAt j) *
    pairValue 1 A B C 0 i j (bv i j) m n, fun cA cB hcA hcB charge mp out hch hlen => ?_⟩
  have sA' : Shell.Supported { A with coeffs := cA } := ⟨⟨hcA, sA.wf.2⟩, sA.listed, sA.sumLe, sA.pos, sA.L9⟩
  have sB' : Shell.Supported { B with coeffs := cB } := ⟨⟨hcB, sB.wf.2⟩, sB.listed, sB.sumLe, sB.pos, sB.L9⟩
  obtain ⟨out', h3, h4, -⟩ := nuclearAttraction_spec env hi { A with coeffs := cA } { B with coeffs := cB } sA'.wf sB'.wf C charge
    modelPoint mp _ (fun i j buf hi hj _ hbl => nucPrim_point env { A with coeffs := cA } { B with coeffs := cB } sA' sB' C charge hch mp i j
      (by
        have := sA'.pos.at hi
        have := sB'.pos.at hj
        linarith) (bv i j) (hbv i hi j hj) buf hbl) out hlen
  refine ⟨out', h3, fun m n hm hn => (h4 m n hm hn).trans ?_⟩
  congr 1
  rw [Finset.mul_sum]
  refine Finset.sum_congr rfl fun i _ => ?_
  rw [Finset.mul_sum]
  refine Finset.sum_congr rfl fun j _ => ?_
  have e1 : pairCoef { A with coeffs := cA } { B with coeffs := cB } i j =
    if |cA.getD i 0 * cB.getD j 0| < 1e-13 then 0 else cA.getD i 0 * cB.getD j 0 := rfl
  have e2 : pairValue 1 { A with coeffs := cA } { B with coeffs := cB } C 0 i j (bv i j) m n = pairValue 1 A B C 0 i j (bv i j) m n := rfl
  rw [e1, e2]
  simp only [Shell.alphaAt]
  ring

/-- The smallest `int` as a charge: undefined behaviour as soon as a pair of primitives is not screened. -/
theorem point_nucleus_min_int {G : Type} (env : NucEnv G) (hi : env.init = true) (A B : Shell)
    (sA : A.Supported) (sB : B.Supported) (C : Point) (hr : InRange A B C 1 0) (nA : 0 < A.num) (nB : 0 < B.num)
    (hc : ¬|A.coeffs.getD 0 0 * B.coeffs.getD 0 0| < 1e-13) (hsz : 0 < A.cart_size * B.cart_size) (mp out : List ℝ)
    (hlen : A.cart_size * B.cart_size ≤ out.length) :
    nuclearAttraction env A B C (-2147483648) modelPoint mp out = .ub := by
  obtain ⟨out0, hm, -, -⟩ := memset0_spec (A.cart_size * B.cart_size) out hlen
  obtain ⟨bv, hbv⟩ := InRange.supplies env.sf sA sB hr
  have hq : 0 < A.alphaAt 0 + B.alphaAt 0 + 0 := by
    have := sA.pos.at nA
    have := sB.pos.at nB
    linarith
  have hp : ∀ buf : List ℝ, A.cart_size * B.cart_size ≤ buf.length →
      nucPrim env A B C (-2147483648) modelPoint mp (A.alphaAt 0) (B.alphaAt 0) buf = .ub := by
    intro buf hb
    obtain ⟨b1, h1, -⟩ := mmdPrim_spec env.sf 1 (Or.inr (Or.inl rfl)) A B sA sB C 0 0 0 hq (bv 0 0) (hbv 0 nA 0 nB) buf hb
    unfold mmdPrim at h1
    rw [if_neg (by norm_num), if_pos rfl] at h1
    unfold nucPrim
    rw [if_pos rfl, h1, Outcome.ok_bind]
    rw [forRange_ub (k := 0) (fun _ _ => True) hsz trivial (by intro i s hi; omega)]
    intro s _
    rfl
  unfold nuclearAttraction
  rw [Outcome.assert_pos hi]
  simp only [hm, Outcome.ok_bind]
  rw [forRange_ub (k := 0) (fun _ (st : List ℝ × List ℝ) => st.1.length = A.cart_size * B.cart_size) nA (by simp)
    (by intro i s hi; omega)]
  · rfl
  · rintro ⟨buf, o⟩ hbl
    rw [rd_getD (lt_of_lt_of_le nA sA.wf.1), Outcome.ok_bind]
    rw [forRange_ub (k := 0) (fun _ (st : List ℝ × List ℝ) => st.1.length = A.cart_size * B.cart_size) nB hbl
      (by intro i s hi; omega)]
    rintro ⟨buf, o⟩ hbl
    have hbl : buf.length = A.cart_size * B.cart_size := hbl
    rw [rd_getD (lt_of_lt_of_le nB sB.wf.1), Outcome.ok_bind, if_neg hc, rd_getD (lt_of_lt_of_le nA sA.wf.2), Outcome.ok_bind,
      rd_getD (lt_of_lt_of_le nB sB.wf.2), Outcome.ok_bind]
    have := hp buf hbl.ge
    unfold Shell.alphaAt at this
    simp only [this]
    rfl

/-- The point-charge entry point is the generic routine. -/
theorem point_entry {G : Type} (env : NucEnv G) (A B : Shell) (C : Point) (charge : Int) (out : List ℝ) :
    nucAttractionPoint env A B C charge out = nuclearAttraction env A B C charge modelPoint [] out := rfl

/-- A p and an s function around a nucleus of charge 92. -/
example {G : Type} (env : NucEnv G) (hi : env.init = true) (hb : env.sf.boys = boysLiteral) : ∃ out', nuclearAttraction env
    exampleShell sShell (fun _ => 0.5) 92 modelPoint [] (List.replicate 10 7) = .ok out' := by
  have h : InRange exampleShell sShell (fun _ => 0.5) 1 0 :=
    ⟨Or.inr (Or.inl rfl), le_rfl, fun _ => Or.inl (by simp [exampleShell, sShell])⟩
  obtain ⟨M, W, -, h2, -⟩ := point_nucleus env hi hb exampleShell sShell exampleShell_supported sShell_supported (fun _ => 0.5) h
  obtain ⟨out', h3, -⟩ := h2 92 [] (List.replicate 10 7) (by norm_num) (by simp [exampleShell, sShell])
  exact ⟨out', h3⟩

example {G : Type} (env : NucEnv G) (hi : env.init = true) (out : List ℝ) (h : 1 ≤ out.length) :
    nuclearAttraction env sShell sShell (fun _ => 0) (-2147483648) modelPoint [] out = .ub :=
  point_nucleus_min_int env hi sShell sShell sShell_supported sShell_supported _
    ⟨Or.inr (Or.inl rfl), le_rfl, fun _ => Or.inl (by simp [sShell])⟩ (by simp [sShell]) (by simp [sShell]) (by norm_num [sShell])
    (by simp [sShell]) [] out (by simpa [sShell] using h)

/-! ## C35: unknown nuclear models -/

/-- **C35.** With a model that is not one of the six the program ends as soon as a pair of primitives is not screened; if all pairs
are screened (or there are none) the matrix is zero. -/
theorem unknown_model {G : Type} (env : NucEnv G) (hi : env.init = true) (A B : Shell) (hA : A.WF) (hB : B.WF) (C : Point)
    (charge model : Int) (hm : model < 0 ∨ 5 < model) (mp out : List ℝ) (hlen : A.cart_size * B.cart_size ≤ out.length) :
    ((∃ i < A.num, ∃ j < B.num, ¬|A.coeffs.getD i 0 * B.coeffs.getD j 0| < 1e-13) →
      nuclearAttraction env A B C charge model mp out = .exit) ∧
    ((∀ i < A.num, ∀ j < B.num, |A.coeffs.getD i 0 * B.coeffs.getD j 0| < 1e-13) →
      ∃ out', nuclearAttraction env A B C charge model mp out = .ok out' ∧ out'.length = out.length ∧
        (∀ q < A.cart_size * B.cart_size, out'[q]? = some 0) ∧ ∀ q, A.cart_size * B.cart_size ≤ q → out'[q]? = out[q]?) := by
  classical
  obtain ⟨out0, h1, h2, h3⟩ := memset0_spec (A.cart_size * B.cart_size) out hlen
  have hp : ∀ a b buf, nucPrim env A B C charge model mp a b buf = .exit := by
    intro a b buf
    have e1 : ¬model = 0 := by omega
    have e2 : ¬(model = 1 ∨ model = 2 ∨ model = 3 ∨ model = 4 ∨ model = 5) := by omega
    unfold nucPrim modelPoint modelBall modelGaussian modelFermi modelBubble modelPointNumerical
    rw [if_neg e1, if_neg e2]
  have hin : ∀ i < A.num, ∀ st : List ℝ × List ℝ, _ := fun i hi st =>
    forRange_exit (fun j => ¬|A.coeffs.getD i 0 * B.coeffs.getD j 0| < 1e-13) st (fun j (st : List ℝ × List ℝ) => do
      let cj ← rd B.coeffs j
      if |A.coeffs.getD i 0 * cj| < 1e-13 then .ok st
      else do
        let ai ← rd A.alpha i
        let aj ← rd B.alpha j
        let buf ← nucPrim env A B C charge model mp ai aj st.1
        let out ← daxpy (A.cart_size * B.cart_size) (A.coeffs.getD i 0 * cj) buf st.2
        .ok (buf, out)) B.num fun j hj => by
      rw [rd_getD (lt_of_lt_of_le hj hB.1), Outcome.ok_bind]
      by_cases h : |A.coeffs.getD i 0 * B.coeffs.getD j 0| < 1e-13
      · rw [if_pos h, if_neg (not_not.2 h)]
      · rw [if_neg h, if_pos h, rd_getD (lt_of_lt_of_le hi hA.2), Outcome.ok_bind, rd_getD (lt_of_lt_of_le hj hB.2), Outcome.ok_bind, hp]
        rfl
  obtain ⟨h4, h5⟩ := forRange_exit (fun i => ∃ j < B.num, ¬|A.coeffs.getD i 0 * B.coeffs.getD j 0| < 1e-13)
    (List.replicate (A.cart_size * B.cart_size) (0 : ℝ), out0) (fun i (st : List ℝ × List ℝ) => do
      let ci ← rd A.coeffs i
      forRange B.num st fun j (st : List ℝ × List ℝ) => do
        let cj ← rd B.coeffs j
        if |ci * cj| < 1e-13 then .ok st
        else do
          let ai ← rd A.alpha i
          let aj ← rd B.alpha j
          let buf ← nucPrim env A B C charge model mp ai aj st.1
          let out ← daxpy (A.cart_size * B.cart_size) (ci * cj) buf st.2
          .ok (buf, out)) A.num (by
      intro i hi
      rw [rd_getD (lt_of_lt_of_le hi hA.1), Outcome.ok_bind]
      by_cases h : ∃ j < B.num, ¬|A.coeffs.getD i 0 * B.coeffs.getD j 0| < 1e-13
      · rw [if_pos h]
        exact (hin i hi _).1 h
      · rw [if_neg h]
        push Not at h
        exact (hin i hi _).2 fun j hj => not_not.2 (h j hj))
  unfold nuclearAttraction
  rw [Outcome.assert_pos hi]
  simp only [h1, Outcome.ok_bind]
  refine ⟨fun h => ?_, fun h => ⟨out0, ?_, h3.1, h2, h3.2⟩⟩
  · rw [h4 h]
    rfl
  · rw [h5 (by push Not; exact h)]
    rfl

example {G : Type} (env : NucEnv G) (hi : env.init = true) : nuclearAttraction env sShell sShell (fun _ => 0) 1 6 [] [0] = .exit :=
  (unknown_model env hi sShell sShell sShell_supported.wf sShell_supported.wf (fun _ => 0) 1 6 (by norm_num) [] [0]
    (by simp [sShell])).1 ⟨0, by simp [sShell], 0, by simp [sShell], by norm_num [sShell]⟩

/-! ## C75: finite nuclei, and the point nucleus on the grid -/

/-- **C75.** Finite nuclear models, shells with `L_A + L_B ≤ 14`. There are numbers `W`, `U`, `T`, depending on the shells and the centre
only, such that for every potential `V` the matrix element is the sum of the radial integrals `radialExact` with the weights `W`,
and the routine, evaluating the potential `Vc` on its grid, returns for every such `V` numbers whose error is at most the sum of
`U (|error of the radial integral| + 1e-16) + 1e-13 T |radial integral|`. -/
theorem nuclear_numeric (A B : Shell) (hA : A.Homog) (hB : B.Homog) (hL : A.L + B.L ≤ 14) (C : Point)
    (hk : ∀ i < A.num, ∀ j < B.num, VecOk (kVec A B C (A.alphaAt i) (B.alphaAt j))) :
    ∃ W U T : ℕ → ℕ → ℕ → ℕ → ℕ → ℕ → ℝ,
      (∀ V : ℝ → ℝ, Coulombic V → ∀ m n, m < A.cart_size → n < B.cart_size → pairScreened A B C V m n =
        ∑ i ∈ Finset.range A.num, ∑ j ∈ Finset.range B.num, ∑ lam ∈ Finset.range (A.L + B.L + 1), ∑ N ∈ Finset.range (A.L + B.L + 1),
          W i j m n lam N * radialExact V A B C (A.alphaAt i) (B.alphaAt j) lam N) ∧
      ∀ (G : Type) (env : NucEnv G), env.init = true → ∀ (charge model : Int), NumericModel model → ∀ (mp : List ℝ)
        (f : ℝ → Outcome ℝ) (Vc : ℝ → ℝ), nucPotential env.sk charge model mp = .ok f → (∀ r, 0 < r → f r = .ok (Vc r)) →
        ∀ out : List ℝ, A.cart_size * B.cart_size ≤ out.length →
        ∃ out', nuclearAttraction env A B C charge model mp out = .ok out' ∧ out'.length = out.length ∧
          (∀ q, A.cart_size * B.cart_size ≤ q → out'[q]? = out[q]?) ∧
          ∀ m n, m < A.cart_size → n < B.cart_size → ∃ v, out'[m * B.cart_size + n]? = some v ∧
            ∀ V : ℝ → ℝ, Coulombic V → |v - pairScreened A B C V m n| ≤
              ∑ i ∈ Finset.range A.num, ∑ j ∈ Finset.range B.num,
                ∑ lam ∈ Finset.range (A.L + B.L + 1), ∑ N ∈ Finset.range (A.L + B.L + 1),
                (U i j m n lam N * (|radialCode env.prm.radial env.bt Vc A B C (A.alphaAt i) (B.alphaAt j) lam N -
                    radialExact V A B C (A.alphaAt i) (B.alphaAt j) lam N| + 1e-16) +
                  T i j m n lam N * (1e-13 * |radialExact V A B C (A.alphaAt i) (B.alphaAt j) lam N|)) := by
  let kv : ℕ → ℕ → Point := fun i j => kVec A B C (A.alphaAt i) (B.alphaAt j)
  let F : ℕ → ℕ → Comp → Comp → ℝ := fun m n p q => boxCoef (A.comp m) (toC A C) p * boxCoef (B.comp n) (toC B C) q
  let Ω : ℕ → ℕ → ℕ → Comp → Comp → ℝ := fun i j lam p q => angOmega lam (p + q) (kv i j)
  let col : ℕ → ℕ → (Comp → Comp → ℝ) → ℕ → ℝ := fun m n g N => ∑ p ∈ box (A.comp m), ∑ q ∈ box (B.comp n),
    if p.1 + p.2.1 + p.2.2 + q.1 + q.2.1 + q.2.2 = N then g p q else 0
  have hdeg : ∀ m n, m < A.cart_size → n < B.cart_size → (A.comp m).1 + (A.comp m).2.1 + (A.comp m).2.2 + (B.comp n).1 +
      (B.comp n).2.1 + (B.comp n).2.2 ≤ A.L + B.L := by
    intro m n hm hn
    have := hA.comp_deg hm
    have := hB.comp_deg hn
    omega
  have hex : ∀ V : ℝ → ℝ, Coulombic V → ∀ m n, m < A.cart_size → n < B.cart_size → pairScreened A B C V m n =
      ∑ i ∈ Finset.range A.num, ∑ j ∈ Finset.range B.num, pairCoef A B i j * localSumExact (toC A C) (toC B C) (kv i j) (A.L + B.L)
        (radialExact V A B C (A.alphaAt i) (B.alphaAt j)) (A.comp m) (B.comp n) := by
    intro V hV m n hm hn
    rw [pairScreened_eq]
    refine Finset.sum_congr rfl fun i hi => Finset.sum_congr rfl fun j hj => ?_
    rw [Finset.mem_range] at hi hj
    rw [local_exact hV.tame A B C (hA.pos.at hi) (hB.pos.at hj) (hk i hi j hj) _ _ (hdeg m n hm hn)]
  refine ⟨fun i j m n lam N => pairCoef A B i j * col m n (fun p q => F m n p q * Ω i j lam p q) N,
    fun i j m n lam N => |pairCoef A B i j| * col m n (fun p q => |Ω i j lam p q| * |F m n p q|) N,
    fun i j m n lam N => |pairCoef A B i j| * col m n (fun p q => |Ω i j lam p q|) N, ?_, ?_⟩
  · intro V hV m n hm hn
    rw [hex V hV m n hm hn]
    refine Finset.sum_congr rfl fun i hi => Finset.sum_congr rfl fun j hj => ?_
    have e := regroup (A.comp m) (B.comp n) (A.L + B.L) (A.L + B.L) (hdeg m n hm hn) (fun lam p q => F m n p q * Ω i j lam p q)
      (radialExact V A B C (A.alphaAt i) (B.alphaAt j))
    unfold localSumExact
    have e2 : ∀ p q, boxCoef (A.comp m) (toC A C) p * boxCoef (B.comp n) (toC B C) q * ∑ lam ∈ Finset.range (A.L + B.L + 1),
        angOmega lam (p + q) (kv i j) * radialExact V A B C (A.alphaAt i) (B.alphaAt j) lam (p.1 + p.2.1 + p.2.2 + q.1 + q.2.1 + q.2.2) =
        ∑ lam ∈ Finset.range (A.L + B.L + 1), F m n p q * Ω i j lam p q *
          radialExact V A B C (A.alphaAt i) (B.alphaAt j) lam (p.1 + p.2.1 + p.2.2 + q.1 + q.2.1 + q.2.2) := by
      intro p q
      rw [Finset.mul_sum]
      exact Finset.sum_congr rfl fun lam _ => by simp only [F, Ω]; ring
    simp only [e2]
    rw [e, Finset.mul_sum]
    refine Finset.sum_congr rfl fun lam _ => ?_
    rw [Finset.mul_sum]
    exact Finset.sum_congr rfl fun N _ => by simp only [col]; ring
  · intro G env hinit charge model hmod mp f Vc hf hVc out hlen
    obtain ⟨out', h1, h2, h3, h4⟩ := nuclearAttraction_spec env hinit A B hA.wf hB.wf C charge model mp
      (fun i j m n => localSum (toC A C) (toC B C) (kv i j) (A.L + B.L)
        (radialCode env.prm.radial env.bt Vc A B C (A.alphaAt i) (B.alphaAt j)) (A.comp m) (B.comp n))
      (fun i j buf _ _ _ hb => nucPrim_numeric env A B hA hB hL C charge model hmod mp f Vc hf hVc (A.alphaAt i) (B.alphaAt j) buf hb)
      out hlen
    refine ⟨out', h1, h3, h4, fun m n hm hn => ⟨_, h2 m n hm hn, fun V hV => ?_⟩⟩
    rw [hex V hV m n hm hn, ← Finset.sum_sub_distrib]
    refine (Finset.abs_sum_le_sum_abs _ _).trans (Finset.sum_le_sum fun i hi => ?_)
    rw [← Finset.sum_sub_distrib]
    refine (Finset.abs_sum_le_sum_abs _ _).trans (Finset.sum_le_sum fun j hj => ?_)
    rw [← mul_sub, abs_mul]
    refine (mul_le_mul_of_nonneg_left (localSum_error _ _ _ _ _ _ _ _) (abs_nonneg _)).trans (le_of_eq ?_)
    generalize radialCode env.prm.radial env.bt Vc A B C (A.alphaAt i) (B.alphaAt j) = Qt
    generalize radialExact V A B C (A.alphaAt i) (B.alphaAt j) = Q
    have e1 := regroup (A.comp m) (B.comp n) (A.L + B.L) (A.L + B.L) (hdeg m n hm hn) (fun lam p q => |Ω i j lam p q| * |F m n p q|)
      (fun lam N => |Qt lam N - Q lam N| + 1e-16)
    have e2 := regroup (A.comp m) (B.comp n) (A.L + B.L) (A.L + B.L) (hdeg m n hm hn) (fun lam p q => |Ω i j lam p q|)
      (fun lam N => 1e-13 * |Q lam N|)
    have e3 : ∀ p q (lam : ℕ), |angOmega lam (p + q) (kv i j)| *
        (|boxCoef (A.comp m) (toC A C) p * boxCoef (B.comp n) (toC B C) q| *
          (|Qt lam (p.1 + p.2.1 + p.2.2 + q.1 + q.2.1 + q.2.2) - Q lam (p.1 + p.2.1 + p.2.2 + q.1 + q.2.1 + q.2.2)| + 1e-16) +
          1e-13 * |Q lam (p.1 + p.2.1 + p.2.2 + q.1 + q.2.1 + q.2.2)|) =
        |Ω i j lam p q| * |F m n p q| * (|Qt lam (p.1 + p.2.1 + p.2.2 + q.1 + q.2.1 + q.2.2) - Q lam (p.1 + p.2.1 + p.2.2 + q.1 + q.2.1 + q.2.2)| + 1e-16) +
        |Ω i j lam p q| * (1e-13 * |Q lam (p.1 + p.2.1 + p.2.2 + q.1 + q.2.1 + q.2.2)|) := by
      intro p q lam
      simp only [F, Ω]
      ring
    simp only [e3, Finset.sum_add_distrib]
    rw [e1, e2, mul_add]
    congr 1 <;>
    · rw [Finset.mul_sum]
      refine Finset.sum_congr rfl fun lam _ => ?_
      rw [Finset.mul_sum]
      exact Finset.sum_congr rfl fun N _ => by simp only [col]; ring

/-- **C75**, radial integrals: with the table of Bessel functions of the library the radial integral of the routine is, on one of three
grids (2047, 4095 or 8191 points), within the stated error of the quadrature sum of the exact integrand; and these sums converge
to the radial integral when the number of points grows. -/
theorem nuclear_radial (t0 : BesselTab) : ∃ bt, pretabulateBessel t0 = .ok bt ∧
    ∀ (radial : ℝ) (A B : Shell) (C : Point) (a b : ℝ), 0 < a → 0 < b → ∀ (Vc V : ℝ → ℝ), Coulombic V → ∀ lam N, lam ≤ 14 →
      (∃ k ≤ 2, |radialCode radial bt Vc A B C a b lam N - fullQuad (exactIntegrand V A B C a b lam N) (levelSize 2047 k)| ≤
        fullQuad (fun r => (4.3e-13 * |Vc r| + |Vc r - V r|) * gaussEnvelope A B C a b N r) (levelSize 2047 k)) ∧
      Tendsto (fullQuad (exactIntegrand V A B C a b lam N)) atTop (𝓝 (radialExact V A B C a b lam N)) := by
  obtain ⟨bt, h1, h2⟩ := bessel_accuracy t0
  refine ⟨bt, h1, fun radial A B C a b ha hb Vc V hV lam N hlam => ⟨?_, exactIntegrand_tendsto hV A B C ha hb lam N⟩⟩
  obtain ⟨k, hk, e⟩ := radialValue_level (codeIntegrand bt Vc A B C a b) radial (N, lam)
  refine ⟨k, hk, ?_⟩
  unfold radialCode
  rw [e, fullQuad_sub]
  refine fullQuad_abs_le (fun r hr => ?_) _
  have hx : 0 ≤ r * vnorm (kVec A B C a b) := mul_nonneg hr.le (vnorm_nonneg _)
  obtain ⟨v, hv, hve⟩ := h2 lam (r * vnorm (kVec A B C a b)) hlam hx
  rw [codeIntegrand_scaled bt Vc A B C a b lam N r hv, exactIntegrand_scaled]
  have hE := gaussEnvelope_nonneg A B C ha hb N hr
  have hK0 : 0 ≤ Real.exp (-(r * vnorm (kVec A B C a b))) * besselI lam (r * vnorm (kVec A B C a b)) :=
    mul_nonneg (Real.exp_pos _).le (besselI_nonneg lam hx)
  have hK1 : Real.exp (-(r * vnorm (kVec A B C a b))) * besselI lam (r * vnorm (kVec A B C a b)) ≤ 1 := by
    have := mul_le_mul_of_nonneg_left (besselI_le_exp lam hx) (Real.exp_pos (-(r * vnorm (kVec A B C a b)))).le
    rwa [← Real.exp_add, neg_add_cancel, Real.exp_zero] at this
  generalize Real.exp (-(r * vnorm (kVec A B C a b))) * besselI lam (r * vnorm (kVec A B C a b)) = K at *
  generalize gaussEnvelope A B C a b N r = E at *
  have e1 : Vc r * E * v - V r * E * K = (Vc r * (v - K) + (Vc r - V r) * K) * E := by ring
  rw [e1, abs_mul, abs_of_nonneg hE]
  refine mul_le_mul_of_nonneg_right ((abs_add_le _ _).trans ?_) hE
  rw [abs_mul, abs_mul, abs_of_nonneg hK0]
  have := mul_le_mul_of_nonneg_left hve (abs_nonneg (Vc r))
  have := mul_le_of_le_one_right (abs_nonneg (Vc r - V r)) hK1
  linarith

/-- **C75**, potentials: the potential that the generic routine evaluates is the energy of an electron in the field of the charge
density of the model with the parameters of the array, of total charge `charge` (Fermi model: up to the error of the table; bubble
model: if `S_k` is exact). -/
theorem nuclear_potentials (sk : SkFun) (charge : Int) :
    (∀ mp, nucPotential sk charge modelPointNumerical mp = .ok fun r => .ok (-(charge : ℝ) / r)) ∧
    Coulombic (fun r => -(charge : ℝ) / r) ∧
    (∀ R mp, 0 < R → (∃ f, nucPotential sk charge modelBall (R :: mp) = .ok f ∧
      ∀ r, 0 < r → f r = .ok (electronEnergy (fun s => densBall s charge R) r)) ∧
      Coulombic (electronEnergy fun s => densBall s charge R) ∧ totalCharge (fun s => densBall s charge R) = charge ∧
      secondMoment (fun s => densBall s charge R) = charge * R ^ 2) ∧
    (∀ R mp, 0 < R → (∃ f, nucPotential sk charge modelGaussian (R :: mp) = .ok f ∧
      ∀ r, 0 < r → f r = .ok (electronEnergy (fun s => densGauss s charge R) r)) ∧
      Coulombic (electronEnergy fun s => densGauss s charge R) ∧ totalCharge (fun s => densGauss s charge R) = charge ∧
      secondMoment (fun s => densGauss s charge R) = charge * R ^ 2) ∧
    (sk = fermiSk skLiteral → ∀ c a mp, 0 < a → a ≤ c → ∃ (f : ℝ → Outcome ℝ) (Vc : ℝ → ℝ),
      nucPotential sk charge modelFermi (c :: a :: mp) = .ok f ∧ (∀ r, 0 < r → f r = .ok (Vc r)) ∧
      (∀ r, 0 < r → |Vc r - electronEnergy (fermiDensity charge c a) r| ≤ 1.1e-9 * |(charge : ℝ)| * (1 / c + 1 / r)) ∧
      Coulombic (electronEnergy (fermiDensity charge c a))) ∧
    (ExactSk sk → ∀ c a k mp, 0 < c → 0 < a → bubbleNorm sk c a k ≠ .ok 0 → ∃ (f : ℝ → Outcome ℝ) (ρ : ℝ → ℝ),
      nucPotential sk charge modelBubble (c :: a :: k :: mp) = .ok f ∧ (∀ r, 0 < r → f r = .ok (electronEnergy ρ r)) ∧
      (∀ r, densBubble sk r charge c a k = .ok (ρ r)) ∧ totalCharge ρ = charge ∧ Coulombic (electronEnergy ρ)) := by
  refine ⟨fun mp => rfl, coulombic_point charge, fun R mp hR => ⟨⟨_, rfl, fun r hr => ?_⟩, coulombic_ball _ hR, ?_⟩,
    fun R mp hR => ⟨⟨_, rfl, fun r hr => ?_⟩, coulombic_gauss _ hR, ?_⟩, fun hs c a mp ha hac => ?_, fun h c a k mp hc ha hN => ?_⟩
  · rw [(ball_nucleus (charge : ℝ) hR).2.2.1 r hr]
  · exact ⟨(ball_nucleus (charge : ℝ) hR).1, (ball_nucleus (charge : ℝ) hR).2.1⟩
  · rw [(gauss_nucleus (charge : ℝ) hR).2.2.1 r hr]
  · exact ⟨(gauss_nucleus (charge : ℝ) hR).1, (gauss_nucleus (charge : ℝ) hR).2.1⟩
  · have hc : 0 < c := by linarith
    choose v h1 h2 using fun r (hr : 0 < r) => fermi_potential_accuracy (charge : ℝ) hc ha hac hr
    refine ⟨_, fun r => if hr : 0 < r then v r hr else 0, rfl, fun r hr => ?_, fun r hr => ?_, coulombic_fermi _ hc ha⟩
    · beta_reduce
      rw [hs, dif_pos hr, h1 r hr]
    · beta_reduce
      rw [dif_pos hr]
      exact h2 r hr
  · obtain ⟨ρ, h1, h2, h3, h4⟩ := coulombic_bubble h (charge : ℝ) k hc ha hN
    exact ⟨_, ρ, rfl, h3, h1, h2, h4⟩

/-- A uniformly charged ball of charge 92, a p and an s function at different places. -/
example {G : Type} (env : NucEnv G) (hi : env.init = true) : ∃ out', nuclearAttraction env exampleShell sShell
    (fun _ => 1) 92 modelBall [1e-4] (List.replicate 10 7) = .ok out' := by
  obtain ⟨-, -, h3, -⟩ := nuclear_potentials env.sk 92
  obtain ⟨⟨f, h4, h5⟩, -⟩ := h3 1e-4 [] (by norm_num)
  obtain ⟨W, U, T, -, h2⟩ := nuclear_numeric exampleShell sShell exampleShell_homog sShell_homog
    (by simp [exampleShell, sShell]) (fun _ => 1) (by
      intro i hi j hj
      refine Or.inr ?_
      have hi : i = 0 ∨ i = 1 := by simp only [exampleShell] at hi; omega
      have hj : j = 0 := by simp only [sShell] at hj; omega
      refine lt_of_lt_of_le ?_ (Real.le_sqrt_of_sq_le (x := 1) ?_)
      · norm_num
      · refine le_trans ?_ (Finset.single_le_sum (fun i _ => sq_nonneg _) (Finset.mem_univ (0 : Fin 3)))
        rcases hi with rfl | rfl <;> subst hj <;> norm_num [kVec, toC, exampleShell, sShell, Shell.alphaAt])
  obtain ⟨out', h, -⟩ := h2 G env hi 92 modelBall (Or.inl rfl) [1e-4] f _ h4 h5 (List.replicate 10 7) (by simp [exampleShell, sShell])
  exact ⟨out', h⟩

/-! ## C34: the entry points of the finite models -/

/-- What the entry points do: the array they fill begins with the charge, while the generic routine expects it to begin with the
first parameter of the model. The ball and the Gaussian get the charge as rms radius, whatever the rms radius; the Fermi model gets
the charge as `c` and `c` as `a`; the bubble model gets the charge as `c`, `c` as `a` and `a` as `k`. -/
theorem finite_entry_points {G : Type} (env : NucEnv G) (A B : Shell) (C : Point) (charge : Int) (rms c a k : ℝ) (out : List ℝ) :
    nucAttractionBall env A B C charge rms out = nuclearAttraction env A B C charge modelBall [(charge : ℝ)] out ∧
    nucAttractionGaussian env A B C charge rms out = nuclearAttraction env A B C charge modelGaussian [(charge : ℝ)] out ∧
    nucAttractionFermi env A B C charge c a out = nuclearAttraction env A B C charge modelFermi [(charge : ℝ), c] out ∧
    nucAttractionBubble env A B C charge c a k out = nuclearAttraction env A B C charge modelBubble [(charge : ℝ), c, a] out := by
  refine ⟨?_, ?_, ?_, ?_⟩ <;> rfl

/-- What C34 asks of the entry points holds where the parameters happen to be shifted into themselves. -/
theorem finite_entry_points_partial {G : Type} (env : NucEnv G) (A B : Shell) (C : Point) (charge : Int) (out : List ℝ) :
    nucAttractionBall env A B C charge charge out = nuclearAttraction env A B C charge modelBall [(charge : ℝ)] out ∧
    nucAttractionGaussian env A B C charge charge out = nuclearAttraction env A B C charge modelGaussian [(charge : ℝ)] out ∧
    nucAttractionFermi env A B C charge charge charge out =
      nuclearAttraction env A B C charge modelFermi [(charge : ℝ), charge] out ∧
    nucAttractionBubble env A B C charge charge charge charge out =
      nuclearAttraction env A B C charge modelBubble [(charge : ℝ), charge, charge] out := by
  refine ⟨?_, ?_, ?_, ?_⟩ <;> rfl

/-- **C34 is false** of the code. Two s functions at a uniformly charged ball of charge 1: from some rms radius on the generic routine
returns zero, the entry point the same nonzero number for all rms radii. -/
theorem finite_entry_points_false {G : Type} (env : NucEnv G) (hi : env.init = true) : ∃ v R0 : ℝ, v ≠ 0 ∧ 0 < R0 ∧ ∀ rms x : ℝ, R0 ≤ rms →
    nucAttractionBall env sShell sShell (fun _ => 0) 1 rms [x] = .ok [v] ∧
    nuclearAttraction env sShell sShell (fun _ => 0) 1 modelBall [rms] [x] = .ok [0] := by
  obtain ⟨Q, w, hw, ⟨k, hk, hQ⟩, h1⟩ := sShell_ball env hi 1
  set E := gaussEnvelope sShell sShell (fun _ => 0) 1 1 0 with hE
  have hE0 : ∀ r, 0 < r → 0 ≤ E r := fun r hr => gaussEnvelope_nonneg _ _ _ one_pos one_pos 0 hr
  have hF : ∀ N, 0 ≤ fullQuad E N := fun N => (abs_nonneg _).trans (fullQuad_abs_le (F := E) (fun r hr => by rw [abs_of_nonneg (hE0 r hr)]) N)
  obtain ⟨S, hS⟩ : ∃ S, ∀ k ≤ 2, fullQuad E (levelSize 2047 k) ≤ S := by
    refine ⟨∑ k ∈ Finset.range 3, fullQuad E (levelSize 2047 k), fun k hk => ?_⟩
    exact Finset.single_le_sum (f := fun k => fullQuad E (levelSize 2047 k)) (fun j _ => hF _) (Finset.mem_range.2 (by omega))
  have hS0 : 0 ≤ S := (hF _).trans (hS 0 (by norm_num))
  have hne : w * Q ≠ 0 := by
    refine mul_ne_zero hw fun h0 => ?_
    have := ball_one_large k hk
    rw [← hQ, h0, abs_zero] at this
    norm_num at this
  refine ⟨w * Q, 2e16 * (S + 1), hne, by positivity, fun rms x hrms => ⟨?_, ?_⟩⟩
  · have e := (finite_entry_points env sShell sShell (fun _ => 0) 1 rms 0 0 0 [x]).1
    rw [Int.cast_one] at e
    rw [e, h1 x, if_neg]
    have := ball_one_large k hk
    rw [← hQ] at this
    exact not_lt.2 this.le
  · obtain ⟨Q', w', -, ⟨k', hk', hQ'⟩, h2⟩ := sShell_ball env hi rms
    have hr0 : 0 < rms := lt_of_lt_of_le (by positivity) hrms
    rw [h2 x, if_pos]
    have h3 : |Q'| ≤ 3 / (2 * rms) * fullQuad E (levelSize 2047 k') := by
      rw [hQ', ← fullQuad_smul]
      refine fullQuad_abs_le (fun r hr => ?_) _
      rw [abs_mul, abs_of_nonneg (hE0 r hr)]
      exact mul_le_mul_of_nonneg_right (ball_small hr0 hr) (hE0 r hr)
    refine lt_of_le_of_lt (h3.trans (mul_le_mul_of_nonneg_left (hS k' hk') (by positivity))) ?_
    rw [div_mul_eq_mul_div, div_lt_iff₀ (by positivity)]
    nlinarith

end Libgrpp
