import Verif.Model.NuclearAttraction
import Verif.Lemmas.RadialLocalTrue
import Verif.Lemmas.BoysTable
import Verif.Lemmas.NuclearModels
import Verif.Lemmas.RadialLimit

/-! The contraction loops of the nuclear attraction integrals, and the two primitive routines. -/

namespace Libgrpp

open MeasureTheory Set Filter Topology

/-- The product of two contraction coefficients, zero when it is screened. -/
noncomputable def pairCoef (A B : Shell) (i j : Nat) : ℝ :=
  if |A.coeffs.getD i 0 * B.coeffs.getD j 0| < 1e-13 then 0 else A.coeffs.getD i 0 * B.coeffs.getD j 0

/-- The two loops over primitives. -/
theorem pairLoop_spec (A B : Shell) (hA : A.WF) (hB : B.WF) (prim : ℝ → ℝ → List ℝ → Outcome (List ℝ))
    (g : Nat → Nat → Nat → Nat → ℝ) (out : List ℝ)
    (hprim : ∀ i j buf, i < A.num → j < B.num → ¬|A.coeffs.getD i 0 * B.coeffs.getD j 0| < 1e-13 →
      A.cart_size * B.cart_size ≤ buf.length →
      ∃ buf', prim (A.alphaAt i) (B.alphaAt j) buf = .ok buf' ∧
        (MatIs A.cart_size B.cart_size buf' (g i j) ∧ SameBeyond (A.cart_size * B.cart_size) buf' buf))
    (hlen : A.cart_size * B.cart_size ≤ out.length)
    (hz : ∀ i < A.cart_size * B.cart_size, out[i]? = some 0) :
    ∃ r, (forRange A.num (List.replicate (A.cart_size * B.cart_size) (0 : ℝ), out) fun i (st : List ℝ × List ℝ) => do
        let ci ← rd A.coeffs i
        forRange B.num st fun j (st : List ℝ × List ℝ) => do
          let cj ← rd B.coeffs j
          if |ci * cj| < 1e-13 then .ok st
          else do
            let ai ← rd A.alpha i
            let aj ← rd B.alpha j
            let buf ← prim ai aj st.1
            let out ← daxpy (A.cart_size * B.cart_size) (ci * cj) buf st.2
            .ok (buf, out)) = .ok r ∧
      (MatIs A.cart_size B.cart_size r.2 (fun m n => ∑ i ∈ Finset.range A.num, ∑ j ∈ Finset.range B.num,
        pairCoef A B i j * g i j m n) ∧ SameBeyond (A.cart_size * B.cart_size) r.2 out) := by
  refine forRange_spec (fun k (st : List ℝ × List ℝ) => st.1.length = A.cart_size * B.cart_size ∧
    MatIs A.cart_size B.cart_size st.2 (fun m n => ∑ i ∈ Finset.range k, ∑ j ∈ Finset.range B.num, pairCoef A B i j * g i j m n) ∧
    SameBeyond (A.cart_size * B.cart_size) st.2 out) ⟨by simp, ?_, rfl, fun _ _ => rfl⟩ ?_ ?_
  · intro i j hi hj
    simp only [Finset.range_zero, Finset.sum_empty]
    exact hz _ (rowMajor_lt hi hj)
  · rintro i ⟨buf, o⟩ hi ⟨hbl, hmat, hsame⟩
    rw [rd_getD (show i < A.coeffs.length from lt_of_lt_of_le hi hA.1)]
    simp only [Outcome.ok_bind]
    refine forRange_spec (fun k (st : List ℝ × List ℝ) => st.1.length = A.cart_size * B.cart_size ∧
      MatIs A.cart_size B.cart_size st.2 (fun m n => (∑ i ∈ Finset.range i, ∑ j ∈ Finset.range B.num, pairCoef A B i j * g i j m n) +
        ∑ j ∈ Finset.range k, pairCoef A B i j * g i j m n) ∧
      SameBeyond (A.cart_size * B.cart_size) st.2 out) ⟨hbl, ?_, hsame⟩ ?_ ?_
    · intro m n hm hn
      simp only [Finset.range_zero, Finset.sum_empty, add_zero]
      exact hmat m n hm hn
    · rintro j ⟨buf, o⟩ hj ⟨hbl, hmat, hsame⟩
      simp only at hbl hmat hsame ⊢
      rw [rd_getD (show j < B.coeffs.length from lt_of_lt_of_le hj hB.1)]
      simp only [Outcome.ok_bind]
      by_cases ht : |A.coeffs.getD i 0 * B.coeffs.getD j 0| < 1e-13
      · rw [if_pos ht]
        refine ⟨(buf, o), rfl, hbl, ?_, hsame⟩
        intro m n hm hn
        rw [hmat m n hm hn]
        beta_reduce
        rw [Finset.sum_range_succ, show pairCoef A B i j = 0 from if_pos ht, zero_mul, add_zero]
      rw [if_neg ht, rd_getD (show i < A.alpha.length from lt_of_lt_of_le hi hA.2),
        rd_getD (show j < B.alpha.length from lt_of_lt_of_le hj hB.2)]
      simp only [Outcome.ok_bind]
      obtain ⟨buf', hb, hb1, hb2, hb3⟩ := hprim i j buf hi hj ht (by omega)
      simp only [Shell.alphaAt] at hb
      rw [hb]
      simp only [Outcome.ok_bind]
      obtain ⟨o', ho, ho1, ho2, ho3⟩ := daxpy_matIs A.cart_size B.cart_size
        (A.coeffs.getD i 0 * B.coeffs.getD j 0) buf' o _ _ hb1 (by omega) hmat (by rw [hsame.1]; exact hlen)
      rw [ho]
      refine ⟨(buf', o'), rfl, by rw [← hbl]; exact hb2, ?_, ?_⟩
      · intro m n hm hn
        rw [ho1 m n hm hn]
        beta_reduce
        rw [Finset.sum_range_succ, ← add_assoc, show pairCoef A B i j = _ from if_neg ht]
      · exact ⟨by rw [← hsame.1, ← ho2], fun p hp => by rw [ho3 p hp, hsame.2 p hp]⟩
    · rintro ⟨buf, o⟩ ⟨h1, h2, h3⟩
      refine ⟨h1, ?_, h3⟩
      intro m n hm hn
      rw [h2 m n hm hn]
      beta_reduce
      rw [Finset.sum_range_succ]
  · rintro ⟨buf, o⟩ ⟨-, h2, h3⟩
    exact ⟨h2, h3⟩

theorem nuclearAttraction_spec {G : Type} (env : NucEnv G) (hi : env.init = true) (A B : Shell) (hA : A.WF) (hB : B.WF) (C : Point)
    (charge model : Int) (mp : List ℝ) (g : Nat → Nat → Nat → Nat → ℝ)
    (hprim : ∀ i j buf, i < A.num → j < B.num → ¬|A.coeffs.getD i 0 * B.coeffs.getD j 0| < 1e-13 →
      A.cart_size * B.cart_size ≤ buf.length →
      ∃ buf', nucPrim env A B C charge model mp (A.alphaAt i) (B.alphaAt j) buf = .ok buf' ∧
        (MatIs A.cart_size B.cart_size buf' (g i j) ∧ SameBeyond (A.cart_size * B.cart_size) buf' buf))
    (out : List ℝ) (hlen : A.cart_size * B.cart_size ≤ out.length) :
    ∃ out', nuclearAttraction env A B C charge model mp out = .ok out' ∧
      (MatIs A.cart_size B.cart_size out' (fun m n => ∑ i ∈ Finset.range A.num, ∑ j ∈ Finset.range B.num,
        pairCoef A B i j * g i j m n) ∧ SameBeyond (A.cart_size * B.cart_size) out' out) := by
  obtain ⟨out0, hm, hz, hsl, hsb⟩ := memset0_spec (A.cart_size * B.cart_size) out hlen
  obtain ⟨r, hr, h1, h2, h3⟩ := pairLoop_spec A B hA hB (nucPrim env A B C charge model mp) g out0 hprim (by rw [hsl]; exact hlen) hz
  refine ⟨r.2, ?_, h1, h2.trans hsl, fun p hp => (h3 p hp).trans (hsb p hp)⟩
  unfold nuclearAttraction
  rw [Outcome.assert_pos hi]
  simp only [hm, Outcome.ok_bind]
  rw [hr]
  rfl

/-- A loop whose body leaves the state alone or ends the process. -/
theorem forRange_exit {σ : Type} (P : ℕ → Prop) [DecidablePred P] (s : σ) (body : ℕ → σ → Outcome σ) (n : ℕ)
    (h : ∀ i < n, body i s = if P i then .exit else .ok s) :
    ((∃ i < n, P i) → forRange n s body = .exit) ∧ ((∀ i < n, ¬P i) → forRange n s body = .ok s) := by
  induction n with
  | zero => exact ⟨fun ⟨i, hi, _⟩ => absurd hi (Nat.not_lt_zero i), fun _ => by rw [forRange_zero]⟩
  | succ n ih =>
    obtain ⟨h1, h2⟩ := ih fun i hi => h i (by omega)
    rw [forRange_succ]
    constructor
    · rintro ⟨i, hi, hp⟩
      by_cases he : ∃ i < n, P i
      · rw [h1 he]; rfl
      · push Not at he
        rw [h2 he, Outcome.ok_bind, h n (by omega)]
        have : i = n := by
          by_contra hne
          exact he i (by omega) hp
        rw [if_pos (this ▸ hp)]
    · intro hp
      rw [h2 fun i hi => hp i (by omega), Outcome.ok_bind, h n (by omega), if_neg (hp n (by omega))]

/-- Scaling of a matrix in place. -/
theorem scale_matIs (M N : Nat) (x : List ℝ) (charge : Int) (hc : charge ≠ -2147483648) (gx : Nat → Nat → ℝ) (hx : MatIs M N x gx)
    (hl : M * N ≤ x.length) :
    ∃ y, (forRange (M * N) x fun k buf => do
        Outcome.valid (charge ≠ -2147483648)
        let v ← rd buf k
        wr buf k (v * ((-1) * (charge : ℝ)))) = .ok y ∧
      (MatIs M N y (fun i j => gx i j * (-(charge : ℝ))) ∧ SameBeyond (M * N) y x) := by
  refine forRange_spec (fun k (s : List ℝ) => s.length = x.length ∧ (∀ p < k, s[p]? = (x[p]?).map (· * (-(charge : ℝ)))) ∧
    ∀ p, k ≤ p → s[p]? = x[p]?) ⟨rfl, fun p hp => absurd hp (Nat.not_lt_zero p), fun _ _ => rfl⟩ ?_ ?_
  · rintro k s hk ⟨h1, h2, h3⟩
    have hks : k < s.length := by omega
    rw [Outcome.valid_pos hc, Outcome.ok_bind, rd_ok hks, Outcome.ok_bind, wr_ok _ hks]
    have hxk : s[k] = x[k] := by
      have := h3 k le_rfl
      rw [List.getElem?_eq_getElem hks, List.getElem?_eq_getElem (by omega)] at this
      exact Option.some.inj this
    refine ⟨_, rfl, by rw [List.length_set]; exact h1, ?_, ?_⟩
    · intro p hp
      by_cases hpk : p = k
      · subst hpk
        rw [List.getElem?_set_self hks, List.getElem?_eq_getElem (by omega : p < x.length), Option.map_some, hxk]
        congr 1
        ring
      · rw [List.getElem?_set_ne (by omega)]
        exact h2 p (by omega)
    · intro p hp
      rw [List.getElem?_set_ne (by omega)]
      exact h3 p (by omega)
  · rintro s ⟨h1, h2, h3⟩
    refine ⟨fun i j hi hj => ?_, h1, h3⟩
    rw [h2 _ (rowMajor_lt hi hj), hx i j hi hj]
    rfl

/-! ## Integrals of contracted functions -/

theorem pairScreened_eq (A B : Shell) (C : Point) (V : ℝ → ℝ) (m n : Nat) :
    pairScreened A B C V m n = ∑ i ∈ Finset.range A.num, ∑ j ∈ Finset.range B.num, pairCoef A B i j *
      ∫ r, primFn A.L A.origin (A.comp m) (A.alphaAt i) r * V (radius C r) * primFn B.L B.origin (B.comp n) (B.alphaAt j) r := by
  unfold pairScreened pairCoef
  refine Finset.sum_congr rfl fun i _ => Finset.sum_congr rfl fun j _ => ?_
  split_ifs
  · rw [zero_mul]
  · rfl

/-- Without screening the matrix element is that of the contracted functions. -/
theorem pairScreened_full {V : ℝ → ℝ} (hV : Tame V) (A B : Shell) (pA : A.Pos) (pB : B.Pos) (C : Point)
    (h : ∀ i < A.num, ∀ j < B.num, |A.coeffs.getD i 0 * B.coeffs.getD j 0| < 1e-13 → A.coeffs.getD i 0 * B.coeffs.getD j 0 = 0)
    (m n : Nat) : pairScreened A B C V m n = ∫ r, basisFn A m r * V (radius C r) * basisFn B n r := by
  have hI : ∀ i ∈ Finset.range A.num, ∀ j ∈ Finset.range B.num, Integrable fun r => A.coeffs.getD i 0 * B.coeffs.getD j 0 *
      (primFn A.L A.origin (A.comp m) (A.alphaAt i) r * V (radius C r) * primFn B.L B.origin (B.comp n) (B.alphaAt j) r) :=
    fun i hi j hj => (local_integrable hV A B C (pA.at (Finset.mem_range.1 hi)) (pB.at (Finset.mem_range.1 hj)) _ _).const_mul _
  have e : ∀ r, basisFn A m r * V (radius C r) * basisFn B n r = ∑ i ∈ Finset.range A.num, ∑ j ∈ Finset.range B.num,
      A.coeffs.getD i 0 * B.coeffs.getD j 0 *
      (primFn A.L A.origin (A.comp m) (A.alphaAt i) r * V (radius C r) * primFn B.L B.origin (B.comp n) (B.alphaAt j) r) := by
    intro r
    unfold basisFn
    rw [mul_right_comm, Finset.sum_mul_sum, Finset.sum_mul]
    refine Finset.sum_congr rfl fun i _ => ?_
    rw [Finset.sum_mul]
    refine Finset.sum_congr rfl fun j _ => ?_
    unfold Shell.comp Shell.alphaAt
    ring
  simp only [e]
  rw [pairScreened_eq, integral_finsetSum _ fun i hi => integrable_finsetSum _ fun j hj => hI i hi j hj]
  refine Finset.sum_congr rfl fun i hi => ?_
  rw [integral_finsetSum _ fun j hj => hI i hi j hj]
  refine Finset.sum_congr rfl fun j hj => ?_
  rw [integral_const_mul]
  congr 1
  unfold pairCoef
  split_ifs with h'
  · exact (h i (Finset.mem_range.1 hi) j (Finset.mem_range.1 hj) h').symm
  · rfl

/-! ## The point nucleus -/

theorem nucPrim_point {G : Type} (env : NucEnv G) (A B : Shell) (sA : A.Supported) (sB : B.Supported) (C : Point) (charge : Int)
    (hc : charge ≠ -2147483648) (mp : List ℝ) (i j : Nat) (hq : 0 < A.alphaAt i + B.alphaAt j + 0) (bv : ℕ → ℝ)
    (hs : Supplies env.sf 1 (auxArg A B C 0 i j) (A.L + B.L) bv) (buf : List ℝ) (hlen : A.cart_size * B.cart_size ≤ buf.length) :
    ∃ buf', nucPrim env A B C charge modelPoint mp (A.alphaAt i) (B.alphaAt j) buf = .ok buf' ∧
      (MatIs A.cart_size B.cart_size buf' (fun m n =>
        gaussianNormFactor A.L 0 0 (A.alphaAt i) * gaussianNormFactor B.L 0 0 (B.alphaAt j) *
          pairValue 1 A B C 0 i j bv m n * (-(charge : ℝ))) ∧
      SameBeyond (A.cart_size * B.cart_size) buf' buf) := by
  obtain ⟨b1, h1, h2, h3, h4⟩ := mmdPrim_spec env.sf 1 (Or.inr (Or.inl rfl)) A B sA sB C 0 i j hq bv hs buf hlen
  obtain ⟨b2, h5, h6, h7, h8⟩ := scale_matIs A.cart_size B.cart_size b1 charge hc _ h2 (by omega)
  refine ⟨b2, ?_, h6, h7.trans h3, fun p hp => (h8 p hp).trans (h4 p hp)⟩
  unfold nucPrim
  rw [if_pos rfl]
  unfold mmdPrim at h1
  rw [if_neg (by norm_num), if_pos rfl] at h1
  rw [h1, Outcome.ok_bind]
  exact h5

/-- The integral of `1/r` between primitives through the Boys functions. -/
theorem prim_coulomb_value (A B : Shell) (C : Point) (i j : Nat) (hq : 0 < A.alphaAt i + B.alphaAt j + 0) (m n : Nat) :
    ∫ r, primFn A.L A.origin (A.comp m) (A.alphaAt i) r * (radius C r)⁻¹ * primFn B.L B.origin (B.comp n) (B.alphaAt j) r =
      gaussianNormFactor A.L 0 0 (A.alphaAt i) * gaussianNormFactor B.L 0 0 (B.alphaAt j) *
        pairValue 1 A B C 0 i j (fun k => boysF k (pairArg A B C 0 i j)) m n := by
  have h := (coulomb_true hq A.origin B.origin C (A.comp m) (B.comp n)).2
  have e : ∀ r, primFn A.L A.origin (A.comp m) (A.alphaAt i) r * (radius C r)⁻¹ * primFn B.L B.origin (B.comp n) (B.alphaAt j) r =
      gaussianNormFactor A.L 0 0 (A.alphaAt i) * gaussianNormFactor B.L 0 0 (B.alphaAt j) *
        (prod3 (mmdFactor (A.alphaAt i) (B.alphaAt j) 0 A.origin B.origin C (A.comp m) (B.comp n)) r * (radius C r)⁻¹) := by
    intro r
    have : prod3 (mmdFactor (A.alphaAt i) (B.alphaAt j) 0 A.origin B.origin C (A.comp m) (B.comp n)) r =
        prod3 (fun k => gfun (A.alphaAt i) (A.origin k) ((A.comp m).exp k)) r *
          prod3 (fun k => gfun (B.alphaAt j) (B.origin k) ((B.comp n).exp k)) r := by
      unfold prod3 mmdFactor gfun
      rw [← Finset.prod_mul_distrib]
      refine Finset.prod_congr rfl fun k _ => ?_
      rw [Real.exp_add, Real.exp_add, neg_zero, zero_mul, Real.exp_zero]; ring
    rw [primFn_eq, primFn_eq, this]
    ring
  simp only [e]
  rw [integral_const_mul, h]
  congr 1
  simp only [pairValue, ← auxArg_eq]
  norm_num
  exact Or.inl rfl

/-! ## Numerical integration -/

/-- Bound for the error of one element computed numerically. -/
noncomputable def localBound (CA CB k : Point) (lmax : ℕ) (Qt Q : ℕ → ℕ → ℝ) (x y : Comp) : ℝ :=
  ∑ p ∈ box x, ∑ q ∈ box y, ∑ lam ∈ Finset.range (lmax + 1), |angOmega lam (p + q) k| *
    (|boxCoef x CA p * boxCoef y CB q| * (|Qt lam (p.1 + p.2.1 + p.2.2 + q.1 + q.2.1 + q.2.2) -
      Q lam (p.1 + p.2.1 + p.2.2 + q.1 + q.2.1 + q.2.2)| + 1e-16) +
      1e-13 * |Q lam (p.1 + p.2.1 + p.2.2 + q.1 + q.2.1 + q.2.2)|)

def NumericModel (model : Int) : Prop := model = modelBall ∨ model = modelGaussian ∨ model = modelFermi ∨ model = modelBubble ∨
  model = modelPointNumerical

theorem totalPotential_eq {pot : ℝ → Outcome ℝ} {V : ℝ → ℝ} (h : ∀ r, 0 < r → pot r = .ok (V r)) :
    ∃ V', totalPotential pot = .ok V' ∧ ∀ r, 0 < r → V' r = V r := by
  refine ⟨fun r => (pot r).getD 0, ?_, fun r hr => ?_⟩
  · unfold totalPotential
    rw [if_pos fun r hr => ⟨_, h r hr⟩]
  · beta_reduce
    rw [h r hr]
    rfl

theorem gridXi_mem {N i : ℕ} (hi : 0 < i) (hN : i ≤ N) : gridXi N i ∈ Ioo (0:ℝ) 1 := by
  have h1 : (0:ℝ) < i := by exact_mod_cast hi
  have h2 : (i:ℝ) ≤ N := by exact_mod_cast hN
  unfold gridXi
  exact ⟨by positivity, by rw [div_lt_one (by positivity)]; linarith⟩

theorem cube_lt_one {x : ℝ} (h : x ∈ Ioo (0:ℝ) 1) : 0 < x * x * x ∧ x * x * x < 1 := by
  obtain ⟨h0, h1⟩ := h
  have h2 : 0 < x * x := mul_pos h0 h0
  exact ⟨mul_pos h2 h0, by nlinarith⟩

theorem gridLn_neg {N i : ℕ} (hi : 0 < i) (hN : i ≤ N) : gridLn N i < 0 := by
  obtain ⟨h1, h2⟩ := cube_lt_one (gridXi_mem hi hN)
  exact Real.log_neg (by linarith) (by linarith)

theorem gridR_pos {N i : ℕ} (hi : 0 < i) (hN : i ≤ N) : 0 < gridR N i := by
  have := gridLn_neg hi hN
  unfold gridR
  linarith

theorem gridW_pos {N i : ℕ} (hi : 0 < i) (hN : i ≤ N) : 0 < gridW N i := by
  have h := gridLn_neg hi hN
  have h3 := (gridXi_mem hi hN).1
  obtain ⟨h1, h2⟩ := cube_lt_one (gridXi_mem hi hN)
  unfold gridW
  have : 0 < gridLn N i * gridLn N i := mul_pos_of_neg_of_neg h h
  refine div_pos ?_ (mul_pos (by linarith) (by positivity))
  rw [mul_assoc _ (gridLn N i)]
  positivity

theorem fullQuad_congr {F F' : ℝ → ℝ} (h : ∀ r, 0 < r → F r = F' r) : fullQuad F = fullQuad F' := by
  funext N
  unfold fullQuad
  refine Finset.sum_congr rfl fun i hi => ?_
  rw [h]
  exact gridR_pos (by omega) (by have := Finset.mem_range.1 hi; omega)

theorem fullQuad_abs_le {F E : ℝ → ℝ} (h : ∀ r, 0 < r → |F r| ≤ E r) (N : ℕ) : |fullQuad F N| ≤ fullQuad E N := by
  unfold fullQuad
  refine (Finset.abs_sum_le_sum_abs _ _).trans (Finset.sum_le_sum fun i hi => ?_)
  have hi := Finset.mem_range.1 hi
  rw [abs_mul, abs_of_pos (gridW_pos (by omega) (by omega))]
  exact mul_le_mul_of_nonneg_left (h _ (gridR_pos (by omega) (by omega))) (gridW_pos (by omega) (by omega)).le

theorem fullQuad_sub (F E : ℝ → ℝ) (N : ℕ) : fullQuad F N - fullQuad E N = fullQuad (fun r => F r - E r) N := by
  unfold fullQuad
  rw [← Finset.sum_sub_distrib]
  exact Finset.sum_congr rfl fun i _ => by ring

theorem fullQuad_smul (c : ℝ) (F : ℝ → ℝ) (N : ℕ) : fullQuad (fun r => c * F r) N = c * fullQuad F N := by
  unfold fullQuad
  rw [Finset.mul_sum]
  exact Finset.sum_congr rfl fun i _ => by ring

theorem radialValue_congr {κ : Type} {f f' : κ → ℝ → ℝ} {m : ℕ} (hm : m ≤ maxGrid) (tol : ℝ) (screened : Option ℝ) (key : κ)
    (h : ∀ r, 0 < r → f key r = f' key r) : radialValue f m tol screened key = radialValue f' m tol screened key := by
  obtain ⟨c, hc⟩ := radialValue_result f m hm tol screened key
  obtain ⟨c', hc'⟩ := radialValue_result f' m hm tol screened key
  have e := fullQuad_congr h
  have : RadialResult (f' key) m tol screened (radialValue f m tol screened key) c := by
    have := hc.cases
    unfold Accepts at this
    rw [e] at this
    exact ⟨this⟩
  exact (this.unique hc').1

/-- The value of the adaptive integration without screening is a quadrature sum on one of the grids. -/
theorem radialValue_level {κ : Type} (f : κ → ℝ → ℝ) (tol : ℝ) (key : κ) :
    ∃ k ≤ 2, radialValue f 2047 tol none key = fullQuad (f key) (levelSize 2047 k) := by
  obtain ⟨c, hc⟩ := radialValue_result f 2047 (by norm_num [maxGrid]) tol none key
  rcases hc.cases with ⟨x, hx, _⟩ | ⟨_, k, hk, hl, _⟩
  · cases hx
  · refine ⟨k, ?_, hk⟩
    by_contra h
    have h3 : 2 ^ 3 ≤ 2 ^ k := Nat.pow_le_pow_right (by norm_num) (by omega)
    unfold levelSize maxGrid at hl
    omega

/-- The numerical value of the radial integrals. -/
noncomputable def radialCode (radial : ℝ) (bt : BesselTab) (V : ℝ → ℝ) (A B : Shell) (C : Point) (a b : ℝ) (lam N : ℕ) : ℝ :=
  radialValue (codeIntegrand bt V A B C a b) 2047 radial none (N, lam)

theorem nucPrim_numeric {G : Type} (env : NucEnv G) (A B : Shell) (hA : A.Homog) (hB : B.Homog) (hL : A.L + B.L ≤ 14) (C : Point)
    (charge model : Int) (hm : NumericModel model) (mp : List ℝ) (f : ℝ → Outcome ℝ) (V : ℝ → ℝ)
    (hf : nucPotential env.sk charge model mp = .ok f) (hV : ∀ r, 0 < r → f r = .ok (V r)) (a b : ℝ)
    (buf : List ℝ) (hlen : A.cart_size * B.cart_size ≤ buf.length) :
    ∃ buf', nucPrim env A B C charge model mp a b buf = .ok buf' ∧
      (MatIs A.cart_size B.cart_size buf' (fun m n => localSum (toC A C) (toC B C) (kVec A B C a b) (A.L + B.L)
        (radialCode env.prm.radial env.bt V A B C a b) (A.comp m) (B.comp n)) ∧
      SameBeyond (A.cart_size * B.cart_size) buf' buf) := by
  obtain ⟨V', h1, h2⟩ := totalPotential_eq hV
  obtain ⟨buf', h3, h4, h5⟩ := radialLocal_spec env.prm env.bt V' A B hA hB hL C a b buf hlen
  refine ⟨buf', ?_, ?_, h5⟩
  · unfold nucPrim
    have hne : model ≠ modelPoint := by
      rcases hm with h | h | h | h | h <;> rw [h] <;> decide
    unfold NumericModel at hm
    rw [if_neg hne, if_pos hm, hf, Outcome.ok_bind, h1, Outcome.ok_bind, h3]
  · have e : (fun lam N => radialValue (codeIntegrand env.bt V' A B C a b) 2047 env.prm.radial none (N, lam)) =
        radialCode env.prm.radial env.bt V A B C a b := by
      funext lam N
      refine radialValue_congr (by norm_num [maxGrid]) _ _ _ fun r hr => ?_
      unfold codeIntegrand type1Integrand
      rw [h2 r hr]
    rw [e] at h4
    exact h4

/-! ## Radial integrals -/

/-- The integrand of the exact radial integral (without the volume element). -/
noncomputable def exactIntegrand (V : ℝ → ℝ) (A B : Shell) (C : Point) (a b : ℝ) (lam n : ℕ) (r : ℝ) : ℝ :=
  4 * Real.pi * gaussianNormFactor A.L 0 0 a * gaussianNormFactor B.L 0 0 b *
    (r ^ n * (Real.exp (-(a + b) * r ^ 2 - a * ∑ i, toC A C i ^ 2 - b * ∑ i, toC B C i ^ 2) * V r *
      besselI lam (r * vnorm (kVec A B C a b))))

theorem radialExact_eq (V : ℝ → ℝ) (A B : Shell) (C : Point) (a b : ℝ) (lam n : ℕ) :
    radialExact V A B C a b lam n = ∫ r in Ioi (0:ℝ), r ^ 2 * exactIntegrand V A B C a b lam n r := by
  unfold radialExact exactIntegrand
  rw [← integral_const_mul]
  congr 1
  funext r
  ring

/-- The factor multiplying the potential and the scaled Bessel function. -/
noncomputable def gaussEnvelope (A B : Shell) (C : Point) (a b : ℝ) (n : ℕ) (r : ℝ) : ℝ :=
  4 * Real.pi * gaussianNormFactor A.L 0 0 a * gaussianNormFactor B.L 0 0 b *
    Real.exp (vnorm (kVec A B C a b) * r - (a + b) * r * r - a * ∑ i, toC A C i ^ 2 - b * ∑ i, toC B C i ^ 2) * r ^ n

theorem exactIntegrand_scaled (V : ℝ → ℝ) (A B : Shell) (C : Point) (a b : ℝ) (lam n : ℕ) (r : ℝ) :
    exactIntegrand V A B C a b lam n r =
      V r * gaussEnvelope A B C a b n r * (Real.exp (-(r * vnorm (kVec A B C a b))) * besselI lam (r * vnorm (kVec A B C a b))) := by
  unfold exactIntegrand gaussEnvelope
  have : Real.exp (-(a + b) * r ^ 2 - a * ∑ i, toC A C i ^ 2 - b * ∑ i, toC B C i ^ 2) =
      Real.exp (vnorm (kVec A B C a b) * r - (a + b) * r * r - a * ∑ i, toC A C i ^ 2 - b * ∑ i, toC B C i ^ 2) *
        Real.exp (-(r * vnorm (kVec A B C a b))) := by
    rw [← Real.exp_add]
    congr 1
    ring
  rw [this]
  ring

theorem codeIntegrand_scaled (bt : BesselTab) (V : ℝ → ℝ) (A B : Shell) (C : Point) (a b : ℝ) (lam n : ℕ) (r : ℝ) {v : ℝ}
    (hv : besselScaled bt lam (r * vnorm (kVec A B C a b)) = .ok v) :
    codeIntegrand bt V A B C a b (n, lam) r = V r * gaussEnvelope A B C a b n r * v := by
  unfold codeIntegrand type1Integrand gaussEnvelope
  simp only [hv, Outcome.getD]
  ring

theorem norm_factor_nonneg (L : ℕ) {a : ℝ} (ha : 0 < a) : 0 ≤ gaussianNormFactor L 0 0 a := by
  unfold gaussianNormFactor
  positivity

theorem gaussEnvelope_nonneg (A B : Shell) (C : Point) {a b : ℝ} (ha : 0 < a) (hb : 0 < b) (n : ℕ) {r : ℝ} (hr : 0 < r) :
    0 ≤ gaussEnvelope A B C a b n r := by
  unfold gaussEnvelope
  have := norm_factor_nonneg A.L ha
  have := norm_factor_nonneg B.L hb
  positivity

/-- A potential function that is continuous for positive distances and, up to a factor, at most `1 + 1/r`. -/
def Coulombic (V : ℝ → ℝ) : Prop := ContinuousOn V (Ioi 0) ∧ ∃ K, ∀ r, 0 < r → |V r| ≤ K * (1 + r⁻¹)

theorem Coulombic.tame {V : ℝ → ℝ} (h : Coulombic V) : Tame V := by
  obtain ⟨h1, K, h2⟩ := h
  refine ⟨h1, |K|, fun r hr => (h2 r hr).trans ?_⟩
  have e1 : K * (1 + r⁻¹) ≤ |K| * (1 + r⁻¹) := mul_le_mul_of_nonneg_right (le_abs_self K) (by positivity)
  have e2 : |K| * (1 + r⁻¹) ≤ |K| * (1 + r⁻¹ + (r ^ 2)⁻¹) := mul_le_mul_of_nonneg_left (by
    have : 0 < (r ^ 2)⁻¹ := by positivity
    linarith) (abs_nonneg K)
  exact e1.trans e2

/-- The quadrature sums of the exact integrand converge to the exact radial integral. -/
theorem exactIntegrand_tendsto {V : ℝ → ℝ} (hV : Coulombic V) (A B : Shell) (C : Point) {a b : ℝ} (ha : 0 < a) (hb : 0 < b) (lam n : ℕ) :
    Tendsto (fullQuad (exactIntegrand V A B C a b lam n)) atTop (𝓝 (radialExact V A B C a b lam n)) := by
  obtain ⟨hc, K, hK⟩ := hV
  rw [radialExact_eq]
  set N := 4 * Real.pi * gaussianNormFactor A.L 0 0 a * gaussianNormFactor B.L 0 0 b with hN
  set κ := vnorm (kVec A B C a b) with hκ
  set E := a * ∑ i, toC A C i ^ 2 + b * ∑ i, toC B C i ^ 2 with hE
  have hκ0 : 0 ≤ κ := vnorm_nonneg _
  have hE0 : 0 ≤ E := by
    have : 0 ≤ ∑ i, toC A C i ^ 2 := Finset.sum_nonneg fun i _ => sq_nonneg _
    have : 0 ≤ ∑ i, toC B C i ^ 2 := Finset.sum_nonneg fun i _ => sq_nonneg _
    positivity
  clear_value N κ
  have bound : ∀ r, 0 < r → |r ^ 2 * exactIntegrand V A B C a b lam n r| ≤
      |N| * |K| * (r ^ (n + 2) + r ^ (n + 1)) * Real.exp (-(a + b) * r ^ 2 + r * κ) := by
    intro r hr
    have hx : 0 ≤ r * κ := mul_nonneg hr.le hκ0
    have h1 := besselI_le_exp lam hx
    have h2 := besselI_nonneg lam hx
    have h3 : |V r| ≤ |K| * (1 + r⁻¹) := (hK r hr).trans (mul_le_mul_of_nonneg_right (le_abs_self K) (by positivity))
    have h4 : Real.exp (-(a + b) * r ^ 2 - a * ∑ i, toC A C i ^ 2 - b * ∑ i, toC B C i ^ 2) ≤ Real.exp (-(a + b) * r ^ 2) := by
      rw [Real.exp_le_exp]
      linarith
    unfold exactIntegrand
    rw [← hN, ← hκ, abs_mul, abs_mul, abs_mul, abs_mul, abs_mul, Real.abs_exp, abs_of_nonneg h2, abs_of_pos (pow_pos hr 2),
      abs_of_pos (pow_pos hr n), Real.exp_add]
    calc r ^ 2 * (|N| * (r ^ n * (Real.exp (-(a + b) * r ^ 2 - a * ∑ i, toC A C i ^ 2 - b * ∑ i, toC B C i ^ 2) * |V r| *
          besselI lam (r * κ))))
        ≤ r ^ 2 * (|N| * (r ^ n * (Real.exp (-(a + b) * r ^ 2) * (|K| * (1 + r⁻¹)) * Real.exp (r * κ)))) := by
          refine mul_le_mul_of_nonneg_left (mul_le_mul_of_nonneg_left (mul_le_mul_of_nonneg_left ?_ (by positivity)) (abs_nonneg _))
            (by positivity)
          exact mul_le_mul (mul_le_mul h4 h3 (abs_nonneg _) (Real.exp_pos _).le) h1 h2 (by positivity)
      _ = |N| * |K| * (r ^ (n + 2) + r ^ (n + 1)) * (Real.exp (-(a + b) * r ^ 2) * Real.exp (r * κ)) := by
          field_simp
          ring
  have hab : 0 < a + b := by linarith
  refine quad_tendsto (a := 0) ?_ ?_ ?_
  · have hbI : Continuous (besselI lam) := continuous_iff_continuousAt.2 fun x => (besselI_hasDerivAt lam x).continuousAt
    have hb2 : Continuous fun r : ℝ => besselI lam (r * κ) := hbI.comp (by fun_prop)
    unfold exactIntegrand
    rw [← hN, ← hκ]
    exact (by fun_prop : ContinuousOn (fun r : ℝ => r ^ 2) (Ioi 0)).mul (continuousOn_const.mul
      ((by fun_prop : ContinuousOn (fun r : ℝ => r ^ n) (Ioi 0)).mul
        (((by fun_prop : ContinuousOn (fun r : ℝ => Real.exp (-(a + b) * r ^ 2 - a * ∑ i, toC A C i ^ 2 - b * ∑ i, toC B C i ^ 2)) (Ioi 0)).mul hc).mul
          hb2.continuousOn)))
  · refine squeeze_zero_norm' (a := fun r => |N| * |K| * (r ^ (n + 2) + r ^ (n + 1)) * Real.exp (-(a + b) * r ^ 2 + r * κ)) ?_ ?_
    · filter_upwards [self_mem_nhdsWithin] with r hr using bound r hr
    · have hcont : Continuous fun r : ℝ => |N| * |K| * (r ^ (n + 2) + r ^ (n + 1)) * Real.exp (-(a + b) * r ^ 2 + r * κ) := by fun_prop
      have := (hcont.tendsto 0).mono_left (nhdsWithin_le_nhds (s := Ioi (0:ℝ)))
      simpa using this
  · have hlim : Tendsto (fun r : ℝ => |N| * |K| * (r ^ (n + 2) * Real.exp (-r) + r ^ (n + 1) * Real.exp (-r))) atTop (𝓝 0) := by
      have h1 := Real.tendsto_pow_mul_exp_neg_atTop_nhds_zero (n + 2)
      have h2 := Real.tendsto_pow_mul_exp_neg_atTop_nhds_zero (n + 1)
      simpa using (h1.add h2).const_mul (|N| * |K|)
    refine squeeze_zero_norm' ?_ hlim
    filter_upwards [eventually_gt_atTop 0, eventually_ge_atTop ((κ + 6 / 5) / (a + b))] with r hr hr2
    rw [div_le_iff₀ hab] at hr2
    rw [norm_mul, Real.norm_eq_abs, Real.norm_eq_abs, Real.abs_exp]
    refine (mul_le_mul_of_nonneg_right (bound r hr) (Real.exp_pos _).le).trans ?_
    rw [mul_assoc _ (Real.exp _), ← Real.exp_add]
    have h5 : Real.exp (-(a + b) * r ^ 2 + r * κ + r / 5) ≤ Real.exp (-r) := by
      rw [Real.exp_le_exp]
      nlinarith
    calc |N| * |K| * (r ^ (n + 2) + r ^ (n + 1)) * Real.exp (-(a + b) * r ^ 2 + r * κ + r / 5)
        ≤ |N| * |K| * (r ^ (n + 2) + r ^ (n + 1)) * Real.exp (-r) := mul_le_mul_of_nonneg_left h5 (by positivity)
      _ = _ := by ring

/-! ## The potentials of the models -/

/-- The energy in the field of a charge density is at most the total charge divided by the distance. -/
theorem electronEnergy_bound {ρ : ℝ → ℝ} (hi : IntegrableOn (fun s => 4 * Real.pi * s ^ 2 * ρ s) (Ioi 0)) {r : ℝ} (hr : 0 < r) :
    |electronEnergy ρ r| ≤ (∫ s in Ioi (0:ℝ), |4 * Real.pi * s ^ 2 * ρ s|) / r := by
  have hsplit : (Ioi (0:ℝ)) = Ioc 0 r ∪ Ioi r := (Ioc_union_Ioi_eq_Ioi hr.le).symm
  have hin : IntegrableOn (fun s => 4 * Real.pi * s ^ 2 * ρ s) (Ioc 0 r) := hi.mono_set Ioc_subset_Ioi_self
  have hout : IntegrableOn (fun s => 4 * Real.pi * s ^ 2 * ρ s) (Ioi r) := hi.mono_set (Ioi_subset_Ioi hr.le)
  have h1 : |∫ s in (0:ℝ)..r, 4 * Real.pi * s ^ 2 * ρ s| ≤ ∫ s in Ioc (0:ℝ) r, |4 * Real.pi * s ^ 2 * ρ s| := by
    rw [intervalIntegral.integral_of_le hr.le]
    exact abs_integral_le_integral_abs
  have h2 : |∫ s in Ioi r, 4 * Real.pi * s * ρ s| ≤ (∫ s in Ioi r, |4 * Real.pi * s ^ 2 * ρ s|) / r := by
    rw [← integral_div]
    refine abs_integral_le_integral_abs.trans ?_
    refine integral_mono_of_nonneg (Eventually.of_forall fun s => abs_nonneg _) (hout.abs.div_const r) ?_
    refine (ae_restrict_iff' measurableSet_Ioi).2 (Eventually.of_forall fun s hs => ?_)
    have hs : r < s := hs
    beta_reduce
    rw [le_div_iff₀ hr, abs_mul, abs_mul (4 * Real.pi * s ^ 2)]
    have e : |4 * Real.pi * s ^ 2| = |4 * Real.pi * s| * s := by
      rw [abs_of_pos (by have := hr.trans hs; positivity), abs_of_pos (by have := hr.trans hs; positivity)]
      ring
    rw [e]
    have : 0 ≤ |4 * Real.pi * s| * |ρ s| := by positivity
    nlinarith
  have h3 : ∫ s in Ioi (0:ℝ), |4 * Real.pi * s ^ 2 * ρ s| =
      (∫ s in Ioc (0:ℝ) r, |4 * Real.pi * s ^ 2 * ρ s|) + ∫ s in Ioi r, |4 * Real.pi * s ^ 2 * ρ s| := by
    rw [hsplit, setIntegral_union (Ioc_disjoint_Ioi le_rfl) measurableSet_Ioi hin.abs hout.abs]
  unfold electronEnergy
  rw [abs_neg, h3, add_div]
  refine (abs_add_le _ _).trans (add_le_add ?_ h2)
  rw [abs_div, abs_of_pos hr]
  exact div_le_div_of_nonneg_right h1 hr.le

theorem coulombic_of_bound {V : ℝ → ℝ} (hc : ContinuousOn V (Ioi 0)) {M : ℝ} (hM : 0 ≤ M) (h : ∀ r, 0 < r → |V r| ≤ M / r) :
    Coulombic V := by
  refine ⟨hc, M, fun r hr => (h r hr).trans ?_⟩
  rw [div_eq_mul_inv, mul_add]
  linarith

theorem coulombic_energy {ρ : ℝ → ℝ} (hc : ContinuousOn (electronEnergy ρ) (Ioi 0))
    (hi : IntegrableOn (fun s => 4 * Real.pi * s ^ 2 * ρ s) (Ioi 0)) : Coulombic (electronEnergy ρ) :=
  coulombic_of_bound hc (integral_nonneg fun _ => abs_nonneg _) fun _ hr => electronEnergy_bound hi hr

end Libgrpp
