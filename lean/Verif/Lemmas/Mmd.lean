import Verif.Lemmas.MmdIntegral
import Verif.Lemmas.OneElectronTrue
import Verif.Lemmas.OneElectronList
import Verif.Model.SpecLocal

/-! The McMurchie-Davidson routines: primitive values, contraction, and comparison with the true integrals. -/

namespace Libgrpp

open MeasureTheory Set

/-- The sum of the exponents of every component is at most `L`. -/
def Shell.SumLe (s : Shell) : Prop := ∀ c ∈ s.cartList, c.1 + c.2.1 + c.2.2 ≤ s.L

theorem newShell_sumLe {gen : Nat → List Comp} (hg : DocumentedOrder gen) {origin : Point} {L num : Nat}
    {coeffs alpha : List ℝ} (hc : num ≤ coeffs.length) (ha : num ≤ alpha.length) {s : Shell}
    (hs : newShell gen origin L num coeffs alpha = .ok s) : s.SumLe := by
  rw [new_shell_value gen origin L num coeffs alpha hc ha] at hs
  cases hs
  obtain ⟨-, -, h3⟩ := cartesian_turbomole_complete L
  rw [hg.eq]
  rintro ⟨n, l, m⟩ hm
  have := (h3 n l m).1 hm
  show n + l + m ≤ L
  omega

theorem Shell.comp_sum (s : Shell) (hs : s.Listed) (h : s.SumLe) {m : Nat} (hm : m < s.cart_size) :
    (s.comp m).1 + (s.comp m).2.1 + (s.comp m).2.2 ≤ s.L := by
  have hl : m < s.cartList.length := hs.1 ▸ hm
  apply h
  simp [Shell.comp, List.getD, List.getElem?_eq_getElem hl]

theorem dropTiny_coeffAt (s : Shell) (i : Nat) :
    (dropTiny s).coeffAt i = if |s.coeffAt i| < zeroThresh then 0 else s.coeffAt i := by
  unfold dropTiny Shell.coeffAt
  simp only
  by_cases h : i < s.coeffs.length
  · simp [List.getD, List.getElem?_eq_getElem h]
  · simp [List.getD, List.getElem?_eq_none (not_lt.1 h)]

/-- The screened contraction loop computes the contraction with the tiny coefficients dropped. -/
theorem contractScreened_spec (A B : Shell) (hA : A.WF) (hB : B.WF) (prim : ℝ → ℝ → List ℝ → Outcome (List ℝ))
    (g : Nat → Nat → Nat → Nat → ℝ) (out : List ℝ)
    (hprim : ∀ i j buf, i < A.num → j < B.num → A.cart_size * B.cart_size ≤ buf.length →
      ∃ buf', prim (A.alphaAt i) (B.alphaAt j) buf = .ok buf' ∧
        (MatIs A.cart_size B.cart_size buf' (g i j) ∧ SameBeyond (A.cart_size * B.cart_size) buf' buf))
    (hlen : A.cart_size * B.cart_size ≤ out.length) :
    ∃ out', contractScreened A B prim out = .ok out' ∧
      MatIs A.cart_size B.cart_size out' (fun m n => ∑ i ∈ Finset.range A.num, ∑ j ∈ Finset.range B.num,
        (dropTiny A).coeffAt i * (dropTiny B).coeffAt j * g i j m n) ∧
      SameBeyond (A.cart_size * B.cart_size) out' out := by
  obtain ⟨out0, hm, hz, hsl, hsb⟩ := memset0_spec (A.cart_size * B.cart_size) out hlen
  let T : Nat → Nat → Nat → Nat → ℝ := fun i j m n => (dropTiny A).coeffAt i * (dropTiny B).coeffAt j * g i j m n
  have key : ∃ r, (forRange A.num (List.replicate (A.cart_size * B.cart_size) (0 : ℝ), out0)
      fun i (st : List ℝ × List ℝ) => do
        let ci ← rd A.coeffs i
        if |ci| < zeroThresh then .ok st
        else forRange B.num st fun j (st : List ℝ × List ℝ) => do
          let cj ← rd B.coeffs j
          if |cj| < zeroThresh then .ok st
          else do
            let ai ← rd A.alpha i
            let aj ← rd B.alpha j
            let buf ← prim ai aj st.1
            let out ← daxpy (A.cart_size * B.cart_size) (ci * cj) buf st.2
            .ok (buf, out)) = .ok r ∧
      (MatIs A.cart_size B.cart_size r.2 (fun m n => ∑ i ∈ Finset.range A.num, ∑ j ∈ Finset.range B.num, T i j m n) ∧
        SameBeyond (A.cart_size * B.cart_size) r.2 out) := by
    refine forRange_spec (fun k (st : List ℝ × List ℝ) => st.1.length = A.cart_size * B.cart_size ∧
      MatIs A.cart_size B.cart_size st.2 (fun m n => ∑ i ∈ Finset.range k, ∑ j ∈ Finset.range B.num, T i j m n) ∧
      SameBeyond (A.cart_size * B.cart_size) st.2 out) ⟨by simp, ?_, hsl, hsb⟩ ?_ ?_
    · intro i j hi hj
      simp only [Finset.range_zero, Finset.sum_empty]
      exact hz _ (rowMajor_lt hi hj)
    · rintro i ⟨buf, o⟩ hi ⟨hbl, hmat, hsame⟩
      rw [rd_getD (show i < A.coeffs.length from lt_of_lt_of_le hi hA.1)]
      simp only [Outcome.ok_bind]
      by_cases htA : |A.coeffs.getD i 0| < zeroThresh
      · rw [if_pos htA]
        refine ⟨(buf, o), rfl, hbl, ?_, hsame⟩
        intro m n hm hn
        rw [hmat m n hm hn]
        beta_reduce
        rw [Finset.sum_range_succ]
        have : ∀ j, T i j m n = 0 := fun j => by
          simp only [T]; rw [dropTiny_coeffAt, show A.coeffAt i = A.coeffs.getD i 0 from rfl, if_pos htA]; ring
        simp [this]
      rw [if_neg htA]
      refine forRange_spec (fun k (st : List ℝ × List ℝ) => st.1.length = A.cart_size * B.cart_size ∧
        MatIs A.cart_size B.cart_size st.2 (fun m n => (∑ i ∈ Finset.range i, ∑ j ∈ Finset.range B.num, T i j m n) +
          ∑ j ∈ Finset.range k, T i j m n) ∧
        SameBeyond (A.cart_size * B.cart_size) st.2 out) ⟨hbl, ?_, hsame⟩ ?_ ?_
      · intro m n hm hn
        simp only [Finset.range_zero, Finset.sum_empty, add_zero]
        exact hmat m n hm hn
      · rintro j ⟨buf, o⟩ hj ⟨hbl, hmat, hsame⟩
        simp only at hbl hmat hsame ⊢
        rw [rd_getD (show j < B.coeffs.length from lt_of_lt_of_le hj hB.1)]
        simp only [Outcome.ok_bind]
        by_cases htB : |B.coeffs.getD j 0| < zeroThresh
        · rw [if_pos htB]
          refine ⟨(buf, o), rfl, hbl, ?_, hsame⟩
          intro m n hm hn
          rw [hmat m n hm hn]
          beta_reduce
          rw [Finset.sum_range_succ]
          have : T i j m n = 0 := by
            simp only [T]; rw [dropTiny_coeffAt B, show B.coeffAt j = B.coeffs.getD j 0 from rfl, if_pos htB]; ring
          rw [this, add_zero]
        rw [if_neg htB, rd_getD (show i < A.alpha.length from lt_of_lt_of_le hi hA.2),
          rd_getD (show j < B.alpha.length from lt_of_lt_of_le hj hB.2)]
        simp only [Outcome.ok_bind]
        obtain ⟨buf', hb, hb1, hb2, hb3⟩ := hprim i j buf hi hj (by omega)
        simp only [Shell.alphaAt] at hb
        rw [hb]
        simp only [Outcome.ok_bind]
        obtain ⟨o', ho, ho1, ho2, ho3⟩ := daxpy_matIs A.cart_size B.cart_size
          (A.coeffs.getD i 0 * B.coeffs.getD j 0) buf' o _ _ hb1 (by omega) hmat (by rw [hsame.1]; exact hlen)
        rw [ho]
        refine ⟨(buf', o'), rfl, by rw [← hbl]; exact hb2, ?_, ?_⟩
        · intro m n hm hn
          rw [ho1 m n hm hn]
          beta_reduce
          rw [Finset.sum_range_succ, ← add_assoc]
          have : T i j m n = A.coeffs.getD i 0 * B.coeffs.getD j 0 * g i j m n := by
            simp only [T]
            rw [dropTiny_coeffAt, dropTiny_coeffAt, show A.coeffAt i = A.coeffs.getD i 0 from rfl,
              show B.coeffAt j = B.coeffs.getD j 0 from rfl, if_neg htA, if_neg htB]
          rw [this]
        · exact ⟨by rw [← hsame.1, ← ho2], fun p hp => by rw [ho3 p hp, hsame.2 p hp]⟩
      · rintro ⟨buf, o⟩ ⟨h1, h2, h3⟩
        refine ⟨h1, ?_, h3⟩
        intro m n hm hn
        rw [h2 m n hm hn]
        beta_reduce
        rw [Finset.sum_range_succ]
    · rintro ⟨buf, o⟩ ⟨-, h2, h3⟩
      exact ⟨h2, h3⟩
  obtain ⟨r, hr, h1, h2⟩ := key
  refine ⟨r.2, ?_, h1, h2⟩
  unfold contractScreened
  simp only [hm, Outcome.ok_bind]
  rw [hr]
  rfl

/-! ## Integrals of contracted functions -/

theorem dist2_radius (C r : Point) : radius C r ^ 2 = dist2 C r := Real.sq_sqrt (dist2_nonneg C r)

theorem integral_contracted (A B : Shell) (m n : Nat) (C : Point) (c : ℝ) (op : Point → ℝ) (I : Nat → Nat → ℝ)
    (h : ∀ i < A.num, ∀ j < B.num,
      Integrable (fun r => prod3 (mmdFactor (A.alphaAt i) (B.alphaAt j) c A.origin B.origin C (A.comp m) (B.comp n)) r * op r) ∧
      ∫ r, prod3 (mmdFactor (A.alphaAt i) (B.alphaAt j) c A.origin B.origin C (A.comp m) (B.comp n)) r * op r = I i j) :
    Integrable (fun r => basisFn A m r * (op r * Real.exp (-c * radius C r ^ 2)) * basisFn B n r) ∧
    ∫ r, basisFn A m r * (op r * Real.exp (-c * radius C r ^ 2)) * basisFn B n r =
      ∑ i ∈ Finset.range A.num, ∑ j ∈ Finset.range B.num, A.coeffAt i * B.coeffAt j *
        (gaussianNormFactor A.L 0 0 (A.alphaAt i) * gaussianNormFactor B.L 0 0 (B.alphaAt j) * I i j) := by
  have e : ∀ r, basisFn A m r * (op r * Real.exp (-c * radius C r ^ 2)) * basisFn B n r =
      ∑ i ∈ Finset.range A.num, ∑ j ∈ Finset.range B.num, A.weight i * B.weight j *
        (prod3 (mmdFactor (A.alphaAt i) (B.alphaAt j) c A.origin B.origin C (A.comp m) (B.comp n)) r * op r) := by
    intro r
    rw [basisFn_eq A m, basisFn_eq B n]
    beta_reduce
    rw [mul_right_comm, Finset.sum_mul_sum, Finset.sum_mul]
    refine Finset.sum_congr rfl fun i _ => ?_
    rw [Finset.sum_mul]
    refine Finset.sum_congr rfl fun j _ => ?_
    have : prod3 (mmdFactor (A.alphaAt i) (B.alphaAt j) c A.origin B.origin C (A.comp m) (B.comp n)) r =
        prod3 (A.factor m i) r * prod3 (B.factor n j) r * Real.exp (-c * radius C r ^ 2) := by
      rw [dist2_radius]
      unfold prod3 dist2 mmdFactor Shell.factor gfun
      rw [Finset.mul_sum, Real.exp_sum, ← Finset.prod_mul_distrib, ← Finset.prod_mul_distrib]
      refine Finset.prod_congr rfl fun k _ => ?_
      rw [Real.exp_add, Real.exp_add]; ring
    rw [this]; ring
  simp only [e]
  have hI : ∀ i ∈ Finset.range A.num, ∀ j ∈ Finset.range B.num, Integrable fun r => A.weight i * B.weight j *
        (prod3 (mmdFactor (A.alphaAt i) (B.alphaAt j) c A.origin B.origin C (A.comp m) (B.comp n)) r * op r) :=
    fun i hi j hj => (h i (Finset.mem_range.1 hi) j (Finset.mem_range.1 hj)).1.const_mul _
  refine ⟨integrable_finsetSum _ fun i hi => integrable_finsetSum _ fun j hj => hI i hi j hj, ?_⟩
  rw [integral_finsetSum _ fun i hi => integrable_finsetSum _ fun j hj => hI i hi j hj]
  refine Finset.sum_congr rfl fun i hi => ?_
  rw [integral_finsetSum _ fun j hj => hI i hi j hj]
  refine Finset.sum_congr rfl fun j hj => ?_
  rw [integral_const_mul, (h i (Finset.mem_range.1 hi) j (Finset.mem_range.1 hj)).2]
  unfold Shell.weight
  ring

/-! ## Primitive routines -/

theorem rpow_three_half {x : ℝ} (hx : 0 ≤ x) : x ^ (1.5 : ℝ) = Real.sqrt x ^ 3 := by
  rw [Real.sqrt_eq_rpow, ← Real.rpow_natCast, ← Real.rpow_mul hx]
  norm_num

/-- Data of the primitive pair `i`, `j`. -/
noncomputable def pairData (A B : Shell) (C : Point) (c : ℝ) (i j : Nat) : Mmd :=
  mmdData A.origin (A.alphaAt i) B.origin (B.alphaAt j) C c

/-- Argument of the auxiliary function for the primitive pair `i`, `j`. -/
noncomputable def auxArg (A B : Shell) (C : Point) (c : ℝ) (i j : Nat) : ℝ :=
  (pairData A B C c i j).q * (pairData A B C c i j).rqc2

theorem rqc2_eq (A : Point) (a : ℝ) (B : Point) (b : ℝ) (C : Point) (c : ℝ) :
    (mmdData A a B b C c).rqc2 = ∑ k, ((mmdData A a B b C c).Q k - C k) ^ 2 := by
  rw [Fin.sum_univ_three]
  simp only [mmdData, distanceSquared]
  ring

theorem auxArg_nonneg (A B : Shell) (C : Point) (c : ℝ) (i j : Nat) (h : 0 ≤ A.alphaAt i + B.alphaAt j + c) :
    0 ≤ auxArg A B C c i j := by
  unfold auxArg pairData
  rw [rqc2_eq]
  exact mul_nonneg h (Finset.sum_nonneg fun k _ => sq_nonneg _)

theorem mmdPrim2_spec (A B : Shell) (lA : A.Listed) (lB : B.Listed) (hLA : A.L ≤ 9) (hLB : B.L ≤ 9) (C : Point) (c a b : ℝ)
    (hq : 0 < a + b + c) (buf : List ℝ) (hlen : A.cart_size * B.cart_size ≤ buf.length) :
    ∃ buf', mmdPrim2 A B C c a b buf = .ok buf' ∧ (MatIs A.cart_size B.cart_size buf' (fun m n =>
        gaussianNormFactor A.L 0 0 a * gaussianNormFactor B.L 0 0 b * (Real.sqrt (Real.pi / (a + b + c)) ^ 3 *
          ∏ k, eVal (mmdData A.origin a B.origin b C c) k ((A.comp m).exp k) ((B.comp n).exp k) 0)) ∧
      SameBeyond (A.cart_size * B.cart_size) buf' buf) := by
  obtain ⟨E, hE, hEv⟩ := setupE_spec (mmdData A.origin a B.origin b C c) hq.ne' A.L B.L hLA hLB
  unfold mmdPrim2
  simp only [hE, Outcome.ok_bind]
  apply storePairs_spec A B lA lB _ _ buf _ hlen
  intro m n hm hn
  obtain ⟨a1, a2, a3⟩ := A.comp_le lA hm
  obtain ⟨b1, b2, b3⟩ := B.comp_le lB hn
  have g0 : eGet E 0 (A.comp m).1 (B.comp n).1 0 = .ok _ :=
    eGet_ok (by omega) (by omega) (by omega) (by omega) (hEv 0 _ _ 0 a1 b1 (by omega))
  have g1 : eGet E 1 (A.comp m).2.1 (B.comp n).2.1 0 = .ok _ :=
    eGet_ok (by omega) (by omega) (by omega) (by omega) (hEv 1 _ _ 0 a2 b2 (by omega))
  have g2 : eGet E 2 (A.comp m).2.2 (B.comp n).2.2 0 = .ok _ :=
    eGet_ok (by omega) (by omega) (by omega) (by omega) (hEv 2 _ _ 0 a3 b3 (by omega))
  simp only [g0, g1, g2, Outcome.ok_bind]
  congr 1
  rw [mmdData_q, rpow_three_half (div_nonneg Real.pi_pos.le hq.le), Fin.prod_univ_three]
  simp only [Comp.exp_zero, Comp.exp_one, Comp.exp_two]
  ring

/-- The body shared by the two routines with auxiliary functions. -/
theorem mmdPrimR_spec (A B : Shell) (lA : A.Listed) (lB : B.Listed) (sA : A.SumLe) (sB : B.SumLe) (hLA : A.L ≤ 9)
    (hLB : B.L ≤ 9) (d : Mmd) (hq : d.q ≠ 0) (lower : ℝ → Nat → Nat → (Nat → Nat → Outcome ℝ) → Outcome ℝ) (base κ : ℝ)
    (hl : LowersBy lower κ) (f : Aux) (bv : ℕ → ℝ) (hb : ∀ k ≤ A.L + B.L, f k = some (bv k)) (w : ℝ)
    (buf : List ℝ) (hlen : A.cart_size * B.cart_size ≤ buf.length) :
    ∃ buf', (do
        let E ← setupE d A.L B.L
        let R ← setupRG lower base d A.L B.L f
        storePairs A B (fun x y => do
          let s ← sumTUV E R x y
          .ok (s * w)) buf) = .ok buf' ∧ (MatIs A.cart_size B.cart_size buf' (fun m n => w *
        tuvSum d (A.comp m) (B.comp n) fun t u v => rSol base κ (fun k => d.Q k - d.C k) bv t u v 0) ∧
      SameBeyond (A.cart_size * B.cart_size) buf' buf) := by
  obtain ⟨E, hE, hEv⟩ := setupE_spec d hq A.L B.L hLA hLB
  obtain ⟨R, hR, hRv⟩ := setupRG_spec lower base κ hl d A.L B.L (by omega) f bv hb
  simp only [hE, hR, Outcome.ok_bind]
  apply storePairs_spec A B lA lB _ _ buf _ hlen
  intro m n hm hn
  rw [sumTUV_spec d A.L B.L hLA hLB E R (fun t u v => rSol base κ (fun k => d.Q k - d.C k) bv t u v 0) _ _
    (A.comp_sum lA sA hm) (B.comp_sum lB sB hn) hEv (fun t u v h => hRv t u v 0 (by omega))]
  simp only [Outcome.ok_bind]
  rw [mul_comm]

theorem mmdPrim1_spec (sf : SpecFun) (A B : Shell) (lA : A.Listed) (lB : B.Listed) (sA : A.SumLe) (sB : B.SumLe)
    (hLA : A.L ≤ 9) (hLB : B.L ≤ 9) (C : Point) (c a b : ℝ) (hq : 0 < a + b + c) (f : Aux) (bv : ℕ → ℝ)
    (hf : boysValues sf.boys ((mmdData A.origin a B.origin b C c).q * (mmdData A.origin a B.origin b C c).rqc2)
      (A.L + B.L) = .ok f) (hb : ∀ k ≤ A.L + B.L, f k = some (bv k))
    (buf : List ℝ) (hlen : A.cart_size * B.cart_size ≤ buf.length) :
    ∃ buf', mmdPrim1 sf A B C c a b buf = .ok buf' ∧ (MatIs A.cart_size B.cart_size buf' (fun m n =>
        gaussianNormFactor A.L 0 0 a * gaussianNormFactor B.L 0 0 b * (2 * Real.pi / (a + b + c) *
        tuvSum (mmdData A.origin a B.origin b C c) (A.comp m) (B.comp n) fun t u v =>
          rSol (-2 * (a + b + c)) 0 (fun k => (mmdData A.origin a B.origin b C c).Q k - C k) bv t u v 0)) ∧
      SameBeyond (A.cart_size * B.cart_size) buf' buf) := by
  obtain ⟨buf', h1, h2, h3⟩ := mmdPrimR_spec A B lA lB sA sB hLA hLB (mmdData A.origin a B.origin b C c) hq.ne' rLower
    (-2 * (a + b + c)) 0 rLower_lowersBy f bv hb
    (gaussianNormFactor A.L 0 0 a * gaussianNormFactor B.L 0 0 b * 2 * Real.pi / (a + b + c)) buf hlen
  refine ⟨buf', ?_, ?_, h3⟩
  · unfold mmdPrim1
    simp only [hf, Outcome.ok_bind]
    exact h1
  · intro m n hm hn
    rw [h2 m n hm hn]
    beta_reduce
    congr 1
    rw [← mul_assoc]
    congr 1
    ring

theorem mmdPrim0_spec (sf : SpecFun) (A B : Shell) (lA : A.Listed) (lB : B.Listed) (sA : A.SumLe) (sB : B.SumLe)
    (hLA : A.L ≤ 9) (hLB : B.L ≤ 9) (C : Point) (c a b : ℝ) (hq : 0 < a + b + c) (f : Aux) (bv : ℕ → ℝ)
    (hf : gfunValues sf.dawson ((mmdData A.origin a B.origin b C c).q * (mmdData A.origin a B.origin b C c).rqc2)
      (A.L + B.L) = .ok f) (hb : ∀ k ≤ A.L + B.L, f k = some (bv k))
    (buf : List ℝ) (hlen : A.cart_size * B.cart_size ≤ buf.length) :
    ∃ buf', mmdPrim0 sf A B C c a b buf = .ok buf' ∧ (MatIs A.cart_size B.cart_size buf' (fun m n =>
        gaussianNormFactor A.L 0 0 a * gaussianNormFactor B.L 0 0 b *
        (2 * Real.sqrt Real.pi ^ 3 / Real.sqrt (a + b + c) *
        tuvSum (mmdData A.origin a B.origin b C c) (A.comp m) (B.comp n) fun t u v =>
          rSol (2 * (a + b + c)) (-2 * (a + b + c)) (fun k => (mmdData A.origin a B.origin b C c).Q k - C k) bv t u v 0)) ∧
      SameBeyond (A.cart_size * B.cart_size) buf' buf) := by
  obtain ⟨buf', h1, h2, h3⟩ := mmdPrimR_spec A B lA lB sA sB hLA hLB (mmdData A.origin a B.origin b C c) hq.ne'
    (gLower (a + b + c)) (2 * (a + b + c)) (-2 * (a + b + c)) (gLower_lowersBy _) f bv hb
    (gaussianNormFactor A.L 0 0 a * gaussianNormFactor B.L 0 0 b * 2 * Real.pi ^ (1.5 : ℝ) / Real.sqrt (a + b + c))
    buf hlen
  refine ⟨buf', ?_, ?_, h3⟩
  · unfold mmdPrim0
    simp only [hf, Outcome.ok_bind]
    exact h1
  · intro m n hm hn
    rw [h2 m n hm hn]
    beta_reduce
    congr 1
    rw [← mul_assoc, rpow_three_half Real.pi_pos.le]
    congr 1
    ring

/-! ## True values in terms of the exact auxiliary functions -/

theorem unit_integral (f : ℝ → ℝ) : ∫ u in Ioo (0 : ℝ) 1, f u = ∫ u in (0 : ℝ)..1, f u := by
  rw [intervalIntegral.integral_of_le zero_le_one, integral_Ioc_eq_integral_Ioo]

theorem dgs3_zero (p : ℝ) (X : Fin 3 → ℝ) : dgs3 p 0 0 0 X = Real.exp (-p * ∑ k, X k ^ 2) := by
  unfold dgs3
  rw [dgs_zero, dgs_zero, dgs_zero, ← Real.exp_add, ← Real.exp_add, Fin.sum_univ_three]
  congr 1; ring

theorem coulomb_true {a b c : ℝ} (hq : 0 < a + b + c) (A B C : Point) (x y : Comp) :
    Integrable (fun r => prod3 (mmdFactor a b c A B C x y) r * (radius C r)⁻¹) ∧
    ∫ r, prod3 (mmdFactor a b c A B C x y) r * (radius C r)⁻¹ = 2 * Real.pi / (a + b + c) *
      tuvSum (mmdData A a B b C c) x y fun t u v => rSol (-2 * (a + b + c)) 0 (fun k => (mmdData A a B b C c).Q k - C k)
        (fun k => boysF k ((mmdData A a B b C c).q * (mmdData A a B b C c).rqc2)) t u v 0 := by
  obtain ⟨h1, h2⟩ := prim_coulomb hq A B C x y
  refine ⟨h1, h2.trans ?_⟩
  rw [integral_hermSum (mmdData A a B b C c) x y (fun u => (a + b + c) * u ^ 2) (by fun_prop)]
  congr 1
  congr 1
  funext t u v
  have := rSol_integral (-2 * (a + b + c)) 0 (fun k => (mmdData A a B b C c).Q k - C k)
    (fun u => -2 * (a + b + c) * u ^ 2) (fun u => (a + b + c) * u ^ 2) (by fun_prop) (by fun_prop) (fun u => by ring)
    (fun k => boysF k ((mmdData A a B b C c).q * (mmdData A a B b C c).rqc2)) (by
      intro n
      unfold boysF
      rw [← unit_integral, ← integral_const_mul]
      refine integral_congr_ae (Filter.Eventually.of_forall fun s => ?_)
      beta_reduce
      rw [dgs3_zero, mmdData_q, rqc2_eq, mul_pow _ (s ^ 2), pow_mul, mul_assoc]
      congr 3
      ring) t u v 0
  rw [this]
  refine integral_congr_ae (Filter.Eventually.of_forall fun s => by simp [mmdData])

theorem inverse_square_true {a b c : ℝ} (hq : 0 < a + b + c) (A B C : Point) (x y : Comp) :
    Integrable (fun r => prod3 (mmdFactor a b c A B C x y) r * (radius C r ^ 2)⁻¹) ∧
    ∫ r, prod3 (mmdFactor a b c A B C x y) r * (radius C r ^ 2)⁻¹ = 2 * Real.sqrt Real.pi ^ 3 / Real.sqrt (a + b + c) *
      tuvSum (mmdData A a B b C c) x y fun t u v => rSol (2 * (a + b + c)) (-2 * (a + b + c))
        (fun k => (mmdData A a B b C c).Q k - C k)
        (fun k => gF k ((mmdData A a B b C c).q * (mmdData A a B b C c).rqc2)) t u v 0 := by
  obtain ⟨h1, h2⟩ := prim_inverse_square hq A B C x y
  simp only [dist2_radius]
  refine ⟨h1, h2.trans ?_⟩
  rw [integral_hermSum (mmdData A a B b C c) x y (fun u => (a + b + c) * (1 - u ^ 2)) (by fun_prop)]
  congr 1
  congr 1
  funext t u v
  have := rSol_integral (2 * (a + b + c)) (-2 * (a + b + c)) (fun k => (mmdData A a B b C c).Q k - C k)
    (fun u => 2 * (a + b + c) * u ^ 2) (fun u => (a + b + c) * (1 - u ^ 2)) (by fun_prop) (by fun_prop)
    (fun u => by ring)
    (fun k => gF k ((mmdData A a B b C c).q * (mmdData A a B b C c).rqc2)) (by
      intro n
      unfold gF
      rw [← unit_integral, ← integral_const_mul]
      refine integral_congr_ae (Filter.Eventually.of_forall fun s => ?_)
      beta_reduce
      rw [dgs3_zero, mmdData_q, rqc2_eq, mul_pow _ (s ^ 2), pow_mul, mul_assoc]
      congr 3
      ring) t u v 0
  rw [this]
  refine integral_congr_ae (Filter.Eventually.of_forall fun s => by simp [mmdData])

end Libgrpp
