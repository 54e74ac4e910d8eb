import Verif.Lemmas.Accumulate
import Verif.Lemmas.DiffShell
import Verif.Props.OneElectron

/-! Assembly of the overlap gradient. -/

namespace Libgrpp

open MeasureTheory

theorem DocumentedOrder.eq' {gen : Nat → List Comp} (h : DocumentedOrder gen) : gen = cartesianDirac := by
  rw [h.eq]; funext L; exact (cartesian_orders_agree L).symm

/-- Exponents of a component as C integers. -/
def Comp.ints (c : Comp) : IComp := ![(c.1 : Int), c.2.1, c.2.2]

theorem Comp.ints_apply (c : Comp) (k : Fin 3) : c.ints k = (c.exp k : Int) := by
  fin_cases k <;> rfl

theorem cartInts_eq (s : Shell) : s.cartInts = s.cartList.map Comp.ints := rfl

theorem ints_bump (c : Comp) (k : Fin 3) : Function.update c.ints k (c.ints k + 1) = (c.bump k).ints := by
  funext k'
  rw [Comp.ints_apply, Comp.ints_apply, Comp.exp_bump]
  by_cases h : k' = k
  · subst h; simp
  · rw [Function.update_of_ne h, Function.update_of_ne h, Comp.ints_apply]

theorem ints_drop (c : Comp) (k : Fin 3) (hpos : 0 < c.exp k) :
    Function.update c.ints k (c.ints k + -1) = (c.drop k).ints := by
  funext k'
  rw [Comp.ints_apply, Comp.ints_apply, Comp.exp_drop]
  by_cases h : k' = k
  · subst h
    simp only [Function.update_self]
    omega
  · rw [Function.update_of_ne h, Function.update_of_ne h, Comp.ints_apply]

theorem nlmIndex_ints {gen : Nat → List Comp} (hg : DocumentedOrder gen) (c : Comp) {L : Nat}
    (hL : c.1 + c.2.1 + c.2.2 = L) :
    nlmIndex gen c.ints < cartSize L ∧ (gen L)[nlmIndex gen c.ints]? = some c := by
  subst hL
  obtain ⟨h1, h2⟩ := lookup_finds_component c.1 c.2.1 c.2.2
  rw [hg.eq']
  refine ⟨by rw [← (cartesian_dirac_complete _).1]; exact h1, ?_⟩
  show (cartesianDirac _)[nlmToLinear cartesianDirac c.1 c.2.1 c.2.2]? = _
  rw [List.getElem?_eq_getElem h1, h2]

theorem nlmIndex_get {gen : Nat → List Comp} (hg : DocumentedOrder gen) {c : Comp} {L j : Nat}
    (hc : (gen L)[j]? = some c) : nlmIndex gen c.ints = j := by
  rw [hg.eq'] at hc ⊢
  obtain ⟨h1, h2⟩ := List.getElem?_eq_some_iff.mp hc
  have := lookup_inverts_list L j h1
  rw [h2] at this
  exact this

theorem nlmIndex_negative {gen : Nat → List Comp} (hg : DocumentedOrder gen) (c : Comp) (k : Fin 3) {L : Nat}
    (hsum : c.1 + c.2.1 + c.2.2 = L) (hL : 0 < L) (h0 : c.exp k = 0) :
    nlmIndex gen (Function.update c.ints k (c.ints k + -1)) = cartSize (L - 1) := by
  obtain ⟨n, l, m⟩ := c
  rw [hg.eq']
  simp only at hsum
  have key : ∀ a b d : Int, a + b + d = (L : Int) - 1 → (a < 0 ∨ b < 0 ∨ d < 0) →
      nlmToLinear cartesianDirac a b d = cartSize (L - 1) := by
    intro a b d h1 h2
    rw [lookup_negative_not_found a b d (by omega) h2]
    congr 1
    omega
  unfold nlmIndex
  fin_cases k <;> simp [Comp.exp] at h0 <;> subst h0 <;> apply key <;> simp [Comp.ints, Function.update] <;> omega

theorem bump_unbump {cl : List IComp} {i : Nat} {c : IComp} (hc : cl[i]? = some c) (k : Fin 3) (d : Int) :
    ∃ cl1, bumpCart cl i k d = .ok cl1 ∧ rd cl1 i = .ok (Function.update c k (c k + d)) ∧
      bumpCart cl1 i k (-d) = .ok cl := by
  obtain ⟨h1, h2⟩ := List.getElem?_eq_some_iff.mp hc
  refine ⟨cl.set i (Function.update c k (c k + d)), ?_, ?_, ?_⟩
  · unfold bumpCart
    rw [rd_ok h1, h2]
    simp only [Outcome.ok_bind, wr_ok _ h1]
  · rw [rd_ok (by simpa using h1)]
    simp
  · unfold bumpCart
    rw [rd_ok (by simpa using h1)]
    simp only [Outcome.ok_bind, List.getElem_set_self, Function.update_self]
    rw [wr_ok _ (by simpa using h1)]
    simp only [List.set_set, Function.update_idem, add_neg_cancel_right, Function.update_eq_self]
    rw [← h2, List.set_getElem_self]

/-- View of the assembly state: the component list is unchanged, the arrays accumulate. -/
def OGRel (s t : OGState) (δ : Fin 3 → Nat → ℝ) : Prop := t.1 = s.1 ∧ AddsTo s.2 t.2 δ

theorem OGRel.refl (s : OGState) : OGRel s s 0 := ⟨rfl, AddsTo.refl _⟩
theorem OGRel.trans {s t u : OGState} {δ δ' : Fin 3 → Nat → ℝ} (h : OGRel s t δ) (h' : OGRel t u δ') :
    OGRel s u (δ + δ') := ⟨h'.1.trans h.1, h.2.trans h'.2⟩

theorem ogUp_ok {gen : Nat → List Comp} (junk : Option (Nat → ℝ)) (sizeB : Nat) (factor : ℝ) {up : List ℝ} (k : Fin 3)
    {i : Nat} {ket : IComp} {index : Nat} {st : OGState} {c : IComp} (hc : st.1[i]? = some c) {v : ℝ}
    (hv : up[sizeB * nlmIndex gen (Function.update c k (c k + 1)) + nlmIndex gen ket]? = some v)
    (hidx : index < (st.2 k).length) :
    ∃ st', ogUp gen junk sizeB factor up k i ket index st = .ok st' ∧ OGRel st st' (single k index (factor * v)) := by
  obtain ⟨cl1, e1, e2, e3⟩ := bump_unbump hc k 1
  obtain ⟨G', e4, h4⟩ := gadd_ok st.2 k index (factor * v) hidx
  refine ⟨(st.1, G'), ?_, rfl, h4⟩
  unfold ogUp
  rw [e1]
  simp only [Outcome.ok_bind, e2, e3]
  unfold rdJ
  rw [hv]
  simp only [Outcome.ok_bind, e4]

theorem ogDown_ok {gen : Nat → List Comp} (junk : Option (Nat → ℝ)) (sizeB : Nat) (factor : ℝ) {down : List ℝ} (k : Fin 3)
    {i : Nat} {ket : IComp} {index : Nat} {st : OGState} {c : IComp} (hc : st.1[i]? = some c) {v : ℝ}
    (hv : rdJ junk down (sizeB * nlmIndex gen (Function.update c k (c k + -1)) + nlmIndex gen ket) = .ok v)
    (hidx : index < (st.2 k).length) :
    ∃ st', ogDown gen junk sizeB factor down k i ket index st = .ok st' ∧
      OGRel st st' (single k index (-(factor * (c k : ℝ) * v))) := by
  obtain ⟨cl1, e1, e2, e3⟩ := bump_unbump hc k (-1)
  obtain ⟨G', e4, h4⟩ := gadd_ok st.2 k index (-(factor * (c k : ℝ) * v)) hidx
  rw [neg_neg] at e3
  refine ⟨(st.1, G'), ?_, rfl, h4⟩
  have e5 : rd st.1 i = .ok c := by simp [rd, hc]
  unfold ogDown
  rw [e1]
  simp only [Outcome.ok_bind, e2, e3, e5, hv, e4]

theorem ogDown_ub {gen : Nat → List Comp} (sizeB : Nat) (factor : ℝ) {down : List ℝ} (k : Fin 3)
    {i : Nat} {ket : IComp} {index : Nat} {st : OGState} {c : IComp} (hc : st.1[i]? = some c)
    (hv : down.length ≤ sizeB * nlmIndex gen (Function.update c k (c k + -1)) + nlmIndex gen ket) :
    ogDown gen none sizeB factor down k i ket index st = .ub := by
  obtain ⟨cl1, e1, e2, e3⟩ := bump_unbump hc k (-1)
  rw [neg_neg] at e3
  have e5 : rd st.1 i = .ok c := by simp [rd, hc]
  unfold ogDown
  rw [e1]
  simp only [Outcome.ok_bind, e2, e3, e5]
  unfold rdJ
  rw [List.getElem?_eq_none hv]
  rfl

theorem memsetGrad_ok (n : Nat) (G : Fin 3 → List ℝ) (h : ∀ k, n ≤ (G k).length) :
    ∃ G', memsetGrad n G = .ok G' ∧ ∀ k, (∀ p < n, (G' k)[p]? = some 0) ∧ SameBeyond n (G' k) (G k) := by
  unfold memsetGrad forCoord
  obtain ⟨l0, e0, h0⟩ := memset0_spec n (G 0) (h 0)
  obtain ⟨l1, e1, h1⟩ := memset0_spec n (G 1) (h 1)
  obtain ⟨l2, e2, h2⟩ := memset0_spec n (G 2) (h 2)
  refine ⟨Function.update (Function.update (Function.update G 0 l0) 1 l1) 2 l2, ?_, ?_⟩
  · simp [e0, e1, e2, Function.update]
  · intro k
    fin_cases k
    · simpa [Function.update] using h0
    · simpa [Function.update] using h1
    · simpa [Function.update] using h2

/-! ## Derivative of the overlap integral -/

/-- Derivative of the one-dimensional integral with respect to the first centre. -/
theorem hasDerivAt_gauss1_centre {a b : ℝ} (hp : 0 < a + b) (A B : ℝ) (i j : Nat) :
    HasDerivAt (fun t => gauss1 a b t B i j) (2 * a * gauss1 a b A B (i + 1) j - (i : ℝ) * gauss1 a b A B (i - 1) j) A := by
  have hne := hp.ne'
  -- both recursions of the true integrals
  have L : ∀ t i j, gauss1 a b t B (i + 1) j = (b * (B - t)) / (a + b) * gauss1 a b t B i j +
      1 / (2 * (a + b)) * ((i : ℝ) * gauss1 a b t B (i - 1) j + (j : ℝ) * gauss1 a b t B i (j - 1)) := by
    intro t i j
    have h1 := gauss1_parts hp t B i j
    rw [gauss1_shift hp t B i j] at h1
    field_simp
    linear_combination (-1) * h1
  have R : ∀ t i j, gauss1 a b t B i (j + 1) = (a * (t - B)) / (a + b) * gauss1 a b t B i j +
      1 / (2 * (a + b)) * ((i : ℝ) * gauss1 a b t B (i - 1) j + (j : ℝ) * gauss1 a b t B i (j - 1)) := by
    intro t i j
    have h1 := gauss1_parts hp t B i j
    have h2 := gauss1_shift hp t B i j
    have h3 : gauss1 a b t B (i + 1) j = gauss1 a b t B i (j + 1) - (t - B) * gauss1 a b t B i j := by
      rw [h2]; ring
    rw [h3] at h1
    field_simp
    linear_combination (-1) * h1
  have base : HasDerivAt (fun t => gauss1 a b t B 0 0) (2 * a * gauss1 a b A B 1 0) A := by
    have e1 : (fun t => gauss1 a b t B 0 0) = fun t => Real.sqrt (Real.pi / (a + b)) *
        Real.exp (-(a * b / (a + b)) * (t - B) * (t - B)) := funext fun t => gauss1_zero hp t B
    have hx : HasDerivAt (fun t : ℝ => t - B) 1 A := (hasDerivAt_id A).sub_const B
    have h := (((hx.const_mul (-(a * b / (a + b)))).mul hx).exp).const_mul (Real.sqrt (Real.pi / (a + b)))
    have e2 := L A 0 0
    simp only [Nat.cast_zero, zero_mul, add_zero, mul_zero, zero_add] at e2
    rw [e2, e1, gauss1_zero hp A B]
    refine h.congr_deriv ?_
    simp only [Pi.mul_apply]
    ring
  have pa : HasDerivAt (fun t : ℝ => (b * (B - t)) / (a + b)) (-(b / (a + b))) A := by
    have := (((hasDerivAt_id A).const_sub B).const_mul b).div_const (a + b)
    refine this.congr_deriv ?_
    ring
  have pb : HasDerivAt (fun t : ℝ => (a * (t - B)) / (a + b)) (a / (a + b)) A := by
    have := (((hasDerivAt_id A).sub_const B).const_mul a).div_const (a + b)
    refine this.congr_deriv ?_
    ring
  -- first index zero
  have col : ∀ j, HasDerivAt (fun t => gauss1 a b t B 0 j) (2 * a * gauss1 a b A B 1 j) A := by
    intro j
    induction j using Nat.strong_induction_on with
    | _ j ih =>
      rcases j with _ | j
      · exact base
      · have e1 : (fun t => gauss1 a b t B 0 (j + 1)) = fun t => (a * (t - B)) / (a + b) * gauss1 a b t B 0 j +
            1 / (2 * (a + b)) * ((j : ℝ) * gauss1 a b t B 0 (j - 1)) := by
          funext t; rw [R t 0 j]; simp
        have h1 := ih j (by omega)
        have h2 : HasDerivAt (fun t => (j : ℝ) * gauss1 a b t B 0 (j - 1)) ((j : ℝ) * (2 * a * gauss1 a b A B 1 (j - 1))) A := by
          rcases j with _ | j
          · simpa using hasDerivAt_const A (0 : ℝ)
          · exact (ih j (by omega)).const_mul _
        rw [e1]
        refine ((pb.mul h1).add (h2.const_mul (1 / (2 * (a + b))))).congr_deriv ?_
        have e2 := R A 1 j
        simp only [Nat.cast_one, one_mul, Nat.sub_self] at e2
        rw [e2]
        field_simp
        ring
  -- all first indices
  have row : ∀ i j, HasDerivAt (fun t => gauss1 a b t B i j)
      (2 * a * gauss1 a b A B (i + 1) j - (i : ℝ) * gauss1 a b A B (i - 1) j) A := by
    intro i
    induction i using Nat.strong_induction_on with
    | _ i ih =>
      intro j
      rcases i with _ | i
      · simpa using col j
      · have h1 := ih i (by omega) j
        have h2 : HasDerivAt (fun t => (i : ℝ) * gauss1 a b t B (i - 1) j)
            ((i : ℝ) * (2 * a * gauss1 a b A B i j - ((i - 1 : ℕ) : ℝ) * gauss1 a b A B (i - 2) j)) A := by
          rcases i with _ | i
          · simpa using hasDerivAt_const A (0 : ℝ)
          · exact (ih i (by omega) j).const_mul _
        have h3 := ih i (by omega) (j - 1)
        have e1 : (fun t => gauss1 a b t B (i + 1) j) = fun t => (b * (B - t)) / (a + b) * gauss1 a b t B i j +
            1 / (2 * (a + b)) * ((i : ℝ) * gauss1 a b t B (i - 1) j + (j : ℝ) * gauss1 a b t B i (j - 1)) :=
          funext fun t => L t i j
        rw [e1]
        refine ((pa.mul h1).add ((h2.add (h3.const_mul (j : ℝ))).const_mul (1 / (2 * (a + b))))).congr_deriv ?_
        have e2 := L A (i + 1) j
        have e3 := L A i j
        rw [Nat.add_sub_cancel] at e2 ⊢
        rw [e2]
        rcases i with _ | i
        · push_cast
          simp only [Nat.cast_zero, zero_mul, zero_add, sub_zero] at *
          field_simp
          ring
        · have e4 := L A i j
          rw [Nat.add_sub_cancel]
          have e6 : i + 1 - 2 = i - 1 := by omega
          have hq : (a + b) * (a + b)⁻¹ = 1 := mul_inv_cancel₀ hne
          rw [e6]
          push_cast
          have hz : 1 / (2 * (a + b)) = (a + b)⁻¹ / 2 := by field_simp
          rw [hz] at e4 ⊢
          linear_combination ((i : ℝ) + 1) * e4 - gauss1 a b A B (i + 1) j * hq
  exact row i j

/-- Overlap of contracted functions with weights, as a product over coordinates. -/
theorem integral_basis (A B : Shell) (hA : A.Pos) (hB : B.Pos) (m n : Nat) :
    ∫ r, basisFn A m r * basisFn B n r =
      ∑ i ∈ Finset.range A.num, ∑ j ∈ Finset.range B.num, A.weight i * B.weight j *
        ∏ k, gauss1 (A.alphaAt i) (B.alphaAt j) (A.origin k) (B.origin k) ((A.comp m).exp k) ((B.comp n).exp k) := by
  rw [integral_overlap A B hA hB]
  refine Finset.sum_congr rfl fun i _ => Finset.sum_congr rfl fun j _ => ?_
  simp only [Fin.prod_univ_three, Comp.exp_zero, Comp.exp_one, Comp.exp_two, Shell.weight]
  ring

/-- The factors of coordinates other than `k`. -/
noncomputable def restProd (A B : Shell) (m n : Nat) (k : Fin 3) (i j : Nat) : ℝ :=
  ∏ k' ∈ Finset.univ.erase k,
    gauss1 (A.alphaAt i) (B.alphaAt j) (A.origin k') (B.origin k') ((A.comp m).exp k') ((B.comp n).exp k')

/-- The overlap with a shell that differs from `A` by factors in the weights and the exponent of coordinate `k`. -/
theorem integral_scaled {gen : Nat → List Comp} {A B d : Shell} {L' : Nat} {f : ℝ → ℝ} (h : IsScaled gen A d L' f)
    (hA : A.Pos) (hB : B.Pos) {m n u e : Nat} {k : Fin 3} (hu : (d.comp u).exp = Function.update (A.comp m).exp k e) :
    ∫ r, basisFn d u r * basisFn B n r =
      ∑ i ∈ Finset.range A.num, ∑ j ∈ Finset.range B.num, d.weight i * B.weight j *
        (restProd A B m n k i j *
          gauss1 (A.alphaAt i) (B.alphaAt j) (A.origin k) (B.origin k) e ((B.comp n).exp k)) := by
  rw [integral_basis d B (h.pos hA) hB, h.num]
  refine Finset.sum_congr rfl fun i hi => Finset.sum_congr rfl fun j _ => ?_
  have hi' := Finset.mem_range.mp hi
  congr 1
  rw [← Finset.mul_prod_erase _ _ (Finset.mem_univ k), mul_comm, h.alpha i hi', h.origin, hu, Function.update_self]
  congr 1
  refine Finset.prod_congr rfl fun k' hk' => ?_
  rw [Function.update_of_ne (Finset.ne_of_mem_erase hk')]

theorem integral_moveTo (A B : Shell) (hA : A.Pos) (hB : B.Pos) (m n : Nat) (k : Fin 3) (t : ℝ) :
    ∫ r, basisFn (A.moveTo k t) m r * basisFn B n r =
      ∑ i ∈ Finset.range A.num, ∑ j ∈ Finset.range B.num, A.weight i * B.weight j *
        (restProd A B m n k i j *
          gauss1 (A.alphaAt i) (B.alphaAt j) t (B.origin k) ((A.comp m).exp k) ((B.comp n).exp k)) := by
  rw [integral_basis (A.moveTo k t) B hA hB]
  show ∑ i ∈ Finset.range A.num, ∑ j ∈ Finset.range B.num, A.weight i * B.weight j * _ = _
  refine Finset.sum_congr rfl fun i hi => Finset.sum_congr rfl fun j _ => ?_
  congr 1
  rw [← Finset.mul_prod_erase _ _ (Finset.mem_univ k), mul_comm]
  congr 1
  · refine Finset.prod_congr rfl fun k' hk' => ?_
    simp only [Shell.moveTo, Function.update_of_ne (Finset.ne_of_mem_erase hk'), Shell.alphaAt, Shell.comp]
  · simp only [Shell.moveTo, Function.update_self, Shell.alphaAt, Shell.comp]

/-- The derivative of the overlap integral with respect to a coordinate of the first centre, in terms of
one-dimensional integrals. -/
theorem hasDerivAt_overlap1 (A B : Shell) (hA : A.Pos) (hB : B.Pos) (m n : Nat) (k : Fin 3) :
    HasDerivAt (fun t => ∫ r, basisFn (A.moveTo k t) m r * basisFn B n r)
      (∑ i ∈ Finset.range A.num, ∑ j ∈ Finset.range B.num, A.weight i * B.weight j *
        (restProd A B m n k i j * -gauss1dA (A.alphaAt i) (B.alphaAt j) (A.origin k) (B.origin k)
          ((A.comp m).exp k) ((B.comp n).exp k))) (A.origin k) := by
  simp only [integral_moveTo A B hA hB]
  refine HasDerivAt.fun_sum fun i hi => HasDerivAt.fun_sum fun j hj => ?_
  have := (hasDerivAt_gauss1_centre (pos_add hA hB hi hj) (A.origin k) (B.origin k) ((A.comp m).exp k)
    ((B.comp n).exp k))
  refine ((this.const_mul (restProd A B m n k i j)).const_mul (A.weight i * B.weight j)).congr_deriv ?_
  unfold gauss1dA
  ring

/-- The derivative of the overlap integral, in terms of the overlaps of the differentiated shells. -/
theorem hasDerivAt_overlap {gen : Nat → List Comp} {A B up : Shell} (hA : A.Pos) (hB : B.Pos)
    (hup : IsScaled gen A up (A.L + 1) (fun a => 2 * a * normFactorL a A.L / normFactorL a (A.L + 1)))
    {m n u : Nat} {k : Fin 3} (hu : up.comp u = (A.comp m).bump k) (low : ℝ)
    (hlow : ((A.comp m).exp k = 0 ∧ low = 0) ∨ ∃ (d : Shell) (v : Nat),
      IsScaled gen A d (A.L - 1) (fun a => normFactorL a A.L / normFactorL a (A.L - 1)) ∧
      d.comp v = (A.comp m).drop k ∧ low = ((A.comp m).exp k : ℝ) * ∫ r, basisFn d v r * basisFn B n r) :
    HasDerivAt (fun t => ∫ r, basisFn (A.moveTo k t) m r * basisFn B n r)
      ((∫ r, basisFn up u r * basisFn B n r) - low) (A.origin k) := by
  refine (hasDerivAt_overlap1 A B hA hB m n k).congr_deriv ?_
  rw [integral_scaled hup hA hB (by rw [hu, Comp.exp_bump])]
  have hl : low = ∑ i ∈ Finset.range A.num, ∑ j ∈ Finset.range B.num, A.weight i * B.weight j *
      (restProd A B m n k i j * (((A.comp m).exp k : ℝ) * gauss1 (A.alphaAt i) (B.alphaAt j) (A.origin k) (B.origin k)
        ((A.comp m).exp k - 1) ((B.comp n).exp k))) := by
    rcases hlow with ⟨h0, rfl⟩ | ⟨d, v, hd, hv, rfl⟩
    · simp [h0]
    · rw [integral_scaled hd hA hB (by rw [hv, Comp.exp_drop]), Finset.mul_sum]
      refine Finset.sum_congr rfl fun i hi => ?_
      rw [Finset.mul_sum]
      refine Finset.sum_congr rfl fun j _ => ?_
      rw [hd.weight_down hA (Finset.mem_range.mp hi)]
      ring
  rw [hl, ← Finset.sum_sub_distrib]
  refine Finset.sum_congr rfl fun i hi => ?_
  rw [← Finset.sum_sub_distrib]
  refine Finset.sum_congr rfl fun j _ => ?_
  rw [hup.weight_up hA (Finset.mem_range.mp hi)]
  unfold gauss1dA
  ring

/-- Moving the second centre changes the overlap by the opposite amount. -/
theorem hasDerivAt_overlap_ket (A B : Shell) (hA : A.Pos) (hB : B.Pos) (m n : Nat) (k : Fin 3) :
    HasDerivAt (fun t => ∫ r, basisFn A m r * basisFn (B.moveTo k t) n r)
      (-deriv (fun t => ∫ r, basisFn (A.moveTo k t) m r * basisFn B n r) (A.origin k)) (B.origin k) := by
  have h := hasDerivAt_overlap1 B A hB hA n m k
  rw [(hasDerivAt_overlap1 A B hA hB m n k).deriv]
  have e : (fun t => ∫ r, basisFn A m r * basisFn (B.moveTo k t) n r) =
      fun t => ∫ r, basisFn (B.moveTo k t) n r * basisFn A m r := by
    funext t; simp only [mul_comm]
  rw [e]
  refine h.congr_deriv ?_
  rw [Finset.sum_comm, ← Finset.sum_neg_distrib]
  refine Finset.sum_congr rfl fun i hi => ?_
  rw [← Finset.sum_neg_distrib]
  refine Finset.sum_congr rfl fun j hj => ?_
  have sym : ∀ k' i' j', gauss1 (B.alphaAt j) (A.alphaAt i) (B.origin k') (A.origin k') j' i' =
      gauss1 (A.alphaAt i) (B.alphaAt j) (A.origin k') (B.origin k') i' j' := by
    intro k' i' j'
    unfold gauss1
    congr 1
    funext x
    rw [add_comm (-A.alphaAt i * _)]
    ring
  have hr : restProd B A n m k j i = restProd A B m n k i j :=
    Finset.prod_congr rfl fun k' _ => sym k' _ _
  rw [hr, gauss1dA_eq (pos_add hA hB hi hj)]
  unfold gauss1dA gauss1dB
  rw [sym, sym]
  ring

/-! ## The assembly loops -/

/-- A shell as `libgrpp_new_shell` makes it (documented component order), with positive exponents. -/
structure Shell.Made (gen : Nat → List Comp) (s : Shell) : Prop where
  wf : s.WF
  size : s.cart_size = cartSize s.L
  list : s.cartList = gen s.L
  pos : s.Pos

theorem gen_length {gen : Nat → List Comp} (hg : DocumentedOrder gen) (L : Nat) : (gen L).length = cartSize L := by
  rw [hg.eq]; exact (cartesian_turbomole_complete L).1

theorem gen_sum {gen : Nat → List Comp} (hg : DocumentedOrder gen) {L : Nat} {c : Comp} (hc : c ∈ gen L) :
    c.1 + c.2.1 + c.2.2 = L := by
  rw [hg.eq] at hc; exact ((cartesian_turbomole_complete L).2.2 c.1 c.2.1 c.2.2).1 hc

theorem Shell.Made.listed {gen : Nat → List Comp} (hg : DocumentedOrder gen) {s : Shell} (h : s.Made gen) : s.Listed := by
  refine ⟨by rw [h.size, h.list, gen_length hg], fun c hc => ?_⟩
  have := gen_sum hg (h.list ▸ hc)
  omega

theorem Shell.Made.get {gen : Nat → List Comp} (hg : DocumentedOrder gen) {s : Shell} (h : s.Made gen) {m : Nat}
    (hm : m < s.cart_size) : (gen s.L)[m]? = some (s.comp m) ∧ (s.comp m).1 + (s.comp m).2.1 + (s.comp m).2.2 = s.L := by
  have hl : m < (gen s.L).length := by rw [gen_length hg, ← h.size]; exact hm
  have e : (gen s.L)[m]? = some (s.comp m) := by
    simp [Shell.comp, List.getD, h.list, List.getElem?_eq_getElem hl]
  exact ⟨e, gen_sum hg (List.mem_of_getElem? e)⟩

/-- The derivative of the overlap integral of components `m` and `n` with respect to coordinate `k` of the bra centre. -/
noncomputable def overlapDeriv (A B : Shell) (k : Fin 3) (m n : Nat) : ℝ :=
  deriv (fun t => ∫ r, basisFn (A.moveTo k t) m r * basisFn B n r) (A.origin k)

/-- What the matrices of the differentiated shells contain: enough to assemble the gradient. -/
structure OGMat (gen : Nat → List Comp) (A B : Shell) (down up : List ℝ) : Prop where
  up_len : up.length = cartSize (A.L + 1) * B.cart_size
  down_len : 0 < A.L → down.length = cartSize (A.L - 1) * B.cart_size
  up_get : ∀ m n k, m < A.cart_size → n < B.cart_size → ∃ v w, up[B.cart_size *
      nlmIndex gen (Function.update (A.comp m).ints k ((A.comp m).ints k + 1)) + n]? = some v ∧
    overlapDeriv A B k m n = v - w ∧ ((A.comp m).exp k = 0 → w = 0) ∧
    (0 < (A.comp m).exp k → ∃ x, down[B.cart_size *
      nlmIndex gen (Function.update (A.comp m).ints k ((A.comp m).ints k + -1)) + n]? = some x ∧
      w = ((A.comp m).exp k : ℝ) * x)

theorem ogMatrices_ok {gen : Nat → List Comp} (hg : DocumentedOrder gen) {A B : Shell} (hA : A.Made gen) (hB : B.Made gen)
    (hLA : A.L ≤ 8) (hLB : B.L ≤ 9) : ∃ down up, ogMatrices gen A B = .ok (down, up) ∧ OGMat gen A B down up := by
  obtain ⟨dn, u, e, hu, hd0, hdp⟩ := differentiateShell_ok gen A hA.wf
  have lB := hB.listed hg
  obtain ⟨up, eu, lu, gu, -⟩ := overlap_true u B hu.wf hB.wf (hu.listed hg) lB (hu.pos hA.pos) hB.pos
    (by rw [hu.hL]; omega) hLB (List.replicate (u.cart_size * B.cart_size) 0) (by simp)
  rw [List.length_replicate] at lu
  have comp_idx : ∀ {d : Shell} {L' : Nat} {f : ℝ → ℝ}, IsScaled gen A d L' f → ∀ {c : Comp}, c.1 + c.2.1 + c.2.2 = L' →
      nlmIndex gen c.ints < d.cart_size ∧ d.comp (nlmIndex gen c.ints) = c := by
    intro d L' f h c hc
    obtain ⟨h1, h2⟩ := nlmIndex_ints hg c hc
    refine ⟨by rw [h.size]; exact h1, ?_⟩
    simp [Shell.comp, List.getD, h.list, h2]
  by_cases hL : 0 < A.L
  · obtain ⟨d, rfl, hd⟩ := hdp hL
    obtain ⟨down, ed, ld, gd, -⟩ := overlap_true d B hd.wf hB.wf (hd.listed hg) lB (hd.pos hA.pos) hB.pos
      (by rw [hd.hL]; omega) hLB (List.replicate (d.cart_size * B.cart_size) 0) (by simp)
    rw [List.length_replicate] at ld
    refine ⟨down, up, ?_, ⟨by rw [lu, hu.size], fun _ => by rw [ld, hd.size], fun m n k hm hn => ?_⟩⟩
    · unfold ogMatrices
      rw [e]
      simp only [Outcome.ok_bind, ed, eu]
    · obtain ⟨hget, hsum⟩ := hA.get hg hm
      rw [ints_bump]
      obtain ⟨i1, i2⟩ := comp_idx hu (c := (A.comp m).bump k) (by rw [Comp.sum_bump, hsum])
      have g1 := gu _ n i1 hn
      by_cases h0 : (A.comp m).exp k = 0
      · refine ⟨_, 0, by rw [mul_comm]; exact g1, ?_, fun _ => rfl, by omega⟩
        exact (hasDerivAt_overlap hA.pos hB.pos hu i2 0 (Or.inl ⟨h0, rfl⟩)).deriv
      · have hpos : 0 < (A.comp m).exp k := Nat.pos_of_ne_zero h0
        obtain ⟨j1, j2⟩ := comp_idx hd (c := (A.comp m).drop k) (by rw [Comp.sum_drop _ k hpos, hsum])
        have g2 := gd _ n j1 hn
        rw [ints_drop _ k hpos]
        refine ⟨_, _, by rw [mul_comm]; exact g1, ?_, by omega, fun _ => ⟨_, by rw [mul_comm]; exact g2, rfl⟩⟩
        exact (hasDerivAt_overlap hA.pos hB.pos hu i2 _ (Or.inr ⟨d, _, hd, j2, rfl⟩)).deriv
  · have hL0 : A.L = 0 := by omega
    have hdn := hd0 hL0
    subst hdn
    refine ⟨[], up, ?_, ⟨by rw [lu, hu.size], by omega, fun m n k hm hn => ?_⟩⟩
    · unfold ogMatrices
      rw [e]
      simp only [Outcome.ok_bind, eu]
    · obtain ⟨hget, hsum⟩ := hA.get hg hm
      rw [ints_bump]
      obtain ⟨i1, i2⟩ := comp_idx hu (c := (A.comp m).bump k) (by rw [Comp.sum_bump, hsum])
      have g1 := gu _ n i1 hn
      have h0 : (A.comp m).exp k = 0 := by
        have : (A.comp m).exp k ≤ A.L := by
          rw [← hsum]; fin_cases k <;> simp [Comp.exp] <;> omega
        omega
      refine ⟨_, 0, by rw [mul_comm]; exact g1, ?_, fun _ => rfl, by omega⟩
      exact (hasDerivAt_overlap hA.pos hB.pos hu i2 0 (Or.inl ⟨h0, rfl⟩)).deriv

theorem cartInts_get {gen : Nat → List Comp} (hg : DocumentedOrder gen) {s : Shell} (h : s.Made gen) {m : Nat}
    (hm : m < s.cart_size) : s.cartInts[m]? = some (s.comp m).ints := by
  rw [cartInts_eq, List.getElem?_map, h.list, (h.get hg hm).1]; rfl

theorem rdJ_ok {junk : Option (Nat → ℝ)} (hj : junk ≠ none) (a : List ℝ) (i : Nat) : ∃ v, rdJ junk a i = .ok v := by
  unfold rdJ
  cases h : a[i]? with
  | some v => exact ⟨v, rfl⟩
  | none => cases junk with
    | none => exact absurd rfl hj
    | some f => exact ⟨f i, rfl⟩

theorem single_add {ι : Type} [DecidableEq ι] (k : ι) (p : Nat) (v w : ℝ) :
    single k p v + single k p w = single k p (v + w) := by
  funext k' p'
  simp only [Pi.add_apply, single]
  split <;> simp

theorem ogBody_ok {gen : Nat → List Comp} (hg : DocumentedOrder gen) (junk : Option (Nat → ℝ)) {A B : Shell}
    (hA : A.Made gen) (hB : B.Made gen) {down up : List ℝ} (hm : OGMat gen A B down up)
    (factor : ℝ) (k : Fin 3) {i j : Nat} (hj : A.L = 0 ∨ junk ≠ none ∨ 0 < (A.comp i).exp k) (hi : i < A.cart_size) (hjB : j < B.cart_size) {st : OGState}
    (hcl : st.1 = A.cartInts) (hlen : ∀ k, A.cart_size * B.cart_size ≤ (st.2 k).length) :
    ∃ st', ogBody gen junk A B factor (down, up) k i j st = .ok st' ∧
      OGRel st st' (single k (i * B.cart_size + j) (factor * overlapDeriv A B k i j)) := by
  have hc : st.1[i]? = some (A.comp i).ints := by rw [hcl]; exact cartInts_get hg hA hi
  have hket : rd B.cartInts j = .ok (B.comp j).ints := by simp [rd, cartInts_get hg hB hjB]
  have hki : nlmIndex gen (B.comp j).ints = j := nlmIndex_get hg (hB.get hg hjB).1
  have hidx : ∀ t : OGState, (∀ k, A.cart_size * B.cart_size ≤ (t.2 k).length) → i * B.cart_size + j < (t.2 k).length :=
    fun t ht => lt_of_lt_of_le (rowMajor_lt hi hjB) (ht k)
  obtain ⟨v, w, hv, hD, hw0, hwp⟩ := hm.up_get i j k hi hjB
  unfold ogBody
  rw [hket]
  simp only [Outcome.ok_bind]
  by_cases hL : A.L > 0
  · rw [if_pos hL]
    -- the value read from the lower matrix, times the exponent, is `w`
    have hx : ∃ x, rdJ junk down (B.cart_size *
        nlmIndex gen (Function.update (A.comp i).ints k ((A.comp i).ints k + -1)) + nlmIndex gen (B.comp j).ints) = .ok x ∧
        w = (((A.comp i).ints k : Int) : ℝ) * x := by
      rw [Comp.ints_apply]
      rcases Nat.eq_zero_or_pos ((A.comp i).exp k) with h0 | hpos
      · obtain ⟨x, hx⟩ := rdJ_ok (junk := junk) (by rcases hj with h | h | h; · omega
                                                    · exact h
                                                    · omega) down (B.cart_size *
          nlmIndex gen (Function.update (A.comp i).ints k ((A.comp i).ints k + -1)) + nlmIndex gen (B.comp j).ints)
        rw [Comp.ints_apply] at hx
        exact ⟨x, hx, by rw [hw0 h0, h0]; simp⟩
      · obtain ⟨x, hx, hw⟩ := hwp hpos
        rw [Comp.ints_apply] at hx
        exact ⟨x, by rw [hki]; unfold rdJ; rw [hx], by rw [hw]; simp⟩
    obtain ⟨x, hx, hw⟩ := hx
    obtain ⟨s1, e1, r1⟩ := ogDown_ok junk B.cart_size factor k hc hx (hidx st hlen)
    have hlen1 : ∀ k, A.cart_size * B.cart_size ≤ (s1.2 k).length := fun k => by rw [(r1.2 k).1]; exact hlen k
    obtain ⟨s2, e2, r2⟩ := ogUp_ok (ket := (B.comp j).ints) (gen := gen) junk B.cart_size factor k (st := s1)
      (by rw [r1.1]; exact hc) (by rw [hki]; exact hv) (hidx s1 hlen1)
    refine ⟨s2, by rw [e1]; exact e2, ?_⟩
    have := r1.trans r2
    rw [single_add] at this
    rw [hD, hw]
    convert this using 2
    ring
  · rw [if_neg hL]
    obtain ⟨s2, e2, r2⟩ := ogUp_ok (ket := (B.comp j).ints) (gen := gen) junk B.cart_size factor k (st := st)
      hc (by rw [hki]; exact hv) (hidx st hlen)
    have h0 : (A.comp i).exp k = 0 := by
      have hs := (hA.get hg hi).2
      have : (A.comp i).exp k ≤ A.L := by rw [← hs]; fin_cases k <;> simp [Comp.exp] <;> omega
      omega
    refine ⟨s2, e2, ?_⟩
    rw [hD, hw0 h0, sub_zero]
    exact r2

theorem ogContribution_ok {gen : Nat → List Comp} (hg : DocumentedOrder gen) (junk : Option (Nat → ℝ)) {A B : Shell}
    (hA : A.Made gen) (hB : B.Made gen) (hj : A.L = 0 ∨ junk ≠ none) (hLA : A.L ≤ 8) (hLB : B.L ≤ 9)
    (factor : ℝ) {st : OGState} (hcl : st.1 = A.cartInts) (hlen : ∀ k, A.cart_size * B.cart_size ≤ (st.2 k).length) :
    ∃ st', ogContribution gen junk A B factor st = .ok st' ∧ OGRel st st' (∑ k : Fin 3, ∑ i ∈ Finset.range A.cart_size,
      ∑ j ∈ Finset.range B.cart_size, single k (i * B.cart_size + j) (factor * overlapDeriv A B k i j)) := by
  obtain ⟨down, up, e, hm⟩ := ogMatrices_ok hg hA hB hLA hLB
  unfold ogContribution
  rw [e, Outcome.ok_bind]
  have hP : ∀ {s t : OGState} {δ : Fin 3 → Nat → ℝ}, (s.1 = A.cartInts ∧ ∀ k, A.cart_size * B.cart_size ≤ (s.2 k).length) →
      OGRel s t δ → (t.1 = A.cartInts ∧ ∀ k, A.cart_size * B.cart_size ≤ (t.2 k).length) :=
    fun h r => ⟨r.1.trans h.1, fun k => by rw [(r.2 k).1]; exact h.2 k⟩
  refine forCoord_adds (R := OGRel) OGRel.trans _ (fun s => s.1 = A.cartInts ∧ ∀ k, A.cart_size * B.cart_size ≤ (s.2 k).length)
    hP ⟨hcl, hlen⟩ fun k s hs => ?_
  refine forRange_adds (R := OGRel) OGRel.refl OGRel.trans _ (fun s => s.1 = A.cartInts ∧
    ∀ k, A.cart_size * B.cart_size ≤ (s.2 k).length) hP hs fun i s hi hs => ?_
  refine forRange_adds (R := OGRel) OGRel.refl OGRel.trans _ (fun s => s.1 = A.cartInts ∧
    ∀ k, A.cart_size * B.cart_size ≤ (s.2 k).length) hP hs fun j s hjB hs => ?_
  exact ogBody_ok hg junk hA hB hm factor k (hj.imp_right Or.inl) hi hjB hs.1 hs.2

theorem ogBody_ub {gen : Nat → List Comp} (hg : DocumentedOrder gen) {A B : Shell}
    (hA : A.Made gen) (hB : B.Made gen) {down up : List ℝ} (hm : OGMat gen A B down up) (hL : 0 < A.L)
    (factor : ℝ) (k : Fin 3) {i j : Nat} (h0 : (A.comp i).exp k = 0) (hi : i < A.cart_size) (hjB : j < B.cart_size)
    {st : OGState} (hcl : st.1 = A.cartInts) :
    ogBody gen none A B factor (down, up) k i j st = .ub := by
  have hc : st.1[i]? = some (A.comp i).ints := by rw [hcl]; exact cartInts_get hg hA hi
  have hket : rd B.cartInts j = .ok (B.comp j).ints := by simp [rd, cartInts_get hg hB hjB]
  unfold ogBody
  rw [hket]
  simp only [Outcome.ok_bind]
  rw [if_pos hL, ogDown_ub B.cart_size factor k hc]
  · rfl
  · rw [nlmIndex_negative hg _ k (hA.get hg hi).2 hL h0, hm.down_len hL, mul_comm]
    exact Nat.le_add_right _ _

/-- A loop in which every step succeeds or is undefined, and some step is always undefined. -/
theorem forRange_ub_some {σ : Type _} {n : Nat} {s : σ} {body : Nat → σ → Outcome σ} (I : σ → Prop) (h0 : I s)
    (hstep : ∀ i s, i < n → I s → (∃ s', body i s = .ok s' ∧ I s') ∨ body i s = .ub)
    {k : Nat} (hk : k < n) (hub : ∀ s, I s → body k s = .ub) : forRange n s body = .ub := by
  have key : ∀ m, m ≤ n → (∃ s', forRange m s body = .ok s' ∧ I s' ∧ m ≤ k) ∨ forRange m s body = .ub := by
    intro m
    induction m with
    | zero => intro _; exact Or.inl ⟨s, rfl, h0, Nat.zero_le _⟩
    | succ m ih =>
      intro hm
      rw [forRange_succ]
      rcases ih (by omega) with ⟨s', e, hI, hmk⟩ | e
      · rw [e, Outcome.ok_bind]
        by_cases hmk' : m = k
        · subst hmk'; exact Or.inr (hub _ hI)
        · rcases hstep m s' (by omega) hI with ⟨s2, e2, h2⟩ | e2
          · exact Or.inl ⟨s2, e2, h2, by omega⟩
          · exact Or.inr e2
      · rw [e]; exact Or.inr rfl
  rcases key n le_rfl with ⟨s', -, -, h⟩ | h
  · omega
  · exact h

/-- In C terms, the bra of angular momentum `L > 0` makes the assembly read past the end of the lower matrix. -/
theorem ogContribution_ub {gen : Nat → List Comp} (hg : DocumentedOrder gen) {A B : Shell}
    (hA : A.Made gen) (hB : B.Made gen) (hL : 0 < A.L) (hLA : A.L ≤ 8) (hLB : B.L ≤ 9)
    (factor : ℝ) {st : OGState} (hcl : st.1 = A.cartInts) (hlen : ∀ k, A.cart_size * B.cart_size ≤ (st.2 k).length) :
    ogContribution gen none A B factor st = .ub := by
  obtain ⟨down, up, e, hm⟩ := ogMatrices_ok hg hA hB hLA hLB
  unfold ogContribution
  rw [e, Outcome.ok_bind]
  have hBpos : 0 < B.cart_size := by rw [hB.size]; unfold cartSize; exact Nat.div_pos (by nlinarith) (by norm_num)
  obtain ⟨i0, hi0, h00⟩ : ∃ i, i < A.cart_size ∧ (A.comp i).exp 0 = 0 := by
    have hm : ((0, A.L, 0) : Comp) ∈ gen A.L := by
      rw [hg.eq]; exact ((cartesian_turbomole_complete A.L).2.2 0 A.L 0).2 (by simp)
    obtain ⟨i, hi, hi'⟩ := List.getElem_of_mem hm
    refine ⟨i, by rw [hA.size, ← gen_length hg]; exact hi, ?_⟩
    simp [Shell.comp, hA.list, List.getD, List.getElem?_eq_getElem hi, hi', Comp.exp]
  have hP : ∀ {s t : OGState} {δ : Fin 3 → Nat → ℝ}, (s.1 = A.cartInts ∧ ∀ k, A.cart_size * B.cart_size ≤ (s.2 k).length) →
      OGRel s t δ → (t.1 = A.cartInts ∧ ∀ k, A.cart_size * B.cart_size ≤ (t.2 k).length) :=
    fun h r => ⟨r.1.trans h.1, fun k => by rw [(r.2 k).1]; exact h.2 k⟩
  have hfirst : forRange A.cart_size st (fun i st =>
      forRange B.cart_size st fun j st => ogBody gen none A B factor (down, up) 0 i j st) = .ub := by
    refine forRange_ub_some (fun s => s.1 = A.cartInts ∧ ∀ k, A.cart_size * B.cart_size ≤ (s.2 k).length) ⟨hcl, hlen⟩ ?_ hi0 ?_
    · intro i s hi hs
      rcases Nat.eq_zero_or_pos ((A.comp i).exp 0) with h0 | hpos
      · right
        exact forRange_ub (fun j t => t = s) hBpos rfl (by omega) (by rintro _ rfl; exact ogBody_ub hg hA hB hm hL factor 0 h0 hi hBpos hs.1)
      · left
        obtain ⟨s', e', r'⟩ := forRange_adds (R := OGRel) OGRel.refl OGRel.trans _ (fun s => s.1 = A.cartInts ∧
          ∀ k, A.cart_size * B.cart_size ≤ (s.2 k).length) hP hs fun j s hjB hs =>
            ogBody_ok hg none hA hB hm factor 0 (Or.inr (Or.inr hpos)) hi hjB hs.1 hs.2
        exact ⟨s', e', hP hs r'⟩
    · intro s hs
      exact forRange_ub (fun j t => t = s) hBpos rfl (by omega) (by rintro _ rfl; exact ogBody_ub hg hA hB hm hL factor 0 h00 hi0 hBpos hs.1)
  unfold forCoord
  beta_reduce
  rw [hfirst]
  rfl

end Libgrpp
