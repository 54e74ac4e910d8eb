import Verif.Lemmas.DriverGradient
import Verif.Props.DriverGrpp
import Verif.Props.OverlapGradient

/-! # C101: gradients of molecular matrices in the driver program

For every atom and coordinate the driver holds one matrix. The reference is the derivative of the matrix element when the atom is displaced together
with the basis functions and the pseudopotential on it (`moveAtom`, `movePoint`, file `Verif/Model/DriverGradient.lean`). -/

namespace Libgrpp

open MeasureTheory

/-- Every basis function sits on an atom, and different positions of atoms are distinguished by the comparisons of the library. -/
structure AtomsOk (shells : List Shell) (atoms : List (Nat × Point)) : Prop where
  on : ∀ s ∈ shells, ∃ a ∈ atoms, s.origin = a.2
  apart : ∀ a ∈ atoms, ∀ b ∈ atoms, pointsAreEqual a.2 b.2 → a.2 = b.2

/-- An array with enough matrices for `natoms` atoms, each with at least `N * N` elements. -/
def GradArrays (natoms N : Nat) (grad : List (List ℝ)) : Prop := 3 * natoms ≤ grad.length ∧ ∀ m ∈ grad, N * N ≤ m.length

/-- `V a k p q` has been added to element `(p, q)` of the matrix of atom `a` and coordinate `k`, for all atoms, coordinates and elements;
nothing else has been changed. -/
structure GradsIncreased (natoms N : Nat) (V : Nat → Fin 3 → Nat → Nat → ℝ) (grad grad' : List (List ℝ)) : Prop where
  len : grad'.length = grad.length
  other : ∀ x, 3 * natoms ≤ x → grad'[x]? = grad[x]?
  elem : ∀ a < natoms, ∀ k : Fin 3, ∃ M M', grad[3 * a + (k : Nat)]? = some M ∧ grad'[3 * a + (k : Nat)]? = some M' ∧ SameBeyond (N * N) M' M ∧
    ∀ p q, p < N → q < N → ∃ x, M[p * N + q]? = some x ∧ M'[p * N + q]? = some (x + V a k p q)

theorem AtomsOk.iff {shells : List Shell} {atoms : List (Nat × Point)} (h : AtomsOk shells atoms) {P Q : Point} (hP : ∃ a ∈ atoms, P = a.2)
    (hQ : ∃ a ∈ atoms, Q = a.2) : pointsAreEqual P Q ↔ P = Q := by
  obtain ⟨a, ha, rfl⟩ := hP
  obtain ⟨b, hb, rfl⟩ := hQ
  exact ⟨h.apart a ha b hb, fun e => e ▸ points_equal_refl _⟩

theorem GradsIncreased.of_added {shells : List Shell} {natoms : Nat} {E : Nat → Fin 3 → Shell → Shell → Nat → Nat → ℝ} {grad grad' : List (List ℝ)}
    (h : GradAdded shells natoms E grad grad') (hG : ∀ m ∈ grad, dimOf shells * dimOf shells ≤ m.length) (d : Shell × Nat) :
    GradsIncreased natoms (basisComps shells).length (fun a k p q => E a k ((basisComps shells).getD p d).1 ((basisComps shells).getD q d).1
      ((basisComps shells).getD p d).2 ((basisComps shells).getD q d).2) grad grad' := by
  refine ⟨h.len, h.other, fun a ha k => ?_⟩
  obtain ⟨M, M', e, e', sb, v⟩ := h.elem a ha k
  refine ⟨M, M', e, e', by rw [basisComps_length]; exact sb, fun p q hp hq => ?_⟩
  have key := basisComps_pairs (shells := shells) (P := fun p q f g => M'[p * dimOf shells + q]? =
    M[p * dimOf shells + q]?.map (· + E a k f.1 g.1 f.2 g.2)) fun i j m n hi hj hm hn => v i j m n hi hj hm hn
  have hv := key p q _ _ (getD_of_lt hp d) (getD_of_lt hq d)
  rw [basisComps_length] at hp hq ⊢
  have hl : p * dimOf shells + q < M.length := (row_lt hp hq).trans_le (hG M (List.mem_of_getElem? e))
  rw [List.getElem?_eq_getElem hl] at hv ⊢
  exact ⟨_, rfl, by simpa using hv⟩

theorem basisComps_mem2 {shells : List Shell} {p : Nat} {A : Shell} {m : Nat} (h : (basisComps shells)[p]? = some (A, m)) :
    A ∈ shells ∧ m < A.cart_size := by
  have := List.mem_of_getElem? h
  simp only [basisComps, List.mem_flatMap, List.mem_map, List.mem_range] at this
  obtain ⟨s, hs, m', hm', e⟩ := this
  obtain ⟨rfl, rfl⟩ := Prod.mk.inj e
  exact ⟨hs, hm'⟩

theorem getD_of_some {α : Type} {l : List α} {p : Nat} {a : α} (h : l[p]? = some a) (d : α) : l.getD p d = a := by
  simp [List.getD, h]

/-! ## Overlap -/

/-- The derivative of the overlap integral when the atom at `D` is displaced. -/
theorem hasDerivAt_moveAtom_overlap {A B : Shell} (hA : A.Pos) (hB : B.Pos) (D : Point) (k : Fin 3) (m n : Nat) :
    HasDerivAt (fun t => ∫ r, basisFn (moveAtom D k t A) m r * basisFn (moveAtom D k t B) n r)
      ((if A.origin = D then overlapDeriv A B k m n else 0) + if B.origin = D then -overlapDeriv A B k m n else 0) 0 := by
  by_cases h1 : A.origin = D <;> by_cases h2 : B.origin = D
  · have e : (fun t => ∫ r, basisFn (moveAtom D k t A) m r * basisFn (moveAtom D k t B) n r) = fun _ => ∫ r, basisFn A m r * basisFn B n r := by
      funext t
      simp only [moveAtom, if_pos h1, if_pos h2]
      have t1 := fun r => basisFn_translate A k (A.origin k) t m r
      have t2 := fun r => basisFn_translate B k (B.origin k) t n r
      have u1 : A.moveTo k (A.origin k) = A := by simp [Shell.moveTo]
      have u2 : B.moveTo k (B.origin k) = B := by simp [Shell.moveTo]
      rw [u1] at t1
      rw [u2] at t2
      calc ∫ r, basisFn (A.moveTo k (A.origin k + t)) m r * basisFn (B.moveTo k (B.origin k + t)) n r
          = ∫ r, basisFn (A.moveTo k (A.origin k + t)) m (r + along k t) * basisFn (B.moveTo k (B.origin k + t)) n (r + along k t) :=
            (integral_add_right_eq_self (fun r => basisFn (A.moveTo k (A.origin k + t)) m r * basisFn (B.moveTo k (B.origin k + t)) n r) _).symm
        _ = _ := by simp only [t1, t2]
    rw [e, if_pos h1, if_pos h2, add_neg_cancel]
    exact hasDerivAt_const _ _
  · have := (hasDerivAt_overlap1 A B hA hB m n k).differentiableAt.hasDerivAt
    rw [← add_zero (A.origin k)] at this
    have h3 := HasDerivAt.comp_const_add (A.origin k) 0 this
    simp only [add_zero] at h3
    simp only [moveAtom, if_pos h1, if_neg h2, add_zero]
    exact h3
  · have := hasDerivAt_overlap_ket A B hA hB m n k
    rw [← add_zero (B.origin k)] at this
    have h3 := HasDerivAt.comp_const_add (B.origin k) 0 this
    simp only [moveAtom, if_neg h1, if_pos h2, zero_add]
    exact h3
  · simp only [moveAtom, if_neg h1, if_neg h2, add_zero]
    exact hasDerivAt_const _ _

/-- What the library routine returns for a pair of shells on atoms. -/
theorem overlapGradient_atoms {gen : Nat → List Comp} (hg : DocumentedOrder gen) {shells : List Shell} {atoms : List (Nat × Point)}
    (hat : AtomsOk shells atoms) {A B : Shell} (hA : A ∈ shells) (hB : B ∈ shells) (mA : A.Made gen) (mB : B.Made gen) (lA : A.L ≤ 8) (lB : B.L ≤ 9)
    {junk : Option (Nat → ℝ)} (hj : A.L = 0 ∨ junk ≠ none) {a : Nat × Point} (ha : a ∈ atoms) (G : Fin 3 → List ℝ)
    (hG : ∀ k, A.cart_size * B.cart_size ≤ (G k).length) :
    ∃ G', overlapGradient gen junk A B a.2 G = .ok (A.cartInts, G') ∧ ∀ k, A.cart_size * B.cart_size ≤ (G' k).length ∧
      MatIs A.cart_size B.cart_size (G' k) fun m n => (if A.origin = a.2 then overlapDeriv A B k m n else 0) +
        if B.origin = a.2 then -overlapDeriv A B k m n else 0 := by
  have oA := hat.on A hA
  have oB := hat.on B hB
  by_cases hAB : pointsAreEqual A.origin B.origin
  · obtain ⟨G', e, h⟩ := overlap_gradient_zero gen junk A B a.2 G hG (Or.inl hAB)
    have m : ∀ k, MatIs A.cart_size B.cart_size (G' k) fun m n => (if A.origin = a.2 then overlapDeriv A B k m n else 0) +
        if B.origin = a.2 then -overlapDeriv A B k m n else 0 := by
      intro k m n hm hn
      beta_reduce
      rw [(h k).1 _ (rowMajor_lt hm hn), (hat.iff oA oB).1 hAB]
      split_ifs <;> simp
    exact ⟨G', e, fun k => ⟨(m k).length_ge, m k⟩⟩
  · obtain ⟨G', e, h, -⟩ := overlapGradient_value gen hg junk A B mA mB hj lA lB a.2 G hG hAB
    have m : ∀ k, MatIs A.cart_size B.cart_size (G' k) fun m n => (if A.origin = a.2 then overlapDeriv A B k m n else 0) +
        if B.origin = a.2 then -overlapDeriv A B k m n else 0 := by
      intro k m n hm hn
      beta_reduce
      rw [h k m n hm hn]
      simp only [hat.iff oA ⟨a, ha, rfl⟩, hat.iff oB ⟨a, ha, rfl⟩]
    exact ⟨G', e, fun k => ⟨(m k).length_ge, m k⟩⟩

/-- **C101, partial** (overlap). For all molecules the driver adds to each element of each of its matrices the derivative of the overlap integral with
respect to the coordinate of the atom, and changes nothing else; the derivatives with respect to all atoms add up to zero, if no two atoms are at the
same position. Missing: for shells with `L > 0` the result is relative to some value being returned by the out-of-bounds reads of the library
(`junk`, see C24); see `molecular_overlap_gradient_undefined`. -/
theorem molecular_overlap_gradient_partial (gen : Nat → List Comp) (hg : DocumentedOrder gen) (shells : List Shell) (atoms : List (Nat × Point))
    (hs : ∀ s ∈ shells, s.Made gen ∧ s.L ≤ 8) (hat : AtomsOk shells atoms)
    (hd : (basisComps shells).length * (basisComps shells).length ≤ 2147483648) :
    ∃ V : ℕ → Fin 3 → ℕ → ℕ → ℝ,
      (∀ a c D, atoms[a]? = some (c, D) → ∀ k p q A m B n, (basisComps shells)[p]? = some (A, m) → (basisComps shells)[q]? = some (B, n) →
        HasDerivAt (fun t => ∫ r, basisFn (moveAtom D k t A) m r * basisFn (moveAtom D k t B) n r) (V a k p q) 0) ∧
      ((atoms.map Prod.snd).Nodup → ∀ k p q, p < (basisComps shells).length → q < (basisComps shells).length →
        ∑ a ∈ Finset.range atoms.length, V a k p q = 0) ∧
      ∀ junk : ℕ → ℕ → ℕ → Option (ℕ → ℝ), ((∀ io jo ia, junk io jo ia ≠ none) ∨ ∀ s ∈ shells, s.L = 0) → ∀ grad,
        GradArrays atoms.length (basisComps shells).length grad →
        ∃ grad', evalOverlapGrad gen junk shells atoms grad = .ok grad' ∧ GradsIncreased atoms.length (basisComps shells).length V grad grad' := by
  let d : Shell × Nat := (⟨0, fun _ => 0, 0, [], 0, [], []⟩, 0)
  let d' : Nat × Point := (0, fun _ => 0)
  let W : Shell → Shell → Point → Fin 3 → Nat → Nat → ℝ := fun A B D k m n =>
    (if A.origin = D then overlapDeriv A B k m n else 0) + if B.origin = D then -overlapDeriv A B k m n else 0
  refine ⟨fun a k p q => W ((basisComps shells).getD p d).1 ((basisComps shells).getD q d).1 (atoms.getD a d').2 k
      ((basisComps shells).getD p d).2 ((basisComps shells).getD q d).2, ?_, ?_, ?_⟩
  · intro a c D ha k p q A m B n hp hq
    have e1 := getD_of_some hp d
    have e2 := getD_of_some hq d
    have e3 := getD_of_some ha d'
    beta_reduce
    rw [e1, e2, e3]
    exact hasDerivAt_moveAtom_overlap (hs A (basisComps_mem2 hp).1).1.pos (hs B (basisComps_mem2 hq).1).1.pos D k m n
  · intro hn k p q hp hq
    have hA := (basisComps_mem2 (A := ((basisComps shells).getD p d).1) (m := ((basisComps shells).getD p d).2) (getD_of_lt hp d)).1
    have hB := (basisComps_mem2 (A := ((basisComps shells).getD q d).1) (m := ((basisComps shells).getD q d).2) (getD_of_lt hq d)).1
    simp only [W]
    rw [Finset.sum_add_distrib, sum_at_atom hn d' (hat.on _ hA), sum_at_atom hn d' (hat.on _ hB), add_neg_cancel]
  · intro junk hj grad hG
    rw [basisComps_length] at hd
    have hG2 := hG.2
    rw [basisComps_length] at hG2
    obtain ⟨grad', e, h⟩ := evalOverlapGrad_spec (W := W) (junk := junk) (gen := gen) (shells := shells) (atoms := atoms) (fun A hA B hB io jo ia a ha G hG => by
      obtain ⟨G', e, h⟩ := overlapGradient_atoms hg hat hA hB (hs A hA).1 (hs B hB).1 (hs A hA).2 ((hs B hB).2.trans (by norm_num))
        (junk := junk io jo ia) (hj.elim (fun h => Or.inr (h io jo ia)) fun h => Or.inl (h A hA)) ha G hG
      exact ⟨G', e, h⟩) hd grad ⟨rfl, hG2⟩ hG.1 d'
    exact ⟨grad', e, GradsIncreased.of_added h hG2 d⟩

/-- **C101 for s shells** (overlap), where the library does not read out of bounds. -/
theorem molecular_overlap_gradient_s (gen : Nat → List Comp) (hg : DocumentedOrder gen) (shells : List Shell) (atoms : List (Nat × Point))
    (hs : ∀ s ∈ shells, s.Made gen ∧ s.L = 0) (hat : AtomsOk shells atoms)
    (hd : (basisComps shells).length * (basisComps shells).length ≤ 2147483648) (grad : List (List ℝ))
    (hG : GradArrays atoms.length (basisComps shells).length grad) :
    ∃ V grad', evalOverlapGrad gen (fun _ _ _ => none) shells atoms grad = .ok grad' ∧
      GradsIncreased atoms.length (basisComps shells).length V grad grad' ∧
      ∀ a c D, atoms[a]? = some (c, D) → ∀ k p q A m B n, (basisComps shells)[p]? = some (A, m) → (basisComps shells)[q]? = some (B, n) →
        HasDerivAt (fun t => ∫ r, basisFn (moveAtom D k t A) m r * basisFn (moveAtom D k t B) n r) (V a k p q) 0 := by
  obtain ⟨V, h1, -, h3⟩ := molecular_overlap_gradient_partial gen hg shells atoms (fun s h => ⟨(hs s h).1, by rw [(hs s h).2]; norm_num⟩) hat hd
  obtain ⟨grad', e, h⟩ := h3 (fun _ _ _ => none) (Or.inr fun s h => (hs s h).2) grad hG
  exact ⟨V, grad', e, h, h1⟩

/-- **C101 is false without the assumption on out-of-bounds reads**: the driver's overlap gradient has no defined result for any molecule with a shell of
`L > 0` and a shell on another atom. -/
theorem molecular_overlap_gradient_undefined (gen : Nat → List Comp) (hg : DocumentedOrder gen) (shells : List Shell) (atoms : List (Nat × Point))
    (hs : ∀ s ∈ shells, s.Made gen ∧ s.L ≤ 8) (hat : AtomsOk shells atoms)
    (hd : (basisComps shells).length * (basisComps shells).length ≤ 2147483648) (grad : List (List ℝ))
    (hG : GradArrays atoms.length (basisComps shells).length grad) (A B : Shell) (hA : A ∈ shells) (hB : B ∈ shells) (hL : 0 < A.L)
    (hAB : A.origin ≠ B.origin) :
    evalOverlapGrad gen (fun _ _ _ => none) shells atoms grad = .ub := by
  rw [basisComps_length] at hd
  have hG2 := hG.2
  rw [basisComps_length] at hG2
  have nAB : ¬ pointsAreEqual A.origin B.origin := fun h => hAB ((hat.iff (hat.on A hA) (hat.on B hB)).1 h)
  unfold evalOverlapGrad
  rw [basisDim_eq, Outcome.ok_bind]
  -- the loop over atoms for one pair of shells
  have loop : ∀ S ∈ shells, ∀ T ∈ shells, ∀ io jo s, io + S.cart_size ≤ dimOf shells → jo + T.cart_size ≤ dimOf shells →
      GradsOk grad.length (dimOf shells) s →
      OkUb (fun st : (Fin 3 → List ℝ) × List (List ℝ) => GradsOk grad.length (dimOf shells) st.2)
        (forRange atoms.length ((fun _ => List.replicate (S.cart_size * T.cart_size) 0 : Fin 3 → List ℝ), s) fun ia st => do
          let atom ← rd atoms ia
          let og ← overlapGradient gen none S T atom.2 st.1
          Outcome.valid (og.1 = S.cartInts)
          let grad ← addGrads (dimOf shells) st.2 S.cart_size T.cart_size og.2 io jo ia 1
          Outcome.ok (og.2, grad)) ∧
      (0 < S.L → ¬ pointsAreEqual S.origin T.origin →
        (forRange atoms.length ((fun _ => List.replicate (S.cart_size * T.cart_size) 0 : Fin 3 → List ℝ), s) fun ia st => do
          let atom ← rd atoms ia
          let og ← overlapGradient gen none S T atom.2 st.1
          Outcome.valid (og.1 = S.cartInts)
          let grad ← addGrads (dimOf shells) st.2 S.cart_size T.cart_size og.2 io jo ia 1
          Outcome.ok (og.2, grad)) = .ub) := by
    intro S hS T hT io jo s h1 h2 hok
    have mS := hs S hS
    have mT := hs T hT
    have step := forRange_okUb (n := atoms.length) (s := ((fun _ => List.replicate (S.cart_size * T.cart_size) 0 : Fin 3 → List ℝ), s))
      (body := fun ia st => do
          let atom ← rd atoms ia
          let og ← overlapGradient gen none S T atom.2 st.1
          Outcome.valid (og.1 = S.cartInts)
          let grad ← addGrads (dimOf shells) st.2 S.cart_size T.cart_size og.2 io jo ia 1
          Outcome.ok (og.2, grad))
      (fun _ st => (∀ k, S.cart_size * T.cart_size ≤ (st.1 k).length) ∧ GradsOk grad.length (dimOf shells) st.2)
      ⟨fun _ => List.length_replicate.ge, hok⟩ (by
        rintro ia ⟨buf, g⟩ hia ⟨hb, hg'⟩
        rw [rd_ok hia, Outcome.ok_bind]
        by_cases hz : (S.L = 0 ∨ pointsAreEqual S.origin T.origin) ∨
            ¬ pointsAreEqual S.origin atoms[ia].2 ∧ ¬ pointsAreEqual T.origin atoms[ia].2
        · obtain ⟨G', e, hG'⟩ : ∃ G', overlapGradient gen none S T atoms[ia].2 buf = .ok (S.cartInts, G') ∧
              ∃ W : Fin 3 → Nat → Nat → ℝ, ∀ k, MatIs S.cart_size T.cart_size (G' k) (W k) := by
            by_cases hz' : pointsAreEqual S.origin T.origin ∨ ¬ pointsAreEqual S.origin atoms[ia].2 ∧ ¬ pointsAreEqual T.origin atoms[ia].2
            · obtain ⟨G', e, h⟩ := overlap_gradient_zero gen none S T atoms[ia].2 buf hb hz'
              exact ⟨G', e, fun _ _ _ => 0, fun k m n hm hn => (h k).1 _ (rowMajor_lt hm hn)⟩
            · obtain ⟨G', e, h⟩ := overlapGradient_atoms hg hat hS hT mS.1 mT.1 mS.2 (mT.2.trans (by norm_num)) (junk := none)
                (Or.inl (by tauto)) (List.getElem_mem hia) buf hb
              exact ⟨G', e, _, fun k => (h k).2⟩
          obtain ⟨W, hW⟩ := hG'
          obtain ⟨g', e2, o2, -⟩ := addGrads_spec hd h1 h2 hW 1 g hg' (ia := ia) (by have := hG.1; omega)
          refine Or.inl ⟨(G', g'), ?_, fun k => (hW k).length_ge, o2⟩
          simp only [e, Outcome.ok_bind]
          rw [Outcome.valid_pos trivial, Outcome.ok_bind]
          simp only [e2, Outcome.ok_bind]
        · push Not at hz
          have := overlap_gradient_out_of_bounds gen hg S T mS.1 mT.1 (Nat.pos_of_ne_zero hz.1.1) mS.2 (mT.2.trans (by norm_num)) atoms[ia].2 buf hb
            hz.1.2 (by by_contra h; push Not at h; exact h.2 (hz.2 h.1))
          simp only [this]
          exact Or.inr rfl)
    refine ⟨?_, fun hL hn => ?_⟩
    · rcases step.1 with ⟨r, e, h⟩ | e
      · exact Or.inl ⟨r, e, h.2⟩
      · exact Or.inr e
    · obtain ⟨a, ha, e⟩ := hat.on S hS
      obtain ⟨ia, hia, rfl⟩ := List.mem_iff_getElem.1 ha
      refine step.2 ia hia fun st hst => ?_
      rw [rd_ok hia, Outcome.ok_bind, overlap_gradient_out_of_bounds gen hg S T mS.1 mT.1 hL mS.2 (mT.2.trans (by norm_num)) atoms[ia].2 st.1 hst.1 hn
        (Or.inl (by rw [e]; exact points_equal_refl _))]
      rfl
  refine forShellPairs_ub shells (fun g => GradsOk grad.length (dimOf shells) g) grad ⟨rfl, hG2⟩ (fun S hS T hT io jo s h1 h2 hok => ?_) hA hB
    (fun io jo s h1 h2 hok => ?_)
  · exact (loop S hS T hT io jo s h1 h2 hok).1.bind fun r hr => Or.inl ⟨_, rfl, hr⟩
  · have := (loop A hA B hB io jo s h1 h2 hok).2 hL nAB
    show (forRange _ _ _ >>= fun _ => _) = _
    rw [this]
    rfl

/-! ## Pseudopotentials -/

theorem moleculeGrpps_on {atoms : List (Nat × Point)} {grpps : List (Option GrppData)} {o : GrppData × Point} (h : o ∈ moleculeGrpps atoms grpps) :
    ∃ a ∈ atoms, o.2 = a.2 := by
  simp only [moleculeGrpps, List.mem_filterMap, Option.map_eq_some_iff] at h
  obtain ⟨a, ha, g, -, rfl⟩ := h
  exact ⟨a, ha, rfl⟩

theorem AtomsOk.separated {shells : List Shell} {atoms : List (Nat × Point)} (h : AtomsOk shells atoms) {A B C D : Point} (hA : ∃ a ∈ atoms, A = a.2)
    (hB : ∃ a ∈ atoms, B = a.2) (hC : ∃ a ∈ atoms, C = a.2) (hD : ∃ a ∈ atoms, D = a.2) : Separated A B C D := by
  have on : ∀ x ∈ ({A, B, C, D} : Set Point), ∃ a ∈ atoms, x = a.2 := by
    intro x hx
    simp only [Set.mem_insert_iff, Set.mem_singleton_iff] at hx
    rcases hx with rfl | rfl | rfl | rfl <;> assumption
  intro x y z hx hy hz h1 h2
  rw [(h.iff (on x hx) (on y hy)).1 h1]
  exact h2

theorem moveAtom_eq (D : Point) (k : Fin 3) (t : ℝ) (s : Shell) :
    moveAtom D k t s = s.moveTo k (if s.origin = D then s.origin k + t else s.origin k) := by
  unfold moveAtom
  split_ifs
  · rfl
  · simp [Shell.moveTo]

theorem movePoint_eq (D : Point) (k : Fin 3) (t : ℝ) (C : Point) : movePoint D k t C = if C = D then C + along k t else C := by
  unfold movePoint
  split_ifs
  · funext i
    by_cases hi : i = k
    · subst hi; simp [along]
    · simp [along, hi]
  · rfl

/-- The input of the driver for gradients of pseudopotential integrals: the preconditions of C87 for all pairs of shells and all pseudopotentials. -/
structure GradDriverInput (gen : Nat → List Comp) (shells : List Shell) (atoms : List (Nat × Point)) (grpps : List (Option GrppData)) : Prop where
  input : ∀ A ∈ shells, ∀ B ∈ shells, ∀ o ∈ moleculeGrpps atoms grpps, GradInput gen A B o.2 o.1
  atoms_ok : AtomsOk shells atoms
  charge : ∀ a ∈ atoms, a.1 < grpps.length
  dim : (basisComps shells).length * (basisComps shells).length ≤ 2147483648

section
variable {G : Type} (lib : Lib G) (hi : lib.init = true) (hbt : BesselOk lib.bt) (ho : DocumentedOrder lib.gen) {eps : ℝ}
  {sf : SpecFun} (hs : LibSpec eps sf)
include hi hbt ho hs

/-- **C101, partial** (pseudopotentials). For all molecules which meet the preconditions the driver adds to each element of each of its matrices a
number within an explicit bound of the derivative of the matrix element of all pseudopotentials of the molecule, when an atom is displaced with
the basis functions and the pseudopotential on it, and changes nothing else. The numbers for all atoms add up to exactly zero, if no two atoms are at the
same position. Missing: the result is relative to some value being returned by out-of-bounds reads, as in C87. -/
theorem molecular_grpp_gradient_partial (shells : List Shell) (atoms : List (Nat × Point)) (grpps : List (Option GrppData))
    (h : GradDriverInput lib.gen shells atoms grpps) :
    ∃ (Qb Qk : Shell → Shell → GrppData × Point → Shell → Potential → ℕ → ℕ → ℕ → ℝ) (V : Fin 4 → ℕ → Fin 3 → ℕ → ℕ → ℝ),
      (∀ A ∈ shells, ∀ B ∈ shells, ∀ o ∈ moleculeGrpps atoms grpps, ∀ u ∈ o.1.arep ++ o.1.esop,
        (∀ S, IsDiff lib.gen A S → RadialTable lib S B o.2 u (Qb A B o S u)) ∧
        ∀ T, IsDiff lib.gen B T → RadialTable lib A T o.2 u (Qk A B o T u)) ∧
      (∀ a c D, atoms[a]? = some (c, D) → ∀ x k p q A m B n, (basisComps shells)[p]? = some (A, m) → (basisComps shells)[q]? = some (B, n) →
        ∃ d, HasDerivAt (fun t => ((moleculeGrpps atoms grpps).map fun o =>
            grppElement (moveAtom D k t A) (moveAtom D k t B) (movePoint D k t o.2) o.1 x m n).sum) d 0 ∧
          |V x a k p q - d| ≤ ((moleculeGrpps atoms grpps).map fun o =>
            diffErr lib.gen A (fun S i => grppErr S B o.2 o.1 (Qb A B o S) x i n) k m +
            diffErr lib.gen B (fun T i => grppErr A T o.2 o.1 (Qk A B o T) x m i) k n).sum) ∧
      ((atoms.map Prod.snd).Nodup → ∀ x k p q, p < (basisComps shells).length → q < (basisComps shells).length →
        ∑ a ∈ Finset.range atoms.length, V x a k p q = 0) ∧
      ∀ junk : ℕ → ℕ → ℕ → ℕ → Option (ℕ → ℝ), ((∀ io jo ia ir, junk io jo ia ir ≠ none) ∨ ∀ s ∈ shells, s.L = 0) → ∀ grads : Fin 4 → List (List ℝ),
        (∀ x, GradArrays atoms.length (basisComps shells).length (grads x) ∧ (grads x).length = (grads 0).length) →
        ∃ grads', evalGrppGrad lib.gen junk (fun g C S T M => fullGrpp (libKernels lib sf) lib.init S T g C M) shells atoms grpps grads = .ok grads' ∧
          ∀ x, GradsIncreased atoms.length (basisComps shells).length (V x) (grads x) (grads' x) := by
  have hat := h.atoms_ok
  have hv : ∀ (A B : Shell) (o : GrppData × Point), ∃ (Qb Qk : Shell → Potential → ℕ → ℕ → ℕ → ℝ) (Tb Tk : Fin 4 → Fin 3 → ℕ → ℕ → ℝ),
      A ∈ shells → B ∈ shells → o ∈ moleculeGrpps atoms grpps →
      (∀ S, IsDiff lib.gen A S → ∀ u ∈ o.1.arep ++ o.1.esop, RadialTable lib S B o.2 u (Qb S u)) ∧
      (∀ T, IsDiff lib.gen B T → ∀ u ∈ o.1.arep ++ o.1.esop, RadialTable lib A T o.2 u (Qk T u)) ∧
      (∀ junk : Option (Nat → ℝ), (junk = none → A.L = 0 ∧ B.L = 0) → GradMats lib.gen (libFull lib sf o.1 o.2) A B junk Tb Tk) ∧
        ∀ q k i j, i < A.cart_size → j < B.cart_size →
          |Tb q k i j - braT (grppForm o.2 o.1) A B q k i j| ≤ diffErr lib.gen A (fun S a => grppErr S B o.2 o.1 (Qb S) q a j) k i ∧
          |Tk q k i j - ketT (grppForm o.2 o.1) A B q k i j| ≤ diffErr lib.gen B (fun T a => grppErr A T o.2 o.1 (Qk T) q i a) k j := by
    intro A B o
    by_cases hc : A ∈ shells ∧ B ∈ shells ∧ o ∈ moleculeGrpps atoms grpps
    · obtain ⟨hA, hB, hm⟩ := hc
      obtain ⟨Qb, Qk, h1, h2, Tb, Tk, h3, h4⟩ := lib_mats lib hi hbt ho hs (h.input A hA B hB o hm).lib
      exact ⟨Qb, Qk, Tb, Tk, fun _ _ _ => ⟨h1, h2, h3, h4⟩⟩
    · exact ⟨fun _ _ _ _ _ => 0, fun _ _ _ _ _ => 0, fun _ _ _ _ => 0, fun _ _ _ _ => 0, fun hA hB hm => absurd ⟨hA, hB, hm⟩ hc⟩
  choose Qb Qk Tb Tk hT using hv
  let d : Shell × Nat := (⟨0, fun _ => 0, 0, [], 0, [], []⟩, 0)
  let d' : Nat × Point := (0, fun _ => 0)
  let W : Shell → Shell → GrppData × Point → Point → Fin 4 → Fin 3 → Nat → Nat → ℝ := fun A B o D x k m n =>
    ((if A.origin = D then 1 else 0) - if o.2 = D then 1 else 0) * Tb A B o x k m n +
      ((if B.origin = D then 1 else 0) - if o.2 = D then 1 else 0) * Tk A B o x k m n
  refine ⟨Qb, Qk, fun x a k p q => ((moleculeGrpps atoms grpps).map fun o => W ((basisComps shells).getD p d).1 ((basisComps shells).getD q d).1 o
      (atoms.getD a d').2 x k ((basisComps shells).getD p d).2 ((basisComps shells).getD q d).2).sum,
    fun A hA B hB o hm u hu => ⟨fun S hS => (hT A B o hA hB hm).1 S hS u hu, fun T hT' => (hT A B o hA hB hm).2.1 T hT' u hu⟩, ?_, ?_, ?_⟩
  · intro a c D ha x k p q A m B n hp hq
    have e1 := getD_of_some hp d
    have e2 := getD_of_some hq d
    have e3 := getD_of_some ha d'
    obtain ⟨hA, hm⟩ := basisComps_mem2 hp
    obtain ⟨hB, hn⟩ := basisComps_mem2 hq
    have oD : ∃ b ∈ atoms, D = b.2 := ⟨(c, D), List.mem_of_getElem? ha, rfl⟩
    have der : ∀ o ∈ moleculeGrpps atoms grpps,
        HasDerivAt (fun t => grppElement (moveAtom D k t A) (moveAtom D k t B) (movePoint D k t o.2) o.1 x m n)
          (((if A.origin = D then 1 else 0) - if o.2 = D then 1 else 0) * braT (grppForm o.2 o.1) A B x k m n +
            ((if B.origin = D then 1 else 0) - if o.2 = D then 1 else 0) * ketT (grppForm o.2 o.1) A B x k m n) 0 := by
      intro o hm'
      have hl := (h.input A hA B hB o hm').lib
      have hd := (grppForm_interaction ho (hl.form ho) hl.made_bra.pos hl.made_ket.pos o.2).hasDerivAt D x k hm hn
      simp only [grppForm_basis, hat.iff (hat.on A hA) oD, hat.iff (hat.on B hB) oD, hat.iff (moleculeGrpps_on hm') oD] at hd
      simp only [moveAtom_eq, movePoint_eq]
      exact hd
    refine ⟨_, hasDerivAt_list_sum _ der, ?_⟩
    beta_reduce
    rw [e1, e2, e3]
    refine list_sum_close _ _ _ _ fun o hm' => ?_
    obtain ⟨b1, b2⟩ := (hT A B o hA hB hm').2.2.2 x k m n hm hn
    have w : ∀ (p r : Prop) [Decidable p] [Decidable r], |((if p then 1 else 0) - if r then 1 else 0 : ℝ)| ≤ 1 := by
      intro p r _ _
      by_cases hp : p <;> by_cases hr : r <;> simp [hp, hr]
    simp only [W]
    rw [add_sub_add_comm, ← mul_sub, ← mul_sub]
    refine (abs_add_le _ _).trans (add_le_add ?_ ?_)
    · rw [abs_mul]
      exact (mul_le_mul (w _ _) b1 (abs_nonneg _) zero_le_one).trans_eq (one_mul _)
    · rw [abs_mul]
      exact (mul_le_mul (w _ _) b2 (abs_nonneg _) zero_le_one).trans_eq (one_mul _)
  · intro hn x k p q hp hq
    have hA := (basisComps_mem2 (A := ((basisComps shells).getD p d).1) (m := ((basisComps shells).getD p d).2) (getD_of_lt hp d)).1
    have hB := (basisComps_mem2 (A := ((basisComps shells).getD q d).1) (m := ((basisComps shells).getD q d).2) (getD_of_lt hq d)).1
    have on : ∀ o ∈ moleculeGrpps atoms grpps, ∃ a ∈ atoms, o.2 = a.2 := fun o ho => moleculeGrpps_on ho
    simp only [W]
    generalize moleculeGrpps atoms grpps = l at on ⊢
    induction l with
    | nil => simp
    | cons o l ih =>
      simp only [List.map_cons, List.sum_cons]
      rw [Finset.sum_add_distrib, ih fun o ho => on o (by simp [ho]), add_zero, Finset.sum_add_distrib, ← Finset.sum_mul, ← Finset.sum_mul,
        Finset.sum_sub_distrib, Finset.sum_sub_distrib, sum_at_atom hn d' (hat.on _ hA), sum_at_atom hn d' (hat.on _ hB),
        sum_at_atom hn d' (on o (by simp))]
      ring
  · intro junk hj grads hG
    have hd := h.dim
    rw [basisComps_length] at hd
    have hG2 : ∀ x, ∀ m ∈ grads x, dimOf shells * dimOf shells ≤ m.length := fun x => by
      have := (hG x).1.2
      rwa [basisComps_length] at this
    obtain ⟨grads', e, r⟩ := evalGrppGrad_spec (W := W) (gen := lib.gen) (junk := junk)
      (full := fun g C S T M => fullGrpp (libKernels lib sf) lib.init S T g C M) (shells := shells) (atoms := atoms) (grpps := grpps)
      (fun A hA B hB io jo ia ir a ha o hm => by
        have oD : ∃ b ∈ atoms, a.2 = b.2 := ⟨a, ha, rfl⟩
        have oC := moleculeGrpps_on hm
        obtain ⟨G', e, v, -⟩ := grppGradient_adds ((hT A B o hA hB hm).2.2.1 (junk io jo ia ir) fun e =>
            hj.elim (fun h => absurd e (h io jo ia ir)) fun h => ⟨h A hA, h B hB⟩) o.2 a.2 (hat.separated (hat.on A hA) (hat.on B hB) oC oD)
          (fun _ => List.replicate (A.cart_size * B.cart_size) 0) fun _ => List.length_replicate.ge
        refine ⟨G', e, fun x k m n hm' hn' => ?_⟩
        rw [v x k m n hm' hn']
        simp only [hat.iff (hat.on A hA) oD, hat.iff (hat.on B hB) oD, hat.iff oC oD, W])
      h.charge hd grads (len := (grads 0).length) (fun x => ⟨(hG x).2, hG2 x⟩) (hG 0).1.1 d'
    exact ⟨grads', e, fun x => GradsIncreased.of_added (r x) (hG2 x) d⟩

/-- **C101 for s shells** (pseudopotentials), where the library does not read out of bounds. -/
theorem molecular_grpp_gradient_s (shells : List Shell) (atoms : List (Nat × Point)) (grpps : List (Option GrppData))
    (h : GradDriverInput lib.gen shells atoms grpps) (h0 : ∀ s ∈ shells, s.L = 0) (grads : Fin 4 → List (List ℝ))
    (hG : ∀ x, GradArrays atoms.length (basisComps shells).length (grads x) ∧ (grads x).length = (grads 0).length) :
    ∃ (Qb Qk : Shell → Shell → GrppData × Point → Shell → Potential → ℕ → ℕ → ℕ → ℝ) (V : Fin 4 → ℕ → Fin 3 → ℕ → ℕ → ℝ) (grads' : Fin 4 → List (List ℝ)),
      (∀ A ∈ shells, ∀ B ∈ shells, ∀ o ∈ moleculeGrpps atoms grpps, ∀ u ∈ o.1.arep ++ o.1.esop,
        (∀ S, IsDiff lib.gen A S → RadialTable lib S B o.2 u (Qb A B o S u)) ∧
        ∀ T, IsDiff lib.gen B T → RadialTable lib A T o.2 u (Qk A B o T u)) ∧
      evalGrppGrad lib.gen (fun _ _ _ _ => none) (fun g C S T M => fullGrpp (libKernels lib sf) lib.init S T g C M) shells atoms grpps grads = .ok grads' ∧
      (∀ x, GradsIncreased atoms.length (basisComps shells).length (V x) (grads x) (grads' x)) ∧
      ∀ a c D, atoms[a]? = some (c, D) → ∀ x k p q A m B n, (basisComps shells)[p]? = some (A, m) → (basisComps shells)[q]? = some (B, n) →
        ∃ d, HasDerivAt (fun t => ((moleculeGrpps atoms grpps).map fun o =>
            grppElement (moveAtom D k t A) (moveAtom D k t B) (movePoint D k t o.2) o.1 x m n).sum) d 0 ∧
          |V x a k p q - d| ≤ ((moleculeGrpps atoms grpps).map fun o =>
            diffErr lib.gen A (fun S i => grppErr S B o.2 o.1 (Qb A B o S) x i n) k m +
            diffErr lib.gen B (fun T i => grppErr A T o.2 o.1 (Qk A B o T) x m i) k n).sum := by
  obtain ⟨Qb, Qk, V, h1, h2, -, h3⟩ := molecular_grpp_gradient_partial lib hi hbt ho hs shells atoms grpps h
  obtain ⟨grads', e, r⟩ := h3 (fun _ _ _ _ => none) (Or.inr h0) grads hG
  exact ⟨Qb, Qk, V, grads', h1, e, r, h2⟩

end

/-- Whatever the shells, the gradient routine returns or has no defined result: it does not abort. If it returns, arrays which were longer than
needed still are. -/
theorem grppGradient_okUb_long {gen : Nat → List Comp} {full : FullRoutine} {A B : Shell} {junk : Option (Nat → ℝ)} (h : GradRuns gen full A B junk)
    (C D : Point) (G : Grads) {N : Fin 4 × Fin 3 → Nat} (hN : ∀ q, A.cart_size * B.cart_size ≤ N q) (hGN : ∀ q, N q ≤ (G q).length) :
    OkUb (fun G' : Grads => ∀ q, N q ≤ (G' q).length) (grppGradient gen none full A B C D G) := by
  have hG : ∀ q, A.cart_size * B.cart_size ≤ (G q).length := fun q => (hN q).trans (hGN q)
  obtain ⟨Tb, Tk, hm⟩ := h.mats
  obtain ⟨mb, eb, hb⟩ := hm.mats_bra
  obtain ⟨mk, ek, hk⟩ := hm.mats_ket
  obtain ⟨G0, e0, h0⟩ := memsetGrads_ok (A.cart_size * B.cart_size) G hG
  have hlen0 : ∀ k, N k ≤ (G0 k).length := fun k => by rw [(h0 k).2.1]; exact hGN k
  let P : Grads → Prop := fun G' => ∀ q, N q ≤ (G' q).length
  have hS : ∀ G, P G → ∀ q, A.cart_size * B.cart_size ≤ (G q).length := fun G h q => (hN q).trans (h q)
  have u1 : ∀ f G, P G → OkUb P (ggContribution gen none full A B true f G) := by
    intro f G hP
    rcases Nat.eq_zero_or_pos A.L with hL | hL
    · have hgd : decide (mb.sizeDown > 0) = true ↔ 0 < (if true = true then A else B).L := by simpa using hb.guard
      obtain ⟨G', e', c⟩ := ggLoops_ok h.order h.bra h.ket (junk := none) (fun hz => by have := hgd.1 hz; simp [hL] at this) hb hgd f (hS G hP)
      exact Or.inl ⟨G', by unfold ggContribution; rw [eb, Outcome.ok_bind, e'], fun q => by rw [(c.bra (Tk := Tk)).len]; exact hP q⟩
    · exact Or.inr (hm.contribution_bra_ub hL f (hS G hP))
  have u2 : ∀ f G, P G → OkUb P (ggContribution gen none full A B false f G) := by
    intro f G hP
    rcases Nat.eq_zero_or_pos B.L with hL | hL
    · have hgd : decide (mk.sizeDown > 0) = true ↔ 0 < (if false = true then A else B).L := by simpa using hk.guard
      obtain ⟨G', e', c⟩ := ggLoops_ok h.order h.bra h.ket (junk := none) (fun hz => by have := hgd.1 hz; simp [hL] at this) hk hgd f (hS G hP)
      exact Or.inl ⟨G', by unfold ggContribution; rw [ek, Outcome.ok_bind, e'], fun q => by rw [(c.ket (Tb := Tb)).len]; exact hP q⟩
    · exact Or.inr (hm.contribution_ket_ub hL f (hS G hP))
  have u3 : ∀ f G, P G → OkUb P (ggBraContribution gen none full A B f G) := by
    intro f G hP
    rcases Nat.eq_zero_or_pos A.L with hL | hL
    · have hgd : decide (A.L > 0) = true ↔ 0 < (if true = true then A else B).L := by simp
      obtain ⟨G', e', c⟩ := ggLoops_ok h.order h.bra h.ket (junk := none) (fun hz => by have := hgd.1 hz; simp [hL] at this) hb hgd f (hS G hP)
      exact Or.inl ⟨G', by unfold ggBraContribution; rw [eb, Outcome.ok_bind, e'], fun q => by rw [(c.bra (Tk := Tk)).len]; exact hP q⟩
    · exact Or.inr (hm.bra_contribution_ub hL f (hS G hP))
  have u4 : ∀ f G, P G → OkUb P (ggKetContribution gen none full A B f G) := by
    intro f G hP
    rcases Nat.eq_zero_or_pos B.L with hL | hL
    · have hgd : decide (B.L > 0) = true ↔ 0 < (if false = true then A else B).L := by simp
      obtain ⟨G', e', c⟩ := ggLoops_ok h.order h.bra h.ket (junk := none) (fun hz => by have := hgd.1 hz; simp [hL] at this) hk hgd f (hS G hP)
      exact Or.inl ⟨G', by unfold ggKetContribution; rw [ek, Outcome.ok_bind, e'], fun q => by rw [(c.ket (Tb := Tb)).len]; exact hP q⟩
    · refine Or.inr ?_
      unfold ggKetContribution
      rw [ek, Outcome.ok_bind, decide_eq_true hL]
      exact ggLoops_ub h.order h.bra h.ket hk (by simpa using hL) f (hS G hP)
  have oi : ∀ (c : Prop) [Decidable c] (f : Grads → Outcome Grads), (∀ G, P G → OkUb P (f G)) → ∀ G, P G → OkUb P (onlyIf c f G) := by
    intro c _ f hf G hP
    unfold onlyIf
    split_ifs
    · exact hf G hP
    · exact Or.inl ⟨G, rfl, hP⟩
  unfold grppGradient
  rw [e0, Outcome.ok_bind]
  by_cases c1 : pointsAreEqual A.origin C ∧ pointsAreEqual B.origin C
  · rw [if_pos c1]
    exact Or.inl ⟨G0, rfl, hlen0⟩
  rw [if_neg c1]
  by_cases c2 : ¬ pointsAreEqual A.origin D ∧ ¬ pointsAreEqual B.origin D ∧ ¬ pointsAreEqual C D
  · rw [if_pos c2]
    exact Or.inl ⟨G0, rfl, hlen0⟩
  rw [if_neg c2]
  refine (oi _ _ (fun G hP => ?_) G0 hlen0).bind fun G hP => ?_
  · refine (oi _ _ (u1 1) G hP).bind fun G hP => (oi _ _ (u2 1) G hP).bind fun G hP => oi _ _ (fun G hP => ?_) G hP
    exact (u1 (-1) G hP).bind fun G hP => u2 (-1) G hP
  refine (oi _ _ (fun G hP => ?_) G hP).bind fun G hP => ?_
  · split_ifs
    · exact (u3 1 G hP).bind fun G hP => u4 1 G hP
    · exact (u3 (-1) G hP).bind fun G hP => u4 (-1) G hP
  refine (oi _ _ (fun G hP => ?_) G hP).bind fun G hP => oi _ _ (fun G hP => ?_) G hP
  · split_ifs
    · exact u1 1 G hP
    · exact u1 (-1) G hP
  · split_ifs
    · exact u2 1 G hP
    · exact u2 (-1) G hP

theorem grppGradient_okUb {gen : Nat → List Comp} {full : FullRoutine} {A B : Shell} {junk : Option (Nat → ℝ)} (h : GradRuns gen full A B junk)
    (C D : Point) (G : Grads) (hG : ∀ q, A.cart_size * B.cart_size ≤ (G q).length) :
    OkUb (fun G' : Grads => ∀ q, A.cart_size * B.cart_size ≤ (G' q).length) (grppGradient gen none full A B C D G) :=
  grppGradient_okUb_long h C D G (fun _ => le_rfl) hG

section
variable {G : Type} (lib : Lib G) (hi : lib.init = true) (hbt : BesselOk lib.bt) (ho : DocumentedOrder lib.gen) {eps : ℝ}
  {sf : SpecFun} (hs : LibSpec eps sf)
include hi hbt ho hs

/-- **C101 is false without the assumption on out-of-bounds reads**: the driver's gradient of the pseudopotential matrices has no defined result for any
molecule in which a shell of `L > 0` sits on an atom other than that of a pseudopotential. -/
theorem molecular_grpp_gradient_undefined (shells : List Shell) (atoms : List (Nat × Point)) (grpps : List (Option GrppData))
    (h : GradDriverInput lib.gen shells atoms grpps) (A : Shell) (hA : A ∈ shells) (hL : 0 < A.L) (o : GrppData × Point)
    (hm : o ∈ moleculeGrpps atoms grpps) (hoA : A.origin ≠ o.2) (grads : Fin 4 → List (List ℝ))
    (hG : ∀ x, GradArrays atoms.length (basisComps shells).length (grads x) ∧ (grads x).length = (grads 0).length) :
    evalGrppGrad lib.gen (fun _ _ _ _ => none) (fun g C S T M => fullGrpp (libKernels lib sf) lib.init S T g C M) shells atoms grpps grads = .ub := by
  have hat := h.atoms_ok
  have hd := h.dim
  rw [basisComps_length] at hd
  have hG2 : ∀ x, ∀ m ∈ grads x, dimOf shells * dimOf shells ≤ m.length := fun x => by
    have := (hG x).1.2
    rwa [basisComps_length] at this
  have hG1 := (hG 0).1.1
  let I : (Fin 4 → List (List ℝ)) → Prop := fun g => ∀ x, GradsOk (grads 0).length (dimOf shells) (g x)
  let one : Nat → Nat → Shell → Shell → Nat → Nat → (Fin 4 → List (List ℝ)) → Outcome (Fin 4 → List (List ℝ)) := fun io jo S T ia ir s => do
    let atom ← rd atoms ia
    let centre ← rd atoms ir
    let g ← rd grpps centre.1
    match g with
    | none => .ok s
    | some g =>
      let buf : Grads := fun _ => List.replicate (S.cart_size * T.cart_size) 0
      let b ← grppGradient lib.gen none (fun S T M => fullGrpp (libKernels lib sf) lib.init S T g centre.2 M) S T centre.2 atom.2 buf
      addGrads4 (dimOf shells) s S.cart_size T.cart_size b io jo ia 1
  have centre : ∀ ir (hir : ir < atoms.length), rd grpps atoms[ir].1 = .ok (grpps.getD atoms[ir].1 none) := by
    intro ir hir
    have := h.charge _ (List.getElem_mem hir)
    rw [rd_ok this]
    simp [List.getD, this]
  have step : ∀ S ∈ shells, ∀ T ∈ shells, ∀ io jo, io + S.cart_size ≤ dimOf shells → jo + T.cart_size ≤ dimOf shells → ∀ ia < atoms.length,
      ∀ ir < atoms.length, ∀ s, I s → OkUb I (one io jo S T ia ir s) := by
    intro S hS T hT io jo h1 h2 ia hia ir hir s hI
    simp only [one]
    rw [rd_ok hia, Outcome.ok_bind, rd_ok hir, Outcome.ok_bind, centre ir hir, Outcome.ok_bind]
    cases hg : grpps.getD atoms[ir].1 none with
    | none => exact Or.inl ⟨s, rfl, hI⟩
    | some g =>
      have hm' : (g, atoms[ir].2) ∈ moleculeGrpps atoms grpps := by
        simp only [moleculeGrpps, List.mem_filterMap]
        exact ⟨atoms[ir], List.getElem_mem hir, by rw [hg]; rfl⟩
      refine (grppGradient_okUb (gradLib_runs lib hi hbt ho hs (h.input S hS T hT _ hm') (some fun _ => 0) (by simp)) atoms[ir].2 atoms[ia].2
        (fun _ => List.replicate (S.cart_size * T.cart_size) 0) fun _ => List.length_replicate.ge).bind fun b hb => ?_
      have hb' : ∀ q k, MatIs S.cart_size T.cart_size (b (q, k)) fun m n => (b (q, k)).getD (m * T.cart_size + n) 0 := by
        intro q k m n hm hn
        have : m * T.cart_size + n < (b (q, k)).length := (rowMajor_lt hm hn).trans_le (hb _)
        simp [List.getD, this]
      obtain ⟨s', e, hI', -⟩ := addGrads4_spec hd h1 h2 hb' 1 s hI (ia := ia) (by omega)
      exact Or.inl ⟨s', e, hI'⟩
  unfold evalGrppGrad
  rw [basisDim_eq, Outcome.ok_bind]
  -- one iteration of the loop over atoms
  have row : ∀ S ∈ shells, ∀ T ∈ shells, ∀ io jo, io + S.cart_size ≤ dimOf shells → jo + T.cart_size ≤ dimOf shells → ∀ ia < atoms.length, ∀ s, I s →
      OkUb I (forRange atoms.length s (one io jo S T ia)) ∧
      ∀ ir < atoms.length, (∀ s, I s → one io jo S T ia ir s = .ub) → forRange atoms.length s (one io jo S T ia) = .ub := by
    intro S hS T hT io jo h1 h2 ia hia s hI
    have := forRange_okUb (n := atoms.length) (s := s) (body := one io jo S T ia) (fun _ => I) hI fun ir s hir hI =>
      step S hS T hT io jo h1 h2 ia hia ir hir s hI
    exact this
  have body : ∀ io jo S T ia s, ia < atoms.length → (do
      let atom ← rd atoms ia
      forRange atoms.length s fun ir grads => do
        let centre ← rd atoms ir
        let g ← rd grpps centre.1
        match g with
        | none => Outcome.ok grads
        | some g =>
          let buf : Grads := fun _ => List.replicate (S.cart_size * T.cart_size) 0
          let b ← grppGradient lib.gen none (fun S T M => fullGrpp (libKernels lib sf) lib.init S T g centre.2 M) S T centre.2 atom.2 buf
          addGrads4 (dimOf shells) grads S.cart_size T.cart_size b io jo ia 1) = forRange atoms.length s (one io jo S T ia) := by
    intro io jo S T ia s hia
    rw [rd_ok hia, Outcome.ok_bind]
    congr 1
    funext ir g
    simp only [one]
    rw [rd_ok hia, Outcome.ok_bind]
  refine forShellPairs_ub shells I grads (fun x => ⟨(hG x).2, hG2 x⟩) (fun S hS T hT io jo s h1 h2 hI => ?_) hA hA (fun io jo s h1 h2 hI => ?_)
  · refine (forRange_okUb (fun _ => I) hI fun ia s hia hI => ?_).1
    have := (row S hS T hT io jo h1 h2 ia hia s hI).1
    rw [← body io jo S T ia s hia] at this
    exact this
  · obtain ⟨a, ha, ea⟩ := hat.on A hA
    obtain ⟨ia, hia, rfl⟩ := List.mem_iff_getElem.1 ha
    refine (forRange_okUb (fun _ => I) hI fun ia s hia hI => ?_).2 ia hia fun s hI => ?_
    · have := (row A hA A hA io jo h1 h2 ia hia s hI).1
      rw [← body io jo A A ia s hia] at this
      exact this
    · have hm' := hm
      simp only [moleculeGrpps, List.mem_filterMap, Option.map_eq_some_iff] at hm'
      obtain ⟨b, hb, g, hg, rfl⟩ := hm'
      obtain ⟨ir, hir, rfl⟩ := List.mem_iff_getElem.1 hb
      have := (row A hA A hA io jo h1 h2 ia hia s hI).2 ir hir fun s hI => by
        simp only [one]
        rw [rd_ok hia, Outcome.ok_bind, rd_ok hir, Outcome.ok_bind, centre ir hir, Outcome.ok_bind, hg]
        simp only []
        rw [full_gradient_undefined lib hi hbt ho hs (h.input A hA A hA _ hm) hL hL atoms[ia].2 _ (fun _ => List.length_replicate.ge)
          (fun hc => hoA ((hat.iff (hat.on A hA) ⟨atoms[ir], hb, rfl⟩).1 hc.1)) (Or.inl (by rw [ea]; exact points_equal_refl _))]
        rfl
      rw [← body io jo A A ia s hia] at this
      exact this

end

/-! ## Concrete cases -/

/-- A `p` shell and an `s` shell on two atoms. -/
theorem atomsOk_example : AtomsOk [exampleShell, sShell] [(2, fun _ => 0), (1, exampleShell.origin)] := by
  have ne : ¬ pointsAreEqual exampleShell.origin (fun _ => 0) := by unfold pointsAreEqual exampleShell; norm_num
  refine ⟨fun s hs => ?_, fun a ha b hb h => ?_⟩
  · simp only [List.mem_cons, List.not_mem_nil, or_false] at hs
    rcases hs with rfl | rfl
    · exact ⟨(1, exampleShell.origin), by simp, rfl⟩
    · exact ⟨(2, fun _ => 0), by simp, rfl⟩
  · simp only [List.mem_cons, List.not_mem_nil, or_false] at ha hb
    rcases ha with rfl | rfl <;> rcases hb with rfl | rfl
    · rfl
    · exact absurd (points_equal_symm h) ne
    · exact absurd h ne
    · rfl

theorem example_basis : (basisComps [exampleShell, sShell]).length = 4 := by rw [basisComps_length]; simp [dimOf, exampleShell, sShell]

theorem gradDriverInput_example : GradDriverInput cartesianDirac [exampleShell, sShell] [(2, fun _ => 0), (1, exampleShell.origin)]
    [none, none, some grppExample] := by
  have hops : moleculeGrpps [(2, fun _ => 0), (1, exampleShell.origin)] [none, none, some grppExample] = [(grppExample, fun _ => 0)] := rfl
  refine ⟨fun A hA B hB o hm => ?_, atomsOk_example, driverInput_example.charge, by rw [example_basis]; norm_num⟩
  rw [hops, List.mem_singleton] at hm
  subst hm
  simp only [List.mem_cons, List.not_mem_nil, or_false] at hA hB
  rcases hA with rfl | rfl <;> rcases hB with rfl | rfl
  · exact gradInput_pp
  · exact gradInput_example
  · exact ⟨gradInput_example.made_ket, gradInput_example.made_bra, gradInput_example.L_ket, gradInput_example.L_bra, gradInput_example.num_ket,
      gradInput_example.num_bra, gradInput_example.kept_ket, gradInput_example.kept_bra,
      Or.inr ⟨exampleFar.2.1, exampleFar.1, fun h => exampleFar.2.2 ⟨h.2, h.1⟩⟩,
      grppExample_up _ _ (by simp [sShell]) (by simp [exampleShell]) _, grppExample_up _ _ (by simp [sShell]) (by simp [exampleShell]) _⟩
  · exact gradInput_centre

/-- The two atoms of the example are at different positions, so that the last conclusion of the theorems is not empty. -/
example : (([(2, fun _ => 0), (1, exampleShell.origin)] : List (Nat × Point)).map Prod.snd).Nodup := by
  have ne : ¬ (fun _ => 0) = exampleShell.origin := fun h => by
    have := congrFun h 1
    simp [exampleShell] at this
  simpa using ne

/-- The overlap gradient of the example, for any contents of the six matrices; a seventh one is left alone. -/
example (junk : ℕ → ℝ) (grad : List (List ℝ)) (hl : grad.length = 7) (hm : ∀ m ∈ grad, m.length = 16) :
    ∃ grad', evalOverlapGrad cartesianDirac (fun _ _ _ => some junk) [exampleShell, sShell] [(2, fun _ => 0), (1, exampleShell.origin)] grad = .ok grad' ∧
      grad'[6]? = grad[6]? := by
  obtain ⟨V, -, -, h⟩ := molecular_overlap_gradient_partial cartesianDirac (Or.inl rfl) [exampleShell, sShell] [(2, fun _ => 0), (1, exampleShell.origin)]
    (fun s hs => by
      simp only [List.mem_cons, List.not_mem_nil, or_false] at hs
      rcases hs with rfl | rfl
      · exact ⟨exampleShell_made, by simp [exampleShell]⟩
      · exact ⟨sShell_usable.made, by simp [sShell]⟩) atomsOk_example (by rw [example_basis]; norm_num)
  obtain ⟨grad', e, r⟩ := h (fun _ _ _ => some junk) (Or.inl fun _ _ _ => by simp) grad
    ⟨by rw [hl]; simp, fun m h' => by rw [hm m h', example_basis]⟩
  exact ⟨grad', e, r.other 6 (by simp)⟩

/-- Without the assumption it has no defined result. -/
example (grad : List (List ℝ)) (hl : grad.length = 6) (hm : ∀ m ∈ grad, m.length = 16) :
    evalOverlapGrad cartesianDirac (fun _ _ _ => none) [exampleShell, sShell] [(2, fun _ => 0), (1, exampleShell.origin)] grad = .ub := by
  refine molecular_overlap_gradient_undefined cartesianDirac (Or.inl rfl) _ _ (fun s hs => by
      simp only [List.mem_cons, List.not_mem_nil, or_false] at hs
      rcases hs with rfl | rfl
      · exact ⟨exampleShell_made, by simp [exampleShell]⟩
      · exact ⟨sShell_usable.made, by simp [sShell]⟩) atomsOk_example (by rw [example_basis]; norm_num) grad
    ⟨by rw [hl]; simp, fun m h' => by rw [hm m h', example_basis]⟩ exampleShell sShell (by simp) (by simp) (by simp [exampleShell]) fun h => ?_
  have := congrFun h 1
  simp [exampleShell, sShell] at this

/-- Two s shells on two atoms: no assumption on out-of-bounds reads. -/
example (grad : List (List ℝ)) (hl : grad.length = 6) (hm : ∀ m ∈ grad, m.length = 4) :
    ∃ grad', evalOverlapGrad cartesianDirac (fun _ _ _ => none) [exampleS, sShell] [(1, fun _ => 0), (1, exampleS.origin)] grad = .ok grad' := by
  have hb : (basisComps [exampleS, sShell]).length = 2 := by rw [basisComps_length]; simp [dimOf, exampleS, sShell]
  have ne : ¬ pointsAreEqual exampleS.origin (fun _ => 0) := by unfold pointsAreEqual exampleS; norm_num
  obtain ⟨V, grad', e, -⟩ := molecular_overlap_gradient_s cartesianDirac (Or.inl rfl) [exampleS, sShell] [(1, fun _ => 0), (1, exampleS.origin)]
    (fun s hs => by
      simp only [List.mem_cons, List.not_mem_nil, or_false] at hs
      rcases hs with rfl | rfl
      · exact ⟨exampleS_made, by simp [exampleS]⟩
      · exact ⟨sShell_usable.made, by simp [sShell]⟩)
    ⟨fun s hs => by
      simp only [List.mem_cons, List.not_mem_nil, or_false] at hs
      rcases hs with rfl | rfl
      · exact ⟨(1, exampleS.origin), by simp, rfl⟩
      · exact ⟨(1, fun _ => 0), by simp, rfl⟩,
     fun a ha b hb h => by
      simp only [List.mem_cons, List.not_mem_nil, or_false] at ha hb
      rcases ha with rfl | rfl <;> rcases hb with rfl | rfl
      · rfl
      · exact absurd (points_equal_symm h) ne
      · exact absurd h ne
      · rfl⟩ (by rw [hb]; norm_num) grad ⟨by rw [hl]; simp, fun m h' => by rw [hm m h', hb]⟩
  exact ⟨grad', e⟩

/-- The gradient of the pseudopotential matrices of the example. -/
example (prm : LibParams ℕ) (screen : Screen) (junk : ℕ → ℝ) (grads : Fin 4 → List (List ℝ)) (hl : ∀ x, (grads x).length = 6)
    (hm : ∀ x, ∀ m ∈ grads x, m.length = 16) :
    ∃ (bt : BesselTab) (sf : SpecFun), (∃ grads', evalGrppGrad cartesianDirac (fun _ _ _ _ => some junk)
        (fun g C S T M => fullGrpp (libKernels ⟨true, prm, bt, cartesianDirac, screen⟩ sf) true S T g C M)
        [exampleShell, sShell] [(2, fun _ => 0), (1, exampleShell.origin)] [none, none, some grppExample] grads = .ok grads') ∧
      evalGrppGrad cartesianDirac (fun _ _ _ _ => none)
        (fun g C S T M => fullGrpp (libKernels ⟨true, prm, bt, cartesianDirac, screen⟩ sf) true S T g C M)
        [exampleShell, sShell] [(2, fun _ => 0), (1, exampleShell.origin)] [none, none, some grppExample] grads = .ub := by
  have he : LdblEps (1 / 2 ^ 63) := ⟨by norm_num, by norm_num⟩
  obtain ⟨d, hd⟩ := dawson_total he
  obtain ⟨bt, -, hbt⟩ := type2_tables besselTab0
  have hG : ∀ x, GradArrays 2 (basisComps [exampleShell, sShell]).length (grads x) ∧ (grads x).length = (grads 0).length := fun x =>
    ⟨⟨by rw [hl], fun m h' => by rw [hm x m h', example_basis]⟩, by rw [hl, hl]⟩
  obtain ⟨Qb, Qk, V, -, -, -, h⟩ := molecular_grpp_gradient_partial (⟨true, prm, bt, cartesianDirac, screen⟩ : Lib ℕ) rfl hbt (Or.inl rfl)
    (sf := ⟨boysLiteral, d⟩) ⟨he, rfl, hd⟩ _ _ _ gradDriverInput_example
  obtain ⟨grads', e, -⟩ := h (fun _ _ _ _ => some junk) (Or.inl fun _ _ _ _ => by simp) grads hG
  refine ⟨bt, _, ⟨grads', e⟩, molecular_grpp_gradient_undefined (⟨true, prm, bt, cartesianDirac, screen⟩ : Lib ℕ) rfl hbt (Or.inl rfl)
    (sf := ⟨boysLiteral, d⟩) ⟨he, rfl, hd⟩ _ _ _ gradDriverInput_example exampleShell (by simp) (by simp [exampleShell]) (grppExample, fun _ => 0)
    (by simp [moleculeGrpps]) (fun h => ?_) grads hG⟩
  have := congrFun h 1
  simp [exampleShell] at this

end Libgrpp
