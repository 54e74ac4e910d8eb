import Verif.Lemmas.DriverGrpp
import Verif.Model.DriverGradient
import Verif.Lemmas.OverlapGradient
import Mathlib.Analysis.Calculus.Deriv.Add

/-! # Lemmas about the gradients of molecular matrices -/

namespace Libgrpp

/-- An array of `len` matrices of dimension `dim`. -/
def GradsOk (len dim : Nat) (grad : List (List ℝ)) : Prop := grad.length = len ∧ ∀ m ∈ grad, dim * dim ≤ m.length

theorem addGrad1_spec {dim bd1 bd2 io jo : Nat} (hd : dim * dim ≤ intMax + 1) (h1 : io + bd1 ≤ dim) (h2 : jo + bd2 ≤ dim)
    {b : List ℝ} {g : Nat → Nat → ℝ} (hb : MatIs bd1 bd2 b g) (factor : ℝ) {len : Nat} (grad : List (List ℝ)) (hG : GradsOk len dim grad)
    {x : Nat} (hx : x < len) :
    ∃ grad', (do let m ← rd grad x
                 let m ← addBlock dim m bd1 bd2 b io jo factor
                 wr grad x m) = .ok grad' ∧ GradsOk len dim grad' ∧
      ∀ y, Added dim (fun p q => if y = x then blockAt io jo bd1 bd2 (fun m n => factor * g m n) p q else 0) (grad.getD y []) (grad'.getD y []) := by
  have hx' : x < grad.length := by rw [hG.1]; exact hx
  obtain ⟨M', e, a⟩ := addBlock_spec hd h1 h2 hb factor grad[x] (hG.2 _ (List.getElem_mem hx'))
  refine ⟨grad.set x M', ?_, ⟨by simp [hG.1], fun m hm => ?_⟩, fun y => ?_⟩
  · rw [rd_ok hx', Outcome.ok_bind, e, Outcome.ok_bind]
    simp [wr, hx']
  · rcases List.mem_or_eq_of_mem_set hm with h | h
    · exact hG.2 m h
    · rw [h, a.len]; exact hG.2 _ (List.getElem_mem hx')
  · by_cases hy : y = x
    · subst hy
      have e1 : grad.getD y [] = grad[y] := by simp [List.getD, hx']
      have e2 : (grad.set y M').getD y [] = M' := by simp [List.getD, hx']
      rw [e1, e2]
      exact a.congr fun p q _ _ => by simp
    · have e2 : (grad.set x M').getD y [] = grad.getD y [] := by
        simp [List.getD, List.getElem?_set_ne (Ne.symm hy)]
      rw [e2]
      exact (Added.refl _ _).congr fun p q _ _ => by simp [hy]

/-- The three matrices of an atom get their blocks, the others stay. -/
theorem addGrads_spec {dim bd1 bd2 io jo : Nat} (hd : dim * dim ≤ intMax + 1) (h1 : io + bd1 ≤ dim) (h2 : jo + bd2 ≤ dim)
    {b : Fin 3 → List ℝ} {g : Fin 3 → Nat → Nat → ℝ} (hb : ∀ k, MatIs bd1 bd2 (b k) (g k)) (factor : ℝ) {len : Nat} (grad : List (List ℝ))
    (hG : GradsOk len dim grad) {ia : Nat} (hia : 3 * ia + 3 ≤ len) :
    ∃ grad', addGrads dim grad bd1 bd2 b io jo ia factor = .ok grad' ∧ GradsOk len dim grad' ∧
      ∀ (a : Nat) (k : Fin 3), Added dim (fun p q => if a = ia then blockAt io jo bd1 bd2 (fun m n => factor * g k m n) p q else 0)
        (grad.getD (3 * a + k) []) (grad'.getD (3 * a + k) []) := by
  obtain ⟨g0, e0, o0, a0⟩ := addGrad1_spec hd h1 h2 (hb 0) factor grad hG (x := 3 * ia + (0 : Fin 3)) (by simp; omega)
  obtain ⟨g1, e1, o1, a1⟩ := addGrad1_spec hd h1 h2 (hb 1) factor g0 o0 (x := 3 * ia + (1 : Fin 3)) (by simp; omega)
  obtain ⟨g2, e2, o2, a2⟩ := addGrad1_spec hd h1 h2 (hb 2) factor g1 o1 (x := 3 * ia + (2 : Fin 3)) (by simp; omega)
  refine ⟨g2, ?_, o2, fun a k => ?_⟩
  · unfold addGrads forCoord
    simp only [e0, Outcome.ok_bind, e1, e2]
  · have key : ∀ j : Fin 3, (3 * a + (k : Nat) = 3 * ia + (j : Nat)) = (a = ia ∧ k = j) := fun j => by
      rw [Fin.ext_iff, eq_iff_iff]; omega
    refine (((a0 (3 * a + k)).trans (a1 (3 * a + k))).trans (a2 (3 * a + k))).congr fun p q _ _ => ?_
    simp only [key]
    fin_cases k <;> by_cases h : a = ia <;> simp [h]

theorem addGrads4_spec {dim bd1 bd2 io jo : Nat} (hd : dim * dim ≤ intMax + 1) (h1 : io + bd1 ≤ dim) (h2 : jo + bd2 ≤ dim)
    {b : Grads} {g : Fin 4 → Fin 3 → Nat → Nat → ℝ} (hb : ∀ q k, MatIs bd1 bd2 (b (q, k)) (g q k)) (factor : ℝ) {len : Nat}
    (grads : Fin 4 → List (List ℝ)) (hG : ∀ q, GradsOk len dim (grads q)) {ia : Nat} (hia : 3 * ia + 3 ≤ len) :
    ∃ grads', addGrads4 dim grads bd1 bd2 b io jo ia factor = .ok grads' ∧ (∀ q, GradsOk len dim (grads' q)) ∧
      ∀ (x : Fin 4 × Nat × Fin 3), Added dim (fun p q => if x.2.1 = ia then blockAt io jo bd1 bd2 (fun m n => factor * g x.1 x.2.2 m n) p q else 0)
        ((grads x.1).getD (3 * x.2.1 + x.2.2) []) ((grads' x.1).getD (3 * x.2.1 + x.2.2) []) := by
  choose l e o a using fun q => addGrads_spec hd h1 h2 (hb q) factor (grads q) (hG q) hia
  refine ⟨l, ?_, o, fun x => a x.1 x.2.1 x.2.2⟩
  unfold addGrads4 forFour
  beta_reduce
  rw [e 0, Outcome.ok_bind, Outcome.ok_bind, Function.update_of_ne (by decide), e 1, Outcome.ok_bind, Outcome.ok_bind,
    Function.update_of_ne (by decide), Function.update_of_ne (by decide), e 2, Outcome.ok_bind, Outcome.ok_bind,
    Function.update_of_ne (by decide), Function.update_of_ne (by decide), Function.update_of_ne (by decide), e 3, Outcome.ok_bind]
  congr 1
  funext q
  fin_cases q <;> simp [Function.update]

/-- A matrix to which nothing has been added is the same matrix. -/
theorem Added.eq {dim : Nat} {M M' : List ℝ} (h : Added dim (fun _ _ => 0) M M') : M' = M := by
  refine List.ext_getElem? fun x => ?_
  rcases Nat.lt_or_ge x (dim * dim) with hx | hx
  · have hN : 0 < dim := Nat.pos_of_ne_zero fun h => by simp [h] at hx
    have := h.val _ _ (Nat.div_lt_of_lt_mul hx) (Nat.mod_lt x hN)
    rw [Nat.mul_comm, Nat.div_add_mod] at this
    simpa using this
  · exact h.same x hx

theorem blockAt_if (io jo b1 b2 : Nat) (P : Prop) [Decidable P] (f : Nat → Nat → ℝ) (p q : Nat) :
    (if P then blockAt io jo b1 b2 f p q else 0) = blockAt io jo b1 b2 (fun m n => if P then f m n else 0) p q := by
  unfold blockAt
  by_cases h : P <;> simp [h]

theorem blockAt_fsum (io jo b1 b2 : Nat) (n : Nat) (f : Nat → Nat → Nat → ℝ) (p q : Nat) :
    ∑ i ∈ Finset.range n, blockAt io jo b1 b2 (f i) p q = blockAt io jo b1 b2 (fun m k => ∑ i ∈ Finset.range n, f i m k) p q := by
  unfold blockAt
  split_ifs <;> simp

/-- What an array of gradients has got after a run: each matrix of atom `a` and coordinate `k` the blocks `E a k` of all pairs of shells; the
others are unchanged. -/
structure GradAdded (shells : List Shell) (natoms : Nat) (E : Nat → Fin 3 → Shell → Shell → Nat → Nat → ℝ) (grad grad' : List (List ℝ)) : Prop where
  len : grad'.length = grad.length
  other : ∀ x, 3 * natoms ≤ x → grad'[x]? = grad[x]?
  elem : ∀ a < natoms, ∀ k : Fin 3, ∃ M M', grad[3 * a + (k : Nat)]? = some M ∧ grad'[3 * a + (k : Nat)]? = some M' ∧
    SameBeyond (dimOf shells * dimOf shells) M' M ∧
    ∀ i j m n, (hi : i < shells.length) → (hj : j < shells.length) → m < shells[i].cart_size → n < shells[j].cart_size →
      M'[(shellOff shells i + m) * dimOf shells + (shellOff shells j + n)]? =
        M[(shellOff shells i + m) * dimOf shells + (shellOff shells j + n)]?.map (· + E a k shells[i] shells[j] m n)

theorem getD_of_lt {α : Type} {l : List α} {x : Nat} (h : x < l.length) (d : α) : l[x]? = some (l.getD x d) := by
  simp [List.getD, h]

theorem GradAdded.of_added {shells : List Shell} {s0 : Shell} {natoms len : Nat} {E : Nat → Fin 3 → Shell → Shell → Nat → Nat → ℝ}
    {grad grad' : List (List ℝ)} (hG : GradsOk len (dimOf shells) grad) (hG' : GradsOk len (dimOf shells) grad') (hlen : 3 * natoms ≤ len)
    (h : ∀ (a : Nat) (k : Fin 3), Added (dimOf shells) (fun p q => ∑ x ∈ Finset.range shells.length, ∑ y ∈ Finset.range shells.length,
        blockAt (shellOff shells x) (shellOff shells y) (shells.getD x s0).cart_size (shells.getD y s0).cart_size
          (fun m n => if a < natoms then E a k (shells.getD x s0) (shells.getD y s0) m n else 0) p q)
        (grad.getD (3 * a + k) []) (grad'.getD (3 * a + k) [])) : GradAdded shells natoms E grad grad' := by
  refine ⟨hG'.1.trans hG.1.symm, fun x hx => ?_, fun a ha k => ?_⟩
  · rcases Nat.lt_or_ge x len with hl | hl
    · have hdm := h (x / 3) ⟨x % 3, Nat.mod_lt _ (by norm_num)⟩
      rw [show 3 * (x / 3) + ((⟨x % 3, Nat.mod_lt _ (by norm_num)⟩ : Fin 3) : Nat) = x from Nat.div_add_mod x 3] at hdm
      have hz : Added (dimOf shells) (fun _ _ => 0) (grad.getD x []) (grad'.getD x []) := hdm.congr fun p q _ _ => by
        refine Finset.sum_eq_zero fun i _ => Finset.sum_eq_zero fun j _ => ?_
        have hx3 : ¬ x / 3 < natoms := by omega
        unfold blockAt
        simp only [if_neg hx3, ite_self]
      rw [getD_of_lt (by rw [hG'.1]; exact hl) [], getD_of_lt (by rw [hG.1]; exact hl) [], hz.eq]
    · rw [List.getElem?_eq_none (by rw [hG'.1]; exact hl), List.getElem?_eq_none (by rw [hG.1]; exact hl)]
  · have hk := k.isLt
    refine ⟨_, _, getD_of_lt (by rw [hG.1]; omega) [], getD_of_lt (by rw [hG'.1]; omega) [], ⟨(h a k).len, (h a k).same⟩,
      fun i j m n hi hj hm hn => ?_⟩
    rw [added_elements (E := fun A B m n => if a < natoms then E a k A B m n else 0) (h a k) hi hj hm hn, if_pos ha]

theorem sum_range_if (n a : Nat) (f : Nat → ℝ) : ∑ i ∈ Finset.range n, (if a = i then f i else 0) = if a < n then f a else 0 := by
  rw [Finset.sum_ite_eq]
  simp

/-- The overlap gradient of a molecule, for all values `W` which the library routine returns for pairs of shells. -/
theorem evalOverlapGrad_spec {gen : Nat → List Comp} {junk : Nat → Nat → Nat → Option (Nat → ℝ)} {shells : List Shell} {atoms : List (Nat × Point)}
    {W : Shell → Shell → Point → Fin 3 → Nat → Nat → ℝ}
    (hrun : ∀ A ∈ shells, ∀ B ∈ shells, ∀ io jo ia, ∀ a ∈ atoms, ∀ G : Fin 3 → List ℝ, (∀ k, A.cart_size * B.cart_size ≤ (G k).length) →
      ∃ G', overlapGradient gen (junk io jo ia) A B a.2 G = .ok (A.cartInts, G') ∧
        ∀ k, A.cart_size * B.cart_size ≤ (G' k).length ∧ MatIs A.cart_size B.cart_size (G' k) (W A B a.2 k))
    (hd : dimOf shells * dimOf shells ≤ intMax + 1) {len : Nat} (grad : List (List ℝ)) (hG : GradsOk len (dimOf shells) grad)
    (hlen : 3 * atoms.length ≤ len) (d : Nat × Point) :
    ∃ grad', evalOverlapGrad gen junk shells atoms grad = .ok grad' ∧
      GradAdded shells atoms.length (fun a k A B => W A B (atoms.getD a d).2 k) grad grad' := by
  obtain ⟨r, e, hr, a⟩ := forShellPairs_spec (κ := Nat × Fin 3) shells ⟨0, fun _ => 0, 0, [], 0, [], []⟩
    (body := fun io jo bra ket (grad : List (List ℝ)) => do
      let r ← forRange atoms.length ((fun _ => List.replicate (bra.cart_size * ket.cart_size) 0 : Fin 3 → List ℝ), grad) fun ia st => do
        let atom ← rd atoms ia
        let og ← overlapGradient gen (junk io jo ia) bra ket atom.2 st.1
        Outcome.valid (og.1 = bra.cartInts)
        let grad ← addGrads (dimOf shells) st.2 bra.cart_size ket.cart_size og.2 io jo ia 1
        Outcome.ok (og.2, grad)
      Outcome.ok r.2)
    (fun grad => GradsOk len (dimOf shells) grad) (fun x grad => grad.getD (3 * x.1 + x.2) [])
    (fun x A B m n => if x.1 < atoms.length then W A B (atoms.getD x.1 d).2 x.2 m n else 0) grad hG (by
      rintro A hA B hB io jo grad h1 h2 hG
      obtain ⟨r, e, hr, a⟩ := added_loop (κ := Nat × Fin 3) (dim := dimOf shells) (n := atoms.length)
        (body := fun ia (st : (Fin 3 → List ℝ) × List (List ℝ)) => do
          let atom ← rd atoms ia
          let og ← overlapGradient gen (junk io jo ia) A B atom.2 st.1
          Outcome.valid (og.1 = A.cartInts)
          let grad ← addGrads (dimOf shells) st.2 A.cart_size B.cart_size og.2 io jo ia 1
          Outcome.ok (og.2, grad))
        (fun _ st => (∀ k, A.cart_size * B.cart_size ≤ (st.1 k).length) ∧ GradsOk len (dimOf shells) st.2)
        (fun x st => st.2.getD (3 * x.1 + x.2) [])
        (fun x ia p q => blockAt io jo A.cart_size B.cart_size (fun m n => if x.1 = ia then W A B (atoms.getD ia d).2 x.2 m n else 0) p q)
        (fun _ => List.replicate (A.cart_size * B.cart_size) 0, grad) ⟨fun _ => List.length_replicate.ge, hG⟩ (by
          rintro ia ⟨buf, grad⟩ hia ⟨hb, hG⟩
          have hat : atoms.getD ia d = atoms[ia] := by simp [List.getD, hia]
          obtain ⟨G', e1, hG'⟩ := hrun A hA B hB io jo ia _ (List.getElem_mem hia) buf hb
          obtain ⟨g', e2, o2, a2⟩ := addGrads_spec hd h1 h2 (fun k => (hG' k).2) 1 grad hG (ia := ia) (by omega)
          refine ⟨(G', g'), ?_, ⟨fun k => (hG' k).1, o2⟩, fun x => (a2 x.1 x.2).congr fun p q _ _ => ?_⟩
          · rw [rd_ok hia, Outcome.ok_bind]
            simp only [e1, Outcome.ok_bind]
            rw [Outcome.valid_pos trivial, Outcome.ok_bind]
            simp only [e2, Outcome.ok_bind]
          · rw [hat, blockAt_if]
            simp only [one_mul])
      refine ⟨r.2, ?_, hr.2, fun x => (a x).congr fun p q _ _ => ?_⟩
      · simp only [e, Outcome.ok_bind]
      · rw [blockAt_fsum]
        congr 1
        funext m n
        exact sum_range_if _ _ _)
  refine ⟨r, ?_, GradAdded.of_added hG hr hlen fun a' k => a (a', k)⟩
  unfold evalOverlapGrad
  rw [basisDim_eq, Outcome.ok_bind]
  exact e

/-- The pseudopotential gradients of a molecule, for all values `W` which the library routine returns. -/
theorem evalGrppGrad_spec {gen : Nat → List Comp} {junk : Nat → Nat → Nat → Nat → Option (Nat → ℝ)} {full : GrppData → Point → FullRoutine}
    {shells : List Shell} {atoms : List (Nat × Point)} {grpps : List (Option GrppData)}
    {W : Shell → Shell → GrppData × Point → Point → Fin 4 → Fin 3 → Nat → Nat → ℝ}
    (hrun : ∀ A ∈ shells, ∀ B ∈ shells, ∀ io jo ia ir, ∀ a ∈ atoms, ∀ o ∈ moleculeGrpps atoms grpps,
      ∃ G', grppGradient gen (junk io jo ia ir) (full o.1 o.2) A B o.2 a.2 (fun _ => List.replicate (A.cart_size * B.cart_size) 0) = .ok G' ∧
        ∀ q k, MatIs A.cart_size B.cart_size (G' (q, k)) (W A B o a.2 q k))
    (hz : ∀ a ∈ atoms, a.1 < grpps.length)
    (hd : dimOf shells * dimOf shells ≤ intMax + 1) {len : Nat} (grads : Fin 4 → List (List ℝ)) (hG : ∀ q, GradsOk len (dimOf shells) (grads q))
    (hlen : 3 * atoms.length ≤ len) (d : Nat × Point) :
    ∃ grads', evalGrppGrad gen junk full shells atoms grpps grads = .ok grads' ∧
      ∀ q, GradAdded shells atoms.length (fun a k A B m n => ((moleculeGrpps atoms grpps).map fun o => W A B o (atoms.getD a d).2 q k m n).sum)
        (grads q) (grads' q) := by
  obtain ⟨r, e, hr, a⟩ := forShellPairs_spec (κ := Fin 4 × Nat × Fin 3) shells ⟨0, fun _ => 0, 0, [], 0, [], []⟩
    (body := fun io jo bra ket (grads : Fin 4 → List (List ℝ)) =>
      forRange atoms.length grads fun ia grads => do
        let atom ← rd atoms ia
        forRange atoms.length grads fun ir grads => do
          let centre ← rd atoms ir
          let g ← rd grpps centre.1
          match g with
          | none => Outcome.ok grads
          | some g =>
            let b ← grppGradient gen (junk io jo ia ir) (full g centre.2) bra ket centre.2 atom.2
              fun _ => List.replicate (bra.cart_size * ket.cart_size) 0
            addGrads4 (dimOf shells) grads bra.cart_size ket.cart_size b io jo ia 1)
    (fun grads => ∀ q, GradsOk len (dimOf shells) (grads q)) (fun x grads => (grads x.1).getD (3 * x.2.1 + x.2.2) [])
    (fun x A B m n => if x.2.1 < atoms.length then
      ((moleculeGrpps atoms grpps).map fun o => W A B o (atoms.getD x.2.1 d).2 x.1 x.2.2 m n).sum else 0) grads hG (by
      rintro A hA B hB io jo grads h1 h2 hG
      obtain ⟨r, e, hr, a⟩ := added_loop (κ := Fin 4 × Nat × Fin 3) (dim := dimOf shells) (n := atoms.length)
        (body := fun ia (grads : Fin 4 → List (List ℝ)) => do
          let atom ← rd atoms ia
          forRange atoms.length grads fun ir grads => do
            let centre ← rd atoms ir
            let g ← rd grpps centre.1
            match g with
            | none => Outcome.ok grads
            | some g =>
              let b ← grppGradient gen (junk io jo ia ir) (full g centre.2) A B centre.2 atom.2
                fun _ => List.replicate (A.cart_size * B.cart_size) 0
              addGrads4 (dimOf shells) grads A.cart_size B.cart_size b io jo ia 1)
        (fun _ grads => ∀ q, GradsOk len (dimOf shells) (grads q)) (fun x grads => (grads x.1).getD (3 * x.2.1 + x.2.2) [])
        (fun x ia p q => blockAt io jo A.cart_size B.cart_size (fun m n => if x.2.1 = ia then
          ((moleculeGrpps atoms grpps).map fun o => W A B o (atoms.getD ia d).2 x.1 x.2.2 m n).sum else 0) p q) grads hG (by
          intro ia grads hia hG
          have hat : atoms.getD ia d = atoms[ia] := by simp [List.getD, hia]
          rw [rd_ok hia, Outcome.ok_bind]
          obtain ⟨r, e, hr, a⟩ := added_loop (κ := Fin 4 × Nat × Fin 3) (dim := dimOf shells) (n := atoms.length)
            (body := fun ir (grads : Fin 4 → List (List ℝ)) => do
              let centre ← rd atoms ir
              let g ← rd grpps centre.1
              match g with
              | none => Outcome.ok grads
              | some g =>
                let b ← grppGradient gen (junk io jo ia ir) (full g centre.2) A B centre.2 atoms[ia].2
                  fun _ => List.replicate (A.cart_size * B.cart_size) 0
                addGrads4 (dimOf shells) grads A.cart_size B.cart_size b io jo ia 1)
            (fun _ grads => ∀ q, GradsOk len (dimOf shells) (grads q)) (fun x grads => (grads x.1).getD (3 * x.2.1 + x.2.2) [])
            (fun x ir p q => blockAt io jo A.cart_size B.cart_size (fun m n => if x.2.1 = ia then
              (grpps.getD (atoms.getD ir d).1 none).elim 0 fun g => W A B (g, (atoms.getD ir d).2) atoms[ia].2 x.1 x.2.2 m n else 0) p q) grads hG (by
              intro ir grads hir hG
              have hat : atoms.getD ir d = atoms[ir] := by simp [List.getD, hir]
              have hzl := hz _ (List.getElem_mem hir)
              rw [rd_ok hir, Outcome.ok_bind, rd_ok hzl, Outcome.ok_bind]
              have hg : grpps.getD (atoms.getD ir d).1 none = grpps[atoms[ir].1] := by rw [hat]; simp [List.getD, hzl]
              simp only [hg]
              cases hgr : grpps[atoms[ir].1] with
              | none =>
                refine ⟨grads, rfl, hG, fun x => (Added.refl _ _).congr fun p q _ _ => ?_⟩
                unfold blockAt
                simp
              | some g =>
                have hmem : (g, atoms[ir].2) ∈ moleculeGrpps atoms grpps :=
                  moleculeGrpps_mem (List.getElem_mem hir) (by rw [List.getElem?_eq_getElem hzl, hgr])
                obtain ⟨G', e1, hG'⟩ := hrun A hA B hB io jo ia ir _ (List.getElem_mem hia) _ hmem
                obtain ⟨g', e2, o2, a2⟩ := addGrads4_spec hd h1 h2 hG' 1 grads hG (ia := ia) (by omega)
                refine ⟨g', ?_, o2, fun x => (a2 x).congr fun p q _ _ => ?_⟩
                · simp only at e1
                  simp only [e1, Outcome.ok_bind, e2]
                · rw [hat, blockAt_if]
                  simp only [one_mul, Option.elim])
          refine ⟨r, e, hr, fun x => (a x).congr fun p q _ _ => ?_⟩
          rw [blockAt_fsum]
          congr 1
          funext m n
          by_cases hx : x.2.1 = ia
          · simp only [hx, if_true]
            rw [hat, sum_range_list atoms d fun c => (grpps.getD c.1 none).elim 0 fun g => W A B (g, c.2) atoms[ia].2 x.1 x.2.2 m n]
            exact (moleculeGrpps_sum atoms grpps fun o => W A B o atoms[ia].2 x.1 x.2.2 m n).symm
          · simp [hx])
      refine ⟨r, e, hr, fun x => (a x).congr fun p q _ _ => ?_⟩
      rw [blockAt_fsum]
      congr 1
      funext m n
      exact sum_range_if _ _ _)
  refine ⟨r, ?_, fun q => GradAdded.of_added (hG q) (hr q) hlen fun a' k => a (q, a', k)⟩
  unfold evalGrppGrad
  rw [basisDim_eq, Outcome.ok_bind]
  exact e

theorem MatIs.length_ge {a b : Nat} {l : List ℝ} {g : Nat → Nat → ℝ} (h : MatIs a b l g) : a * b ≤ l.length := by
  cases a with
  | zero => simp
  | succ a =>
    cases b with
    | zero => simp
    | succ b =>
      have := (List.getElem?_eq_some_iff.1 (h a b (by omega) (by omega))).1
      have e : (a + 1) * (b + 1) = a * (b + 1) + (b + 1) := by ring
      omega

/-- If the body is defined or undefined for all pairs, and undefined for one pair, the double loop is undefined. -/
theorem forShellPairs_ub {σ : Type} (shells : List Shell) {body : Nat → Nat → Shell → Shell → σ → Outcome σ} (Inv : σ → Prop) (s : σ) (h0 : Inv s)
    (hstep : ∀ A ∈ shells, ∀ B ∈ shells, ∀ io jo s, io + A.cart_size ≤ dimOf shells → jo + B.cart_size ≤ dimOf shells → Inv s →
      OkUb Inv (body io jo A B s))
    {A B : Shell} (hA : A ∈ shells) (hB : B ∈ shells)
    (hub : ∀ io jo s, io + A.cart_size ≤ dimOf shells → jo + B.cart_size ≤ dimOf shells → Inv s → body io jo A B s = .ub) :
    forShellPairs shells s body = .ub := by
  obtain ⟨i0, hi0, rfl⟩ := List.mem_iff_getElem.1 hA
  obtain ⟨j0, hj0, rfl⟩ := List.mem_iff_getElem.1 hB
  have inner : ∀ i (st : Nat × σ), (hi : i < shells.length) → st.1 = shellOff shells i → Inv st.2 →
      OkUb (fun r : Nat × σ => Inv r.2) (forRange shells.length ((0 : Nat), st.2) fun j st2 => do
        let ket ← rd shells j
        let s ← body st.1 st2.1 shells[i] ket st2.2
        Outcome.ok (st2.1 + ket.cart_size, s)) ∧ (i = i0 → (forRange shells.length ((0 : Nat), st.2) fun j st2 => do
        let ket ← rd shells j
        let s ← body st.1 st2.1 shells[i] ket st2.2
        Outcome.ok (st2.1 + ket.cart_size, s)) = .ub) := by
    intro i st hi h1 h2
    have := forRange_okUb (n := shells.length) (s := ((0 : Nat), st.2)) (body := fun j st2 => do
        let ket ← rd shells j
        let s ← body st.1 st2.1 shells[i] ket st2.2
        Outcome.ok (st2.1 + ket.cart_size, s)) (fun j st2 => st2.1 = shellOff shells j ∧ Inv st2.2) ⟨by simp [shellOff], h2⟩
      fun j st2 hj hst2 => by
        rw [rd_ok hj, Outcome.ok_bind]
        exact (hstep _ (List.getElem_mem hi) _ (List.getElem_mem hj) _ _ _ (by rw [h1]; exact shellOff_add_le shells i hi)
          (by rw [hst2.1]; exact shellOff_add_le shells j hj) hst2.2).bind fun s hs =>
          Or.inl ⟨_, rfl, by rw [shellOff_succ shells j hj, hst2.1], hs⟩
    refine ⟨?_, fun hin => this.2 j0 hj0 fun st2 hst2 => ?_⟩
    · rcases this.1 with ⟨r, e, h⟩ | e
      · exact Or.inl ⟨r, e, h.2⟩
      · exact Or.inr e
    · subst hin
      rw [rd_ok hj0, Outcome.ok_bind, hub _ _ _ (by rw [h1]; exact shellOff_add_le shells i hi)
        (by rw [hst2.1]; exact shellOff_add_le shells j0 hj0) hst2.2]
      rfl
  have outer := forRange_okUb (n := shells.length) (s := ((0 : Nat), s)) (body := fun i st => do
      let bra ← rd shells i
      let r ← forRange shells.length ((0 : Nat), st.2) fun j st2 => do
        let ket ← rd shells j
        let s ← body st.1 st2.1 bra ket st2.2
        Outcome.ok (st2.1 + ket.cart_size, s)
      Outcome.ok (st.1 + bra.cart_size, r.2)) (fun i st => st.1 = shellOff shells i ∧ Inv st.2) ⟨by simp [shellOff], h0⟩
    fun i st hi hst => by
      rw [rd_ok hi, Outcome.ok_bind]
      exact (inner i st hi hst.1 hst.2).1.bind fun r hr => Or.inl ⟨_, rfl, by rw [shellOff_succ shells i hi, hst.1], hr⟩
  have := outer.2 i0 hi0 fun st hst => by
    rw [rd_ok hi0, Outcome.ok_bind, (inner i0 st hi0 hst.1 hst.2).2 rfl]
    rfl
  unfold forShellPairs
  rw [this]
  rfl

/-! ## Sums over atoms -/

theorem hasDerivAt_list_sum {α : Type} (l : List α) {f : α → ℝ → ℝ} {d : α → ℝ} {x : ℝ} (h : ∀ a ∈ l, HasDerivAt (f a) (d a) x) :
    HasDerivAt (fun t => (l.map fun a => f a t).sum) (l.map d).sum x := by
  induction l with
  | nil => simpa using hasDerivAt_const x (0 : ℝ)
  | cons a l ih =>
    simp only [List.map_cons, List.sum_cons]
    exact (h a (by simp)).add (ih fun b hb => h b (by simp [hb]))

/-- Exactly one atom is at a given position of an atom. -/
theorem sum_at_atom {atoms : List (Nat × Point)} (hn : (atoms.map Prod.snd).Nodup) (d : Nat × Point) {P : Point} (hP : ∃ a ∈ atoms, P = a.2) (c : ℝ) :
    ∑ i ∈ Finset.range atoms.length, (if P = (atoms.getD i d).2 then c else 0) = c := by
  obtain ⟨a, ha, rfl⟩ := hP
  obtain ⟨i, hi, rfl⟩ := List.mem_iff_getElem.1 ha
  have g : ∀ j, (h : j < atoms.length) → atoms.getD j d = atoms[j] := fun j h => by simp [List.getD, h]
  rw [Finset.sum_eq_single i]
  · rw [g i hi, if_pos rfl]
  · intro j hj hne
    have hj := Finset.mem_range.1 hj
    rw [if_neg]
    intro h
    rw [g j hj] at h
    have h1 : (atoms.map Prod.snd)[i]'(by simpa using hi) = (atoms.map Prod.snd)[j]'(by simpa using hj) := by simpa using h
    exact hne ((hn.getElem_inj_iff.1 h1).symm)
  · intro h
    exact absurd (Finset.mem_range.2 hi) h

end Libgrpp
