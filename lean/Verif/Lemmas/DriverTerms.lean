import Verif.Props.DriverGradient
import Verif.Model.DriverTerms
import Verif.Lemmas.Grpp

/-! # Lemmas about the gradients of single terms in the driver -/

namespace Libgrpp

/-- The common loops, for all values `W` which a term adds. -/
theorem forGradCentres_spec {σ κ : Type} {shells : List Shell} {atoms : List (Nat × Point)} {grpps : List (Option GrppData)}
    {body : Nat → Nat → Nat → Nat → Shell → Shell → GrppData → Point → Point → σ → Outcome σ} (Inv : σ → Prop) (view : κ × Nat × Fin 3 → σ → List ℝ)
    (W : Shell → Shell → GrppData × Point → Point → κ → Fin 3 → Nat → Nat → ℝ) (s : σ) (h0 : Inv s)
    (hz : ∀ a ∈ atoms, a.1 < grpps.length) (d : Nat × Point)
    (hstep : ∀ A ∈ shells, ∀ B ∈ shells, ∀ io jo, io + A.cart_size ≤ dimOf shells → jo + B.cart_size ≤ dimOf shells → ∀ ia, (hia : ia < atoms.length) →
      ∀ ir, ∀ o ∈ moleculeGrpps atoms grpps, ∀ s, Inv s → ∃ s', body io jo ia ir A B o.1 o.2 atoms[ia].2 s = .ok s' ∧ Inv s' ∧
        ∀ x, Added (dimOf shells) (fun p q => if x.2.1 = ia then blockAt io jo A.cart_size B.cart_size (W A B o atoms[ia].2 x.1 x.2.2) p q else 0)
          (view x s) (view x s')) :
    ∃ s', forGradCentres shells atoms grpps s body = .ok s' ∧ Inv s' ∧
      ∀ x, Added (dimOf shells) (fun p q => ∑ i ∈ Finset.range shells.length, ∑ j ∈ Finset.range shells.length,
        blockAt (shellOff shells i) (shellOff shells j) (shells.getD i ⟨0, fun _ => 0, 0, [], 0, [], []⟩).cart_size
          (shells.getD j ⟨0, fun _ => 0, 0, [], 0, [], []⟩).cart_size
          (fun m n => if x.2.1 < atoms.length then ((moleculeGrpps atoms grpps).map fun o => W (shells.getD i ⟨0, fun _ => 0, 0, [], 0, [], []⟩)
            (shells.getD j ⟨0, fun _ => 0, 0, [], 0, [], []⟩) o (atoms.getD x.2.1 d).2 x.1 x.2.2 m n).sum else 0) p q) (view x s) (view x s') := by
  unfold forGradCentres
  refine forShellPairs_spec (κ := κ × Nat × Fin 3) shells ⟨0, fun _ => 0, 0, [], 0, [], []⟩ Inv view
    (fun x A B m n => if x.2.1 < atoms.length then
      ((moleculeGrpps atoms grpps).map fun o => W A B o (atoms.getD x.2.1 d).2 x.1 x.2.2 m n).sum else 0) s h0 ?_
  rintro A hA B hB io jo s h1 h2 hI
  obtain ⟨r, e, hr, a⟩ := added_loop (κ := κ × Nat × Fin 3) (dim := dimOf shells) (n := atoms.length)
    (body := fun ia s => do
      let atom ← rd atoms ia
      forRange atoms.length s fun ir s => do
        let centre ← rd atoms ir
        let g ← rd grpps centre.1
        match g with
        | none => Outcome.ok s
        | some g => body io jo ia ir A B g centre.2 atom.2 s)
    (fun _ => Inv) view
    (fun x ia p q => blockAt io jo A.cart_size B.cart_size (fun m n => if x.2.1 = ia then
      ((moleculeGrpps atoms grpps).map fun o => W A B o (atoms.getD ia d).2 x.1 x.2.2 m n).sum else 0) p q) s hI (by
      intro ia s hia hI
      have hat : atoms.getD ia d = atoms[ia] := by simp [List.getD, hia]
      rw [rd_ok hia, Outcome.ok_bind]
      obtain ⟨r, e, hr, a⟩ := added_loop (κ := κ × Nat × Fin 3) (dim := dimOf shells) (n := atoms.length)
        (body := fun ir s => do
          let centre ← rd atoms ir
          let g ← rd grpps centre.1
          match g with
          | none => Outcome.ok s
          | some g => body io jo ia ir A B g centre.2 atoms[ia].2 s)
        (fun _ => Inv) view
        (fun x ir p q => blockAt io jo A.cart_size B.cart_size (fun m n => if x.2.1 = ia then
          (grpps.getD (atoms.getD ir d).1 none).elim 0 fun g => W A B (g, (atoms.getD ir d).2) atoms[ia].2 x.1 x.2.2 m n else 0) p q) s hI (by
          intro ir s hir hI
          have hat : atoms.getD ir d = atoms[ir] := by simp [List.getD, hir]
          have hzl := hz _ (List.getElem_mem hir)
          rw [rd_ok hir, Outcome.ok_bind, rd_ok hzl, Outcome.ok_bind]
          have hg : grpps.getD (atoms.getD ir d).1 none = grpps[atoms[ir].1] := by rw [hat]; simp [List.getD, hzl]
          simp only [hg]
          cases hgr : grpps[atoms[ir].1] with
          | none =>
            refine ⟨s, rfl, hI, fun x => (Added.refl _ _).congr fun p q _ _ => ?_⟩
            unfold blockAt
            simp
          | some g =>
            have hmem : (g, atoms[ir].2) ∈ moleculeGrpps atoms grpps :=
              moleculeGrpps_mem (List.getElem_mem hir) (by rw [List.getElem?_eq_getElem hzl, hgr])
            obtain ⟨s', e2, o2, a2⟩ := hstep A hA B hB io jo h1 h2 ia hia ir _ hmem s hI
            refine ⟨s', e2, o2, fun x => (a2 x).congr fun p q _ _ => ?_⟩
            rw [hat, blockAt_if]
            simp only [Option.elim])
      refine ⟨r, e, hr, fun x => (a x).congr fun p q _ _ => ?_⟩
      rw [blockAt_fsum]
      congr 1
      funext m n
      by_cases hx : x.2.1 = ia
      · simp only [hx, if_true]
        rw [hat, sum_range_list atoms d fun c => (grpps.getD c.1 none).elim 0 fun g => W A B (g, c.2) atoms[ia].2 x.1 x.2.2 m n]
        exact (moleculeGrpps_sum atoms grpps fun o => W A B o atoms[ia].2 x.1 x.2.2 m n).symm
      · simp [hx])
  refine ⟨r, e, hr, fun x => (a x).congr fun p q _ _ => ?_⟩
  rw [blockAt_fsum]
  congr 1
  funext m n
  exact sum_range_if _ _ _

/-- A loop over potentials, each of which adds `W u`. -/
theorem potential_loop {σ κ : Type} {dim io jo b1 b2 ia : Nat} (us : List Potential) {f : Nat → Potential → σ → Outcome σ} (Inv : σ → Prop)
    (view : κ × Nat × Fin 3 → σ → List ℝ) (W : Potential → κ → Fin 3 → Nat → Nat → ℝ) (s : σ) (h0 : Inv s)
    (hstep : ∀ ip, ∀ u ∈ us, ∀ s, Inv s → ∃ s', f ip u s = .ok s' ∧ Inv s' ∧
      ∀ x, Added dim (fun p q => if x.2.1 = ia then blockAt io jo b1 b2 (W u x.1 x.2.2) p q else 0) (view x s) (view x s')) :
    ∃ s', (forRange us.length s fun ip s => do let u ← rd us ip; f ip u s) = .ok s' ∧ Inv s' ∧
      ∀ x, Added dim (fun p q => if x.2.1 = ia then blockAt io jo b1 b2 (fun m n => (us.map fun u => W u x.1 x.2.2 m n).sum) p q else 0)
        (view x s) (view x s') := by
  obtain ⟨r, e, hr, a⟩ := added_loop (κ := κ × Nat × Fin 3) (dim := dim) (n := us.length)
    (body := fun ip s => do let u ← rd us ip; f ip u s) (fun _ => Inv) view
    (fun x ip p q => blockAt io jo b1 b2 (fun m n => if x.2.1 = ia then W (us.getD ip ⟨0, 0, 0, [], [], []⟩) x.1 x.2.2 m n else 0) p q) s h0 (by
      intro ip s hip hI
      have hu : us.getD ip ⟨0, 0, 0, [], [], []⟩ = us[ip] := by simp [List.getD, hip]
      obtain ⟨s', e, o, a⟩ := hstep ip _ (List.getElem_mem hip) s hI
      refine ⟨s', by rw [rd_ok hip, Outcome.ok_bind]; exact e, o, fun x => (a x).congr fun p q _ _ => ?_⟩
      rw [hu, blockAt_if])
  refine ⟨r, e, hr, fun x => (a x).congr fun p q _ _ => ?_⟩
  rw [blockAt_fsum, blockAt_if]
  congr 1
  funext m n
  by_cases hx : x.2.1 = ia
  · simp only [hx, if_true]
    exact sum_range_list us _ fun u => W u x.1 x.2.2 m n
  · simp [hx]

theorem moleculeParts_sum (parts : GrppData → List GrppData) (atoms : List (Nat × Point)) (grpps : List (Option GrppData)) (f : GrppData × Point → ℝ) :
    ((moleculeParts parts atoms grpps).map f).sum = ((moleculeGrpps atoms grpps).map fun o => ((parts o.1).map fun g => f (g, o.2)).sum).sum := by
  unfold moleculeParts
  induction moleculeGrpps atoms grpps with
  | nil => rfl
  | cons o l ih =>
    rw [List.flatMap_cons, List.map_append, List.sum_append, ih, List.map_cons, List.sum_cons, List.map_map]
    rfl

theorem addGrads3_spec {dim bd1 bd2 io jo : Nat} (hd : dim * dim ≤ intMax + 1) (h1 : io + bd1 ≤ dim) (h2 : jo + bd2 ≤ dim)
    {b : Fin 3 × Fin 3 → List ℝ} {g : Fin 3 → Fin 3 → Nat → Nat → ℝ} (hb : ∀ q k, MatIs bd1 bd2 (b (q, k)) (g q k)) (factor : ℝ) {len : Nat}
    (grads : Fin 3 → List (List ℝ)) (hG : ∀ q, GradsOk len dim (grads q)) {ia : Nat} (hia : 3 * ia + 3 ≤ len) :
    ∃ grads', addGrads3 dim grads bd1 bd2 b io jo ia factor = .ok grads' ∧ (∀ q, GradsOk len dim (grads' q)) ∧
      ∀ (x : Fin 3 × Nat × Fin 3), Added dim (fun p q => if x.2.1 = ia then blockAt io jo bd1 bd2 (fun m n => factor * g x.1 x.2.2 m n) p q else 0)
        ((grads x.1).getD (3 * x.2.1 + x.2.2) []) ((grads' x.1).getD (3 * x.2.1 + x.2.2) []) := by
  choose l e o a using fun q => addGrads_spec hd h1 h2 (hb q) factor (grads q) (hG q) hia
  refine ⟨l, ?_, o, fun x => a x.1 x.2.1 x.2.2⟩
  unfold addGrads3 forCoord
  beta_reduce
  rw [e 0, Outcome.ok_bind, Outcome.ok_bind, Function.update_of_ne (by decide), e 1, Outcome.ok_bind, Outcome.ok_bind,
    Function.update_of_ne (by decide), Function.update_of_ne (by decide), e 2, Outcome.ok_bind]
  congr 1
  funext q
  fin_cases q <;> simp [Function.update]

/-! ## The routines for pairs of shells -/

/-- The integrals of a pseudopotential at `C` are differentiated to the values `W`. -/
def GradReturns (gen : Nat → List Comp) (junk : Option (Nat → ℝ)) (full : FullRoutine) (A B : Shell) (C D : Point)
    (W : Fin 4 → Fin 3 → Nat → Nat → ℝ) : Prop :=
  ∃ G', grppGradient gen junk full A B C D (fun _ => List.replicate (A.cart_size * B.cart_size) 0) = .ok G' ∧
    ∀ q k, MatIs A.cart_size B.cart_size (G' (q, k)) (W q k)

section
variable {gen : Nat → List Comp} {junk : Option (Nat → ℝ)} {full : FullRoutine} {A B : Shell} {C D : Point} {W : Fin 4 → Fin 3 → Nat → Nat → ℝ}

theorem GradReturns.scalar (h : GradReturns gen junk full A B C D W) :
    ∃ b, scalarTermGradient gen junk full A B C D (fun _ => List.replicate (A.cart_size * B.cart_size) 0) = .ok b ∧
      ∀ k, MatIs A.cart_size B.cart_size (b k) (W 0 k) := by
  obtain ⟨G', e, v⟩ := h
  refine ⟨fun k => G' (0, k), ?_, fun k => v 0 k⟩
  unfold scalarTermGradient
  have : (fun qk : Fin 4 × Fin 3 => if qk.1 = 0 then List.replicate (A.cart_size * B.cart_size) (0 : ℝ)
      else List.replicate (A.cart_size * B.cart_size) 0) = fun _ => List.replicate (A.cart_size * B.cart_size) 0 := by
    funext qk
    exact ite_self _
  rw [this, e, Outcome.ok_bind]

theorem GradReturns.so (h : GradReturns gen junk full A B C D W) (L : Int) :
    ∃ b, soTermGradient gen junk full A B C D L (fun _ => List.replicate (A.cart_size * B.cart_size) 0) = .ok b ∧
      ∀ q k, MatIs A.cart_size B.cart_size (b (q, k)) fun m n => W q.succ k m n * ((2 * (L : ℝ) + 1) / 2) := by
  obtain ⟨G', e, v⟩ := h
  obtain ⟨G'', e', hS⟩ := rescaleSO_ok ((2 * (L : ℝ) + 1) / 2) (A.cart_size * B.cart_size) G' fun q => (v q.1 q.2).length_ge
  refine ⟨fun qk => G'' (qk.1.succ, qk.2), ?_, fun q k m n hm hn => ?_⟩
  · unfold soTermGradient
    have : (fun qk : Fin 4 × Fin 3 => (Fin.cases (List.replicate (A.cart_size * B.cart_size) (0 : ℝ))
        (fun _ => List.replicate (A.cart_size * B.cart_size) 0) qk.1 : List ℝ)) = fun _ => List.replicate (A.cart_size * B.cart_size) 0 := by
      funext qk
      refine Fin.cases ?_ (fun q => ?_) qk.1 <;> rfl
    rw [this, e, Outcome.ok_bind, e', Outcome.ok_bind]
  · show (G'' (q.succ, k))[m * B.cart_size + n]? = _
    rw [hS.hit q k _ (rowMajor_lt hm hn), v q.succ k m n hm hn, Option.map_some]

end

/-! ## The drivers -/

/-- Every part of every pseudopotential of the molecule is differentiated to the values `W`, for all pairs of shells and all atoms. -/
def PartsReturn (gen : Nat → List Comp) (junk : Option (Nat → ℝ)) (full : GrppData → Point → FullRoutine) (shells : List Shell)
    (atoms : List (Nat × Point)) (ops : List (GrppData × Point)) (W : Shell → Shell → GrppData × Point → Point → Fin 4 → Fin 3 → Nat → Nat → ℝ) : Prop :=
  ∀ A ∈ shells, ∀ B ∈ shells, ∀ a ∈ atoms, ∀ o ∈ ops, GradReturns gen junk (full o.1 o.2) A B o.2 a.2 (W A B o a.2)

theorem moleculeParts_mem {parts : GrppData → List GrppData} {atoms : List (Nat × Point)} {grpps : List (Option GrppData)} {o : GrppData × Point}
    (h : o ∈ moleculeGrpps atoms grpps) {g : GrppData} (hg : g ∈ parts o.1) : (g, o.2) ∈ moleculeParts parts atoms grpps := by
  unfold moleculeParts
  rw [List.mem_flatMap]
  exact ⟨o, h, List.mem_map.2 ⟨g, hg, rfl⟩⟩

section
variable {gen : Nat → List Comp} {full : GrppData → Point → FullRoutine} {shells : List Shell} {atoms : List (Nat × Point)}
  {grpps : List (Option GrppData)} {W : Shell → Shell → GrppData × Point → Point → Fin 4 → Fin 3 → Nat → Nat → ℝ}
  (hz : ∀ a ∈ atoms, a.1 < grpps.length) (hd : dimOf shells * dimOf shells ≤ intMax + 1) {len : Nat} (hlen : 3 * atoms.length ≤ len) (d : Nat × Point)
include hz hd hlen

theorem evalType1Grad_spec {junk : Nat → Nat → Nat → Nat → Option (Nat → ℝ)}
    (hrun : ∀ io jo ia ir, PartsReturn gen (junk io jo ia ir) full shells atoms (moleculeParts localPart atoms grpps) W)
    (grad : List (List ℝ)) (hG : GradsOk len (dimOf shells) grad) :
    ∃ grad', evalType1Grad gen junk full shells atoms grpps grad = .ok grad' ∧
      GradAdded shells atoms.length (fun a k A B m n => ((moleculeParts localPart atoms grpps).map fun o => W A B o (atoms.getD a d).2 0 k m n).sum)
        grad grad' := by
  unfold evalType1Grad
  rw [basisDim_eq, Outcome.ok_bind]
  obtain ⟨s', e, hr, a⟩ := forGradCentres_spec (κ := Unit) (fun grad => GradsOk len (dimOf shells) grad) (fun x grad => grad.getD (3 * x.2.1 + x.2.2) [])
    (fun A B o D _ k m n => ((localPart o.1).map fun g => W A B (g, o.2) D 0 k m n).sum) grad hG hz d
    (body := fun io jo ia ir bra ket g C D grad => do
      let b ← scalarTermGradient gen (junk io jo ia ir) (full ⟨g.local_, [], [], []⟩ C) bra ket C D
        fun _ => List.replicate (bra.cart_size * ket.cart_size) 0
      addGrads (dimOf shells) grad bra.cart_size ket.cart_size b io jo ia 1)
    (fun A hA B hB io jo h1 h2 ia hia ir o ho grad hG => by
      obtain ⟨b, e, hb⟩ := (hrun io jo ia ir A hA B hB _ (List.getElem_mem hia) _
        (moleculeParts_mem ho (g := ⟨o.1.local_, [], [], []⟩) (by simp [localPart]))).scalar
      obtain ⟨g', e2, o2, a2⟩ := addGrads_spec hd h1 h2 hb 1 grad hG (ia := ia) (by omega)
      refine ⟨g', ?_, o2, fun x => (a2 x.2.1 x.2.2).congr fun p q _ _ => ?_⟩
      · simp only [e, Outcome.ok_bind, e2]
      · simp [localPart])
  exact ⟨s', e, GradAdded.of_added (s0 := ⟨0, fun _ => 0, 0, [], 0, [], []⟩) hG hr hlen fun a' k => (a ((), a', k)).congr fun p q _ _ => by simp only [moleculeParts_sum]⟩

theorem evalType2Grad_spec {junk : Nat → Nat → Nat → Nat → Nat → Option (Nat → ℝ)}
    (hrun : ∀ io jo ia ir ip, PartsReturn gen (junk io jo ia ir ip) full shells atoms (moleculeParts arepParts atoms grpps) W)
    (grad : List (List ℝ)) (hG : GradsOk len (dimOf shells) grad) :
    ∃ grad', evalType2Grad gen junk full shells atoms grpps grad = .ok grad' ∧
      GradAdded shells atoms.length (fun a k A B m n => ((moleculeParts arepParts atoms grpps).map fun o => W A B o (atoms.getD a d).2 0 k m n).sum)
        grad grad' := by
  unfold evalType2Grad
  rw [basisDim_eq, Outcome.ok_bind]
  obtain ⟨s', e, hr, a⟩ := forGradCentres_spec (κ := Unit) (fun grad => GradsOk len (dimOf shells) grad) (fun x grad => grad.getD (3 * x.2.1 + x.2.2) [])
    (fun A B o D _ k m n => ((arepParts o.1).map fun g => W A B (g, o.2) D 0 k m n).sum) grad hG hz d
    (body := fun io jo ia ir bra ket g C D grad => forRange g.arep.length grad fun ip grad => do
      let u ← rd g.arep ip
      let b ← scalarTermGradient gen (junk io jo ia ir ip) (full ⟨none, [u], [], []⟩ C) bra ket C D
        fun _ => List.replicate (bra.cart_size * ket.cart_size) 0
      addGrads (dimOf shells) grad bra.cart_size ket.cart_size b io jo ia 1)
    (fun A hA B hB io jo h1 h2 ia hia ir o ho grad hG => by
      obtain ⟨s', e, hr, a⟩ := potential_loop (κ := Unit) (dim := dimOf shells) (io := io) (jo := jo) (b1 := A.cart_size) (b2 := B.cart_size) (ia := ia)
        o.1.arep (fun grad => GradsOk len (dimOf shells) grad) (fun x grad => grad.getD (3 * x.2.1 + x.2.2) [])
        (fun u _ k m n => W A B (⟨none, [u], [], []⟩, o.2) atoms[ia].2 0 k m n) grad hG
        (f := fun ip u grad => do
          let b ← scalarTermGradient gen (junk io jo ia ir ip) (full ⟨none, [u], [], []⟩ o.2) A B o.2 atoms[ia].2
            fun _ => List.replicate (A.cart_size * B.cart_size) 0
          addGrads (dimOf shells) grad A.cart_size B.cart_size b io jo ia 1)
        (fun ip u hu grad hG => by
          obtain ⟨b, e, hb⟩ := (hrun io jo ia ir ip A hA B hB _ (List.getElem_mem hia) _
            (moleculeParts_mem ho (g := ⟨none, [u], [], []⟩) (List.mem_map.2 ⟨u, hu, rfl⟩))).scalar
          obtain ⟨g', e2, o2, a2⟩ := addGrads_spec hd h1 h2 hb 1 grad hG (ia := ia) (by omega)
          refine ⟨g', ?_, o2, fun x => (a2 x.2.1 x.2.2).congr fun p q _ _ => ?_⟩
          · simp only [e, Outcome.ok_bind, e2]
          · simp)
      exact ⟨s', e, hr, fun x => (a x).congr fun p q _ _ => by simp only [arepParts, List.map_map]; rfl⟩)
  exact ⟨s', e, GradAdded.of_added (s0 := ⟨0, fun _ => 0, 0, [], 0, [], []⟩) hG hr hlen fun a' k => (a ((), a', k)).congr fun p q _ _ => by simp only [moleculeParts_sum]⟩

theorem evalSOGrad_spec {junk : Nat → Nat → Nat → Nat → Nat → Option (Nat → ℝ)}
    (hrun : ∀ io jo ia ir ip, PartsReturn gen (junk io jo ia ir ip) full shells atoms (moleculeParts esopParts atoms grpps) W)
    (grads : Fin 3 → List (List ℝ)) (hG : ∀ q, GradsOk len (dimOf shells) (grads q)) :
    ∃ grads', evalSOGrad gen junk full shells atoms grpps grads = .ok grads' ∧
      ∀ q, GradAdded shells atoms.length
        (fun a k A B m n => ((moleculeParts esopParts atoms grpps).map fun o => W A B o (atoms.getD a d).2 q.succ k m n).sum)
        (grads q) (grads' q) := by
  unfold evalSOGrad
  rw [basisDim_eq, Outcome.ok_bind]
  obtain ⟨s', e, hr, a⟩ := forGradCentres_spec (κ := Fin 3) (fun grads : Fin 3 → List (List ℝ) => ∀ q, GradsOk len (dimOf shells) (grads q))
    (fun x grads => (grads x.1).getD (3 * x.2.1 + x.2.2) [])
    (fun A B o D q k m n => ((esopParts o.1).map fun g => W A B (g, o.2) D q.succ k m n).sum) grads hG hz d
    (body := fun io jo ia ir bra ket g C D grads => forRange g.esop.length grads fun ip grads => do
      let u ← rd g.esop ip
      let b ← soTermGradient gen (junk io jo ia ir ip) (full ⟨none, [], [u], []⟩ C) bra ket C D u.L
        fun _ => List.replicate (bra.cart_size * ket.cart_size) 0
      addGrads3 (dimOf shells) grads bra.cart_size ket.cart_size b io jo ia (2 / (2 * (u.L : ℝ) + 1)))
    (fun A hA B hB io jo h1 h2 ia hia ir o ho grads hG => by
      obtain ⟨s', e, hr, a⟩ := potential_loop (κ := Fin 3) (dim := dimOf shells) (io := io) (jo := jo) (b1 := A.cart_size) (b2 := B.cart_size) (ia := ia)
        o.1.esop (fun grads : Fin 3 → List (List ℝ) => ∀ q, GradsOk len (dimOf shells) (grads q))
        (fun x grads => (grads x.1).getD (3 * x.2.1 + x.2.2) [])
        (fun u q k m n => W A B (⟨none, [], [u], []⟩, o.2) atoms[ia].2 q.succ k m n) grads hG
        (f := fun ip u grads => do
          let b ← soTermGradient gen (junk io jo ia ir ip) (full ⟨none, [], [u], []⟩ o.2) A B o.2 atoms[ia].2 u.L
            fun _ => List.replicate (A.cart_size * B.cart_size) 0
          addGrads3 (dimOf shells) grads A.cart_size B.cart_size b io jo ia (2 / (2 * (u.L : ℝ) + 1)))
        (fun ip u hu grads hG => by
          obtain ⟨b, e, hb⟩ := (hrun io jo ia ir ip A hA B hB _ (List.getElem_mem hia) _
            (moleculeParts_mem ho (g := ⟨none, [], [u], []⟩) (List.mem_map.2 ⟨u, hu, rfl⟩))).so u.L
          obtain ⟨g', e2, o2, a2⟩ := addGrads3_spec hd h1 h2 hb (2 / (2 * (u.L : ℝ) + 1)) grads hG (ia := ia) (by omega)
          have hL : (2 * (u.L : ℝ) + 1) ≠ 0 := by
            have : (2 * u.L + 1 : ℤ) ≠ 0 := by omega
            exact_mod_cast this
          refine ⟨g', ?_, o2, fun x => (a2 x).congr fun p q _ _ => ?_⟩
          · simp only [e, Outcome.ok_bind, e2]
          · have : (fun m n => 2 / (2 * (u.L : ℝ) + 1) * (W A B (⟨none, [], [u], []⟩, o.2) atoms[ia].2 x.1.succ x.2.2 m n * ((2 * (u.L : ℝ) + 1) / 2))) =
                fun m n => W A B (⟨none, [], [u], []⟩, o.2) atoms[ia].2 x.1.succ x.2.2 m n := by
              funext m n
              field_simp
            simp only [this])
      exact ⟨s', e, hr, fun x => (a x).congr fun p q _ _ => by simp only [esopParts, List.map_map]; rfl⟩)
  exact ⟨s', e, fun q => GradAdded.of_added (s0 := ⟨0, fun _ => 0, 0, [], 0, [], []⟩) (hG q) (hr q) hlen fun a' k =>
    (a (q, a', k)).congr fun p q _ _ => by simp only [moleculeParts_sum]⟩

theorem evalOcGrad_spec {junk : Nat → Nat → Nat → Nat → Option (Nat → ℝ)}
    (hrun : ∀ io jo ia ir, PartsReturn gen (junk io jo ia ir) full shells atoms (moleculeParts ocPart atoms grpps) W)
    (grads : Fin 4 → List (List ℝ)) (hG : ∀ q, GradsOk len (dimOf shells) (grads q)) :
    ∃ grads', evalOcGrad gen junk full shells atoms grpps grads = .ok grads' ∧
      ∀ q, GradAdded shells atoms.length (fun a k A B m n => ((moleculeParts ocPart atoms grpps).map fun o => W A B o (atoms.getD a d).2 q k m n).sum)
        (grads q) (grads' q) := by
  unfold evalOcGrad
  rw [basisDim_eq, Outcome.ok_bind]
  obtain ⟨s', e, hr, a⟩ := forGradCentres_spec (κ := Fin 4) (fun grads : Fin 4 → List (List ℝ) => ∀ q, GradsOk len (dimOf shells) (grads q))
    (fun x grads => (grads x.1).getD (3 * x.2.1 + x.2.2) [])
    (fun A B o D q k m n => ((ocPart o.1).map fun g => W A B (g, o.2) D q k m n).sum) grads hG hz d
    (body := fun io jo ia ir bra ket g C D grads => do
      let b ← grppGradient gen (junk io jo ia ir) (full ⟨none, [], [], g.oc⟩ C) bra ket C D fun _ => List.replicate (bra.cart_size * ket.cart_size) 0
      addGrads4 (dimOf shells) grads bra.cart_size ket.cart_size b io jo ia 1)
    (fun A hA B hB io jo h1 h2 ia hia ir o ho grads hG => by
      obtain ⟨b, e, hb⟩ := hrun io jo ia ir A hA B hB _ (List.getElem_mem hia) _
        (moleculeParts_mem ho (g := ⟨none, [], [], o.1.oc⟩) (by simp [ocPart]))
      obtain ⟨g', e2, o2, a2⟩ := addGrads4_spec hd h1 h2 hb 1 grads hG (ia := ia) (by omega)
      refine ⟨g', ?_, o2, fun x => (a2 x).congr fun p q _ _ => ?_⟩
      · simp only at e
        simp only [e, Outcome.ok_bind, e2]
      · simp [ocPart])
  exact ⟨s', e, fun q => GradAdded.of_added (s0 := ⟨0, fun _ => 0, 0, [], 0, [], []⟩) (hG q) (hr q) hlen fun a' k =>
    (a (q, a', k)).congr fun p q _ _ => by simp only [moleculeParts_sum]⟩

end

end Libgrpp
