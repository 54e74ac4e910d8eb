import Verif.Lemmas.FortranGradient
import Verif.Props.FortranDriver

/-! # C108: gradients of the molecular matrices in the Fortran front end

`mol.libShells gen`, `mol.atoms` and `mol.grpps gen` are the shells, the atoms and the pseudopotentials of the molecule, as in C107. The driver in C is the
one of C101 and C106, `IsGradient` is the statement of C101 about the values. -/

namespace Libgrpp

/-- What the Fortran program makes of the gradients: element `(p, q)` of the matrix `x` (0 for the averaged, 1, 2, 3 for the spin-orbit potentials) for
coordinate `k` of atom `a` is `V x a k p q`, whatever arrays and buffers held before; all memory is given back. The assumption on `junk` (some value is
returned by out-of-bounds reads, or nothing is read out of bounds) is the one of C87. -/
def FtnGradFills {G : Type} (lib : Lib G) (sf : SpecFun) (mol : FMol) (V : Fin 4 → ℕ → Fin 3 → ℕ → ℕ → ℝ) : Prop :=
  ∀ junk : Nat → Nat → Nat → Nat → FGradCall → Nat → Option (Nat → ℝ),
    (∀ io jo ip ic c i, junk io jo ip ic c i ≠ none ∨ ∀ s ∈ mol.libShells lib.gen, s.L = 0) →
    ∀ (cl : List Comp) (h : Store) (buf : Fin 3 → List ℝ) (bufSO : Fin 3 × Fin 3 → List ℝ) (out : List Grads), cl.length = 100 → h.WF →
    (∀ k, maxBuf ≤ (buf k).length) → (∀ k, maxBuf ≤ (bufSO k).length) → out.length = mol.charges.length →
    (∀ M ∈ out, ∀ qk, (M qk).length = (basisComps (mol.libShells lib.gen)).length * (basisComps (mol.libShells lib.gen)).length) →
    ∃ h' out', Restored h h' ∧ ftnGradients lib sf junk mol cl (basisComps (mol.libShells lib.gen)).length h buf bufSO out = .ok (h', out') ∧
      out'.length = mol.charges.length ∧ ∀ (x : Fin 4) (a : Nat) (k : Fin 3), (ha : a < out'.length) →
        (out'[a] (x, k)).length = (basisComps (mol.libShells lib.gen)).length * (basisComps (mol.libShells lib.gen)).length ∧
        ∀ p q, p < (basisComps (mol.libShells lib.gen)).length → q < (basisComps (mol.libShells lib.gen)).length →
          (out'[a] (x, k))[p * (basisComps (mol.libShells lib.gen)).length + q]? = some (V x a k p q)

/-- The values. -/
noncomputable def ftnGradValue {G : Type} (lib : Lib G) (sf : SpecFun) (mol : FMol) (x : Fin 4) (a : ℕ) (k : Fin 3) (p q : ℕ) : ℝ :=
  ((moleculeGrpps mol.atoms (mol.grpps lib.gen)).map fun o : GrppData × Point =>
    gradBlock lib sf ((basisComps (mol.libShells lib.gen)).getD p (⟨0, fun _ => 0, 0, [], 0, [], []⟩, 0)).1
      ((basisComps (mol.libShells lib.gen)).getD q (⟨0, fun _ => 0, 0, [], 0, [], []⟩, 0)).1 o.1 o.2 (mol.atoms.getD a (0, fun _ => 0)).2 x k
      ((basisComps (mol.libShells lib.gen)).getD p (⟨0, fun _ => 0, 0, [], 0, [], []⟩, 0)).2
      ((basisComps (mol.libShells lib.gen)).getD q (⟨0, fun _ => 0, 0, [], 0, [], []⟩, 0)).2).sum

section
variable {G : Type} (lib : Lib G) (hi : lib.init = true) (hbt : BesselOk lib.bt) (ho : DocumentedOrder lib.gen) {eps : ℝ}
  {sf : SpecFun} (hs : LibSpec eps sf)
include hi hbt ho hs

theorem ftnGradFills_value (mol : FMol) (hm : mol.Ok) (he : mol.EcpOk) (hL : ∀ a ∈ mol.shells, a.L ≤ 9)
    (hd : GradDriverInput lib.gen (mol.libShells lib.gen) mol.atoms (mol.grpps lib.gen)) : FtnGradFills lib sf mol (ftnGradValue lib sf mol) := by
  intro junk hj cl h buf bufSO out hcl hw hb hb' hlen hout
  have hN := basisComps_length (mol.libShells lib.gen)
  rw [hN] at hout
  obtain ⟨h', out', r, e, l, v⟩ := ftnGradients_spec (good := fun j => j ≠ none ∨ ∀ s ∈ mol.libShells lib.gen, s.L = 0) hm he hL
    (shells := mol.libShells lib.gen) rfl (fun A hA B hB j gj D hD o hm' g hg => by
      have hp : PartOf g o.1 := by
        rcases List.mem_append.1 hg with hg | hg
        · rcases List.mem_append.1 hg with hg | hg
          · exact localPart_of _ _ hg
          · exact arepParts_of _ _ hg
        · exact esopParts_of _ _ hg
      exact gradVal_fills lib hi hbt ho hs hA hB (o := (g, o.2)) (hp.input (hd.input A hA B hB o hm')) hd.atoms_ok
        (moleculeGrpps_on (o := o) hm') hD j gj)
    hj hcl hw (0, fun _ => 0) hb hb' hlen hout
  rw [hN]
  refine ⟨h', out', r, e, l.trans hlen, fun x a k ha => ⟨(v x a k ha).1, fun p q hp hq => ?_⟩⟩
  have key := basisComps_pairs (shells := mol.libShells lib.gen) (P := fun p q f g => (out'[a] (x, k))[p * dimOf (mol.libShells lib.gen) + q]? =
    some ((moleculeGrpps mol.atoms (mol.grpps lib.gen)).map fun o : GrppData × Point =>
      gradBlock lib sf f.1 g.1 o.1 o.2 (mol.atoms.getD a (0, fun _ => 0)).2 x k f.2 g.2).sum) fun i j m n hi hj hm hn => (v x a k ha).2 i j m n hi hj hm hn
  exact key p q _ _ (getD_of_lt (by rw [hN]; exact hp) _) (getD_of_lt (by rw [hN]; exact hq) _)

theorem ftnGradValue_eq (mol : FMol) (hd : GradDriverInput lib.gen (mol.libShells lib.gen) mol.atoms (mol.grpps lib.gen)) (x : Fin 4) (a : ℕ) (k : Fin 3)
    {p q : ℕ} (hp : p < (basisComps (mol.libShells lib.gen)).length) (hq : q < (basisComps (mol.libShells lib.gen)).length) :
    ftnGradValue lib sf mol x a k p q = (((moleculeGrpps mol.atoms (mol.grpps lib.gen)).map fun o : GrppData × Point =>
      (({ o.1 with oc := [] }, o.2) : GrppData × Point)).map fun o : GrppData × Point =>
        gradVal lib sf ((basisComps (mol.libShells lib.gen)).getD p (⟨0, fun _ => 0, 0, [], 0, [], []⟩, 0)).1
      ((basisComps (mol.libShells lib.gen)).getD q (⟨0, fun _ => 0, 0, [], 0, [], []⟩, 0)).1 o (mol.atoms.getD a (0, fun _ => 0)).2 x k
      ((basisComps (mol.libShells lib.gen)).getD p (⟨0, fun _ => 0, 0, [], 0, [], []⟩, 0)).2
      ((basisComps (mol.libShells lib.gen)).getD q (⟨0, fun _ => 0, 0, [], 0, [], []⟩, 0)).2).sum ∧
    ((∀ o ∈ moleculeGrpps mol.atoms (mol.grpps lib.gen), o.1.oc = []) →
      gradTerm lib sf (mol.libShells lib.gen) mol.atoms (mol.grpps lib.gen) ocPart x a k p q = 0) := by
  obtain ⟨hA, hm⟩ := basisComps_mem2 (A := ((basisComps (mol.libShells lib.gen)).getD p (⟨0, fun _ => 0, 0, [], 0, [], []⟩, 0)).1)
    (m := ((basisComps (mol.libShells lib.gen)).getD p (⟨0, fun _ => 0, 0, [], 0, [], []⟩, 0)).2) (getD_of_lt hp _)
  obtain ⟨hB, hn⟩ := basisComps_mem2 (A := ((basisComps (mol.libShells lib.gen)).getD q (⟨0, fun _ => 0, 0, [], 0, [], []⟩, 0)).1)
    (m := ((basisComps (mol.libShells lib.gen)).getD q (⟨0, fun _ => 0, 0, [], 0, [], []⟩, 0)).2) (getD_of_lt hq _)
  constructor
  · rw [List.map_map]
    unfold ftnGradValue
    congr 1
    refine List.map_congr_left fun o hm' => ?_
    exact (gradBlock_eq lib hi hbt ho hs (hd.input _ hA _ hB o hm') _ x k hm hn).1
  · intro h0
    unfold gradTerm
    rw [moleculeParts_sum]
    refine List.sum_eq_zero fun v hv => ?_
    obtain ⟨o, hm', rfl⟩ := List.mem_map.1 hv
    simp only [ocPart, List.map_cons, List.map_nil, List.sum_cons, List.sum_nil, add_zero]
    exact (gradBlock_eq lib hi hbt ho hs (hd.input _ hA _ hB o hm') _ x k hm hn).2.2 (h0 o hm')

/-- **C108, partial.** For all molecules which meet the preconditions of C101 the Fortran program fills its matrices with the gradient of the matrix elements
of all pseudopotentials without their outer-core potentials, to within the explicit bound of C101; the values for all atoms add up to exactly zero.
Missing: the result is relative to some value being returned by out-of-bounds reads, as in C87, and the outer-core potentials are left out. -/
theorem fortran_gradient_partial (mol : FMol) (hm : mol.Ok) (he : mol.EcpOk) (hL : ∀ a ∈ mol.shells, a.L ≤ 9)
    (hd : GradDriverInput lib.gen (mol.libShells lib.gen) mol.atoms (mol.grpps lib.gen)) :
    ∃ V, IsGradient lib (mol.libShells lib.gen) mol.atoms ((moleculeGrpps mol.atoms (mol.grpps lib.gen)).map fun o => ({ o.1 with oc := [] }, o.2)) V ∧
      FtnGradFills lib sf mol V := by
  refine ⟨ftnGradValue lib sf mol, ?_, ftnGradFills_value lib hi hbt ho hs mol hm he hL hd⟩
  refine (gradVal_isGradient lib hi hbt ho hs (sf := sf) (fun A hA B hB o hm' => ?_) hd.atoms_ok (fun o hm' => ?_)
    (⟨0, fun _ => 0, 0, [], 0, [], []⟩, 0) (0, fun _ => 0)).congr fun x a k p q _ hp hq => (ftnGradValue_eq lib hi hbt ho hs mol hd x a k hp hq).1.symm
  · obtain ⟨o', hq, rfl⟩ := List.mem_map.1 hm'
    have hno : PartOf { o'.1 with oc := [] } o'.1 := ⟨Or.inr rfl, fun _ h => h, fun _ h => h, by simp⟩
    exact hno.input (hd.input A hA B hB o' hq)
  · obtain ⟨o', hq, rfl⟩ := List.mem_map.1 hm'
    exact moleculeGrpps_on (o := o') hq

/-- **C108** (comparison with the driver in C). The result of the driver in C is the sum of what the Fortran program makes and the gradient of the
outer-core potentials, which is exactly what the C program writes for these alone. If there are none, both programs agree. -/
theorem fortran_gradient_missing (mol : FMol) (hm : mol.Ok) (he : mol.EcpOk) (hL : ∀ a ∈ mol.shells, a.L ≤ 9)
    (hd : GradDriverInput lib.gen (mol.libShells lib.gen) mol.atoms (mol.grpps lib.gen)) :
    ∃ V V4, FtnGradFills lib sf mol V ∧ IsGradient lib (mol.libShells lib.gen) mol.atoms (moleculeParts ocPart mol.atoms (mol.grpps lib.gen)) V4 ∧
      (∀ (junk : ℕ → ℕ → ℕ → ℕ → Option (ℕ → ℝ)), ((∀ io jo ia ir, junk io jo ia ir ≠ none) ∨ ∀ s ∈ mol.libShells lib.gen, s.L = 0) →
        ∀ grads : Fin 4 → List (List ℝ), (∀ x, GradArrays mol.atoms.length (basisComps (mol.libShells lib.gen)).length (grads x) ∧
          (grads x).length = (grads 0).length) →
        (∃ r, evalOcGrad lib.gen junk (fun g C S T M => fullGrpp (libKernels lib sf) lib.init S T g C M) (mol.libShells lib.gen) mol.atoms
            (mol.grpps lib.gen) grads = .ok r ∧
          ∀ x, GradsIncreased mol.atoms.length (basisComps (mol.libShells lib.gen)).length (V4 x) (grads x) (r x)) ∧
        ∃ r, evalGrppGrad lib.gen junk (fun g C S T M => fullGrpp (libKernels lib sf) lib.init S T g C M) (mol.libShells lib.gen) mol.atoms
            (mol.grpps lib.gen) grads = .ok r ∧
          ∀ x, GradsIncreased mol.atoms.length (basisComps (mol.libShells lib.gen)).length (fun a k p q => V x a k p q + V4 x a k p q) (grads x) (r x)) ∧
      ((∀ o ∈ moleculeGrpps mol.atoms (mol.grpps lib.gen), o.1.oc = []) → ∀ x a k p q, p < (basisComps (mol.libShells lib.gen)).length →
        q < (basisComps (mol.libShells lib.gen)).length → V4 x a k p q = 0) := by
  refine ⟨ftnGradValue lib sf mol, gradTerm lib sf (mol.libShells lib.gen) mol.atoms (mol.grpps lib.gen) ocPart,
    ftnGradFills_value lib hi hbt ho hs mol hm he hL hd, ?_, fun junk hj grads hG => ?_, fun h0 x a k p q hp hq =>
      (ftnGradValue_eq lib hi hbt ho hs mol hd x a k hp hq).2 h0⟩
  · refine gradVal_isGradient lib hi hbt ho hs (sf := sf) (fun A hA B hB o hm' => ?_) hd.atoms_ok (fun o hm' => ?_)
      (⟨0, fun _ => 0, 0, [], 0, [], []⟩, 0) (0, fun _ => 0)
    · obtain ⟨g, hg, hp⟩ := moleculeParts_from hm'
      exact (ocPart_of g _ hp).input (hd.input A hA B hB _ hg)
    · obtain ⟨g, hg, -⟩ := moleculeParts_from hm'
      exact moleculeGrpps_on (o := (g, o.2)) hg
  · obtain ⟨-, -, -, ⟨r4, e4, a4⟩, r, e, a0, a1⟩ := gradient_terms_explicit lib hi hbt ho hs (mol.libShells lib.gen) mol.atoms (mol.grpps lib.gen) hd junk
      (fun _ _ _ _ _ => some fun _ => 0) (hj.imp (fun h => ⟨h, by simp⟩) id) (grads 0) (fun x => grads x.succ) grads (hG 0).1
      (fun x => ⟨(hG x.succ).1, by rw [(hG x.succ).2, (hG (Fin.succ 0)).2]⟩) hG
    refine ⟨⟨r4, e4, a4⟩, r, e, fun x => ?_⟩
    refine Fin.cases ?_ (fun y => ?_) x
    · refine a0.congr fun a k p q _ _ => ?_
      simp only [gradTerm, ftnGradValue, gradBlock, Fin.cases_zero, moleculeParts_sum, localPart, arepParts, List.map_cons, List.map_nil, List.sum_cons,
        List.sum_nil, add_zero, List.map_map, Function.comp_def, List.sum_map_add]
    · refine (a1 y).congr fun a k p q _ _ => ?_
      simp only [gradTerm, ftnGradValue, gradBlock, Fin.cases_succ, moleculeParts_sum, esopParts, List.map_map, Function.comp_def]

/-- **C108 is false without the assumption on out-of-bounds reads**: the Fortran program has no defined result for any molecule in which a shell of `L > 0`
sits on an atom other than that of a pseudopotential. -/
theorem fortran_gradient_undefined (mol : FMol) (hm : mol.Ok) (he : mol.EcpOk) (hL : ∀ a ∈ mol.shells, a.L ≤ 9)
    (hd : GradDriverInput lib.gen (mol.libShells lib.gen) mol.atoms (mol.grpps lib.gen)) (A : Shell) (hA : A ∈ mol.libShells lib.gen) (hA0 : 0 < A.L)
    (o : GrppData × Point) (hmo : o ∈ moleculeGrpps mol.atoms (mol.grpps lib.gen)) (hoA : A.origin ≠ o.2) (cl : List Comp) (hcl : cl.length = 100)
    (h : Store) (hw : h.WF) (buf : Fin 3 → List ℝ) (bufSO : Fin 3 × Fin 3 → List ℝ) (hb : ∀ k, maxBuf ≤ (buf k).length)
    (hb' : ∀ k, maxBuf ≤ (bufSO k).length) (out : List Grads) (hlen : out.length = mol.charges.length)
    (hout : ∀ M ∈ out, ∀ qk, (M qk).length = (basisComps (mol.libShells lib.gen)).length * (basisComps (mol.libShells lib.gen)).length) :
    ftnGradients lib sf (fun _ _ _ _ _ _ => none) mol cl (basisComps (mol.libShells lib.gen)).length h buf bufSO out = .ub := by
  have hat := hd.atoms_ok
  have hN := basisComps_length (mol.libShells lib.gen)
  rw [hN] at hout
  rw [hN]
  obtain ⟨c, hc, ec⟩ := hat.on A hA
  obtain ⟨ip, hip, rfl⟩ := List.mem_iff_getElem.1 hc
  have hin := hd.input A hA A hA o hmo
  have hon := moleculeGrpps_on hmo
  have hmo' := hmo
  simp only [moleculeGrpps, List.mem_filterMap, Option.map_eq_some_iff] at hmo'
  obtain ⟨b, hb1, g, hg, rfl⟩ := hmo'
  obtain ⟨ic, hic, rfl⟩ := List.mem_iff_getElem.1 hb1
  have hl : mol.atoms.length = mol.charges.length := by simp [FMol.atoms, hm.coord]
  have hic' : ic < mol.charges.length := by omega
  have hip' : ip < mol.charges.length := by omega
  have ea : ∀ i (hi : i < mol.atoms.length), mol.atoms[i] = (mol.charges[i]'(by omega), mol.coord[i]'(by rw [hm.coord]; omega)) := fun i hi => by
    simp [FMol.atoms]
  obtain ⟨a, ha, rfl⟩ := List.mem_map.1 hA
  have hge : (mol.ecpOf mol.charges[ic]).numArep ≠ 0 ∧ g = (mol.ecpOf mol.charges[ic]).data lib.gen := by
    rw [ea ic hic, (grpps_get hm lib.gen (List.getElem_mem hic')).2.2] at hg
    split_ifs at hg with h0
    exact ⟨h0, (Option.some.inj hg).symm⟩
  obtain ⟨hn, rfl⟩ := hge
  refine ftnGradients_ub hm he hL rfl (fun S hS T hT o' hm' g' hg' => ?_) ha hip' hic' hn (fun M hM => ?_) hcl hw hb hb' hlen hout
  · have hp : PartOf g' o'.1 := by
      rcases List.mem_append.1 hg' with hg | hg
      · rcases List.mem_append.1 hg with hg | hg
        · exact localPart_of _ _ hg
        · exact arepParts_of _ _ hg
      · exact esopParts_of _ _ hg
    exact ⟨_, gradLib_runs lib hi hbt ho hs (hp.input (hd.input S hS T hT o' hm')) (some fun _ => 0) (by simp)⟩
  · have hpt := localPart_of ((mol.ecpOf mol.charges[ic]).data lib.gen) _ (List.mem_singleton.2 rfl)
    have e2 : mol.coord[ic]'(by rw [hm.coord]; exact hic') = mol.atoms[ic].2 := by rw [ea]
    have e3 : mol.coord[ip]'(by rw [hm.coord]; exact hip') = mol.atoms[ip].2 := by rw [ea]
    rw [e2, e3]
    exact full_gradient_undefined lib hi hbt ho hs (hpt.input hin) hA0 hA0 _ _ hM
      (fun hc => hoA ((hat.iff (hat.on _ hA) hon).1 hc.1)) (Or.inl (by rw [ec]; exact points_equal_refl _))

end

theorem rd_map {α β : Type} (f : α → β) (l : List α) (i : Nat) : rd (l.map f) i = rd l i >>= fun x => .ok (f x) := by
  by_cases hi : i < l.length
  · rw [rd_ok hi, rd_ok (by simpa using hi)]
    simp
  · rw [rd_ub (by simpa using hi), rd_ub (by simpa using hi)]
    rfl

/-- **C108** (outer-core potentials). The gradients do not depend on the outer-core functions and potentials: two molecules which differ in nothing else give
the same outcome. -/
theorem fortran_gradient_ignores_outer_core {G : Type} (lib : Lib G) (sf : SpecFun) (mol : FMol) (f : FEcpRow → FEcpRow)
    (hf : ∀ r, (f r).numPrim = r.numPrim ∧ (f r).alpha = r.alpha ∧ (f r).powers = r.powers ∧ (f r).arep = r.arep ∧ (f r).esop = r.esop)
    (junk : Nat → Nat → Nat → Nat → FGradCall → Nat → Option (Nat → ℝ)) (cl : List Comp) (dim : Nat) (h : Store) (buf : Fin 3 → List ℝ)
    (bufSO : Fin 3 × Fin 3 → List ℝ) (out : List Grads) :
    ftnGradients lib sf junk { mol with ecp := mol.ecp.map fun e => { e with rows := e.rows.map f } } cl dim h buf bufSO out =
      ftnGradients lib sf junk mol cl dim h buf bufSO out := by
  have hpot : ∀ r, (f r).pot (f r).arep = r.pot r.arep ∧ (f r).pot (f r).esop = r.pot r.esop := by
    intro r
    obtain ⟨h1, h2, h3, h4, h5⟩ := hf r
    simp only [FEcpRow.pot, h1, h2, h3, h4, h5, and_self]
  have hatom : ∀ (junk : FGradCall → Nat → Option (Nat → ℝ)) io jo n1 n2 ip a b C D (e : FEcp) st,
      ftnGradAtom lib sf junk dim io jo n1 n2 ip a b C D { e with rows := e.rows.map f } st =
        ftnGradAtom lib sf junk dim io jo n1 n2 ip a b C D e st := by
    intro junk io jo n1 n2 ip a b C D e st
    have r1 : ∀ i, rd1 (e.rows.map f) i = rd1 e.rows i >>= fun x => .ok (f x) := by
      intro i
      unfold rd1
      split_ifs
      · rfl
      · exact rd_map f _ _
    simp only [ftnGradAtom, ftnGradLocal, ftnGradSemilocal, ftnGradSO, r1, rd_map, bind_assoc, Outcome.ok_bind, hpot]
  have hpass : ∀ (junk : FGradCall → Nat → Option (Nat → ℝ)) io jo n1 n2 ip a b ic st,
      ftnGradPass lib sf junk { mol with ecp := mol.ecp.map fun e => { e with rows := e.rows.map f } } dim io jo n1 n2 ip a b ic st =
        ftnGradPass lib sf junk mol dim io jo n1 n2 ip a b ic st := by
    intro junk io jo n1 n2 ip a b ic st
    have r1 : ∀ i, rd1 (mol.ecp.map fun e => { e with rows := e.rows.map f }) i = rd1 mol.ecp i >>= fun e => .ok { e with rows := e.rows.map f } := by
      intro i
      unfold rd1
      split_ifs
      · rfl
      · exact rd_map _ _ _
    simp only [ftnGradPass, r1, bind_assoc, Outcome.ok_bind, hatom]
  simp only [ftnGradients, hpass]
  rfl

/-! ## Examples -/

theorem ftnMolExample_grad (n : Nat) : GradDriverInput cartesianDirac ((ftnMolExample n).libShells cartesianDirac) (ftnMolExample n).atoms
    ((ftnMolExample n).grpps cartesianDirac) := by
  have h := ftnMolExample_input n
  have hat : AtomsOk [exampleShell, sShell] [(1, exampleShell.origin), (2, fun _ => 0)] := by
    obtain ⟨h1, h2⟩ := atomsOk_example
    refine ⟨fun s hs => ?_, fun a ha b hb => h2 a (by simpa [or_comm] using ha) b (by simpa [or_comm] using hb)⟩
    obtain ⟨a, ha, e⟩ := h1 s hs
    exact ⟨a, by simpa [or_comm] using ha, e⟩
  refine ⟨fun A hA B hB o hm => ?_, by rw [ftnMolExample_shells]; exact hat, h.charge, h.dim⟩
  have hops : moleculeGrpps (ftnMolExample n).atoms ((ftnMolExample n).grpps cartesianDirac) = [((ftnEcpExample n).data cartesianDirac, fun _ => 0)] := by
    have hg : (ftnMolExample n).grpps cartesianDirac = [none, none, some ((ftnEcpExample n).data cartesianDirac)] := by
      simp [FMol.grpps, ftnMolExample, ftnEcpExample]
    rw [hg]
    rfl
  rw [hops, List.mem_singleton] at hm
  subst hm
  rw [ftnMolExample_shells] at hA hB
  have key : GradInput cartesianDirac A B (fun _ => 0) grppExample :=
    gradDriverInput_example.input A hA B hB (grppExample, fun _ => 0) (by simp [moleculeGrpps])
  exact ⟨key.made_bra, key.made_ket, key.L_bra, key.L_ket, key.num_bra, key.num_ket, key.kept_bra, key.kept_ket, key.place,
    ftnEcpExample_ready n _ _ (Nat.succ_le_succ key.L_bra) (key.L_ket.trans (by omega)) _,
    ftnEcpExample_ready n _ _ (key.L_bra.trans (by omega)) (Nat.succ_le_succ key.L_ket) _⟩

theorem ftnMolExample_L (n : Nat) : ∀ a ∈ (ftnMolExample n).shells, a.L ≤ 9 := by
  intro a ha
  have : a.shell cartesianDirac ∈ (ftnMolExample n).libShells cartesianDirac := List.mem_map_of_mem ha
  rw [ftnMolExample_shells] at this
  have hl : (a.shell cartesianDirac).L = a.L := rfl
  simp only [List.mem_cons, List.not_mem_nil, or_false] at this
  rcases this with h | h
  · rw [h] at hl; simp [exampleShell] at hl; omega
  · rw [h] at hl; simp [sShell] at hl; omega

/-- All preconditions can be met at once, for any number of outer-core functions. With the assumption on out-of-bounds reads the program fills the matrices;
without it there is no defined result. -/
example (prm : LibParams ℕ) (screen : Screen) (n : Nat) (out : List Grads) (hlen : out.length = 2) (hout : ∀ M ∈ out, ∀ qk, (M qk).length = 16) :
    ∃ (bt : BesselTab) (sf : SpecFun),
      (∃ h' out', Restored ftnEmptyStore h' ∧ ftnGradients ⟨true, prm, bt, cartesianDirac, screen⟩ sf (fun _ _ _ _ _ _ => some fun _ => 7) (ftnMolExample n)
        (List.replicate 100 (0, 0, 0)) 4 ftnEmptyStore (fun _ => List.replicate maxBuf 1) (fun _ => List.replicate maxBuf 1) out = .ok (h', out')) ∧
      ftnGradients ⟨true, prm, bt, cartesianDirac, screen⟩ sf (fun _ _ _ _ _ _ => none) (ftnMolExample n) (List.replicate 100 (0, 0, 0)) 4 ftnEmptyStore
        (fun _ => List.replicate maxBuf 1) (fun _ => List.replicate maxBuf 1) out = .ub := by
  have he : LdblEps (1 / 2 ^ 63) := ⟨by norm_num, by norm_num⟩
  obtain ⟨d, hd⟩ := dawson_total he
  obtain ⟨bt, -, hbt⟩ := type2_tables besselTab0
  have hl : (basisComps ((ftnMolExample n).libShells cartesianDirac)).length = 4 := by rw [ftnMolExample_shells, example_basis]
  have hw : ftnEmptyStore.WF := fun _ _ => rfl
  obtain ⟨V, -, hV⟩ := fortran_gradient_partial (⟨true, prm, bt, cartesianDirac, screen⟩ : Lib ℕ) rfl hbt (Or.inl rfl) (sf := ⟨boysLiteral, d⟩)
    ⟨he, rfl, hd⟩ (ftnMolExample n) (ftnMolExample_ok n) (ftnMolExample_ecp n).1 (ftnMolExample_L n) (ftnMolExample_grad n)
  refine ⟨bt, ⟨boysLiteral, d⟩, ?_, ?_⟩
  · obtain ⟨h', out', r, e, -⟩ := hV (fun _ _ _ _ _ _ => some fun _ => 7) (fun _ _ _ _ _ _ => Or.inl (by simp)) (List.replicate 100 (0, 0, 0))
      ftnEmptyStore (fun _ => List.replicate maxBuf 1) (fun _ => List.replicate maxBuf 1) out (by simp) hw (by simp) (by simp) hlen (fun M hM qk => by
        change _ = (basisComps ((ftnMolExample n).libShells cartesianDirac)).length * (basisComps ((ftnMolExample n).libShells cartesianDirac)).length
        rw [hl]; exact hout M hM qk)
    change ftnGradients _ _ _ _ _ (basisComps ((ftnMolExample n).libShells cartesianDirac)).length _ _ _ _ = _ at e
    rw [hl] at e
    exact ⟨h', out', r, e⟩
  · have := fortran_gradient_undefined (⟨true, prm, bt, cartesianDirac, screen⟩ : Lib ℕ) rfl hbt (Or.inl rfl) (sf := ⟨boysLiteral, d⟩)
      ⟨he, rfl, hd⟩ (ftnMolExample n) (ftnMolExample_ok n) (ftnMolExample_ecp n).1 (ftnMolExample_L n) (ftnMolExample_grad n) exampleShell
      (by change _ ∈ (ftnMolExample n).libShells cartesianDirac; rw [ftnMolExample_shells]; simp) (by simp [exampleShell])
      ((ftnEcpExample n).data cartesianDirac, fun _ => 0) (by
        change _ ∈ moleculeGrpps (ftnMolExample n).atoms ((ftnMolExample n).grpps cartesianDirac)
        have hg : (ftnMolExample n).grpps cartesianDirac = [none, none, some ((ftnEcpExample n).data cartesianDirac)] := by
          simp [FMol.grpps, ftnMolExample, ftnEcpExample]
        rw [hg]
        exact List.mem_singleton.2 rfl) (fun h => by
          have := congrFun h 1
          simp [exampleShell] at this) (List.replicate 100 (0, 0, 0)) (by simp)
      ftnEmptyStore hw (fun _ => List.replicate maxBuf 1) (fun _ => List.replicate maxBuf 1) (by simp) (by simp) out hlen (fun M hM qk => by
        change _ = (basisComps ((ftnMolExample n).libShells cartesianDirac)).length * (basisComps ((ftnMolExample n).libShells cartesianDirac)).length
        rw [hl]; exact hout M hM qk)
    change ftnGradients _ _ _ _ _ (basisComps ((ftnMolExample n).libShells cartesianDirac)).length _ _ _ _ = _ at this
    rw [hl] at this
    exact this

end Libgrpp
