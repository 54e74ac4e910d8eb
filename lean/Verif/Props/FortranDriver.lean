import Verif.Lemmas.FortranEcp

/-! # C107: molecular matrices of the Fortran front end

`mol.shells`, `mol.atoms` and `mol.grpps gen` are the shells, the atoms and the pseudopotentials which the arrays of the Fortran modules describe, and
`FMol.Ok`, `FMol.EcpOk` say that no counter exceeds the size of its array (file `Verif/Lemmas/FortranDriver.lean`). The driver in C is the one of C97,
C98 and C100. -/

namespace Libgrpp

/-- The shells of the molecule as the library makes them. -/
noncomputable def FMol.libShells (gen : Nat → List Comp) (mol : FMol) : List Shell := mol.shells.map (FShell.shell gen)

/-! ## C107, basis functions -/

/-- **C107** (components). `generate_cartesians` makes the components in the same order as the library by default. -/
theorem fortran_cartesians (L : Nat) (hL : L ≤ 12) (list : List Comp) (hl : list.length = 100) :
    ∃ rest, generateCartesians L list = .ok (cartesianDirac L ++ rest, (cartesianDirac L).length) := by
  refine ⟨list.drop (cartSize L), ?_⟩
  rw [(cartesian_dirac_complete L).1]
  refine generateCartesians_spec L list ?_
  rw [hl]
  have : (L + 1) * (L + 2) ≤ 13 * 14 := Nat.mul_le_mul (by omega) (by omega)
  unfold cartSize
  omega

/-- **C107** (dimension). `cart_basis_size` is the number of basis functions. -/
theorem fortran_basis_size (gen : Nat → List Comp) (mol : FMol) (hm : mol.Ok) :
    cartBasisSize mol = .ok (basisComps (mol.libShells gen)).length := by
  have hl : mol.atoms.length = mol.charges.length := by simp [FMol.atoms, hm.coord]
  have hblk : ∀ (b : FBasis) (O : Point), b.Ok → ∀ s, (forRange b.numBlocks s fun L size => do
      let blk ← rd b.blocks L
      Outcome.ok (size + blk.numContr * (L + 1) * (L + 2) / 2)) = .ok (s + dimOf ((b.shells O).map (FShell.shell gen))) := by
    intro b O hb s
    have key : ∀ n ≤ b.numBlocks, (forRange n s fun L size => do
        let blk ← rd b.blocks L
        Outcome.ok (size + blk.numContr * (L + 1) * (L + 2) / 2)) = .ok (s + dimOf (((List.range n).flatMap fun L =>
          (List.range (b.block L).numContr).map fun f => (⟨O, L, (b.block L).numPrim, (b.block L).coeffs.getD f [], (b.block L).exponents⟩ : FShell)).map
            (FShell.shell gen))) := by
      intro n
      induction n with
      | zero => intro _; rfl
      | succ n ih =>
        intro hn
        have hlt : n < b.blocks.length := by have := hb.blocks; omega
        have e : b.block n = b.blocks[n] := by simp [FBasis.block, List.getD, hlt]
        rw [forRange_succ, ih (by omega), Outcome.ok_bind, rd_ok hlt, Outcome.ok_bind, List.range_succ]
        congr 1
        simp only [dimOf, List.flatMap_append, List.map_append, List.sum_append, List.flatMap_cons, List.flatMap_nil, List.append_nil, List.map_map,
          ← e, Nat.add_assoc]
        congr 2
        have : (Shell.cart_size ∘ FShell.shell gen ∘ fun f => (⟨O, n, (b.block n).numPrim, (b.block n).coeffs.getD f [], (b.block n).exponents⟩ : FShell)) =
            fun _ => cartSize n := rfl
        rw [this, List.map_const', List.sum_replicate, List.length_range, smul_eq_mul, Nat.mul_assoc]
        unfold cartSize
        obtain ⟨k, hk⟩ := Nat.even_mul_succ_self (n + 1)
        have hk' : (n + 1) * (n + 2) = 2 * k := by rw [← two_mul] at hk; exact hk
        rw [hk', Nat.mul_div_cancel_left _ (by norm_num), Nat.mul_left_comm, Nat.mul_div_cancel_left _ (by norm_num)]
    exact key b.numBlocks le_rfl
  have key : ∀ n ≤ mol.charges.length, (forRange n 0 fun i size => do
      let z ← rd mol.charges i
      let b ← rd1 mol.basis z
      forRange b.numBlocks size fun L size => do
        let blk ← rd b.blocks L
        Outcome.ok (size + blk.numContr * (L + 1) * (L + 2) / 2)) =
          .ok (dimOf (((mol.atoms.take n).flatMap fun a => (mol.basisOf a.1).shells a.2).map (FShell.shell gen))) := by
    intro n
    induction n with
    | zero => intro _; rfl
    | succ n ih =>
      intro hn
      have hlt : n < mol.charges.length := by omega
      have hc : n < mol.coord.length := by rw [hm.coord]; exact hlt
      obtain ⟨h1, h2, -, -⟩ := hm.charge _ (List.getElem_mem hlt)
      have hb := hm.basis _ (List.getElem_mem hlt)
      have ea : mol.atoms[n]'(by omega) = (mol.charges[n], mol.coord[n]) := by simp [FMol.atoms]
      have eb : rd1 mol.basis mol.charges[n] = .ok (mol.basisOf mol.charges[n]) := by
        unfold rd1 FMol.basisOf
        rw [if_neg (by omega), rd_ok (show mol.charges[n] - 1 < mol.basis.length by omega), List.getD_eq_getElem _ _ (by omega)]
      rw [forRange_succ, ih (by omega), Outcome.ok_bind, rd_ok hlt, Outcome.ok_bind, eb, Outcome.ok_bind, hblk _ mol.coord[n] hb,
        List.take_succ_eq_append_getElem (by omega), ea]
      congr 1
      simp only [dimOf, List.flatMap_append, List.map_append, List.sum_append, List.flatMap_cons, List.flatMap_nil, List.append_nil]
  have := key _ le_rfl
  rw [← hl, List.take_length, hl] at this
  rw [basisComps_length]
  exact this

/-! ## C107, overlap -/

/-- **C107** (overlap). For all molecules within the limits of the library the Fortran program fills the matrix with the overlap integrals of all pairs
of basis functions, gives back all memory, and the matrix is the one the driver in C makes. -/
theorem fortran_overlap {gen : Nat → List Comp} (ho : DocumentedOrder gen) (mol : FMol) (hm : mol.Ok)
    (hs : ∀ s ∈ mol.libShells gen, s.InMolecule gen) (cl : List Comp) (hcl : cl.length = 100) (h : Store) (hw : h.WF) (buf M : List ℝ)
    (hb : maxBuf ≤ buf.length) (hM : M.length = (basisFns (mol.libShells gen)).length * (basisFns (mol.libShells gen)).length) :
    ∃ h' M', Restored h h' ∧ ftnOverlapMatrix gen mol cl (basisFns (mol.libShells gen)).length h buf M = .ok (h', M') ∧
      IsMatrixOf (mol.libShells gen) (fun f g => ∫ r, f r * g r) M M' ∧
      ((basisFns (mol.libShells gen)).length * (basisFns (mol.libShells gen)).length ≤ 2147483648 → ∀ bufC MC : List ℝ, maxBuf ≤ bufC.length →
        MC.length = M.length → evalOverlap (mol.libShells gen) bufC MC = .ok M') := by
  generalize hsh : mol.libShells gen = shells at *
  rw [basisFns_length] at hM ⊢
  have hmem : ∀ a ∈ mol.shells, a.shell gen ∈ shells := fun a ha => by rw [← hsh]; exact List.mem_map_of_mem ha
  have h55 : ∀ a ∈ mol.shells, cartSize a.L ≤ 55 := fun a ha => (hs _ (hmem a ha)).size_le
  have hrun : ∀ A B, A.InMolecule gen → B.InMolecule gen → ∀ buf : List ℝ, A.cart_size * B.cart_size ≤ buf.length →
      ∃ out, overlapIntegrals A B buf = .ok out ∧ out.length = buf.length ∧
        MatIs A.cart_size B.cart_size out fun m n => ∫ r, basisFn A m r * basisFn B n r := fun A B hA hB buf hl => by
    obtain ⟨out, e, l, v, -⟩ := overlap_true A B hA.made.wf hB.made.wf (hA.made.listed ho) (hB.made.listed ho) hA.made.pos hB.made.pos hA.L9 hB.L9
      buf hl
    exact ⟨out, e, l, v⟩
  obtain ⟨s', e, hI, ad⟩ := forFPairs_spec (κ := Unit) hm gen ⟨0, fun _ => 0, 0, [], 0, [], []⟩ (cl := cl)
    (fun a ha => by have := h55 a ha; omega) hsh.symm
    (fun st : Store × List ℝ × List ℝ => Restored h st.1 ∧ maxBuf ≤ st.2.1.length ∧ dimOf shells * dimOf shells ≤ st.2.2.length) (fun _ st => st.2.2)
    (fun _ A B m n => ∫ r, basisFn A m r * basisFn B n r) (h, buf, zeroAll M) ⟨Restored.self h, hb, by rw [zeroAll_length, hM]⟩
    (body := fun io jo n1 n2 a b st => do
      let c ← ftnOverlap gen st.1 a b st.2.1
      let m ← updateMatrixPart (dimOf shells) st.2.2 io jo c.2 n1 n2
      Outcome.ok (c.1, c.2, m))
    (by
      rintro a ha b hb io jo ⟨h1, buf, m⟩ hr hc ⟨r1, b1, m1⟩
      obtain ⟨out, e1, l1, v1⟩ := hrun _ _ (hs _ (hmem a ha)) (hs _ (hmem b hb)) buf
        (((Nat.mul_le_mul (h55 a ha) (h55 b hb)).trans (by unfold maxBuf; omega)).trans b1)
      obtain ⟨h2, r2, ef⟩ := (forwards_shells gen (r1.wf' hw) a b fun A B => overlapIntegrals A B buf).ok (v := out) (by
        rw [(hm.shell ha).make, Outcome.ok_bind, (hm.shell hb).make, Outcome.ok_bind, e1])
      have ef' : ftnOverlap gen h1 a b buf = .ok (h2, out) := ef
      obtain ⟨m', e2, a2⟩ := updateMatrixPart_spec hr hc v1 m m1
      refine ⟨(h2, out, m'), ?_, ⟨r1.then r2, b1.trans_eq l1.symm, m1.trans_eq a2.len.symm⟩, fun _ => a2⟩
      simp only [ef', Outcome.ok_bind]
      erw [e2]
      rfl)
  obtain ⟨hl, hv⟩ := added_zero (E := fun A B m n => ∫ r, basisFn A m r * basisFn B n r) hM (ad ())
  refine ⟨s'.1, s'.2.2, hI.1, ?_, ?_, fun hd bufC MC hbC hMC => ?_⟩
  · unfold ftnOverlapMatrix
    rw [e]
    rfl
  · exact isMatrixOf_of ⟨by rw [hl, hM], fun p hp => by rw [List.getElem?_eq_none (by omega), List.getElem?_eq_none (by omega)]⟩ hv
  · obtain ⟨M2, e2, h1, h2⟩ := evalMatrix_spec (run := overlapIntegrals) hrun shells hs hd bufC MC hbC (by omega)
    have : s'.2.2 = M2 := matrix_ext hl (by rw [h1.1]; omega) (E := fun A B m n => ∫ r, basisFn A m r * basisFn B n r) hv h2
    rw [this]
    exact e2

/-! ## C107, nuclear attraction -/

/-- **C107** (nuclear attraction). For all molecules within the limits of the library the Fortran program makes the same matrix as the driver in C does
for point nuclei, whatever arrays and buffers held before, and gives back all memory. The matrix is the one described by C100. -/
theorem fortran_nuclear {G : Type} (env : NucEnv G) (hi : env.init = true) (hbo : env.sf.boys = boysLiteral) {gen : Nat → List Comp}
    (ho : DocumentedOrder gen) (mol : FMol) (hm : mol.Ok) (hn : NuclearInput gen (mol.libShells gen) mol.atoms)
    (hr : ∀ A ∈ mol.libShells gen, ∀ B ∈ mol.libShells gen, ∀ a ∈ mol.atoms, InRange A B a.2 1 0) :
    ∃ M' : List ℝ,
      (∀ (cl : List Comp) (mp : List ℝ) (h : Store) (buf M : List ℝ), cl.length = 100 → h.WF → maxBuf ≤ buf.length →
        M.length = (basisComps (mol.libShells gen)).length * (basisComps (mol.libShells gen)).length →
        ∃ h', Restored h h' ∧ ftnNuclearMatrix gen env mol cl (basisComps (mol.libShells gen)).length mp h buf M = .ok (h', M')) ∧
      ∀ buf M : List ℝ, maxBuf ≤ buf.length →
        M.length = (basisComps (mol.libShells gen)).length * (basisComps (mol.libShells gen)).length →
        evalNuclear env modelPoint (mol.libShells gen) mol.atoms buf M = .ok M' := by
  have hd := hn.dim
  generalize hsh : mol.libShells gen = shells at *
  rw [basisComps_length] at hd ⊢
  have hmem : ∀ a ∈ mol.shells, a.shell gen ∈ shells := fun a ha => by rw [← hsh]; exact List.mem_map_of_mem ha
  have h55 : ∀ a ∈ mol.shells, cartSize a.L ≤ 55 := fun a ha => (hn.usable _ (hmem a ha)).size_le
  have hv : ∀ (A B : Shell) (a : Nat × Point), ∃ W : ℕ → ℕ → ℝ, A ∈ shells → B ∈ shells → a ∈ mol.atoms →
      ∀ (mp out : List ℝ), A.cart_size * B.cart_size ≤ out.length →
        ∃ out', nuclearAttraction env A B a.2 a.1 modelPoint mp out = .ok out' ∧ out'.length = out.length ∧ MatIs A.cart_size B.cart_size out' W := by
    intro A B a
    by_cases hc : A ∈ shells ∧ B ∈ shells ∧ a ∈ mol.atoms
    · obtain ⟨hA, hB, ha⟩ := hc
      obtain ⟨M, -, -, h1, -⟩ := point_nucleus env hi hbo A B ((hn.usable A hA).made.supported ho (hn.usable A hA).L9)
        ((hn.usable B hB).made.supported ho (hn.usable B hB).L9) a.2 (hr A hA B hB a ha)
      refine ⟨fun m n => -((a.1 : Int) : ℝ) * M m n, fun _ _ _ mp out hl => ?_⟩
      obtain ⟨out', e, l, v, -⟩ := h1 a.1 mp out (by omega) hl
      exact ⟨out', e, l, v⟩
    · exact ⟨fun _ _ => 0, fun hA hB ha => absurd ⟨hA, hB, ha⟩ hc⟩
  choose W hW using hv
  have hf : NucFills env modelPoint shells mol.atoms W := fun a ha =>
    ⟨_, [], massNumber_table (hn.charge a ha), rfl, fun A hA B hB buf hl => hW A B a hA hB ha [] buf hl⟩
  have hfit : ∀ A ∈ shells, ∀ B ∈ shells, A.cart_size * B.cart_size ≤ maxBuf := fun A hA B hB =>
    (Nat.mul_le_mul (hn.usable A hA).size_le (hn.usable B hB).size_le).trans (by unfold maxBuf; omega)
  have hC := fun (buf M : List ℝ) (hb : maxBuf ≤ buf.length) (hM : M.length = dimOf shells * dimOf shells) =>
    evalNuclear_spec hf hd hfit buf M hb hM.ge
  obtain ⟨M', -, s0, v0⟩ := hC (List.replicate maxBuf 0) (List.replicate (dimOf shells * dimOf shells) 0) (by simp) (by simp)
  have l0 : M'.length = dimOf shells * dimOf shells := by rw [s0.1]; simp
  refine ⟨M', fun cl mp h buf M hcl hw hb hM => ?_, fun buf M hb hM => ?_⟩
  · let d : Nat × Point := (0, fun _ => 0)
    have hal : mol.atoms.length = mol.charges.length := by simp [FMol.atoms, hm.coord]
    obtain ⟨s', e, hI, ad⟩ := forFPairs_spec (κ := Unit) hm gen ⟨0, fun _ => 0, 0, [], 0, [], []⟩ (cl := cl)
      (fun a ha => by have := h55 a ha; omega) hsh.symm
      (fun st : Store × List ℝ × List ℝ => Restored h st.1 ∧ maxBuf ≤ st.2.1.length ∧ dimOf shells * dimOf shells ≤ st.2.2.length) (fun _ st => st.2.2)
      (fun _ A B m n => (mol.atoms.map fun a => W A B a m n).sum) (h, buf, zeroAll M) ⟨Restored.self h, hb, by rw [zeroAll_length, hM]⟩
      (body := fun io jo n1 n2 a b st => forRange mol.charges.length st fun ic st => do
        let zc ← rd mol.charges ic
        Outcome.valid (zc + 1 ≤ 131)
        let C ← rd mol.coord ic
        let c ← ftnNuclear gen env st.1 a b C zc modelPoint mp st.2.1
        let m ← updateMatrixPart (dimOf shells) st.2.2 io jo c.2 n1 n2
        Outcome.ok (c.1, c.2, m))
      (by
        intro a ha b hb io jo st hrow hcol hst
        obtain ⟨s', e', i', a'⟩ := added_loop (κ := Unit) (dim := dimOf shells) (n := mol.charges.length)
          (body := fun ic (st : Store × List ℝ × List ℝ) => do
            let zc ← rd mol.charges ic
            Outcome.valid (zc + 1 ≤ 131)
            let C ← rd mol.coord ic
            let c ← ftnNuclear gen env st.1 a b C zc modelPoint mp st.2.1
            let m ← updateMatrixPart (dimOf shells) st.2.2 io jo c.2 (cartSize a.L) (cartSize b.L)
            Outcome.ok (c.1, c.2, m))
          (fun _ (st : Store × List ℝ × List ℝ) => Restored h st.1 ∧ maxBuf ≤ st.2.1.length ∧ dimOf shells * dimOf shells ≤ st.2.2.length)
          (fun _ st => st.2.2)
          (fun _ ic => blockAt io jo (cartSize a.L) (cartSize b.L) (W (a.shell gen) (b.shell gen) (mol.atoms.getD ic d))) st hst (by
            rintro ic ⟨h1, buf, m⟩ hic ⟨r1, b1, m1⟩
            have hc : ic < mol.coord.length := by rw [hm.coord]; exact hic
            have hat : mol.atoms.getD ic d = (mol.charges[ic], mol.coord[ic]) := by simp [FMol.atoms, List.getD, hic, hc]
            have hmat : (mol.charges[ic], mol.coord[ic]) ∈ mol.atoms := by
              rw [← hat, List.getD_eq_getElem _ _ (by omega)]; exact List.getElem_mem _
            obtain ⟨out, e1, l1, v1⟩ := hW _ _ _ (hmem a ha) (hmem b hb) hmat mp buf ((hfit _ (hmem a ha) _ (hmem b hb)).trans b1)
            obtain ⟨h2, r2, ef⟩ := (((fortran_shells gen env h1 (r1.wf' hw) a b mol.coord[ic] mol.charges[ic] buf).2.2.2.1) modelPoint mp).ok
              (v := out) (by rw [(hm.shell ha).make, Outcome.ok_bind, (hm.shell hb).make, Outcome.ok_bind, e1])
            obtain ⟨m', e2, a2⟩ := updateMatrixPart_spec hrow hcol v1 m m1
            refine ⟨(h2, out, m'), ?_, ⟨r1.then r2, b1.trans_eq l1.symm, m1.trans_eq a2.len.symm⟩, fun _ => by rw [hat]; exact a2⟩
            rw [rd_ok hic, Outcome.ok_bind, Outcome.valid_pos (by have := (hm.charge _ (List.getElem_mem hic)).2.2.2; omega), Outcome.ok_bind, rd_ok hc,
              Outcome.ok_bind]
            simp only [ef, Outcome.ok_bind]
            erw [e2]
            rfl)
        refine ⟨s', e', i', fun _ => (a' ()).congr fun p q _ _ => ?_⟩
        rw [blockAt_range, ← hal]
        congr 1
        funext m n
        exact sum_range_list mol.atoms d fun x => W (a.shell gen) (b.shell gen) x m n)
    obtain ⟨hl, hv⟩ := added_zero (E := fun A B m n => (mol.atoms.map fun a => W A B a m n).sum) hM (ad ())
    have : s'.2.2 = M' := matrix_ext hl l0 (E := fun A B m n => (mol.atoms.map fun a => W A B a m n).sum) hv v0
    refine ⟨s'.1, hI.1, ?_⟩
    unfold ftnNuclearMatrix
    rw [e, ← this]
    rfl
  · obtain ⟨M2, e2, h1, h2⟩ := hC buf M hb hM
    have : M' = M2 := matrix_ext l0 (by rw [h1.1]; exact hM) (E := fun A B m n => (mol.atoms.map fun a => W A B a m n).sum) v0 h2
    rw [this]
    exact e2

/-! ## C107, pseudopotentials -/

/-- What the Fortran program makes of the pseudopotentials: `M'`, whatever arrays and buffers held before; all memory is given back. -/
def FtnFills {G : Type} (lib : Lib G) (sf : SpecFun) (mol : FMol) (M' : Fin 4 → List ℝ) : Prop :=
  ∀ (cl : List Comp) (t0 : FOcTable) (h : Store) (buf M : Fin 4 → List ℝ), cl.length = 100 → t0.Sized 20 → h.WF → (∀ k, maxBuf ≤ (buf k).length) →
    (∀ k, (M k).length = (basisComps (mol.libShells lib.gen)).length * (basisComps (mol.libShells lib.gen)).length) →
    ∃ h', Restored h h' ∧ ftnEcpMatrices lib sf mol cl t0 (basisComps (mol.libShells lib.gen)).length h buf M = .ok (h', M')

/-- **C107** (pseudopotentials). For all molecules which meet the preconditions of C98, with at most 20 outer-core functions per element, the Fortran
program fills the same four matrices as the driver in C, and each element is within the sum of the bounds of C86 of the sum of the matrix elements of all
pseudopotentials. -/
theorem fortran_grpp_partial {G : Type} (lib : Lib G) (hi : lib.init = true) (hbt : BesselOk lib.bt) (ho : DocumentedOrder lib.gen) {eps : ℝ}
    {sf : SpecFun} (hs : LibSpec eps sf) (mol : FMol) (hm : mol.Ok) (he : mol.EcpOk)
    (hd : DriverInput lib.gen (mol.libShells lib.gen) mol.atoms (mol.grpps lib.gen))
    (hoc : ∀ z ∈ mol.charges, (mol.ecpOf z).numArep ≠ 0 → (mol.ecpOf z).ocList.length ≤ 20) :
    ∃ (Q : Shell → Shell → GrppData × Point → Potential → ℕ → ℕ → ℕ → ℝ) (M' : Fin 4 → List ℝ),
      (∀ A ∈ mol.libShells lib.gen, ∀ B ∈ mol.libShells lib.gen, ∀ o ∈ moleculeGrpps mol.atoms (mol.grpps lib.gen), ∀ u ∈ o.1.arep ++ o.1.esop,
        RadialTable lib A B o.2 u (Q A B o u)) ∧
      (∀ (k : Fin 4) (p q : ℕ) (A B : Shell) (m n : ℕ), (basisComps (mol.libShells lib.gen))[p]? = some (A, m) →
        (basisComps (mol.libShells lib.gen))[q]? = some (B, n) → ∃ v, (M' k)[p * (basisComps (mol.libShells lib.gen)).length + q]? = some v ∧
          |v - ((moleculeGrpps mol.atoms (mol.grpps lib.gen)).map fun o => grppElement A B o.2 o.1 k m n).sum| ≤
            ((moleculeGrpps mol.atoms (mol.grpps lib.gen)).map fun o => grppErr A B o.2 o.1 (Q A B o) k m n).sum) ∧
      FtnFills lib sf mol M' ∧
      ∀ (order : ℕ → List ℕ) (bufs : ℕ → Fin 4 → List ℝ) (M : Fin 4 → List ℝ), (∀ n, (order n).Perm (List.range n)) →
        (∀ i k, maxBuf ≤ (bufs i k).length) →
        (∀ k, (M k).length = (basisComps (mol.libShells lib.gen)).length * (basisComps (mol.libShells lib.gen)).length) →
        evalGrpp (libKernels lib sf) (mol.libShells lib.gen) mol.atoms (mol.grpps lib.gen) order bufs M = .ok M' := by
  obtain ⟨Q, V, hQ, hV, hC⟩ := molecular_grpp lib hi hbt ho hs _ _ _ hd
  obtain ⟨W, hW⟩ := molKernels_exist lib hi hbt ho hs hd
  have hL : ∀ a ∈ mol.shells, a.L ≤ 9 := fun a ha => (hd.usable _ (List.mem_map_of_mem ha)).L9
  have hdim := hd.dim
  have hpairs := hd.pairs
  unfold FtnFills
  generalize hsh : mol.libShells lib.gen = shells at *
  have hin : ∀ s ∈ shells, s.InMolecule lib.gen := fun s hs => ⟨(hd.usable s hs).made, (hd.usable s hs).L9⟩
  rw [basisComps_length] at *
  have hfit : ∀ A ∈ shells, ∀ B ∈ shells, A.cart_size * B.cart_size ≤ maxBuf := fun A hA B hB =>
    (Nat.mul_le_mul (hin A hA).size_le (hin B hB).size_le).trans (by unfold maxBuf; omega)
  have hE := fun (order : ℕ → List ℕ) (bufs : ℕ → Fin 4 → List ℝ) (M : Fin 4 → List ℝ) (h1 : ∀ n, (order n).Perm (List.range n))
      (h2 : ∀ i k, maxBuf ≤ (bufs i k).length) (h3 : ∀ k, (M k).length = dimOf shells * dimOf shells) =>
    evalGrpp_spec (hW.fills hi) hd.charge hdim hpairs hfit h1 h2 M fun k => (h3 k).ge
  obtain ⟨M', e0, v0⟩ := hE List.range (fun _ _ => List.replicate maxBuf 0) (fun _ => List.replicate (dimOf shells * dimOf shells) 0)
    (fun _ => List.Perm.refl _) (by simp) (by simp)
  have l0 : ∀ k, (M' k).length = dimOf shells * dimOf shells := fun k => by rw [(v0 k).1.1]; simp
  refine ⟨Q, M', hQ, fun k p q A B m n hp hq => ?_, fun cl t0 h buf M hcl ht hw hb hM => ?_, fun order bufs M h1 h2 h3 => ?_⟩
  · obtain ⟨M2, e2, h2⟩ := hC List.range (fun _ _ => List.replicate maxBuf 0) (fun _ => List.replicate (dimOf shells * dimOf shells) 0)
      (fun _ => List.Perm.refl _) (by simp) (by simp)
    obtain rfl : M' = M2 := Outcome.ok.inj (e0.symm.trans e2)
    have hp' := (List.getElem?_eq_some_iff.1 hp).1
    have hq' := (List.getElem?_eq_some_iff.1 hq).1
    rw [basisComps_length] at hp' hq'
    exact ⟨_, (h2 k).2 p q hp' hq', hV k p q A B m n hp hq⟩
  · obtain ⟨h', M2, r, e, v⟩ := ftnEcpMatrices_spec hm he hL hi (by unfold FMol.libShells at hsh; rw [hsh]; exact hW) ht hoc hcl hw hsh.symm hb hM
    have : M2 = M' := funext fun k => matrix_ext (v k).1 (l0 k)
      (E := fun A B m n => ((moleculeGrpps mol.atoms (mol.grpps lib.gen)).map fun o => W A B o k m n).sum) (v k).2 (v0 k).2
    exact ⟨h', r, by rw [e, this]⟩
  · obtain ⟨M2, e, v⟩ := hE order bufs M h1 h2 h3
    have : M2 = M' := funext fun k => matrix_ext (by rw [(v k).1.1]; exact h3 k) (l0 k)
      (E := fun A B m n => ((moleculeGrpps mol.atoms (mol.grpps lib.gen)).map fun o => W A B o k m n).sum) (v k).2 (v0 k).2
    rw [e, this]

/-! ## C107, undefined behaviour -/

/-- **C107** (negative part). The driver in C allows for more than 20 outer-core functions of an element; the Fortran program then writes beyond the ends
of its local arrays. -/
theorem fortran_outer_core_overflow {G : Type} (lib : Lib G) (hi : lib.init = true) (hbt : BesselOk lib.bt) (ho : DocumentedOrder lib.gen) {eps : ℝ}
    {sf : SpecFun} (hs : LibSpec eps sf) (mol : FMol) (hm : mol.Ok) (he : mol.EcpOk) (hne : mol.shells ≠ [])
    (hd : DriverInput lib.gen (mol.libShells lib.gen) mol.atoms (mol.grpps lib.gen)) {z : Nat} (hz : z ∈ mol.charges)
    (hn : (mol.ecpOf z).numArep ≠ 0) (hoc : 20 < (mol.ecpOf z).ocList.length) (cl : List Comp) (t0 : FOcTable) (h : Store) (buf M : Fin 4 → List ℝ)
    (hcl : cl.length = 100) (ht : t0.Sized 20) (hw : h.WF) (hb : ∀ k, maxBuf ≤ (buf k).length)
    (hM : ∀ k, (M k).length = (basisComps (mol.libShells lib.gen)).length * (basisComps (mol.libShells lib.gen)).length) :
    ftnEcpMatrices lib sf mol cl t0 (basisComps (mol.libShells lib.gen)).length h buf M = .ub := by
  obtain ⟨W, hW⟩ := molKernels_exist lib hi hbt ho hs hd
  have hL : ∀ a ∈ mol.shells, a.L ≤ 9 := fun a ha => (hd.usable _ (List.mem_map_of_mem ha)).L9
  rw [basisComps_length] at *
  exact ftnEcpMatrices_ub hm he hL hne hi hW ht hz hn hoc hcl hw rfl hb hM

/-- **C107** (negative part). An atom of charge 0, a centre with basis functions and no nucleus, is accepted by the driver in C. In the Fortran program
the arrays have no element for charge 0, and their size is exceeded before any integral is calculated. -/
theorem fortran_ghost_atom (mol : FMol) (hz : 0 ∈ mol.charges) : cartBasisSize mol = .ub := by
  obtain ⟨k, hk, e⟩ := List.getElem_of_mem hz
  unfold cartBasisSize
  refine (forRange_okUb (fun _ _ => True) trivial fun i s hi _ => ?_).2 k hk fun s _ => ?_
  · refine (okUb_rd _ _).bind fun z _ => OkUb.bind (P := fun _ => True) ?_ fun b _ => ?_
    · unfold rd1
      split_ifs
      · exact Or.inr rfl
      · exact okUb_rd _ _
    · exact (forRange_okUb (fun _ _ => True) trivial fun L s _ _ => (okUb_rd _ _).bind fun _ _ => Or.inl ⟨_, rfl, trivial⟩).1
  · rw [rd_ok hk, Outcome.ok_bind, e]
    rfl

/-! ## Examples -/

/-- Two elements: the first has one contracted `p` function, the second one `s` function. -/
noncomputable def ftnBasisExample : List FBasis :=
  [⟨2, [⟨0, 0, [], []⟩, ⟨2, 1, [2, 3], [[1, 1 / 2]]⟩]⟩, ⟨1, [⟨1, 1, [1], [[1]]⟩]⟩]

/-- A local, a semilocal and a spin-orbit potential and `n` outer-core functions with `L = 1`. -/
noncomputable def ftnEcpExample (n : Nat) : FEcp :=
  ⟨2, [⟨0, 2, [1, 4], [2, 0], [3, -1], [0, 0], [], 0, [], []⟩,
    ⟨n, 2, [1, 4], [2, 2], [3, -1], [3, -1], List.replicate n [3, -1], 2, [2, 3], List.replicate n [1, 1 / 2]⟩] ++
    List.replicate 8 ⟨0, 0, [], [], [], [], [], 0, [], []⟩⟩

/-- A molecule of two atoms; the second has a pseudopotential and sits at the origin. -/
noncomputable def ftnMolExample (n : Nat) : FMol := ⟨[1, 2], [exampleShell.origin, fun _ => 0], ftnBasisExample, [⟨0, []⟩, ftnEcpExample n]⟩

theorem ftnMolExample_shells (n : Nat) : (ftnMolExample n).libShells cartesianDirac = [exampleShell, sShell] := by
  have e1 : cartesianDirac 1 = [(1, 0, 0), (0, 1, 0), (0, 0, 1)] := by decide
  have e0 : cartesianDirac 0 = [(0, 0, 0)] := by decide
  simp [FMol.libShells, FMol.shells, FMol.atoms, ftnMolExample, FMol.basisOf, ftnBasisExample, FBasis.shells, FBasis.block, FShell.shell, exampleShell,
    sShell, cartSize, List.range_succ, e1, e0]

theorem ftnMolExample_ok (n : Nat) : (ftnMolExample n).Ok := by
  refine ⟨rfl, fun z hz => ?_, fun z hz => ?_⟩
  · simp only [ftnMolExample, List.mem_cons, List.not_mem_nil, or_false] at hz
    rcases hz with rfl | rfl <;> simp [ftnMolExample, ftnBasisExample]
  · simp only [ftnMolExample, List.mem_cons, List.not_mem_nil, or_false] at hz
    rcases hz with rfl | rfl
    · refine ⟨by simp [ftnMolExample, FMol.basisOf, ftnBasisExample], fun L hL => ?_⟩
      have : L = 0 ∨ L = 1 := by simp [ftnMolExample, FMol.basisOf, ftnBasisExample] at hL; omega
      rcases this with rfl | rfl
      · exact ⟨by simp [ftnMolExample, FMol.basisOf, ftnBasisExample, FBasis.block], by simp [ftnMolExample, FMol.basisOf, ftnBasisExample, FBasis.block],
          by simp [ftnMolExample, FMol.basisOf, ftnBasisExample, FBasis.block]⟩
      · exact ⟨by simp [ftnMolExample, FMol.basisOf, ftnBasisExample, FBasis.block], by simp [ftnMolExample, FMol.basisOf, ftnBasisExample, FBasis.block],
          by simp [ftnMolExample, FMol.basisOf, ftnBasisExample, FBasis.block]⟩
    · refine ⟨by simp [ftnMolExample, FMol.basisOf, ftnBasisExample], fun L hL => ?_⟩
      have : L = 0 := by simp [ftnMolExample, FMol.basisOf, ftnBasisExample] at hL; omega
      subst this
      exact ⟨by simp [ftnMolExample, FMol.basisOf, ftnBasisExample, FBasis.block], by simp [ftnMolExample, FMol.basisOf, ftnBasisExample, FBasis.block],
        by simp [ftnMolExample, FMol.basisOf, ftnBasisExample, FBasis.block]⟩

theorem ftnEcpExample_row (n L : Nat) (hL : 1 < L) : (ftnEcpExample n).row L = ⟨0, 0, [], [], [], [], [], 0, [], []⟩ := by
  obtain ⟨k, rfl⟩ : ∃ k, L = k + 2 := ⟨L - 2, by omega⟩
  unfold FEcp.row ftnEcpExample
  simp only [List.cons_append, List.nil_append, List.getD_cons_succ]
  by_cases h : k < 8
  · rw [List.getD_eq_getElem _ _ (by simpa using h), List.getElem_replicate]
  · rw [List.getD_eq_default _ _ (by simp; omega)]

theorem ftnEcpExample_ok (n : Nat) : (ftnEcpExample n).Ok := by
  refine ⟨by simp [ftnEcpExample], by simp [ftnEcpExample], fun L hL => ?_, fun L hL hoc => ?_⟩
  · have : L = 0 ∨ L = 1 := by simp [ftnEcpExample] at hL; omega
    rcases this with rfl | rfl <;> exact ⟨by simp [ftnEcpExample, FEcp.row], by simp [ftnEcpExample, FEcp.row], by simp [ftnEcpExample, FEcp.row],
      by simp [ftnEcpExample, FEcp.row]⟩
  · have : L = 1 := by
      rcases Nat.lt_trichotomy L 1 with h | h | h
      · obtain rfl : L = 0 := by omega
        simp [ftnEcpExample, FEcp.row] at hoc
      · exact h
      · rw [ftnEcpExample_row n L h] at hoc
        simp at hoc
    subst this
    refine ⟨by simp [ftnEcpExample, FEcp.row], by simp [ftnEcpExample, FEcp.row], by simp [ftnEcpExample, FEcp.row], by simp [ftnEcpExample, FEcp.row],
      fun i hi => ?_, fun i hi => ?_, by simp [ftnEcpExample, FEcp.row]⟩
    · have : i < n := by simpa [ftnEcpExample, FEcp.row] using hi
      simp [ftnEcpExample, FEcp.row, List.getD, this]
    · have : i < n := by simpa [ftnEcpExample, FEcp.row] using hi
      simp [ftnEcpExample, FEcp.row, List.getD, this]

theorem ftnEcpExample_oc (n : Nat) : (ftnEcpExample n).ocList = (List.range n).map fun i =>
    ⟨1, ftnOcJ 1 i, ⟨2, [2, 2], [3, -1], [1, 4]⟩, 2, [1, 1 / 2], [2, 3]⟩ := by
  have e0 : (ftnEcpExample n).ocRow 0 = [] := by simp [FEcp.ocRow, ftnEcpExample, FEcp.row]
  have e1 : (ftnEcpExample n).ocRow 1 = (List.range n).map fun i => ⟨1, ftnOcJ 1 i, ⟨2, [2, 2], [3, -1], [1, 4]⟩, 2, [1, 1 / 2], [2, 3]⟩ := by
    have hn : ((ftnEcpExample n).row 1).numOc = n := rfl
    unfold FEcp.ocRow
    rw [hn]
    refine List.map_congr_left fun i hi => ?_
    have : i < n := List.mem_range.1 hi
    simp [ftnEcpExample, FEcp.row, FEcpRow.pot, List.getD, this]
  have e2 : ∀ L, 1 < L → (ftnEcpExample n).ocRow L = [] := fun L hL => by simp [FEcp.ocRow, ftnEcpExample_row n L hL]
  unfold FEcp.ocList
  rw [show List.range 10 = [0, 1, 2, 3, 4, 5, 6, 7, 8, 9] from rfl]
  simp only [List.flatMap_cons, List.flatMap_nil, e0, e1, e2 2 (by omega), e2 3 (by omega), e2 4 (by omega), e2 5 (by omega), e2 6 (by omega),
    e2 7 (by omega), e2 8 (by omega), e2 9 (by omega), List.nil_append, List.append_nil]

theorem ftnPot_example (L J : Int) (p q : Int) : FPot.pot L J ⟨2, [p, q], [3, -1], [1, 4]⟩ = ⟨L, J, 2, [p, q], [3, -1], [1, 4]⟩ := by
  have h3 : zeroThresh ≤ 3 := by unfold zeroThresh; norm_num
  have h1 : zeroThresh ≤ 1 := by unfold zeroThresh; norm_num
  have : FPot.make L J ⟨2, [p, q], [3, -1], [1, 4]⟩ = .ok ⟨L, J, 2, [p, q], [3, -1], [1, 4]⟩ := by
    unfold FPot.make newPotential copyTerms
    rw [forRange_succ, forRange_succ, forRange_zero]
    simp [rd, wr, h3, h1]
  unfold FPot.pot
  rw [this]
  rfl

theorem ftnEcpExample_data (n : Nat) : (ftnEcpExample n).data cartesianDirac =
    ⟨some { pOuterCore with L := 0, J := 0 }, [{ pPotential with L := 0 }], [{ pOuterCore with J := 0 }], (List.range n).map fun i =>
      ({ pOuterCore with J := ftnOcJ 1 i }, bindOrigin (fun _ => 0) exampleShell)⟩ := by
  have r0 : (ftnEcpExample n).row 0 = ⟨0, 2, [1, 4], [2, 0], [3, -1], [0, 0], [], 0, [], []⟩ := rfl
  have r1 : (ftnEcpExample n).row 1 = ⟨n, 2, [1, 4], [2, 2], [3, -1], [3, -1], List.replicate n [3, -1], 2, [2, 3], List.replicate n [1, 1 / 2]⟩ := rfl
  have hn : (ftnEcpExample n).numArep = 2 := rfl
  have e1 : cartesianDirac 1 = [(1, 0, 0), (0, 1, 0), (0, 0, 1)] := by decide
  unfold FEcp.data
  rw [ftnEcpExample_oc, hn]
  simp only [Nat.add_one_sub_one, Nat.reduceSub, List.range_one, List.map_cons, List.map_nil, r0, r1, zero_add, FEcpRow.pot, ftnPot_example, List.map_map,
    Function.comp_def, pOuterCore, pPotential, FShell.shell, bindOrigin, exampleShell, cartSize, e1]
  simp only [GrppData.mk.injEq, true_and, List.map_inj_left, Prod.mk.injEq, Shell.mk.injEq, and_true]
  refine ⟨by simp, by simp, fun i _ => ⟨rfl, ?_, rfl, rfl⟩⟩
  funext k
  fin_cases k <;> rfl

theorem ftnEcpExample_ready (n : Nat) (A B : Shell) (hA : A.L ≤ 9) (hB : B.L ≤ 9) (C : Point) :
    GrppReady cartesianDirac A B C ((ftnEcpExample n).data cartesianDirac) := by
  have kp : Kept [3, -1] := by
    intro c hc
    simp at hc
    right
    rcases hc with rfl | rfl <;> norm_num
  have two : ∀ {k : ℕ}, k < 2 → k = 0 ∨ k = 1 := fun h => by omega
  rw [ftnEcpExample_data]
  refine ⟨fun p hp => ?_, fun u hu => ?_, fun u hu => ?_, fun e he => ?_⟩
  · obtain rfl := Option.some.inj hp
    refine ⟨by simp [Potential.WF, pOuterCore], fun k hk => ?_⟩
    rcases two hk with rfl | rfl <;> simp [InRange, pOuterCore]
  · obtain rfl := List.mem_singleton.1 hu
    refine ⟨pPotential_ok.1, pPotential_ok.2, kp, le_rfl, by simp; omega, by simp; omega, fun _ k hk n hn => ?_⟩
    right
    rcases two hk with rfl | rfl <;> simp [pPotential] <;> omega
  · obtain rfl := List.mem_singleton.1 hu
    refine ⟨by simp [Potential.WF, pOuterCore], fun k hk => ?_, kp, by simp [pOuterCore], by simp [pOuterCore]; omega, by simp [pOuterCore]; omega,
      fun _ k hk n hn => ?_⟩
    · rcases two hk with rfl | rfl <;> simp [pOuterCore]
    · right
      rcases two hk with rfl | rfl <;> simp [pOuterCore] <;> omega
  · simp only [List.mem_map, List.mem_range] at he
    obtain ⟨i, -, rfl⟩ := he
    have hb := (pOuterCore_ready ⟨fun _ _ => 0, fun _ => 0⟩ exampleShell sShell fun _ => 0).toOcBase
    refine ⟨⟨exampleShell_made.bind (fun _ => 0), hb.L9, hb.pot, hb.sameL, ?_, hb.terms⟩, fun k hk => ?_, exampleShell_usable.kept.noTiny⟩
    · simp only [ftnOcJ, bindOrigin, exampleShell]
      rcases Nat.mod_two_eq_zero_or_one (i + 1) with h | h <;> simp [h]
    · rcases two hk with rfl | rfl <;> simp [InRange, pOuterCore]

theorem ftnMolExample_input (n : Nat) : DriverInput cartesianDirac ((ftnMolExample n).libShells cartesianDirac) (ftnMolExample n).atoms
    ((ftnMolExample n).grpps cartesianDirac) := by
  rw [ftnMolExample_shells]
  have hg : (ftnMolExample n).grpps cartesianDirac = [none, none, some ((ftnEcpExample n).data cartesianDirac)] := by
    simp [FMol.grpps, ftnMolExample, ftnEcpExample]
  have ha : (ftnMolExample n).atoms = [(1, exampleShell.origin), (2, fun _ => 0)] := rfl
  rw [hg, ha]
  generalize hgd : (ftnEcpExample n).data cartesianDirac = g
  have hops : moleculeGrpps [(1, exampleShell.origin), (2, fun _ => 0)] [none, none, some g] = [(g, fun _ => 0)] := rfl
  have h := driverInput_example
  refine ⟨h.usable, ?_, ?_, ?_, h.dim, h.pairs⟩
  · intro a ha
    simp only [List.mem_cons, List.not_mem_nil, or_false] at ha
    rcases ha with rfl | rfl <;> simp
  · intro A hA B hB o hm
    rw [hops, List.mem_singleton] at hm
    subst hm
    exact h.place A hA B hB (grppExample, fun _ => 0) List.mem_cons_self
  · intro A hA B hB o hm
    rw [hops, List.mem_singleton] at hm
    subst hm
    rw [← hgd]
    exact ftnEcpExample_ready n A B (h.usable A hA).L9 (h.usable B hB).L9 _

theorem ftnMolExample_ecp (n : Nat) : (ftnMolExample n).EcpOk ∧ ∀ z ∈ (ftnMolExample n).charges, (ftnMolExample n).ecpOf z = ⟨0, []⟩ ∨
    (ftnMolExample n).ecpOf z = ftnEcpExample n := by
  have key : ∀ z ∈ (ftnMolExample n).charges, (ftnMolExample n).ecpOf z = ⟨0, []⟩ ∨ (ftnMolExample n).ecpOf z = ftnEcpExample n := by
    intro z hz
    simp only [ftnMolExample, List.mem_cons, List.not_mem_nil, or_false] at hz
    rcases hz with rfl | rfl
    exacts [Or.inl rfl, Or.inr rfl]
  refine ⟨fun z hz hn => ?_, key⟩
  rcases key z hz with h | h
  · rw [h] at hn; exact absurd rfl hn
  · rw [h]; exact ftnEcpExample_ok n

/-- A heap without objects. -/
def ftnEmptyStore : Store := ⟨fun _ => none, 0, []⟩

/-- All preconditions can be met at once, for any number of outer-core functions up to 20: the Fortran program and the driver in C make the same matrices. -/
example (prm : LibParams ℕ) (screen : Screen) (n : Nat) (hn : n ≤ 20) : ∃ (bt : BesselTab) (sf : SpecFun) (M' : Fin 4 → List ℝ),
    FtnFills ⟨true, prm, bt, cartesianDirac, screen⟩ sf (ftnMolExample n) M' ∧
      evalGrpp (libKernels ⟨true, prm, bt, cartesianDirac, screen⟩ sf) [exampleShell, sShell] (ftnMolExample n).atoms
        ((ftnMolExample n).grpps cartesianDirac) List.range (fun _ _ => List.replicate maxBuf 0) (fun _ => List.replicate 16 0) = .ok M' := by
  have he : LdblEps (1 / 2 ^ 63) := ⟨by norm_num, by norm_num⟩
  obtain ⟨d, hd⟩ := dawson_total he
  obtain ⟨bt, -, hbt⟩ := type2_tables besselTab0
  obtain ⟨Q, M', -, -, h1, h2⟩ := fortran_grpp_partial (⟨true, prm, bt, cartesianDirac, screen⟩ : Lib ℕ) rfl hbt (Or.inl rfl) (sf := ⟨boysLiteral, d⟩)
    ⟨he, rfl, hd⟩ (ftnMolExample n) (ftnMolExample_ok n) (ftnMolExample_ecp n).1 (ftnMolExample_input n) (fun z hz _ => by
      rcases (ftnMolExample_ecp n).2 z hz with h | h
      · rw [h]
        have : (⟨0, []⟩ : FEcp).ocList = [] := rfl
        rw [this]; simp
      · rw [h, ftnEcpExample_oc]; simpa using hn)
  refine ⟨bt, _, M', h1, ?_⟩
  have := h2 List.range (fun _ _ => List.replicate maxBuf 0) (fun _ => List.replicate 16 0) (fun _ => List.Perm.refl _) (by simp) (fun k => by
    rw [basisComps_length]
    change _ = dimOf ((ftnMolExample n).libShells cartesianDirac) * dimOf ((ftnMolExample n).libShells cartesianDirac)
    rw [ftnMolExample_shells]
    simp [dimOf, exampleShell, sShell])
  have e := ftnMolExample_shells n
  change evalGrpp _ ((ftnMolExample n).libShells cartesianDirac) _ _ _ _ _ = _ at this
  rwa [e] at this

/-- With 21 outer-core functions the driver in C still succeeds, and the Fortran program has undefined behaviour. -/
example (prm : LibParams ℕ) (screen : Screen) (t0 : FOcTable) (ht : t0.Sized 20) : ∃ (bt : BesselTab) (sf : SpecFun),
    (∃ M', evalGrpp (libKernels ⟨true, prm, bt, cartesianDirac, screen⟩ sf) ((ftnMolExample 21).libShells cartesianDirac) (ftnMolExample 21).atoms
      ((ftnMolExample 21).grpps cartesianDirac) List.range (fun _ _ => List.replicate maxBuf 0) (fun _ => List.replicate 16 0) = .ok M') ∧
    ftnEcpMatrices ⟨true, prm, bt, cartesianDirac, screen⟩ sf (ftnMolExample 21) (List.replicate 100 (0, 0, 0)) t0 4 ftnEmptyStore
      (fun _ => List.replicate maxBuf 0) (fun _ => List.replicate 16 0) = .ub := by
  have he : LdblEps (1 / 2 ^ 63) := ⟨by norm_num, by norm_num⟩
  obtain ⟨d, hd⟩ := dawson_total he
  obtain ⟨bt, -, hbt⟩ := type2_tables besselTab0
  have hl : (basisComps ((ftnMolExample 21).libShells cartesianDirac)).length = 4 := by
    rw [basisComps_length, ftnMolExample_shells]; simp [dimOf, exampleShell, sShell]
  refine ⟨bt, ⟨boysLiteral, d⟩, ?_, ?_⟩
  · obtain ⟨Q, V, -, -, h⟩ := molecular_grpp (⟨true, prm, bt, cartesianDirac, screen⟩ : Lib ℕ) rfl hbt (Or.inl rfl) (sf := ⟨boysLiteral, d⟩)
      ⟨he, rfl, hd⟩ _ _ _ (ftnMolExample_input 21)
    obtain ⟨M', h1, -⟩ := h List.range (fun _ _ => List.replicate maxBuf 0) (fun _ => List.replicate 16 0) (fun _ => List.Perm.refl _) (by simp)
      (fun k => by rw [hl]; simp)
    exact ⟨M', h1⟩
  · have := fortran_outer_core_overflow (⟨true, prm, bt, cartesianDirac, screen⟩ : Lib ℕ) rfl hbt (Or.inl rfl) (sf := ⟨boysLiteral, d⟩)
      ⟨he, rfl, hd⟩ (ftnMolExample 21) (ftnMolExample_ok 21) (ftnMolExample_ecp 21).1 (fun h => by
        have := ftnMolExample_shells 21
        unfold FMol.libShells at this
        rw [h] at this
        simp at this) (ftnMolExample_input 21) (z := 2) (by simp [ftnMolExample]) (by simp [ftnMolExample, FMol.ecpOf, ftnEcpExample])
      (by
        have : (ftnMolExample 21).ecpOf 2 = ftnEcpExample 21 := rfl
        rw [this, ftnEcpExample_oc]; simp)
      (List.replicate 100 (0, 0, 0)) t0 ftnEmptyStore (fun _ => List.replicate maxBuf 0) (fun _ => List.replicate 16 0) (by simp) ht
      (fun _ _ => rfl) (by simp) (fun k => by
        change _ = (basisComps ((ftnMolExample 21).libShells cartesianDirac)).length * (basisComps ((ftnMolExample 21).libShells cartesianDirac)).length
        rw [hl]; simp)
    change ftnEcpMatrices _ _ _ _ _ (basisComps ((ftnMolExample 21).libShells cartesianDirac)).length _ _ _ = _ at this
    rwa [hl] at this

/-- Four basis functions. -/
example : cartBasisSize (ftnMolExample 3) = .ok 4 := by
  rw [fortran_basis_size cartesianDirac _ (ftnMolExample_ok 3), basisComps_length, ftnMolExample_shells]
  simp [dimOf, exampleShell, sShell]

example : generateCartesians 1 (List.replicate 100 (0, 0, 0)) = .ok ([(1, 0, 0), (0, 1, 0), (0, 0, 1)] ++ List.replicate 97 (0, 0, 0), 3) := by
  rw [generateCartesians_spec 1 _ (by simp [cartSize])]
  rfl

/-- The overlap matrix of the example. -/
example (M : List ℝ) (hM : M.length = 16) : ∃ h' M', Restored ftnEmptyStore h' ∧
    ftnOverlapMatrix cartesianDirac (ftnMolExample 0) (List.replicate 100 (0, 0, 0)) 4 ftnEmptyStore (List.replicate maxBuf 0) M = .ok (h', M') ∧
    evalOverlap [exampleShell, sShell] (List.replicate maxBuf 0) (List.replicate 16 0) = .ok M' := by
  have hl : (basisFns ((ftnMolExample 0).libShells cartesianDirac)).length = 4 := by
    rw [basisFns_length, ftnMolExample_shells]; simp [dimOf, exampleShell, sShell]
  obtain ⟨h', M', r, e, -, c⟩ := fortran_overlap (Or.inl rfl) (ftnMolExample 0) (ftnMolExample_ok 0) (fun s hs =>
    ⟨((ftnMolExample_input 0).usable s hs).made, ((ftnMolExample_input 0).usable s hs).L9⟩) (List.replicate 100 (0, 0, 0)) (by simp) ftnEmptyStore
    (fun _ _ => rfl) (List.replicate maxBuf 0) M (by simp) (by rw [hl, hM])
  have := c (by rw [hl]; norm_num) (List.replicate maxBuf 0) (List.replicate 16 0) (by simp) (by simp [hM])
  rw [hl] at e
  rw [ftnMolExample_shells] at this
  exact ⟨h', M', r, e, this⟩

/-- The nuclear attraction of the example. -/
example (prm : LibParams ℕ) (bt : BesselTab) (dw : ℝ → ℝ) (sk : SkFun) : ∃ M',
    evalNuclear (⟨true, prm, bt, ⟨boysLiteral, dw⟩, sk⟩ : NucEnv ℕ) modelPoint [exampleShell, sShell] (ftnMolExample 0).atoms (List.replicate maxBuf 0)
      (List.replicate 16 7) = .ok M' ∧ ∃ h', ftnNuclearMatrix cartesianDirac (⟨true, prm, bt, ⟨boysLiteral, dw⟩, sk⟩ : NucEnv ℕ) (ftnMolExample 0)
        (List.replicate 100 (0, 0, 0)) 4 [] ftnEmptyStore (List.replicate maxBuf 1) (List.replicate 16 8) = .ok (h', M') := by
  have hl : (basisComps ((ftnMolExample 0).libShells cartesianDirac)).length = 4 := by
    rw [basisComps_length, ftnMolExample_shells]; simp [dimOf, exampleShell, sShell]
  obtain ⟨M', h1, h2⟩ := fortran_nuclear (⟨true, prm, bt, ⟨boysLiteral, dw⟩, sk⟩ : NucEnv ℕ) rfl rfl (Or.inl rfl) (ftnMolExample 0) (ftnMolExample_ok 0)
    ⟨fun s hs => ⟨((ftnMolExample_input 0).usable s hs).made, ((ftnMolExample_input 0).usable s hs).L9⟩, fun a ha => by
      simp only [FMol.atoms, ftnMolExample, List.zip_cons_cons, List.mem_cons] at ha
      rcases ha with rfl | rfl | h
      · norm_num
      · norm_num
      · simp at h, (ftnMolExample_input 0).dim⟩ (fun A hA B hB a _ => by
      rw [ftnMolExample_shells] at hA hB
      simp only [List.mem_cons, List.not_mem_nil, or_false] at hA hB
      refine ⟨Or.inr (Or.inl rfl), le_rfl, fun _ => Or.inl ?_⟩
      rcases hA with rfl | rfl <;> rcases hB with rfl | rfl <;> simp [exampleShell, sShell])
  rw [hl] at h1 h2
  obtain ⟨h', -, e⟩ := h1 (List.replicate 100 (0, 0, 0)) [] ftnEmptyStore (List.replicate maxBuf 1) (List.replicate 16 8) (by simp) (fun _ _ => rfl) (by simp)
    (by simp)
  have := h2 (List.replicate maxBuf 0) (List.replicate 16 7) (by simp) (by simp)
  rw [ftnMolExample_shells] at this
  exact ⟨M', this, h', e⟩

example : cartBasisSize ⟨[1, 0], [fun _ => 0, fun _ => 1], ftnBasisExample, []⟩ = .ub := fortran_ghost_atom _ (by simp)

end Libgrpp
