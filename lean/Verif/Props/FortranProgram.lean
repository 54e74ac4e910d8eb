import Verif.Lemmas.FortranOutput

/-! # C112: the whole Fortran program, from its input files to its output files, and the comparison with the files of the driver in C -/

open MeasureTheory

namespace Libgrpp

/-- The two programs call the same library. -/
structure SameLibrary {G : Type} (env : FtnEnv G) (envC : ProgEnv G) : Prop where
  lib : envC.lib = env.lib
  sf : envC.sf = env.sf
  sk : envC.sk = env.sk

/-- At most 20 outer-core functions per element. -/
def CoreFits (atoms : List (Nat × Point)) (ps : List (Nat × List BasisBlock × List PotBlock)) : Prop :=
  ∀ a ∈ atoms, ∀ cs qs, firstEntry a.1 ps = some (cs, qs) → (cs.map fun b => b.nc).sum ≤ 20

theorem moleculeParts_labels {atoms : List (Nat × Point)} {fg cg : List (Option GrppData)} (h : SameLabels atoms fg cg) :
    moleculeParts ocPart atoms fg = moleculeParts ocPart atoms cg := by
  unfold moleculeParts moleculeGrpps
  induction atoms with
  | nil => rfl
  | cons a atoms ih =>
    have ih := ih fun b hb => h b (List.mem_cons_of_mem _ hb)
    rcases h a List.mem_cons_self with ⟨h1, h2⟩ | ⟨g, n, h1, h2⟩
    · have e1 : fg.getD a.1 none = none := by rw [List.getD_eq_getElem?_getD, h1]; rfl
      have e2 : cg.getD a.1 none = none := by rw [List.getD_eq_getElem?_getD, h2]; rfl
      rw [List.filterMap_cons_none (by rw [e1]; rfl), List.filterMap_cons_none (by rw [e2]; rfl), ih]
    · have e1 : fg.getD a.1 none = some g := by rw [List.getD_eq_getElem?_getD, h1]; rfl
      have e2 : cg.getD a.1 none = some (relabelLocal n g) := by rw [List.getD_eq_getElem?_getD, h2]; rfl
      rw [List.filterMap_cons_some (by rw [e1]; rfl), List.filterMap_cons_some (by rw [e2]; rfl), List.flatMap_cons, List.flatMap_cons, ih]
      rfl

/-- **C112.** For all molecules which are described to both programs by input files with the same contents, and meet the preconditions of the three
calculations, both programs succeed. They write files of the same matrices of pseudopotentials, overlap and nuclear attraction, whatever the arrays and the
buffers of the two programs held before and in whichever order the driver in C executes its parallel loop. The gradients of the driver in C differ from those
of the Fortran program by those of the outer-core terms, which are zero if there are no outer-core functions. -/
theorem fortran_program_partial {G : Type} (env : FtnEnv G) (envC : ProgEnv G) (hl : SameLibrary env envC) (hf : env.Fresh) (hC : envC.Ok)
    {xyz bas rpp : List FRecord} {mol tb te : List Char} {atoms : List (Nat × Point)} {es : List (Nat × List BasisBlock)} {entries : Nat → List BasisBlock}
    {ps : List (Nat × List BasisBlock × List PotBlock)} (h : FtnInput env.num xyz bas rpp atoms es entries ps) (hpr : FtnPrintable atoms entries ps)
    (hcf : CoreFits atoms ps) (hin : InputFiles envC.io mol tb te atoms entries (fun z => firstEntry z ps)) {shells : List Shell}
    {grpps : List (Option GrppData)} (hsh : mainShells envC.lib.gen envC.io tb atoms = .ok shells)
    (hgr : mainGrpps envC.lib.gen envC.io te atoms = .ok grpps) (h1 : CalcOk envC shells atoms grpps .grpp) (h2 : CalcOk envC shells atoms grpps .point)
    (h3 : CalcOk envC shells atoms grpps .grppGrad) (hj : (∀ io jo ip ic c i, env.junk io jo ip ic c i ≠ none) ∨ ∀ s ∈ shells, s.L = 0) :
    ∃ (M : Fin 4 → ℕ → ℕ → ℝ) (S A : ℕ → ℕ → ℝ) (V V4 : Fin 4 → ℕ → Fin 3 → ℕ → ℕ → ℝ) (files filesC : List OutFile),
      ftnProgram env xyz bas rpp = .ok files ∧ FtnOutput env.io (basisComps shells).length atoms.length M S A V files ∧
      programMain envC ["--grpp".toList, "--overlap".toList, "--coulomb-point".toList, "--grpp-grad".toList] mol tb te = .ok ⟨0, none, filesC⟩ ∧
      COutput envC.io (basisComps shells).length atoms.length M S A (fun x a k p q => V x a k p q + V4 x a k p q) filesC ∧
      (∀ p q f g, (basisFns shells)[p]? = some f → (basisFns shells)[q]? = some g → S p q = ∫ r, f r * g r) ∧
      (∃ Q : Shell → Shell → GrppData × Point → Potential → ℕ → ℕ → ℕ → ℝ,
        (∀ A ∈ shells, ∀ B ∈ shells, ∀ o ∈ moleculeGrpps atoms grpps, ∀ u ∈ o.1.arep ++ o.1.esop, RadialTable env.lib A B o.2 u (Q A B o u)) ∧
        ∀ (k : Fin 4) (p q : ℕ) (A B : Shell) (m n : ℕ), (basisComps shells)[p]? = some (A, m) → (basisComps shells)[q]? = some (B, n) →
          |M k p q - ((moleculeGrpps atoms grpps).map fun o => grppElement A B o.2 o.1 k m n).sum| ≤
            ((moleculeGrpps atoms grpps).map fun o => grppErr A B o.2 o.1 (Q A B o) k m n).sum) ∧
      (∃ W : Shell → Shell → Nat × Point → ℕ → ℕ → ℕ → ℕ → ℕ → ℝ,
        (∀ A ∈ shells, ∀ B ∈ shells, ∀ a ∈ atoms, ∀ m n, m < A.cart_size → n < B.cart_size →
          pairScreened A B a.2 (fun r => -(a.1 : ℝ) / r) m n =
            -(a.1 : ℝ) * ∑ i ∈ Finset.range A.num, ∑ j ∈ Finset.range B.num, ∑ k ∈ Finset.range (A.L + B.L + 1),
              W A B a i j m n k * boysF k (pairArg A B a.2 0 i j)) ∧
        ∀ p q X Y m n, (basisComps shells)[p]? = some (X, m) → (basisComps shells)[q]? = some (Y, n) →
          |A p q - (atoms.map fun a => pairScreened X Y a.2 (fun r => -(a.1 : ℝ) / r) m n).sum| ≤
            (atoms.map fun a => 1.7e-14 * (a.1 : ℝ) * ∑ i ∈ Finset.range X.num, ∑ j ∈ Finset.range Y.num, ∑ k ∈ Finset.range (X.L + Y.L + 1),
              |W X Y a i j m n k|).sum) ∧
      IsGradient env.lib shells atoms (moleculeParts ocPart atoms grpps) V4 ∧
      ((∀ o ∈ moleculeGrpps atoms grpps, o.1.oc = []) → ∀ x a k p q, p < (basisComps shells).length → q < (basisComps shells).length →
        V4 x a k p q = 0) := by
  obtain ⟨hlib, hsf, hsk⟩ := hl
  obtain ⟨⟨hbt, eps, hspec⟩, hd⟩ := h1
  obtain ⟨-, hgd, hjC⟩ := h3
  have hinit := hC.init
  have ho := hC.order
  obtain ⟨hsm, hmain⟩ := program_reads_main envC hC hin hsh hgr
  have hnuc : envC.nuc = env.nuc := by unfold ProgEnv.nuc FtnEnv.nuc; rw [hlib, hsf, hsk]
  rw [hlib] at hinit ho hbt hd hgd hsh hgr hsm
  rw [hsf] at hspec
  obtain ⟨mol', grpps', m1, m2, m3, m4, m5, m6, m7, m8, m9, m10⟩ := ftnProgram_input env hf ho h hpr
    (⟨fun a ha => (hin.basis a ha).1, hin.ecp⟩ : CFiles envC.io tb te atoms entries ps)
  obtain rfl : mol'.libShells env.lib.gen = shells := by rw [m8] at hsh; exact Outcome.ok.inj hsh
  obtain rfl : grpps' = grpps := by rw [m9] at hgr; exact Outcome.ok.inj hgr
  subst m1
  have hz : ∀ a ∈ mol'.atoms, a.1 ≤ 130 := fun a ha => by have := h.known a ha; omega
  have hoc : ∀ z ∈ mol'.charges, (mol'.ecpOf z).numArep ≠ 0 → (mol'.ecpOf z).ocList.length ≤ 20 := by
    intro z hzm hn
    rw [m2] at hzm
    obtain ⟨a, ha, rfl⟩ := List.mem_map.1 hzm
    obtain ⟨u1, u2⟩ := m6 a ha
    cases hfe : firstEntry a.1 ps with
    | none => exact absurd (u1 hfe) hn
    | some v =>
      obtain ⟨cs, qs⟩ := v
      rw [(u2 cs qs hfe).2]
      exact hcf a ha cs qs hfe
  obtain ⟨-, M, -, hMv, hMf, hMe⟩ := fortran_grpp_partial env.lib hinit hbt ho hspec mol' m3 m4 (hd.of_labels m10) hoc
  obtain ⟨A, hAf, hAe⟩ := fortran_nuclear env.nuc hinit (by rw [← hnuc]; exact h2.1) ho mol' m3 ⟨hsm, hz, hd.dim⟩ h2.2
  have hL9 : ∀ a ∈ mol'.shells, a.L ≤ 9 := fun a ha => (hsm (a.shell env.lib.gen) (List.mem_map_of_mem ha)).L9
  obtain ⟨V, V4, hVf, hV4, hVe, hV0⟩ := fortran_gradient_missing env.lib hinit hbt ho hspec mol' m3 m4 hL9 (hgd.of_labels m10)
  have hzl : (List.replicate ((basisComps (mol'.libShells env.lib.gen)).length * (basisComps (mol'.libShells env.lib.gen)).length) (0 : ℝ)).length =
      (basisComps (mol'.libShells env.lib.gen)).length * (basisComps (mol'.libShells env.lib.gen)).length := List.length_replicate
  have hN46 : (basisComps (mol'.libShells env.lib.gen)).length ≤ 46340 := by
    by_contra hc
    have := Nat.mul_le_mul (show 46341 ≤ (basisComps (mol'.libShells env.lib.gen)).length by omega)
      (show 46341 ≤ (basisComps (mol'.libShells env.lib.gen)).length by omega)
    have := hd.dim
    omega
  have eG : evalGrpp (libKernels env.lib env.sf) (mol'.libShells env.lib.gen) mol'.atoms grpps' envC.order envC.grppBufs
      (fun _ => List.replicate ((basisComps (mol'.libShells env.lib.gen)).length * (basisComps (mol'.libShells env.lib.gen)).length) 0) = .ok M := by
    rw [evalGrpp_relabel env.lib env.sf _ m10]
    exact hMe _ _ _ hC.perm (fun i k => (hC.grppBufs i k).ge) fun _ => hzl
  obtain ⟨Q, W, hQ, hW, hr⟩ := molecular_grpp env.lib hinit hbt ho hspec (mol'.libShells env.lib.gen) mol'.atoms grpps' hd
  obtain ⟨hMl, hMW⟩ : (∀ k, (M k).length = (basisComps (mol'.libShells env.lib.gen)).length * (basisComps (mol'.libShells env.lib.gen)).length) ∧
      ∀ k p q, p < (basisComps (mol'.libShells env.lib.gen)).length → q < (basisComps (mol'.libShells env.lib.gen)).length →
        (M k)[p * (basisComps (mol'.libShells env.lib.gen)).length + q]? = some (W k p q) := by
    obtain ⟨M2, e, r⟩ := hr envC.order envC.grppBufs _ hC.perm (fun i k => (hC.grppBufs i k).ge) (fun _ => hzl.ge)
    rw [eG] at e
    obtain rfl := Outcome.ok.inj e
    exact ⟨fun k => by rw [(r k).1.1, hzl], fun k => (r k).2⟩
  have eA := hAe envC.nbuf _ hC.nbuf.ge hzl
  obtain ⟨B, U, hB, hU, hn⟩ := molecular_nuclear_point env.nuc hinit (by rw [← hnuc]; exact h2.1) ho (mol'.libShells env.lib.gen) mol'.atoms
    ⟨hsm, hz, hd.dim⟩ h2.2
  obtain ⟨hAl, hAU⟩ : A.length = (basisComps (mol'.libShells env.lib.gen)).length * (basisComps (mol'.libShells env.lib.gen)).length ∧
      ∀ p q, p < (basisComps (mol'.libShells env.lib.gen)).length → q < (basisComps (mol'.libShells env.lib.gen)).length →
        A[p * (basisComps (mol'.libShells env.lib.gen)).length + q]? = some (U p q) := by
    obtain ⟨M2, e, r, v⟩ := hn envC.nbuf _ hC.nbuf.ge hzl.ge
    rw [eA] at e
    obtain rfl := Outcome.ok.inj e
    exact ⟨by rw [r.1, hzl], v⟩
  obtain ⟨files, S, p1, p2, p3, p4, p5⟩ := ftnCalculate_ok env hf ho m3 m5 hsm hMf hVf hMl hAf hAl hj
  have eS := p4 hd.dim envC.buf _ hC.buf.ge (hzl.trans p2.symm)
  have hza := zero_arrays (mol'.libShells env.lib.gen) mol'.atoms
  rw [← basisComps_length] at hza
  obtain ⟨-, r, eR, hR⟩ := hVe (fun io jo ia ir => envC.junk .grppGrad io jo ia ir 0) (hjC.imp (fun h io jo ia ir => h io jo ia ir 0) id) (fun _ => _)
    fun _ => ⟨hza, rfl⟩
  rw [← evalGrppGrad_relabel env.lib env.sf _ _ _ _ m10] at eR
  obtain ⟨filesC, q1, q2⟩ := cOutput_of envC (shells := mol'.libShells env.lib.gen) (grpps := grpps') rfl hN46 hMl p2 hAl (by rw [hlib, hsf]; exact eG) eS
    (by rw [hnuc]; exact eA) (by unfold ProgEnv.full; rw [hlib, hsf]; exact eR) hR
  have hcl : mol'.charges.length = mol'.atoms.length := by rw [m2, List.length_map]
  refine ⟨_, _, _, V, V4, files, filesC, by rw [m7]; exact p1, by rw [← hcl]; exact p5, ?_, q2, fun p q f g hp hq => ?_, ⟨Q, hQ, fun k p q X Y m n hp hq => ?_⟩,
    ⟨B, hB, fun p q X Y m n hp hq => ?_⟩, ?_, fun h0 => ?_⟩
  · refine (hmain sameArgs sameArgs_known).trans ?_
    rw [q1]
    rfl
  · have hN : (basisFns (mol'.libShells env.lib.gen)).length = (basisComps (mol'.libShells env.lib.gen)).length := by rw [basisFns_length, basisComps_length]
    have hp' := (List.getElem?_eq_some_iff.1 hp).1
    have hq' := (List.getElem?_eq_some_iff.1 hq).1
    have v := p3.2.1 p q f g hp hq
    rw [hN] at hp' hq' v
    rw [asMatrix_some p2 p q hp' hq', Option.some.injEq] at v
    exact v
  · have v := hMW k p q (List.getElem?_eq_some_iff.1 hp).1 (List.getElem?_eq_some_iff.1 hq).1
    rw [asMatrix_some (hMl k) p q (List.getElem?_eq_some_iff.1 hp).1 (List.getElem?_eq_some_iff.1 hq).1, Option.some.injEq] at v
    rw [v]
    exact hW k p q X Y m n hp hq
  · have v := hAU p q (List.getElem?_eq_some_iff.1 hp).1 (List.getElem?_eq_some_iff.1 hq).1
    rw [asMatrix_some hAl p q (List.getElem?_eq_some_iff.1 hp).1 (List.getElem?_eq_some_iff.1 hq).1, Option.some.injEq] at v
    rw [v]
    exact hU p q X Y m n hp hq
  · rw [← moleculeParts_labels m10]
    exact hV4
  · refine hV0 fun o ho => ?_
    obtain ⟨n, hn⟩ := m10.mem ho
    have := h0 _ hn
    exact this

/-- Conditions for the comparison of the files of a matrix: the driver in C prints its elements faithfully, the Fortran program with a relative error `eps`. -/
structure Comparable (io ioF : DecimalIO) (N : ℕ) (V : ℕ → ℕ → ℝ) (eps t : ℝ) : Prop where
  faithful : ∀ p q, p < N → q < N → (Dbl.fin (V p q)).AbsGt (1e-14) → io.Faithful (Dbl.fin (V p q))
  near : ∀ p q, p < N → q < N → 1e-10 < |V p q| → ioF.Near eps (V p q)
  threshold : 1e-10 ≤ t
  small : ∀ p q, p < N → q < N → eps * |V p q| ≤ t

/-- The files with the names `f` of the Fortran program and `c` of the driver in C are found equal by `compare_matrices`, in either order. -/
def FoundEqual (io : DecimalIO) (t : ℝ) (files filesC : List OutFile) (f c : String) : Prop :=
  ∃ tf tc, (f, tf) ∈ files ∧ (c, tc) ∈ filesC ∧ compareProgram io t tf tc = .ok 0 ∧ compareProgram io t tc tf = .ok 0

/-- **C112** (comparison). `compare_matrices` finds all files of matrices of the two programs equal, and all files of gradients for which the two programs have
the same values. -/
theorem fortran_program_compare (io ioF : DecimalIO) (hscan : ioF.scan = io.scan) {N natoms : ℕ} (hN : N ≤ 46340) {M : Fin 4 → ℕ → ℕ → ℝ}
    {S A : ℕ → ℕ → ℝ} {V V' : Fin 4 → ℕ → Fin 3 → ℕ → ℕ → ℝ} {files filesC : List OutFile} (hf : FtnOutput ioF N natoms M S A V files)
    (hc : COutput io N natoms M S A V' filesC) (eps t : ℝ) :
    (Comparable io ioF N (M 0) eps t → FoundEqual io t files filesC "libgrpp_f90_arep.txt" "libgrpp_c_arep.txt") ∧
    (Comparable io ioF N (M 1) eps t → FoundEqual io t files filesC "libgrpp_f90_so_x.txt" "libgrpp_c_so_x.txt") ∧
    (Comparable io ioF N (M 2) eps t → FoundEqual io t files filesC "libgrpp_f90_so_y.txt" "libgrpp_c_so_y.txt") ∧
    (Comparable io ioF N (M 3) eps t → FoundEqual io t files filesC "libgrpp_f90_so_z.txt" "libgrpp_c_so_z.txt") ∧
    (Comparable io ioF N S eps t → FoundEqual io t files filesC "libgrpp_f90_overlap.txt" "libgrpp_c_overlap.txt") ∧
    (Comparable io ioF N A eps t → FoundEqual io t files filesC "libgrpp_f90_nucattr.txt" "libgrpp_c_nucattr_point.txt") ∧
    ∀ a < natoms, ∀ x ∈ [((0 : Fin 4), "arep"), (1, "so_x"), (2, "so_y"), (3, "so_z")], ∀ k ∈ [((0 : Fin 3), "x"), (1, "y"), (2, "z")],
      (∀ p q, p < N → q < N → V x.1 a k.1 p q = V' x.1 a k.1 p q) → Comparable io ioF N (V x.1 a k.1) eps t →
      FoundEqual io t files filesC ("libgrpp_f90_" ++ x.2 ++ "_grad_" ++ toString a ++ k.2 ++ ".txt")
        ("libgrpp_c_" ++ x.2 ++ "_grad_" ++ toString a ++ k.2 ++ ".txt") := by
  obtain ⟨tf, sf, nf, gf, rfl, a1, a2, a3, a4⟩ := hf
  obtain ⟨tc, sc, nc, gc, rfl, b1, b2, b3, b4⟩ := hc
  have key : ∀ {U U' : ℕ → ℕ → ℝ} {uf uc : List Char}, FtnHolds ioF N U uf → HoldsMatrix io N U' uc → (∀ p q, p < N → q < N → U p q = U' p q) →
      Comparable io ioF N U eps t → compareProgram io t uf uc = .ok 0 ∧ compareProgram io t uc uf = .ok 0 := fun hf hc he h =>
    holds_agree io ioF hscan eps t hN hf hc he h.faithful h.near h.threshold h.small
  refine ⟨fun h => ⟨tf 0, tc 0, by simp, by simp, key (a1 0) (b1 0) (fun _ _ _ _ => rfl) h⟩, fun h => ⟨tf 1, tc 1, by simp, by simp, key (a1 1) (b1 1) (fun _ _ _ _ => rfl) h⟩,
    fun h => ⟨tf 2, tc 2, by simp, by simp, key (a1 2) (b1 2) (fun _ _ _ _ => rfl) h⟩, fun h => ⟨tf 3, tc 3, by simp, by simp, key (a1 3) (b1 3) (fun _ _ _ _ => rfl) h⟩,
    fun h => ⟨sf, sc, by simp, by simp, key a2 b2 (fun _ _ _ _ => rfl) h⟩, fun h => ⟨nf, nc, by simp, by simp, key a3 b3 (fun _ _ _ _ => rfl) h⟩,
    fun a ha x hx k hk he h => ⟨gf x.1 a k.1, gc x.1 a k.1, ?_, ?_, key (a4 _ a ha _) (b4 _ a ha _) he h⟩⟩
  · simp only [List.mem_cons, List.not_mem_nil, or_false] at hx hk
    rcases hx with rfl | hx
    · refine List.mem_append_left _ (List.mem_append_right _ (List.mem_flatMap.2 ⟨a, List.mem_range.2 ha, ?_⟩))
      rcases hk with rfl | rfl | rfl
      · exact List.mem_cons_self
      · exact List.mem_cons_of_mem _ List.mem_cons_self
      · exact List.mem_cons_of_mem _ (List.mem_cons_of_mem _ List.mem_cons_self)
    · refine List.mem_append_right _ (List.mem_flatMap.2 ⟨a, List.mem_range.2 ha, ?_⟩)
      rcases hx with rfl | rfl | rfl <;> rcases hk with rfl | rfl | rfl
      · exact List.getElem_mem (l := [_, _, _, _, _, _, _, _, _]) (n := 0) (by simp)
      · exact List.getElem_mem (l := [_, _, _, _, _, _, _, _, _]) (n := 3) (by simp)
      · exact List.getElem_mem (l := [_, _, _, _, _, _, _, _, _]) (n := 6) (by simp)
      · exact List.getElem_mem (l := [_, _, _, _, _, _, _, _, _]) (n := 1) (by simp)
      · exact List.getElem_mem (l := [_, _, _, _, _, _, _, _, _]) (n := 4) (by simp)
      · exact List.getElem_mem (l := [_, _, _, _, _, _, _, _, _]) (n := 7) (by simp)
      · exact List.getElem_mem (l := [_, _, _, _, _, _, _, _, _]) (n := 2) (by simp)
      · exact List.getElem_mem (l := [_, _, _, _, _, _, _, _, _]) (n := 5) (by simp)
      · exact List.getElem_mem (l := [_, _, _, _, _, _, _, _, _]) (n := 8) (by simp)
  · simp only [List.mem_cons, List.not_mem_nil, or_false] at hx hk
    refine List.mem_append_right _ (List.mem_flatMap.2 ⟨a, List.mem_range.2 ha, ?_⟩)
    have e : ∀ s : String, (s ++ "x" ++ ".txt" = s ++ "x.txt") ∧ (s ++ "y" ++ ".txt" = s ++ "y.txt") ∧ (s ++ "z" ++ ".txt" = s ++ "z.txt") := fun s => by
      simp only [String.append_assoc]
      exact ⟨rfl, rfl, rfl⟩
    rcases hx with rfl | rfl | rfl | rfl <;> rcases hk with rfl | rfl | rfl <;> simp only [(e _).1, (e _).2.1, (e _).2.2]
    · exact List.getElem_mem (l := [_, _, _, _, _, _, _, _, _, _, _, _]) (n := 0) (by simp)
    · exact List.getElem_mem (l := [_, _, _, _, _, _, _, _, _, _, _, _]) (n := 1) (by simp)
    · exact List.getElem_mem (l := [_, _, _, _, _, _, _, _, _, _, _, _]) (n := 2) (by simp)
    · exact List.getElem_mem (l := [_, _, _, _, _, _, _, _, _, _, _, _]) (n := 3) (by simp)
    · exact List.getElem_mem (l := [_, _, _, _, _, _, _, _, _, _, _, _]) (n := 4) (by simp)
    · exact List.getElem_mem (l := [_, _, _, _, _, _, _, _, _, _, _, _]) (n := 5) (by simp)
    · exact List.getElem_mem (l := [_, _, _, _, _, _, _, _, _, _, _, _]) (n := 6) (by simp)
    · exact List.getElem_mem (l := [_, _, _, _, _, _, _, _, _, _, _, _]) (n := 7) (by simp)
    · exact List.getElem_mem (l := [_, _, _, _, _, _, _, _, _, _, _, _]) (n := 8) (by simp)
    · exact List.getElem_mem (l := [_, _, _, _, _, _, _, _, _, _, _, _]) (n := 9) (by simp)
    · exact List.getElem_mem (l := [_, _, _, _, _, _, _, _, _, _, _, _]) (n := 10) (by simp)
    · exact List.getElem_mem (l := [_, _, _, _, _, _, _, _, _, _, _, _]) (n := 11) (by simp)

/-- **C112 is false without the assumption on out-of-bounds reads**: the Fortran program, which always calculates the gradients, writes no file for any
molecule in which a shell of `L > 0` sits on an atom other than that of a pseudopotential. -/
theorem fortran_program_undefined {G : Type} (env : FtnEnv G) (hf : env.Fresh) (hi : env.lib.init = true) (hbt : BesselOk env.lib.bt)
    (ho : DocumentedOrder env.lib.gen) {eps : ℝ} (hspec : LibSpec eps env.sf) {xyz bas rpp : List FRecord} {tb te : List Char}
    {atoms : List (Nat × Point)} {es : List (Nat × List BasisBlock)} {entries : Nat → List BasisBlock}
    {ps : List (Nat × List BasisBlock × List PotBlock)} (h : FtnInput env.num xyz bas rpp atoms es entries ps) (hpr : FtnPrintable atoms entries ps)
    (hcf : CoreFits atoms ps) {io : DecimalIO} (hc : CFiles io tb te atoms entries ps) {shells : List Shell}
    {grpps : List (Option GrppData)} (hsh : mainShells env.lib.gen io tb atoms = .ok shells) (hgr : mainGrpps env.lib.gen io te atoms = .ok grpps)
    (hd : DriverInput env.lib.gen shells atoms grpps) (hgd : GradDriverInput env.lib.gen shells atoms grpps)
    (hj : env.junk = fun _ _ _ _ _ _ => none) (X : Shell) (hX : X ∈ shells) (hX0 : 0 < X.L) (o : GrppData × Point) (hmo : o ∈ moleculeGrpps atoms grpps)
    (hoX : X.origin ≠ o.2) : ftnProgram env xyz bas rpp = .ub := by
  obtain ⟨mol', grpps', m1, m2, m3, m4, m5, m6, m7, m8, m9, m10⟩ := ftnProgram_input env hf ho h hpr hc
  obtain rfl : mol'.libShells env.lib.gen = shells := by rw [m8] at hsh; exact Outcome.ok.inj hsh
  obtain rfl : grpps' = grpps := by rw [m9] at hgr; exact Outcome.ok.inj hgr
  subst m1
  have hoc : ∀ z ∈ mol'.charges, (mol'.ecpOf z).numArep ≠ 0 → (mol'.ecpOf z).ocList.length ≤ 20 := by
    intro z hzm hn
    rw [m2] at hzm
    obtain ⟨a, ha, rfl⟩ := List.mem_map.1 hzm
    obtain ⟨u1, u2⟩ := m6 a ha
    cases hfe : firstEntry a.1 ps with
    | none => exact absurd (u1 hfe) hn
    | some v =>
      obtain ⟨cs, qs⟩ := v
      rw [(u2 cs qs hfe).2]
      exact hcf a ha cs qs hfe
  obtain ⟨-, M, -, -, hMf, -⟩ := fortran_grpp_partial env.lib hi hbt ho hspec mol' m3 m4 (hd.of_labels m10) hoc
  have hL9 : ∀ a ∈ mol'.shells, a.L ≤ 9 := fun a ha => (hd.usable (a.shell env.lib.gen) (List.mem_map_of_mem ha)).L9
  obtain ⟨o', ho', hoo⟩ := m10.mem' hmo
  obtain ⟨l, el, -⟩ := ftnLabels_spec m3 hf.cart m5 (env.labels0 (basisComps (mol'.libShells env.lib.gen)).length) (by
    rw [hf.labels, functions_length mol' env.lib.gen])
  obtain ⟨h1, r1, e1⟩ := hMf env.cl env.tab env.h env.buf (fun _ => List.replicate _ 0) hf.cart hf.tab hf.heap hf.buf fun _ => List.length_replicate
  have e2 := fortran_gradient_undefined env.lib hi hbt ho hspec mol' m3 m4 hL9 (hgd.of_labels m10) X hX hX0 o' ho' (by rw [hoo]; exact hoX) env.cl hf.cart h1
    (r1.wf' hf.heap) env.gbuf env.gbufSO hf.gbuf hf.gbufSO (env.grad0 mol'.charges.length (basisComps (mol'.libShells env.lib.gen)).length) (hf.grads _ _).1
    (hf.grads _ _).2
  rw [m7]
  unfold ftnCalculate
  rw [fortran_basis_size env.lib.gen mol' m3, Outcome.ok_bind, el, Outcome.ok_bind, e1, Outcome.ok_bind, hj]
  simp only
  rw [e2]
  rfl

/-- **C112 is false for more than 20 outer-core functions**: the table of `evaluate_grpp_integrals_shell_pair` overflows. -/
theorem fortran_program_overflow {G : Type} (env : FtnEnv G) (hf : env.Fresh) (hi : env.lib.init = true) (hbt : BesselOk env.lib.bt)
    (ho : DocumentedOrder env.lib.gen) {eps : ℝ} (hspec : LibSpec eps env.sf) {xyz bas rpp : List FRecord} {tb te : List Char}
    {atoms : List (Nat × Point)} {es : List (Nat × List BasisBlock)} {entries : Nat → List BasisBlock}
    {ps : List (Nat × List BasisBlock × List PotBlock)} (h : FtnInput env.num xyz bas rpp atoms es entries ps) (hpr : FtnPrintable atoms entries ps)
    {io : DecimalIO} (hc : CFiles io tb te atoms entries ps) {shells : List Shell} {grpps : List (Option GrppData)}
    (hsh : mainShells env.lib.gen io tb atoms = .ok shells) (hgr : mainGrpps env.lib.gen io te atoms = .ok grpps)
    (hd : DriverInput env.lib.gen shells atoms grpps) (hne : shells ≠ []) (a : Nat × Point) (ha : a ∈ atoms) (cs : List BasisBlock) (qs : List PotBlock)
    (he : firstEntry a.1 ps = some (cs, qs)) (hq : qs ≠ []) (hbig : 20 < (cs.map fun b => b.nc).sum) : ftnProgram env xyz bas rpp = .ub := by
  obtain ⟨mol', grpps', m1, m2, m3, m4, m5, m6, m7, m8, m9, m10⟩ := ftnProgram_input env hf ho h hpr hc
  obtain rfl : mol'.libShells env.lib.gen = shells := by rw [m8] at hsh; exact Outcome.ok.inj hsh
  obtain rfl : grpps' = grpps := by rw [m9] at hgr; exact Outcome.ok.inj hgr
  subst m1
  obtain ⟨u1, u2⟩ := (m6 a ha).2 cs qs he
  obtain ⟨l, el, -⟩ := ftnLabels_spec m3 hf.cart m5 (env.labels0 (basisComps (mol'.libShells env.lib.gen)).length) (by
    rw [hf.labels, functions_length mol' env.lib.gen])
  have e1 := fortran_outer_core_overflow env.lib hi hbt ho hspec mol' m3 m4 (fun hn => hne (by unfold FMol.libShells; rw [hn]; rfl)) (hd.of_labels m10)
    (z := a.1) (by rw [m2]; exact List.mem_map_of_mem ha) (by rw [u1]; exact fun hh => hq (List.length_eq_zero_iff.1 hh)) (by rw [u2]; exact hbig) env.cl
    env.tab env.h env.buf (fun _ => List.replicate _ 0) hf.cart hf.tab hf.heap hf.buf fun _ => List.length_replicate
  rw [m7]
  unfold ftnCalculate
  rw [fortran_basis_size env.lib.gen mol' m3, Outcome.ok_bind, el, Outcome.ok_bind, e1]
  rfl

/-- **C112 is false for 22 or more functions in a block**, although the arrays have room for 30: the format with which `print_basis` prints them begins again,
and with it a string where a number is to be printed. -/
theorem fortran_program_print_basis {G : Type} (env : FtnEnv G) (hf : env.Fresh) (ho : DocumentedOrder env.lib.gen) {xyz bas rpp : List FRecord}
    {atoms : List (Nat × Point)} {es : List (Nat × List BasisBlock)} {entries : Nat → List BasisBlock}
    {ps : List (Nat × List BasisBlock × List PotBlock)} (h : FtnInput env.num xyz bas rpp atoms es entries ps) (a : Nat × Point) (ha : a ∈ atoms)
    (b : BasisBlock) (hb : b ∈ entries a.1) (hn : 22 ≤ b.nc) : ftnProgram env xyz bas rpp = .ub := by
  obtain ⟨basis, ecp, s1, s2, r1, -, r3⟩ := ftnProgram_first env hf ho h
  obtain ⟨L, hL, rfl⟩ := List.getElem_of_mem hb
  obtain ⟨c, w1, w2⟩ := r1 a ha
  obtain ⟨k, v1, v2⟩ := w2.block L hL
  have hk := h.known a ha
  have hrows : 0 < (entries a.1)[L].rows.length := by
    obtain ⟨r, hr⟩ := ((h.good a ha).ok L hL).nonzero 0 (by omega)
    by_contra hc
    refine hr ?_
    unfold cgto
    rw [show (entries a.1)[L].rows.length = 0 by omega]
    exact Finset.sum_range_zero _
  refine r3 (printAll_ub s1.elements s2.elements (i := a.1 - 1) (by omega) (.inl ⟨c, w1, by rw [w2.num]; omega, ?_⟩))
  exact printBasis_ub (by rw [w2.num]; exact hL) v1 (by rw [v2.prim]; exact hrows) (by rw [v2.contr]; omega)

/-- **C112 is false for 20 outer-core potentials**, although the arrays have room for them: `print_ecp` prints at most 19. -/
theorem fortran_program_print_ecp {G : Type} (env : FtnEnv G) (hf : env.Fresh) (ho : DocumentedOrder env.lib.gen) {xyz bas rpp : List FRecord}
    {atoms : List (Nat × Point)} {es : List (Nat × List BasisBlock)} {entries : Nat → List BasisBlock}
    {ps : List (Nat × List BasisBlock × List PotBlock)} (h : FtnInput env.num xyz bas rpp atoms es entries ps) (a : Nat × Point) (ha : a ∈ atoms)
    (cs : List BasisBlock) (qs : List PotBlock) (he : firstEntry a.1 ps = some (cs, qs)) (L : ℕ) (hL : L < cs.length) (hL' : L < qs.length)
    (hn : 20 ≤ cs[L].nc) (hq : qs[L].rows ≠ []) : ftnProgram env xyz bas rpp = .ub := by
  obtain ⟨basis, ecp, s1, s2, -, r2, r3⟩ := ftnProgram_first env hf ho h
  obtain ⟨e, w1, -, w2⟩ := r2 a ha
  have hi := w2 cs qs he
  obtain ⟨r, v1, v2⟩ := hi.core L hL
  obtain ⟨r', v3, v4⟩ := hi.pot L hL'
  rw [v1] at v3
  cases v3
  have hk := h.known a ha
  refine r3 (printAll_ub s1.elements s2.elements (i := a.1 - 1) (by omega) (.inr ⟨e, w1, by rw [hi.num]; omega, ?_⟩))
  exact printEcp_ub_pots (by rw [hi.num]; exact hL') v1 (by rw [v4.num]; exact List.length_pos_iff.2 hq) (by rw [v2.contr]; omega)

/-- **C112** (unknown elements). For a symbol of no element the program stops before it reads anything else. -/
theorem fortran_program_unknown {G : Type} (env : FtnEnv G) (atoms : List (List Char × Point)) (hz : ∃ a ∈ atoms, a.1.take 8 ∉ ftnSymbols)
    (xyz bas rpp : List FRecord) (h : XyzFile env.num atoms xyz) : ftnProgram env xyz bas rpp = .exit := by
  unfold ftnProgram
  rw [fortran_unknown_symbol env.num atoms hz xyz h]
  rfl

/-- **C112** (labels). The labels of the basis functions are numbered in the order of the rows of the matrices, and name the element and the exponents of the
function of the row. -/
theorem fortran_labels (mol : FMol) (hm : mol.Ok) (cl : List Comp) (hcl : cl.length = 100) (hL : ∀ z ∈ mol.charges, (mol.basisOf z).numBlocks ≤ 10)
    (labels : List (List Char)) (hl : labels.length = (basisComps (mol.libShells cartesianDirac)).length) :
    ∃ (l : List (List Char)) (zs : List Nat), ftnLabels mol cl labels = .ok l ∧ l.length = labels.length ∧ zs.length = labels.length ∧
      ∀ p X m, (basisComps (mol.libShells cartesianDirac))[p]? = some (X, m) → ∃ z c, zs[p]? = some z ∧ (z, X.origin) ∈ mol.atoms ∧ X.cartList[m]? = some c ∧
        l[p]? = some (ftnLabelLine (p + 1) z (padRight 16 (compText c))) := by
  obtain ⟨l, e1, e2, e3⟩ := ftnLabels_spec hm hcl hL labels (by rw [hl, functions_length mol cartesianDirac])
  refine ⟨l, mol.functions.map Prod.fst, e1, e2, by rw [List.length_map, hl, functions_length mol cartesianDirac], fun p X m hp => ?_⟩
  have hp' := (List.getElem?_eq_some_iff.1 hp).1
  have hpf : p < mol.functions.length := by rw [functions_length mol cartesianDirac]; exact hp'
  have hf : mol.functions[p]? = some mol.functions[p] := List.getElem?_eq_getElem hpf
  have hcmp := congrArg (fun l => l[p]?) (functions_comps mol)
  simp only [List.getElem?_map, hf, hp, Option.map_some, Option.some.injEq] at hcmp
  obtain ⟨c1, c2⟩ := Prod.mk.inj hcmp
  refine ⟨mol.functions[p].1, mol.functions[p].2.2, by rw [List.getElem?_map, hf]; rfl, ?_, ?_, e3 p _ hf⟩
  · have hmem := List.getElem_mem hpf
    unfold FMol.functions at hmem
    obtain ⟨a, ha, hmem⟩ := List.mem_flatMap.1 hmem
    obtain ⟨s, -, hmem⟩ := List.mem_flatMap.1 hmem
    obtain ⟨c, -, hmem⟩ := List.mem_map.1 hmem
    rw [← c1]
    unfold FMol.functions
    rw [← hmem]
    exact ha
  · have hm' := (basisComps_mem hp).2
    have hXm := (basisComps_mem hp).1
    obtain ⟨s, -, rfl⟩ := List.mem_map.1 hXm
    have hlen : (s.shell cartesianDirac).cart_size = (s.shell cartesianDirac).cartList.length := (cartesian_dirac_complete s.L).1.symm
    rw [hlen] at hm'
    rw [c2, List.getD_eq_getElem?_getD, List.getElem?_eq_getElem hm']
    rfl

/-! ## Examples -/

theorem prim_s_norm (O : Point) : ∫ r, primFn 0 O (0, 0, 0) 1 r ^ 2 = 1 := by
  have hpi := Real.pi_pos
  have e : ∀ r : Point, primFn 0 O (0, 0, 0) 1 r ^ 2 = (2 / Real.pi) ^ (3 / 2 : ℝ) * ∏ k, Real.exp (-2 * (r k - O k) ^ 2) := by
    intro r
    unfold primFn
    simp only [Fin.prod_univ_three, Fin.sum_univ_three, Comp.exp, Nat.cast_zero, zero_div, Real.rpow_zero, mul_one]
    rw [← Real.exp_add, ← Real.exp_add, mul_pow, ← Real.rpow_natCast, ← Real.rpow_mul (by positivity)]
    congr 1
    · norm_num
    · change ((r 0 - O 0) ^ 0 * (r 1 - O 1) ^ 0 * (r 2 - O 2) ^ 0 * _) ^ 2 = _
      rw [pow_zero, pow_zero, pow_zero, one_mul, one_mul, one_mul, ← Real.exp_nat_mul]
      congr 1
      push_cast
      ring
  simp only [e]
  rw [integral_const_mul, integral_fintype_prod_volume_eq_prod (fun k x => Real.exp (-2 * (x - O k) ^ 2))]
  have h1 : ∀ k, ∫ x : ℝ, Real.exp (-2 * (x - O k) ^ 2) = (Real.pi / 2) ^ (1 / 2 : ℝ) := fun k => by
    rw [integral_sub_right_eq_self (fun x : ℝ => Real.exp (-2 * x ^ 2)), integral_gaussian, Real.sqrt_eq_rpow]
  simp only [h1, Finset.prod_const, Finset.card_univ, Fintype.card_fin]
  rw [← Real.rpow_natCast, ← Real.rpow_mul (by positivity), show (1 / 2 : ℝ) * (3 : ℕ) = 3 / 2 by norm_num, ← Real.mul_rpow (by positivity) (by positivity)]
  have : 2 / Real.pi * (Real.pi / 2) = 1 := by field_simp
  rw [this, Real.one_rpow]

theorem example_normalised {f : BasisFun} (h : NormalisedFun 0 [1] [1] f) : f = ⟨0, 1, [1], [1]⟩ := by
  obtain ⟨h1, h2, h3, ⟨N, hN, h4⟩, h5⟩ := h
  have h6 := h5 ![0, 0, 0] (0, 0, 0) rfl
  rw [h2, h3, h4] at h6
  have e : ∀ r, cgto ![0, 0, 0] (0, 0, 0) ([1] : List ℝ).length (([1] : List ℝ).map (· * N)) [1] r ^ 2 = N ^ 2 * primFn 0 ![0, 0, 0] (0, 0, 0) 1 r ^ 2 := fun r => by
    simp [cgto, mul_pow]
  simp only [e] at h6
  rw [integral_const_mul, prim_s_norm] at h6
  have : N = 1 := by
    have h7 : N ^ 2 = 1 := by simpa using h6
    nlinarith [h7]
  subst this
  cases f
  simp only at h1 h2 h3 h4
  subst h1 h2 h3 h4
  simp

/-- A hydrogen atom for the Fortran program. -/
def hydrogenXyz : List FRecord := [[['1']], [], [['H'], ['1', '.', '0'], ['1', '.', '0'], ['1', '.', '0']]]

theorem hydrogen_input (num : FtnNum) (h1 : num.int ['1'] = some 1) (hr : num.real ['1', '.', '0'] = some 1) {bas rpp : List FRecord} {bs : List BasisBlock}
    {ps : List (Nat × List BasisBlock × List PotBlock)} (hb : BasisFileRecs num [(1, bs)] (nonBlank bas)) (hl : FtnLimits bs) (hg : EntryOk bs)
    (hq : RppFileRecs num ps (nonBlank rpp)) (hm : ∀ cs qs, firstEntry 1 ps = some (cs, qs) → RppLimits cs qs ∧ Matched cs qs) :
    FtnInput num hydrogenXyz bas rpp [(1, ![1, 1, 1])] [(1, bs)] (fun _ => bs) ps := by
  have ha : ∀ a ∈ [((1 : Nat), (![1, 1, 1] : Point))], a.1 = 1 := by simp
  refine ⟨fun a h => by rw [ha a h]; omega, ⟨['1'], [], [], [[['H'], ['1', '.', '0'], ['1', '.', '0'], ['1', '.', '0']]], rfl, h1,
    [[['H'], ['1', '.', '0'], ['1', '.', '0'], ['1', '.', '0']]], [], rfl, .cons ⟨_, _, _, [], rfl, hr, hr, hr⟩ .nil⟩, hb, fun a h => by rw [ha a h]; simp [lastEntry],
    fun a h bs' h' => ?_, fun a h => hg, hq, fun a h cs' qs' h' => hm cs' qs' (by rwa [ha a h] at h')⟩
  simp only [List.mem_singleton, Prod.mk.injEq] at h'
  rw [h'.2]; exact hl

/-- A state in which the program may begin. -/
noncomputable def exampleFtnEnv {G : Type} (lib : Lib G) (sf : SpecFun) (num : FtnNum) (io : DecimalIO) : FtnEnv G where
  lib := lib
  sf := sf
  sk := fermiSk skLiteral
  num := num
  io := io
  h := ftnEmptyStore
  basis0 := exampleArrays
  ecp0 := exampleEcp
  cl := List.replicate 100 (0, 0, 0)
  tab := ⟨0, List.replicate 20 0, List.replicate 20 0, List.replicate 20 0, List.replicate 20 [], List.replicate 20 [], List.replicate 20 [], List.replicate 20 0,
    List.replicate 20 [], List.replicate 20 []⟩
  buf := fun _ => List.replicate maxBuf 1
  gbuf := fun _ => List.replicate maxBuf 2
  gbufSO := fun _ => List.replicate maxBuf 3
  obuf := List.replicate maxBuf 4
  nbuf := List.replicate maxBuf 5
  mp := []
  grad0 := fun n d => List.replicate n fun _ => List.replicate (d * d) 6
  labels0 := fun d => List.replicate d []
  junk := fun _ _ _ _ _ _ => none

theorem exampleFtnEnv_fresh {G : Type} (lib : Lib G) (sf : SpecFun) (num : FtnNum) (io : DecimalIO) : (exampleFtnEnv lib sf num io).Fresh where
  basis := exampleArrays_sized
  noBlocks b hb := by rw [List.eq_of_mem_replicate hb]
  ecp := exampleEcp_sized
  noEcp e he := by rw [List.eq_of_mem_replicate he]
  heap _ _ := rfl
  cart := List.length_replicate
  tab := ⟨List.length_replicate, List.length_replicate, List.length_replicate, List.length_replicate, List.length_replicate, List.length_replicate,
    List.length_replicate, List.length_replicate, List.length_replicate⟩
  buf _ := List.length_replicate.ge
  gbuf _ := List.length_replicate.ge
  gbufSO _ := List.length_replicate.ge
  obuf := List.length_replicate.ge
  nbuf := List.length_replicate.ge
  grads n d := ⟨List.length_replicate, fun M hM qk => by rw [List.eq_of_mem_replicate hM]; exact List.length_replicate⟩
  labels d := List.length_replicate

/-- The basis set of one s function and the pseudopotential of one local term, for both programs. -/
def hydrogenBas : List FRecord := [[['*'], ['1'], ['1']], [['1'], ['1']], [['1', '.', '0'], ['1', '.', '0']]]

def hydrogenRpp : List FRecord := ([['*'], ['1'], ['0'], ['1']] :: ([] ++ (List.replicate 1 (examplePotRecs 0)).flatten)) ++ []

def hydrogenBasText : List Char := "* 1 1\n".toList ++ ((List.replicate 1 exampleBlockText).flatten ++ [])

def hydrogenRppText : List Char := "* 1 0 1\n".toList ++ ([] ++ ((examplePotText 0 ++ []) ++ []))

theorem hydrogen_ftn : FtnInput exampleNum hydrogenXyz hydrogenBas hydrogenRpp [(1, ![1, 1, 1])] [(1, [exampleBlock])] (fun _ => [exampleBlock])
    [(1, [], [examplePot 0])] := by
  refine hydrogen_input exampleNum (by simp [exampleNum]) (by simp [exampleNum]) ?_ (exampleBlock_limits 1 (by omega)) (exampleEntry_ok 1 (by omega)) ?_ fun cs qs h => ?_
  · have : BasisFileRecs exampleNum [(1, [exampleBlock])] (hydrogenBas ++ []) :=
      .cons ⟨_, _, rfl, ⟨[], ['1'], ['1'], [], rfl, by simp [exampleNum], by simp [exampleNum]⟩, .cons (r2 := []) exampleBlock_recs .nil⟩ (fun r hr => by
        simp [hydrogenBas] at hr
        rw [← hr]; exact Or.inr ⟨_, _, rfl, by simp [exampleNum]⟩) .nil
    simpa [nonBlank, hydrogenBas] using this
  · have e : nonBlank hydrogenRpp = hydrogenRpp := by decide +kernel
    rw [e]
    exact exampleRpp_many 0 ['1'] (by simp [exampleNum])
  · simp [firstEntry] at h
    obtain ⟨rfl, rfl⟩ := h
    refine ⟨⟨by simp, by simp, by simp, by simp, by simp [examplePot], by simp [examplePot]⟩, fun L => ?_⟩
    match L with
    | 0 => rfl
    | L + 1 => rfl

theorem hydrogen_c : InputFiles exampleIO (exampleMol 1) hydrogenBasText hydrogenRppText [(1, ![1, 1, 1])] (fun _ => [exampleBlock])
    (fun z => firstEntry z [(1, [], [examplePot 0])]) := by
  have ha : ∀ a ∈ [((1 : Nat), (![1, 1, 1] : Point))], a.1 = 1 := by simp
  refine ⟨exampleMol_file 1 (by decide), fun a h => ?_, fun a h => ?_⟩
  · rw [ha a h]
    exact ⟨⟨_, _, _, rfl, ⟨[], [], [' '], [' '], ['\n'], by simp [Nat.toDigits, Nat.toDigitsCore, Nat.digitChar], allSpace_nil, .nil, spaces_blank, spaces_blank,
      spaces_newline⟩, exampleBlocks_text 1⟩, exampleEntry_ok 1 (by omega)⟩
  · rw [ha a h]
    have e : firstEntry 1 [(1, ([] : List BasisBlock), [examplePot 0])] = some ([], [examplePot 0]) := by simp [firstEntry]
    rw [e]
    exact ⟨⟨_, _, _, _, rfl, ⟨[], [], [' '], [' '], [' '], ['\n'], by simp [Nat.toDigits, Nat.toDigitsCore, Nat.digitChar], allSpace_nil, .nil, spaces_blank,
      spaces_blank, spaces_blank, spaces_newline⟩, .nil, .cons (examplePot_text 0 (by omega)) .nil⟩,
      ⟨by simp, by simp, by simp, by simp, by simp [examplePot], by simp [examplePot]⟩, by simp [examplePot], by simp, by simp, by simp⟩


/-- The shell of both programs. -/
noncomputable def hydrogenShell : Shell := { L := 0, origin := ![1, 1, 1], cart_size := 1, cartList := [(0, 0, 0)], num := 1, coeffs := [1], alpha := [1] }

theorem hydrogen_shells {gen : Nat → List Comp} (hg : DocumentedOrder gen) :
    mainShells gen exampleIO hydrogenBasText [(1, ![1, 1, 1])] = .ok [hydrogenShell] := by
  obtain ⟨basis, h1, h2, h3⟩ := molecule_shells gen hg exampleIO hydrogenBasText [(1, ![1, 1, 1])] (fun _ => [exampleBlock]) fun a ha => by
    have : a.1 = 1 := by
      simp only [List.mem_singleton] at ha
      rw [ha]
    rw [this]
    exact ⟨by decide, (hydrogen_c.basis (1, ![1, 1, 1]) (by simp))⟩
  rw [h2]
  have h4 := h1 (1, ![1, 1, 1]) (by simp)
  have e : blockFuns 0 [exampleBlock] = [(0, [1], [1])] := rfl
  simp only [e] at h4
  obtain ⟨f, l, hf, hl, hb⟩ := List.forall₂_cons_left_iff.1 h4
  rw [List.forall₂_nil_left_iff] at hl
  have hf' := example_normalised hf
  subst hf' hl
  unfold moleculeShells
  simp only [List.flatMap_cons, List.flatMap_nil, hb, List.map_cons, List.map_nil, List.append_nil]
  rw [hg.eq]
  rfl

theorem examplePot_grpp {gen : Nat → List Comp} {g : GrppData} (hg : IsGrpp gen [] [examplePot 0] g) :
    ∃ p : Potential, g = ⟨some p, [], [], []⟩ ∧ p.WF ∧ ∀ k < p.num, p.powers.getD k 0 = 2 ∧ p.alpha.getD k 0 = 1 := by
  obtain ⟨p, e1, e2⟩ := hg.local_ (examplePot 0) rfl
  have ho := hg.oc
  simp only [coreShells, List.zip_nil_right, List.forall₂_nil_left_iff] at ho
  refine ⟨p, ?_, ⟨e2.2.2.1, e2.2.2.2.1, e2.2.2.2.2.1⟩, fun k hk => ?_⟩
  · have a1 := List.length_eq_zero_iff.1 (hg.arep_len)
    have a2 := List.length_eq_zero_iff.1 (hg.esop_len)
    cases g
    simp only at e1 a1 a2 ho
    rw [e1, a1, a2, ho]
  · have ht := e2.2.2.2.2.2.1
    have hf : ((examplePot 0).arep.filter fun t => decide (1e-14 ≤ |t.2.1|)) = [(2, 1, 1)] := by
      simp [examplePot, PotBlock.arep]
      norm_num
    rw [hf] at ht
    have hk1 : k < ((p.powers.take p.num).zip ((p.coeffs.take p.num).zip (p.alpha.take p.num))).length := by
      simp [e2.2.2.1, e2.2.2.2.1, e2.2.2.2.2.1, hk]
    have hk0 : k = 0 := by rw [ht] at hk1; simpa using hk1
    subst hk0
    have h5 := congrArg (fun l => l[0]?) ht
    simp only [List.getElem?_cons_zero] at h5
    rw [List.getElem?_eq_getElem hk1] at h5
    simp only [List.getElem_zip, List.getElem_take, Option.some.injEq, Prod.mk.injEq] at h5
    have q1 : 0 < p.powers.length := lt_of_lt_of_le hk e2.2.2.1
    have q2 : 0 < p.alpha.length := lt_of_lt_of_le hk e2.2.2.2.2.1
    rw [List.getD_eq_getElem?_getD, List.getD_eq_getElem?_getD, List.getElem?_eq_getElem q1, List.getElem?_eq_getElem q2]
    exact ⟨h5.1, h5.2.2⟩

theorem hydrogen_grpps (gen : Nat → List Comp) : ∃ grpps, mainGrpps gen exampleIO hydrogenRppText [(1, ![1, 1, 1])] = .ok grpps ∧ grpps.length = 131 ∧
    ∃ p : Potential, p.WF ∧ (∀ k < p.num, p.powers.getD k 0 = 2 ∧ p.alpha.getD k 0 = 1) ∧
      moleculeGrpps [(1, ![1, 1, 1])] grpps = [(⟨some p, [], [], []⟩, ![1, 1, 1])] := by
  obtain ⟨grpps, h1, h2, h3⟩ := molecule_grpps gen exampleIO hydrogenRppText [(1, ![1, 1, 1])] (fun z => firstEntry z [(1, [], [examplePot 0])]) fun a ha => by
    have : a.1 = 1 := by
      simp only [List.mem_singleton] at ha
      rw [ha]
    rw [this]
    exact ⟨by decide, (hydrogen_c.ecp (1, ![1, 1, 1]) (by simp))⟩
  obtain ⟨g, e, hg⟩ := (h3 (1, ![1, 1, 1]) (by simp)).2 [] [examplePot 0] (by simp [firstEntry])
  obtain ⟨p, rfl, p1, p2⟩ := examplePot_grpp hg
  refine ⟨grpps, h1, h2, p, p1, p2, ?_⟩
  have : grpps.getD 1 none = some ⟨some p, [], [], []⟩ := by rw [List.getD_eq_getElem?_getD, e]; rfl
  unfold moleculeGrpps
  simp only [List.filterMap_cons, this, Option.map_some, List.filterMap_nil]

/-- A hydrogen atom with one s function and a local pseudopotential: both programs succeed without any assumption on out-of-bounds reads, and the Fortran
program writes 18 files, that of the overlap with the square norm 1 of the function. -/
example (prm : LibParams ℕ) (screen : Screen) : ∃ (bt : BesselTab) (sf : SpecFun) (M : Fin 4 → ℕ → ℕ → ℝ) (S A : ℕ → ℕ → ℝ)
    (V : Fin 4 → ℕ → Fin 3 → ℕ → ℕ → ℝ) (files filesC : List OutFile),
    ftnProgram (exampleFtnEnv ⟨true, prm, bt, cartesianDirac, screen⟩ sf exampleNum exampleIO) hydrogenXyz hydrogenBas hydrogenRpp = .ok files ∧
    FtnOutput exampleIO 1 1 M S A V files ∧
    programMain (exampleProgEnv ⟨true, prm, bt, cartesianDirac, screen⟩ sf) ["--grpp".toList, "--overlap".toList, "--coulomb-point".toList, "--grpp-grad".toList]
      (exampleMol 1) hydrogenBasText hydrogenRppText = .ok ⟨0, none, filesC⟩ ∧ COutput exampleIO 1 1 M S A V filesC ∧ files.length = 18 ∧ S 0 0 = 1 ∧
    FoundEqual exampleIO (1e-10) files filesC "libgrpp_f90_overlap.txt" "libgrpp_c_overlap.txt" := by
  have he : LdblEps (1 / 2 ^ 63) := ⟨by norm_num, by norm_num⟩
  obtain ⟨d, hd⟩ := dawson_total he
  obtain ⟨bt, -, hbt⟩ := type2_tables besselTab0
  set lib : Lib ℕ := ⟨true, prm, bt, cartesianDirac, screen⟩ with hlib
  have hs : LibSpec (1 / 2 ^ 63) ⟨boysLiteral, d⟩ := ⟨he, rfl, hd⟩
  obtain ⟨grpps, g1, g2, p, p1, p2, g3⟩ := hydrogen_grpps lib.gen
  have hsh := hydrogen_shells (gen := lib.gen) (Or.inl rfl)
  have hL : (basisComps [hydrogenShell]).length = 1 := by rw [basisComps_length]; simp [dimOf, hydrogenShell]
  have hsm : hydrogenShell.InMolecule lib.gen :=
    (program_reads_main (exampleProgEnv lib ⟨boysLiteral, d⟩) (exampleProgEnv_ok lib _ rfl (Or.inl rfl)) hydrogen_c hsh g1).1 _ (by simp)
  have hk : Kept hydrogenShell.coeffs := fun c hc => by
    simp only [hydrogenShell, List.mem_singleton] at hc
    rw [hc]; right; norm_num
  have hr : ∀ (A B : Shell), A.L + B.L ≤ 15 → GrppReady lib.gen A B ![1, 1, 1] ⟨some p, [], [], []⟩ := fun A B hAB =>
    ⟨fun p' hp' => by
      cases hp'
      exact ⟨p1, fun k hk => by rw [(p2 k hk).1, (p2 k hk).2]; exact ⟨by simp, zero_le_one, fun _ => Or.inl hAB⟩⟩, by simp, by simp, by simp⟩
  have hon : OnCentre hydrogenShell hydrogenShell ![1, 1, 1] := ⟨rfl, rfl⟩
  have hcharge : ∀ a ∈ [((1 : ℕ), (![1, 1, 1] : Point))], a.1 < grpps.length := by rw [g2]; simp
  have hdr : DriverInput lib.gen [hydrogenShell] [(1, ![1, 1, 1])] grpps := by
    refine ⟨fun s hs => ?_, hcharge, fun A hA B hB o ho => ?_, fun A hA B hB o ho => ?_, by rw [hL]; norm_num, by simp⟩
    · rw [List.mem_singleton.1 hs]; exact ⟨hsm.made, hsm.L9, one_pos, hk⟩
    · rw [g3] at ho
      rw [List.mem_singleton.1 hA, List.mem_singleton.1 hB, List.mem_singleton.1 ho]; exact Or.inl hon
    · rw [g3] at ho
      rw [List.mem_singleton.1 hA, List.mem_singleton.1 hB, List.mem_singleton.1 ho]; exact hr _ _ (by simp [hydrogenShell])
  have hkd : KeptDiff hydrogenShell := ⟨hk, fun i hi => by
    have : i = 0 := by simp [hydrogenShell] at hi; exact hi
    subst this
    right
    simp [hydrogenShell, Shell.coeffAt, Shell.alphaAt]
    norm_num⟩
  have hgd : GradDriverInput lib.gen [hydrogenShell] [(1, ![1, 1, 1])] grpps := by
    refine ⟨fun A hA B hB o ho => ?_, ⟨fun s hs => ?_, fun a ha b hb _ => ?_⟩, hcharge, by rw [hL]; norm_num⟩
    · rw [g3] at ho
      rw [List.mem_singleton.1 hA, List.mem_singleton.1 hB, List.mem_singleton.1 ho]
      exact ⟨hsm.made, hsm.made, by simp [hydrogenShell], by simp [hydrogenShell], one_pos, one_pos, hkd, hkd, Or.inl hon, hr _ _ (by simp [hydrogenShell]),
        hr _ _ (by simp [hydrogenShell])⟩
    · exact ⟨_, List.mem_singleton_self _, by rw [List.mem_singleton.1 hs]; rfl⟩
    · rw [List.mem_singleton.1 ha, List.mem_singleton.1 hb]
  have hL0 : ∀ s ∈ [hydrogenShell], s.L = 0 := fun s hs => by rw [List.mem_singleton.1 hs]; rfl
  obtain ⟨M, S, A, V, V4, files, filesC, r1, r2, r3, r4, r5, -, -, -, r6⟩ := fortran_program_partial
    (exampleFtnEnv lib ⟨boysLiteral, d⟩ exampleNum exampleIO) (exampleProgEnv lib ⟨boysLiteral, d⟩) ⟨rfl, rfl, rfl⟩ (exampleFtnEnv_fresh _ _ _ _)
    (exampleProgEnv_ok lib _ rfl (Or.inl rfl)) hydrogen_ftn
    ⟨by simp [exampleBlock], fun a ha cs qs h => by
      simp only [List.mem_singleton] at ha
      subst ha
      simp [firstEntry] at h
      rw [h.1]; simp⟩ (fun a ha cs qs h => by
      simp only [List.mem_singleton] at ha
      subst ha
      simp [firstEntry] at h
      rw [h.1]; simp) hydrogen_c hsh g1 ⟨⟨hbt, _, hs⟩, hdr⟩ ⟨rfl, fun X hX Y hY a ha => by
        rw [List.mem_singleton.1 hX, List.mem_singleton.1 hY]
        exact ⟨by simp, le_rfl, fun _ => Or.inl (by simp [hydrogenShell])⟩⟩ ⟨⟨hbt, _, hs⟩, hgd, Or.inr hL0⟩ (Or.inr hL0)
  rw [hL] at r2 r4 r6
  have h0 : ∀ x k, V4 x 0 k 0 0 = 0 := fun x k => r6 (fun o ho => by rw [g3] at ho; rw [List.mem_singleton.1 ho]) x 0 k 0 0 one_pos one_pos
  have hS : S 0 0 = 1 := by
    have hb : (basisFns [hydrogenShell])[0]? = some (primFn 0 ![1, 1, 1] (0, 0, 0) 1) := by
      have e : basisFn hydrogenShell 0 = primFn 0 ![1, 1, 1] (0, 0, 0) 1 := by
        funext r
        simp [basisFn, hydrogenShell]
      rw [← e]
      rfl
    rw [r5 0 0 _ _ hb hb]
    simp only [← pow_two]
    exact prim_s_norm _
  have hcmp := (fortran_program_compare exampleIO exampleIO rfl (by norm_num) r2 r4 (1e-16) (1e-10)).2.2.2.2.1 ⟨fun p q hp hq _ => by
      obtain rfl : p = 0 := by omega
      obtain rfl : q = 0 := by omega
      rw [hS]; exact exampleIO_one, fun p q hp hq _ => by
      obtain rfl : p = 0 := by omega
      obtain rfl : q = 0 := by omega
      rw [hS]; exact exampleIO_near_one, le_refl _, fun p q hp hq => by
      obtain rfl : p = 0 := by omega
      obtain rfl : q = 0 := by omega
      rw [hS]; norm_num⟩
  refine ⟨bt, _, M, S, A, V, files, filesC, r1, r2, r3, ?_, ?_, hS, hcmp⟩
  · obtain ⟨t, s, n, g, e, a1, a2, a3, a4⟩ := r4
    refine ⟨t, s, n, g, e, a1, a2, a3, fun x a ha k => ?_⟩
    obtain ⟨W, w1, w2, w3⟩ := a4 x a ha k
    refine ⟨W, w1, w2, fun p q hp hq => ?_⟩
    obtain rfl : a = 0 := by omega
    obtain rfl : p = 0 := by omega
    obtain rfl : q = 0 := by omega
    rw [w3 0 0 hp hq]
    simp only [h0, add_zero]
  · obtain ⟨t, s, n, g, rfl, -⟩ := r2
    rfl

/-- Numbers for entries with many functions. -/
noncomputable def wideNum : FtnNum where
  int t := if t = ['0'] then some 0 else if t = ['1'] then some 1 else if t = ['2'] then some 2 else if t = ['2', '0'] then some 20 else
    if t = ['2', '2'] then some 22 else none
  real t := if t = ['1', '.', '0'] then some 1 else none
  int_star t := by simp
  real_star t := by simp

theorem wideReals (n : Nat) : RealValues wideNum (List.replicate n 1) (List.replicate n ['1', '.', '0']) := by
  induction n with
  | zero => exact .nil
  | succ n ih => exact .cons (by simp [wideNum]) ih

/-- A block of `n` functions with one exponent. -/
noncomputable def wideBlock (n : Nat) : BasisBlock := ⟨n, [(1, List.replicate n 1)]⟩

theorem wideBlock_recs (n : Nat) (t : List Char) (ht : wideNum.int t = some (n : Int)) :
    BlockRecs wideNum (wideBlock n) [[['1'], t], ['1', '.', '0'] :: List.replicate n ['1', '.', '0']] := by
  refine .mk ⟨['1'], t, [], rfl, by simp [wideNum, wideBlock], by rw [ht]; rfl⟩ (.cons ⟨by simp [wideBlock], ['1', '.', '0'], List.replicate n ['1', '.', '0'], [], by simp,
    by simp [wideNum], ?_⟩ .nil)
  exact wideReals n

theorem wideBlock_ok (n : Nat) (hn : n ≤ 100) : EntryOk [wideBlock n] := by
  refine ⟨by simp, fun L hL => ?_⟩
  obtain rfl : L = 0 := by simpa using hL
  refine ⟨by simp [wideBlock], hn, by simp [wideBlock], fun k hk => ?_⟩
  have e : (wideBlock n).col k = exampleBlock.col 0 := by
    have hk' : k < n := hk
    simp [BasisBlock.col, wideBlock, exampleBlock, List.getD_eq_getElem?_getD, hk']
  rw [List.getElem_cons_zero, e]
  exact (exampleBlock_ok 0).nonzero 0 (by simp [exampleBlock])

/-- A basis set for hydrogen with `n` functions. -/
def wideBas (n : Nat) (t : List Char) : List FRecord := [[['*'], ['1'], ['1']], [['1'], t], ['1', '.', '0'] :: List.replicate n ['1', '.', '0']]

theorem wideBas_file (n : Nat) (hn : 1 ≤ n) (t : List Char) (ht : wideNum.int t = some (n : Int)) : BasisFileRecs wideNum [(1, [wideBlock n])] (nonBlank (wideBas n t)) := by
  have : BasisFileRecs wideNum [(1, [wideBlock n])] (wideBas n t ++ []) :=
    .cons ⟨_, _, rfl, ⟨[], ['1'], ['1'], [], rfl, by simp [wideNum], by simp [wideNum]⟩, .cons (r2 := []) (wideBlock_recs n t ht) .nil⟩ (fun r hr => by
      simp [wideBas] at hr
      rw [← hr]
      match n, hn with
      | 1, _ => exact Or.inr ⟨_, _, rfl, by simp [wideNum]⟩
      | n + 2, _ => exact Or.inl (by simp)) .nil
  simpa [nonBlank, wideBas] using this

/-- With 22 functions in a block, for which the arrays have room, the program fails. -/
example (lib : Lib ℕ) (sf : SpecFun) (ho : DocumentedOrder lib.gen) :
    ftnProgram (exampleFtnEnv lib sf wideNum exampleIO) hydrogenXyz (wideBas 22 ['2', '2']) [] = .ub :=
  fortran_program_print_basis _ (exampleFtnEnv_fresh _ _ _ _) ho (hydrogen_input wideNum (by simp [wideNum]) (by simp [wideNum])
    (wideBas_file 22 (by omega) _ (by simp [wideNum])) ⟨by simp, by simp [wideBlock], by simp [wideBlock]⟩ (wideBlock_ok 22 (by omega)) .nil (by simp [firstEntry]))
    (1, ![1, 1, 1]) (by simp) (wideBlock 22) (by simp) (le_refl _)

/-- With 20 outer-core functions and potentials, for which the arrays have room, the program fails. -/
example (lib : Lib ℕ) (sf : SpecFun) (ho : DocumentedOrder lib.gen) :
    ftnProgram (exampleFtnEnv lib sf wideNum exampleIO) hydrogenXyz (wideBas 1 ['1'])
      ([['*'], ['1'], ['1'], ['1']] :: ([[['1'], ['2', '0']], ['1', '.', '0'] :: List.replicate 20 ['1', '.', '0']] ++
        [[['1'], ['2', '0']], ['2'] :: ['1', '.', '0'] :: ['1', '.', '0'] :: ['1', '.', '0'] :: List.replicate 20 ['1', '.', '0']])) = .ub := by
  have hp : PotBlockRecs wideNum ⟨20, [⟨2, 1, 1, 1, List.replicate 20 1⟩]⟩
      [[['1'], ['2', '0']], ['2'] :: ['1', '.', '0'] :: ['1', '.', '0'] :: ['1', '.', '0'] :: List.replicate 20 ['1', '.', '0']] := by
    refine .mk ⟨['1'], ['2', '0'], [], rfl, by simp [wideNum], by simp [wideNum]⟩ (.cons ⟨by simp, ['2'], ['1', '.', '0'], ['1', '.', '0'], ['1', '.', '0'],
      List.replicate 20 ['1', '.', '0'], [], by simp, by simp [wideNum], by simp [wideNum], by simp [wideNum], by simp [wideNum], ?_⟩ .nil)
    exact wideReals 20
  have h1 : RppEntryRecs wideNum 1 [wideBlock 20] ([] ++ [⟨20, [⟨2, 1, 1, 1, List.replicate 20 1⟩]⟩])
      ([['*'], ['1'], ['1'], ['1']] :: ([[['1'], ['2', '0']], ['1', '.', '0'] :: List.replicate 20 ['1', '.', '0']] ++ [] ++
        ([[['1'], ['2', '0']], ['2'] :: ['1', '.', '0'] :: ['1', '.', '0'] :: ['1', '.', '0'] :: List.replicate 20 ['1', '.', '0']] ++ []))) :=
    ⟨_, _, _, rfl, ⟨[], ['1'], ['1'], ['1'], [], rfl, by simp [wideNum], by simp [wideNum], by simp [wideNum]⟩, .cons (wideBlock_recs 20 _ (by simp [wideNum])) .nil,
      .cons hp .nil⟩
  have h2 := RppFileRecs.cons h1 (fortran_rpp_closed _ _ _ _ _ (by simp) _ h1) .nil
  simp only [List.append_nil] at h2
  refine fortran_program_print_ecp _ (exampleFtnEnv_fresh _ _ _ _) ho (hydrogen_input wideNum (by simp [wideNum]) (by simp [wideNum])
    (wideBas_file 1 (by omega) _ (by simp [wideNum])) ⟨by simp, by simp [wideBlock], by simp [wideBlock]⟩ (wideBlock_ok 1 (by omega)) h2 fun cs qs h => ?_)
    (1, ![1, 1, 1]) (by simp) [wideBlock 20] [⟨20, [⟨2, 1, 1, 1, List.replicate 20 1⟩]⟩] (by simp [firstEntry]) 0 (by simp) (by simp) (le_refl _) (by simp)
  simp [firstEntry] at h
  obtain ⟨rfl, rfl⟩ := h
  refine ⟨⟨by simp, by simp, by simp [wideBlock], by simp [wideBlock], by simp, by simp⟩, fun L => ?_⟩
  match L with
  | 0 => rfl
  | L + 1 => rfl

/-- A symbol of no element. -/
example (lib : Lib ℕ) (sf : SpecFun) (bas rpp : List FRecord) :
    ftnProgram (exampleFtnEnv lib sf exampleNum exampleIO) [[['1']], [], [['X', 'x'], ['1', '.', '0'], ['1', '.', '0'], ['1', '.', '0']]] bas rpp = .exit := by
  have h1 : exampleNum.real ['1', '.', '0'] = some 1 := by simp [exampleNum]
  exact fortran_program_unknown _ [(['X', 'x'], ![1, 1, 1])] ⟨(['X', 'x'], ![1, 1, 1]), by simp, by decide +kernel⟩ _ _ _ ⟨['1'], [], [], _, rfl, by simp [exampleFtnEnv, exampleNum], _, [],
    rfl, .cons ⟨_, _, _, [], rfl, h1, h1, h1⟩ .nil⟩

theorem prim_p_norm (O : Point) : ∫ r, primFn 1 O (1, 0, 0) 1 r ^ 2 = 1 := by
  have hpi := Real.pi_pos
  have e : ∀ r : Point, primFn 1 O (1, 0, 0) 1 r ^ 2 = ((2 / Real.pi) ^ (3 / 2 : ℝ) * 4) *
      ∏ k, (if k = 0 then (r k - O k) ^ 2 else 1) * Real.exp (-2 * (r k - O k) ^ 2) := by
    intro r
    unfold primFn
    rw [mul_pow, mul_pow, ← Real.rpow_natCast, ← Real.rpow_mul (by positivity), ← Real.rpow_natCast, ← Real.rpow_mul (by positivity)]
    have h1 : ((2 * 1 / Real.pi) ^ (3 / 4 * ((2 : ℕ) : ℝ)) : ℝ) = (2 / Real.pi) ^ (3 / 2 : ℝ) := by norm_num
    have h2 : ((4 * 1 : ℝ) ^ (((1 : ℕ) : ℝ) / 2 * ((2 : ℕ) : ℝ))) = 4 := by norm_num
    rw [h1, h2]
    congr 1
    simp only [Fin.prod_univ_three, Fin.sum_univ_three, Comp.exp]
    change ((r 0 - O 0) ^ 1 * (r 1 - O 1) ^ 0 * (r 2 - O 2) ^ 0 * _) ^ 2 = _
    simp only [pow_one, pow_zero, mul_one, if_true, one_ne_zero, if_false, one_mul, Fin.reduceEq]
    rw [mul_pow, ← Real.exp_nat_mul, mul_assoc, mul_assoc, ← Real.exp_add, ← Real.exp_add]
    congr 2
    push_cast
    ring
  simp only [e]
  rw [integral_const_mul, integral_fintype_prod_volume_eq_prod (fun k x => (if k = 0 then (x - O k) ^ 2 else 1) * Real.exp (-2 * (x - O k) ^ 2))]
  have h1 : ∀ k, ∫ x : ℝ, Real.exp (-2 * (x - O k) ^ 2) = (Real.pi / 2) ^ (1 / 2 : ℝ) := fun k => by
    rw [integral_sub_right_eq_self (fun x : ℝ => Real.exp (-2 * x ^ 2)), integral_gaussian, Real.sqrt_eq_rpow]
  have h2 : ∫ x : ℝ, (x - O 0) ^ 2 * Real.exp (-2 * (x - O 0) ^ 2) = 1 / 4 * (Real.pi / 2) ^ (1 / 2 : ℝ) := by
    have os := gauss1_os (a := 1) (b := 1) (by norm_num) (O 0) (O 0)
    have l := os.left 0 1
    have z := os.zero
    have g : ∫ x : ℝ, (x - O 0) ^ 2 * Real.exp (-2 * (x - O 0) ^ 2) = gauss1 1 1 (O 0) (O 0) 1 1 := by
      unfold gauss1
      congr 1
      funext x
      rw [pow_one, ← pow_two]
      congr 2
      ring
    rw [g, l, z, ← Real.sqrt_eq_rpow]
    norm_num
  simp only [Fin.prod_univ_three, if_true, Fin.reduceEq, if_false, one_mul, h1, h2]
  have h3 : (2 / Real.pi) ^ (3 / 2 : ℝ) * ((Real.pi / 2) ^ (1 / 2 : ℝ)) ^ 3 = 1 := by
    rw [← Real.rpow_natCast, ← Real.rpow_mul (by positivity), show (1 / 2 : ℝ) * (3 : ℕ) = 3 / 2 by norm_num, ← Real.mul_rpow (by positivity) (by positivity)]
    have : 2 / Real.pi * (Real.pi / 2) = 1 := by field_simp
    rw [this, Real.one_rpow]
  linear_combination h3

theorem example_normalised_p {f : BasisFun} (h : NormalisedFun 1 [1] [1] f) : f = ⟨1, 1, [1], [1]⟩ := by
  obtain ⟨h1, h2, h3, ⟨N, hN, h4⟩, h5⟩ := h
  have h6 := h5 ![0, 0, 0] (1, 0, 0) rfl
  rw [h2, h3, h4] at h6
  have e : ∀ r, cgto ![0, 0, 0] (1, 0, 0) ([1] : List ℝ).length (([1] : List ℝ).map (· * N)) [1] r ^ 2 = N ^ 2 * primFn 1 ![0, 0, 0] (1, 0, 0) 1 r ^ 2 := fun r => by
    simp [cgto, mul_pow]
  simp only [e] at h6
  rw [integral_const_mul, prim_p_norm] at h6
  have : N = 1 := by
    have h7 : N ^ 2 = 1 := by simpa using h6
    nlinarith [h7]
  subst this
  cases f
  simp only at h1 h2 h3 h4
  subst h1 h2 h3 h4
  simp

/-- Two hydrogen atoms, each with an s and a p function and a local pseudopotential. -/
noncomputable def pairAtoms : List (Nat × Point) := [(1, ![1, 1, 1]), (1, ![0, 1, 1])]

def pairXyz : List FRecord := [[['2']], [], [['H'], ['1', '.', '0'], ['1', '.', '0'], ['1', '.', '0']], [['H'], ['0'], ['1', '.', '0'], ['1', '.', '0']]]

def pairBas : List FRecord := [[['*'], ['1'], ['2']], [['1'], ['1']], [['1', '.', '0'], ['1', '.', '0']], [['1'], ['1']], [['1', '.', '0'], ['1', '.', '0']]]

def pairBasText : List Char := "* 1 2\n".toList ++ ((List.replicate 2 exampleBlockText).flatten ++ [])

theorem pair_charge {a : Nat × Point} (h : a ∈ pairAtoms) : a.1 = 1 := by
  simp only [pairAtoms, List.mem_cons, List.not_mem_nil, or_false] at h
  rcases h with rfl | rfl <;> rfl

theorem pair_ftn : FtnInput exampleNum pairXyz pairBas hydrogenRpp pairAtoms [(1, List.replicate 2 exampleBlock)] (fun _ => List.replicate 2 exampleBlock)
    [(1, [], [examplePot 0])] := by
  have h1 : exampleNum.real ['1', '.', '0'] = some 1 := by simp [exampleNum]
  have h0 : exampleNum.real ['0'] = some 0 := by simp [exampleNum]
  refine ⟨fun a h => by rw [pair_charge h]; omega, ⟨['2'], [], [], [[['H'], ['1', '.', '0'], ['1', '.', '0'], ['1', '.', '0']], [['H'], ['0'], ['1', '.', '0'], ['1', '.', '0']]],
    rfl, by simp [exampleNum, pairAtoms], _, [], (List.append_nil _).symm, .cons ⟨_, _, _, [], rfl, h1, h1, h1⟩ (.cons ⟨_, _, _, [], rfl, h0, h1, h1⟩ .nil)⟩, ?_,
    fun a h => by rw [pair_charge h]; simp [lastEntry], fun a h bs' h' => ?_, fun a h => exampleEntry_ok 2 (by omega), ?_, fun a h cs qs h' => ?_⟩
  · have : BasisFileRecs exampleNum [(1, List.replicate 2 exampleBlock)] (pairBas ++ []) :=
      .cons ⟨_, _, rfl, ⟨[], ['1'], ['2'], [], rfl, by simp [exampleNum], by simp [exampleNum]⟩, .cons exampleBlock_recs (.cons (r2 := []) exampleBlock_recs .nil)⟩ (fun r hr => by
        simp [pairBas] at hr
        rw [← hr]; exact Or.inr ⟨_, _, rfl, by simp [exampleNum]⟩) .nil
    simpa [nonBlank, pairBas] using this
  · simp only [List.mem_singleton, Prod.mk.injEq] at h'
    rw [h'.2]; exact exampleBlock_limits 2 (by omega)
  · exact hydrogen_ftn.rpp
  · rw [pair_charge h] at h'
    exact hydrogen_ftn.within (1, ![1, 1, 1]) (by simp) cs qs h'

theorem pair_c : CFiles exampleIO pairBasText hydrogenRppText pairAtoms (fun _ => List.replicate 2 exampleBlock) [(1, [], [examplePot 0])] := by
  refine ⟨fun a h => ?_, fun a h => ?_⟩
  · rw [pair_charge h]
    exact ⟨_, _, _, rfl, ⟨[], [], [' '], [' '], ['\n'], by simp [Nat.toDigits, Nat.toDigitsCore, Nat.digitChar], allSpace_nil, .nil, spaces_blank, spaces_blank,
      spaces_newline⟩, exampleBlocks_text 2⟩
  · rw [pair_charge h]
    exact hydrogen_c.ecp (1, ![1, 1, 1]) (by simp)

/-- A shell of the pair. -/
def PairShell (s : Shell) : Prop := s.L ≤ 1 ∧ s.num = 1 ∧ s.coeffs = [1] ∧ s.alpha = [1] ∧ (s.origin = ![1, 1, 1] ∨ s.origin = ![0, 1, 1])

theorem pair_shells {gen : Nat → List Comp} (hg : DocumentedOrder gen) :
    ∃ shells, mainShells gen exampleIO pairBasText pairAtoms = .ok shells ∧ (∀ s ∈ shells, s.InMolecule gen ∧ PairShell s) ∧ shells.length = 4 ∧
      (basisComps shells).length = 8 ∧ ∃ X ∈ shells, 0 < X.L ∧ X.origin = ![1, 1, 1] := by
  obtain ⟨basis, h1, h2, h3⟩ := molecule_shells gen hg exampleIO pairBasText pairAtoms (fun _ => List.replicate 2 exampleBlock) fun a ha =>
    ⟨by rw [pair_charge ha]; decide, pair_c.basis a ha, exampleEntry_ok 2 (by omega)⟩
  have h4 := h1 (1, ![1, 1, 1]) (by simp [pairAtoms])
  have e : blockFuns 0 (List.replicate 2 exampleBlock) = [(0, [1], [1]), (1, [1], [1])] := rfl
  simp only [e] at h4
  obtain ⟨f, l, hf, hl, hb⟩ := List.forall₂_cons_left_iff.1 h4
  obtain ⟨f', l', hf', hl', hb'⟩ := List.forall₂_cons_left_iff.1 hl
  rw [List.forall₂_nil_left_iff] at hl'
  have e1 := example_normalised hf
  have e2 := example_normalised_p hf'
  subst e1 e2 hl' hb'
  have hm : moleculeShells gen pairAtoms basis = [⟨0, ![1, 1, 1], 1, gen 0, 1, [1], [1]⟩, ⟨1, ![1, 1, 1], 3, gen 1, 1, [1], [1]⟩,
      ⟨0, ![0, 1, 1], 1, gen 0, 1, [1], [1]⟩, ⟨1, ![0, 1, 1], 3, gen 1, 1, [1], [1]⟩] := by
    unfold moleculeShells pairAtoms
    simp only [List.flatMap_cons, List.flatMap_nil, hb, List.map_cons, List.map_nil, List.append_nil]
    rfl
  refine ⟨_, h2, fun s hs => ⟨(h3 s hs).1, ?_⟩, by rw [hm]; rfl, ?_, ?_⟩
  · rw [hm] at hs
    simp only [List.mem_cons, List.not_mem_nil, or_false] at hs
    rcases hs with rfl | rfl | rfl | rfl <;> simp [PairShell]
  · rw [hm, basisComps_length]; simp [dimOf]
  · rw [hm]; exact ⟨_, by simp; right; left; rfl, by simp, rfl⟩

theorem pair_grpps (gen : Nat → List Comp) : ∃ grpps, mainGrpps gen exampleIO hydrogenRppText pairAtoms = .ok grpps ∧ grpps.length = 131 ∧
    ∃ p : Potential, p.WF ∧ (∀ k < p.num, p.powers.getD k 0 = 2 ∧ p.alpha.getD k 0 = 1) ∧
      moleculeGrpps pairAtoms grpps = [(⟨some p, [], [], []⟩, ![1, 1, 1]), (⟨some p, [], [], []⟩, ![0, 1, 1])] := by
  obtain ⟨grpps, h1, h2, h3⟩ := molecule_grpps gen exampleIO hydrogenRppText pairAtoms (fun z => firstEntry z [(1, [], [examplePot 0])]) fun a ha =>
    ⟨by rw [pair_charge ha]; decide, pair_c.rpp a ha⟩
  obtain ⟨g, e, hg⟩ := (h3 (1, ![1, 1, 1]) (by simp [pairAtoms])).2 [] [examplePot 0] (by simp [firstEntry])
  obtain ⟨p, rfl, p1, p2⟩ := examplePot_grpp hg
  refine ⟨grpps, h1, h2, p, p1, p2, ?_⟩
  have : grpps.getD 1 none = some ⟨some p, [], [], []⟩ := by rw [List.getD_eq_getElem?_getD, e]; rfl
  unfold moleculeGrpps pairAtoms
  simp only [List.filterMap_cons, this, Option.map_some, List.filterMap_nil]

theorem pair_place {A B : Shell} (hA : PairShell A) (hB : PairShell B) {C : Point} (hC : C = ![1, 1, 1] ∨ C = ![0, 1, 1]) : OnCentre A B C ∨ OffCentre A B C := by
  have key : ∀ s : Shell, PairShell s → s.origin = C ∨ (1e-14 < vnorm (kDir s C) ∧ ∑ i, toC s C i ^ 2 = 1) := by
    rintro s ⟨-, -, -, h1, h2⟩
    by_cases hs : s.origin = C
    · exact Or.inl hs
    · refine Or.inr ⟨?_, ?_⟩
      · unfold vnorm
        refine Real.lt_sqrt_of_sq_lt ?_
        rcases h2 with h2 | h2 <;> rcases hC with rfl | rfl <;> first | exact absurd h2 hs | (simp [Fin.sum_univ_three, kDir, toC, h1, h2, Shell.alphaAt]; norm_num)
      · rcases h2 with h2 | h2 <;> rcases hC with rfl | rfl <;> first | exact absurd h2 hs | simp [Fin.sum_univ_three, toC, h2]
  have ok : ∀ s : Shell, PairShell s → VecOk (kDir s C) := fun s hs => by
    rcases key s hs with h | h
    · left
      have e : kDir s C = fun _ => 0 := by funext i; simp [kDir, toC, h]
      rw [e]; simp [vnorm]
    · exact Or.inr h.1
  rcases key A hA with h | h
  · rcases key B hB with h' | h'
    · exact Or.inl ⟨h, h'⟩
    · exact Or.inr ⟨ok A hA, ok B hB, fun k => by rw [h'.2] at k; norm_num at k⟩
  · exact Or.inr ⟨ok A hA, ok B hB, fun k => by rw [h.2] at k; norm_num at k⟩

/-- Two hydrogen atoms with s and p functions and local pseudopotentials: if reads beyond the lists of primitive functions are undefined, so is the program.
No outer-core functions are needed. -/
example (prm : LibParams ℕ) (screen : Screen) : ∃ (bt : BesselTab) (sf : SpecFun),
    ftnProgram (exampleFtnEnv ⟨true, prm, bt, cartesianDirac, screen⟩ sf exampleNum exampleIO) pairXyz pairBas hydrogenRpp = .ub := by
  have he : LdblEps (1 / 2 ^ 63) := ⟨by norm_num, by norm_num⟩
  obtain ⟨d, hd⟩ := dawson_total he
  obtain ⟨bt, -, hbt⟩ := type2_tables besselTab0
  set lib : Lib ℕ := ⟨true, prm, bt, cartesianDirac, screen⟩ with hlib
  have hs : LibSpec (1 / 2 ^ 63) ⟨boysLiteral, d⟩ := ⟨he, rfl, hd⟩
  obtain ⟨grpps, g1, g2, p, p1, p2, g3⟩ := pair_grpps lib.gen
  obtain ⟨shells, s1, s2, s3, s4, X, hX, hX0, hXo⟩ := pair_shells (gen := lib.gen) (Or.inl rfl)
  have hk : ∀ s, PairShell s → Kept s.coeffs := fun s h c hc => by
    rw [h.2.2.1, List.mem_singleton] at hc
    rw [hc]; right; norm_num
  have hr : ∀ (A B : Shell) (C : Point), A.L + B.L ≤ 15 → GrppReady lib.gen A B C ⟨some p, [], [], []⟩ := fun A B C hAB =>
    ⟨fun p' hp' => by
      cases hp'
      exact ⟨p1, fun k hk => by rw [(p2 k hk).1, (p2 k hk).2]; exact ⟨by simp, zero_le_one, fun _ => Or.inl hAB⟩⟩, by simp, by simp, by simp⟩
  have hcharge : ∀ a ∈ pairAtoms, a.1 < grpps.length := fun a ha => by rw [g2, pair_charge ha]; decide
  have hm : ∀ o ∈ moleculeGrpps pairAtoms grpps, o.1 = ⟨some p, [], [], []⟩ ∧ (o.2 = ![1, 1, 1] ∨ o.2 = ![0, 1, 1]) := fun o ho => by
    rw [g3] at ho
    simp only [List.mem_cons, List.not_mem_nil, or_false] at ho
    rcases ho with rfl | rfl <;> simp
  have hdr : DriverInput lib.gen shells pairAtoms grpps := by
    refine ⟨fun s hs => ?_, hcharge, fun A hA B hB o ho => pair_place (s2 A hA).2 (s2 B hB).2 (hm o ho).2, fun A hA B hB o ho => ?_, by rw [s4]; norm_num, by rw [s3]; norm_num⟩
    · exact ⟨(s2 s hs).1.made, (s2 s hs).1.L9, by rw [(s2 s hs).2.2.1]; exact one_pos, hk s (s2 s hs).2⟩
    · rw [(hm o ho).1]; exact hr _ _ _ (by have := (s2 A hA).2.1; have := (s2 B hB).2.1; omega)
  have hkd : ∀ s, PairShell s → KeptDiff s := fun s h => ⟨hk s h, fun i hi => by
    obtain rfl : i = 0 := by rw [h.2.1] at hi; omega
    right
    simp [h.2.2.1, h.2.2.2.1, Shell.coeffAt, Shell.alphaAt]
    norm_num⟩
  have hgd : GradDriverInput lib.gen shells pairAtoms grpps := by
    refine ⟨fun A hA B hB o ho => ?_, ⟨fun s hs => ?_, fun a ha b hb hab => ?_⟩, hcharge, by rw [s4]; norm_num⟩
    · have lA := (s2 A hA).2.1
      have lB := (s2 B hB).2.1
      rw [(hm o ho).1]
      exact ⟨(s2 A hA).1.made, (s2 B hB).1.made, by omega, by omega, by rw [(s2 A hA).2.2.1]; exact one_pos, by rw [(s2 B hB).2.2.1]; exact one_pos,
        hkd A (s2 A hA).2, hkd B (s2 B hB).2, pair_place (s2 A hA).2 (s2 B hB).2 (hm o ho).2, hr _ _ _ (by simp only; omega), hr _ _ _ (by simp only; omega)⟩
    · rcases (s2 s hs).2.2.2.2.2 with h | h
      · exact ⟨(1, ![1, 1, 1]), by simp [pairAtoms], h⟩
      · exact ⟨(1, ![0, 1, 1]), by simp [pairAtoms], h⟩
    · have h0 := hab.1
      simp only [pairAtoms, List.mem_cons, List.not_mem_nil, or_false] at ha hb
      rcases ha with rfl | rfl <;> rcases hb with rfl | rfl <;> first | rfl | (exfalso; norm_num at h0)
  have hent : ∀ a ∈ pairAtoms, ∀ cs qs, firstEntry a.1 [(1, ([] : List BasisBlock), [examplePot 0])] = some (cs, qs) → cs = [] := fun a ha cs qs h => by
    rw [pair_charge ha] at h
    simp [firstEntry] at h
    exact h.1
  refine ⟨bt, ⟨boysLiteral, d⟩, fortran_program_undefined (exampleFtnEnv lib ⟨boysLiteral, d⟩ exampleNum exampleIO) (exampleFtnEnv_fresh _ _ _ _) rfl hbt (Or.inl rfl) hs pair_ftn
    ⟨fun a ha b hb => by rw [List.eq_of_mem_replicate hb]; simp [exampleBlock], fun a ha cs qs h => by rw [hent a ha cs qs h]; simp⟩
    (fun a ha cs qs h => by rw [hent a ha cs qs h]; simp) pair_c s1 g1 hdr hgd rfl X hX hX0 (⟨some p, [], [], []⟩, ![0, 1, 1]) (by rw [g3]; simp) ?_⟩
  rw [hXo]
  intro h
  have := congrFun h 0
  norm_num at this

/-- The labels of two atoms with shells of types p and s: the third function is the `z` component at the first atom. -/
example : ∃ l, ftnLabels (ftnMolExample 1) (List.replicate 100 (0, 0, 0)) (List.replicate 4 []) = .ok l ∧ l.length = 4 ∧
    l[2]? = some "  3 H  Z                        ".toList := by
  obtain ⟨l, zs, h1, h2, -, h3⟩ := fortran_labels (ftnMolExample 1) (ftnMolExample_ok 1) (List.replicate 100 (0, 0, 0)) List.length_replicate
    (fun z hz => by
      simp only [ftnMolExample, List.mem_cons, List.not_mem_nil, or_false] at hz
      rcases hz with rfl | rfl <;> simp [ftnMolExample, FMol.basisOf, ftnBasisExample])
    (List.replicate 4 []) (by rw [ftnMolExample_shells, basisComps_length]; simp [dimOf, exampleShell, sShell])
  refine ⟨l, h1, h2.trans List.length_replicate, ?_⟩
  obtain ⟨z, c, -, hz, hc, hl⟩ := h3 2 exampleShell 2 (by rw [ftnMolExample_shells]; rfl)
  have hc' : c = (0, 0, 1) := by
    simp only [exampleShell, List.getElem?_cons_succ, List.getElem?_cons_zero, Option.some.injEq] at hc
    exact hc.symm
  have hz' : z = 1 := by
    simp only [FMol.atoms, ftnMolExample, List.zip_cons_cons, List.zip_nil_right, List.mem_cons, Prod.mk.injEq, List.not_mem_nil, or_false] at hz
    rcases hz with ⟨h, -⟩ | ⟨-, h⟩
    · exact h
    · have := congrFun h 1
      norm_num [exampleShell] at this
  rw [hl, hc', hz']
  decide +kernel

theorem isPotential_one {L J : Int} {p : Potential} (h : IsPotential L J [(2, 1, 1)] p) : p = ⟨L, J, 1, [2], [1], [1]⟩ := by
  obtain ⟨h1, h2, h3, h4, h5, h6, h7, h8, h9⟩ := h
  have hf : (([(2, 1, 1)] : List (Int × ℝ × ℝ)).filter fun t => decide (1e-14 ≤ |t.2.1|)) = [(2, 1, 1)] := by
    simp
    norm_num
  rw [hf] at h6
  have hn : p.num = 1 := by
    have := congrArg List.length h6
    simp [h3, h4, h5] at this
    exact this
  rw [hn] at h3 h4 h5 h6 h7 h8 h9
  obtain ⟨pL, pJ, pn, pp, pc, pa⟩ := p
  simp only at h1 h2 h3 h4 h5 h6 h7 h8 h9 hn
  match pp, pc, pa, h3, h4, h5 with
  | x :: xs, y :: ys, w :: ws, _, _, _ =>
    simp at h6 h7 h8 h9
    obtain ⟨rfl, rfl, rfl⟩ := h6
    subst h1 h2 hn h7 h8 h9
    rfl

/-- Two blocks of eleven outer-core functions and potentials. -/
def manyRpp : List FRecord :=
  ([['*'], ['1'], ['2'], ['2']] :: ((List.replicate 2 [[['1'], ['1', '1']], ['1', '.', '0'] :: List.replicate 11 ['1', '.', '0']]).flatten ++
    (List.replicate 2 [[['1'], ['1', '1']], ['2'] :: ['1', '.', '0'] :: ['1', '.', '0'] :: ['1', '.', '0'] :: List.replicate 11 ['1', '.', '0']]).flatten)) ++ []

def manyCoreText : List Char := "1 11\n1.0E+00".toList ++ ((List.replicate 11 " 1.0E+00".toList).flatten ++ ['\n'])

def manyRppText : List Char := "* 1 2 2\n".toList ++ ((manyCoreText ++ (manyCoreText ++ [])) ++ ((examplePotText 11 ++ (examplePotText 11 ++ [])) ++ []))

theorem exampleReals (n : Nat) : RealValues exampleNum (List.replicate n 1) (List.replicate n ['1', '.', '0']) := by
  induction n with
  | zero => exact .nil
  | succ n ih => exact .cons (by simp [exampleNum]) ih

theorem many_limits : RppLimits [wideBlock 11, wideBlock 11] [examplePot 11, examplePot 11] ∧ Matched [wideBlock 11, wideBlock 11] [examplePot 11, examplePot 11] := by
  refine ⟨⟨by simp, by simp, by simp [wideBlock], by simp [wideBlock], by simp [examplePot], by simp [examplePot]⟩, fun L => ?_⟩
  match L with
  | 0 => rfl
  | 1 => rfl
  | L + 2 => rfl

theorem many_rpp : RppFileRecs exampleNum [(1, [wideBlock 11, wideBlock 11], [examplePot 11, examplePot 11])] (nonBlank manyRpp) := by
  have e : nonBlank manyRpp = manyRpp := by decide +kernel
  rw [e]
  have hb : BlockRecs exampleNum (wideBlock 11) [[['1'], ['1', '1']], ['1', '.', '0'] :: List.replicate 11 ['1', '.', '0']] := by
    refine .mk ⟨['1'], ['1', '1'], [], rfl, by simp [exampleNum, wideBlock], by simp [exampleNum, wideBlock]⟩ (.cons ⟨by simp [wideBlock], ['1', '.', '0'], List.replicate 11 ['1', '.', '0'], [],
      by simp, by simp [exampleNum], exampleReals 11⟩ .nil)
  have hp : PotBlockRecs exampleNum (examplePot 11) [[['1'], ['1', '1']], ['2'] :: ['1', '.', '0'] :: ['1', '.', '0'] :: ['1', '.', '0'] :: List.replicate 11 ['1', '.', '0']] := by
    refine .mk ⟨['1'], ['1', '1'], [], rfl, by simp [exampleNum, examplePot], by simp [exampleNum, examplePot]⟩ (.cons ⟨by simp [examplePot], ['2'], ['1', '.', '0'], ['1', '.', '0'], ['1', '.', '0'],
      List.replicate 11 ['1', '.', '0'], [], by simp, by simp [exampleNum], by simp [exampleNum], by simp [exampleNum], by simp [exampleNum], exampleReals 11⟩ .nil)
  have h1 : RppEntryRecs exampleNum 1 [wideBlock 11, wideBlock 11] ([examplePot 11] ++ [examplePot 11]) ([['*'], ['1'], ['2'], ['2']] ::
      ((List.replicate 2 [[['1'], ['1', '1']], ['1', '.', '0'] :: List.replicate 11 ['1', '.', '0']]).flatten ++
    (List.replicate 2 [[['1'], ['1', '1']], ['2'] :: ['1', '.', '0'] :: ['1', '.', '0'] :: ['1', '.', '0'] :: List.replicate 11 ['1', '.', '0']]).flatten)) :=
    ⟨_, _, _, rfl, ⟨[], ['1'], ['2'], ['2'], [], rfl, by simp [exampleNum], by simp [exampleNum], by simp [exampleNum]⟩, .cons hb (.cons (r2 := []) hb .nil),
      .cons hp (.cons (r2 := []) hp .nil)⟩
  exact .cons h1 (fortran_rpp_closed _ _ _ _ _ (by simp [examplePot]) _ h1) .nil

theorem many_ftn : FtnInput exampleNum hydrogenXyz hydrogenBas manyRpp [(1, ![1, 1, 1])] [(1, [exampleBlock])] (fun _ => [exampleBlock])
    [(1, [wideBlock 11, wideBlock 11], [examplePot 11, examplePot 11])] :=
  hydrogen_input exampleNum (by simp [exampleNum]) (by simp [exampleNum]) hydrogen_ftn.basis (exampleBlock_limits 1 (by omega)) (exampleEntry_ok 1 (by omega)) many_rpp
    fun cs qs h => by
      simp [firstEntry] at h
      obtain ⟨rfl, rfl⟩ := h
      exact many_limits

theorem many_entry : firstEntry 1 [(1, [wideBlock 11, wideBlock 11], [examplePot 11, examplePot 11])] = some ([wideBlock 11, wideBlock 11], [examplePot 11, examplePot 11]) := by
  simp [firstEntry]

theorem many_header : HeaderLine 1 11 "1 11\n".toList :=
  ⟨[], [' '], ['\n'], by simp [Nat.toDigits, Nat.toDigitsCore, Nat.digitChar], allSpace_nil, spaces_blank, lineEnd_newline⟩

theorem many_text : GrppEntry exampleIO manyRppText 1 (some ([wideBlock 11, wideBlock 11], [examplePot 11, examplePot 11])) := by
  have hc : CoreText exampleIO (wideBlock 11) manyCoreText :=
    ⟨"1 11\n".toList, "1.0E+00".toList ++ ((List.replicate 11 " 1.0E+00".toList).flatten ++ ['\n']), rfl, many_header,
      CoreRows.cons (ws := []) (tok := "1.0E+00".toList) (t1 := (List.replicate 11 " 1.0E+00".toList).flatten) (sep := ['\n']) (t2 := []) (by simp [wideBlock]) allSpace_nil exampleToken
        (exampleNums 11) spaces_newline .nil⟩
  have hp : PotText exampleIO (examplePot 11) (examplePotText 11) := by
    refine ⟨_, _, rfl, ⟨[], [' '], ['\n'], by simp [Nat.toDigits, Nat.toDigitsCore, Nat.digitChar, examplePot], allSpace_nil, spaces_blank, lineEnd_newline⟩, ?_⟩
    have hrow : PotRowText exampleIO ⟨2, 1, 1, 1, List.replicate 11 1⟩
        ("2 1.0E+00 1.0E+00 1.0E+00".toList ++ ((List.replicate 11 " 1.0E+00".toList).flatten ++ ['\n'])) :=
      ⟨[], " 1.0E+00 1.0E+00 1.0E+00".toList ++ (List.replicate 11 " 1.0E+00".toList).flatten, ['\n'],
        by simp [Nat.toDigits, Nat.toDigitsCore, Nat.digitChar], allSpace_nil,
        NumsText.cons (ws := [' ']) (tok := "1.0E+00".toList) spaces_blank exampleToken
          (NumsText.cons (ws := [' ']) (tok := "1.0E+00".toList) spaces_blank exampleToken
            (NumsText.cons (ws := [' ']) (tok := "1.0E+00".toList) spaces_blank exampleToken (exampleNums 11))), lineEnd_newline⟩
    have := PotRows.cons (noc := 11) (rows := []) (t2 := []) (by simp) (by show (2 : Nat) ≤ intMax; decide) hrow .nil
    rwa [List.append_nil] at this
  exact ⟨⟨_, _, _, _, rfl, ⟨[], [], [' '], [' '], [' '], ['\n'], by simp [Nat.toDigits, Nat.toDigitsCore, Nat.digitChar], allSpace_nil, .nil, spaces_blank, spaces_blank,
    spaces_blank, spaces_newline⟩, .cons hc (.cons hc .nil), .cons hp (.cons hp .nil)⟩,
    ⟨by simp [wideBlock], by simp [wideBlock], by simp, by simp [intMax], by simp [examplePot], by simp [examplePot]⟩, by simp [wideBlock, examplePot], by simp, by simp, by simp⟩

theorem many_c : CFiles exampleIO hydrogenBasText manyRppText [(1, ![1, 1, 1])] (fun _ => [exampleBlock])
    [(1, [wideBlock 11, wideBlock 11], [examplePot 11, examplePot 11])] := by
  refine ⟨fun a h => (hydrogen_c.basis a h).1, fun a h => ?_⟩
  rw [List.mem_singleton.1 h, many_entry]
  exact many_text

theorem getD_replicate_one {n i : Nat} (h : i < n) : (List.replicate n (1 : ℝ)).getD i 0 = 1 := by
  rw [List.getD_eq_getElem _ _ (by simpa using h), List.getElem_replicate]

theorem many_core {gen : Nat → List Comp} {q : (Nat × Nat × List (Int × ℝ × ℝ)) × Shell}
    (h : q ∈ (corePots 0 [examplePot 11, examplePot 11]).zip (coreShells gen 0 [wideBlock 11, wideBlock 11])) :
    q.1.1 = q.2.L ∧ q.1.1 ≤ 1 ∧ (q.1.2.1 + 1 = 2 * q.2.L ∨ q.1.2.1 = 2 * q.2.L + 1) ∧ q.1.2.2 = [(2, 1, 1)] ∧
      q.2 = { L := q.2.L, origin := ![0, 0, 0], cart_size := cartSize q.2.L, cartList := gen q.2.L, num := 1, coeffs := [1], alpha := [1] } := by
  have hL := Matched.zip gen (L := 0) many_limits.2 q h
  obtain ⟨h1, h2⟩ := List.of_mem_zip (a := q.1) (b := q.2) h
  have hc : ∀ i < 11, (examplePot 11).core i = [(2, 1, 1)] := fun i hi => by
    simp only [PotBlock.core, examplePot, List.map_cons, List.map_nil]
    rw [getD_replicate_one hi]
    rfl
  have hw : ∀ i < 11, (wideBlock 11).col i = [1] := fun i hi => by
    simp only [BasisBlock.col, wideBlock, List.map_cons, List.map_nil]
    rw [getD_replicate_one hi]
  refine ⟨hL, ?_, ?_, ?_, ?_⟩
  · simp only [corePots, List.append_nil, List.mem_append, List.mem_map] at h1
    rcases h1 with ⟨i, -, e⟩ | ⟨i, -, e⟩ <;> rw [← e] <;> simp
  · rw [← hL]
    simp only [corePots, List.append_nil, List.mem_append, List.mem_map] at h1
    rcases h1 with ⟨i, -, e⟩ | ⟨i, -, e⟩ <;> rw [← e] <;> simp
    omega
  · simp only [corePots, List.append_nil, List.mem_append, List.mem_map, List.mem_range] at h1
    rcases h1 with ⟨i, hi, e⟩ | ⟨i, hi, e⟩ <;> rw [← e] <;> exact hc i hi
  · simp only [coreShells, List.append_nil, List.mem_append, List.mem_map, List.mem_range] at h2
    rcases h2 with ⟨i, hi, e⟩ | ⟨i, hi, e⟩ <;> rw [← e] <;> simp only [hw i hi] <;> rfl

theorem many_oc {gen : Nat → List Comp} {l J : Nat} (hl : l ≤ 1) (hJ : J + 1 = 2 * l ∨ J = 2 * l + 1) (A B : Shell) (C : Point) :
    OcBase gen ⟨l, J, 1, [2], [1], [1]⟩ { L := l, origin := ![0, 0, 0], cart_size := cartSize l, cartList := gen l, num := 1, coeffs := [1], alpha := [1] } ∧
      OcRange A B C ⟨l, J, 1, [2], [1], [1]⟩ { L := l, origin := ![0, 0, 0], cart_size := cartSize l, cartList := gen l, num := 1, coeffs := [1], alpha := [1] } ∧
      ({ L := l, origin := ![0, 0, 0], cart_size := cartSize l, cartList := gen l, num := 1, coeffs := [1], alpha := [1] } : Shell).NoTiny := by
  have h0 : ∀ k, k < 1 → k = 0 := fun k hk => by omega
  refine ⟨⟨⟨⟨le_rfl, le_rfl⟩, rfl, rfl, fun i hi => ?_⟩, by simp only; omega, ⟨by simp, by simp, by simp⟩, rfl, ?_, fun k hk => ?_⟩, fun k hk => ?_, fun i hi h => ?_⟩
  · rw [h0 i hi]; simp
  · simp only
    omega
  · rw [h0 k hk]; simp
  · rw [h0 k hk]; exact ⟨⟨by simp, by simp, by simp⟩, ⟨by simp, by simp, by simp⟩⟩
  · rw [h0 i hi] at h
    norm_num at h

theorem many_grpps (gen : Nat → List Comp) : ∃ grpps g, mainGrpps gen exampleIO manyRppText [(1, ![1, 1, 1])] = .ok grpps ∧ grpps.length = 131 ∧
    moleculeGrpps [(1, ![1, 1, 1])] grpps = [(g, ![1, 1, 1])] ∧ GrppReady gen hydrogenShell hydrogenShell ![1, 1, 1] g := by
  obtain ⟨grpps, h1, h2, h3⟩ := molecule_grpps gen exampleIO manyRppText [(1, ![1, 1, 1])] (fun z => firstEntry z [(1, [wideBlock 11, wideBlock 11], [examplePot 11, examplePot 11])])
    fun a ha => ⟨by rw [List.mem_singleton.1 ha]; decide, many_c.rpp a ha⟩
  obtain ⟨g, e, hgr⟩ := (h3 (1, ![1, 1, 1]) (by simp)).2 _ _ many_entry
  have hsemi : ∀ (L : Nat) (p : Potential), L ≤ 1 → p = ⟨L, 0, 1, [2], [1], [1]⟩ → SemiReady hydrogenShell hydrogenShell ![1, 1, 1] p := by
    rintro L p hL rfl
    refine ⟨⟨by simp, by simp, by simp⟩, fun k hk => ?_, fun c hc => ?_, by simp, by simp [hydrogenShell]; omega, by simp [hydrogenShell]; omega, fun _ k hk n hn => ?_⟩
    · obtain rfl : k = 0 := by simpa using hk
      simp
    · right
      rw [List.mem_singleton.1 hc]; norm_num
    · obtain rfl : k = 0 := by simpa using hk
      right
      simp [hydrogenShell] at hn ⊢
      omega
  refine ⟨grpps, g, h1, h2, ?_, ?_, fun u hu => ?_, fun u hu => ?_, fun q hq => ?_⟩
  · have : grpps.getD 1 none = some g := by rw [List.getD_eq_getElem?_getD, e]; rfl
    unfold moleculeGrpps
    simp only [List.filterMap_cons, this, Option.map_some, List.filterMap_nil]
  · intro p hp
    obtain ⟨p', e1, e2⟩ := hgr.local_ (examplePot 11) rfl
    rw [e1] at hp
    cases hp
    rw [isPotential_one e2]
    refine ⟨⟨by simp, by simp, by simp⟩, fun k hk => ?_⟩
    obtain rfl : k = 0 := by simpa using hk
    exact ⟨by simp, by simp, by simp⟩
  · obtain ⟨L, hL⟩ := List.mem_iff_getElem?.1 hu
    have hlt : L < 1 := by
      have := (List.getElem?_eq_some_iff.1 hL).1
      rw [hgr.arep_len] at this
      simpa using this
    obtain rfl : L = 0 := by omega
    obtain ⟨b, hb, hI⟩ := hgr.arep 0 u hL
    cases hb
    exact hsemi 0 u (by omega) (isPotential_one hI)
  · obtain ⟨L, hL⟩ := List.mem_iff_getElem?.1 hu
    have hlt : L < 1 := by
      have := (List.getElem?_eq_some_iff.1 hL).1
      rw [hgr.esop_len] at this
      simpa using this
    obtain rfl : L = 0 := by omega
    obtain ⟨b, hb, hI⟩ := hgr.esop 0 u hL
    cases hb
    exact hsemi 1 u (by omega) (isPotential_one hI)
  · obtain ⟨i, hi⟩ := List.mem_iff_getElem?.1 hq
    have hi2 := (List.getElem?_eq_some_iff.1 hi).1
    have hi1 : i < ((corePots 0 [examplePot 11, examplePot 11]).zip (coreShells gen 0 [wideBlock 11, wideBlock 11])).length := by rw [hgr.oc.length_eq]; exact hi2
    have hr := (List.forall₂_iff_get.1 hgr.oc).2 i hi1 hi2
    rw [show g.oc.get ⟨i, hi2⟩ = q from (List.getElem?_eq_some_iff.1 hi).2] at hr
    obtain ⟨c1, c2, c3, c4, c5⟩ := many_core (List.get_mem _ ⟨i, hi1⟩)
    generalize List.get _ _ = z at hr c1 c2 c3 c4 c5
    obtain ⟨p, s⟩ := q
    simp only at hr
    rw [c4] at hr
    obtain ⟨r1, rfl⟩ := hr
    rw [isPotential_one r1, c5, c1]
    rw [c1] at c2
    exact many_oc c2 c3 _ _ _

/-- Two blocks of eleven outer-core functions: all of the arrays of the file have room, but the table for the integrals overflows. -/
example (prm : LibParams ℕ) (screen : Screen) : ∃ (bt : BesselTab) (sf : SpecFun),
    ftnProgram (exampleFtnEnv ⟨true, prm, bt, cartesianDirac, screen⟩ sf exampleNum exampleIO) hydrogenXyz hydrogenBas manyRpp = .ub := by
  have he : LdblEps (1 / 2 ^ 63) := ⟨by norm_num, by norm_num⟩
  obtain ⟨d, hd⟩ := dawson_total he
  obtain ⟨bt, -, hbt⟩ := type2_tables besselTab0
  set lib : Lib ℕ := ⟨true, prm, bt, cartesianDirac, screen⟩ with hlib
  have hs : LibSpec (1 / 2 ^ 63) ⟨boysLiteral, d⟩ := ⟨he, rfl, hd⟩
  obtain ⟨grpps, g, g1, g2, g3, g4⟩ := many_grpps lib.gen
  have hsh := hydrogen_shells (gen := lib.gen) (Or.inl rfl)
  have hL : (basisComps [hydrogenShell]).length = 1 := by rw [basisComps_length]; simp [dimOf, hydrogenShell]
  obtain ⟨basis, -, s1, s2⟩ := molecule_shells lib.gen (Or.inl rfl) exampleIO hydrogenBasText [(1, ![1, 1, 1])] (fun _ => [exampleBlock]) fun a ha =>
    ⟨by rw [List.mem_singleton.1 ha]; decide, hydrogen_c.basis a ha⟩
  rw [hsh] at s1
  have hsm : hydrogenShell.InMolecule lib.gen := (s2 _ (by rw [← Outcome.ok.inj s1]; simp)).1
  have hdr : DriverInput lib.gen [hydrogenShell] [(1, ![1, 1, 1])] grpps := by
    refine ⟨fun s hs => ?_, fun a ha => by rw [List.mem_singleton.1 ha, g2]; decide, fun A hA B hB o ho => ?_, fun A hA B hB o ho => ?_, by rw [hL]; norm_num, by simp⟩
    · rw [List.mem_singleton.1 hs]
      refine ⟨hsm.made, hsm.L9, one_pos, fun c hc => ?_⟩
      simp only [hydrogenShell, List.mem_singleton] at hc
      rw [hc]; right; norm_num
    · rw [g3] at ho
      rw [List.mem_singleton.1 hA, List.mem_singleton.1 hB, List.mem_singleton.1 ho]; exact Or.inl ⟨rfl, rfl⟩
    · rw [g3] at ho
      rw [List.mem_singleton.1 hA, List.mem_singleton.1 hB, List.mem_singleton.1 ho]; exact g4
  exact ⟨bt, ⟨boysLiteral, d⟩, fortran_program_overflow (exampleFtnEnv lib ⟨boysLiteral, d⟩ exampleNum exampleIO) (exampleFtnEnv_fresh _ _ _ _) rfl hbt (Or.inl rfl) hs many_ftn
    ⟨by simp [exampleBlock], fun a ha cs qs h => by
      rw [List.mem_singleton.1 ha, many_entry] at h
      cases h
      simp [wideBlock]⟩ many_c hsh g1 hdr (by simp) (1, ![1, 1, 1]) (by simp) _ _ many_entry (by simp) (by simp [wideBlock])⟩

end Libgrpp
