import Verif.Lemmas.FortranFiles
import Verif.Props.BasisFile
import Verif.Props.FortranDriver

/-! # C109: the input files of the Fortran front end, compared with the driver program in C

Vocabulary (file `Verif/Model/FortranFiles.lean`): a file is the list of its lines, a line the list of its values. `BasisFileRecs num es recs`: the file
consists of the entries `es` (element and blocks), and the last line of every entry has three values, or two of which the second is not an integer.
`lastEntry z es`: the last entry for the element `z`. `FBasisIs bs b`: the arrays `b` of an element hold the blocks `bs`. `FBasis.funs b`: the contracted
functions in the arrays. `XyzFile num atoms recs`: a file of coordinates. -/

namespace Libgrpp

open MeasureTheory Nat

/-! ## Basis sets -/

/-- **C109**, reading. From every file of entries the last entry for the element is read; the arrays of the other elements do not change. If there is no
entry, nothing changes and there is no message. -/
theorem fortran_basis_read (num : FtnNum) (es : List (Nat × List BasisBlock)) (recs : List FRecord) (hf : BasisFileRecs num es (nonBlank recs)) (z : Nat)
    (hz : 1 ≤ z ∧ z ≤ 131) (hlim : ∀ bs, (z, bs) ∈ es → FtnLimits bs) (basis : List FBasis) (hs : BasisSized basis) :
    ∃ basis', ftnBasisLoop num z basis recs = .ok basis' ∧ BasisSized basis' ∧ (∀ i, i ≠ z - 1 → basis'[i]? = basis[i]?) ∧
      (lastEntry z es = none → basis' = basis) ∧ ∀ bs, lastEntry z es = some bs → ∃ b, basis'[z - 1]? = some b ∧ FBasisIs bs b :=
  read_basis_file hz hf hlim recs basis rfl hs

/-- **C109** (negative part), large entries. An entry with more than ten blocks, or with a block of more than 30 exponents or 30 functions, overruns the
arrays; nothing is checked. -/
theorem fortran_basis_overrun (num : FtnNum) (es : List (Nat × List BasisBlock)) (r0 r1 T recs : List FRecord) (h0 : BasisFileRecs num es r0) (z : Nat)
    (hz : 1 ≤ z ∧ z ≤ 131) (hlim0 : ∀ bs, (z, bs) ∈ es → FtnLimits bs) (bs bs' : List BasisBlock) (b : BasisBlock) (hlim : FtnLimits bs)
    (hout : BlockOutside bs.length b) (he : EntryRecs num z (bs ++ b :: bs') r1) (h : nonBlank recs = r0 ++ (r1 ++ T)) (basis : List FBasis)
    (hs : BasisSized basis) : ftnBasisLoop num z basis recs = .ub := by
  obtain ⟨basis', rest, g1, g2, g3⟩ := read_basis_prefix hz h0 hlim0 recs basis h hs
  rw [g3]
  exact entry_outside hz hlim hout he g2 g1

/-- **C109** (negative part), a lost entry. If the entry of another element before consists of an odd number of lines with two values of which the second
is an integer (for example two functions without contraction, `2 1`, `0.5 1`, `0.05 1`), the search for a header that goes on in the next line takes the
asterisk for a number, and leaves out the header of the entry: the element is not found, and the arrays do not change. -/
theorem fortran_basis_lost (num : FtnNum) (z z' : Nat) (hz : z' ≠ z) (n : Nat) (h1 h2 : FRecord) (hh1 : StarRec num z' n h1) (D : List FRecord)
    (hodd : ∃ k, D.length = 2 * k + 1) (hD : ∀ r ∈ D, PairRec num r) (bs : List BasisBlock) (hh2 : StarRec num z bs.length h2) (body : List FRecord)
    (hb : BlocksRecs num bs body) (hlast : ∀ r, body.getLast? = some r → ClosedRec num r) (recs : List FRecord)
    (h : nonBlank recs = h1 :: (D ++ h2 :: body)) (basis : List FBasis) : ftnBasisLoop num z basis recs = .ok basis := by
  obtain ⟨rest0, g1, g2, g3⟩ := read_star hh1 h
  obtain ⟨k, hk⟩ := hodd
  have hq : h2 ≠ [] := by obtain ⟨s, t, u, more, rfl, -⟩ := hh2; simp
  obtain ⟨rest1, k1, k2, k3⟩ := pairs_scan z basis hq body k D rest0 hk hD g1
  obtain ⟨rest2, l1, -, l3⟩ := scan_data z basis [] body.length body rest1 le_rfl hb.data hlast (by simpa using k1)
  rw [← loop_end z basis l1, ← l3, ← k3, ftnBasisLoop, g3]
  simp only
  rw [if_neg fun h => hz (by exact_mod_cast h.2), dif_pos g2]

/-- **C109**, all basis sets of the molecule. If the file has an entry for every element of the molecule, then after the two passes of the program the
arrays hold for every element the functions of its last entry, normalised as in C103. The counters are within the arrays, as C107 asks for. -/
theorem fortran_main_basis (gen : Nat → List Comp) (hg : DocumentedOrder gen) (num : FtnNum) (es : List (Nat × List BasisBlock)) (recs : List FRecord)
    (hf : BasisFileRecs num es (nonBlank recs)) (charges : List Nat) (entries : Nat → List BasisBlock) (hz : ∀ z ∈ charges, 1 ≤ z ∧ z ≤ 131)
    (he : ∀ z ∈ charges, lastEntry z es = some (entries z)) (hlim : ∀ z ∈ charges, ∀ bs, (z, bs) ∈ es → FtnLimits bs)
    (hok : ∀ z ∈ charges, EntryOk (entries z)) (basis : List FBasis) (hs : BasisSized basis) :
    ∃ basis', ftnMainBasis gen num recs charges basis = .ok basis' ∧ BasisSized basis' ∧
      ∀ z ∈ charges, ∃ b, basis'[z - 1]? = some b ∧ b.Ok ∧
        List.Forall₂ (fun p f => NormalisedFun p.1 p.2.1 p.2.2 f) (blockFuns 0 (entries z)) b.funs := by
  obtain ⟨basis', h1, h2, h3⟩ := main_basis_spec hg hf charges entries hz he hlim (fun z h => (hok z h).ok) basis hs
  refine ⟨basis', h1, h2, fun z h => ?_⟩
  obtain ⟨b, g1, g2⟩ := h3 z h
  have hlimz : FtnLimits (entries z) := by
    refine hlim z h _ ?_
    have := List.mem_of_getLast? (he z h)
    simp only [List.mem_map, List.mem_filter, decide_eq_true_eq] at this
    obtain ⟨e, ⟨h1, h2⟩, h3⟩ := this
    rw [← h3, ← h2]; exact h1
  have hsz := h2.element (List.mem_of_getElem? g1)
  refine ⟨b, g1, ⟨by rw [g2.num, hsz.blocks]; exact hlimz.len, fun L hL => ?_⟩, g2.funs⟩
  rw [g2.num] at hL
  obtain ⟨k, k1, k2⟩ := g2.block L hL
  have e1 : b.block L = k := by unfold FBasis.block; rw [List.getD_eq_getElem?_getD, k1]; rfl
  have hks := hsz.sized k (List.mem_of_getElem? k1)
  have hmem := List.getElem_mem hL
  rw [e1]
  refine ⟨by rw [k2.contr, hks.funs]; exact hlimz.nc _ hmem, by rw [k2.prim, hks.exps]; exact hlimz.np _ hmem, fun i hi => ?_⟩
  rw [k2.contr] at hi
  obtain ⟨row, r1, -⟩ := k2.funs i hi
  have e2 : k.coeffs.getD i [] = row := by rw [List.getD_eq_getElem?_getD, r1]; rfl
  rw [e2, hks.coeffs row (List.mem_of_getElem? r1), k2.prim]
  exact hlimz.np _ hmem

/-- **C109**, agreement with the driver program in C. If both files have the same entries for the elements of the molecule (the first entry in the file of
the driver, the last one in that of the Fortran program), both programs have the same list of shells. -/
theorem fortran_c_shells (gen : Nat → List Comp) (hg : DocumentedOrder gen) (num : FtnNum) (es : List (Nat × List BasisBlock)) (recs : List FRecord)
    (hf : BasisFileRecs num es (nonBlank recs)) (io : DecimalIO) (text : List Char) (charges : List Nat) (coord : List Point)
    (hlen : coord.length = charges.length) (entries : Nat → List BasisBlock) (hz : ∀ z ∈ charges, 1 ≤ z ∧ z < 131)
    (he : ∀ z ∈ charges, lastEntry z es = some (entries z)) (hc : ∀ z ∈ charges, HasEntry io z (entries z) text)
    (hlim : ∀ z ∈ charges, ∀ bs, (z, bs) ∈ es → FtnLimits bs) (hok : ∀ z ∈ charges, EntryOk (entries z)) (basis : List FBasis) (hs : BasisSized basis)
    (ecp : List FEcp) (hecp : ecp.length = 131) :
    ∃ basis', ftnMainBasis gen num recs charges basis = .ok basis' ∧ (⟨charges, coord, basis', ecp⟩ : FMol).Ok ∧
      mainShells gen io text (charges.zip coord) = .ok ((⟨charges, coord, basis', ecp⟩ : FMol).libShells gen) := by
  obtain ⟨basis', h1, h2, h3⟩ := fortran_main_basis gen hg num es recs hf charges entries (fun z h => by have := hz z h; omega) he hlim hok basis hs
  have hb : ∀ z ∈ charges, ((⟨charges, coord, basis', ecp⟩ : FMol).basisOf z).Ok ∧
      List.Forall₂ (fun p f => NormalisedFun p.1 p.2.1 p.2.2 f) (blockFuns 0 (entries z)) ((⟨charges, coord, basis', ecp⟩ : FMol).basisOf z).funs := by
    intro z h
    obtain ⟨b, g1, g2, g3⟩ := h3 z h
    have : (⟨charges, coord, basis', ecp⟩ : FMol).basisOf z = b := by unfold FMol.basisOf; rw [List.getD_eq_getElem?_getD, g1]; rfl
    rw [this]; exact ⟨g2, g3⟩
  have hza : ∀ a ∈ charges.zip coord, a.1 ∈ charges := fun a ha => (List.of_mem_zip (show (a.1, a.2) ∈ _ from ha)).1
  obtain ⟨cb, c1, c2, -⟩ := molecule_shells gen hg io text (charges.zip coord) entries fun a ha => ⟨(hz _ (hza a ha)).2, hc _ (hza a ha), hok _ (hza a ha)⟩
  refine ⟨basis', h1, ⟨hlen, fun z h => ?_, fun z h => (hb z h).1⟩, ?_⟩
  · have := hz z h
    simp only
    rw [h2.elements, hecp]; omega
  · rw [c2]
    congr 1
    unfold FMol.libShells
    rw [shells_of_funs]
    unfold moleculeShells
    refine List.flatMap_congr fun a ha => ?_
    have : cb a.1 = ((⟨charges, coord, basis', ecp⟩ : FMol).basisOf a.1).funs :=
      forall₂_unique (R := fun (p : Nat × List ℝ × List ℝ) f => NormalisedFun p.1 p.2.1 p.2.2 f) (fun p f g hf hg => NormalisedFun.unique hf hg) (c1 a ha) (hb _ (hza a ha)).2
    rw [this]

/-! ## Coordinates -/

/-- **C109**, symbols. The table of symbols is that of the driver program in C. The symbol of every element is found, except that of nobelium, for which
both tables have the symbol of niobium: `No` is unknown. -/
theorem fortran_symbols : ftnSymbols = periodicTable.map Element.letters ∧ (∀ z < 131, z ≠ 102 → ftnGetCharge (ftnSymbols.getD z []) = .ok z) ∧
    ftnGetCharge (ftnSymbols.getD 102 []) = .ok 41 ∧ ftnGetCharge ['N', 'o'] = .exit := by
  refine ⟨ftnSymbols_table, fun z hz h => ?_, ?_, ftnGetCharge_unknown (by decide +kernel)⟩
  · rw [ftnGetCharge_table z hz, if_neg h]
  · rw [ftnGetCharge_table 102 (by norm_num), if_pos rfl]

/-- **C109** (negative part), lower and upper case. The Fortran program knows the symbols only in their usual form; the driver program in C takes `NA` for
sodium as well. -/
theorem fortran_symbols_case : ftnGetCharge ['N', 'A'] = .exit ∧ getElementNucCharge (['N', 'A'].map Char.toNat) = .ok 11 := by
  refine ⟨ftnGetCharge_unknown (by decide +kernel), ?_⟩
  refine element_round_trip_partial 11 (by norm_num) (by norm_num) _ (by decide) ?_
  unfold SameLetters; decide +kernel

/-- **C109**, molecule. From every file of coordinates with known symbols the elements and positions are read, whatever the comment is. -/
theorem fortran_read_molecule (num : FtnNum) (atoms : List (Nat × Point)) (hz : ∀ a ∈ atoms, a.1 < 131 ∧ a.1 ≠ 102) (recs : List FRecord)
    (h : XyzFile num (atoms.map fun a => (ftnSymbols.getD a.1 [], a.2)) recs) : ftnReadMolecule num recs = .ok atoms := by
  obtain ⟨t, more, comment, rs, rfl, hn, rs1, rs2, h1, h2⟩ := h.shape
  have hread : fReadStop (fItem num.int) ((t :: more) :: comment :: rs) = .ok ((atoms.length : Int), comment :: rs) := by
    unfold fReadStop fRead fItem
    rw [List.length_map] at hn
    simp only [nextValue, hn, FRes.done]
  unfold ftnReadMolecule
  rw [hread, Outcome.ok_bind]
  simp only [Int.toNat_natCast]
  have hzs : List.Forall₂ (fun (a : List Char × Point) z => ftnGetCharge (a.1.take 8) = .ok z) (atoms.map fun a => (ftnSymbols.getD a.1 [], a.2))
      (atoms.map Prod.fst) := by
    rw [List.forall₂_map_left_iff, List.forall₂_map_right_iff, List.forall₂_same]
    intro a ha
    simp only
    rw [ftnSymbols_short _ (hz a ha).1, ftnGetCharge_table _ (hz a ha).1, if_neg (hz a ha).2]
  obtain ⟨rest, -, g2⟩ := (xyz_loop h2 h1 0 []).1 _ hzs
  simp only [Nat.add_zero, List.length_map, List.nil_append, List.map_map, forRange_zero] at g2
  rw [g2, Outcome.ok_bind]
  congr 1
  simp only [List.zip_map', Function.comp_def, List.map_id']

/-- **C109**, unknown symbols. If the symbol of an atom is not in the table, the program stops. -/
theorem fortran_unknown_symbol (num : FtnNum) (atoms : List (List Char × Point)) (hz : ∃ a ∈ atoms, a.1.take 8 ∉ ftnSymbols) (recs : List FRecord)
    (h : XyzFile num atoms recs) : ftnReadMolecule num recs = .exit := by
  obtain ⟨t, more, comment, rs, rfl, hn, rs1, rs2, h1, h2⟩ := h.shape
  have hread : fReadStop (fItem num.int) ((t :: more) :: comment :: rs) = .ok ((atoms.length : Int), comment :: rs) := by
    unfold fReadStop fRead fItem
    simp only [nextValue, hn, FRes.done]
  unfold ftnReadMolecule
  rw [hread, Outcome.ok_bind]
  simp only [Int.toNat_natCast]
  obtain ⟨a, ha, hun⟩ := hz
  have := (xyz_loop h2 h1 0 []).2 ⟨a, ha, ftnGetCharge_unknown hun⟩
  rw [Nat.add_zero] at this
  rw [this]
  rfl

/-- **C109** (negative part), ghost atoms. `Gh` is the element 0, which both programs read; but the arrays of the Fortran program begin with the element
1. If the file has an entry for the element 0, it is stored outside the arrays. In any case, the normalisation reads outside the arrays. -/
theorem fortran_ghost (gen : Nat → List Comp) (num : FtnNum) (recs : List FRecord) (charges : List Nat) (basis : List FBasis) :
    ftnGetCharge ['G', 'h'] = .ok 0 ∧ ftnNormalize gen 0 basis = .ub ∧
      (∀ b, ftnBasisLoop num 0 basis recs = .ok b → ftnMainBasis gen num recs (0 :: charges) basis = .ub) := by
  have hn : ∀ b, ftnNormalize gen 0 b = .ub := fun b => by unfold ftnNormalize rd1; rw [if_pos rfl]; rfl
  refine ⟨ftnGetCharge_table 0 (by norm_num), hn basis, fun b hb => ?_⟩
  unfold ftnMainBasis
  rw [List.length_cons, forRange_first]
  simp only [rd, List.getElem?_cons_zero, Outcome.ok_bind, hb, hn]
  rfl

/-! ## Examples -/

/-- A few numbers. -/
noncomputable def exampleNum : FtnNum where
  int t := if t = ['0'] then some 0 else if t = ['1'] then some 1 else if t = ['2'] then some 2 else if t = ['8'] then some 8 else
    if t = ['3'] then some 3 else if t = ['1', '1'] then some 11 else none
  real t := if t = ['1', '.', '0'] then some 1 else if t = ['0'] then some 0 else if t = ['1'] then some 1 else none
  int_star t := by simp
  real_star t := by simp

/-- The arrays at the beginning. -/
noncomputable def exampleArrays : List FBasis :=
  List.replicate 131 ⟨0, List.replicate 10 ⟨0, 0, List.replicate 30 0, List.replicate 30 (List.replicate 30 0)⟩⟩

theorem exampleArrays_sized : BasisSized exampleArrays := by
  have h1 : ∀ b ∈ exampleArrays, b = ⟨0, List.replicate 10 ⟨0, 0, List.replicate 30 0, List.replicate 30 (List.replicate 30 0)⟩⟩ :=
    fun b hb => List.eq_of_mem_replicate hb
  have h2 : ∀ b ∈ exampleArrays, ∀ k ∈ b.blocks, k = ⟨0, 0, List.replicate 30 0, List.replicate 30 (List.replicate 30 0)⟩ := fun b hb k hk => by
    rw [h1 b hb] at hk; exact List.eq_of_mem_replicate hk
  refine ⟨List.length_replicate, fun b hb => ?_, fun b hb k hk => ?_, fun b hb k hk => ?_, fun b hb k hk r hr => ?_⟩
  · rw [h1 b hb]; exact List.length_replicate
  · rw [h2 b hb k hk]; exact List.length_replicate
  · rw [h2 b hb k hk]; exact List.length_replicate
  · rw [h2 b hb k hk] at hr
    rw [List.eq_of_mem_replicate hr]; exact List.length_replicate

theorem exampleBlock_limits (n : Nat) (hn : n ≤ 10) : FtnLimits (List.replicate n exampleBlock) :=
  ⟨by simpa using hn, fun b hb => by rw [List.eq_of_mem_replicate hb]; simp [exampleBlock], fun b hb => by rw [List.eq_of_mem_replicate hb]; simp [exampleBlock]⟩

theorem exampleBlock_recs : BlockRecs exampleNum exampleBlock [[['1'], ['1']], [['1', '.', '0'], ['1', '.', '0']]] :=
  .mk ⟨['1'], ['1'], [], rfl, by simp [exampleNum, exampleBlock], by simp [exampleNum, exampleBlock]⟩
    (.cons ⟨rfl, ['1', '.', '0'], [['1', '.', '0']], [], rfl, by simp [exampleNum], .cons (by simp [exampleNum]) .nil⟩ .nil)

/-- An entry for oxygen, and one with functions of s and p type for hydrogen. -/
def exampleRecs : List FRecord :=
  [[['*'], ['8'], ['1']], [['1'], ['1']], [['1', '.', '0'], ['1', '.', '0']], [], [['*'], ['1'], ['2']], [['1'], ['1']], [['1', '.', '0'], ['1', '.', '0']],
    [['1'], ['1']], [['1', '.', '0'], ['1', '.', '0'], ['c']]]

theorem exampleRecs_file : BasisFileRecs exampleNum [(8, [exampleBlock]), (1, [exampleBlock, exampleBlock])] (nonBlank exampleRecs) := by
  have h1 : BasisFileRecs exampleNum [(1, [exampleBlock, exampleBlock])] ([[['*'], ['1'], ['2']], [['1'], ['1']], [['1', '.', '0'], ['1', '.', '0']],
      [['1'], ['1']], [['1', '.', '0'], ['1', '.', '0'], ['c']]] ++ []) := by
    refine .cons ⟨_, _, rfl, ⟨[], ['1'], ['2'], [], rfl, by simp [exampleNum], by simp [exampleNum]⟩, ?_⟩ (fun r hr => ?_) .nil
    · refine .cons (r2 := [[['1'], ['1']], [['1', '.', '0'], ['1', '.', '0'], ['c']]]) exampleBlock_recs (.cons (r1 := [[['1'], ['1']], [['1', '.', '0'], ['1', '.', '0'], ['c']]]) (r2 := []) ?_ .nil)
      exact .mk ⟨['1'], ['1'], [], rfl, by simp [exampleNum, exampleBlock], by simp [exampleNum, exampleBlock]⟩
        (.cons ⟨rfl, ['1', '.', '0'], [['1', '.', '0']], [['c']], rfl, by simp [exampleNum], .cons (by simp [exampleNum]) .nil⟩ .nil)
    · simp only [List.getLast?_cons_cons, List.getLast?_singleton, Option.some.injEq] at hr
      rw [← hr]; exact Or.inl (by simp)
  refine BasisFileRecs.cons (r1 := [[['*'], ['8'], ['1']], [['1'], ['1']], [['1', '.', '0'], ['1', '.', '0']]]) ⟨_, _, rfl,
    ⟨[], ['8'], ['1'], [], rfl, by simp [exampleNum], by simp [exampleNum]⟩, .cons (r2 := []) exampleBlock_recs .nil⟩ (fun r hr => ?_) h1
  simp only [List.getLast?_cons_cons, List.getLast?_singleton, Option.some.injEq] at hr
  rw [← hr]
  exact Or.inr ⟨_, _, rfl, by simp [exampleNum]⟩

/-- Two functions for hydrogen are read, none for carbon. -/
example : (∃ basis', ftnBasisLoop exampleNum 1 exampleArrays exampleRecs = .ok basis' ∧ ∃ b, basis'[0]? = some b ∧ FBasisIs [exampleBlock, exampleBlock] b) ∧
    ftnBasisLoop exampleNum 6 exampleArrays exampleRecs = .ok exampleArrays := by
  constructor
  · obtain ⟨basis', h1, -, -, -, h2⟩ := fortran_basis_read exampleNum _ exampleRecs exampleRecs_file 1 (by omega)
      (fun bs h => by simp at h; rw [h]; exact exampleBlock_limits 2 (by omega)) exampleArrays exampleArrays_sized
    exact ⟨basis', h1, h2 _ (by simp [lastEntry])⟩
  · obtain ⟨basis', h1, -, -, h2, -⟩ := fortran_basis_read exampleNum _ exampleRecs exampleRecs_file 6 (by omega) (fun bs h => by simp at h) exampleArrays
      exampleArrays_sized
    rw [h1, h2 (by simp [lastEntry])]

/-- Hydrogen after an entry of oxygen without functions: it is not found. -/
example : ftnBasisLoop exampleNum 1 exampleArrays [[['*'], ['8'], ['1']], [['0'], ['0']], [['*'], ['1'], ['1']], [['1'], ['1']],
    [['1', '.', '0'], ['1', '.', '0']]] = .ok exampleArrays :=
  fortran_basis_lost exampleNum 1 8 (by omega) 1 [['*'], ['8'], ['1']] [['*'], ['1'], ['1']] ⟨[], ['8'], ['1'], [], rfl, by simp [exampleNum], by simp [exampleNum]⟩
    [[['0'], ['0']]] ⟨0, rfl⟩ (fun r hr => ⟨['0'], ['0'], 0, by simpa using hr, by decide, by simp [exampleNum]⟩) [exampleBlock]
    ⟨[], ['1'], ['1'], [], rfl, by simp [exampleNum], by simp [exampleNum]⟩ [[['1'], ['1']], [['1', '.', '0'], ['1', '.', '0']]]
    (.cons (r2 := []) exampleBlock_recs .nil)
    (fun r hr => by
      simp only [List.getLast?_cons_cons, List.getLast?_singleton, Option.some.injEq] at hr
      rw [← hr]; exact Or.inr ⟨_, _, rfl, by simp [exampleNum]⟩) _ (by simp [nonBlank]) exampleArrays

/-- Two hydrogen atoms: four shells. -/
example : ∃ basis', ftnMainBasis cartesianDirac exampleNum exampleRecs [1, 1] exampleArrays = .ok basis' ∧
    ((⟨[1, 1], [![0, 0, 0], ![0, 0, 1]], basis', []⟩ : FMol).libShells cartesianDirac).length = 4 := by
  obtain ⟨basis', h1, h2, h3⟩ := fortran_main_basis cartesianDirac (.inl rfl) exampleNum _ exampleRecs exampleRecs_file [1, 1] (fun _ => [exampleBlock, exampleBlock])
    (by simp) (by simp [lastEntry]) (fun z hz bs h => by
      have : z = 1 := by simpa using hz
      subst this
      simp at h; rw [h]; exact exampleBlock_limits 2 (by omega)) (fun _ _ => exampleEntry_ok 2 (by omega)) exampleArrays exampleArrays_sized
  obtain ⟨b, g1, -, g2⟩ := h3 1 (by simp)
  have hl : b.funs.length = 2 := by rw [← g2.length_eq]; rfl
  refine ⟨basis', h1, ?_⟩
  have hb : (⟨[1, 1], [![0, 0, 0], ![0, 0, 1]], basis', []⟩ : FMol).basisOf 1 = b := by unfold FMol.basisOf; rw [List.getD_eq_getElem?_getD, g1]; rfl
  unfold FMol.libShells
  rw [shells_of_funs]
  simp [moleculeShells, FMol.atoms, hb, hl]

/-- Two entries for hydrogen: the last one counts. -/
example : lastEntry 1 [(1, [exampleBlock]), (8, []), (1, [exampleBlock, exampleBlock])] = some [exampleBlock, exampleBlock] := by simp [lastEntry]

theorem exampleBlocks_recs (n : Nat) : BlocksRecs exampleNum (List.replicate n exampleBlock)
    (List.replicate n [[['1'], ['1']], [['1', '.', '0'], ['1', '.', '0']]]).flatten := by
  induction n with
  | zero => exact .nil
  | succ n ih => exact .cons exampleBlock_recs ih

/-- An entry with eleven blocks, after that of oxygen. -/
example : ftnBasisLoop exampleNum 1 exampleArrays ([[['*'], ['8'], ['1']], [['1'], ['1']], [['1', '.', '0'], ['1', '.', '0']]] ++
    ([['*'], ['1'], ['1', '1']] :: (List.replicate 11 [[['1'], ['1']], [['1', '.', '0'], ['1', '.', '0']]]).flatten ++ [])) = .ub := by
  refine fortran_basis_overrun exampleNum [(8, [exampleBlock])] [[['*'], ['8'], ['1']], [['1'], ['1']], [['1', '.', '0'], ['1', '.', '0']]] _ [] _ ?_ 1 (by omega)
    (fun bs h => by simp at h) (List.replicate 10 exampleBlock) [] exampleBlock (exampleBlock_limits 10 le_rfl) (Or.inl (by simp))
    ⟨_, _, rfl, ⟨[], ['1'], ['1', '1'], [], rfl, by simp [exampleNum], by simp [exampleNum]⟩, exampleBlocks_recs 11⟩ (by decide +kernel) exampleArrays
    exampleArrays_sized
  refine BasisFileRecs.cons (r1 := [[['*'], ['8'], ['1']], [['1'], ['1']], [['1', '.', '0'], ['1', '.', '0']]]) (r2 := []) ⟨_, _, rfl,
    ⟨[], ['8'], ['1'], [], rfl, by simp [exampleNum], by simp [exampleNum]⟩, .cons (r2 := []) exampleBlock_recs .nil⟩ (fun r hr => ?_) .nil
  simp only [List.getLast?_cons_cons, List.getLast?_singleton, Option.some.injEq] at hr
  rw [← hr]
  exact Or.inr ⟨_, _, rfl, by simp [exampleNum]⟩

/-- Both programs: a hydrogen atom with functions of s, p and d type. -/
example : ∃ basis', ftnMainBasis cartesianDirac exampleNum ([['*'], ['1'], ['3']] :: (List.replicate 3 [[['1'], ['1']], [['1', '.', '0'], ['1', '.', '0']]]).flatten) [1]
      exampleArrays = .ok basis' ∧
    mainShells cartesianDirac exampleIO ("comment * 8 1 * 1 3\n".toList ++ ((List.replicate 3 exampleBlockText).flatten ++ "trailing".toList)) [(1, ![0, 0, 1])] =
      .ok ((⟨[1], [![0, 0, 1]], basis', List.replicate 131 ⟨0, []⟩⟩ : FMol).libShells cartesianDirac) := by
  obtain ⟨basis', h1, -, h2⟩ := fortran_c_shells cartesianDirac (.inl rfl) exampleNum [(1, List.replicate 3 exampleBlock)]
    ([['*'], ['1'], ['3']] :: (List.replicate 3 [[['1'], ['1']], [['1', '.', '0'], ['1', '.', '0']]]).flatten) (by
      refine BasisFileRecs.cons (r1 := [['*'], ['1'], ['3']] :: (List.replicate 3 [[['1'], ['1']], [['1', '.', '0'], ['1', '.', '0']]]).flatten) (r2 := [])
        ⟨_, _, rfl, ⟨[], ['1'], ['3'], [], rfl, by simp [exampleNum], by simp [exampleNum]⟩, exampleBlocks_recs 3⟩ (fun r hr => ?_) .nil
      have : some [['1', '.', '0'], ['1', '.', '0']] = some r := hr
      rw [← Option.some.inj this]
      exact Or.inr ⟨_, _, rfl, by simp [exampleNum]⟩)
    exampleIO _ [1] [![0, 0, 1]] rfl (fun _ => List.replicate 3 exampleBlock) (by simp) (by simp [lastEntry])
    (fun z hz => by rw [List.mem_singleton.1 hz]; exact exampleHasEntry)
    (fun z hz bs h => by simp at h; rw [h.2]; exact exampleBlock_limits 3 (by omega)) (fun _ _ => exampleEntry_ok 3 (by omega)) exampleArrays
    exampleArrays_sized (List.replicate 131 ⟨0, []⟩) List.length_replicate
  exact ⟨basis', h1, h2⟩

/-- A molecule: hydrogen and sodium, with a comment. -/
example : ftnReadMolecule exampleNum [[['2']], [['H'], ['C', 'l']], [['H'], ['0'], ['0'], ['1']], [], [['N', 'a'], ['0'], ['1'], ['0'], ['x']]] =
    .ok [(1, ![0, 0, 1]), (11, ![0, 1, 0])] := by
  refine fortran_read_molecule exampleNum _ (by simp) _ ⟨⟨['2'], [], [['H'], ['C', 'l']], _, rfl, by simp [exampleNum],
    [[['H'], ['0'], ['0'], ['1']], [['N', 'a'], ['0'], ['1'], ['0'], ['x']]], [], by simp, ?_⟩⟩
  refine .cons ⟨['0'], ['0'], ['1'], [], rfl, ?_⟩ (.cons ⟨['0'], ['1'], ['0'], [['x']], rfl, ?_⟩ .nil) <;> simp [exampleNum]

example : ftnReadMolecule exampleNum [[['1']], [], [['N', 'o'], ['0'], ['0'], ['1']]] = .exit :=
  fortran_unknown_symbol exampleNum [(['N', 'o'], ![0, 0, 1])] ⟨_, List.mem_singleton_self _, by decide +kernel⟩ _
    ⟨⟨['1'], [], [], _, rfl, by simp [exampleNum], [[['N', 'o'], ['0'], ['0'], ['1']]], [], by simp,
      .cons ⟨['0'], ['0'], ['1'], [], rfl, by simp [exampleNum]⟩ .nil⟩⟩

end Libgrpp
