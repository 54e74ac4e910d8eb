import Verif.Lemmas.FortranRppC
import Verif.Props.FortranFiles

/-! # C110: the reader of pseudopotentials of the Fortran program, and comparison with the driver in C

A file of pseudopotentials is a list of entries (`RppFileRecs`); of several entries for an element the first counts (`firstEntry`). The arrays of the module
`ecp` for an element hold an entry (`FEcpIs`) if the counters and the leading elements of its rows are those of the entry. -/

namespace Libgrpp

/-- **C110**, the arrays. `read_rpp` puts the first entry for the element into the arrays; without an entry the element has no pseudopotential. Nothing else is
changed. -/
theorem fortran_rpp_read (num : FtnNum) (es : List (Nat × List BasisBlock × List PotBlock)) (recs : List FRecord) (hf : RppFileRecs num es (nonBlank recs)) (z : Nat)
    (hz : 1 ≤ z ∧ z ≤ 131) (hlim : ∀ cs ps, firstEntry z es = some (cs, ps) → RppLimits cs ps) (ecp : List FEcp) (hs : EcpSized ecp) :
    ∃ ecp', ftnReadRpp num z ecp recs = .ok ecp' ∧ EcpSized ecp' ∧ (∀ i, i ≠ z - 1 → ecp'[i]? = ecp[i]?) ∧
      ∃ e, ecp'[z - 1]? = some e ∧ (firstEntry z es = none → e.numArep = 0) ∧ ∀ cs ps, firstEntry z es = some (cs, ps) → FEcpIs cs ps e := by
  obtain ⟨ecp', h1, h2, h3, e, e', h4, h5, h6, -⟩ := read_rpp_file hz hf hlim hs
  exact ⟨ecp', h1, h2, h3, e', h5, h6.1, h6.2⟩

/-- **C110**, the entries. The last line of an entry with a last block of potentials which is not empty is always such that the next entry is found: unlike in
files of basis sets no entry can be lost. -/
theorem fortran_rpp_closed (num : FtnNum) (z : Nat) (cs : List BasisBlock) (ps : List PotBlock) (b : PotBlock) (hb : b.rows ≠ []) (rs : List FRecord)
    (h : RppEntryRecs num z cs (ps ++ [b]) rs) : ∀ r, rs.getLast? = some r → RppClosed num r := by
  obtain ⟨hd, r1, r2, rfl, -, -, h3⟩ := h
  obtain ⟨q1, q2, rfl, -, h4⟩ := h3.concat.split
  cases h4 with
  | cons h5 h6 =>
    cases h6 with
    | nil =>
      obtain ⟨hh, hr⟩ := h5
      rename_i hd2 rs2
      have hlen := hr.length_eq
      have hpos : 0 < b.rows.length := List.length_pos_iff.2 hb
      intro r hlast
      rw [List.append_nil, ← List.append_assoc, ← List.cons_append, List.getLast?_append, List.getLast?_cons, Option.some_or, Option.some.injEq] at hlast
      have hne : rs2 ≠ [] := List.length_pos_iff.1 (by omega)
      rw [List.getLast?_eq_some_getLast hne, Option.getD_some] at hlast
      rw [← hlast, List.getLast_eq_getElem]
      obtain ⟨y, g1, ⟨-, g2⟩, -⟩ := forall₂_get hr (i := rs2.length - 1) (by omega)
      rw [List.getElem?_eq_getElem (by omega)] at g1
      cases g1
      exact g2.closed

/-- **C110**, the limits of the outer-core functions. If the first entry for the element has more than ten blocks of outer-core functions, or a block with more than 50
exponents or more than 50 contracted functions, the program writes outside its arrays. -/
theorem fortran_rpp_core_overrun (num : FtnNum) (es : List (Nat × List BasisBlock × List PotBlock)) (recs : List FRecord) (hf : RppFileRecs num es (nonBlank recs))
    (z : Nat) (hz : 1 ≤ z ∧ z ≤ 131) (bs bs' : List BasisBlock) (b : BasisBlock) (ps : List PotBlock) (hfirst : firstEntry z es = some (bs ++ b :: bs', ps))
    (hlim : RppLimits bs []) (hout : CoreOutside bs.length b) (ecp : List FEcp) (hs : EcpSized ecp) : ftnReadRpp num z ecp recs = .ub := by
  obtain ⟨e0, e, a1, a2, a3, a4, a5, a6, a7⟩ := ftnReadRpp_eq hz hs recs (num := num)
  obtain ⟨rest, q1, q2, T, c1, c2, c3, c4⟩ := (rpp_loop_first hz hf a5 a6 recs rfl).2 _ _ hfirst
  rw [a7, c4]
  have : forRows (ftnReadOcBlock num) (bs ++ b :: bs').length e.rows rest = .ub :=
    forRows_outside (Q := OcChange) hlim.clen (fun b hb rs T recs r h1 h2 h3 => readOc_spec h1 (hlim.cnp b hb) (hlim.cnc b hb) h2 h3)
      (hout.imp_right fun ho rs T recs r h1 h2 h3 => readOc_outside h1 ho h2 h3) c1.concat c3 a3
  unfold ftnReadRppEntry
  rw [this]; rfl

/-- **C110**, the limits of the potentials. If the first entry for the element has more than ten blocks of potentials, or a block with more than 50 terms or more than
20 outer-core potentials, the program writes outside its arrays. -/
theorem fortran_rpp_overrun (num : FtnNum) (es : List (Nat × List BasisBlock × List PotBlock)) (recs : List FRecord) (hf : RppFileRecs num es (nonBlank recs))
    (z : Nat) (hz : 1 ≤ z ∧ z ≤ 131) (cs : List BasisBlock) (bs bs' : List PotBlock) (b : PotBlock) (hfirst : firstEntry z es = some (cs, bs ++ b :: bs'))
    (hlim : RppLimits cs bs) (hout : PotOutside bs.length b) (ecp : List FEcp) (hs : EcpSized ecp) : ftnReadRpp num z ecp recs = .ub := by
  obtain ⟨e0, e, a1, a2, a3, a4, a5, a6, a7⟩ := ftnReadRpp_eq hz hs recs (num := num)
  obtain ⟨rest, q1, q2, T, c1, c2, c3, c4⟩ := (rpp_loop_first hz hf a5 a6 recs rfl).2 _ _ hfirst
  rw [a7, c4]
  obtain ⟨rows1, rest1, b1, b2, b3, b4, -⟩ := forRows_spec (Q := OcChange) hlim.clen
    (fun b hb rs T recs r h1 h2 h3 => readOc_spec h1 (hlim.cnp b hb) (hlim.cnc b hb) h2 h3) c1.concat c3 a3
  have : forRows (ftnReadPotBlock num) (bs ++ b :: bs').length rows1 rest1 = .ub :=
    forRows_outside (Q := PotChange) hlim.plen (fun b hb rs T recs r h1 h2 h3 => readPot_spec h1 (hlim.pnp b hb) (hlim.pnoc b hb) h2 h3)
      (hout.imp_right fun ho rs T recs r h1 h2 h3 => readPot_outside h1 ho h2 h3) c2.concat b2 b4
  unfold ftnReadRppEntry
  simp only [b1, Outcome.ok_bind, this]; rfl

/-- **C110**, atoms without a charge. For the charge 0 and for charges above 131 the program writes outside its arrays, whatever is in the file. -/
theorem fortran_rpp_charge (num : FtnNum) (recs : List FRecord) (z : Nat) (hz : z = 0 ∨ 131 < z) (ecp : List FEcp) (hs : EcpSized ecp) :
    ftnReadRpp num z ecp recs = .ub := by
  have : rd1 ecp z = .ub := by
    unfold rd1
    by_cases h0 : z = 0
    · rw [if_pos h0]
    · rw [if_neg h0]; exact rd_ub (by rw [hs.elements]; omega)
  unfold ftnReadRpp
  rw [this]; rfl

/-- **C110**, old values. If the entry has more blocks of outer-core functions than blocks of potentials, the outer-core potentials which belong to the surplus
functions are what the arrays contained before. -/
theorem fortran_rpp_stale (num : FtnNum) (es : List (Nat × List BasisBlock × List PotBlock)) (recs : List FRecord) (hf : RppFileRecs num es (nonBlank recs)) (z : Nat)
    (hz : 1 ≤ z ∧ z ≤ 131) (cs : List BasisBlock) (ps : List PotBlock) (hfirst : firstEntry z es = some (cs, ps)) (hlim : RppLimits cs ps) (ecp : List FEcp)
    (hs : EcpSized ecp) :
    ∃ ecp' e e', ftnReadRpp num z ecp recs = .ok ecp' ∧ ecp[z - 1]? = some e ∧ ecp'[z - 1]? = some e' ∧
      ∀ L (hL : L < cs.length), ps.length ≤ L → ∀ i < cs[L].nc, ∃ u ∈ e'.ocList, u.L = L ∧ u.u = (e.row L).pot ((e.row L).ocpot.getD i []) := by
  obtain ⟨ecp', h1, h2, h3, e, e', h4, h5, h6, h7⟩ := read_rpp_file hz hf (fun cs' ps' h => by rw [hfirst] at h; cases h; exact hlim) hs
  refine ⟨ecp', e, e', h1, h4, h5, fun L hL hp i hi => ?_⟩
  have hrows := hs.rows e (List.mem_of_getElem? h4)
  have h10 : L < 10 := by have := hlim.clen; omega
  have hLe : L < e.rows.length := by omega
  obtain ⟨r', c1, d1, d2, d3, d4, d5, d6⟩ := h7 cs ps hfirst L e.rows[L] hp (List.getElem?_eq_getElem hLe)
  obtain ⟨r'', c2, c3⟩ := (h6.2 cs ps hfirst).core L hL
  rw [c1] at c2
  cases c2
  refine ⟨⟨L, ftnOcJ L i, (e'.row L).pot ((e'.row L).ocpot.getD i []), (e'.row L).ocNum, (e'.row L).ocCoeffs.getD i [], (e'.row L).ocAlpha⟩, ?_, rfl, ?_⟩
  · unfold FEcp.ocList FEcp.ocRow
    refine List.mem_flatMap.2 ⟨L, List.mem_range.2 h10, List.mem_map.2 ⟨i, List.mem_range.2 ?_, rfl⟩⟩
    rw [FEcp.row_eq c1, c3.contr]; exact hi
  · rw [FEcp.row_eq c1, FEcp.row_eq (List.getElem?_eq_getElem hLe)]
    simp only [FEcpRow.pot, d1, d2, d3, d6]

/-- **C110**, all atoms. `main.f90` reads the pseudopotentials of all atoms; repeated elements are read again. -/
theorem fortran_main_rpp (num : FtnNum) (es : List (Nat × List BasisBlock × List PotBlock)) (recs : List FRecord) (hf : RppFileRecs num es (nonBlank recs))
    (charges : List Nat) (hz : ∀ z ∈ charges, 1 ≤ z ∧ z ≤ 131) (hlim : ∀ z ∈ charges, ∀ cs ps, firstEntry z es = some (cs, ps) → RppLimits cs ps)
    (ecp : List FEcp) (hs : EcpSized ecp) :
    ∃ ecp', ftnMainRpp num recs charges ecp = .ok ecp' ∧ EcpSized ecp' ∧ ∀ z ∈ charges, ∃ e, ecp'[z - 1]? = some e ∧
      (firstEntry z es = none → e.numArep = 0) ∧ ∀ cs ps, firstEntry z es = some (cs, ps) → FEcpIs cs ps e := by
  obtain ⟨ecp', h1, h2, h3⟩ := main_rpp_spec hf charges hz hlim hs
  exact ⟨ecp', h1, h2, h3⟩

/-- **C110**, comparison with the driver in C. If the outer-core functions and potentials of the entries correspond to each other, both programs get the same
pseudopotentials, except that the library object for the local potential is made with the angular momentum 0 by the Fortran program. The counters in the arrays are
within the bounds which the evaluation needs (C107). -/
theorem fortran_c_grpps (gen : Nat → List Comp) (num : FtnNum) (es : List (Nat × List BasisBlock × List PotBlock)) (recs : List FRecord)
    (hf : RppFileRecs num es (nonBlank recs)) (io : DecimalIO) (text : List Char) (atoms : List (Nat × Point))
    (hz : ∀ a ∈ atoms, 1 ≤ a.1 ∧ a.1 < 131) (hentry : ∀ a ∈ atoms, GrppEntry io text a.1 (firstEntry a.1 es))
    (hlim : ∀ a ∈ atoms, ∀ cs ps, firstEntry a.1 es = some (cs, ps) → RppLimits cs ps ∧ Matched cs ps) (ecp : List FEcp) (hs : EcpSized ecp) :
    ∃ ecp' grpps, ftnMainRpp num recs (atoms.map Prod.fst) ecp = .ok ecp' ∧ mainGrpps gen io text atoms = .ok grpps ∧ ∀ a ∈ atoms, ∃ e, ecp'[a.1 - 1]? = some e ∧
      (e.numArep = 0 → grpps[a.1]? = some none) ∧
      (e.numArep ≠ 0 → e.Ok ∧ grpps[a.1]? = some (some { e.data gen with
        local_ := (e.data gen).local_.map fun p => { p with L := ((e.numArep - 1 : Nat) : Int) } })) := by
  have hz' : ∀ z ∈ atoms.map Prod.fst, ∃ a ∈ atoms, a.1 = z := fun z h => by simpa using h
  obtain ⟨ecp', h1, h2, h3⟩ := main_rpp_spec hf (atoms.map Prod.fst) (fun z h => by obtain ⟨a, ha, rfl⟩ := hz' z h; have := hz a ha; omega)
    (fun z h cs ps hf => by obtain ⟨a, ha, rfl⟩ := hz' z h; exact (hlim a ha cs ps hf).1) hs
  obtain ⟨grpps, g1, -, g2⟩ := molecule_grpps gen io text atoms (fun z => firstEntry z es) fun a ha => ⟨(hz a ha).2, hentry a ha⟩
  refine ⟨ecp', grpps, h1, g1, fun a ha => ?_⟩
  obtain ⟨e, k1, k2, k3⟩ := h3 a.1 (List.mem_map_of_mem ha)
  have hent := hentry a ha
  refine ⟨e, k1, ?_⟩
  cases hfe : firstEntry a.1 es with
  | none => exact ⟨fun _ => (g2 a ha).1 hfe, fun h => absurd (k2 hfe) h⟩
  | some v =>
    obtain ⟨cs, ps⟩ := v
    rw [hfe] at hent
    obtain ⟨hl, hm⟩ := hlim a ha cs ps hfe
    have hne : ps ≠ [] := hent.2.2.2.1
    have hi := k3 cs ps hfe
    have hr := h2.element (List.mem_of_getElem? k1)
    refine ⟨fun h => absurd (hi.num ▸ h) (by simpa using hne), fun _ => ⟨hi.ok hl hm hr, ?_⟩⟩
    obtain ⟨g, w1, w2⟩ := (g2 a ha).2 cs ps hfe
    rw [w1, grpp_unique gen cs ps g _ w2 (hi.grpp hl hne hm hr), hi.num]

/-- **C110**, where the programs differ. If the file has more outer-core functions than outer-core potentials, the driver in C uses as many of them as there are potentials,
the Fortran program uses all of them. -/
theorem fortran_c_surplus (gen : Nat → List Comp) (num : FtnNum) (es : List (Nat × List BasisBlock × List PotBlock)) (recs : List FRecord)
    (hf : RppFileRecs num es (nonBlank recs)) (io : DecimalIO) (text : List Char) (z : Nat) (hz : 1 ≤ z ∧ z < 131) (cs : List BasisBlock) (ps : List PotBlock)
    (hfirst : firstEntry z es = some (cs, ps)) (hentry : GrppEntry io text z (some (cs, ps))) (hlim : RppLimits cs ps) (ecp : List FEcp) (hs : EcpSized ecp) :
    ∃ ecp' e g, ftnReadRpp num z ecp recs = .ok ecp' ∧ ecp'[z - 1]? = some e ∧ readGrppFile gen io text z = .ok (some g) ∧
      e.ocList.length = (cs.map fun b => b.nc).sum ∧ g.oc.length = (ps.map fun b => b.noc).sum := by
  obtain ⟨ecp', h1, h2, -, e, h3, -, h4⟩ := fortran_rpp_read num es recs hf z (by omega) (fun cs' ps' h => by rw [hfirst] at h; cases h; exact hlim) ecp hs
  obtain ⟨g, g1, g2⟩ := grpp_read gen io text z (by have : (131 : Nat) ≤ intMax := by decide
                                                    omega) cs ps hentry.1 hentry.2.1 hentry.2.2.1
  have hi := h4 cs ps hfirst
  refine ⟨ecp', e, g, h1, h3, g1, ?_, ?_⟩
  · have key : ∀ L, (e.row L).numOc = (cs.map fun b => b.nc).getD L 0 := fun L => by
      rw [List.getD_eq_getElem?_getD, List.getElem?_map]
      by_cases hc : L < cs.length
      · obtain ⟨r, w1, w2⟩ := hi.core L hc
        rw [FEcp.row_eq w1, w2.contr, List.getElem?_eq_getElem hc]; rfl
      · rw [List.getElem?_eq_none (by omega)]
        cases hr : e.rows[L]? with
        | none => exact FEcp.row_big (List.getElem?_eq_none_iff.1 hr)
        | some r => rw [FEcp.row_eq hr]; exact hi.none_ L r (by omega) hr
    have hsum : ∀ (l : List Nat) (n : Nat), l.length ≤ n → ((List.range n).map fun L => l.getD L 0).sum = l.sum := by
      intro l
      induction l with
      | nil => intro n _; simp
      | cons x l ih =>
        intro n hn
        obtain ⟨n, rfl⟩ : ∃ m, n = m + 1 := ⟨n - 1, by simp only [List.length_cons] at hn; omega⟩
        rw [List.range_succ_eq_map, List.map_cons, List.map_map, List.sum_cons, List.sum_cons, ← ih n (by simpa using hn)]
        rfl
    unfold FEcp.ocList FEcp.ocRow
    rw [List.length_flatMap]
    simp only [List.length_map, List.length_range, key]
    exact hsum _ 10 (by rw [List.length_map]; exact hlim.clen)
  · rw [← g2.oc.length_eq, List.length_zip, corePots_length, coreShells_length, min_eq_left hentry.2.2.1]

/-! ## Examples -/

/-- A row of the arrays at the beginning. -/
noncomputable def exampleRow0 : FEcpRow :=
  ⟨0, 0, List.replicate 50 0, List.replicate 50 0, List.replicate 50 0, List.replicate 50 0, List.replicate 20 (List.replicate 50 0), 0, List.replicate 50 0,
    List.replicate 50 (List.replicate 50 0)⟩

theorem exampleRow0_sized : EcpRowSized exampleRow0 :=
  ⟨List.length_replicate, List.length_replicate, List.length_replicate, List.length_replicate, List.length_replicate,
    fun c hc => by rw [List.eq_of_mem_replicate hc]; exact List.length_replicate, List.length_replicate, List.length_replicate,
    fun c hc => by rw [List.eq_of_mem_replicate hc]; exact List.length_replicate⟩

/-- The arrays of the module `ecp` at the beginning. -/
noncomputable def exampleEcp : List FEcp := List.replicate 131 ⟨0, List.replicate 10 exampleRow0⟩

theorem exampleEcp_sized : EcpSized exampleEcp := by
  have h1 : ∀ e ∈ exampleEcp, e = ⟨0, List.replicate 10 exampleRow0⟩ := fun e he => List.eq_of_mem_replicate he
  refine ⟨List.length_replicate, fun e he => by rw [h1 e he]; exact List.length_replicate, fun e he r hr => ?_⟩
  rw [h1 e he] at hr
  rw [List.eq_of_mem_replicate hr]
  exact exampleRow0_sized

/-- The lines of the block `examplePot b`. -/
def examplePotRecs (b : Nat) : List FRecord :=
  [[['1'], if b = 0 then ['0'] else ['1']], ['2'] :: ['1', '.', '0'] :: ['1', '.', '0'] :: ['1', '.', '0'] :: List.replicate b ['1', '.', '0']]

theorem examplePot_recs (b : Nat) (hb : b ≤ 1) : PotBlockRecs exampleNum (examplePot b) (examplePotRecs b) := by
  refine .mk ⟨['1'], _, [], rfl, by simp [exampleNum, examplePot], ?_⟩ (.cons ⟨by simp [examplePot], ['2'], ['1', '.', '0'], ['1', '.', '0'], ['1', '.', '0'],
    List.replicate b ['1', '.', '0'], [], by simp, by simp [exampleNum], by simp [exampleNum], by simp [exampleNum], by simp [exampleNum], ?_⟩ .nil)
  · interval_cases b <;> simp [exampleNum, examplePot]
  · interval_cases b
    · exact .nil
    · exact .cons (by simp [exampleNum]) .nil

/-- An entry for oxygen with one block of potentials; an entry for hydrogen with one outer-core function, and with `b` and `b'` outer-core potentials in two blocks. -/
def exampleRppRecs (b b' : Nat) : List FRecord :=
  ([['*'], ['8'], ['0'], ['1']] :: ([] ++ (examplePotRecs 0 ++ []))) ++
    (([['*'], ['1'], ['1'], ['2']] :: ([[['1'], ['1']], [['1', '.', '0'], ['1', '.', '0']]] ++ [] ++ (examplePotRecs b ++ (examplePotRecs b' ++ [])))) ++ [])

theorem exampleRppRecs_file (b b' : Nat) (hb : b ≤ 1) (hb' : b' ≤ 1) :
    RppFileRecs exampleNum [(8, [], [examplePot 0]), (1, [exampleBlock], [examplePot b, examplePot b'])] (exampleRppRecs b b') := by
  have h8 : RppEntryRecs exampleNum 8 [] ([] ++ [examplePot 0]) ([['*'], ['8'], ['0'], ['1']] :: ([] ++ (examplePotRecs 0 ++ []))) :=
    ⟨_, _, _, rfl, ⟨[], ['8'], ['0'], ['1'], [], rfl, by simp [exampleNum], by simp [exampleNum], by simp [exampleNum]⟩, .nil,
      .cons (examplePot_recs 0 (by omega)) .nil⟩
  have h1 : RppEntryRecs exampleNum 1 [exampleBlock] ([examplePot b] ++ [examplePot b'])
      ([['*'], ['1'], ['1'], ['2']] :: ([[['1'], ['1']], [['1', '.', '0'], ['1', '.', '0']]] ++ [] ++ (examplePotRecs b ++ (examplePotRecs b' ++ [])))) :=
    ⟨_, _, _, rfl, ⟨[], ['1'], ['1'], ['2'], [], rfl, by simp [exampleNum], by simp [exampleNum], by simp [exampleNum]⟩, .cons exampleBlock_recs .nil,
      .cons (examplePot_recs b hb) (.cons (examplePot_recs b' hb') .nil)⟩
  exact .cons h8 (fortran_rpp_closed _ _ _ _ _ (by simp [examplePot]) _ h8) (.cons h1 (fortran_rpp_closed _ _ _ _ _ (by simp [examplePot]) _ h1) .nil)

theorem exampleRpp_nonBlank (b b' : Nat) : nonBlank (exampleRppRecs b b') = exampleRppRecs b b' := by
  simp [nonBlank, exampleRppRecs, examplePotRecs]

theorem exampleRpp_limits (b b' : Nat) (hb : b ≤ 1) (hb' : b' ≤ 1) : RppLimits [exampleBlock] [examplePot b, examplePot b'] := by
  have h1 : ∀ c ∈ [exampleBlock], c = exampleBlock := fun c hc => List.mem_singleton.1 hc
  have h2 : ∀ c ∈ [examplePot b, examplePot b'], c.rows.length = 1 ∧ c.noc ≤ 1 := fun c hc => by
    simp only [List.mem_cons, List.not_mem_nil, or_false] at hc
    rcases hc with rfl | rfl <;> simp [examplePot, hb, hb']
  refine ⟨by simp, by simp, fun c hc => by rw [h1 c hc]; simp [exampleBlock], fun c hc => by rw [h1 c hc]; simp [exampleBlock],
    fun c hc => by have := (h2 c hc).1; omega, fun c hc => by have := (h2 c hc).2; omega⟩

/-- Hydrogen, oxygen and carbon in this file. -/
example : (∃ ecp', ftnReadRpp exampleNum 1 exampleEcp (exampleRppRecs 1 0) = .ok ecp' ∧ ∃ e, ecp'[0]? = some e ∧ FEcpIs [exampleBlock] [examplePot 1, examplePot 0] e) ∧
    ∃ ecp', ftnReadRpp exampleNum 6 exampleEcp (exampleRppRecs 1 0) = .ok ecp' ∧ ∃ e, ecp'[5]? = some e ∧ e.numArep = 0 := by
  have hf := exampleRppRecs_file 1 0 (by omega) (by omega)
  rw [← exampleRpp_nonBlank] at hf
  constructor
  · obtain ⟨ecp', h1, -, -, e, h2, -, h3⟩ := fortran_rpp_read exampleNum _ _ hf 1 (by omega) (fun cs ps h => by
      simp [firstEntry] at h; rw [← h.1, ← h.2]; exact exampleRpp_limits 1 0 (by omega) (by omega)) exampleEcp exampleEcp_sized
    exact ⟨ecp', h1, e, h2, h3 _ _ (by simp [firstEntry])⟩
  · obtain ⟨ecp', h1, -, -, e, h2, h3, -⟩ := fortran_rpp_read exampleNum _ _ hf 6 (by omega) (fun cs ps h => by simp [firstEntry] at h) exampleEcp exampleEcp_sized
    exact ⟨ecp', h1, e, h2, h3 (by simp [firstEntry])⟩

/-- Two entries for hydrogen: the first one counts. -/
example : firstEntry 1 [(8, [], []), (1, [exampleBlock], [examplePot 1]), (1, [], [examplePot 0])] = some ([exampleBlock], [examplePot 1]) := by simp [firstEntry]

theorem exampleRpp_many (m : Nat) (t : List Char) (ht : exampleNum.int t = some (m + 1 : Nat)) : RppFileRecs exampleNum [(1, [], List.replicate m (examplePot 0) ++ [examplePot 0])]
    (([['*'], ['1'], ['0'], t] :: ([] ++ (List.replicate (m + 1) (examplePotRecs 0)).flatten)) ++ []) := by
  have h2 : ∀ n, PotBlocksRecs exampleNum (List.replicate n (examplePot 0)) (List.replicate n (examplePotRecs 0)).flatten := fun n => by
    induction n with
    | zero => exact .nil
    | succ n ih => exact .cons (examplePot_recs 0 (by omega)) ih
  have h1 : RppEntryRecs exampleNum 1 [] (List.replicate m (examplePot 0) ++ [examplePot 0])
      ([['*'], ['1'], ['0'], t] :: ([] ++ (List.replicate (m + 1) (examplePotRecs 0)).flatten)) := by
    refine ⟨_, _, _, rfl, ⟨[], ['1'], ['0'], t, [], rfl, by simp [exampleNum], by simp [exampleNum], by rw [ht]; simp⟩, .nil, ?_⟩
    rw [← List.replicate_succ']
    exact h2 (m + 1)
  exact .cons h1 (fortran_rpp_closed _ _ _ _ _ (by simp [examplePot]) _ h1) .nil

/-- An entry with eleven blocks of potentials. -/
example : ftnReadRpp exampleNum 1 exampleEcp (([['*'], ['1'], ['0'], ['1', '1']] :: ([] ++ (List.replicate 11 (examplePotRecs 0)).flatten)) ++ []) = .ub := by
  refine fortran_rpp_overrun exampleNum [(1, [], List.replicate 10 (examplePot 0) ++ [examplePot 0])] _ ?_ 1 (by omega) [] (List.replicate 10 (examplePot 0)) []
    (examplePot 0) (by simp [firstEntry]) ⟨by simp, by simp, by simp, by simp, fun b hb => ?_, fun b hb => ?_⟩ (.inl (by simp)) exampleEcp exampleEcp_sized
  · have : nonBlank (([['*'], ['1'], ['0'], ['1', '1']] :: ([] ++ (List.replicate 11 (examplePotRecs 0)).flatten)) ++ []) =
      (([['*'], ['1'], ['0'], ['1', '1']] :: ([] ++ (List.replicate 11 (examplePotRecs 0)).flatten)) ++ []) := by decide +kernel
    rw [this]
    exact exampleRpp_many 10 ['1', '1'] (by simp [exampleNum])
  · rw [List.eq_of_mem_replicate hb]; simp [examplePot]
  · rw [List.eq_of_mem_replicate hb]; simp [examplePot]

/-- An entry with eleven blocks of outer-core functions and one potential. -/
example : ftnReadRpp exampleNum 1 exampleEcp
    (([['*'], ['1'], ['1', '1'], ['1']] :: ((List.replicate 11 [[['1'], ['1']], [['1', '.', '0'], ['1', '.', '0']]]).flatten ++ (examplePotRecs 0 ++ []))) ++ []) = .ub := by
  have h1 : RppEntryRecs exampleNum 1 (List.replicate 10 exampleBlock ++ exampleBlock :: []) ([] ++ [examplePot 0])
      ([['*'], ['1'], ['1', '1'], ['1']] :: ((List.replicate 11 [[['1'], ['1']], [['1', '.', '0'], ['1', '.', '0']]]).flatten ++ (examplePotRecs 0 ++ []))) :=
    ⟨_, _, _, rfl, ⟨[], ['1'], ['1', '1'], ['1'], [], rfl, by simp [exampleNum], by simp [exampleNum], by simp [exampleNum]⟩, exampleBlocks_recs 11,
      .cons (examplePot_recs 0 (by omega)) .nil⟩
  refine fortran_rpp_core_overrun exampleNum [(1, List.replicate 10 exampleBlock ++ exampleBlock :: [], [examplePot 0])] _ ?_ 1 (by omega) (List.replicate 10 exampleBlock) []
    exampleBlock [examplePot 0] (by simp [firstEntry]) ⟨by simp, by simp, fun b hb => ?_, fun b hb => ?_, by simp, by simp⟩ (.inl (by simp)) exampleEcp exampleEcp_sized
  · have : nonBlank (([['*'], ['1'], ['1', '1'], ['1']] :: ((List.replicate 11 [[['1'], ['1']], [['1', '.', '0'], ['1', '.', '0']]]).flatten ++ (examplePotRecs 0 ++ []))) ++ []) =
      (([['*'], ['1'], ['1', '1'], ['1']] :: ((List.replicate 11 [[['1'], ['1']], [['1', '.', '0'], ['1', '.', '0']]]).flatten ++ (examplePotRecs 0 ++ []))) ++ []) := by
      decide +kernel
    rw [this]
    exact .cons h1 (fortran_rpp_closed _ _ _ _ _ (by simp [examplePot]) _ h1) .nil
  · rw [List.eq_of_mem_replicate hb]; simp [exampleBlock]
  · rw [List.eq_of_mem_replicate hb]; simp [exampleBlock]

example : ftnReadRpp exampleNum 0 exampleEcp (exampleRppRecs 1 0) = .ub := fortran_rpp_charge _ _ 0 (.inl rfl) _ exampleEcp_sized

/-- Two blocks of outer-core functions and one block of potentials: the potential for the second block of functions is what the arrays contained before. -/
example (ecp : List FEcp) (hs : EcpSized ecp) : ∃ ecp' e e', ftnReadRpp exampleNum 1 ecp
    (([['*'], ['1'], ['2'], ['1']] :: ((List.replicate 2 [[['1'], ['1']], [['1', '.', '0'], ['1', '.', '0']]]).flatten ++ (examplePotRecs 1 ++ []))) ++ []) = .ok ecp' ∧
    ecp[0]? = some e ∧ ecp'[0]? = some e' ∧ ∃ u ∈ e'.ocList, u.L = 1 ∧ u.u = (e.row 1).pot ((e.row 1).ocpot.getD 0 []) := by
  have h1 : RppEntryRecs exampleNum 1 (List.replicate 2 exampleBlock) ([] ++ [examplePot 1])
      ([['*'], ['1'], ['2'], ['1']] :: ((List.replicate 2 [[['1'], ['1']], [['1', '.', '0'], ['1', '.', '0']]]).flatten ++ (examplePotRecs 1 ++ []))) :=
    ⟨_, _, _, rfl, ⟨[], ['1'], ['2'], ['1'], [], rfl, by simp [exampleNum], by simp [exampleNum], by simp [exampleNum]⟩, exampleBlocks_recs 2,
      .cons (examplePot_recs 1 (by omega)) .nil⟩
  have hf : RppFileRecs exampleNum [(1, List.replicate 2 exampleBlock, [examplePot 1])] (nonBlank
      (([['*'], ['1'], ['2'], ['1']] :: ((List.replicate 2 [[['1'], ['1']], [['1', '.', '0'], ['1', '.', '0']]]).flatten ++ (examplePotRecs 1 ++ []))) ++ [])) := by
    have : nonBlank (([['*'], ['1'], ['2'], ['1']] :: ((List.replicate 2 [[['1'], ['1']], [['1', '.', '0'], ['1', '.', '0']]]).flatten ++ (examplePotRecs 1 ++ []))) ++ []) =
      (([['*'], ['1'], ['2'], ['1']] :: ((List.replicate 2 [[['1'], ['1']], [['1', '.', '0'], ['1', '.', '0']]]).flatten ++ (examplePotRecs 1 ++ []))) ++ []) := by
      decide +kernel
    rw [this]
    exact .cons h1 (fortran_rpp_closed _ _ _ _ _ (by simp [examplePot]) _ h1) .nil
  obtain ⟨ecp', e, e', k1, k2, k3, k4⟩ := fortran_rpp_stale exampleNum _ _ hf 1 (by omega) (List.replicate 2 exampleBlock) [examplePot 1] (by simp [firstEntry])
    ⟨by simp, by simp, by simp [exampleBlock], by simp [exampleBlock], by simp [examplePot], by simp [examplePot]⟩ ecp hs
  exact ⟨ecp', e, e', k1, k2, k3, k4 1 (by simp) (by simp) 0 (by simp [exampleBlock])⟩

theorem exampleMatched : Matched [exampleBlock] [examplePot 1, examplePot 0] := fun L => by
  match L with
  | 0 => rfl
  | 1 => rfl
  | L + 2 => rfl

theorem exampleGrppEntry (b b' : Nat) (hb : b ≤ 1) (hb' : b' ≤ 1) (h : b + b' ≤ 1) :
    GrppEntry exampleIO (exampleGrppText b b') 1 (some ([exampleBlock], [examplePot b, examplePot b'])) :=
  ⟨exampleHasGrpp b b' hb hb', exampleGrppLimits b b' hb hb', by simp [examplePot, exampleBlock]; omega, by simp, by simp, by simp⟩

/-- Both programs, the hydrogen molecule: one outer-core potential. -/
example (P Q : Point) : ∃ ecp' e, ftnMainRpp exampleNum (exampleRppRecs 1 0) [1, 1] exampleEcp = .ok ecp' ∧ ecp'[0]? = some e ∧ e.numArep = 2 ∧
    ∃ grpps g, mainGrpps cartesianDirac exampleIO (exampleGrppText 1 0) [(1, P), (1, Q)] = .ok grpps ∧ grpps[1]? = some (some g) ∧ g.oc = (e.data cartesianDirac).oc ∧
      g.arep = (e.data cartesianDirac).arep := by
  have hf := exampleRppRecs_file 1 0 (by omega) (by omega)
  rw [← exampleRpp_nonBlank] at hf
  have h1 : ∀ a ∈ ([(1, P), (1, Q)] : List (Nat × Point)), a.1 = 1 := by simp
  have hfe : firstEntry 1 [(8, [], [examplePot 0]), (1, [exampleBlock], [examplePot 1, examplePot 0])] = some ([exampleBlock], [examplePot 1, examplePot 0]) := by
    simp [firstEntry]
  obtain ⟨ecp', grpps, k1, k2, k3⟩ := fortran_c_grpps cartesianDirac exampleNum _ _ hf exampleIO (exampleGrppText 1 0) [(1, P), (1, Q)] (fun a ha => by rw [h1 a ha]; omega)
    (fun a ha => by rw [h1 a ha, hfe]; exact exampleGrppEntry 1 0 (by omega) (by omega) (by omega))
    (fun a ha cs ps h => by rw [h1 a ha, hfe] at h; cases h; exact ⟨exampleRpp_limits 1 0 (by omega) (by omega), exampleMatched⟩) exampleEcp exampleEcp_sized
  obtain ⟨ecp'', j1, -, j2⟩ := fortran_main_rpp exampleNum _ _ hf [1, 1] (by simp) (fun z hz cs ps h => by
    have : z = 1 := by simpa using hz
    rw [this, hfe] at h; cases h; exact exampleRpp_limits 1 0 (by omega) (by omega)) exampleEcp exampleEcp_sized
  obtain ⟨e, q1, q2, q3⟩ := k3 (1, P) (by simp)
  obtain ⟨e', r1, -, r3⟩ := j2 1 (by simp)
  have : ecp'' = ecp' := by
    have : Outcome.ok ecp'' = .ok ecp' := j1.symm.trans k1
    cases this; rfl
  subst this
  rw [q1] at r1
  cases r1
  have hn : e.numArep = 2 := (r3 _ _ hfe).num
  exact ⟨ecp'', e, j1, q1, hn, grpps, _, k2, (q3 (by omega)).2, rfl, rfl⟩

/-- One outer-core function without a potential: it is used by the Fortran program, but not by the driver in C. -/
example : ∃ ecp' e g, ftnReadRpp exampleNum 1 exampleEcp (exampleRppRecs 0 0) = .ok ecp' ∧ ecp'[0]? = some e ∧
    readGrppFile cartesianDirac exampleIO (exampleGrppText 0 0) 1 = .ok (some g) ∧ e.ocList.length = 1 ∧ g.oc.length = 0 := by
  have hf := exampleRppRecs_file 0 0 (by omega) (by omega)
  rw [← exampleRpp_nonBlank] at hf
  exact fortran_c_surplus cartesianDirac exampleNum _ _ hf exampleIO (exampleGrppText 0 0) 1 (by omega) [exampleBlock] [examplePot 0, examplePot 0] (by simp [firstEntry])
    (exampleGrppEntry 0 0 (by omega) (by omega) (by omega)) (exampleRpp_limits 0 0 (by omega) (by omega)) exampleEcp exampleEcp_sized

end Libgrpp
