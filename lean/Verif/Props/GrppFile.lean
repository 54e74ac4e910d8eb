import Verif.Lemmas.GrppFile
import Verif.Props.BasisFile
import Verif.Props.DriverGrpp

/-! # C104: the pseudopotentials of the driver program, from the text of the file to the objects of the library

Vocabulary (file `Verif/Model/GrppFile.lean`): `HasGrpp io z cs ps text`: the first entry of the file for the element `z` consists of the blocks `cs` of
outer-core functions and the blocks `ps` of potentials. `coreShells gen 0 cs`: the functions, each with the position of its block as angular momentum.
`corePots 0 ps`: the outer-core potentials: angular momentum, twice the total angular momentum, terms. `IsPotential L J ts p`: `p` has these numbers and
terms, without the terms with coefficients below 1e-14, and zeros in the rest of its arrays. -/

namespace Libgrpp

/-- An entry is within the limits of the program. -/
structure GrppLimits (cs : List BasisBlock) (ps : List PotBlock) : Prop where
  npc : ∀ b ∈ cs, b.rows.length ≤ 100
  shells : (cs.map fun b => b.nc).sum ≤ 100
  len : ps.length ≤ 100
  nclen : cs.length ≤ intMax
  npp : ∀ b ∈ ps, b.rows.length ≤ 100 ∧ b.noc ≤ 98
  pots : (ps.map fun b => b.noc).sum ≤ 100

/-- The object read from an entry: the last block of potentials gives the local potential, the other ones the averaged potentials; all but the first give
spin-orbit potentials; outer-core potentials and functions are paired by their positions in the lists. -/
structure IsGrpp (gen : Nat → List Comp) (cs : List BasisBlock) (ps : List PotBlock) (g : GrppData) : Prop where
  local_ : ∀ b, ps.getLast? = some b → ∃ p, g.local_ = some p ∧ IsPotential ((ps.length - 1 : Nat) : Int) 0 b.arep p
  none_ : ps = [] → g.local_ = none
  arep_len : g.arep.length = ps.length - 1
  arep : ∀ (L : Nat) (p : Potential), g.arep[L]? = some p → ∃ b, ps[L]? = some b ∧ IsPotential L 0 b.arep p
  esop_len : g.esop.length = ps.length - 1
  esop : ∀ (i : Nat) (p : Potential), g.esop[i]? = some p → ∃ b, ps[i + 1]? = some b ∧ IsPotential ((i + 1 : Nat) : Int) 0 b.esop p
  oc : List.Forall₂ (fun q e => IsPotential (q.1.1 : Int) (q.1.2.1 : Int) q.1.2.2 e.1 ∧ e.2 = q.2) ((corePots 0 ps).zip (coreShells gen 0 cs)) g.oc

theorem coreShells_length (gen : Nat → List Comp) (L : Nat) (cs : List BasisBlock) : (coreShells gen L cs).length = (cs.map fun b => b.nc).sum := by
  induction cs generalizing L with
  | nil => rfl
  | cons b cs ih => rw [coreShells, List.length_append, ih, List.length_map, List.length_range, List.map_cons, List.sum_cons]

theorem corePots_length (L : Nat) (ps : List PotBlock) : (corePots L ps).length = (ps.map fun b => b.noc).sum := by
  induction ps generalizing L with
  | nil => rfl
  | cons b ps ih => rw [corePots, List.length_append, ih, List.length_map, List.length_range, List.map_cons, List.sum_cons]

/-- **C104**, uniqueness. The description determines the object: every number in it comes from the entry. -/
theorem grpp_unique (gen : Nat → List Comp) (cs : List BasisBlock) (ps : List PotBlock) (g g' : GrppData) (h : IsGrpp gen cs ps g) (h' : IsGrpp gen cs ps g') :
    g = g' := by
  have e1 : g.local_ = g'.local_ := by
    cases hl : ps.getLast? with
    | none =>
      have : ps = [] := List.getLast?_eq_none_iff.1 hl
      rw [h.none_ this, h'.none_ this]
    | some b =>
      obtain ⟨p, a1, a2⟩ := h.local_ b hl
      obtain ⟨q, b1, b2⟩ := h'.local_ b hl
      rw [a1, b1, a2.unique b2]
  have key : ∀ (l l' : List Potential) (P : Nat → PotBlock → Potential → Prop) (f : Nat → Nat), l.length = ps.length - 1 → l'.length = ps.length - 1 →
      (∀ (i : Nat) (p : Potential), l[i]? = some p → ∃ b, ps[f i]? = some b ∧ P i b p) →
      (∀ (i : Nat) (p : Potential), l'[i]? = some p → ∃ b, ps[f i]? = some b ∧ P i b p) → (∀ i b p q, P i b p → P i b q → p = q) → l = l' := by
    intro l l' P f h1 h2 h3 h4 hu
    refine List.ext_getElem (h1.trans h2.symm) fun i hi hi' => ?_
    obtain ⟨b, a1, a2⟩ := h3 i _ (List.getElem?_eq_getElem hi)
    obtain ⟨b', b1, b2⟩ := h4 i _ (List.getElem?_eq_getElem hi')
    rw [a1] at b1
    cases b1
    exact hu i b _ _ a2 b2
  have e2 := key g.arep g'.arep (fun i b p => IsPotential i 0 b.arep p) id h.arep_len h'.arep_len h.arep h'.arep fun i b p q hp hq => hp.unique hq
  have e3 := key g.esop g'.esop (fun i b p => IsPotential ((i + 1 : Nat) : Int) 0 b.esop p) (· + 1) h.esop_len h'.esop_len h.esop h'.esop
    fun i b p q hp hq => hp.unique hq
  have e4 : g.oc = g'.oc := by
    have a := h.oc
    have b := h'.oc
    generalize (corePots 0 ps).zip (coreShells gen 0 cs) = l at a b
    generalize g.oc = x at a
    generalize g'.oc = y at b
    induction a generalizing y with
    | nil => cases b; rfl
    | cons h1 _ ih =>
      cases b with
      | cons h2 h3 =>
        rw [ih _ h3]
        congr 1
        exact Prod.ext (h1.1.unique h2.1) (h1.2.trans h2.2.symm)
  cases g; cases g'
  simp only at e1 e2 e3 e4
  subst e1 e2 e3 e4
  rfl

/-- Everything but the pairing. -/
theorem readGrppFile_parts (gen : Nat → List Comp) (io : DecimalIO) (text : List Char) (z : Nat) (hz : z ≤ intMax) (cs : List BasisBlock) (ps : List PotBlock)
    (h : HasGrpp io z cs ps text) (hok : GrppLimits cs ps) :
    ∃ g : GrppParts, PartsOf ps.length ps g ∧ readGrppFile gen io text z = (do
      let oc ← forRange g.ocpots.length [] fun ioc oc => do
        let p ← rd g.ocpots ioc
        let s ← rd (coreShells gen 0 cs) ioc
        .ok (oc ++ [(p, s)])
      .ok (some ⟨g.local_, g.arep, g.esop, oc⟩)) := by
  obtain ⟨t1, t2, t3, rest, rfl, h1, h2, h3⟩ := h
  have hl := hok.len
  obtain ⟨ws, hws, e⟩ := findGrppEntry_found z cs.length ps.length t1 (t2 ++ (t3 ++ rest)) hz hok.nclen (by unfold intMax; omega) h1
  obtain ⟨e1, c1, pre1, g1, g2, g3, g4⟩ := readCores_spec gen io cs hok.npc (by rw [coreShells_length]; exact hok.shells) t2 h2
    (List.replicate maxExponents none) (List.replicate maxExponents none) (List.replicate (maxExponents * maxExponents) none)
    (by rw [List.length_replicate]; rfl) (by rw [List.length_replicate]; rfl) ws (t3 ++ rest) hws
  obtain ⟨s, g, k1, k2⟩ := readPots_spec io ps hok.len hok.npp (by rw [corePots_length]; exact hok.pots) t3 h3 (List.replicate maxExponents none) e1 c1
    (by rw [List.length_replicate]; rfl) g3 g4 pre1 rest g2
  refine ⟨g, k2, ?_⟩
  unfold readGrppFile
  simp only [e, Outcome.ok_bind, Int.toNat_natCast, g1, k1]

/-- **C104**, reading. From every file with an entry within the limits, with no more outer-core potentials than outer-core functions, the object
described by the entry is read. What is before the entry and after it does not matter. -/
theorem grpp_read (gen : Nat → List Comp) (io : DecimalIO) (text : List Char) (z : Nat) (hz : z ≤ intMax) (cs : List BasisBlock) (ps : List PotBlock)
    (h : HasGrpp io z cs ps text) (hok : GrppLimits cs ps) (hle : (ps.map fun b => b.noc).sum ≤ (cs.map fun b => b.nc).sum) :
    ∃ g, readGrppFile gen io text z = .ok (some g) ∧ IsGrpp gen cs ps g := by
  obtain ⟨g, hg, e⟩ := readGrppFile_parts gen io text z hz cs ps h hok
  have hlen := hg.oc.length_eq
  rw [corePots_length] at hlen
  rw [pairing_spec _ _ (by rw [coreShells_length]; omega), Outcome.ok_bind] at e
  refine ⟨_, e, ?_, ?_, ?_, hg.arep, hg.esop_len, hg.esop, ?_⟩
  · intro b hb
    have hne : ps ≠ [] := fun h => by rw [h] at hb; simp at hb
    have hpos := List.length_pos_of_ne_nil hne
    have := hg.local_
    rw [if_pos ⟨rfl, hpos⟩] at this
    obtain ⟨b', p, f1, f2, f3⟩ := this
    rw [← List.getLast?_eq_getElem?, hb] at f1
    cases f1
    exact ⟨p, f2, f3⟩
  · rintro rfl
    have := hg.local_
    rwa [if_neg (by simp)] at this
  · simp only
    rw [hg.arep_len]
    omega
  · simp only
    have hoc := hg.oc
    generalize corePots 0 ps = l at hoc
    generalize coreShells gen 0 cs = sh
    generalize g.ocpots = l' at hoc
    induction hoc generalizing sh with
    | nil => exact .nil
    | cons h1 _ ih =>
      cases sh with
      | nil => exact .nil
      | cons s sh => exact .cons ⟨h1, rfl⟩ (ih sh)

/-- **C104**, missing entry: the result is a null pointer, with which the element has no pseudopotential. -/
theorem grpp_missing (gen : Nat → List Comp) (io : DecimalIO) (z : Nat) (ws pre : List Char) (hws : AllSpace ws) (hpre : NoGrppEntry z pre) :
    readGrppFile gen io (ws ++ pre) z = .ok none := by
  unfold readGrppFile
  simp only [findGrppEntry_missing z ws pre hws hpre, Outcome.ok_bind]

/-- **C104** (negative part). With more outer-core potentials than outer-core functions an uninitialised pointer is used: undefined behaviour. -/
theorem grpp_unpaired (gen : Nat → List Comp) (io : DecimalIO) (text : List Char) (z : Nat) (hz : z ≤ intMax) (cs : List BasisBlock) (ps : List PotBlock)
    (h : HasGrpp io z cs ps text) (hok : GrppLimits cs ps) (hlt : (cs.map fun b => b.nc).sum < (ps.map fun b => b.noc).sum) :
    readGrppFile gen io text z = .ub := by
  obtain ⟨g, hg, e⟩ := readGrppFile_parts gen io text z hz cs ps h hok
  have hlen := hg.oc.length_eq
  rw [corePots_length] at hlen
  rw [e, pairing_ub _ _ (by rw [coreShells_length]; omega)]
  rfl

/-! ## The pairing of potentials and functions -/

/-- Every angular momentum has as many outer-core potentials as functions. -/
def Matched (cs : List BasisBlock) (ps : List PotBlock) : Prop := ∀ L, (cs.map fun b => b.nc).getD L 0 = (ps.map fun b => b.noc).getD L 0

theorem Matched.tail {c : BasisBlock} {cs : List BasisBlock} {p : PotBlock} {ps : List PotBlock} (h : Matched (c :: cs) (p :: ps)) : Matched cs ps :=
  fun L => by simpa using h (L + 1)

theorem Matched.zip (gen : Nat → List Comp) {L : Nat} {cs : List BasisBlock} {ps : List PotBlock} (h : Matched cs ps) :
    ∀ e ∈ (corePots L ps).zip (coreShells gen L cs), e.1.1 = e.2.L := by
  induction ps generalizing L cs with
  | nil => simp [corePots]
  | cons p ps ih =>
    cases cs with
    | nil => simp [coreShells]
    | cons c cs =>
      have h0 : c.nc = p.noc := by simpa using h 0
      intro e he
      rw [corePots, coreShells, List.zip_append (by simp [h0]), List.mem_append] at he
      rcases he with he | he
      · obtain ⟨e1, e2⟩ := e
        have m1 := List.of_mem_zip he
        obtain ⟨_, _, q1⟩ := List.mem_map.1 m1.1
        obtain ⟨_, _, q2⟩ := List.mem_map.1 m1.2
        rw [← q1, ← q2]
      · exact ih h.tail e he

theorem Matched.sum_le {cs : List BasisBlock} {ps : List PotBlock} (h : Matched cs ps) : (ps.map fun b => b.noc).sum ≤ (cs.map fun b => b.nc).sum := by
  induction ps generalizing cs with
  | nil => simp
  | cons p ps ih =>
    cases cs with
    | nil =>
      have hz : ∀ L, ((p :: ps).map fun b => b.noc).getD L 0 = 0 := fun L => by simpa using (h L).symm
      have h0 : p.noc = 0 := by simpa using hz 0
      have := ih (cs := []) fun L => by simpa using (hz (L + 1)).symm
      simpa [h0] using this
    | cons c cs =>
      have h0 : c.nc = p.noc := by simpa using h 0
      have := ih h.tail
      simp only [List.map_cons, List.sum_cons]
      omega

theorem mem_coreShells {gen : Nat → List Comp} {L : Nat} {cs : List BasisBlock} {s : Shell} (h : s ∈ coreShells gen L cs) :
    ∃ i, ∃ hi : i < cs.length, ∃ k < cs[i].nc, s = coreShell gen (L + i) cs[i] k := by
  induction cs generalizing L with
  | nil => simp [coreShells] at h
  | cons b cs ih =>
    rw [coreShells, List.mem_append] at h
    rcases h with h | h
    · obtain ⟨k, hk, rfl⟩ := List.mem_map.1 h
      exact ⟨0, by simp, k, List.mem_range.1 hk, rfl⟩
    · obtain ⟨i, hi, k, hk, rfl⟩ := ih h
      exact ⟨i + 1, by simpa using hi, k, by simpa using hk, by rw [show L + 1 + i = L + (i + 1) by omega]; simp⟩

theorem mem_corePots {L : Nat} {ps : List PotBlock} {q : Nat × Nat × List (Int × ℝ × ℝ)} (h : q ∈ corePots L ps) :
    ∃ i, ∃ hi : i < ps.length, ∃ k < ps[i].noc, q.1 = L + i ∧ (q.2.1 = 2 * (L + i) + 1 ∨ q.2.1 + 1 = 2 * (L + i)) ∧ q.2.2 = ps[i].core k := by
  induction ps generalizing L with
  | nil => simp [corePots] at h
  | cons b ps ih =>
    rw [corePots, List.mem_append] at h
    rcases h with h | h
    · obtain ⟨k, hk, rfl⟩ := List.mem_map.1 h
      refine ⟨0, by simp, k, List.mem_range.1 hk, rfl, ?_, rfl⟩
      simp only
      split_ifs <;> omega
    · obtain ⟨i, hi, k, hk, h1, h2, h3⟩ := ih h
      exact ⟨i + 1, by simpa using hi, k, by simpa using hk, by omega, by omega, by simpa using h3⟩

/-- Exponents and powers of an entry as the theorems on the integrals ask for. -/
structure GrppData.Sane (cs : List BasisBlock) (ps : List PotBlock) : Prop where
  len : cs.length ≤ 10
  pos : ∀ b ∈ cs, ∀ r ∈ b.rows, 0 < r.1
  pot : ∀ b ∈ ps, ∀ r ∈ b.rows, r.power ≤ 2 ∧ 0 ≤ r.exp

theorem IsPotential.terms {L J : Int} {ts : List (Int × ℝ × ℝ)} {p : Potential} (h : IsPotential L J ts p) (k : Nat) (hk : k < p.num) :
    (p.powers.getD k 0, p.coeffs.getD k 0, p.alpha.getD k 0) ∈ ts ∧ 1e-14 ≤ |p.coeffs.getD k 0| := by
  obtain ⟨-, -, h1, h2, h3, h4, -⟩ := h
  have hm : (p.powers.getD k 0, p.coeffs.getD k 0, p.alpha.getD k 0) ∈ (p.powers.take p.num).zip ((p.coeffs.take p.num).zip (p.alpha.take p.num)) := by
    have hlen : k < ((p.powers.take p.num).zip ((p.coeffs.take p.num).zip (p.alpha.take p.num))).length := by
      simp only [List.length_zip, List.length_take]; omega
    have := List.getElem_mem hlen
    rw [List.getElem_zip, List.getElem_zip, List.getElem_take, List.getElem_take, List.getElem_take] at this
    rwa [List.getD_eq_getElem?_getD, List.getD_eq_getElem?_getD, List.getD_eq_getElem?_getD, List.getElem?_eq_getElem (by omega), List.getElem?_eq_getElem (by omega),
      List.getElem?_eq_getElem (by omega)]
  rw [h4, List.mem_filter] at hm
  exact ⟨hm.1, by simpa using hm.2⟩

/-- **C104**, pairing. If every angular momentum has as many outer-core potentials as functions, each outer-core potential is paired with a function of
its angular momentum, and the pair satisfies the preconditions of the theorems on outer-core integrals. -/
theorem grpp_pairs (gen : Nat → List Comp) (cs : List BasisBlock) (ps : List PotBlock) (g : GrppData) (h : IsGrpp gen cs ps g) (hm : Matched cs ps)
    (hs : GrppData.Sane cs ps) : ∀ e ∈ g.oc, OcBase gen e.1 e.2 := by
  intro e he
  obtain ⟨q, hq, ⟨h1, h2⟩⟩ := forall₂_mem_right h.oc he
  have hL := hm.zip gen q hq
  obtain ⟨q1, q2⟩ := q
  have hmem := List.of_mem_zip hq
  obtain ⟨i, hi, k, hk, f1, f2, f3⟩ := mem_corePots hmem.1
  obtain ⟨j, hj, l, hl, f4⟩ := mem_coreShells hmem.2
  simp only at h1 h2 hL
  subst h2
  have hlen := hs.len
  have hsL : e.2.L = j := by rw [f4]; simp [coreShell]
  refine ⟨?_, by omega, ⟨h1.2.2.1, h1.2.2.2.1, h1.2.2.2.2.1⟩, by rw [h1.1, hL], ?_, ?_⟩
  · rw [f4]
    refine ⟨⟨by simp [coreShell, BasisBlock.col], by simp [coreShell, BasisBlock.exps]⟩, rfl, rfl, fun n hn => ?_⟩
    have hn' : n < cs[j].rows.length := hn
    simp only [coreShell, BasisBlock.exps]
    rw [List.getD_eq_getElem?_getD, List.getElem?_map, List.getElem?_eq_getElem hn']
    exact hs.pos _ (List.getElem_mem hj) _ (List.getElem_mem hn')
  · rw [h1.2.1]
    omega
  · intro n hn
    obtain ⟨hmem', -⟩ := h1.terms n hn
    rw [f3, PotBlock.core, List.mem_map] at hmem'
    obtain ⟨r, hr, er⟩ := hmem'
    obtain ⟨hp, hexp⟩ := hs.pot _ (List.getElem_mem hi) r hr
    injection er with e1 e2
    injection e2 with e2 e3
    rw [← e1, ← e3]
    refine ⟨?_, hexp⟩
    have : (r.power : Int) ≤ 2 := by exact_mod_cast hp
    omega

/-- **C104** (negative part). The program does not compare angular momenta. If the block for L = 0 has fewer outer-core potentials than functions, and some
other block has outer-core potentials, then a potential for another angular momentum is paired with an s function, without any message. -/
theorem grpp_mispaired (gen : Nat → List Comp) (io : DecimalIO) (text : List Char) (z : Nat) (hz : z ≤ intMax) (c : BasisBlock) (cs : List BasisBlock)
    (p : PotBlock) (ps : List PotBlock) (h : HasGrpp io z (c :: cs) (p :: ps) text) (hok : GrppLimits (c :: cs) (p :: ps))
    (hle : ((p :: ps).map fun b => b.noc).sum ≤ ((c :: cs).map fun b => b.nc).sum) (hlt : p.noc < c.nc) (hmore : 0 < (ps.map fun b => b.noc).sum) :
    ∃ g, readGrppFile gen io text z = .ok (some g) ∧ ∃ e ∈ g.oc, e.2.L = 0 ∧ 1 ≤ e.1.L ∧ ¬ OcBase gen e.1 e.2 := by
  obtain ⟨g, e, hg⟩ := grpp_read gen io text z hz _ _ h hok hle
  refine ⟨g, e, ?_⟩
  have hl1 : p.noc < (corePots 0 (p :: ps)).length := by rw [corePots_length, List.map_cons, List.sum_cons]; omega
  have hl2 : p.noc < (coreShells gen 0 (c :: cs)).length := by rw [coreShells_length, List.map_cons, List.sum_cons]; omega
  have hlz : p.noc < ((corePots 0 (p :: ps)).zip (coreShells gen 0 (c :: cs))).length := by rw [List.length_zip]; omega
  have hlo : p.noc < g.oc.length := by rw [← hg.oc.length_eq]; exact hlz
  have hR := (List.forall₂_iff_get.1 hg.oc).2 p.noc hlz hlo
  simp only [List.get_eq_getElem, List.getElem_zip] at hR
  obtain ⟨h1, h2⟩ := hR
  have hs : (coreShells gen 0 (c :: cs))[p.noc].L = 0 := by
    have : (coreShells gen 0 (c :: cs))[p.noc]'hl2 = coreShell gen 0 c p.noc := by
      simp only [coreShells]
      rw [List.getElem_append_left (by simp [hlt]), List.getElem_map, List.getElem_range]
      rfl
    rw [this]; rfl
  have hp : 1 ≤ ((corePots 0 (p :: ps))[p.noc]'hl1).1 := by
    have hl3 : 0 < (corePots 1 ps).length := by rw [corePots_length]; exact hmore
    have : (corePots 0 (p :: ps))[p.noc]'hl1 = (corePots 1 ps)[0] := by
      simp only [corePots]
      rw [List.getElem_append_right (by simp)]
      simp
    rw [this]
    obtain ⟨i, hi, k, hk, f1, -⟩ := mem_corePots (List.getElem_mem hl3)
    omega
  refine ⟨g.oc[p.noc], List.getElem_mem hlo, by rw [h2, hs], by rw [h1.1]; exact_mod_cast hp, fun hb => ?_⟩
  have := hb.sameL
  rw [h1.1, h2, hs] at this
  omega

/-! ## The molecule -/

/-- **C104** (negative part). An entry without potentials leaves the local potential null; the program prints it without a test: undefined behaviour. -/
theorem grpp_without_local (gen : Nat → List Comp) (io : DecimalIO) (text : List Char) (atoms : List (Nat × Point)) (R : Nat → Option GrppData)
    (h : ∀ a ∈ atoms, a.1 < 131 ∧ readGrppFile gen io text a.1 = .ok (R a.1)) (a : Nat × Point) (ha : a ∈ atoms) (cs : List BasisBlock)
    (hg : HasGrpp io a.1 cs [] text) (hok : GrppLimits cs []) : mainGrpps gen io text atoms = .ub := by
  obtain ⟨sets, h1, h2, h3, -⟩ := mainReadGrpps_spec gen io text atoms R h
  have hz := (h a ha).1
  obtain ⟨g, e, hgr⟩ := grpp_read gen io text a.1 (by unfold intMax; omega) cs [] hg hok (by simp)
  have hR := h3 a ha
  have e2 := (h a ha).2
  rw [e] at e2
  rw [← Outcome.ok.inj e2] at hR
  have hub : printGrpp g = .ub := by
    unfold printGrpp
    rw [hgr.none_ rfl]
    by_cases hL : ∀ e ∈ g.oc, e.2.L < 15
    · rw [Outcome.valid_pos hL]; rfl
    · rw [Outcome.valid_neg hL]; rfl
  unfold mainGrpps
  rw [h1, Outcome.ok_bind, mainPrintGrpps_ub sets h2 _ g hR hub]
  rfl

theorem printGrpp_ok {gen : Nat → List Comp} {cs : List BasisBlock} {ps : List PotBlock} {g : GrppData} (h : IsGrpp gen cs ps g) (hne : ps ≠ [])
    (hc : cs.length ≤ 15) (hp : ps.length ≤ 15) : printGrpp g = .ok () := by
  have hpos := List.length_pos_of_ne_nil hne
  have hlast : ps.getLast? = some (ps.getLast hne) := List.getLast?_eq_some_getLast hne
  obtain ⟨p, e1, e2⟩ := h.local_ _ hlast
  have hoc : ∀ e ∈ g.oc, e.2.L < 15 ∧ 0 ≤ e.1.L ∧ e.1.L < 15 := by
    intro e he
    obtain ⟨q, hq, ⟨h1, h2⟩⟩ := forall₂_mem_right h.oc he
    obtain ⟨q1, q2⟩ := q
    have hmem := List.of_mem_zip hq
    obtain ⟨i, hi, k, hk, f1, -⟩ := mem_corePots hmem.1
    obtain ⟨j, hj, l, hl, f4⟩ := mem_coreShells hmem.2
    simp only at h1 h2
    rw [h2, h1.1, f4]
    simp only [coreShell]
    omega
  unfold printGrpp
  rw [Outcome.valid_pos fun e he => (hoc e he).1, Outcome.ok_bind, e1]
  simp only
  rw [Outcome.valid_pos (by rw [e2.1]; omega), Outcome.ok_bind, Outcome.valid_pos]
  intro u hu
  rw [List.mem_append, List.mem_append] at hu
  rcases hu with (hu | hu) | hu
  · obtain ⟨i, hi, rfl⟩ := List.getElem_of_mem hu
    obtain ⟨b, -, hb⟩ := h.arep i _ (List.getElem?_eq_getElem hi)
    have := h.arep_len
    rw [hb.1]; omega
  · obtain ⟨i, hi, rfl⟩ := List.getElem_of_mem hu
    obtain ⟨b, -, hb⟩ := h.esop i _ (List.getElem?_eq_getElem hi)
    have := h.esop_len
    rw [hb.1]; omega
  · obtain ⟨e, he, rfl⟩ := List.mem_map.1 hu
    exact (hoc e he).2

/-- What the file has for an element: nothing, or an entry within the limits, with at least one and at most 15 blocks of potentials, at most 15 blocks of
outer-core functions, and no more outer-core potentials than functions. -/
def GrppEntry (io : DecimalIO) (text : List Char) (z : Nat) : Option (List BasisBlock × List PotBlock) → Prop
  | none => ∃ ws pre, text = ws ++ pre ∧ AllSpace ws ∧ NoGrppEntry z pre
  | some e => HasGrpp io z e.1 e.2 text ∧ GrppLimits e.1 e.2 ∧ (e.2.map fun b => b.noc).sum ≤ (e.1.map fun b => b.nc).sum ∧ e.2 ≠ [] ∧ e.2.length ≤ 15 ∧
      e.1.length ≤ 15

/-- **C104**, molecules. If for every element of the molecule the file has a usable entry or none, the program makes the objects described by the entries;
elements without an entry have none. -/
theorem molecule_grpps (gen : Nat → List Comp) (io : DecimalIO) (text : List Char) (atoms : List (Nat × Point))
    (entries : Nat → Option (List BasisBlock × List PotBlock)) (h : ∀ a ∈ atoms, a.1 < 131 ∧ GrppEntry io text a.1 (entries a.1)) :
    ∃ grpps, mainGrpps gen io text atoms = .ok grpps ∧ grpps.length = 131 ∧ ∀ a ∈ atoms,
      (entries a.1 = none → grpps[a.1]? = some none) ∧
      ∀ cs ps, entries a.1 = some (cs, ps) → ∃ g, grpps[a.1]? = some (some g) ∧ IsGrpp gen cs ps g := by
  have hread : ∀ z, ∃ r, (∃ a ∈ atoms, a.1 = z) → readGrppFile gen io text z = .ok r ∧ (entries z = none → r = none) ∧
      ∀ cs ps, entries z = some (cs, ps) → ∃ g, r = some g ∧ IsGrpp gen cs ps g := by
    intro z
    by_cases hz : ∃ a ∈ atoms, a.1 = z
    · obtain ⟨a, ha, rfl⟩ := hz
      obtain ⟨h1, h2⟩ := h a ha
      cases he : entries a.1 with
      | none =>
        rw [he] at h2
        obtain ⟨ws, pre, e, hw, hp⟩ := h2
        refine ⟨none, fun _ => ⟨by rw [e]; exact grpp_missing gen io a.1 ws pre hw hp, fun _ => rfl, fun _ _ h => by cases h⟩⟩
      | some c =>
        rw [he] at h2
        obtain ⟨g1, g2, g3, -⟩ := h2
        obtain ⟨g, e, hg⟩ := grpp_read gen io text a.1 (by unfold intMax; omega) _ _ g1 g2 g3
        refine ⟨some g, fun _ => ⟨e, fun h => (by cases h), ?_⟩⟩
        intro cs ps h
        cases h
        exact ⟨g, rfl, hg⟩
    · exact ⟨none, fun h => absurd h hz⟩
  choose R hR using hread
  obtain ⟨sets, h1, h2, h3, h4⟩ := mainReadGrpps_spec gen io text atoms R fun a ha => ⟨(h a ha).1, (hR a.1 ⟨a, ha, rfl⟩).1⟩
  refine ⟨sets, ?_, h2, fun a ha => ⟨fun he => ?_, fun cs ps he => ?_⟩⟩
  · unfold mainGrpps
    rw [h1, Outcome.ok_bind, mainPrintGrpps_spec sets h2, Outcome.ok_bind]
    intro z g hz
    obtain ⟨a, ha, rfl, hg⟩ := h4 z g hz
    obtain ⟨-, f2, f3⟩ := hR a.1 ⟨a, ha, rfl⟩
    have hen := (h a ha).2
    cases he : entries a.1 with
    | none => rw [f2 he] at hg; cases hg
    | some c =>
      obtain ⟨g', e', hg'⟩ := f3 c.1 c.2 he
      rw [hg] at e'
      cases e'
      rw [he] at hen
      exact printGrpp_ok hg' hen.2.2.2.1 hen.2.2.2.2.2 hen.2.2.2.2.1
  · rw [h3 a ha, (hR a.1 ⟨a, ha, rfl⟩).2.1 he]
  · obtain ⟨g, e, hg⟩ := (hR a.1 ⟨a, ha, rfl⟩).2.2 cs ps he
    exact ⟨g, by rw [h3 a ha, e], hg⟩

/-! ## Examples -/

theorem lineEnd_newline : LineEnd ['\n'] := ⟨[], rfl, by simp, by simp⟩

theorem exampleGrppHeader (b : Nat) (hb : b ≤ 1) : HeaderLine 1 b ('1' :: ' ' :: (Nat.toDigits 10 b ++ ['\n'])) :=
  ⟨[], [' '], ['\n'], by interval_cases b <;> simp [Nat.toDigits, Nat.toDigitsCore, Nat.digitChar], allSpace_nil, spaces_blank, lineEnd_newline⟩

/-- One s function as outer-core function. -/
theorem exampleCore : CoreText exampleIO exampleBlock "1 1\n1.0E+00 1.0E+00\n".toList :=
  ⟨"1 1\n".toList, "1.0E+00 1.0E+00\n".toList, rfl, exampleGrppHeader 1 (le_refl _),
    CoreRows.cons (ws := []) (tok := "1.0E+00".toList) (t1 := " 1.0E+00".toList) (sep := ['\n']) (t2 := []) rfl allSpace_nil exampleToken
      (NumsText.cons (ws := [' ']) (tok := "1.0E+00".toList) (t := []) spaces_blank exampleToken .nil) spaces_newline .nil⟩

/-- A block with one term, and one outer-core potential or none. -/
noncomputable def examplePot (b : Nat) : PotBlock := ⟨b, [⟨2, 1, 1, 1, List.replicate b 1⟩]⟩

/-- Its text. -/
def examplePotText (b : Nat) : List Char :=
  ('1' :: ' ' :: (Nat.toDigits 10 b ++ ['\n'])) ++ ("2 1.0E+00 1.0E+00 1.0E+00".toList ++ ((List.replicate b " 1.0E+00".toList).flatten ++ ['\n']))

theorem exampleNums (b : Nat) : NumsText exampleIO (List.replicate b 1) (List.replicate b " 1.0E+00".toList).flatten := by
  induction b with
  | zero => exact .nil
  | succ b ih => exact NumsText.cons (ws := [' ']) (tok := "1.0E+00".toList) spaces_blank exampleToken ih

theorem examplePot_text (b : Nat) (hb : b ≤ 1) : PotText exampleIO (examplePot b) (examplePotText b) := by
  refine ⟨_, _, rfl, exampleGrppHeader b hb, ?_⟩
  have hrow : PotRowText exampleIO ⟨2, 1, 1, 1, List.replicate b 1⟩
      ("2 1.0E+00 1.0E+00 1.0E+00".toList ++ ((List.replicate b " 1.0E+00".toList).flatten ++ ['\n'])) :=
    ⟨[], " 1.0E+00 1.0E+00 1.0E+00".toList ++ (List.replicate b " 1.0E+00".toList).flatten, ['\n'],
      by simp [Nat.toDigits, Nat.toDigitsCore, Nat.digitChar], allSpace_nil,
      NumsText.cons (ws := [' ']) (tok := "1.0E+00".toList) spaces_blank exampleToken
        (NumsText.cons (ws := [' ']) (tok := "1.0E+00".toList) spaces_blank exampleToken
          (NumsText.cons (ws := [' ']) (tok := "1.0E+00".toList) spaces_blank exampleToken (exampleNums b))), lineEnd_newline⟩
  have := PotRows.cons (noc := b) (rows := []) (t2 := []) (by simp) (by show (2 : Nat) ≤ intMax; decide) hrow .nil
  rwa [List.append_nil] at this

/-- A file for hydrogen with one outer-core function, of s type, and two blocks of potentials: the first with `b`, the second with `b'` outer-core
potentials. -/
def exampleGrppText (b b' : Nat) : List Char :=
  "* 1 1 2\n".toList ++ (("1 1\n1.0E+00 1.0E+00\n".toList ++ []) ++ ((examplePotText b ++ (examplePotText b' ++ [])) ++ "* 2 0 1\n".toList))

theorem exampleHasGrpp (b b' : Nat) (hb : b ≤ 1) (hb' : b' ≤ 1) :
    HasGrpp exampleIO 1 [exampleBlock] [examplePot b, examplePot b'] (exampleGrppText b b') :=
  ⟨_, _, _, _, rfl, ⟨[], [], [' '], [' '], [' '], ['\n'], by simp [Nat.toDigits, Nat.toDigitsCore, Nat.digitChar], allSpace_nil, .nil, spaces_blank, spaces_blank,
    spaces_blank, spaces_newline⟩, .cons exampleCore .nil, .cons (examplePot_text b hb) (.cons (examplePot_text b' hb') .nil)⟩

theorem exampleGrppLimits (b b' : Nat) (hb : b ≤ 1) (hb' : b' ≤ 1) : GrppLimits [exampleBlock] [examplePot b, examplePot b'] := by
  refine ⟨?_, by simp [exampleBlock], by simp, by simp [intMax], ?_, by simp [examplePot]; omega⟩
  · intro b hb
    rw [List.mem_singleton] at hb
    subst hb
    simp [exampleBlock]
  · intro c hc
    simp only [List.mem_cons, List.not_mem_nil, or_false] at hc
    rcases hc with rfl | rfl
    · exact ⟨by simp [examplePot], by simp only [examplePot]; omega⟩
    · exact ⟨by simp [examplePot], by simp only [examplePot]; omega⟩

/-- The entry with an outer-core potential for L = 0 is read as intended. -/
example : ∃ g, readGrppFile cartesianDirac exampleIO (exampleGrppText 1 0) 1 = .ok (some g) ∧ g.oc.length = 1 ∧ g.arep.length = 1 ∧ g.esop.length = 1 ∧
    (∃ p, g.local_ = some p ∧ p.L = 1) ∧ ∀ e ∈ g.oc, OcBase cartesianDirac e.1 e.2 := by
  obtain ⟨g, e, h⟩ := grpp_read cartesianDirac exampleIO _ 1 (by decide) _ _ (exampleHasGrpp 1 0 (by decide) (by decide))
    (exampleGrppLimits 1 0 (by decide) (by decide)) (by simp [examplePot, exampleBlock])
  obtain ⟨p, e1, e2⟩ := h.local_ (examplePot 0) rfl
  refine ⟨g, e, ?_, h.arep_len, h.esop_len, ⟨p, e1, e2.1⟩, ?_⟩
  · rw [← h.oc.length_eq]
    simp [corePots_length, coreShells_length, examplePot, exampleBlock]
  · refine grpp_pairs cartesianDirac _ _ g h ?_ ⟨by simp, ?_, ?_⟩
    · intro L
      match L with
      | 0 => rfl
      | 1 => rfl
      | L + 2 => rfl
    · intro b hb r hr
      rw [List.mem_singleton] at hb
      subst hb
      simp only [exampleBlock, List.mem_singleton] at hr
      rw [hr]; exact one_pos
    · intro b hb r hr
      simp only [List.mem_cons, List.not_mem_nil, or_false] at hb
      rcases hb with rfl | rfl <;>
      · simp only [examplePot, List.mem_singleton] at hr
        rw [hr]
        exact ⟨le_refl _, zero_le_one⟩

/-- With the outer-core potential in the block for L = 1 it is paired with the s function. -/
example : ∃ g, readGrppFile cartesianDirac exampleIO (exampleGrppText 0 1) 1 = .ok (some g) ∧ ∃ e ∈ g.oc, e.2.L = 0 ∧ 1 ≤ e.1.L ∧
    ¬ OcBase cartesianDirac e.1 e.2 :=
  grpp_mispaired cartesianDirac exampleIO _ 1 (by decide) _ _ _ _ (exampleHasGrpp 0 1 (by decide) (by decide)) (exampleGrppLimits 0 1 (by decide) (by decide))
    (by simp [examplePot, exampleBlock]) (by simp [examplePot, exampleBlock]) (by simp [examplePot])

/-- Two outer-core potentials and one function. -/
example : readGrppFile cartesianDirac exampleIO (exampleGrppText 1 1) 1 = .ub :=
  grpp_unpaired cartesianDirac exampleIO _ 1 (by decide) _ _ (exampleHasGrpp 1 1 (by decide) (by decide)) (exampleGrppLimits 1 1 (by decide) (by decide))
    (by simp [examplePot, exampleBlock])

theorem exampleNoGrpp : NoGrppEntry 1 "* 8 0 0 ".toList :=
  NoGrppEntry.star (z' := 8) (n := 0) (k := 0) (ws1 := [' ']) (ws2 := [' ']) (ws3 := [' ']) (ws4 := [' ']) (t := []) (by decide) (by decide) (by decide) (by decide)
    spaces_blank spaces_blank spaces_blank spaces_blank .nil

example : readGrppFile cartesianDirac exampleIO ([] ++ "* 8 0 0 ".toList) 1 = .ok none := grpp_missing _ _ 1 [] _ allSpace_nil exampleNoGrpp

/-- A molecule with a hydrogen atom and an oxygen atom; the file has an entry for oxygen without potentials. -/
example (P Q : Point) : mainGrpps cartesianDirac exampleIO "* 8 0 0 ".toList [(1, P), (8, Q)] = .ub := by
  have h8 : HasGrpp exampleIO 8 [] [] "* 8 0 0 ".toList :=
    ⟨"* 8 0 0 ".toList, [], [], [], rfl, ⟨[], [], [' '], [' '], [' '], [' '], by simp [Nat.toDigits, Nat.toDigitsCore, Nat.digitChar], allSpace_nil, .nil,
      spaces_blank, spaces_blank, spaces_blank, spaces_blank⟩, .nil, .nil⟩
  have hl : GrppLimits [] [] := ⟨by simp, by simp, by simp, by simp, by simp, by simp⟩
  obtain ⟨g, e, -⟩ := grpp_read cartesianDirac exampleIO _ 8 (by decide) _ _ h8 hl (by simp)
  refine grpp_without_local cartesianDirac exampleIO _ _ (fun z => if z = 8 then some g else none) ?_ (8, Q) (by simp) [] h8 hl
  intro a ha
  simp only [List.mem_cons, List.not_mem_nil, or_false] at ha
  rcases ha with rfl | rfl
  · exact ⟨by simp, grpp_missing _ _ 1 [] _ allSpace_nil exampleNoGrpp⟩
  · exact ⟨by simp, e⟩

/-- A hydrogen molecule. -/
example (P Q : Point) : ∃ grpps, mainGrpps cartesianDirac exampleIO (exampleGrppText 1 0) [(1, P), (1, Q)] = .ok grpps ∧ ∃ g, grpps[1]? = some (some g) := by
  obtain ⟨grpps, e, -, h⟩ := molecule_grpps cartesianDirac exampleIO (exampleGrppText 1 0) [(1, P), (1, Q)]
    (fun _ => some ([exampleBlock], [examplePot 1, examplePot 0])) (by
      have hz : ∀ a ∈ ([(1, P), (1, Q)] : List (Nat × Point)), a.1 = 1 := by simp
      intro a ha
      rw [hz a ha]
      exact ⟨by decide, exampleHasGrpp 1 0 (by decide) (by decide), exampleGrppLimits 1 0 (by decide) (by decide), by simp [examplePot, exampleBlock], by simp, by simp,
        by simp⟩)
  obtain ⟨g, hg, -⟩ := (h (1, P) (by simp)).2 _ _ rfl
  exact ⟨grpps, e, g, hg⟩

end Libgrpp
