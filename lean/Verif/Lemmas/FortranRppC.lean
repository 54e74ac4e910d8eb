import Verif.Lemmas.FortranRpp
import Verif.Props.GrppFile

/-! # Lemmas on the pseudopotentials of both programs (C110) -/

namespace Libgrpp

/-- The library makes the potential of a block from the arrays. -/
theorem fpot_is (L J : Int) {r : FEcpRow} (hs : EcpRowSized r) {rows : List PotRow} (hle : rows.length ≤ 50) (hn : r.numPrim = rows.length)
    (hp : r.powers.take rows.length = rows.map fun p => (p.power : Int)) (ha : r.alpha.take rows.length = rows.map fun p => p.exp) {c : List ℝ} (hc : c.length = 50)
    {f : PotRow → ℝ} (hf : c.take rows.length = rows.map f) : IsPotential L J (rows.map fun p => ((p.power : Int), f p, p.exp)) ((r.pot c).pot L J) := by
  have h1 : (r.pot c).num ≤ (r.pot c).powers.length := by show r.numPrim ≤ r.powers.length; rw [hn, hs.powers]; exact hle
  have h2 : (r.pot c).num ≤ (r.pot c).coeffs.length := by show r.numPrim ≤ c.length; rw [hn, hc]; exact hle
  have h3 : (r.pot c).num ≤ (r.pot c).alpha.length := by show r.numPrim ≤ r.alpha.length; rw [hn, hs.alpha]; exact hle
  obtain ⟨p, e1, e2⟩ := newPotential_is L J (r.pot c).num (r.pot c).powers (r.pot c).coeffs (r.pot c).alpha h1 h2 h3
  have e3 : (r.pot c).pot L J = p := by
    unfold FPot.pot
    rw [show (r.pot c).make L J = .ok p from e1]; rfl
  have e4 : termsOf (r.pot c).num (r.pot c).powers (r.pot c).coeffs (r.pot c).alpha = rows.map fun p => ((p.power : Int), f p, p.exp) := by
    show termsOf r.numPrim r.powers c r.alpha = _
    unfold termsOf
    rw [hn, hp, hf, ha, List.zip_map', List.zip_map']
  rw [e3, ← e4]
  exact e2

theorem FEcp.row_eq {e : FEcp} {L : Nat} {r : FEcpRow} (h : e.rows[L]? = some r) : e.row L = r := by
  unfold FEcp.row; rw [List.getD_eq_getElem?_getD, h]; rfl

theorem FEcp.row_big {e : FEcp} {L : Nat} (h : e.rows.length ≤ L) : (e.row L).numOc = 0 := by
  unfold FEcp.row; rw [List.getD_eq_getElem?_getD, List.getElem?_eq_none h]; rfl

/-- Twice the total angular momentum in both programs. -/
theorem ftnOcJ_eq (L i : Nat) : ftnOcJ L i = ((if L = 0 then 1 else if i % 2 = 0 then 2 * L - 1 else 2 * L + 1 : Nat) : Int) := by
  unfold ftnOcJ
  by_cases h : L = 0
  · simp [h]
  · rw [if_neg h, if_neg h]
    by_cases hi : i % 2 = 0
    · rw [if_pos (by omega), if_pos hi]; omega
    · rw [if_neg (by omega), if_neg hi]; omega

/-- The pairs of outer-core potentials and functions, by angular momentum. -/
theorem core_zip_range (gen : Nat → List Comp) (ps : List PotBlock) : ∀ (cs : List BasisBlock) (L n : Nat), Matched cs ps → ps.length ≤ n →
    (corePots L ps).zip (coreShells gen L cs) = (List.range n).flatMap fun j => (List.range (ps.getD j ⟨0, []⟩).noc).map fun i =>
      ((L + j, (if L + j = 0 then 1 else if i % 2 = 0 then 2 * (L + j) - 1 else 2 * (L + j) + 1), (ps.getD j ⟨0, []⟩).core i),
        coreShell gen (L + j) (cs.getD j ⟨0, []⟩) i) := by
  induction ps with
  | nil =>
    intro cs L n _ _
    simp [corePots]
  | cons p ps ih =>
    intro cs L n hm hn
    obtain ⟨n, rfl⟩ : ∃ m, n = m + 1 := ⟨n - 1, by simp only [List.length_cons] at hn; omega⟩
    rw [List.range_succ_eq_map, List.flatMap_cons, List.flatMap_map]
    cases cs with
    | nil =>
      have hz : ∀ j, (ps.getD j ⟨0, []⟩).noc = 0 := fun j => by
        have := hm (j + 1)
        simp only [List.map_nil, List.getD_nil, List.map_cons, List.getD_cons_succ] at this
        rw [List.getD_eq_getElem?_getD, List.getElem?_map] at this
        rw [List.getD_eq_getElem?_getD]
        cases hj : ps[j]? with
        | none => rfl
        | some b => rw [hj] at this; simpa using this.symm
      have h0 : p.noc = 0 := by simpa using (hm 0).symm
      simp only [coreShells, List.zip_nil_right, List.getD_cons_zero, h0, List.range_zero, List.map_nil, List.nil_append, Nat.succ_eq_add_one, List.getD_cons_succ, hz]
      simp
    | cons c cs =>
      have h0 : c.nc = p.noc := by simpa using hm 0
      rw [corePots, coreShells, List.zip_append (by simp [h0]), ih cs (L + 1) n hm.tail (by simpa using hn)]
      refine congrArg₂ _ ?_ (List.flatMap_congr fun j _ => ?_)
      · rw [h0, List.zip_map']
        rfl
      · simp only [Nat.succ_eq_add_one, List.getD_cons_succ]
        rw [show L + 1 + j = L + (j + 1) by omega]

theorem FEcpIs.noc {cs : List BasisBlock} {ps : List PotBlock} {e : FEcp} (h : FEcpIs cs ps e) (hm : Matched cs ps) (L : Nat) :
    (e.row L).numOc = (ps.getD L ⟨0, []⟩).noc := by
  have e1 : (ps.getD L ⟨0, []⟩).noc = (ps.map fun b => b.noc).getD L 0 := by
    rw [List.getD_eq_getElem?_getD, List.getD_eq_getElem?_getD, List.getElem?_map]
    cases ps[L]? <;> rfl
  rw [e1, ← hm L]
  by_cases hc : L < cs.length
  · obtain ⟨r, h1, h2⟩ := h.core L hc
    rw [FEcp.row_eq h1, h2.contr, List.getD_eq_getElem?_getD, List.getElem?_map, List.getElem?_eq_getElem hc]; rfl
  · rw [List.getD_eq_getElem?_getD, List.getElem?_eq_none (by rw [List.length_map]; omega)]
    cases hr : e.rows[L]? with
    | none => exact FEcp.row_big (List.getElem?_eq_none_iff.1 hr)
    | some r => rw [FEcp.row_eq hr]; exact h.none_ L r (by omega) hr

theorem Matched.core {cs : List BasisBlock} {ps : List PotBlock} (hm : Matched cs ps) {L : Nat} (h : 0 < (ps.getD L ⟨0, []⟩).noc) :
    ∃ (hc : L < cs.length) (hp : L < ps.length), cs[L].nc = ps[L].noc := by
  have hp : L < ps.length := by
    by_contra hn
    rw [List.getD_eq_getElem?_getD, List.getElem?_eq_none (by omega)] at h
    exact absurd h (by simp)
  have e := hm L
  rw [List.getD_eq_getElem?_getD, List.getD_eq_getElem?_getD, List.getElem?_map, List.getElem?_map, List.getElem?_eq_getElem hp] at e
  rw [List.getD_eq_getElem?_getD, List.getElem?_eq_getElem hp] at h
  have hc : L < cs.length := by
    by_contra hn
    rw [List.getElem?_eq_none (by omega)] at e
    simp only [Option.map_none, Option.getD_none, Option.map_some, Option.getD_some] at e h
    omega
  refine ⟨hc, hp, ?_⟩
  rw [List.getElem?_eq_getElem hc] at e
  simpa using e

/-- The object described by the arrays is the one described by the entry, except for the label of the local potential. -/
theorem FEcpIs.grpp {gen : Nat → List Comp} {cs : List BasisBlock} {ps : List PotBlock} {e : FEcp} (hlim : RppLimits cs ps) (hne : ps ≠ []) (hm : Matched cs ps)
    (hs : RowsSized e.rows) (h : FEcpIs cs ps e) :
    IsGrpp gen cs ps { e.data gen with local_ := (e.data gen).local_.map fun p => { p with L := ((ps.length - 1 : Nat) : Int) } } := by
  have hpos : 0 < ps.length := List.length_pos_iff.2 hne
  have hrow : ∀ L (hL : L < ps.length), ∃ r, e.row L = r ∧ EcpRowSized r ∧ PotBlockIs ps[L] r := fun L hL => by
    obtain ⟨r, h1, h2⟩ := h.pot L hL
    exact ⟨r, FEcp.row_eq h1, hs.2 r (List.mem_of_getElem? h1), h2⟩
  have harep : ∀ (L : Nat) (hL : L < ps.length) (M J : Int), IsPotential M J (ps[L].arep) (((e.row L).pot (e.row L).arep).pot M J) := fun L hL M J => by
    obtain ⟨r, h1, h2, h3⟩ := hrow L hL
    rw [h1]
    exact fpot_is M J h2 (hlim.pnp _ (List.getElem_mem hL)) h3.num h3.powers h3.exps h2.arep h3.arep
  have hesop : ∀ (L : Nat) (hL : L < ps.length) (M J : Int), IsPotential M J (ps[L].esop) (((e.row L).pot (e.row L).esop).pot M J) := fun L hL M J => by
    obtain ⟨r, h1, h2, h3⟩ := hrow L hL
    rw [h1]
    exact fpot_is M J h2 (hlim.pnp _ (List.getElem_mem hL)) h3.num h3.powers h3.exps h2.esop h3.esop
  have hlocal : IsPotential ((ps.length - 1 : Nat) : Int) 0 (ps[ps.length - 1].arep)
      { (((e.row (e.numArep - 1)).pot (e.row (e.numArep - 1)).arep).pot 0 0) with L := ((ps.length - 1 : Nat) : Int) } := by
    rw [h.num]
    obtain ⟨-, a2, a3⟩ := harep (ps.length - 1) (by omega) 0 0
    exact ⟨rfl, a2, a3⟩
  refine ⟨fun b hb => ?_, fun h => absurd h hne, by simp [FEcp.data, h.num], fun L p hp => ?_, by simp [FEcp.data, h.num], fun i p hp => ?_, ?_⟩
  · rw [List.getLast?_eq_getElem?, List.getElem?_eq_getElem (by omega)] at hb
    cases hb
    exact ⟨_, rfl, hlocal⟩
  · obtain ⟨hL, e1⟩ := List.getElem?_eq_some_iff.1 hp
    simp only [FEcp.data, List.length_map, List.length_range, h.num] at hL
    simp only [FEcp.data, List.getElem_map, List.getElem_range] at e1
    rw [← e1]
    exact ⟨ps[L], List.getElem?_eq_getElem (by omega), harep L (by omega) _ _⟩
  · obtain ⟨hL, e1⟩ := List.getElem?_eq_some_iff.1 hp
    simp only [FEcp.data, List.length_map, List.length_range, h.num] at hL
    simp only [FEcp.data, List.getElem_map, List.getElem_range] at e1
    rw [← e1]
    exact ⟨ps[i + 1], List.getElem?_eq_getElem (by omega), hesop (i + 1) (by omega) _ _⟩
  · rw [core_zip_range gen ps cs 0 10 hm hlim.plen]
    simp only [FEcp.data, FEcp.ocList, List.map_flatMap, Nat.zero_add]
    refine forall₂_flatMap_range fun j hj => ?_
    unfold FEcp.ocRow
    rw [h.noc hm j, List.map_map]
    refine forall₂_map_range fun i hi => ?_
    obtain ⟨hc, hp, hcp⟩ := hm.core (by omega : 0 < (ps.getD j ⟨0, []⟩).noc)
    obtain ⟨r, h1, h2, h3⟩ := hrow j hp
    obtain ⟨r', k1, k2⟩ := h.core j hc
    obtain rfl : r' = r := (FEcp.row_eq k1).symm.trans h1
    have e1 : ps.getD j ⟨0, []⟩ = ps[j] := by rw [List.getD_eq_getElem?_getD, List.getElem?_eq_getElem hp]; rfl
    have e2 : cs.getD j ⟨0, []⟩ = cs[j] := by rw [List.getD_eq_getElem?_getD, List.getElem?_eq_getElem hc]; rfl
    rw [e1] at hi ⊢
    rw [e2]
    obtain ⟨c, f1, f2⟩ := h3.oc i hi
    obtain ⟨s, g1, g2⟩ := k2.funs i (by omega)
    have e3 : r'.ocpot.getD i [] = c := by rw [List.getD_eq_getElem?_getD, f1]; rfl
    have e4 : r'.ocCoeffs.getD i [] = s := by rw [List.getD_eq_getElem?_getD, g1]; rfl
    simp only [Function.comp, h1, e3, e4]
    refine ⟨?_, ?_⟩
    · rw [← ftnOcJ_eq]
      exact fpot_is _ _ h2 (hlim.pnp _ (List.getElem_mem hp)) h3.num h3.powers h3.exps (h2.pot c (List.mem_of_getElem? f1)) f2
    · unfold FShell.shell coreShell
      simp only [k2.num, g2, k2.exps]
      congr 1
      funext x
      fin_cases x <;> rfl

/-- The counters are within the arrays. -/
theorem FEcpIs.ok {cs : List BasisBlock} {ps : List PotBlock} {e : FEcp} (hlim : RppLimits cs ps) (hm : Matched cs ps)
    (hs : RowsSized e.rows) (h : FEcpIs cs ps e) : e.Ok := by
  refine ⟨hs.1, by rw [h.num]; exact hlim.plen, fun L hL => ?_, fun L hL h0 => ?_⟩
  · rw [h.num] at hL
    obtain ⟨r, h1, h2⟩ := h.pot L hL
    have h3 := hs.2 r (List.mem_of_getElem? h1)
    have := hlim.pnp _ (List.getElem_mem hL)
    rw [FEcp.row_eq h1]
    exact ⟨by rw [h2.num, h3.powers]; exact this, by rw [h2.num, h3.alpha]; exact this, by rw [h2.num, h3.arep]; exact this, by rw [h2.num, h3.esop]; exact this⟩
  · have hn := h.noc hm L
    obtain ⟨hc, hp, hcp⟩ := hm.core (by omega : 0 < (ps.getD L ⟨0, []⟩).noc)
    obtain ⟨r, h1, h2⟩ := h.pot L hp
    obtain ⟨r', k1, k2⟩ := h.core L hc
    rw [h1] at k1
    cases k1
    have h3 := hs.2 r (List.mem_of_getElem? h1)
    have a1 := hlim.pnp _ (List.getElem_mem hp)
    have a2 := hlim.pnoc _ (List.getElem_mem hp)
    have a3 := hlim.cnp _ (List.getElem_mem hc)
    have a4 := hlim.cnc _ (List.getElem_mem hc)
    have hno : r.numOc ≤ 20 := by rw [k2.contr]; omega
    rw [FEcp.row_eq h1]
    refine ⟨by rw [h2.num, h3.powers]; exact a1, by rw [h2.num, h3.alpha]; exact a1, by rw [h3.pots]; exact hno, by rw [h3.funs]; omega, fun i hi => ?_, fun i hi => ?_,
      by rw [k2.num, h3.ocAlpha]; exact a3⟩
    · have hi' : i < r.ocpot.length := by rw [h3.pots]; omega
      rw [List.getD_eq_getElem?_getD, List.getElem?_eq_getElem hi', Option.getD_some, h3.pot _ (List.getElem_mem hi'), h2.num]; exact a1
    · have hi' : i < r.ocCoeffs.length := by rw [h3.funs]; omega
      rw [List.getD_eq_getElem?_getD, List.getElem?_eq_getElem hi', Option.getD_some, h3.fun_ _ (List.getElem_mem hi'), k2.num]; exact a3

/-- The number of outer-core functions. -/
theorem FEcpIs.oc_length {cs : List BasisBlock} {ps : List PotBlock} {e : FEcp} (hlim : RppLimits cs ps) (hne : ps ≠ []) (hm : Matched cs ps)
    (hs : RowsSized e.rows) (h : FEcpIs cs ps e) (gen : Nat → List Comp) : e.ocList.length = (ps.map fun b => b.noc).sum := by
  have := (h.grpp (gen := gen) hlim hne hm hs).oc.length_eq
  rw [List.length_zip, corePots_length, coreShells_length, min_eq_left hm.sum_le] at this
  simpa [FEcp.data] using this.symm

end Libgrpp
