import Verif.Lemmas.Elements

/-! # C99: the periodic table of the driver program

Vocabulary (file `Verif/Lemmas/Elements.lean`): `AsciiString s`: all characters are between 1 and 127. `upperLetter`, `lowerLetter`: the letter in the
other case, other characters unchanged. `properCase s`: first letter large, all others small. -/

namespace Libgrpp

/-- Two strings that differ in the case of letters only. -/
def SameLetters (s t : List Nat) : Prop := s.map lowerLetter = t.map lowerLetter

/-- The symbol of the entry `z` of the table. -/
def symbolOf (z : Nat) : List Nat := (periodicTable.getD z ⟨[], 0⟩).sym

theorem symbolOf_get {z : Nat} (h : z < 131) : ∃ e, periodicTable[z]? = some e ∧ symbolOf z = e.sym := by
  have h' : z < periodicTable.length := by rw [periodicTable_length]; exact h
  refine ⟨periodicTable[z], List.getElem?_eq_getElem h', ?_⟩
  rw [symbolOf, List.getD_eq_getElem?_getD, List.getElem?_eq_getElem h']
  rfl

theorem upper_of_lower {c d : Nat} (h : lowerLetter c = lowerLetter d) : upperLetter c = upperLetter d := by
  unfold lowerLetter at h
  unfold upperLetter
  split_ifs at h ⊢ <;> omega

theorem properCase_lower (s : List Nat) : (properCase s).map lowerLetter = s.map lowerLetter := by
  cases s with
  | nil => rfl
  | cons c cs =>
    simp only [properCase, List.map_cons, List.map_map, List.cons.injEq]
    refine ⟨?_, List.map_congr_left fun a _ => ?_⟩
    · unfold upperLetter lowerLetter; split_ifs <;> omega
    · simp only [Function.comp]; unfold lowerLetter; split_ifs <;> omega

theorem properCase_congr {s t : List Nat} (h : SameLetters s t) : properCase s = properCase t := by
  cases s with
  | nil => cases t with
    | nil => rfl
    | cons => simp [SameLetters] at h
  | cons c cs => cases t with
    | nil => simp [SameLetters] at h
    | cons d ds =>
      simp only [SameLetters, List.map_cons, List.cons.injEq] at h
      simp only [properCase, List.cons.injEq]
      exact ⟨upper_of_lower h.1, h.2⟩

/-- **C99**, lookup. For every ASCII string the lookup succeeds. A result `z` other than -1 is the number of an entry of the table whose symbol is the
string up to the case of letters, and it is the first such entry; if the result is -1 there is no such entry. -/
theorem element_lookup (s : List Nat) (hs : AsciiString s) : ∃ z : Int, getElementNucCharge s = .ok z ∧
    ((z = -1 ∧ ∀ i < 131, ¬SameLetters s (symbolOf i)) ∨
      ∃ i : Nat, i < 131 ∧ z = i ∧ SameLetters s (symbolOf i) ∧ ∀ j < i, ¬SameLetters s (symbolOf j)) := by
  have key : ∀ i < 131, ∀ e, periodicTable[i]? = some e → (e.sym = properCase (s.take 7) ↔ SameLetters s (symbolOf i)) := by
    intro i hi e he
    obtain ⟨⟨h1, h2, h3, h4⟩, -⟩ := periodicTable_facts i hi e he
    obtain ⟨e', he', h5⟩ := symbolOf_get hi
    rw [he] at he'
    cases he'
    rw [h5]
    constructor
    · intro h
      have hl : (s.take 7).length ≤ 4 := by
        have : (properCase (s.take 7)).length = (s.take 7).length := by cases s.take 7 <;> simp [properCase]
        rw [← this, ← h]; exact h3
      have hs7 : s.take 7 = s := List.take_of_length_le (by simp at hl; omega)
      rw [hs7] at h
      unfold SameLetters
      rw [h, properCase_lower]
    · intro h
      have hl : s.length = e.sym.length := by
        have := congrArg List.length h
        simpa using this
      rw [List.take_of_length_le (by omega), properCase_congr h, h1]
  rw [getElementNucCharge_eq s hs]
  cases hf : periodicTable.findIdx? (fun e => e.sym == properCase (s.take 7)) with
  | none =>
    refine ⟨-1, rfl, Or.inl ⟨rfl, fun i hi h => ?_⟩⟩
    obtain ⟨e, he, -⟩ := symbolOf_get hi
    have := List.findIdx?_eq_none_iff.1 hf e (List.mem_of_getElem? he)
    rw [(key i hi e he).2 h] at this
    simp at this
  | some i =>
    obtain ⟨hi, h1, h2⟩ := List.findIdx?_eq_some_iff_getElem.1 hf
    have hi' : i < 131 := by rw [periodicTable_length] at hi; exact hi
    refine ⟨i, rfl, Or.inr ⟨i, hi', rfl, ?_, fun j hj h => ?_⟩⟩
    · exact (key i hi' _ (List.getElem?_eq_getElem hi)).1 (by simpa using h1)
    · have hj' : j < periodicTable.length := by omega
      have := h2 j hj
      rw [(key j (by omega) _ (List.getElem?_eq_getElem hj')).2 h] at this
      simp at this

/-- **C99**, case: strings that differ in the case of letters only are treated alike. -/
theorem element_lookup_case (s t : List Nat) (hs : AsciiString s) (ht : AsciiString t) (h : SameLetters s t) :
    getElementNucCharge s = getElementNucCharge t := by
  have h7 : SameLetters (s.take 7) (t.take 7) := by
    unfold SameLetters at *
    rw [List.map_take, List.map_take, h]
  rw [getElementNucCharge_eq s hs, getElementNucCharge_eq t ht, properCase_congr h7]

/-- Characters beyond ASCII: `toupper` and `tolower` are called outside their domain. -/
theorem element_lookup_non_ascii (c : Nat) (h1 : 128 ≤ c) (h2 : c ≤ 254) (s : List Nat) : getElementNucCharge (c :: s) = .ub := by
  unfold getElementNucCharge standardForm
  simp only
  rw [wr_ok _ (by simp [maxElementSymbol]), Outcome.ok_bind]
  have : ∀ l : List Nat, rd ((c :: l).set (maxElementSymbol - 1) 0) 0 = .ok c := by
    intro l; simp [maxElementSymbol, rd]
  have e : (c :: s).take maxElementSymbol = c :: s.take 7 := rfl
  rw [e, List.cons_append, this, Outcome.ok_bind]
  have : toupperC c = .ub := by
    unfold toupperC
    rw [Outcome.valid_neg (by omega)]
    rfl
  rw [this]
  rfl

/-- **C99**, symbols: for the charges 0 to 130 the symbol and a terminating zero are stored, the rest of the array is left alone; five characters are
enough. The charge 131 passes the assertion, although the table has no such entry; other charges are stopped by the assertion. -/
theorem element_symbol (sym : List Nat) :
    (∀ z : Nat, z ≤ 130 → 5 ≤ sym.length → getElementSymbol z sym = .ok (symbolOf z ++ 0 :: sym.drop ((symbolOf z).length + 1))) ∧
    getElementSymbol 131 sym = .ub ∧ ∀ z : Int, z < 0 ∨ 131 < z → getElementSymbol z sym = .abort := by
  refine ⟨fun z hz hl => ?_, ?_, fun z hz => ?_⟩
  · obtain ⟨e, he, h1⟩ := symbolOf_get (show z < 131 by omega)
    obtain ⟨⟨-, -, h3, -⟩, -⟩ := periodicTable_facts z (by omega) e he
    unfold getElementSymbol
    rw [Outcome.assert_pos ⟨by omega, by unfold nChemElements; omega⟩, Outcome.ok_bind]
    have : rd periodicTable (z : Int).toNat = .ok e := by
      rw [Int.toNat_natCast]; unfold rd; rw [he]
    rw [this, Outcome.ok_bind, h1, strcpyC_spec _ _ (by omega)]
  · unfold getElementSymbol
    rw [Outcome.assert_pos ⟨by omega, by unfold nChemElements; omega⟩, Outcome.ok_bind,
      rd_ub (by rw [periodicTable_length]; rfl)]
    rfl
  · unfold getElementSymbol
    rw [Outcome.assert_neg (by unfold nChemElements; omega)]
    rfl

/-- **C99**, round trip: the symbol of every entry other than 102, in any case, is found again. -/
theorem element_round_trip_partial (z : Nat) (hz : z ≤ 130) (h : z ≠ 102) (s : List Nat) (hs : AsciiString s) (hc : SameLetters s (symbolOf z)) :
    getElementNucCharge s = .ok z := by
  obtain ⟨e, he, h1⟩ := symbolOf_get (show z < 131 by omega)
  obtain ⟨⟨h2, h3, h4, h5⟩, h6, -⟩ := periodicTable_facts z (by omega) e he
  rw [h1] at hc
  rw [element_lookup_case s e.sym hs h5 hc, getElementNucCharge_eq _ h5, List.take_of_length_le (by omega), h2, h6 h]

/-- **C99 is false at 102**: the symbol of the entry 102 is that of niobium, which is found at 41; the symbol of nobelium is unknown. -/
theorem element_round_trip_false : symbolOf 102 = symbolOf 41 ∧ getElementNucCharge (symbolOf 102) = .ok 41 ∧
    getElementNucCharge (['N', 'o'].map Char.toNat) = .ok (-1) := by
  have h0 : (symbolOf 102 == symbolOf 41) = true := by decide +kernel
  have h0 : symbolOf 102 = symbolOf 41 := by simpa using h0
  have h1 : AsciiString (symbolOf 41) := of_decide_eq_true (by decide +kernel)
  have h2 : AsciiString (['N', 'o'].map Char.toNat) := of_decide_eq_true (by decide +kernel)
  refine ⟨h0, ?_, ?_⟩
  · rw [h0]
    exact element_round_trip_partial 41 (by norm_num) (by norm_num) _ h1 rfl
  · rw [getElementNucCharge_eq _ h2]
    have : (periodicTable.findIdx? (fun e => e.sym == properCase ((['N', 'o'].map Char.toNat).take 7))).isNone = true := by decide +kernel
    rw [Option.isNone_iff_eq_none.1 this]

/-- The most abundant natural isotope of each element that occurs in nature in more than traces, with its mass number. -/
def mostAbundant : List (Nat × Nat) :=
  [(1, 1), (2, 4), (3, 7), (4, 9), (5, 11), (6, 12), (7, 14), (8, 16), (9, 19), (10, 20), (11, 23), (12, 24), (13, 27), (14, 28), (15, 31), (16, 32),
   (17, 35), (18, 40), (19, 39), (20, 40), (21, 45), (22, 48), (23, 51), (24, 52), (25, 55), (26, 56), (27, 59), (28, 58), (29, 63), (30, 64), (31,
   69), (32, 74), (33, 75), (34, 80), (35, 79), (36, 84), (37, 85), (38, 88), (39, 89), (40, 90), (41, 93), (42, 98), (44, 102), (45, 103), (46, 106),
   (47, 107), (48, 114), (49, 115), (50, 120), (51, 121), (52, 130), (53, 127), (54, 132), (55, 133), (56, 138), (57, 139), (58, 140), (59, 141), (60,
   142), (62, 152), (63, 153), (64, 158), (65, 159), (66, 164), (67, 165), (68, 166), (69, 169), (70, 174), (71, 175), (72, 180), (73, 181), (74, 184),
   (75, 187), (76, 192), (77, 193), (78, 195), (79, 197), (80, 202), (81, 205), (82, 208), (83, 209), (90, 232), (91, 231), (92, 238)]

/-- **C99**, mass numbers: a mass number is returned for the charges 0 to 130, for all other arguments the behaviour is undefined. It is at least the
charge. For all elements that occur in nature except rhodium it is the mass number of the most abundant isotope. -/
theorem element_mass_number_partial : (∀ z : Nat, z ≤ 130 → ∃ A, massNumberAbundant z = .ok A ∧ z ≤ A) ∧
    (∀ z : Int, z < 0 ∨ 130 < z → massNumberAbundant z = .ub) ∧
    ∀ e ∈ mostAbundant, e.1 ≠ 45 → massNumberAbundant e.1 = .ok e.2 := by
  have hz : ∀ z : Nat, ∀ e, periodicTable[z]? = some e → massNumberAbundant z = .ok e.mass := by
    intro z e he
    unfold massNumberAbundant
    rw [Outcome.valid_pos (by omega), Outcome.ok_bind, Int.toNat_natCast]
    unfold rd
    rw [he]
    rfl
  refine ⟨fun z h => ?_, fun z h => ?_, fun e he h45 => ?_⟩
  · obtain ⟨e, he, -⟩ := symbolOf_get (show z < 131 by omega)
    exact ⟨e.mass, hz z e he, (periodicTable_facts z (by omega) e he).2.2.2⟩
  · unfold massNumberAbundant
    by_cases h0 : 0 ≤ z
    · rw [Outcome.valid_pos h0, Outcome.ok_bind, rd_ub (by rw [periodicTable_length]; omega)]
      rfl
    · rw [Outcome.valid_neg h0]
      rfl
  · have h1 : (mostAbundant.all fun e => decide (e.1 ≠ 45 → e.1 < 131 ∧ (periodicTable[e.1]?.map Element.mass) = some e.2)) = true := by decide +kernel
    have h2 := of_decide_eq_true (List.all_eq_true.1 h1 e he) h45
    obtain ⟨f, hf, -⟩ := symbolOf_get h2.1
    rw [hz e.1 f hf]
    have := h2.2
    rw [hf] at this
    simp only [Option.map_some, Option.some.injEq] at this
    rw [this]

/-- Rhodium: 100 instead of 103. -/
theorem element_mass_number_false : (45, 103) ∈ mostAbundant ∧ massNumberAbundant 45 = .ok 100 := by
  refine ⟨by decide, ?_⟩
  have h : ((periodicTable[45]?.map Element.mass) == some 100) = true := by decide +kernel
  unfold massNumberAbundant
  rw [Outcome.valid_pos (by omega), Outcome.ok_bind]
  have e : (45 : Int).toNat = 45 := rfl
  rw [e]
  cases hf : periodicTable[45]? with
  | none => rw [hf] at h; exact absurd h (by decide)
  | some f =>
    rw [hf] at h
    have : f.mass = 100 := by simpa using h
    unfold rd
    rw [hf, ← this]
    rfl

/-- **C99**, molecules: from a file whose symbols are ASCII strings with fewer than 256 characters `read_molecule` either returns `NULL` or a molecule
with as many atoms as announced, whose charges are between 0 and 130. -/
theorem read_molecule_charges (count : Option Int) (records : List XyzRecord)
    (hr : ∀ s r, some (s, r) ∈ records → AsciiString s ∧ s.length < 256) :
    ∃ o, readMolecule count records = .ok o ∧ (count = none → o = none) ∧ ∀ l, o = some l → ∃ n, count = some n ∧ l.length = n.toNat ∧
      ∀ i < l.length, ∃ (z : Nat) (r : Fin 3 → ℝ) (s : List Nat), l[i]? = some ((z : Int), r) ∧ z ≤ 130 ∧
        records[i]? = some (some (s, r)) ∧ SameLetters s (symbolOf z) := by
  cases count with
  | none => exact ⟨none, rfl, fun _ => rfl, fun l h => by cases h⟩
  | some n =>
    have : ∃ o, readMolecule (some n) records = .ok o ∧ ∀ l, o = some l → l.length = n.toNat ∧
      ∀ i < l.length, ∃ (z : Nat) (r : Fin 3 → ℝ) (s : List Nat), l[i]? = some ((z : Int), r) ∧ z ≤ 130 ∧
        records[i]? = some (some (s, r)) ∧ SameLetters s (symbolOf z) := by
      unfold readMolecule
      refine forRange_spec (fun k (o : Option (List (Int × (Fin 3 → ℝ)))) => ∀ l, o = some l → l.length = k ∧
        ∀ i < l.length, ∃ (z : Nat) (r : Fin 3 → ℝ) (s : List Nat), l[i]? = some ((z : Int), r) ∧ z ≤ 130 ∧
          records[i]? = some (some (s, r)) ∧ SameLetters s (symbolOf z)) ?_ ?_ fun s h => h
      · intro l h
        cases h
        exact ⟨rfl, fun i hi => absurd hi (by simp)⟩
      · intro i st hi hI
        cases st with
        | none => exact ⟨none, rfl, fun l h => by cases h⟩
        | some l =>
          obtain ⟨hl, hI⟩ := hI l rfl
          simp only
          cases hg : records.getD i none with
          | none => exact ⟨none, rfl, fun l h => by cases h⟩
          | some sr =>
            obtain ⟨s, r⟩ := sr
            have hri : records[i]? = some (some (s, r)) := by
              rw [List.getD_eq_getElem?_getD] at hg
              cases h : records[i]? with
              | none => rw [h] at hg; cases hg
              | some x => rw [h] at hg; rw [← hg]; rfl
            obtain ⟨ha, hlen⟩ := hr s r (List.mem_of_getElem? hri)
            obtain ⟨z, h1, h2⟩ := element_lookup s ha
            simp only
            rw [Outcome.valid_pos hlen, Outcome.ok_bind, h1, Outcome.ok_bind]
            refine ⟨_, rfl, ?_⟩
            rcases h2 with ⟨h2, -⟩ | ⟨j, hj, h2, h3, -⟩
            · rw [if_pos h2]
              intro l h
              cases h
            · rw [if_neg (by omega)]
              intro l' h
              cases h
              refine ⟨by simp [hl], fun k hk => ?_⟩
              by_cases hkl : k < l.length
              · obtain ⟨z', r', s', h4, h5⟩ := hI k hkl
                exact ⟨z', r', s', by rw [List.getElem?_append_left hkl]; exact h4, h5⟩
              · have hk' : k = l.length := by simp at hk; omega
                refine ⟨j, r, s, ?_, by omega, ?_, h3⟩
                · rw [List.getElem?_append_right (by omega), hk', h2]
                  simp
                · rw [hk', hl]; exact hri
    obtain ⟨o, h1, h2⟩ := this
    exact ⟨o, h1, fun h => (by cases h), fun l hl => ⟨n, rfl, h2 l hl⟩⟩

/-- `bR` and `Br`. -/
example : getElementNucCharge [98, 82] = .ok 35 :=
  element_round_trip_partial 35 (by norm_num) (by norm_num) _ (by decide) (by unfold SameLetters; simpa using (by decide +kernel :
    (([98, 82] : List Nat).map lowerLetter == (symbolOf 35).map lowerLetter) = true))

/-- An ion pair. -/
example : ∃ o, readMolecule (some 2) [some ([78, 97], fun _ => 0), some ([67, 76], fun _ => 4)] = .ok o := by
  obtain ⟨o, h, -⟩ := read_molecule_charges (some 2) [some ([78, 97], fun _ => 0), some ([67, 76], fun _ => 4)] (by
    intro s r h
    simp only [List.mem_cons, List.not_mem_nil, or_false, Option.some.injEq, Prod.mk.injEq] at h
    rcases h with ⟨rfl, -⟩ | ⟨rfl, -⟩ <;> exact ⟨by decide, by decide⟩)
  exact ⟨o, h⟩

end Libgrpp
