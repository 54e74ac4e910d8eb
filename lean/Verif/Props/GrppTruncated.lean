import Verif.Lemmas.GrppTruncated

/-! # C104: entries with fewer blocks than announced

The results of `fscanf` are not looked at (rpp.c:70, 97), so that missing headers leave the numbers of rows and columns without values. -/

namespace Libgrpp

/-- **C104** (negative part), too few blocks of outer-core functions. If the first line of an entry announces more blocks of outer-core functions than
there are, and something else than a number follows (the end of the file, or the next entry), the behaviour is undefined. -/
theorem grpp_truncated_core (gen : Nat → List Comp) (io : DecimalIO) (z : Nat) (hz : z ≤ intMax) (cs : List BasisBlock) (n k : Nat)
    (hok : GrppLimits cs []) (hlt : cs.length < n) (hn : n ≤ intMax) (hk : k ≤ intMax) (t1 t2 rest : List Char) (h1 : GrppStart z n k t1)
    (h2 : CoresText io cs t2) (hrest : NoNumber rest) : readGrppFile gen io (t1 ++ (t2 ++ rest)) z = .ub := by
  obtain ⟨ws, hws, e⟩ := findGrppEntry_found z n k t1 (t2 ++ rest) hz hn hk h1
  obtain ⟨e1, c1, pre1, g1, g2, g3, g4⟩ := readCores_spec gen io cs hok.npc (by rw [coreShells_length]; exact hok.shells) t2 h2
    (List.replicate maxExponents none) (List.replicate maxExponents none) (List.replicate (maxExponents * maxExponents) none)
    (by rw [List.length_replicate]; rfl) (by rw [List.length_replicate]; rfl) ws rest hws
  unfold readGrppFile
  simp only [e, Outcome.ok_bind, Int.toNat_natCast]
  rw [forRange_ub_at g1 ?_ hlt]
  · rfl
  · unfold readCoreBlock
    simp only
    rw [readTwoInts_noNumber g2 hrest]
    rfl

/-- **C104** (negative part), too few blocks of potentials: the same. -/
theorem grpp_truncated (gen : Nat → List Comp) (io : DecimalIO) (z : Nat) (hz : z ≤ intMax) (cs : List BasisBlock) (ps : List PotBlock) (k : Nat)
    (hok : GrppLimits cs ps) (hlt : ps.length < k) (hk : k ≤ 100) (t1 t2 t3 rest : List Char) (h1 : GrppStart z cs.length k t1)
    (h2 : CoresText io cs t2) (h3 : PotsText io ps t3) (hrest : NoNumber rest) : readGrppFile gen io (t1 ++ (t2 ++ (t3 ++ rest))) z = .ub := by
  obtain ⟨ws, hws, e⟩ := findGrppEntry_found z cs.length k t1 (t2 ++ (t3 ++ rest)) hz hok.nclen (by unfold intMax; omega) h1
  obtain ⟨e1, c1, pre1, g1, g2, g3, g4⟩ := readCores_spec gen io cs hok.npc (by rw [coreShells_length]; exact hok.shells) t2 h2
    (List.replicate maxExponents none) (List.replicate maxExponents none) (List.replicate (maxExponents * maxExponents) none)
    (by rw [List.length_replicate]; rfl) (by rw [List.length_replicate]; rfl) ws (t3 ++ rest) hws
  obtain ⟨s, g, pre2, k1, k2, k3, -⟩ := readPots_prefix io k hk ps hlt.le hok.npp (by rw [corePots_length]; exact hok.pots) t3 h3 (List.replicate maxExponents none)
    e1 c1 (by rw [List.length_replicate]; rfl) g3 g4 pre1 rest g2
  unfold readGrppFile
  simp only [e, Outcome.ok_bind, Int.toNat_natCast, g1]
  rw [forRange_ub_at k1 ?_ hlt]
  · rfl
  · unfold readPotBlock
    simp only
    rw [k3, readTwoInts_noNumber k2 hrest]
    rfl

/-- **C104** (negative part), a block of potentials with more than 100 terms: the arrays are overrun, whatever precedes (within the limits) and follows. -/
theorem grpp_overrun (gen : Nat → List Comp) (io : DecimalIO) (text : List Char) (z : Nat) (hz : z ≤ intMax) (cs : List BasisBlock) (ps ps' : List PotBlock)
    (b : PotBlock) (h : HasGrpp io z cs (ps ++ b :: ps') text) (hok : GrppLimits cs ps) (hlen : (ps ++ b :: ps').length ≤ 100) (hnoc : b.noc ≤ 98)
    (hb : 100 < b.rows.length) (hmax : b.rows.length ≤ intMax) : readGrppFile gen io text z = .ub := by
  obtain ⟨t1, t2, t3, rest, rfl, h1, h2, h3⟩ := h
  obtain ⟨u1, u2, rfl, h4, h5⟩ := h3.split
  cases h5 with
  | @cons _ _ v1 v2 h6 h7 =>
    have hlt : ps.length < (ps ++ b :: ps').length := by simp
    generalize (ps ++ b :: ps').length = k at h1 hlen hlt
    obtain ⟨ws, hws, e⟩ := findGrppEntry_found z cs.length k t1 (t2 ++ ((u1 ++ (v1 ++ v2)) ++ rest)) hz hok.nclen (by unfold intMax; omega) h1
    obtain ⟨e1, c1, pre1, g1, g2, g3, g4⟩ := readCores_spec gen io cs hok.npc (by rw [coreShells_length]; exact hok.shells) t2 h2
      (List.replicate maxExponents none) (List.replicate maxExponents none) (List.replicate (maxExponents * maxExponents) none)
      (by rw [List.length_replicate]; rfl) (by rw [List.length_replicate]; rfl) ws ((u1 ++ (v1 ++ v2)) ++ rest) hws
    obtain ⟨s, g, pre2, k1, k2, k3, k4, k5, k6⟩ := readPots_prefix io k hlen ps hlt.le hok.npp (by rw [corePots_length]; exact hok.pots) u1 h4
      (List.replicate maxExponents none) e1 c1 (by rw [List.length_replicate]; rfl) g3 g4 pre1 ((v1 ++ v2) ++ rest) g2
    unfold readGrppFile
    simp only [e, Outcome.ok_bind, Int.toNat_natCast, g1]
    rw [show (u1 ++ (v1 ++ v2)) ++ rest = u1 ++ ((v1 ++ v2) ++ rest) by simp, forRange_ub_at k1 ?_ hlt]
    · rfl
    · obtain ⟨p, x, c, t⟩ := s
      simp only at k3 k4 k5 k6 ⊢
      rw [k3, show (v1 ++ v2) ++ rest = v1 ++ (v2 ++ rest) by simp]
      exact readPotBlock_outside io k ps.length b hb hmax hnoc v1 h6 g p x c k4 k5 k6 pre2 (v2 ++ rest) k2

/-- **C104** (negative part), a block of outer-core functions with more than 100 exponents: the same. -/
theorem grpp_overrun_core (gen : Nat → List Comp) (io : DecimalIO) (text : List Char) (z : Nat) (hz : z ≤ intMax) (cs cs' : List BasisBlock) (b : BasisBlock)
    (ps : List PotBlock) (h : HasGrpp io z (cs ++ b :: cs') ps text) (hok : GrppLimits cs []) (hlen : (cs ++ b :: cs').length ≤ intMax)
    (hplen : ps.length ≤ intMax) (hnc : b.nc ≤ 100) (hb : 100 < b.rows.length) (hmax : b.rows.length ≤ intMax) : readGrppFile gen io text z = .ub := by
  obtain ⟨t1, t2, t3, rest, rfl, h1, h2, h3⟩ := h
  obtain ⟨u1, u2, rfl, h4, h5⟩ := h2.split
  cases h5 with
  | @cons _ _ v1 v2 h6 h7 =>
    obtain ⟨ws, hws, e⟩ := findGrppEntry_found z _ _ t1 ((u1 ++ (v1 ++ v2)) ++ (t3 ++ rest)) hz hlen hplen h1
    obtain ⟨e1, c1, pre1, g1, g2, g3, g4⟩ := readCores_spec gen io cs hok.npc (by rw [coreShells_length]; exact hok.shells) u1 h4
      (List.replicate maxExponents none) (List.replicate maxExponents none) (List.replicate (maxExponents * maxExponents) none)
      (by rw [List.length_replicate]; rfl) (by rw [List.length_replicate]; rfl) ws ((v1 ++ v2) ++ (t3 ++ rest)) hws
    unfold readGrppFile
    simp only [e, Outcome.ok_bind, Int.toNat_natCast]
    rw [show (u1 ++ (v1 ++ v2)) ++ (t3 ++ rest) = u1 ++ ((v1 ++ v2) ++ (t3 ++ rest)) by simp, forRange_ub_at g1 ?_ (by simp)]
    · rfl
    · rw [show (v1 ++ v2) ++ (t3 ++ rest) = v1 ++ (v2 ++ (t3 ++ rest)) by simp]
      exact readCoreBlock_outside gen io cs.length b hb hmax hnc v1 h6 _ _ e1 c1 g3 g4 pre1 (v2 ++ (t3 ++ rest)) g2

/-- **C104** (negative part), the driver: if the first atom of the molecule has such an entry, reading the pseudopotentials is undefined. -/
theorem molecule_grpps_truncated (gen : Nat → List Comp) (io : DecimalIO) (text : List Char) (a : Nat × Point) (as : List (Nat × Point)) (ha : a.1 ≤ 130)
    (h : readGrppFile gen io text a.1 = .ub) : mainGrpps gen io text (a :: as) = .ub := by
  have hr : mainReadGrpps gen io text (a :: as) = .ub := by
    unfold mainReadGrpps
    refine forRange_ub_at (k := 0) (forRange_zero _ _) ?_ (by simp)
    rw [rd_ok (by simp)]
    simp only [Outcome.ok_bind, List.getElem_cons_zero]
    rw [rd_ok (by simp; omega)]
    simp only [Outcome.ok_bind, List.getElem_replicate]
    rw [h]
    rfl
  unfold mainGrpps
  rw [hr]
  rfl

/-! ## Examples -/

theorem exampleLimits_core : GrppLimits [exampleBlock] [] :=
  ⟨fun b hb => by rw [List.mem_singleton] at hb; subst hb; simp [exampleBlock], by simp [exampleBlock], by simp, by simp [intMax], by simp, by simp⟩

theorem exampleLimits_pot : GrppLimits [exampleBlock] [examplePot 1] :=
  ⟨exampleLimits_core.npc, by simp [exampleBlock], by simp, by simp [intMax],
    fun c hc => by rw [List.mem_singleton] at hc; subst hc; exact ⟨by simp [examplePot], by simp [examplePot]⟩, by simp [examplePot]⟩

theorem exampleGrppStart (n k : Nat) (hn : n ≤ 2) (hk : k ≤ 2) : GrppStart 1 n k ("* 1 ".toList ++ (Nat.toDigits 10 n ++ (' ' :: (Nat.toDigits 10 k ++ ['\n'])))) :=
  ⟨[], [], [' '], [' '], [' '], ['\n'], by interval_cases n <;> interval_cases k <;> simp [Nat.toDigits, Nat.toDigitsCore, Nat.digitChar], allSpace_nil, .nil,
    spaces_blank, spaces_blank, spaces_blank, spaces_newline⟩

/-- Two blocks of outer-core functions are announced; after the first one the entry of helium begins. -/
example : readGrppFile cartesianDirac exampleIO (("* 1 ".toList ++ (Nat.toDigits 10 2 ++ (' ' :: (Nat.toDigits 10 1 ++ ['\n'])))) ++
    (("1 1\n1.0E+00 1.0E+00\n".toList ++ []) ++ "* 2 0 1\n".toList)) 1 = .ub :=
  grpp_truncated_core cartesianDirac exampleIO 1 (by decide) [exampleBlock] 2 1 exampleLimits_core (by simp) (by decide) (by decide) _ _ _
    (exampleGrppStart 2 1 (by decide) (by decide)) (.cons exampleCore .nil) (fun c hc => by simp [isSpaceC] at hc; rw [← hc]; decide)

/-- Two blocks of potentials are announced; after the first one the file ends. -/
theorem exampleTruncated : readGrppFile cartesianDirac exampleIO (("* 1 ".toList ++ (Nat.toDigits 10 1 ++ (' ' :: (Nat.toDigits 10 2 ++ ['\n'])))) ++
    (("1 1\n1.0E+00 1.0E+00\n".toList ++ []) ++ ((examplePotText 1 ++ []) ++ []))) 1 = .ub :=
  grpp_truncated cartesianDirac exampleIO 1 (by decide) [exampleBlock] [examplePot 1] 2 exampleLimits_pot (by simp) (by decide) _ _ _ _
    (exampleGrppStart 1 2 (by decide) (by decide)) (.cons exampleCore .nil) (.cons (examplePot_text 1 (by decide)) .nil) (fun c hc => by simp at hc)

example (P Q : Point) : mainGrpps cartesianDirac exampleIO (("* 1 ".toList ++ (Nat.toDigits 10 1 ++ (' ' :: (Nat.toDigits 10 2 ++ ['\n'])))) ++
    (("1 1\n1.0E+00 1.0E+00\n".toList ++ []) ++ ((examplePotText 1 ++ []) ++ []))) [(1, P), (1, Q)] = .ub :=
  molecule_grpps_truncated cartesianDirac exampleIO _ (1, P) [(1, Q)] (by simp) exampleTruncated

/-- A block of potentials with 101 terms. -/
example : readGrppFile cartesianDirac exampleIO (("* 1 ".toList ++ (Nat.toDigits 10 0 ++ (' ' :: (Nat.toDigits 10 1 ++ ['\n'])))) ++
    ([] ++ ((("101 0\n".toList ++ (List.replicate 101 "2 1.0E+00 1.0E+00 1.0E+00\n".toList).flatten) ++ []) ++ []))) 1 = .ub := by
  have hrow : PotRowText exampleIO ⟨2, 1, 1, 1, []⟩ "2 1.0E+00 1.0E+00 1.0E+00\n".toList :=
    ⟨[], " 1.0E+00 1.0E+00 1.0E+00".toList, ['\n'], by simp [Nat.toDigits, Nat.toDigitsCore, Nat.digitChar], allSpace_nil,
      NumsText.cons (ws := [' ']) (tok := "1.0E+00".toList) (t := " 1.0E+00 1.0E+00".toList) spaces_blank exampleToken
        (NumsText.cons (ws := [' ']) (tok := "1.0E+00".toList) (t := " 1.0E+00".toList) spaces_blank exampleToken
          (NumsText.cons (ws := [' ']) (tok := "1.0E+00".toList) (t := []) spaces_blank exampleToken .nil)), lineEnd_newline⟩
  have hrows : ∀ n, PotRows exampleIO 0 (List.replicate n ⟨2, 1, 1, 1, []⟩) (List.replicate n "2 1.0E+00 1.0E+00 1.0E+00\n".toList).flatten := by
    intro n
    induction n with
    | zero => exact .nil
    | succ n ih => exact PotRows.cons rfl (by show (2 : Nat) ≤ intMax; decide) hrow ih
  have hblock : PotText exampleIO ⟨0, List.replicate 101 ⟨2, 1, 1, 1, []⟩⟩
      ("101 0\n".toList ++ (List.replicate 101 "2 1.0E+00 1.0E+00 1.0E+00\n".toList).flatten) :=
    ⟨"101 0\n".toList, _, rfl, ⟨[], [' '], ['\n'], by simp [Nat.toDigits, Nat.toDigitsCore, Nat.digitChar], allSpace_nil, spaces_blank, lineEnd_newline⟩, hrows 101⟩
  exact grpp_overrun cartesianDirac exampleIO _ 1 (by decide) [] [] [] ⟨0, List.replicate 101 ⟨2, 1, 1, 1, []⟩⟩
    ⟨_, _, _, _, rfl, exampleGrppStart 0 1 (by decide) (by decide), .nil, .cons hblock .nil⟩
    ⟨by simp, by simp, by simp, by simp, by simp, by simp⟩ (by simp) (by simp) (by simp) (by simp [intMax])

/-- A block of outer-core functions with 101 exponents. -/
example : readGrppFile cartesianDirac exampleIO (("* 1 ".toList ++ (Nat.toDigits 10 1 ++ (' ' :: (Nat.toDigits 10 0 ++ ['\n'])))) ++
    ((("101 1\n".toList ++ (List.replicate 101 "1.0E+00 1.0E+00\n".toList).flatten) ++ []) ++ ([] ++ []))) 1 = .ub := by
  have hrows : ∀ n, CoreRows exampleIO 1 (List.replicate n (1, [1])) (List.replicate n "1.0E+00 1.0E+00\n".toList).flatten := by
    intro n
    induction n with
    | zero => exact .nil
    | succ n ih =>
      exact CoreRows.cons (ws := []) (tok := "1.0E+00".toList) (t1 := " 1.0E+00".toList) (sep := ['\n']) rfl allSpace_nil exampleToken
        (NumsText.cons (ws := [' ']) (tok := "1.0E+00".toList) (t := []) spaces_blank exampleToken .nil) spaces_newline ih
  have hblock : CoreText exampleIO ⟨1, List.replicate 101 (1, [1])⟩ ("101 1\n".toList ++ (List.replicate 101 "1.0E+00 1.0E+00\n".toList).flatten) :=
    ⟨"101 1\n".toList, _, rfl, ⟨[], [' '], ['\n'], by simp [Nat.toDigits, Nat.toDigitsCore, Nat.digitChar], allSpace_nil, spaces_blank, lineEnd_newline⟩, hrows 101⟩
  exact grpp_overrun_core cartesianDirac exampleIO _ 1 (by decide) [] [] ⟨1, List.replicate 101 (1, [1])⟩ []
    ⟨_, _, _, _, rfl, exampleGrppStart 1 0 (by decide) (by decide), .cons hblock .nil, .nil⟩
    ⟨by simp, by simp, by simp, by simp, by simp, by simp⟩ (by simp [intMax]) (by simp) (by simp) (by simp) (by simp [intMax])

end Libgrpp
