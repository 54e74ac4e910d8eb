import Verif.Model.GrppFile
import Verif.Lemmas.BasisFile
import Verif.Props.Potential

/-! # Lemmas about the input of pseudopotentials -/

namespace Libgrpp

/-! ## Finding the entry -/

theorem findGrppEntry_skip (z : Nat) (pre : List Char) (hpre : NoGrppEntry z pre) (tail : List Char) (ws : List Char) (hws : AllSpace ws) :
    ∃ ws', AllSpace ws' ∧ findGrppEntry z (ws ++ (pre ++ tail)) = findGrppEntry z (ws' ++ tail) := by
  induction hpre generalizing ws with
  | nil => exact ⟨ws, hws, rfl⟩
  | @word w ws1 t hne hstar hlen hw hws1 _ ih =>
    obtain ⟨ws', h1, h2⟩ := ih ws1 hws1.2
    refine ⟨ws', h1, ?_⟩
    rw [← h2]
    have e : ws ++ ((w ++ (ws1 ++ t)) ++ tail) = ws ++ (w ++ (ws1 ++ (t ++ tail))) := by simp
    rw [e]
    have hs := scanWord_word ws w (ws1 ++ (t ++ tail)) hws hne hw (hws1.startsBlank _)
    have hl : (ws1 ++ (t ++ tail)).length < (ws ++ (w ++ (ws1 ++ (t ++ tail)))).length := by
      have := List.length_pos_of_ne_nil hne
      simp only [List.length_append]
      omega
    rw [findGrppEntry, hs]
    simp only
    rw [Outcome.valid_pos hlen, Outcome.ok_bind, if_neg hstar, dif_pos hl]
  | @star z' n k ws1 ws2 ws3 ws4 t hz hz' hn hk h1 h2 h3 h4 _ ih =>
    obtain ⟨ws', g1, g2⟩ := ih ws4 h4.2
    refine ⟨ws', g1, ?_⟩
    rw [← g2]
    have e : ws ++ (('*' :: (ws1 ++ (Nat.toDigits 10 z' ++ (ws2 ++ (Nat.toDigits 10 n ++ (ws3 ++ (Nat.toDigits 10 k ++ (ws4 ++ t)))))))) ++ tail) =
        ws ++ (['*'] ++ (ws1 ++ (Nat.toDigits 10 z' ++ (ws2 ++ (Nat.toDigits 10 n ++ (ws3 ++ (Nat.toDigits 10 k ++ (ws4 ++ (t ++ tail))))))))) := by simp
    rw [e]
    have hs := scanWord_word ws ['*'] (ws1 ++ (Nat.toDigits 10 z' ++ (ws2 ++ (Nat.toDigits 10 n ++ (ws3 ++ (Nat.toDigits 10 k ++ (ws4 ++ (t ++ tail))))))))
      hws (by simp) (by simp; decide) (h1.startsBlank _)
    have hl : (ws4 ++ (t ++ tail)).length <
        (ws ++ (['*'] ++ (ws1 ++ (Nat.toDigits 10 z' ++ (ws2 ++ (Nat.toDigits 10 n ++ (ws3 ++ (Nat.toDigits 10 k ++ (ws4 ++ (t ++ tail)))))))))).length := by
      simp only [List.length_append, List.length_cons, List.length_nil]
      omega
    rw [findGrppEntry, hs]
    simp only
    rw [Outcome.valid_pos (by simp), Outcome.ok_bind, if_pos trivial, scanInt_token z' ws1 _ hz' h1.2 (h2.startsBlank _)]
    simp only [Outcome.ok_bind]
    rw [scanInt_token n ws2 _ hn h2.2 (h3.startsBlank _)]
    simp only [Outcome.ok_bind]
    rw [scanInt_token k ws3 _ hk h3.2 (h4.startsBlank _)]
    simp only [Outcome.ok_bind]
    rw [if_neg (by exact_mod_cast hz), dif_pos hl]

/-- Without an entry the search fails. -/
theorem findGrppEntry_missing (z : Nat) (ws pre : List Char) (hws : AllSpace ws) (hpre : NoGrppEntry z pre) :
    findGrppEntry z (ws ++ pre) = .ok none := by
  obtain ⟨ws', h1, h2⟩ := findGrppEntry_skip z pre hpre [] ws hws
  rw [List.append_nil, List.append_nil] at h2
  rw [h2, findGrppEntry, scanWord_blank ws' h1]

theorem findGrppEntry_found (z n k : Nat) (t rest : List Char) (hz : z ≤ intMax) (hn : n ≤ intMax) (hk : k ≤ intMax) (h : GrppStart z n k t) :
    ∃ ws, AllSpace ws ∧ findGrppEntry z (t ++ rest) = .ok (some ((n : Int), (k : Int), ws ++ rest)) := by
  obtain ⟨ws0, pre, ws1, ws2, ws3, ws4, rfl, hws0, hpre, h1, h2, h3, h4⟩ := h
  obtain ⟨ws', g1, g2⟩ := findGrppEntry_skip z pre hpre
    (['*'] ++ (ws1 ++ (Nat.toDigits 10 z ++ (ws2 ++ (Nat.toDigits 10 n ++ (ws3 ++ (Nat.toDigits 10 k ++ (ws4 ++ rest)))))))) ws0 hws0
  refine ⟨ws4, h4.2, ?_⟩
  have e : (ws0 ++ (pre ++ ('*' :: (ws1 ++ (Nat.toDigits 10 z ++ (ws2 ++ (Nat.toDigits 10 n ++ (ws3 ++ (Nat.toDigits 10 k ++ ws4))))))))) ++ rest =
      ws0 ++ (pre ++ (['*'] ++ (ws1 ++ (Nat.toDigits 10 z ++ (ws2 ++ (Nat.toDigits 10 n ++ (ws3 ++ (Nat.toDigits 10 k ++ (ws4 ++ rest))))))))) := by simp
  rw [e, g2]
  have hs := scanWord_word ws' ['*'] (ws1 ++ (Nat.toDigits 10 z ++ (ws2 ++ (Nat.toDigits 10 n ++ (ws3 ++ (Nat.toDigits 10 k ++ (ws4 ++ rest)))))))
    g1 (by simp) (by simp; decide) (h1.startsBlank _)
  rw [findGrppEntry, hs]
  simp only
  rw [Outcome.valid_pos (by simp), Outcome.ok_bind, if_pos trivial, scanInt_token z ws1 _ hz h1.2 (h2.startsBlank _)]
  simp only [Outcome.ok_bind]
  rw [scanInt_token n ws2 _ hn h2.2 (h3.startsBlank _)]
  simp only [Outcome.ok_bind]
  rw [scanInt_token k ws3 _ hk h3.2 (h4.startsBlank _)]
  simp only [Outcome.ok_bind]
  rw [if_pos trivial]

theorem HeaderLine.read {a b : Nat} {t : List Char} (h : HeaderLine a b t) (ha : a ≤ intMax) (hb : b ≤ intMax) (pre rest : List Char)
    (hpre : AllSpace pre) : ∃ u, readTwoInts (pre ++ (t ++ rest)) = .ok ((a : Int), (b : Int), u) ∧ skipLine u = rest := by
  obtain ⟨ws, ws1, t1, rfl, hws, h1, h2⟩ := h
  obtain ⟨g1, g2⟩ := h2.skip rest
  refine ⟨t1 ++ rest, ?_, g1⟩
  have e : pre ++ ((ws ++ (Nat.toDigits 10 a ++ (ws1 ++ (Nat.toDigits 10 b ++ t1)))) ++ rest) =
      (pre ++ ws) ++ (Nat.toDigits 10 a ++ (ws1 ++ (Nat.toDigits 10 b ++ (t1 ++ rest)))) := by simp
  unfold readTwoInts
  rw [e, scanInt_token a _ _ ha (hpre.append hws) (h1.startsBlank _)]
  simp only [Outcome.ok_bind]
  rw [scanInt_token b _ _ hb h1.2 g2]
  simp only [Outcome.ok_bind]

/-! ## Rows -/

/-- Reading numbers into the columns from `off` on. -/
theorem readColumns_spec (io : DecimalIO) (off nc row : Nat) (cs : List ℝ) (t : List Char) (ht : NumsText io cs t) (hlen : cs.length = nc)
    (hnc : off + nc ≤ 100) (hrow : row < 100) (coefs : List (Option ℝ)) (hc : coefs.length = 10000) (u : List Char) (hu : StartsBlank u) :
    ∃ coefs', forRange nc (coefs, t ++ u) (fun col (c : List (Option ℝ) × List Char) => readNum io c.1 (coefIdx (off + col) row) c.2) = .ok (coefs', u) ∧
      coefs'.length = 10000 ∧ (∀ k < nc, coefs'[(off + k) * 100 + row]? = some (some (cs.getD k 0))) ∧
      (∀ k i, i < 100 → i ≠ row → coefs'[k * 100 + i]? = coefs[k * 100 + i]?) ∧ ∀ k < off, coefs'[k * 100 + row]? = coefs[k * 100 + row]? := by
  have key := forRange_spec (n := nc) (s := (coefs, t ++ u))
    (body := fun col (c : List (Option ℝ) × List Char) => readNum io c.1 (coefIdx (off + col) row) c.2)
    (Q := fun s => s.2 = u ∧ s.1.length = 10000 ∧ (∀ k < nc, s.1[(off + k) * 100 + row]? = some (some (cs.getD k 0))) ∧
      (∀ k i, i < 100 → i ≠ row → s.1[k * 100 + i]? = coefs[k * 100 + i]?) ∧ ∀ k < off, s.1[k * 100 + row]? = coefs[k * 100 + row]?)
    (fun m s => (∃ t', NumsText io (cs.drop m) t' ∧ s.2 = t' ++ u) ∧ s.1.length = 10000 ∧
      (∀ k < m, s.1[(off + k) * 100 + row]? = some (some (cs.getD k 0))) ∧ (∀ k i, i < 100 → i ≠ row → s.1[k * 100 + i]? = coefs[k * 100 + i]?) ∧
      ∀ k < off, s.1[k * 100 + row]? = coefs[k * 100 + row]?)
    ⟨⟨t, ht, rfl⟩, hc, fun k hk => absurd hk (by omega), fun _ _ _ _ => rfl, fun _ _ => rfl⟩ ?_ ?_
  · obtain ⟨s, h1, h2, h3⟩ := key
    exact ⟨s.1, by rw [h1, ← h2], h3⟩
  · rintro m ⟨c, text⟩ hm ⟨⟨t', ht', rfl⟩, hl, hk, ho, ho'⟩
    rw [List.drop_eq_getElem_cons (by omega)] at ht'
    cases ht' with
    | @cons x xs ws tok t1 hws htok h =>
      have hidx : (off + m) * 100 + row < 10000 := by omega
      refine ⟨(c.set ((off + m) * 100 + row) (some (cs[m]'(by omega))), t1 ++ u), ?_, ⟨t1, h, rfl⟩, by simp [hl], ?_, ?_, ?_⟩
      · simp only
        rw [show (ws ++ (tok ++ t1)) ++ u = ws ++ (tok ++ (t1 ++ u)) by simp, coefIdx_eq (by omega) hrow]
        exact readNum_token io c _ ws tok _ _ (by simp only at hl; omega) hws.2 htok (h.startsBlank hu)
      · intro k hk'
        simp only at hl hk ⊢
        rcases Nat.lt_succ_iff_lt_or_eq.1 hk' with h' | rfl
        · rw [List.getElem?_set_ne (by omega)]; exact hk k h'
        · rw [List.getElem?_set_self (by omega), List.getD_eq_getElem?_getD, List.getElem?_eq_getElem (by omega)]; rfl
      · intro k i hi hir
        simp only at ho ⊢
        rw [List.getElem?_set_ne (by omega)]
        exact ho k i hi hir
      · intro k hk'
        simp only at ho' ⊢
        rw [List.getElem?_set_ne (by omega)]
        exact ho' k hk'
  · rintro s ⟨⟨t', ht', hs⟩, h2, h3, h4⟩
    rw [List.drop_eq_nil_of_le (by omega)] at ht'
    cases ht'
    exact ⟨by simpa using hs, h2, h3, h4⟩

/-- The rows of a block of outer-core functions. -/
theorem readCoreRows_spec (io : DecimalIO) (nc : Nat) (rows : List (ℝ × List ℝ)) (t : List Char) (ht : CoreRows io nc rows t) (hnc : nc ≤ 100)
    (hn : rows.length ≤ 100) (pows : List (Option Int)) (exps coefs : List (Option ℝ)) (he : exps.length = 100) (hc : coefs.length = 10000)
    (pre rest : List Char) (hpre : AllSpace pre) :
    ∃ exps' coefs' pre', forRange rows.length ⟨pows, exps, coefs, pre ++ (t ++ rest)⟩ (fun row s => readCoreRow io nc row s) =
        .ok ⟨pows, exps', coefs', pre' ++ rest⟩ ∧ AllSpace pre' ∧
      Filled rows.length nc (fun i => (rows.getD i (0, [])).1) (fun k i => (rows.getD i (0, [])).2.getD k 0) exps' coefs' := by
  have key := forRange_spec (n := rows.length) (s := (⟨pows, exps, coefs, pre ++ (t ++ rest)⟩ : GrppBuf)) (body := fun row s => readCoreRow io nc row s)
    (Q := fun s => (∃ pre', AllSpace pre' ∧ s.text = pre' ++ rest) ∧ s.pows = pows ∧
      Filled rows.length nc (fun i => (rows.getD i (0, [])).1) (fun k i => (rows.getD i (0, [])).2.getD k 0) s.exps s.coefs)
    (fun m s => (∃ pre' t', AllSpace pre' ∧ CoreRows io nc (rows.drop m) t' ∧ s.text = pre' ++ (t' ++ rest)) ∧ s.pows = pows ∧
      Filled m nc (fun i => (rows.getD i (0, [])).1) (fun k i => (rows.getD i (0, [])).2.getD k 0) s.exps s.coefs)
    ⟨⟨pre, t, hpre, ht, rfl⟩, rfl, he, hc, fun i hi => absurd hi (by omega), fun k _ i hi => absurd hi (by omega)⟩ ?_ ?_
  · obtain ⟨s, h1, ⟨pre', h2, h4⟩, h6, h5⟩ := key
    exact ⟨s.exps, s.coefs, pre', by rw [h1, ← h4, ← h6], h2, h5⟩
  · rintro m ⟨pw, e, c, text⟩ hm ⟨⟨pre', t', hp, hr, htext⟩, hpw, hF⟩
    simp only at htext hF hpw
    subst htext hpw
    rw [List.drop_eq_getElem_cons (by omega)] at hr
    generalize hrm : rows[m]'(by omega) = rm at hr
    cases hr with
    | @cons er cs rs ws tok t1 sep t2 hlen hws htok h1 hsep h2 =>
      have hget : rows.getD m (0, []) = (er, cs) := by
        rw [List.getD_eq_getElem?_getD, List.getElem?_eq_getElem (by omega), hrm]; rfl
      obtain ⟨c', g1, g2, g3, g4, -⟩ := readColumns_spec io 0 nc m cs t1 h1 hlen (by omega) (by omega) c hF.lc (sep ++ (t2 ++ rest)) (hsep.startsBlank _)
      simp only [Nat.zero_add] at g1 g3
      refine ⟨⟨pw, e.set m (some er), c', sep ++ (t2 ++ rest)⟩, ?_, ⟨sep, t2, hsep.2, h2, rfl⟩, rfl, by simp [hF.le], g2, ?_, ?_⟩
      · have et : pre' ++ ((ws ++ (tok ++ (t1 ++ (sep ++ t2)))) ++ rest) = (pre' ++ ws) ++ (tok ++ (t1 ++ (sep ++ (t2 ++ rest)))) := by simp
        unfold readCoreRow
        simp only
        rw [et, readNum_token io e m (pre' ++ ws) tok _ er (by rw [hF.le]; omega) (hp.append hws) htok (h1.startsBlank (hsep.startsBlank _))]
        simp only [Outcome.ok_bind, g1]
      · intro i hi
        rcases Nat.lt_succ_iff_lt_or_eq.1 hi with h | rfl
        · rw [List.getElem?_set_ne (by omega)]; exact hF.e i h
        · rw [List.getElem?_set_self (by rw [hF.le]; omega), hget]
      · intro k hk i hi
        rcases Nat.lt_succ_iff_lt_or_eq.1 hi with h | rfl
        · rw [g4 k i (by omega) (by omega)]; exact hF.c k hk i h
        · rw [g3 k hk, hget]
  · rintro s ⟨⟨pre', t', h1, h2, h3⟩, h4, h5⟩
    rw [List.drop_length] at h2
    cases h2
    exact ⟨⟨pre', h1, by simpa using h3⟩, h4, h5⟩

/-- A shell of a block of outer-core functions. -/
noncomputable def coreShell (gen : Nat → List Comp) (L : Nat) (b : BasisBlock) (k : Nat) : Shell :=
  { L := L, origin := ![0, 0, 0], cart_size := cartSize L, cartList := gen L, num := b.rows.length, coeffs := b.col k, alpha := b.exps }

theorem coreShells_append (gen : Nat → List Comp) (L : Nat) (bs : List BasisBlock) (b : BasisBlock) :
    coreShells gen L (bs ++ [b]) = coreShells gen L bs ++ (List.range b.nc).map (coreShell gen (L + bs.length) b) := by
  induction bs generalizing L with
  | nil => simp [coreShells, coreShell]
  | cons a bs ih => rw [List.cons_append, coreShells, ih, coreShells, List.length_cons, List.append_assoc, show L + 1 + bs.length = L + (bs.length + 1) by omega]

theorem coreShells_take_le (gen : Nat → List Comp) (L : Nat) (bs : List BasisBlock) (m : Nat) :
    (coreShells gen L (bs.take m)).length ≤ (coreShells gen L bs).length := by
  induction bs generalizing L m with
  | nil => simp
  | cons b bs ih =>
    cases m with
    | zero => simp [coreShells]
    | succ m =>
      rw [List.take_succ_cons, coreShells, coreShells, List.length_append, List.length_append]
      have := ih (L + 1) m
      omega

/-- Reading a block of outer-core functions. -/
theorem readCoreBlock_spec (gen : Nat → List Comp) (io : DecimalIO) (L : Nat) (b : BasisBlock) (hnp : b.rows.length ≤ 100) (t : List Char)
    (ht : CoreText io b t) (shells : List Shell) (hs : shells.length + b.nc ≤ 100) (pows : List (Option Int)) (exps coefs : List (Option ℝ))
    (he : exps.length = 100) (hc : coefs.length = 10000) (pre rest : List Char) (hpre : AllSpace pre) :
    ∃ exps' coefs' pre', readCoreBlock gen io L (⟨pows, exps, coefs, pre ++ (t ++ rest)⟩, shells) =
        .ok (⟨pows, exps', coefs', pre' ++ rest⟩, shells ++ (List.range b.nc).map (coreShell gen L b)) ∧ AllSpace pre' ∧ exps'.length = 100 ∧
      coefs'.length = 10000 := by
  obtain ⟨t1, t2, rfl, hh, hr⟩ := ht
  obtain ⟨u, hread, hskip⟩ := hh.read (by unfold intMax; omega) (by unfold intMax; omega) pre (t2 ++ rest) hpre
  obtain ⟨exps1, coefs1, pre1, g1, g2, g3⟩ := readCoreRows_spec io b.nc b.rows t2 hr (by omega) hnp pows exps coefs he hc [] rest
    (fun c hc => by simp at hc)
  rw [List.nil_append] at g1
  have hE : (List.range b.rows.length).map (fun i => (b.rows.getD i (0, [])).1) = b.exps := map_range_getD b.rows (0, []) Prod.fst
  have hC : ∀ k, (List.range b.rows.length).map (fun i => (b.rows.getD i (0, [])).2.getD k 0) = b.col k :=
    fun k => map_range_getD b.rows (0, []) fun r => r.2.getD k 0
  have hloop : forRange b.nc shells (fun ifun shells => do
      let c ← initPrefix b.rows.length coefs1 (coefIdx ifun)
      let a ← initPrefix b.rows.length exps1 id
      let sh ← newShell gen ![0, 0, 0] L b.rows.length c a
      Outcome.valid (shells.length < 100)
      .ok (shells ++ [sh])) = .ok (shells ++ (List.range b.nc).map (coreShell gen L b)) := by
    have key := forRange_spec (n := b.nc) (s := shells) (body := fun ifun shells => do
      let c ← initPrefix b.rows.length coefs1 (coefIdx ifun)
      let a ← initPrefix b.rows.length exps1 id
      let sh ← newShell gen ![0, 0, 0] L b.rows.length c a
      Outcome.valid (shells.length < 100)
      .ok (shells ++ [sh])) (Q := fun s => s = shells ++ (List.range b.nc).map (coreShell gen L b))
      (fun m s => s = shells ++ (List.range m).map (coreShell gen L b)) (by simp) ?_ (fun s hs => hs)
    · obtain ⟨s, h, rfl⟩ := key
      exact h
    · rintro m s hm rfl
      rw [initPrefix_spec _ coefs1 (coefIdx m) _ (fun i hi => by rw [coefIdx_eq (by omega) (by omega)]; exact g3.c m hm i hi), Outcome.ok_bind,
        initPrefix_spec _ exps1 id _ (fun i hi => g3.e i hi), Outcome.ok_bind, hE, hC m,
        new_shell_value gen _ _ _ _ _ (by simp [BasisBlock.col]) (by simp [BasisBlock.exps]), Outcome.ok_bind,
        List.take_of_length_le (by simp [BasisBlock.col]), List.take_of_length_le (by simp [BasisBlock.exps]),
        Outcome.valid_pos (by simp only [List.length_append, List.length_map, List.length_range]; omega), Outcome.ok_bind]
      refine ⟨_, rfl, ?_⟩
      rw [List.range_succ, List.map_append, ← List.append_assoc]
      rfl
  refine ⟨exps1, coefs1, pre1, ?_, g2, g3.le, g3.lc⟩
  unfold readCoreBlock
  simp only [show pre ++ ((t1 ++ t2) ++ rest) = pre ++ (t1 ++ (t2 ++ rest)) by simp, hread, Outcome.ok_bind, Int.toNat_natCast, hskip, g1, hloop]

/-- Reading all outer-core functions. -/
theorem readCores_spec (gen : Nat → List Comp) (io : DecimalIO) (bs : List BasisBlock) (hnp : ∀ b ∈ bs, b.rows.length ≤ 100)
    (hs : (coreShells gen 0 bs).length ≤ 100) (t : List Char) (ht : CoresText io bs t) (pows : List (Option Int)) (exps coefs : List (Option ℝ))
    (he : exps.length = 100) (hc : coefs.length = 10000) (pre rest : List Char) (hpre : AllSpace pre) :
    ∃ exps' coefs' pre', forRange bs.length (⟨pows, exps, coefs, pre ++ (t ++ rest)⟩, []) (fun iblock st => readCoreBlock gen io iblock st) =
        .ok (⟨pows, exps', coefs', pre' ++ rest⟩, coreShells gen 0 bs) ∧ AllSpace pre' ∧ exps'.length = 100 ∧ coefs'.length = 10000 := by
  have key := forRange_spec (n := bs.length) (s := ((⟨pows, exps, coefs, pre ++ (t ++ rest)⟩ : GrppBuf), ([] : List Shell)))
    (body := fun iblock st => readCoreBlock gen io iblock st)
    (Q := fun s => (∃ pre', AllSpace pre' ∧ s.1.text = pre' ++ rest) ∧ s.1.pows = pows ∧ s.1.exps.length = 100 ∧ s.1.coefs.length = 10000 ∧
      s.2 = coreShells gen 0 bs)
    (fun m s => (∃ pre' t', AllSpace pre' ∧ CoresText io (bs.drop m) t' ∧ s.1.text = pre' ++ (t' ++ rest)) ∧ s.1.pows = pows ∧ s.1.exps.length = 100 ∧
      s.1.coefs.length = 10000 ∧ s.2 = coreShells gen 0 (bs.take m))
    ⟨⟨pre, t, hpre, ht, rfl⟩, rfl, he, hc, rfl⟩ ?_ ?_
  · obtain ⟨s, h1, ⟨pre', h2, h3⟩, h4, h5, h6, h7⟩ := key
    exact ⟨s.1.exps, s.1.coefs, pre', by rw [h1, ← h3, ← h4, ← h7], h2, h5, h6⟩
  · rintro m ⟨⟨pw, e, c, text⟩, shells⟩ hm ⟨⟨pre', t', hp, hr, htext⟩, hpw, he', hc', hsh⟩
    simp only at htext hpw he' hc' hsh
    subst htext hpw hsh
    rw [List.drop_eq_getElem_cons hm] at hr
    have htake : bs.take (m + 1) = bs.take m ++ [bs[m]] := (List.take_concat_get' bs m hm).symm
    have hle := coreShells_take_le gen 0 bs (m + 1)
    have hlen : (bs.take m).length = m := by rw [List.length_take]; omega
    rw [htake, coreShells_append, List.length_append, List.length_map, List.length_range] at hle
    cases hr with
    | @cons b bs' t1 t2 h1 h2 =>
      obtain ⟨e2, c2, pre2, g1, g2, g3, g4⟩ := readCoreBlock_spec gen io m bs[m] (hnp _ (List.getElem_mem hm)) t1 h1 (coreShells gen 0 (bs.take m)) (by omega)
        pw e c he' hc' pre' (t2 ++ rest) hp
      refine ⟨(⟨pw, e2, c2, pre2 ++ (t2 ++ rest)⟩, _), ?_, ⟨pre2, t2, g2, h2, rfl⟩, rfl, g3, g4, rfl⟩
      rw [show (t1 ++ t2) ++ rest = t1 ++ (t2 ++ rest) by simp, g1, htake, coreShells_append, hlen, Nat.zero_add]
  · rintro s ⟨⟨pre', t', h1, h2, h3⟩, h4, h5, h6, h7⟩
    rw [List.drop_length] at h2
    cases h2
    rw [List.take_length] at h7
    exact ⟨⟨pre', h1, by simpa using h3⟩, h4, h5, h6, h7⟩

/-! ## Potentials -/

/-- Row `i` of a block, or a row of zeros. -/
def PotBlock.row (b : PotBlock) (i : Nat) : PotRow := b.rows.getD i ⟨0, 0, 0, 0, []⟩

/-- The coefficient in column `col` of a row. -/
noncomputable def PotRow.coef (r : PotRow) (col : Nat) : ℝ := if col = 0 then r.arep else if col = 1 then r.esop else r.oc.getD (col - 2) 0

/-- The arrays hold the first `m` rows of a block of potentials. -/
structure PotFilled (m nc : Nat) (rows : List PotRow) (pows : List (Option Int)) (exps coefs : List (Option ℝ)) : Prop where
  lp : pows.length = 100
  p : ∀ i < m, pows[i]? = some (some ((rows.getD i ⟨0, 0, 0, 0, []⟩).power : Int))
  f : Filled m nc (fun i => (rows.getD i ⟨0, 0, 0, 0, []⟩).exp) (fun k i => (rows.getD i ⟨0, 0, 0, 0, []⟩).coef k) exps coefs

theorem readPotRow_spec (io : DecimalIO) (noc : Nat) (rows : List PotRow) (row : Nat) (r : PotRow) (hget : rows.getD row ⟨0, 0, 0, 0, []⟩ = r)
    (hlen : r.oc.length = noc) (hpow : r.power ≤ intMax) (pows : List (Option Int)) (exps coefs : List (Option ℝ))
    (hF : PotFilled row (noc + 2) rows pows exps coefs) (hnc : noc + 2 ≤ 100) (hrow : row < 100) (t : List Char) (ht : PotRowText io r t)
    (pre rest : List Char) (hpre : AllSpace pre) :
    ∃ pows' exps' coefs', readPotRow io noc row ⟨pows, exps, coefs, pre ++ (t ++ rest)⟩ = .ok ⟨pows', exps', coefs', rest⟩ ∧
      PotFilled (row + 1) (noc + 2) rows pows' exps' coefs' := by
  obtain ⟨ws, t1, t2, rfl, hws, hnums, hend⟩ := ht
  obtain ⟨hskip, hblank⟩ := hend.skip rest
  cases hnums with
  | @cons _ _ ws1 tok1 u1 hws1 htok1 hn1 =>
    cases hn1 with
    | @cons _ _ ws2 tok2 u2 hws2 htok2 hn2 =>
      cases hn2 with
      | @cons _ _ ws3 tok3 u3 hws3 htok3 hn3 =>
        have b3 : StartsBlank (u3 ++ (t2 ++ rest)) := hn3.startsBlank hblank
        have hc0 : (coefs.set row (some r.arep)).length = 10000 := by simp [hF.f.lc]
        obtain ⟨c', g1, g2, g3, g4, g5⟩ := readColumns_spec io 2 noc row r.oc u3 hn3 hlen (by omega) hrow
          ((coefs.set (0 * 100 + row) (some r.arep)).set (1 * 100 + row) (some r.esop)) (by simp [hF.f.lc]) (t2 ++ rest) hblank
        have hl := hF.f.lc
        refine ⟨pows.set row (some (r.power : Int)), exps.set row (some r.exp), c', ?_, by simp [hF.lp], ?_, by simp [hF.f.le], g2, ?_, ?_⟩
        · have e : pre ++ ((ws ++ (Nat.toDigits 10 r.power ++ ((ws1 ++ (tok1 ++ (ws2 ++ (tok2 ++ (ws3 ++ (tok3 ++ u3)))))) ++ t2))) ++ rest) =
              (pre ++ ws) ++ (Nat.toDigits 10 r.power ++ (ws1 ++ (tok1 ++ (ws2 ++ (tok2 ++ (ws3 ++ (tok3 ++ (u3 ++ (t2 ++ rest))))))))) := by simp
          have hp : readPower io row ⟨pows, exps, coefs, pre ++ ((ws ++ (Nat.toDigits 10 r.power ++ ((ws1 ++ (tok1 ++ (ws2 ++ (tok2 ++ (ws3 ++ (tok3 ++ u3)))))) ++ t2))) ++ rest)⟩ =
              .ok ⟨pows.set row (some (r.power : Int)), exps.set row (some r.exp), coefs, ws2 ++ (tok2 ++ (ws3 ++ (tok3 ++ (u3 ++ (t2 ++ rest)))))⟩ := by
            unfold readPower
            simp only
            rw [e, scanInt_token r.power _ _ hpow (hpre.append hws) (hws1.startsBlank _)]
            simp only [Outcome.ok_bind, wr, if_pos (show row < pows.length by rw [hF.lp]; exact hrow)]
            rw [readNum_token io exps row ws1 tok1 _ _ (by rw [hF.f.le]; exact hrow) hws1.2 htok1 (hws2.startsBlank _)]
            simp only [Outcome.ok_bind]
          have hae : readArepEsop io row ⟨pows.set row (some (r.power : Int)), exps.set row (some r.exp), coefs, ws2 ++ (tok2 ++ (ws3 ++ (tok3 ++ (u3 ++ (t2 ++ rest)))))⟩ =
              .ok ⟨pows.set row (some (r.power : Int)), exps.set row (some r.exp),
                (coefs.set (0 * 100 + row) (some r.arep)).set (1 * 100 + row) (some r.esop), u3 ++ (t2 ++ rest)⟩ := by
            unfold readArepEsop
            simp only
            rw [coefIdx_eq (by omega) hrow, coefIdx_eq (by omega) hrow, readNum_token io coefs _ ws2 tok2 _ _ (by omega) hws2.2 htok2 (hws3.startsBlank _),
              Outcome.ok_bind, scanDbl_token io ws2 tok2 _ _ hws2.2 htok2 (hws3.startsBlank _), if_neg (by simp)]
            simp only
            rw [readNum_token io _ _ ws3 tok3 _ _ (by simp only [List.length_set]; omega) hws3.2 htok3 b3, Outcome.ok_bind]
          unfold readPotRow
          rw [hp, Outcome.ok_bind, hae, Outcome.ok_bind]
          simp only [g1, Outcome.ok_bind, hskip]
        · intro i hi
          rcases Nat.lt_succ_iff_lt_or_eq.1 hi with h | rfl
          · rw [List.getElem?_set_ne (by omega)]; exact hF.p i h
          · rw [List.getElem?_set_self (by rw [hF.lp]; omega), hget]
        · intro i hi
          rcases Nat.lt_succ_iff_lt_or_eq.1 hi with h | rfl
          · rw [List.getElem?_set_ne (by omega)]; exact hF.f.e i h
          · rw [List.getElem?_set_self (by rw [hF.f.le]; omega), hget]
        · intro k hk i hi
          rcases Nat.lt_succ_iff_lt_or_eq.1 hi with h | rfl
          · rw [g4 k i (by omega) (by omega), List.getElem?_set_ne (by omega), List.getElem?_set_ne (by omega)]
            exact hF.f.c k hk i h
          · rw [hget]
            match k, hk with
            | 0, _ => rw [g5 0 (by omega), List.getElem?_set_ne (by omega), List.getElem?_set_self (by omega)]; rfl
            | 1, _ => rw [g5 1 (by omega), List.getElem?_set_self (by simp only [List.length_set]; omega)]; rfl
            | k + 2, hk =>
              rw [show k + 2 = 2 + k by omega, g3 k (by omega), PotRow.coef, if_neg (by omega), if_neg (by omega), show 2 + k - 2 = k by omega]

/-- The rows of a block of potentials. -/
theorem readPotRows_spec (io : DecimalIO) (noc : Nat) (rows : List PotRow) (t : List Char) (ht : PotRows io noc rows t) (hnc : noc + 2 ≤ 100)
    (hn : rows.length ≤ 100) (pows : List (Option Int)) (exps coefs : List (Option ℝ)) (hp : pows.length = 100) (he : exps.length = 100)
    (hc : coefs.length = 10000) (rest : List Char) :
    ∃ pows' exps' coefs', forRange rows.length ⟨pows, exps, coefs, t ++ rest⟩ (fun row s => readPotRow io noc row s) =
        .ok ⟨pows', exps', coefs', rest⟩ ∧ PotFilled rows.length (noc + 2) rows pows' exps' coefs' := by
  have key := forRange_spec (n := rows.length) (s := (⟨pows, exps, coefs, t ++ rest⟩ : GrppBuf)) (body := fun row s => readPotRow io noc row s)
    (Q := fun s => s.text = rest ∧ PotFilled rows.length (noc + 2) rows s.pows s.exps s.coefs)
    (fun m s => (∃ t', PotRows io noc (rows.drop m) t' ∧ s.text = t' ++ rest) ∧ PotFilled m (noc + 2) rows s.pows s.exps s.coefs)
    ⟨⟨t, ht, rfl⟩, hp, fun i hi => absurd hi (by omega), he, hc, fun i hi => absurd hi (by omega), fun k _ i hi => absurd hi (by omega)⟩ ?_ ?_
  · obtain ⟨s, h1, h2, h3⟩ := key
    exact ⟨s.pows, s.exps, s.coefs, by rw [h1, ← h2], h3⟩
  · rintro m ⟨pw, e, c, text⟩ hm ⟨⟨t', hr, htext⟩, hF⟩
    simp only at htext hF
    subst htext
    rw [List.drop_eq_getElem_cons (by omega)] at hr
    cases hr with
    | @cons r rs t1 t2 hlen hpow h1 h2 =>
      have hget : rows.getD m ⟨0, 0, 0, 0, []⟩ = rows[m] := by
        rw [List.getD_eq_getElem?_getD, List.getElem?_eq_getElem (by omega)]; rfl
      obtain ⟨p', e', c', g1, g2⟩ := readPotRow_spec io noc rows m rows[m] hget hlen hpow pw e c hF hnc (by omega) t1 h1 [] (t2 ++ rest)
        (fun c hc => by simp at hc)
      refine ⟨⟨p', e', c', t2 ++ rest⟩, ?_, ⟨t2, h2, rfl⟩, g2⟩
      rw [show (t1 ++ t2) ++ rest = [] ++ (t1 ++ (t2 ++ rest)) by simp]
      exact g1
  · rintro s ⟨⟨t', h2, h3⟩, h4⟩
    rw [List.drop_length] at h2
    cases h2
    exact ⟨by simpa using h3, h4⟩

theorem zip_map_range {α β γ : Type} (n : Nat) (f : Nat → α) (g : Nat → β) (h : Nat → γ) :
    ((List.range n).map f).zip (((List.range n).map g).zip ((List.range n).map h)) = (List.range n).map fun i => (f i, g i, h i) := by
  induction n with
  | zero => rfl
  | succ n ih =>
    simp only [List.range_succ, List.map_append, List.map_cons, List.map_nil]
    rw [List.zip_append (by simp), List.zip_append (by simp), ih]
    rfl

theorem set_replicate_drop {α : Type} [Inhabited α] {l : List α} {n k : Nat} {z x : α} (h : l.drop k = List.replicate (n - k) z) (hl : l.length = n) (hk : k < n) :
    (l.set k x).drop (k + 1) = List.replicate (n - (k + 1)) z := by
  rw [List.drop_set_of_lt (by omega), ← List.drop_drop, h, List.drop_replicate]
  congr 1

/-- What is not used of the arrays of a new potential is zero. -/
theorem newPotential_rest {L J : Int} {num : Nat} {powers : List Int} {coeffs alpha : List ℝ} (h1 : num ≤ powers.length) (h2 : num ≤ coeffs.length)
    (h3 : num ≤ alpha.length) {p : Potential} (h : newPotential L J num powers coeffs alpha = .ok p) :
    p.powers.drop p.num = List.replicate (num - p.num) 0 ∧ p.coeffs.drop p.num = List.replicate (num - p.num) 0 ∧
      p.alpha.drop p.num = List.replicate (num - p.num) 0 := by
  have key : ∃ r, copyTerms (fun c => ¬|c| < zeroThresh) num powers coeffs alpha = .ok r ∧ (r.2.1.drop r.1 = List.replicate (num - r.1) 0 ∧
      r.2.2.1.drop r.1 = List.replicate (num - r.1) 0 ∧ r.2.2.2.drop r.1 = List.replicate (num - r.1) 0) := by
    unfold copyTerms
    refine forRange_spec (fun i (r : Nat × List Int × List ℝ × List ℝ) => r.1 ≤ i ∧ (r.2.1.length = num ∧ r.2.2.1.length = num ∧ r.2.2.2.length = num) ∧
      r.2.1.drop r.1 = List.replicate (num - r.1) 0 ∧ r.2.2.1.drop r.1 = List.replicate (num - r.1) 0 ∧ r.2.2.2.drop r.1 = List.replicate (num - r.1) 0)
      ⟨le_rfl, by simp, by simp, by simp, by simp⟩ ?_ fun r h => h.2.2
    rintro i ⟨k, ps, cs, as⟩ hi ⟨g1, ⟨g2, g3, g4⟩, g5, g6, g7⟩
    simp only at g1 g2 g3 g4 g5 g6 g7 ⊢
    rw [rd_ok (show i < coeffs.length by omega)]
    simp only [Outcome.ok_bind]
    by_cases hk : |coeffs[i]| < zeroThresh
    · rw [if_neg (by simpa using hk)]
      exact ⟨_, rfl, by omega, ⟨g2, g3, g4⟩, g5, g6, g7⟩
    · rw [if_pos hk, rd_ok (show i < powers.length by omega), rd_ok (show i < alpha.length by omega)]
      simp only [Outcome.ok_bind]
      rw [wr_ok _ (show k < ps.length by omega), wr_ok _ (show k < cs.length by omega), wr_ok _ (show k < as.length by omega)]
      exact ⟨_, rfl, by simp only; omega, ⟨by simpa using g2, by simpa using g3, by simpa using g4⟩, set_replicate_drop g5 g2 (by omega),
        set_replicate_drop g6 g3 (by omega), set_replicate_drop g7 g4 (by omega)⟩
  obtain ⟨r, hr, h'⟩ := key
  unfold newPotential at h
  rw [hr, Outcome.ok_bind] at h
  cases h
  exact h'

open Classical in
/-- The library makes the potential with the terms of the arrays. -/
theorem newPotential_is (L J : Int) (num : Nat) (powers : List Int) (coeffs alpha : List ℝ) (h1 : num ≤ powers.length) (h2 : num ≤ coeffs.length)
    (h3 : num ≤ alpha.length) : ∃ p, newPotential L J num powers coeffs alpha = .ok p ∧ IsPotential L J (termsOf num powers coeffs alpha) p := by
  obtain ⟨p, e1, e2, e3, e4, e5⟩ := newPotential_ok L J num powers coeffs alpha h1 h2 h3
  refine ⟨p, e1, e2, e3, e4.1, e4.2.1, e4.2.2, ?_, ?_⟩
  · have e6 : p.terms = (p.powers.take p.num).zip ((p.coeffs.take p.num).zip (p.alpha.take p.num)) := rfl
    rw [← e6, e5]
    congr 1
    funext t
    simp only [zeroThresh, not_lt]
  · rw [termsOf_length _ _ _ _ h1 h2 h3]
    exact newPotential_rest h1 h2 h3 e1

open Classical in
/-- Making a potential from the arrays. -/
theorem potFromBuf_spec (s : GrppBuf) (L J : Int) (nc col : Nat) (rows : List PotRow) (hn : rows.length ≤ 100) (hnc : nc ≤ 100)
    (hF : PotFilled rows.length nc rows s.pows s.exps s.coefs) (hcol : col < nc) :
    ∃ p, potFromBuf s L J rows.length col = .ok p ∧ IsPotential L J (rows.map fun r => ((r.power : Int), r.coef col, r.exp)) p := by
  unfold potFromBuf
  rw [initPrefix_spec rows.length s.pows id _ (fun i hi => hF.p i hi), Outcome.ok_bind,
    initPrefix_spec rows.length s.coefs (coefIdx col) _ (fun i hi => by rw [coefIdx_eq (by omega) (by omega)]; exact hF.f.c col hcol i hi), Outcome.ok_bind,
    initPrefix_spec rows.length s.exps id _ (fun i hi => hF.f.e i hi), Outcome.ok_bind]
  obtain ⟨p, e1, e2⟩ := newPotential_is L J rows.length
    ((List.range rows.length).map fun i => ((rows.getD i ⟨0, 0, 0, 0, []⟩).power : Int))
    ((List.range rows.length).map fun i => (rows.getD i ⟨0, 0, 0, 0, []⟩).coef col)
    ((List.range rows.length).map fun i => (rows.getD i ⟨0, 0, 0, 0, []⟩).exp) (by rw [List.length_map, List.length_range])
    (by rw [List.length_map, List.length_range]) (by rw [List.length_map, List.length_range])
  refine ⟨p, e1, ?_⟩
  unfold termsOf at e2
  rw [List.take_of_length_le (by simp), List.take_of_length_le (by simp), List.take_of_length_le (by simp), zip_map_range] at e2
  have hrows : (List.range rows.length).map (fun i => (((rows.getD i ⟨0, 0, 0, 0, []⟩).power : Int), (rows.getD i ⟨0, 0, 0, 0, []⟩).coef col,
      (rows.getD i ⟨0, 0, 0, 0, []⟩).exp)) = rows.map fun r => ((r.power : Int), r.coef col, r.exp) := by
    apply List.ext_getElem
    · simp
    · intro i h1 h2
      simp only [List.length_map, List.length_range] at h1
      simp [List.getD_eq_getElem?_getD, List.getElem?_eq_getElem h1]
  rw [hrows] at e2
  exact e2

/-- There is only one such potential. -/
theorem IsPotential.unique {L J : Int} {ts : List (Int × ℝ × ℝ)} {p q : Potential} (hp : IsPotential L J ts p) (hq : IsPotential L J ts q) : p = q := by
  obtain ⟨a1, a2, a3, a4, a5, a6, a7, a8, a9⟩ := hp
  obtain ⟨b1, b2, b3, b4, b5, b6, b7, b8, b9⟩ := hq
  have hn : p.num = q.num := by
    have h1 := congrArg List.length a6
    have h2 := congrArg List.length b6
    simp only [List.length_zip, List.length_take] at h1 h2
    omega
  have e := a6.trans b6.symm
  rw [hn] at a3 a4 a5 a7 a8 a9 e
  have l1 : (p.powers.take q.num).length = q.num := by rw [List.length_take]; omega
  have l2 : (p.coeffs.take q.num).length = q.num := by rw [List.length_take]; omega
  have l3 : (p.alpha.take q.num).length = q.num := by rw [List.length_take]; omega
  have m1 : (q.powers.take q.num).length = q.num := by rw [List.length_take]; omega
  have m2 : (q.coeffs.take q.num).length = q.num := by rw [List.length_take]; omega
  have m3 : (q.alpha.take q.num).length = q.num := by rw [List.length_take]; omega
  have f1 : p.powers.take q.num = q.powers.take q.num := by
    have := congrArg (List.map Prod.fst) e
    rwa [List.map_fst_zip (by rw [List.length_zip]; omega), List.map_fst_zip (by rw [List.length_zip]; omega)] at this
  have e2 := congrArg (List.map Prod.snd) e
  rw [List.map_snd_zip (by rw [List.length_zip]; omega), List.map_snd_zip (by rw [List.length_zip]; omega)] at e2
  have f2 : p.coeffs.take q.num = q.coeffs.take q.num := by
    have := congrArg (List.map Prod.fst) e2
    rwa [List.map_fst_zip (by omega), List.map_fst_zip (by omega)] at this
  have f3 : p.alpha.take q.num = q.alpha.take q.num := by
    have := congrArg (List.map Prod.snd) e2
    rwa [List.map_snd_zip (by omega), List.map_snd_zip (by omega)] at this
  have g1 : p.powers = q.powers := by rw [← List.take_append_drop q.num p.powers, f1, a7, ← b7, List.take_append_drop]
  have g2 : p.coeffs = q.coeffs := by rw [← List.take_append_drop q.num p.coeffs, f2, a8, ← b8, List.take_append_drop]
  have g3 : p.alpha = q.alpha := by rw [← List.take_append_drop q.num p.alpha, f3, a9, ← b9, List.take_append_drop]
  cases p; cases q
  simp only at a1 a2 b1 b2 hn g1 g2 g3
  subst a1 a2 hn g1 g2 g3 b1 b2
  rfl

/-! ## Blocks of potentials -/

/-- The outer-core potentials of one block. -/
noncomputable def blockPots (L : Nat) (b : PotBlock) : List (Nat × Nat × List (Int × ℝ × ℝ)) :=
  (List.range b.noc).map fun i => (L, (if L = 0 then 1 else if i % 2 = 0 then 2 * L - 1 else 2 * L + 1), b.core i)

theorem corePots_append (L : Nat) (bs : List PotBlock) (b : PotBlock) : corePots L (bs ++ [b]) = corePots L bs ++ blockPots (L + bs.length) b := by
  induction bs generalizing L with
  | nil => simp [corePots, blockPots]
  | cons a bs ih => rw [List.cons_append, corePots, ih, corePots, List.length_cons, List.append_assoc, show L + 1 + bs.length = L + (bs.length + 1) by omega]

theorem corePots_take_le (L : Nat) (bs : List PotBlock) (m : Nat) : (corePots L (bs.take m)).length ≤ (corePots L bs).length := by
  induction bs generalizing L m with
  | nil => simp
  | cons b bs ih =>
    cases m with
    | zero => simp [corePots]
    | succ m =>
      rw [List.take_succ_cons, corePots, corePots, List.length_append, List.length_append]
      have := ih (L + 1) m
      omega

theorem core_j (L i : Nat) : |2 * (L : Int) + (if i % 2 = 0 then -1 else 1)| = ((if L = 0 then 1 else if i % 2 = 0 then 2 * L - 1 else 2 * L + 1 : Nat) : Int) := by
  by_cases h0 : L = 0
  · subst h0
    rw [if_pos rfl]
    split_ifs <;> simp
  · rw [if_neg h0]
    split_ifs
    · rw [abs_of_nonneg (by omega)]; omega
    · rw [abs_of_nonneg (by omega)]; omega

/-- The potentials made from a number of blocks, of which there are `n` altogether. -/
structure PartsOf (n : Nat) (ps : List PotBlock) (g : GrppParts) : Prop where
  local_ : if ps.length = n ∧ 0 < n then ∃ b p, ps[n - 1]? = some b ∧ g.local_ = some p ∧ IsPotential ((n - 1 : Nat) : Int) 0 b.arep p else g.local_ = none
  arep_len : g.arep.length = min ps.length (n - 1)
  arep : ∀ (i : Nat) (p : Potential), g.arep[i]? = some p → ∃ b, ps[i]? = some b ∧ IsPotential i 0 b.arep p
  esop_len : g.esop.length = ps.length - 1
  esop : ∀ (i : Nat) (p : Potential), g.esop[i]? = some p → ∃ b, ps[i + 1]? = some b ∧ IsPotential ((i + 1 : Nat) : Int) 0 b.esop p
  oc : List.Forall₂ (fun q p => IsPotential (q.1 : Int) (q.2.1 : Int) q.2.2 p) (corePots 0 ps) g.ocpots

theorem getElem?_concat {α : Type} (l : List α) (a : α) (i : Nat) (x : α) (h : (l ++ [a])[i]? = some x) : l[i]? = some x ∨ i = l.length ∧ x = a := by
  rcases Nat.lt_trichotomy i l.length with hi | hi | hi
  · rw [List.getElem?_append_left hi] at h
    exact .inl h
  · subst hi
    rw [List.getElem?_append_right (le_refl _)] at h
    simp at h
    exact .inr ⟨rfl, h.symm⟩
  · rw [List.getElem?_eq_none (by simp; omega)] at h
    cases h

/-- Reading a block of potentials. -/
theorem readPotBlock_spec (io : DecimalIO) (n : Nat) (ps : List PotBlock) (b : PotBlock) (hlt : ps.length < n) (hn : n ≤ 100) (hnp : b.rows.length ≤ 100)
    (hnoc : b.noc ≤ 98) (htot : (corePots 0 ps).length + b.noc ≤ 100) (t : List Char) (ht : PotText io b t) (g : GrppParts) (hg : PartsOf n ps g)
    (pows : List (Option Int)) (exps coefs : List (Option ℝ)) (hp : pows.length = 100) (he : exps.length = 100) (hc : coefs.length = 10000)
    (pre rest : List Char) (hpre : AllSpace pre) :
    ∃ pows' exps' coefs' g', readPotBlock io n ps.length (⟨pows, exps, coefs, pre ++ (t ++ rest)⟩, g) = .ok (⟨pows', exps', coefs', rest⟩, g') ∧
      PartsOf n (ps ++ [b]) g' ∧ pows'.length = 100 ∧ exps'.length = 100 ∧ coefs'.length = 10000 := by
  obtain ⟨t1, t2, rfl, hh, hr⟩ := ht
  obtain ⟨u, hread, hskip⟩ := hh.read (by unfold intMax; omega) (by unfold intMax; omega) pre (t2 ++ rest) hpre
  obtain ⟨pows1, exps1, coefs1, g1, g2⟩ := readPotRows_spec io b.noc b.rows t2 hr (by omega) hnp pows exps coefs hp he hc rest
  have hpot : ∀ (L J : Int) (col : Nat), col < b.noc + 2 → ∃ p, potFromBuf ⟨pows1, exps1, coefs1, rest⟩ L J b.rows.length col = .ok p ∧
      IsPotential L J (b.rows.map fun r => ((r.power : Int), r.coef col, r.exp)) p := fun L J col hcol =>
    potFromBuf_spec ⟨pows1, exps1, coefs1, rest⟩ L J (b.noc + 2) col b.rows hnp (by omega) g2 hcol
  obtain ⟨pa, ha1, ha2⟩ := hpot (ps.length : Int) 0 0 (by omega)
  obtain ⟨pe, hb1, hb2⟩ := hpot (ps.length : Int) 0 1 (by omega)
  have hcol2 : ∀ i, (b.rows.map fun r => ((r.power : Int), r.coef (2 + i), r.exp)) = b.core i := by
    intro i
    unfold PotBlock.core
    congr 1
    funext r
    rw [PotRow.coef, if_neg (by omega), if_neg (by omega), show 2 + i - 2 = i by omega]
  have hoclen : g.ocpots.length = (corePots 0 ps).length := hg.oc.length_eq.symm
  have hloop : ∃ oc', forRange b.noc g.ocpots (fun ioc oc => do
      let J : Int := |2 * (ps.length : Int) + (if ioc % 2 = 0 then -1 else 1)|
      let p ← potFromBuf ⟨pows1, exps1, coefs1, rest⟩ ps.length J b.rows.length (2 + ioc)
      Outcome.valid (oc.length < 100)
      .ok (oc ++ [p])) = .ok oc' ∧ List.Forall₂ (fun q p => IsPotential (q.1 : Int) (q.2.1 : Int) q.2.2 p) (corePots 0 (ps ++ [b])) oc' := by
    have key := forRange_spec (n := b.noc) (s := g.ocpots) (body := fun ioc oc => do
      let J : Int := |2 * (ps.length : Int) + (if ioc % 2 = 0 then -1 else 1)|
      let p ← potFromBuf ⟨pows1, exps1, coefs1, rest⟩ ps.length J b.rows.length (2 + ioc)
      Outcome.valid (oc.length < 100)
      .ok (oc ++ [p])) (Q := fun oc' => List.Forall₂ (fun q p => IsPotential (q.1 : Int) (q.2.1 : Int) q.2.2 p) (corePots 0 (ps ++ [b])) oc')
      (fun m oc' => List.Forall₂ (fun q p => IsPotential (q.1 : Int) (q.2.1 : Int) q.2.2 p) (corePots 0 ps ++ blockPots ps.length ⟨m, b.rows⟩) oc') ?_ ?_ ?_
    · exact key
    · simpa [blockPots] using hg.oc
    · intro m oc hm hoc
      obtain ⟨p, e1, e2⟩ := hpot (ps.length : Int) (|2 * (ps.length : Int) + (if m % 2 = 0 then -1 else 1)|) (2 + m) (by omega)
      have hl : oc.length < 100 := by
        rw [← hoc.length_eq, List.length_append, blockPots, List.length_map, List.length_range]
        simp only
        omega
      refine ⟨oc ++ [p], ?_, ?_⟩
      · simp only [e1, Outcome.ok_bind]
        rw [Outcome.valid_pos hl, Outcome.ok_bind]
      · have ebp : blockPots ps.length ⟨m + 1, b.rows⟩ = blockPots ps.length ⟨m, b.rows⟩ ++
            [(ps.length, (if ps.length = 0 then 1 else if m % 2 = 0 then 2 * ps.length - 1 else 2 * ps.length + 1), b.core m)] := by
          unfold blockPots
          rw [List.range_succ, List.map_append]
          rfl
        rw [ebp, ← List.append_assoc]
        refine List.rel_append hoc (List.Forall₂.cons ?_ .nil)
        rw [core_j, hcol2] at e2
        exact e2
    · intro oc' h
      rw [corePots_append, Nat.zero_add]
      exact h
  obtain ⟨oc', hl1, hl2⟩ := hloop
  have hesop_lt : g.esop.length < 100 := by rw [hg.esop_len]; omega
  have harep_lt : ps.length + 1 ≠ n → g.arep.length < 100 := fun h => by rw [hg.arep_len]; omega
  -- the local or averaged potential
  have hfirst : ∃ ga : GrppParts, placeArep n ps.length pa g = .ok ga ∧ ga.esop = g.esop ∧ ga.ocpots = g.ocpots ∧
        (if (ps ++ [b]).length = n ∧ 0 < n then ∃ b' p, (ps ++ [b])[n - 1]? = some b' ∧ ga.local_ = some p ∧ IsPotential ((n - 1 : Nat) : Int) 0 b'.arep p
          else ga.local_ = none) ∧ ga.arep.length = min (ps ++ [b]).length (n - 1) ∧
        ∀ (i : Nat) (p : Potential), ga.arep[i]? = some p → ∃ b', (ps ++ [b])[i]? = some b' ∧ IsPotential i 0 b'.arep p := by
    have hlp : (ps ++ [b]).length = ps.length + 1 := by simp
    have hold : ∀ (i : Nat) (p : Potential), g.arep[i]? = some p → ∃ b', (ps ++ [b])[i]? = some b' ∧ IsPotential i 0 b'.arep p := by
      intro i p h
      obtain ⟨b', h1, h2⟩ := hg.arep i p h
      exact ⟨b', by rw [List.getElem?_append_left (List.getElem?_eq_some_iff.1 h1).1, h1], h2⟩
    by_cases h : ps.length + 1 = n
    · refine ⟨{ g with local_ := some pa }, by rw [placeArep, if_pos h], rfl, rfl, ?_, ?_, hold⟩
      · rw [if_pos ⟨by omega, by omega⟩]
        refine ⟨b, pa, ?_, rfl, ?_⟩
        · rw [show n - 1 = ps.length by omega, List.getElem?_append_right (le_refl _)]
          simp
        · rw [show n - 1 = ps.length by omega]
          exact ha2
      · rw [hlp]
        have := hg.arep_len
        simp only
        omega
    · refine ⟨{ g with arep := g.arep ++ [pa] }, by rw [placeArep, if_neg h, Outcome.valid_pos (harep_lt h), Outcome.ok_bind], rfl, rfl, ?_, ?_, ?_⟩
      · rw [if_neg (by omega)]
        have := hg.local_
        rwa [if_neg (by omega)] at this
      · rw [List.length_append, hg.arep_len, hlp]
        simp only [List.length_cons, List.length_nil]
        omega
      · intro i p hi
        rcases getElem?_concat _ _ _ _ hi with h' | ⟨rfl, rfl⟩
        · exact hold i p h'
        · have hal : g.arep.length = ps.length := by rw [hg.arep_len]; omega
          rw [hal]
          exact ⟨b, by rw [List.getElem?_append_right (le_refl _)]; simp, ha2⟩
  obtain ⟨ga, hf1, hf2, hf3, hf4, hf5, hf6⟩ := hfirst
  have hsecond : ∃ gb : GrppParts, placeEsop ⟨pows1, exps1, coefs1, rest⟩ b.rows.length ps.length ga = .ok gb ∧ gb.ocpots = g.ocpots ∧ gb.local_ = ga.local_ ∧ gb.arep = ga.arep ∧
        gb.esop.length = (ps ++ [b]).length - 1 ∧
        ∀ (i : Nat) (p : Potential), gb.esop[i]? = some p → ∃ b', (ps ++ [b])[i + 1]? = some b' ∧ IsPotential ((i + 1 : Nat) : Int) 0 b'.esop p := by
    have hlp : (ps ++ [b]).length = ps.length + 1 := by simp
    have hold : ∀ (i : Nat) (p : Potential), g.esop[i]? = some p → ∃ b', (ps ++ [b])[i + 1]? = some b' ∧ IsPotential ((i + 1 : Nat) : Int) 0 b'.esop p := by
      intro i p h
      obtain ⟨b', h1, h2⟩ := hg.esop i p h
      exact ⟨b', by rw [List.getElem?_append_left (List.getElem?_eq_some_iff.1 h1).1, h1], h2⟩
    by_cases h : ps.length = 0
    · refine ⟨ga, by rw [placeEsop, if_pos h], hf3, rfl, rfl, ?_, ?_⟩
      · rw [hf2, hg.esop_len, hlp]
        omega
      · rw [hf2]; exact hold
    · refine ⟨{ ga with esop := ga.esop ++ [pe] }, ?_, hf3, rfl, rfl, ?_, ?_⟩
      · rw [placeEsop, if_neg h, hb1, Outcome.ok_bind, Outcome.valid_pos (by rw [hf2]; exact hesop_lt), Outcome.ok_bind]
      · simp only [List.length_append, List.length_cons, List.length_nil]
        rw [hf2, hg.esop_len]
        omega
      · intro i p hi
        simp only at hi
        rw [hf2] at hi
        rcases getElem?_concat _ _ _ _ hi with h' | ⟨rfl, rfl⟩
        · exact hold i p h'
        · have hal : g.esop.length + 1 = ps.length := by rw [hg.esop_len]; omega
          rw [hal]
          exact ⟨b, by rw [List.getElem?_append_right (le_refl _)]; simp, hb2⟩
  obtain ⟨gb, hs1, hs2, hs3, hs4, hs5, hs6⟩ := hsecond
  refine ⟨pows1, exps1, coefs1, { gb with ocpots := oc' }, ?_, ⟨?_, ?_, ?_, hs5, hs6, hl2⟩, g2.lp, g2.f.le, g2.f.lc⟩
  · unfold readPotBlock
    simp only [show pre ++ ((t1 ++ t2) ++ rest) = pre ++ (t1 ++ (t2 ++ rest)) by simp, hread, Outcome.ok_bind, Int.toNat_natCast, hskip, g1, ha1]
    simp only [hf1, hs1, Outcome.ok_bind, hs2]
    simp only at hl1
    rw [hl1]
    simp only [Outcome.ok_bind]
  · rw [hs3]; exact hf4
  · simp only [hs4]; exact hf5
  · simp only [hs4]; exact hf6

/-- Reading all potentials. -/
theorem readPots_spec (io : DecimalIO) (ps : List PotBlock) (hn : ps.length ≤ 100) (hnp : ∀ b ∈ ps, b.rows.length ≤ 100 ∧ b.noc ≤ 98)
    (hs : (corePots 0 ps).length ≤ 100) (t : List Char) (ht : PotsText io ps t) (pows : List (Option Int)) (exps coefs : List (Option ℝ))
    (hp : pows.length = 100) (he : exps.length = 100) (hc : coefs.length = 10000) (pre rest : List Char) (hpre : AllSpace pre) :
    ∃ s g, forRange ps.length (⟨pows, exps, coefs, pre ++ (t ++ rest)⟩, ⟨none, [], [], []⟩) (fun iblock st => readPotBlock io ps.length iblock st) =
        .ok (s, g) ∧ PartsOf ps.length ps g := by
  have key := forRange_spec (n := ps.length) (s := ((⟨pows, exps, coefs, pre ++ (t ++ rest)⟩ : GrppBuf), (⟨none, [], [], []⟩ : GrppParts)))
    (body := fun iblock st => readPotBlock io ps.length iblock st) (Q := fun s => PartsOf ps.length ps s.2)
    (fun m s => (∃ pre' t', AllSpace pre' ∧ PotsText io (ps.drop m) t' ∧ s.1.text = pre' ++ (t' ++ rest)) ∧ s.1.pows.length = 100 ∧ s.1.exps.length = 100 ∧
      s.1.coefs.length = 10000 ∧ PartsOf ps.length (ps.take m) s.2)
    ⟨⟨pre, t, hpre, ht, rfl⟩, hp, he, hc, ?_⟩ ?_ ?_
  · obtain ⟨s, h1, h2⟩ := key
    exact ⟨s.1, s.2, h1, h2⟩
  · refine ⟨?_, by simp, ?_, by simp, ?_, .nil⟩
    · rw [if_neg (by simp only [List.take_zero, List.length_nil]; omega)]
    · intro i p h; simp at h
    · intro i p h; simp at h
  · rintro m ⟨⟨pw, e, c, text⟩, g⟩ hm ⟨⟨pre', t', hp', hr, htext⟩, hpw, he', hc', hg⟩
    simp only at htext hpw he' hc' hg
    subst htext
    rw [List.drop_eq_getElem_cons hm] at hr
    have htake : ps.take (m + 1) = ps.take m ++ [ps[m]] := (List.take_concat_get' ps m hm).symm
    have hle := corePots_take_le 0 ps (m + 1)
    have hlen : (ps.take m).length = m := by rw [List.length_take]; omega
    rw [htake, corePots_append, List.length_append, blockPots, List.length_map, List.length_range] at hle
    obtain ⟨hr1, hr2⟩ := hnp _ (List.getElem_mem hm)
    cases hr with
    | @cons b bs' t1 t2 h1 h2 =>
      obtain ⟨p2, e2, c2, g2, k1, k2, k3, k4, k5⟩ := readPotBlock_spec io ps.length (ps.take m) ps[m] (by omega) hn hr1 hr2 (by omega) t1 h1 g hg
        pw e c hpw he' hc' pre' (t2 ++ rest) hp'
      rw [hlen] at k1
      refine ⟨(⟨p2, e2, c2, t2 ++ rest⟩, g2), ?_, ⟨[], t2, fun c hc => by simp at hc, h2, rfl⟩, k3, k4, k5, ?_⟩
      · rw [show (t1 ++ t2) ++ rest = t1 ++ (t2 ++ rest) by simp, k1]
      · rw [htake]; exact k2
  · rintro s ⟨-, -, -, -, h⟩
    rwa [List.take_length] at h

/-- The pairing of potentials and functions by their position. -/
theorem pairing_spec (ps : List Potential) (ss : List Shell) (h : ps.length ≤ ss.length) :
    forRange ps.length [] (fun ioc oc => do
      let p ← rd ps ioc
      let s ← rd ss ioc
      .ok (oc ++ [(p, s)])) = .ok (ps.zip ss) := by
  have key := forRange_spec (n := ps.length) (s := ([] : List (Potential × Shell))) (body := fun ioc oc => do
      let p ← rd ps ioc
      let s ← rd ss ioc
      .ok (oc ++ [(p, s)])) (Q := fun o => o = ps.zip ss) (fun m o => o = (ps.zip ss).take m) (by simp) ?_ ?_
  · obtain ⟨s, h1, rfl⟩ := key
    exact h1
  · rintro m s hm rfl
    have hz : m < (ps.zip ss).length := by rw [List.length_zip]; omega
    rw [rd_ok hm, Outcome.ok_bind, rd_ok (by omega), Outcome.ok_bind]
    refine ⟨_, rfl, ?_⟩
    rw [← List.take_concat_get' _ _ hz, List.getElem_zip]
  · rintro s rfl
    exact List.take_of_length_le (by rw [List.length_zip]; omega)

theorem pairing_ub (ps : List Potential) (ss : List Shell) (h : ss.length < ps.length) :
    forRange ps.length [] (fun ioc oc => do
      let p ← rd ps ioc
      let s ← rd ss ioc
      .ok (oc ++ [(p, s)])) = (Outcome.ub : Outcome (List (Potential × Shell))) := by
  have key := forRange_spec (n := ss.length) (s := ([] : List (Potential × Shell))) (body := fun ioc oc => do
      let p ← rd ps ioc
      let s ← rd ss ioc
      .ok (oc ++ [(p, s)])) (Q := fun _ => True) (fun _ _ => True) trivial ?_ (fun _ _ => trivial)
  · obtain ⟨s, h1, -⟩ := key
    refine forRange_ub_at h1 ?_ h
    rw [rd_ok h, Outcome.ok_bind, rd_ub (le_refl _)]
    rfl
  · intro m s hm _
    rw [rd_ok (by omega), Outcome.ok_bind, rd_ok hm, Outcome.ok_bind]
    exact ⟨_, rfl, trivial⟩

/-! ## The elements of a molecule -/

theorem mainReadGrpps_spec (gen : Nat → List Comp) (io : DecimalIO) (text : List Char) (atoms : List (Nat × Point)) (R : Nat → Option GrppData)
    (h : ∀ a ∈ atoms, a.1 < 131 ∧ readGrppFile gen io text a.1 = .ok (R a.1)) :
    ∃ sets, mainReadGrpps gen io text atoms = .ok sets ∧ sets.length = 131 ∧ (∀ a ∈ atoms, sets[a.1]? = some (R a.1)) ∧
      ∀ z g, sets[z]? = some (some g) → ∃ a ∈ atoms, a.1 = z ∧ R z = some g := by
  have key := forRange_inv (n := atoms.length) (s := List.replicate 131 (none : Option GrppData)) (body := fun ia grpps => do
    let a ← rd atoms ia
    match ← rd grpps a.1 with
    | some _ => .ok grpps
    | none =>
      let g ← readGrppFile gen io text a.1
      wr grpps a.1 g)
    (fun m sets => sets.length = 131 ∧ (∀ z < 131, sets[z]? = some none ∨ sets[z]? = some (R z) ∧ ∃ a ∈ atoms, a.1 = z) ∧
      ∀ a ∈ atoms.take m, sets[a.1]? = some (R a.1))
    ⟨by simp, fun z hz => Or.inl (by rw [List.getElem?_replicate, if_pos hz]), fun a ha => by simp at ha⟩ ?_
  · obtain ⟨sets, h1, h2, h4, h3⟩ := key
    rw [List.take_length] at h3
    refine ⟨sets, h1, h2, h3, fun z g hzg => ?_⟩
    have hz : z < 131 := by rw [← h2]; exact (List.getElem?_eq_some_iff.1 hzg).1
    rcases h4 z hz with h0 | ⟨h0, a, ha, e⟩
    · rw [h0] at hzg; cases hzg
    · rw [h0] at hzg
      exact ⟨a, ha, e, by simpa using hzg⟩
  · rintro m sets hm ⟨h1, h2, h3⟩
    obtain ⟨hz, hr⟩ := h _ (List.getElem_mem hm)
    have htake : atoms.take (m + 1) = atoms.take m ++ [atoms[m]] := (List.take_concat_get' atoms m hm).symm
    rw [rd_ok hm, Outcome.ok_bind]
    have hnone : sets[atoms[m].1]? = some none → ∃ s', (do
        match ← rd sets atoms[m].1 with
        | some _ => .ok sets
        | none =>
          let g ← readGrppFile gen io text atoms[m].1
          wr sets atoms[m].1 g) = Outcome.ok s' ∧ s' = sets.set atoms[m].1 (R atoms[m].1) := fun h0 => by
      refine ⟨_, ?_, rfl⟩
      simp only [rd, h0, Outcome.ok_bind, hr, wr, if_pos (show atoms[m].1 < sets.length by omega)]
    have hset : sets[atoms[m].1]? = some none → ∃ s', (do
        match ← rd sets atoms[m].1 with
        | some _ => .ok sets
        | none =>
          let g ← readGrppFile gen io text atoms[m].1
          wr sets atoms[m].1 g) = Outcome.ok s' ∧ s'.length = 131 ∧
        (∀ z < 131, s'[z]? = some none ∨ s'[z]? = some (R z) ∧ ∃ a ∈ atoms, a.1 = z) ∧ ∀ a ∈ atoms.take (m + 1), s'[a.1]? = some (R a.1) := fun h0 => by
      obtain ⟨s', e1, rfl⟩ := hnone h0
      refine ⟨_, e1, by simp [h1], ?_, ?_⟩
      · intro z hz'
        by_cases e : atoms[m].1 = z
        · subst e; right; exact ⟨by rw [List.getElem?_set_self (by omega)], atoms[m], List.getElem_mem hm, rfl⟩
        · rw [List.getElem?_set_ne e]; exact h2 z hz'
      · intro a ha
        by_cases e : atoms[m].1 = a.1
        · rw [← e, List.getElem?_set_self (by omega)]
        · rw [List.getElem?_set_ne e]
          rw [htake] at ha
          rcases List.mem_append.1 ha with h' | h'
          · exact h3 a h'
          · rw [List.mem_singleton] at h'; exact absurd (by rw [h']) e
    rcases h2 _ hz with h0 | ⟨h0, -⟩
    · exact hset h0
    · cases hR : R atoms[m].1 with
      | none => rw [hR] at h0; exact hset h0
      | some g =>
        refine ⟨sets, ?_, h1, h2, ?_⟩
        · rw [hR] at h0
          simp only [rd, h0, Outcome.ok_bind]
        · intro a ha
          rw [htake] at ha
          rcases List.mem_append.1 ha with h' | h'
          · exact h3 a h'
          · rw [List.mem_singleton] at h'; rw [h']; exact h0

theorem mainPrintGrpps_spec (grpps : List (Option GrppData)) (hl : grpps.length = 131) (h : ∀ (z : Nat) (g : GrppData), grpps[z]? = some (some g) → printGrpp g = .ok ()) :
    mainPrintGrpps grpps = .ok () := by
  have key := forRange_inv (n := 131) (s := ()) (body := fun i (_ : Unit) => do
    match ← rd grpps i with
    | none => .ok ()
    | some g => printGrpp g) (fun _ _ => True) trivial ?_
  · obtain ⟨s, h1, -⟩ := key
    exact h1
  · rintro m ⟨⟩ hm -
    refine ⟨(), ?_, trivial⟩
    rw [rd_ok (by omega), Outcome.ok_bind]
    cases hg : grpps[m]'(by omega) with
    | none => rfl
    | some g => exact h m g (by rw [List.getElem?_eq_getElem (by omega), hg])

theorem printGrpp_cases (g : GrppData) : printGrpp g = .ok () ∨ printGrpp g = .ub := by
  have hv : ∀ (p : Prop) [Decidable p], Outcome.valid p = .ok () ∨ Outcome.valid p = .ub := fun p _ => by
    by_cases h : p
    · exact .inl (Outcome.valid_pos h)
    · exact .inr (Outcome.valid_neg h)
  unfold printGrpp
  rcases hv (∀ e ∈ g.oc, e.2.L < 15) with h | h
  · rw [h, Outcome.ok_bind]
    cases g.local_ with
    | none => exact .inr rfl
    | some p =>
      simp only
      rcases hv (0 ≤ p.L ∧ p.L < 15) with h' | h'
      · rw [h', Outcome.ok_bind]; exact hv _
      · rw [h']; exact .inr rfl
  · rw [h]; exact .inr rfl

theorem mainPrintGrpps_ub (grpps : List (Option GrppData)) (hl : grpps.length = 131) (z : Nat) (g : GrppData) (hz : grpps[z]? = some (some g))
    (hub : printGrpp g = .ub) : mainPrintGrpps grpps = .ub := by
  classical
  have hex : ∃ z g, grpps[z]? = some (some g) ∧ printGrpp g = .ub := ⟨z, g, hz, hub⟩
  obtain ⟨g0, hz0, hub0⟩ := Nat.find_spec hex
  have hmin := fun m hm => Nat.find_min hex (m := m) hm
  generalize Nat.find hex = z0 at hz0 hmin
  have hlt : z0 < 131 := by rw [← hl]; exact (List.getElem?_eq_some_iff.1 hz0).1
  have key := forRange_inv (n := z0) (s := ()) (body := fun i (_ : Unit) => do
    match ← rd grpps i with
    | none => .ok ()
    | some g => printGrpp g) (fun _ _ => True) trivial ?_
  · obtain ⟨s, h1, -⟩ := key
    refine forRange_ub_at h1 ?_ hlt
    simp only [rd, hz0, Outcome.ok_bind]
    exact hub0
  · rintro m ⟨⟩ hm -
    refine ⟨(), ?_, trivial⟩
    rw [rd_ok (by omega), Outcome.ok_bind]
    cases hg : grpps[m]'(by omega) with
    | none => rfl
    | some g =>
      rcases printGrpp_cases g with h | h
      · exact h
      · exact absurd ⟨g, by rw [List.getElem?_eq_getElem (by omega), hg], h⟩ (hmin m hm)

end Libgrpp
