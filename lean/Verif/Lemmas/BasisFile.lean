import Verif.Model.BasisFile
import Verif.Lemmas.MatrixFile
import Verif.Props.Fortran
import Verif.Props.Shell

/-! # Lemmas about the input of basis sets -/

namespace Libgrpp

open Nat

/-- The text is empty or begins with white space. -/
def StartsBlank (t : List Char) : Prop := ∀ c, t.head? = some c → isSpaceC c = true

theorem startsBlank_nil : StartsBlank [] := fun c hc => by simp at hc

theorem Spaces.startsBlank {ws : List Char} (h : Spaces ws) (t : List Char) : StartsBlank (ws ++ t) := by
  obtain ⟨c, r, rfl⟩ := List.exists_cons_of_ne_nil h.1
  intro d hd
  simp only [List.cons_append, List.head?_cons, Option.some.injEq] at hd
  exact hd ▸ h.2 c (by simp)

theorem AllSpace.append {a b : List Char} (ha : AllSpace a) (hb : AllSpace b) : AllSpace (a ++ b) := fun c hc =>
  (List.mem_append.1 hc).elim (ha c) (hb c)

theorem isDigit_of_isSpaceC {c : Char} (h : isSpaceC c = true) : c.isDigit = false := by
  by_contra hc
  rw [Bool.not_eq_false] at hc
  rw [isSpaceC_of_isDigit hc] at h
  exact absurd h (by simp)

theorem scanInt_token (n : Nat) (ws t : List Char) (hn : n ≤ intMax) (hws : AllSpace ws) (ht : StartsBlank t) :
    scanInt (ws ++ (Nat.toDigits 10 n ++ t)) = .ok (some ((n : Int), t)) :=
  scanInt_digits n ws t hn hws fun c hc => isDigit_of_isSpaceC (ht c hc)

theorem word_split (ws w t : List Char) (hws : AllSpace ws) (hne : w ≠ []) (hw : ∀ c ∈ w, isSpaceC c = false) (ht : StartsBlank t) :
    (ws ++ (w ++ t)).dropWhile isSpaceC = w ++ t ∧ (w ++ t).takeWhile (fun c => !isSpaceC c) = w ∧
      (w ++ t).dropWhile (fun c => !isSpaceC c) = t := by
  obtain ⟨c, r, hcr⟩ := List.exists_cons_of_ne_nil hne
  refine ⟨dropWhile_stop _ _ _ hws fun d hd => ?_, takeWhile_append_stop _ w t (fun c hc => by simp [hw c hc]) fun c hc => by simp [ht c hc]⟩
  rw [hcr] at hd
  simp only [List.cons_append, List.head?_cons, Option.some.injEq] at hd
  exact hd ▸ hw c (by rw [hcr]; simp)

theorem scanWord_word (ws w t : List Char) (hws : AllSpace ws) (hne : w ≠ []) (hw : ∀ c ∈ w, isSpaceC c = false) (ht : StartsBlank t) :
    scanWord (ws ++ (w ++ t)) = some (w, t) := by
  obtain ⟨h1, h2, h3⟩ := word_split ws w t hws hne hw ht
  unfold scanWord
  simp only [h1, h2, h3]
  rw [if_neg (by simp [hne])]

theorem scanWord_blank (ws : List Char) (hws : AllSpace ws) : scanWord ws = none := by
  have : ws.dropWhile isSpaceC = [] := by
    have := dropWhile_append_all isSpaceC ws [] hws
    simpa using this
  unfold scanWord
  simp [this]

theorem scanDbl_token (io : DecimalIO) (ws tok t : List Char) (x : ℝ) (hws : AllSpace ws) (htok : NumToken io tok x) (ht : StartsBlank t) :
    scanDbl io (ws ++ (tok ++ t)) = some (.fin x, t) := by
  obtain ⟨h1, h2, h3⟩ := word_split ws tok t hws htok.1 htok.2.1 ht
  unfold scanDbl
  simp only [h1, h2, h3, htok.2.2]
  rw [if_neg (by simp [htok.1])]

theorem readNum_token (io : DecimalIO) (buf : List (Option ℝ)) (i : Nat) (ws tok t : List Char) (x : ℝ) (hi : i < buf.length) (hws : AllSpace ws)
    (htok : NumToken io tok x) (ht : StartsBlank t) : readNum io buf i (ws ++ (tok ++ t)) = .ok (buf.set i (some x), t) := by
  unfold readNum
  rw [scanDbl_token io ws tok t x hws htok ht]
  simp only [wr, if_pos hi, Outcome.ok_bind]

theorem readNum_outside (io : DecimalIO) (buf : List (Option ℝ)) (i : Nat) (ws tok t : List Char) (x : ℝ) (hi : buf.length ≤ i) (hws : AllSpace ws)
    (htok : NumToken io tok x) (ht : StartsBlank t) : readNum io buf i (ws ++ (tok ++ t)) = .ub := by
  unfold readNum
  rw [scanDbl_token io ws tok t x hws htok ht]
  simp only [wr, if_neg (not_lt.2 hi)]
  rfl

/-! ## Finding the entry -/

theorem findBasisEntry_skip (z : Nat) (pre : List Char) (hpre : NoEntry z pre) (tail : List Char) (ws : List Char) (hws : AllSpace ws) :
    ∃ ws', AllSpace ws' ∧ findBasisEntry z (ws ++ (pre ++ tail)) = findBasisEntry z (ws' ++ tail) := by
  induction hpre generalizing ws with
  | nil => exact ⟨ws, hws, rfl⟩
  | @word w ws1 t hne hstar hlen hw hws1 _ ih =>
    obtain ⟨ws', h1, h2⟩ := ih ws1 hws1.2
    refine ⟨ws', h1, ?_⟩
    rw [← h2]
    have e : ws ++ ((w ++ (ws1 ++ t)) ++ tail) = ws ++ (w ++ (ws1 ++ (t ++ tail))) := by simp
    rw [e]
    have hs := scanWord_word ws w (ws1 ++ (t ++ tail)) hws hne hw (hws1.startsBlank _)
    have hl : (ws1 ++ (t ++ tail)).length < (ws ++ (w ++ (ws1 ++ (t ++ tail)))).length := by
      have := List.length_pos_of_ne_nil hne
      simp only [List.length_append]
      omega
    rw [findBasisEntry, hs]
    simp only
    rw [Outcome.valid_pos hlen, Outcome.ok_bind, if_neg hstar, dif_pos hl]
  | @star z' n ws1 ws2 ws3 t hz hz' hn h1 h2 h3 _ ih =>
    obtain ⟨ws', g1, g2⟩ := ih ws3 h3.2
    refine ⟨ws', g1, ?_⟩
    rw [← g2]
    have e : ws ++ (('*' :: (ws1 ++ (Nat.toDigits 10 z' ++ (ws2 ++ (Nat.toDigits 10 n ++ (ws3 ++ t)))))) ++ tail) =
        ws ++ (['*'] ++ (ws1 ++ (Nat.toDigits 10 z' ++ (ws2 ++ (Nat.toDigits 10 n ++ (ws3 ++ (t ++ tail))))))) := by simp
    rw [e]
    have hs := scanWord_word ws ['*'] (ws1 ++ (Nat.toDigits 10 z' ++ (ws2 ++ (Nat.toDigits 10 n ++ (ws3 ++ (t ++ tail)))))) hws (by simp)
      (by simp; decide) (h1.startsBlank _)
    have hl : (ws3 ++ (t ++ tail)).length < (ws ++ (['*'] ++ (ws1 ++ (Nat.toDigits 10 z' ++ (ws2 ++ (Nat.toDigits 10 n ++ (ws3 ++ (t ++ tail)))))))).length := by
      simp only [List.length_append, List.length_cons, List.length_nil]
      omega
    rw [findBasisEntry, hs]
    simp only
    rw [Outcome.valid_pos (by simp), Outcome.ok_bind, if_pos trivial, scanInt_token z' ws1 _ hz' h1.2 (h2.startsBlank _)]
    simp only [Outcome.ok_bind]
    rw [scanInt_token n ws2 _ hn h2.2 (h3.startsBlank _)]
    simp only [Outcome.ok_bind]
    rw [if_neg (by exact_mod_cast hz), dif_pos hl]

/-- Without an entry the search fails. -/
theorem findBasisEntry_missing (z : Nat) (ws pre : List Char) (hws : AllSpace ws) (hpre : NoEntry z pre) :
    findBasisEntry z (ws ++ pre) = .ok none := by
  obtain ⟨ws', h1, h2⟩ := findBasisEntry_skip z pre hpre [] ws hws
  rw [List.append_nil, List.append_nil] at h2
  rw [h2, findBasisEntry, scanWord_blank ws' h1]

theorem findBasisEntry_found (z n : Nat) (t rest : List Char) (hz : z ≤ intMax) (hn : n ≤ intMax) (h : EntryStart z n t) :
    ∃ ws, AllSpace ws ∧ findBasisEntry z (t ++ rest) = .ok (some ((n : Int), ws ++ rest)) := by
  obtain ⟨ws0, pre, ws1, ws2, ws3, rfl, hws0, hpre, h1, h2, h3⟩ := h
  obtain ⟨ws', g1, g2⟩ := findBasisEntry_skip z pre hpre
    (['*'] ++ (ws1 ++ (Nat.toDigits 10 z ++ (ws2 ++ (Nat.toDigits 10 n ++ (ws3 ++ rest)))))) ws0 hws0
  refine ⟨ws3, h3.2, ?_⟩
  have e : (ws0 ++ (pre ++ ('*' :: (ws1 ++ (Nat.toDigits 10 z ++ (ws2 ++ (Nat.toDigits 10 n ++ ws3))))))) ++ rest =
      ws0 ++ (pre ++ (['*'] ++ (ws1 ++ (Nat.toDigits 10 z ++ (ws2 ++ (Nat.toDigits 10 n ++ (ws3 ++ rest))))))) := by simp
  rw [e, g2]
  have hs := scanWord_word ws' ['*'] (ws1 ++ (Nat.toDigits 10 z ++ (ws2 ++ (Nat.toDigits 10 n ++ (ws3 ++ rest))))) g1 (by simp)
    (by simp; decide) (h1.startsBlank _)
  rw [findBasisEntry, hs]
  simp only
  rw [Outcome.valid_pos (by simp), Outcome.ok_bind, if_pos trivial, scanInt_token z ws1 _ hz h1.2 (h2.startsBlank _)]
  simp only [Outcome.ok_bind]
  rw [scanInt_token n ws2 _ hn h2.2 (h3.startsBlank _)]
  simp only [Outcome.ok_bind]
  rw [if_pos trivial]

/-! ## Buffers -/

/-- The arrays hold the exponents `E i` and the coefficients `C k i`. -/
structure Filled (np nc : Nat) (E : Nat → ℝ) (C : Nat → Nat → ℝ) (exps coefs : List (Option ℝ)) : Prop where
  le : exps.length = 100
  lc : coefs.length = 10000
  e : ∀ i < np, exps[i]? = some (some (E i))
  c : ∀ k < nc, ∀ i < np, coefs[k * 100 + i]? = some (some (C k i))

theorem Filled.mono {np nc np' nc' : Nat} {E : Nat → ℝ} {C : Nat → Nat → ℝ} {exps coefs : List (Option ℝ)} (h : Filled np nc E C exps coefs)
    (h1 : np' ≤ np) (h2 : nc' ≤ nc) : Filled np' nc' E C exps coefs :=
  ⟨h.le, h.lc, fun i hi => h.e i (by omega), fun k hk i hi => h.c k (by omega) i (by omega)⟩

theorem coefIdx_eq {col row : Nat} (h1 : col < 100) (h2 : row < 100) : coefIdx col row = col * 100 + row := by
  unfold coefIdx maxExponents; rw [if_pos ⟨h1, h2⟩]

theorem LineEnd.skip {t : List Char} (h : LineEnd t) (rest : List Char) : skipLine (t ++ rest) = rest ∧ StartsBlank (t ++ rest) := by
  obtain ⟨junk, rfl, hj, hb⟩ := h
  constructor
  · unfold skipLine
    rw [List.append_assoc, (takeWhile_append_stop (fun c => c != '\n') junk (['\n'] ++ rest) (fun c hc => by
      simp only [bne_iff_ne, ne_eq]; rintro rfl; exact hj hc) (fun c hc => by
      simp only [List.cons_append, List.head?_cons, Option.some.injEq] at hc; rw [← hc]; simp)).2]
    rfl
  · intro c hc
    cases junk with
    | nil =>
      simp only [List.nil_append, List.cons_append, List.head?_cons, Option.some.injEq] at hc
      rw [← hc]; decide
    | cons d r =>
      simp only [List.cons_append, List.head?_cons, Option.some.injEq] at hc
      exact hc ▸ hb d rfl

theorem NumsText.startsBlank {io : DecimalIO} {xs : List ℝ} {t : List Char} (h : NumsText io xs t) {u : List Char} (hu : StartsBlank u) :
    StartsBlank (t ++ u) := by
  cases h with
  | nil => exact hu
  | @cons x xs ws tok t hws htok h =>
    rw [show (ws ++ (tok ++ t)) ++ u = ws ++ ((tok ++ t) ++ u) by simp]
    exact hws.startsBlank _

/-- Reading the coefficients of a row. -/
theorem readCoefs_spec (io : DecimalIO) (nc row : Nat) (cs : List ℝ) (t : List Char) (ht : NumsText io cs t) (hlen : cs.length = nc) (hnc : nc ≤ 100)
    (hrow : row < 100) (coefs : List (Option ℝ)) (hc : coefs.length = 10000) (u : List Char) (hu : StartsBlank u) :
    ∃ coefs', forRange nc (coefs, t ++ u) (fun col (c : List (Option ℝ) × List Char) => readNum io c.1 (coefIdx col row) c.2) = .ok (coefs', u) ∧
      coefs'.length = 10000 ∧ (∀ k < nc, coefs'[k * 100 + row]? = some (some (cs.getD k 0))) ∧
      ∀ k i, i < 100 → i ≠ row → coefs'[k * 100 + i]? = coefs[k * 100 + i]? := by
  have key := forRange_spec (n := nc) (s := (coefs, t ++ u))
    (body := fun col (c : List (Option ℝ) × List Char) => readNum io c.1 (coefIdx col row) c.2)
    (Q := fun s => s.2 = u ∧ s.1.length = 10000 ∧ (∀ k < nc, s.1[k * 100 + row]? = some (some (cs.getD k 0))) ∧
      ∀ k i, i < 100 → i ≠ row → s.1[k * 100 + i]? = coefs[k * 100 + i]?)
    (fun m s => (∃ t', NumsText io (cs.drop m) t' ∧ s.2 = t' ++ u) ∧ s.1.length = 10000 ∧
      (∀ k < m, s.1[k * 100 + row]? = some (some (cs.getD k 0))) ∧ ∀ k i, i < 100 → i ≠ row → s.1[k * 100 + i]? = coefs[k * 100 + i]?)
    ⟨⟨t, ht, rfl⟩, hc, fun k hk => absurd hk (by omega), fun _ _ _ _ => rfl⟩ ?_ ?_
  · obtain ⟨s, h1, h2, h3⟩ := key
    exact ⟨s.1, by rw [h1, ← h2], h3⟩
  · rintro m ⟨c, text⟩ hm ⟨⟨t', ht', rfl⟩, hl, hk, ho⟩
    rw [List.drop_eq_getElem_cons (by omega)] at ht'
    cases ht' with
    | @cons x xs ws tok t1 hws htok h =>
      have hidx : m * 100 + row < 10000 := by omega
      refine ⟨(c.set (m * 100 + row) (some (cs[m]'(by omega))), t1 ++ u), ?_, ⟨t1, h, rfl⟩, by simp [hl], ?_, ?_⟩
      · simp only
        rw [show (ws ++ (tok ++ t1)) ++ u = ws ++ (tok ++ (t1 ++ u)) by simp, coefIdx_eq (by omega) hrow]
        exact readNum_token io c _ ws tok _ _ (by simp only at hl; omega) hws.2 htok (h.startsBlank hu)
      · intro k hk'
        simp only at hl hk ⊢
        rcases Nat.lt_succ_iff_lt_or_eq.1 hk' with h' | rfl
        · rw [List.getElem?_set_ne (by omega)]; exact hk k h'
        · rw [List.getElem?_set_self (by omega), List.getD_eq_getElem?_getD, List.getElem?_eq_getElem (by omega)]; rfl
      · intro k i hi hir
        simp only at ho ⊢
        rw [List.getElem?_set_ne (by omega)]
        exact ho k i hi hir
  · rintro s ⟨⟨t', ht', hs⟩, h2, h3, h4⟩
    rw [List.drop_eq_nil_of_le (by omega)] at ht'
    cases ht'
    exact ⟨by simpa using hs, h2, h3, h4⟩

/-- Reading a row. -/
theorem readBasisRow_spec (io : DecimalIO) (nc row : Nat) (E : Nat → ℝ) (C : Nat → Nat → ℝ) (exps coefs : List (Option ℝ))
    (hF : Filled row nc E C exps coefs) (hnc : nc ≤ 100) (hrow : row < 100) (cs : List ℝ) (hlen : cs.length = nc) (hcs : ∀ k < nc, cs.getD k 0 = C k row)
    (t : List Char) (ht : RowText io (E row) cs t) (pre rest : List Char) (hpre : AllSpace pre) :
    ∃ exps' coefs', readBasisRow io nc row ⟨exps, coefs, pre ++ (t ++ rest)⟩ = .ok ⟨exps', coefs', rest⟩ ∧ Filled (row + 1) nc E C exps' coefs' := by
  obtain ⟨ws, tok, t1, t2, rfl, hws, htok, hnums, hend⟩ := ht
  obtain ⟨hskip, hblank⟩ := hend.skip rest
  have e : pre ++ ((ws ++ (tok ++ (t1 ++ t2))) ++ rest) = (pre ++ ws) ++ (tok ++ (t1 ++ (t2 ++ rest))) := by simp
  obtain ⟨coefs', g1, g2, g3, g4⟩ := readCoefs_spec io nc row cs t1 hnums hlen hnc hrow coefs hF.lc (t2 ++ rest) hblank
  refine ⟨exps.set row (some (E row)), coefs', ?_, by simp [hF.le], g2, ?_, ?_⟩
  · unfold readBasisRow
    simp only
    rw [e, readNum_token io exps row (pre ++ ws) tok _ (E row) (by rw [hF.le]; omega) (hpre.append hws) htok (hnums.startsBlank hblank)]
    simp only [Outcome.ok_bind, g1, hskip]
  · intro i hi
    rcases Nat.lt_succ_iff_lt_or_eq.1 hi with h | rfl
    · rw [List.getElem?_set_ne (by omega)]; exact hF.e i h
    · rw [List.getElem?_set_self (by rw [hF.le]; omega)]
  · intro k hk i hi
    rcases Nat.lt_succ_iff_lt_or_eq.1 hi with h | rfl
    · rw [g4 k i (by omega) (by omega)]; exact hF.c k hk i h
    · rw [g3 k hk, hcs k hk]

/-- Reading the first `n` rows. -/
theorem readRows_spec (io : DecimalIO) (nc : Nat) (rows : List (ℝ × List ℝ)) (t : List Char) (ht : RowsText io nc rows t) (hnc : nc ≤ 100)
    (n : Nat) (hn : n ≤ rows.length) (hn100 : n ≤ 100) (exps coefs : List (Option ℝ)) (he : exps.length = 100) (hc : coefs.length = 10000)
    (pre rest : List Char) (hpre : AllSpace pre) :
    ∃ exps' coefs' pre' t', forRange n ⟨exps, coefs, pre ++ (t ++ rest)⟩ (fun row s => readBasisRow io nc row s) =
        .ok ⟨exps', coefs', pre' ++ (t' ++ rest)⟩ ∧ AllSpace pre' ∧ RowsText io nc (rows.drop n) t' ∧
      Filled n nc (fun i => (rows.getD i (0, [])).1) (fun k i => (rows.getD i (0, [])).2.getD k 0) exps' coefs' := by
  have key := forRange_spec (n := n) (s := (⟨exps, coefs, pre ++ (t ++ rest)⟩ : BasisBuf)) (body := fun row s => readBasisRow io nc row s)
    (Q := fun s => (∃ pre' t', AllSpace pre' ∧ RowsText io nc (rows.drop n) t' ∧ s.text = pre' ++ (t' ++ rest)) ∧
      Filled n nc (fun i => (rows.getD i (0, [])).1) (fun k i => (rows.getD i (0, [])).2.getD k 0) s.exps s.coefs)
    (fun m s => (∃ pre' t', AllSpace pre' ∧ RowsText io nc (rows.drop m) t' ∧ s.text = pre' ++ (t' ++ rest)) ∧
      Filled m nc (fun i => (rows.getD i (0, [])).1) (fun k i => (rows.getD i (0, [])).2.getD k 0) s.exps s.coefs)
    ⟨⟨pre, t, hpre, ht, rfl⟩, he, hc, fun i hi => absurd hi (by omega), fun k _ i hi => absurd hi (by omega)⟩ ?_ (fun s hs => hs)
  · obtain ⟨s, h1, ⟨pre', t', h2, h3, h4⟩, h5⟩ := key
    exact ⟨s.exps, s.coefs, pre', t', by rw [h1, ← h4], h2, h3, h5⟩
  · rintro m ⟨e, c, text⟩ hm ⟨⟨pre', t', hp, hr, htext⟩, hF⟩
    simp only at htext hF
    subst htext
    rw [List.drop_eq_getElem_cons (by omega)] at hr
    generalize hrm : rows[m]'(by omega) = rm at hr
    cases hr with
    | @cons er cs rs t1 t2 hlen h1 h2 =>
      have hget : rows.getD m (0, []) = (er, cs) := by
        rw [List.getD_eq_getElem?_getD, List.getElem?_eq_getElem (by omega), hrm]; rfl
      obtain ⟨e', c', g1, g2⟩ := readBasisRow_spec io nc m _ _ e c hF hnc (by omega) cs hlen (fun k _ => by rw [hget]) t1
        (by rw [hget]; exact h1) pre' (t2 ++ rest) hp
      refine ⟨⟨e', c', t2 ++ rest⟩, ?_, ⟨[], t2, fun c hc => by simp at hc, h2, rfl⟩, g2⟩
      rw [show (t1 ++ t2) ++ rest = t1 ++ (t2 ++ rest) by simp]
      exact g1

/-! ## Making the functions -/

theorem initPrefix_spec {α : Type} (n : Nat) (buf : List (Option α)) (pos : Nat → Nat) (f : Nat → α) (h : ∀ i < n, buf[pos i]? = some (some (f i))) :
    initPrefix n buf pos = .ok ((List.range n).map f) := by
  induction n with
  | zero => rfl
  | succ n ih =>
    unfold initPrefix at *
    rw [forRange_succ, ih (fun i hi => h i (by omega)), Outcome.ok_bind]
    simp [rdInit, rd, h n (by omega), List.range_succ]

theorem getD_map_range (f : Nat → ℝ) {n i : Nat} (h : i < n) : ((List.range n).map f).getD i 0 = f i := by
  rw [List.getD_eq_getElem?_getD, List.getElem?_map, List.getElem?_range h]; rfl

theorem cgto_scale (O : Point) (c : Comp) (num : Nat) (coeffs alpha : List ℝ) (N : ℝ) (r : Point) :
    cgto O c num (coeffs.map (· * N)) alpha r = N * contracted O c num coeffs alpha r := by
  unfold cgto contracted
  rw [Finset.mul_sum]
  refine Finset.sum_congr rfl fun i _ => ?_
  have : (coeffs.map (· * N)).getD i 0 = coeffs.getD i 0 * N := by
    rw [List.getD_eq_getElem?_getD, List.getD_eq_getElem?_getD, List.getElem?_map]
    cases coeffs[i]? <;> simp
  rw [this]
  ring

theorem makeBasisFun_spec (gen : Nat → List Comp) (hg : DocumentedOrder gen) (L np nc : Nat) (hL : L ≤ 9) (hnp : np ≤ 100) (hnc : nc ≤ 100)
    (E : Nat → ℝ) (C : Nat → Nat → ℝ) (exps coefs : List (Option ℝ)) (hF : Filled np nc E C exps coefs) (hE : ∀ i < np, 0 < E i) (k : Nat) (hk : k < nc)
    (hne : ∃ r, cgto ![0, 0, 0] (L, 0, 0) np ((List.range np).map (C k)) ((List.range np).map E) r ≠ 0) :
    ∃ coefs' f N, makeBasisFun gen L np k exps coefs = .ok (coefs', f) ∧ 0 < N ∧
      Filled np nc E (fun k' i => if k' = k then C k i * N else C k' i) exps coefs' ∧
      NormalisedFun L ((List.range np).map E) ((List.range np).map (C k)) f := by
  obtain ⟨h', N, e1, -, hN, hint⟩ := fortran_norm_factor gen hg ⟨fun _ => none, 0, []⟩ (fun _ _ => rfl) L np ((List.range np).map (C k))
    ((List.range np).map E) (by simp) (by simp) (fun i hi => by rw [getD_map_range E hi]; exact hE i hi) hL hne
  have hloop : ∃ coefs', forRange np coefs (fun i coefs => do
      let x ← rdInit coefs (coefIdx k i)
      wr coefs (coefIdx k i) (some (x * N))) = .ok coefs' ∧ Filled np nc E (fun k' i => if k' = k then C k i * N else C k' i) exps coefs' := by
    refine forRange_spec (fun m c => c.length = 10000 ∧ (∀ i < m, c[k * 100 + i]? = some (some (C k i * N))) ∧
      (∀ i, m ≤ i → i < np → c[k * 100 + i]? = some (some (C k i))) ∧ ∀ k' < nc, k' ≠ k → ∀ i < np, c[k' * 100 + i]? = some (some (C k' i))) ?_ ?_ ?_
    · exact ⟨hF.lc, fun i hi => absurd hi (by omega), fun i _ hi => hF.c k hk i hi, fun k' hk' _ i hi => hF.c k' hk' i hi⟩
    · rintro m c hm ⟨h1, h2, h3, h4⟩
      have hidx : k * 100 + m < c.length := by rw [h1]; omega
      rw [coefIdx_eq (by omega) (by omega)]
      refine ⟨c.set (k * 100 + m) (some (C k m * N)), ?_, by simp [h1], ?_, ?_, ?_⟩
      · have h3m := h3 m le_rfl hm
        simp only [rdInit, rd, h3m, Outcome.ok_bind, wr, if_pos hidx]
      · intro i hi
        rcases Nat.lt_succ_iff_lt_or_eq.1 hi with h | rfl
        · rw [List.getElem?_set_ne (by omega)]; exact h2 i h
        · rw [List.getElem?_set_self hidx]
      · intro i hi hin
        rw [List.getElem?_set_ne (by omega)]
        exact h3 i (by omega) hin
      · intro k' hk' hne' i hi
        rw [List.getElem?_set_ne (by omega)]
        exact h4 k' hk' hne' i hi
    · rintro c ⟨h1, h2, -, h4⟩
      refine ⟨hF.le, h1, hF.e, fun k' hk' i hi => ?_⟩
      by_cases h : k' = k
      · rw [if_pos h, h]; exact h2 i hi
      · rw [if_neg h]; exact h4 k' hk' h i hi
  obtain ⟨coefs', g1, g2⟩ := hloop
  refine ⟨coefs', ⟨L, np, ((List.range np).map (C k)).map (· * N), (List.range np).map E⟩, N, ?_, hN, g2, rfl, by simp, rfl, ⟨N, hN, rfl⟩, ?_⟩
  · unfold makeBasisFun
    rw [initPrefix_spec np coefs (coefIdx k) (C k) (fun i hi => by rw [coefIdx_eq (by omega) (by omega)]; exact hF.c k hk i hi), Outcome.ok_bind,
      initPrefix_spec np exps id E (fun i hi => hF.e i hi), Outcome.ok_bind, e1, Outcome.ok_bind]
    simp only
    rw [g1, Outcome.ok_bind, initPrefix_spec np coefs' (coefIdx k) (fun i => C k i * N) (fun i hi => by
      rw [coefIdx_eq (by omega) (by omega), g2.c k hk i hi, if_pos rfl])]
    simp only [Outcome.ok_bind, List.map_map]
    rfl
  · intro O c hc
    simp only [cgto_scale]
    exact hint O c hc

/-- The loop over the functions of a block. -/
theorem makeFuns_spec (gen : Nat → List Comp) (hg : DocumentedOrder gen) (L np nc : Nat) (hL : L ≤ 9) (hnp : np ≤ 100) (hnc : nc ≤ 100)
    (E : Nat → ℝ) (C : Nat → Nat → ℝ) (exps coefs : List (Option ℝ)) (hF : Filled np nc E C exps coefs) (hE : ∀ i < np, 0 < E i)
    (hne : ∀ k < nc, ∃ r, cgto ![0, 0, 0] (L, 0, 0) np ((List.range np).map (C k)) ((List.range np).map E) r ≠ 0) :
    ∃ coefs' funs C', forRange nc (coefs, []) (fun ifun (st : List (Option ℝ) × List BasisFun) => do
        let f ← makeBasisFun gen L np ifun exps st.1
        .ok (f.1, st.2 ++ [f.2])) = .ok (coefs', funs) ∧ Filled np nc E C' exps coefs' ∧
      (∀ k < nc, ∃ N : ℝ, 0 < N ∧ ∀ i, C' k i = C k i * N) ∧
      List.Forall₂ (fun k f => NormalisedFun L ((List.range np).map E) ((List.range np).map (C k)) f) (List.range nc) funs := by
  have key := forRange_spec (n := nc) (s := (coefs, [])) (body := fun ifun (st : List (Option ℝ) × List BasisFun) => do
        let f ← makeBasisFun gen L np ifun exps st.1
        .ok (f.1, st.2 ++ [f.2]))
    (Q := fun s => ∃ C', Filled np nc E C' exps s.1 ∧ (∀ k < nc, ∃ N : ℝ, 0 < N ∧ ∀ i, C' k i = C k i * N) ∧
      List.Forall₂ (fun k f => NormalisedFun L ((List.range np).map E) ((List.range np).map (C k)) f) (List.range nc) s.2)
    (fun m s => ∃ C', Filled np nc E C' exps s.1 ∧ (∀ k < m, ∃ N : ℝ, 0 < N ∧ ∀ i, C' k i = C k i * N) ∧ (∀ k, m ≤ k → C' k = C k) ∧
      List.Forall₂ (fun k f => NormalisedFun L ((List.range np).map E) ((List.range np).map (C k)) f) (List.range m) s.2)
    ⟨C, hF, fun k hk => absurd hk (by omega), fun _ _ => rfl, List.Forall₂.nil⟩ ?_ ?_
  · obtain ⟨s, h1, C', h2, h3, h4⟩ := key
    exact ⟨s.1, s.2, C', h1, h2, h3, h4⟩
  · rintro m ⟨c, funs⟩ hm ⟨C', h1, h2, h3, h4⟩
    simp only at h1 h4
    obtain ⟨c', f, N, g1, g2, g3, g4⟩ := makeBasisFun_spec gen hg L np nc hL hnp hnc E C' exps c h1 hE m hm (by rw [h3 m le_rfl]; exact hne m hm)
    refine ⟨(c', funs ++ [f]), by simp only [g1, Outcome.ok_bind], _, g3, ?_, ?_, ?_⟩
    · intro k hk
      by_cases hkm : k = m
      · subst hkm
        exact ⟨N, g2, fun i => by rw [if_pos rfl, h3 k le_rfl]⟩
      · obtain ⟨N', a, b⟩ := h2 k (by omega)
        exact ⟨N', a, fun i => by rw [if_neg hkm, b i]⟩
    · intro k hk
      funext i
      rw [if_neg (by omega), h3 k (by omega)]
    · rw [List.range_succ]
      rw [h3 m le_rfl] at g4
      exact List.rel_append h4 (List.Forall₂.cons g4 List.Forall₂.nil)
  · rintro s ⟨C', h1, h2, -, h4⟩
    exact ⟨C', h1, h2, h4⟩

theorem HeaderText.read {np nc : Nat} {t : List Char} (h : HeaderText np nc t) (hnp : np ≤ intMax) (hnc : nc ≤ intMax) (pre rest : List Char)
    (hpre : AllSpace pre) : ∃ ws, Spaces ws ∧ readTwoInts (pre ++ (t ++ rest)) = .ok ((np : Int), (nc : Int), ws ++ rest) := by
  obtain ⟨ws, ws1, ws2, rfl, hws, h1, h2⟩ := h
  refine ⟨ws2, h2, ?_⟩
  have e : pre ++ ((ws ++ (Nat.toDigits 10 np ++ (ws1 ++ (Nat.toDigits 10 nc ++ ws2)))) ++ rest) =
      (pre ++ ws) ++ (Nat.toDigits 10 np ++ (ws1 ++ (Nat.toDigits 10 nc ++ (ws2 ++ rest)))) := by simp
  unfold readTwoInts
  rw [e, scanInt_token np _ _ hnp (hpre.append hws) (h1.startsBlank _)]
  simp only [Outcome.ok_bind]
  rw [scanInt_token nc _ _ hnc h1.2 (h2.startsBlank _)]
  simp only [Outcome.ok_bind]

theorem map_range_getD {α : Type} (l : List α) (d : α) (f : α → ℝ) : (List.range l.length).map (fun i => f (l.getD i d)) = l.map f := by
  apply List.ext_getElem
  · simp
  · intro i h1 h2
    simp only [List.length_map, List.length_range] at h1
    simp [List.getD_eq_getElem?_getD, List.getElem?_eq_getElem h1]

/-- Reading a complete block. -/
theorem readBasisBlock_spec (gen : Nat → List Comp) (hg : DocumentedOrder gen) (io : DecimalIO) (L : Nat) (hL : L ≤ 9) (b : BasisBlock) (hb : b.Ok L)
    (t : List Char) (ht : BlockText io b t) (exps coefs : List (Option ℝ)) (he : exps.length = 100) (hc : coefs.length = 10000) (pre rest : List Char)
    (hpre : AllSpace pre) :
    ∃ exps' coefs' pre' funs C', readBasisBlock gen io L ⟨exps, coefs, pre ++ (t ++ rest)⟩ = .ok (⟨exps', coefs', pre' ++ rest⟩, funs) ∧ AllSpace pre' ∧
      Filled b.rows.length b.nc (fun i => b.exps.getD i 0) C' exps' coefs' ∧
      (∀ k < b.nc, ∃ N : ℝ, 0 < N ∧ ∀ i, C' k i = (b.col k).getD i 0 * N) ∧
      List.Forall₂ (fun p f => NormalisedFun p.1 p.2.1 p.2.2 f) ((List.range b.nc).map fun k => (L, b.exps, b.col k)) funs := by
  obtain ⟨t1, t2, rfl, hh, hr⟩ := ht
  have hnp := hb.np
  have hnc := hb.nc
  obtain ⟨ws, hws, hread⟩ := hh.read (by unfold intMax; omega) (by unfold intMax; omega) pre (t2 ++ rest) hpre
  obtain ⟨exps1, coefs1, pre1, t3, g1, g2, g3, g4⟩ := readRows_spec io b.nc b.rows t2 hr hnc b.rows.length le_rfl hnp exps coefs he hc ws rest hws.2
  rw [List.drop_length] at g3
  cases g3
  have hE : (List.range b.rows.length).map (fun i => (b.rows.getD i (0, [])).1) = b.exps := map_range_getD b.rows (0, []) Prod.fst
  have hC : ∀ k, (List.range b.rows.length).map (fun i => (b.rows.getD i (0, [])).2.getD k 0) = b.col k :=
    fun k => map_range_getD b.rows (0, []) fun r => r.2.getD k 0
  obtain ⟨coefs2, funs, C', f1, f2, f3, f4⟩ := makeFuns_spec gen hg L b.rows.length b.nc hL hnp hnc _ _ exps1 coefs1 g4 (fun i hi => by
      rw [List.getD_eq_getElem?_getD, List.getElem?_eq_getElem hi]; exact hb.pos _ (List.getElem_mem hi))
    (fun k hk => by rw [hC k, hE]; exact hb.nonzero k hk)
  have hEi : ∀ i < b.rows.length, b.exps.getD i 0 = (b.rows.getD i (0, [])).1 := fun i hi => by rw [← hE, getD_map_range _ hi]
  refine ⟨exps1, coefs2, pre1, funs, fun k i => if i < b.rows.length then C' k i else (b.col k).getD i 0 * C' k i, ?_, g2,
    ⟨f2.le, f2.lc, fun i hi => by rw [f2.e i hi, hEi i hi], fun k hk i hi => by rw [f2.c k hk i hi, if_pos hi]⟩, ?_, ?_⟩
  · unfold readBasisBlock
    simp only [show pre ++ ((t1 ++ t2) ++ rest) = pre ++ (t1 ++ (t2 ++ rest)) by simp, hread, Outcome.ok_bind, Int.toNat_natCast, g1, List.nil_append, f1]
  · intro k hk
    obtain ⟨N, a, hCN⟩ := f3 k hk
    refine ⟨N, a, fun i => ?_⟩
    by_cases hi : i < b.rows.length
    · beta_reduce
      rw [if_pos hi, hCN i, ← hC k, getD_map_range _ hi]
    · have hz : (b.col k).getD i 0 = 0 := by
        rw [List.getD_eq_getElem?_getD, List.getElem?_eq_none (by simp [BasisBlock.col]; omega)]; rfl
      beta_reduce
      rw [if_neg hi, hz, zero_mul, zero_mul]
  · rw [List.forall₂_map_left_iff]
    refine f4.imp fun k f h => ?_
    rw [hE, hC k] at h
    exact h

theorem blockFuns_append (L : Nat) (bs : List BasisBlock) (b : BasisBlock) :
    blockFuns L (bs ++ [b]) = blockFuns L bs ++ (List.range b.nc).map (fun k => (L + bs.length, b.exps, b.col k)) := by
  induction bs generalizing L with
  | nil => simp [blockFuns]
  | cons a bs ih =>
    rw [List.cons_append, blockFuns, ih, blockFuns, List.length_cons, List.append_assoc, show L + 1 + bs.length = L + (bs.length + 1) by omega]

/-- Reading complete blocks. -/
theorem readBlocks_spec (gen : Nat → List Comp) (hg : DocumentedOrder gen) (io : DecimalIO) (bs : List BasisBlock) (hlen : bs.length ≤ 10)
    (hb : ∀ L (h : L < bs.length), bs[L].Ok L) (t : List Char) (ht : BlocksText io bs t) (exps coefs : List (Option ℝ)) (he : exps.length = 100)
    (hc : coefs.length = 10000) (pre rest : List Char) (hpre : AllSpace pre) :
    ∃ exps' coefs' pre' funs, forRange bs.length (⟨exps, coefs, pre ++ (t ++ rest)⟩, []) (fun iblock (st : BasisBuf × List BasisFun) => do
        let b ← readBasisBlock gen io iblock st.1
        .ok (b.1, st.2 ++ b.2)) = .ok (⟨exps', coefs', pre' ++ rest⟩, funs) ∧ AllSpace pre' ∧ exps'.length = 100 ∧ coefs'.length = 10000 ∧
      List.Forall₂ (fun p f => NormalisedFun p.1 p.2.1 p.2.2 f) (blockFuns 0 bs) funs ∧
      (∀ b, bs.getLast? = some b → ∃ C', Filled b.rows.length b.nc (fun i => b.exps.getD i 0) C' exps' coefs' ∧
        ∀ k < b.nc, ∃ N : ℝ, 0 < N ∧ ∀ i, C' k i = (b.col k).getD i 0 * N) := by
  have key := forRange_spec (n := bs.length) (s := ((⟨exps, coefs, pre ++ (t ++ rest)⟩ : BasisBuf), ([] : List BasisFun)))
    (body := fun iblock (st : BasisBuf × List BasisFun) => do
        let b ← readBasisBlock gen io iblock st.1
        .ok (b.1, st.2 ++ b.2))
    (Q := fun s => (∃ pre', AllSpace pre' ∧ s.1.text = pre' ++ rest) ∧ s.1.exps.length = 100 ∧ s.1.coefs.length = 10000 ∧
      List.Forall₂ (fun p f => NormalisedFun p.1 p.2.1 p.2.2 f) (blockFuns 0 bs) s.2 ∧
      (∀ b, bs.getLast? = some b → ∃ C', Filled b.rows.length b.nc (fun i => b.exps.getD i 0) C' s.1.exps s.1.coefs ∧
        ∀ k < b.nc, ∃ N : ℝ, 0 < N ∧ ∀ i, C' k i = (b.col k).getD i 0 * N))
    (fun m s => (∃ pre' t', AllSpace pre' ∧ BlocksText io (bs.drop m) t' ∧ s.1.text = pre' ++ (t' ++ rest)) ∧ s.1.exps.length = 100 ∧
      s.1.coefs.length = 10000 ∧ List.Forall₂ (fun p f => NormalisedFun p.1 p.2.1 p.2.2 f) (blockFuns 0 (bs.take m)) s.2 ∧
      (∀ b, (bs.take m).getLast? = some b → ∃ C', Filled b.rows.length b.nc (fun i => b.exps.getD i 0) C' s.1.exps s.1.coefs ∧
        ∀ k < b.nc, ∃ N : ℝ, 0 < N ∧ ∀ i, C' k i = (b.col k).getD i 0 * N))
    ⟨⟨pre, t, hpre, ht, rfl⟩, he, hc, List.Forall₂.nil, fun b hb => by simp at hb⟩ ?_ ?_
  · obtain ⟨s, h1, ⟨pre', h2, h3⟩, h4, h5, h6, h7⟩ := key
    exact ⟨s.1.exps, s.1.coefs, pre', s.2, by rw [h1, ← h3], h2, h4, h5, h6, h7⟩
  · rintro m ⟨⟨e, c, text⟩, funs⟩ hm ⟨⟨pre', t', hp, hr, htext⟩, he', hc', hfuns, -⟩
    simp only at htext he' hc' hfuns
    subst htext
    rw [List.drop_eq_getElem_cons hm] at hr
    cases hr with
    | @cons b bs' t1 t2 h1 h2 =>
      obtain ⟨e2, c2, pre2, fs, C', g1, g2, g3, g4, g5⟩ := readBasisBlock_spec gen hg io m (by omega) bs[m] (hb m hm) t1 h1 e c he' hc' pre' (t2 ++ rest) hp
      have htake : bs.take (m + 1) = bs.take m ++ [bs[m]] := (List.take_concat_get' bs m hm).symm
      refine ⟨(⟨e2, c2, pre2 ++ (t2 ++ rest)⟩, funs ++ fs), ?_, ⟨pre2, t2, g2, h2, rfl⟩, g3.le, g3.lc, ?_, ?_⟩
      · simp only
        rw [show (t1 ++ t2) ++ rest = t1 ++ (t2 ++ rest) by simp, g1]
        rfl
      · rw [htake, blockFuns_append]
        refine List.rel_append hfuns ?_
        rw [List.length_take, Nat.min_eq_left hm.le, Nat.zero_add]
        exact g5
      · intro b hb'
        rw [htake, List.getLast?_concat, Option.some.injEq] at hb'
        subst hb'
        exact ⟨C', g3, g4⟩
  · rintro s ⟨⟨pre', t', h1, h2, h3⟩, h4, h5, h6, h7⟩
    rw [List.drop_length] at h2
    cases h2
    rw [List.take_length] at h6 h7
    exact ⟨⟨pre', h1, by simpa using h3⟩, h4, h5, h6, h7⟩

/-! ## Files that are not as they should be -/

theorem forRange_ub_at {σ : Type _} {n k : Nat} {s s' : σ} {body : Nat → σ → Outcome σ} (h : forRange k s body = .ok s') (hub : body k s' = .ub)
    (hk : k < n) : forRange n s body = .ub := by
  obtain ⟨d, rfl⟩ : ∃ d, n = k + 1 + d := ⟨n - (k + 1), by omega⟩
  clear hk
  induction d with
  | zero => rw [Nat.add_zero, forRange_succ, h, Outcome.ok_bind, hub]
  | succ d ih => rw [← Nat.add_assoc, forRange_succ, ih]; rfl

theorem BlocksText.split {io : DecimalIO} {bs bs' : List BasisBlock} {t : List Char} (h : BlocksText io (bs ++ bs') t) :
    ∃ t1 t2, t = t1 ++ t2 ∧ BlocksText io bs t1 ∧ BlocksText io bs' t2 := by
  induction bs generalizing t with
  | nil => exact ⟨[], t, rfl, .nil, h⟩
  | cons b bs ih =>
    rw [List.cons_append] at h
    cases h with
    | @cons _ _ u1 u2 h1 h2 =>
      obtain ⟨t1, t2, rfl, g1, g2⟩ := ih h2
      exact ⟨u1 ++ t1, t2, by simp, .cons h1 g1, g2⟩

theorem readCoefs_outside (io : DecimalIO) (nc row : Nat) (cs : List ℝ) (t : List Char) (ht : NumsText io cs t) (hlen : cs.length = nc) (hnc : 100 < nc)
    (hrow : row < 100) (coefs : List (Option ℝ)) (hc : coefs.length = 10000) (u : List Char) (hu : StartsBlank u) :
    forRange nc (coefs, t ++ u) (fun col (c : List (Option ℝ) × List Char) => readNum io c.1 (coefIdx col row) c.2) = .ub := by
  refine forRange_ub (k := 100) (fun m s => (∃ t', NumsText io (cs.drop m) t' ∧ s.2 = t' ++ u) ∧ s.1.length = 10000) hnc ⟨⟨t, ht, rfl⟩, hc⟩ ?_ ?_
  · rintro m ⟨c, text⟩ hm ⟨⟨t', ht', rfl⟩, hl⟩
    rw [List.drop_eq_getElem_cons (by omega)] at ht'
    cases ht' with
    | @cons x xs ws tok t1 hws htok h =>
      simp only at hl
      refine ⟨(c.set (m * 100 + row) (some (cs[m]'(by omega))), t1 ++ u), ?_, ⟨t1, h, rfl⟩, by simp [hl]⟩
      simp only
      rw [show (ws ++ (tok ++ t1)) ++ u = ws ++ (tok ++ (t1 ++ u)) by simp, coefIdx_eq (by omega) hrow]
      exact readNum_token io c _ ws tok _ _ (by omega) hws.2 htok (h.startsBlank hu)
  · rintro ⟨c, text⟩ ⟨⟨t', ht', rfl⟩, hl⟩
    rw [List.drop_eq_getElem_cons (by omega)] at ht'
    cases ht' with
    | @cons x xs ws tok t1 hws htok h =>
      simp only at hl ⊢
      rw [show (ws ++ (tok ++ t1)) ++ u = ws ++ (tok ++ (t1 ++ u)) by simp]
      exact readNum_outside io c _ ws tok _ _ (by rw [hl, coefIdx, if_neg (by unfold maxExponents; omega)]; decide) hws.2 htok (h.startsBlank hu)

/-- A block that does not fit into the arrays. -/
theorem readBasisBlock_outside (gen : Nat → List Comp) (io : DecimalIO) (L : Nat) (b : BasisBlock) (hnp : b.rows.length ≤ intMax) (hnc : b.nc ≤ intMax)
    (hb : 100 < b.rows.length ∨ 100 < b.nc ∧ b.rows ≠ []) (t : List Char) (ht : BlockText io b t) (exps coefs : List (Option ℝ)) (he : exps.length = 100)
    (hc : coefs.length = 10000) (pre rest : List Char) (hpre : AllSpace pre) : readBasisBlock gen io L ⟨exps, coefs, pre ++ (t ++ rest)⟩ = .ub := by
  obtain ⟨t1, t2, rfl, hh, hr⟩ := ht
  obtain ⟨ws, hws, hread⟩ := hh.read hnp hnc pre (t2 ++ rest) hpre
  have hrows : forRange b.rows.length (⟨exps, coefs, ws ++ (t2 ++ rest)⟩ : BasisBuf) (fun row s => readBasisRow io b.nc row s) = .ub := by
    by_cases hc100 : b.nc ≤ 100
    · have h100 : 100 < b.rows.length := hb.resolve_right fun h => by omega
      obtain ⟨e1, c1, pre1, t3, g1, g2, g3, g4⟩ := readRows_spec io b.nc b.rows t2 hr hc100 100 h100.le le_rfl exps coefs he hc ws rest hws.2
      refine forRange_ub_at g1 ?_ h100
      rw [List.drop_eq_getElem_cons h100] at g3
      generalize b.rows[100] = rm at g3
      cases g3 with
      | @cons er cs rs u1 u2 hlen h1 h2 =>
        obtain ⟨ws', tok, v1, v2, rfl, hws', htok, hnums, hend⟩ := h1
        obtain ⟨hskip, hblank⟩ := hend.skip (u2 ++ rest)
        unfold readBasisRow
        simp only
        rw [show pre1 ++ (((ws' ++ (tok ++ (v1 ++ v2))) ++ u2) ++ rest) = (pre1 ++ ws') ++ (tok ++ (v1 ++ (v2 ++ (u2 ++ rest)))) by simp,
          readNum_outside io e1 100 (pre1 ++ ws') tok _ er (by rw [g4.le]) (g2.append hws') htok (hnums.startsBlank hblank)]
        rfl
    · have hne : b.rows ≠ [] := hb.elim (fun h => by rintro h0; rw [h0] at h; simp at h) fun h => h.2
      refine forRange_ub_at (k := 0) rfl ?_ (List.length_pos_of_ne_nil hne)
      generalize b.rows = rows at hr hne
      cases hr with
      | nil => exact absurd rfl hne
      | @cons er cs rs u1 u2 hlen h1 h2 =>
        obtain ⟨ws', tok, v1, v2, rfl, hws', htok, hnums, hend⟩ := h1
        obtain ⟨hskip, hblank⟩ := hend.skip (u2 ++ rest)
        unfold readBasisRow
        simp only
        rw [show ws ++ (((ws' ++ (tok ++ (v1 ++ v2))) ++ u2) ++ rest) = (ws ++ ws') ++ (tok ++ (v1 ++ (v2 ++ (u2 ++ rest)))) by simp,
          readNum_token io exps 0 (ws ++ ws') tok _ er (by omega) (hws.2.append hws') htok (hnums.startsBlank hblank), Outcome.ok_bind,
          readCoefs_outside io b.nc 0 cs v1 hnums hlen (by omega) (by omega) coefs hc _ hblank]
        rfl
  unfold readBasisBlock
  simp only [show pre ++ ((t1 ++ t2) ++ rest) = pre ++ (t1 ++ (t2 ++ rest)) by simp, hread, Outcome.ok_bind, Int.toNat_natCast, hrows]
  rfl

theorem readNum_blank (io : DecimalIO) (buf : List (Option ℝ)) (i : Nat) (ws : List Char) (hws : AllSpace ws) : readNum io buf i ws = .ok (buf, []) := by
  have h : ws.dropWhile isSpaceC = [] := by
    have := dropWhile_append_all isSpaceC ws [] hws
    simpa using this
  have hs : scanDbl io ws = none := by
    unfold scanDbl
    simp only [h]
    cases io.scan (List.takeWhile (fun c => !isSpaceC c) []) <;> simp
  unfold readNum
  rw [hs, h]

/-- At the end of the file nothing is stored. -/
theorem readBasisRow_blank (io : DecimalIO) (nc row : Nat) (exps coefs : List (Option ℝ)) (ws : List Char) (hws : AllSpace ws) :
    readBasisRow io nc row ⟨exps, coefs, ws⟩ = .ok ⟨exps, coefs, []⟩ := by
  have hnil : AllSpace [] := fun c hc => by simp at hc
  have hloop : forRange nc (coefs, ([] : List Char)) (fun col (c : List (Option ℝ) × List Char) => readNum io c.1 (coefIdx col row) c.2) =
      .ok (coefs, []) := by
    obtain ⟨s, h1, rfl⟩ := forRange_inv (n := nc) (s := (coefs, ([] : List Char)))
      (body := fun col (c : List (Option ℝ) × List Char) => readNum io c.1 (coefIdx col row) c.2) (fun _ s => s = (coefs, [])) rfl
      (fun i s _ hs => ⟨_, by rw [hs]; exact readNum_blank io coefs _ [] hnil, rfl⟩)
    exact h1
  unfold readBasisRow
  simp only [readNum_blank io exps row ws hws, Outcome.ok_bind, hloop]
  rfl

theorem readRows_blank (io : DecimalIO) (nc np : Nat) (exps coefs : List (Option ℝ)) (ws : List Char) (hws : AllSpace ws) :
    ∃ ws', AllSpace ws' ∧ forRange np (⟨exps, coefs, ws⟩ : BasisBuf) (fun row s => readBasisRow io nc row s) = .ok ⟨exps, coefs, ws'⟩ := by
  obtain ⟨s, h1, ws', h2, rfl⟩ := forRange_inv (n := np) (s := (⟨exps, coefs, ws⟩ : BasisBuf)) (body := fun row s => readBasisRow io nc row s)
    (fun _ s => ∃ ws', AllSpace ws' ∧ s = ⟨exps, coefs, ws'⟩) ⟨ws, hws, rfl⟩
    (fun i s _ hs => by
      obtain ⟨ws', h, rfl⟩ := hs
      exact ⟨_, readBasisRow_blank io nc i exps coefs ws' h, [], fun c hc => by simp at hc, rfl⟩)
  exact ⟨ws', h2, h1⟩

theorem NormalisedFun.unscale {L : Nat} {alpha coeffs : List ℝ} {N : ℝ} (hN : 0 < N) {f : BasisFun} (h : NormalisedFun L alpha (coeffs.map (· * N)) f) :
    NormalisedFun L alpha coeffs f := by
  obtain ⟨h1, h2, h3, ⟨N', h4, h5⟩, h6⟩ := h
  refine ⟨h1, h2, h3, ⟨N * N', by positivity, ?_⟩, h6⟩
  rw [h5, List.map_map]
  refine List.map_congr_left fun x _ => ?_
  simp only [Function.comp]
  ring

theorem take_eq_map_range (l : List ℝ) {n : Nat} (h : n ≤ l.length) : (List.range n).map (fun i => l.getD i 0) = l.take n := by
  apply List.ext_getElem
  · simp [h]
  · intro i h1 h2
    simp only [List.length_map, List.length_range] at h1
    have : i < l.length := by omega
    simp [List.getD_eq_getElem?_getD, List.getElem?_eq_getElem this]

/-- A block of which only the header is there: the functions are made from what the arrays hold. -/
theorem readBasisBlock_stale (gen : Nat → List Comp) (hg : DocumentedOrder gen) (io : DecimalIO) (L : Nat) (hL : L ≤ 9) (b : BasisBlock)
    (hnp : b.rows.length ≤ 100) (hnc : b.nc ≤ 100) (hpos : ∀ r ∈ b.rows, 0 < r.1) (np nc : Nat) (h1 : np ≤ b.rows.length) (h2 : nc ≤ b.nc)
    (hne : ∀ k < nc, ∃ r, cgto ![0, 0, 0] (L, 0, 0) np ((b.col k).take np) (b.exps.take np) r ≠ 0)
    (t : List Char) (ht : HeaderText np nc t) (exps coefs : List (Option ℝ)) (C' : Nat → Nat → ℝ)
    (hF : Filled b.rows.length b.nc (fun i => b.exps.getD i 0) C' exps coefs) (hC' : ∀ k < b.nc, ∃ N : ℝ, 0 < N ∧ ∀ i, C' k i = (b.col k).getD i 0 * N)
    (pre : List Char) (hpre : AllSpace pre) :
    ∃ s funs, readBasisBlock gen io L ⟨exps, coefs, pre ++ t⟩ = .ok (s, funs) ∧
      List.Forall₂ (fun p f => NormalisedFun p.1 p.2.1 p.2.2 f) ((List.range nc).map fun k => (L, b.exps.take np, (b.col k).take np)) funs := by
  obtain ⟨ws, hws, hread⟩ := ht.read (by unfold intMax; omega) (by unfold intMax; omega) pre [] hpre
  rw [List.append_nil, List.append_nil] at hread
  obtain ⟨ws', hws', g1⟩ := readRows_blank io nc np exps coefs ws hws.2
  have hE : (List.range np).map (fun i => b.exps.getD i 0) = b.exps.take np := take_eq_map_range b.exps (by simp [BasisBlock.exps, h1])
  have hC : ∀ k < nc, ∃ N : ℝ, 0 < N ∧ (List.range np).map (C' k) = ((b.col k).take np).map (· * N) := fun k hk => by
    obtain ⟨N, a, hN⟩ := hC' k (by omega)
    refine ⟨N, a, ?_⟩
    rw [← take_eq_map_range (b.col k) (by simp [BasisBlock.col, h1]), List.map_map]
    exact List.map_congr_left fun i _ => hN i
  obtain ⟨coefs2, funs, C2, f1, f2, f3, f4⟩ := makeFuns_spec gen hg L np nc hL (by omega) (by omega) (fun i => b.exps.getD i 0) C' exps coefs
    (hF.mono h1 h2) (fun i hi => by
      have hi' : i < b.rows.length := by omega
      rw [BasisBlock.exps, List.getD_eq_getElem?_getD, List.getElem?_map, List.getElem?_eq_getElem hi']
      exact hpos _ (List.getElem_mem hi'))
    (fun k hk => by
      obtain ⟨N, a, e⟩ := hC k hk
      obtain ⟨r, hr⟩ := hne k hk
      refine ⟨r, ?_⟩
      rw [e, hE, cgto_scale]
      exact mul_ne_zero a.ne' hr)
  refine ⟨⟨exps, coefs2, ws'⟩, funs, ?_, ?_⟩
  · unfold readBasisBlock
    simp only [hread, Outcome.ok_bind, Int.toNat_natCast, g1, f1]
  · rw [List.forall₂_map_left_iff]
    have : ∀ (l : List Nat) (fs : List BasisFun), (∀ k ∈ l, k < nc) →
        List.Forall₂ (fun k f => NormalisedFun L ((List.range np).map fun i => b.exps.getD i 0) ((List.range np).map (C' k)) f) l fs →
        List.Forall₂ (fun k f => NormalisedFun L (b.exps.take np) ((b.col k).take np) f) l fs := by
      intro l fs hl h
      induction h with
      | nil => exact .nil
      | @cons k f l fs a _ ih =>
        obtain ⟨N, hN, e⟩ := hC k (hl k (by simp))
        rw [hE, e] at a
        exact .cons (a.unscale hN) (ih fun k hk => hl k (by simp [hk]))
    exact this _ _ (fun k hk => List.mem_range.1 hk) f4

/-! ## The list of shells -/

theorem mainBasisSets_full (gen : Nat → List Comp) (io : DecimalIO) (text : List Char) (atoms : List (Nat × Point)) (R : Nat → Option (List BasisFun))
    (h : ∀ a ∈ atoms, a.1 < 131 ∧ readBasisSet gen io text a.1 = .ok (R a.1)) :
    ∃ sets, mainBasisSets gen io text atoms = .ok sets ∧ (∀ a ∈ atoms, rd sets a.1 = .ok (R a.1)) ∧
      ∀ z < 131, sets[z]? = some none ∨ sets[z]? = some (R z) := by
  have key := forRange_inv (n := atoms.length) (s := List.replicate 131 (none : Option (List BasisFun))) (body := fun ia sets => do
    let a ← rd atoms ia
    match ← rd sets a.1 with
    | some _ => .ok sets
    | none =>
      let s ← readBasisSet gen io text a.1
      wr sets a.1 s)
    (fun m sets => sets.length = 131 ∧ (∀ z < 131, sets[z]? = some none ∨ sets[z]? = some (R z)) ∧ ∀ a ∈ atoms.take m, sets[a.1]? = some (R a.1))
    ⟨by simp, fun z hz => Or.inl (by rw [List.getElem?_replicate, if_pos hz]), fun a ha => by simp at ha⟩ ?_
  · obtain ⟨sets, h1, h2, h4, h3⟩ := key
    rw [List.take_length] at h3
    refine ⟨sets, h1, fun a ha => ?_, h4⟩
    have := h3 a ha
    simp only [rd, this]
  · rintro m sets hm ⟨h1, h2, h3⟩
    obtain ⟨hz, hr⟩ := h _ (List.getElem_mem hm)
    have htake : atoms.take (m + 1) = atoms.take m ++ [atoms[m]] := (List.take_concat_get' atoms m hm).symm
    rw [rd_ok hm, Outcome.ok_bind]
    rcases h2 _ hz with h0 | h0
    · refine ⟨sets.set atoms[m].1 (R atoms[m].1), ?_, by simp [h1], ?_, ?_⟩
      · simp only [rd, h0, Outcome.ok_bind, hr, wr, if_pos (show atoms[m].1 < sets.length by omega)]
      · intro z hz'
        by_cases e : atoms[m].1 = z
        · subst e; right; rw [List.getElem?_set_self (by omega)]
        · rw [List.getElem?_set_ne e]; exact h2 z hz'
      · intro a ha
        by_cases e : atoms[m].1 = a.1
        · rw [← e, List.getElem?_set_self (by omega)]
        · rw [List.getElem?_set_ne e]
          rw [htake] at ha
          rcases List.mem_append.1 ha with h' | h'
          · exact h3 a h'
          · rw [List.mem_singleton] at h'; exact absurd (by rw [h']) e
    · have hall : ∀ a ∈ atoms.take (m + 1), sets[a.1]? = some (R a.1) := by
        intro a ha
        rw [htake] at ha
        rcases List.mem_append.1 ha with h' | h'
        · exact h3 a h'
        · rw [List.mem_singleton] at h'; rw [h']; exact h0
      cases hR : R atoms[m].1 with
      | some bs =>
        refine ⟨sets, ?_, h1, h2, hall⟩
        simp only [rd, h0, Outcome.ok_bind, hR]
      | none =>
        refine ⟨sets.set atoms[m].1 none, ?_, by simp [h1], ?_, ?_⟩
        · simp only [rd, h0, Outcome.ok_bind, hR, hr, wr, if_pos (show atoms[m].1 < sets.length by omega)]
        · intro z hz'
          by_cases e : atoms[m].1 = z
          · subst e; left; rw [List.getElem?_set_self (by omega)]
          · rw [List.getElem?_set_ne e]; exact h2 z hz'
        · intro a ha
          by_cases e : atoms[m].1 = a.1
          · rw [← e, List.getElem?_set_self (by omega), hR]
          · rw [List.getElem?_set_ne e]; exact hall a ha

theorem mainBasisSets_spec (gen : Nat → List Comp) (io : DecimalIO) (text : List Char) (atoms : List (Nat × Point)) (R : Nat → Option (List BasisFun))
    (h : ∀ a ∈ atoms, a.1 < 131 ∧ readBasisSet gen io text a.1 = .ok (R a.1)) :
    ∃ sets, mainBasisSets gen io text atoms = .ok sets ∧ ∀ a ∈ atoms, rd sets a.1 = .ok (R a.1) := by
  obtain ⟨sets, h1, h2, -⟩ := mainBasisSets_full gen io text atoms R h
  exact ⟨sets, h1, h2⟩

/-- A null pointer is dereferenced if an atom has no basis set. -/
theorem constructShellList_null (gen : Nat → List Comp) (atoms : List (Nat × Point)) (sets : List (Option (List BasisFun)))
    (R : Nat → Option (List BasisFun)) (h : ∀ a ∈ atoms, rd sets a.1 = .ok (R a.1)) (hnull : ∃ a ∈ atoms, R a.1 = none) :
    constructShellList gen atoms sets = .ub := by
  obtain ⟨a, ha, hR⟩ := hnull
  obtain ⟨k, hk, rfl⟩ := List.getElem_of_mem ha
  have hub : shellCount atoms sets = .ub := by
    refine forRange_ub_some (fun _ => True) trivial (fun i s hi _ => ?_) hk fun s _ => ?_
    · rw [rd_ok hi, Outcome.ok_bind]
      simp only [h _ (List.getElem_mem hi), Outcome.ok_bind]
      cases R atoms[i].1 with
      | none => exact Or.inr rfl
      | some bs => exact Or.inl ⟨_, rfl, trivial⟩
    · rw [rd_ok hk, Outcome.ok_bind]
      simp only [h _ (List.getElem_mem hk), Outcome.ok_bind, hR]
  unfold constructShellList
  rw [hub]
  rfl

theorem constructShellList_spec (gen : Nat → List Comp) (atoms : List (Nat × Point)) (sets : List (Option (List BasisFun))) (basis : Nat → List BasisFun)
    (h : ∀ a ∈ atoms, rd sets a.1 = .ok (some (basis a.1))) (hf : ∀ a ∈ atoms, ∀ f ∈ basis a.1, f.coeffs.length = f.num ∧ f.alpha.length = f.num) :
    constructShellList gen atoms sets = .ok (moleculeShells gen atoms basis) := by
  have htake : ∀ m (hm : m < atoms.length), moleculeShells gen (atoms.take (m + 1)) basis = moleculeShells gen (atoms.take m) basis ++
      (basis atoms[m].1).map (fun f => { L := f.L, origin := atoms[m].2, cart_size := cartSize f.L, cartList := gen f.L, num := f.num, coeffs := f.coeffs, alpha := f.alpha }) := by
    intro m hm
    rw [← List.take_concat_get' atoms m hm, moleculeShells, moleculeShells, List.flatMap_append]
    simp only [List.flatMap_cons, List.flatMap_nil, List.append_nil]
  obtain ⟨num, h1, h2⟩ : ∃ num, shellCount atoms sets = .ok num ∧ num = (moleculeShells gen atoms basis).length := by
    refine forRange_spec (fun m num => num = (moleculeShells gen (atoms.take m) basis).length) (by simp [moleculeShells]) ?_
      (fun s hs => by rwa [List.take_length] at hs)
    rintro m num hm rfl
    refine ⟨_, ?_, rfl⟩
    rw [rd_ok hm, Outcome.ok_bind]
    simp only [h _ (List.getElem_mem hm), Outcome.ok_bind, htake m hm, List.length_append, List.length_map]
  unfold constructShellList
  rw [h1, Outcome.ok_bind]
  have key := forRange_spec (n := atoms.length) (s := ([] : List Shell)) (body := fun ia shells => do
      let a ← rd atoms ia
      match ← rd sets a.1 with
      | none => .ub
      | some bs => forRange bs.length shells fun i shells => do
        let f ← rd bs i
        let s ← newShell gen a.2 f.L f.num f.coeffs f.alpha
        Outcome.valid (shells.length < num)
        .ok (shells ++ [s])) (Q := fun s => s = moleculeShells gen atoms basis)
    (fun m s => s = moleculeShells gen (atoms.take m) basis) (by simp [moleculeShells]) ?_ (fun s hs => by rwa [List.take_length] at hs)
  · obtain ⟨s, g1, rfl⟩ := key
    exact g1
  · rintro m shells hm rfl
    have ha := List.getElem_mem hm
    rw [rd_ok hm, Outcome.ok_bind]
    simp only [h _ ha, Outcome.ok_bind]
    obtain ⟨mk, hmk⟩ : ∃ mk : BasisFun → Shell, mk = fun f =>
      { L := f.L, origin := atoms[m].2, cart_size := cartSize f.L, cartList := gen f.L, num := f.num, coeffs := f.coeffs, alpha := f.alpha } := ⟨_, rfl⟩
    have hstep := htake m hm
    rw [← hmk] at hstep
    have hle : (moleculeShells gen (atoms.take (m + 1)) basis).length ≤ num := by
      rw [h2]
      have : moleculeShells gen atoms basis = moleculeShells gen (atoms.take (m + 1)) basis ++ moleculeShells gen (atoms.drop (m + 1)) basis := by
        rw [moleculeShells, moleculeShells, moleculeShells, ← List.flatMap_append, List.take_append_drop]
      rw [this, List.length_append]
      omega
    refine forRange_spec (fun i s => s = moleculeShells gen (atoms.take m) basis ++ ((basis atoms[m].1).take i).map mk) (by simp) ?_
      (fun s hs => by rw [hs, List.take_length, hstep])
    rintro i shells hi rfl
    obtain ⟨l1, l2⟩ := hf _ ha _ (List.getElem_mem hi)
    rw [rd_ok hi, Outcome.ok_bind, new_shell_value gen _ _ _ _ _ l1.ge l2.ge, Outcome.ok_bind, List.take_of_length_le l1.le, List.take_of_length_le l2.le,
      Outcome.valid_pos, Outcome.ok_bind]
    · refine ⟨_, rfl, ?_⟩
      rw [← List.take_concat_get' (basis atoms[m].1) i hi, List.map_append, ← List.append_assoc, hmk]
      rfl
    · rw [hstep, List.length_append, List.length_map] at hle
      rw [List.length_append, List.length_map, List.length_take, Nat.min_eq_left hi.le]
      omega

end Libgrpp
