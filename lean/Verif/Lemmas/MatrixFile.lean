import Verif.Model.MatrixFile
import Verif.Lemmas.Driver

/-! # Lemmas about the matrix files -/

namespace Libgrpp

theorem isSpaceC_of_isDigit {c : Char} (h : c.isDigit = true) : isSpaceC c = false := by
  have h2 : 48 ≤ c.toNat ∧ c.toNat ≤ 57 := by
    simp only [Char.isDigit, Bool.and_eq_true, decide_eq_true_eq] at h
    exact ⟨h.1, h.2⟩
  have key : ∀ d : Char, d.toNat < 48 → c ≠ d := fun d hd he => by subst he; omega
  have e1 := key ' ' (by decide)
  have e2 := key '\t' (by decide)
  have e3 := key '\n' (by decide)
  have e4 := key '\x0b' (by decide)
  have e5 := key '\x0c' (by decide)
  have e6 := key '\r' (by decide)
  simp [isSpaceC, e1, e2, e3, e4, e5, e6]

theorem dropWhile_append_all {α : Type} (p : α → Bool) (ws t : List α) (h : ∀ c ∈ ws, p c = true) : (ws ++ t).dropWhile p = t.dropWhile p := by
  induction ws with
  | nil => rfl
  | cons a ws ih =>
    rw [List.cons_append, List.dropWhile_cons, if_pos (h a (by simp))]
    exact ih fun c hc => h c (by simp [hc])

theorem takeWhile_append_stop {α : Type} (p : α → Bool) (ds rest : List α) (h : ∀ c ∈ ds, p c = true)
    (hr : ∀ c, rest.head? = some c → p c = false) : (ds ++ rest).takeWhile p = ds ∧ (ds ++ rest).dropWhile p = rest := by
  have hrest : rest.takeWhile p = [] ∧ rest.dropWhile p = rest := by
    cases rest with
    | nil => exact ⟨rfl, rfl⟩
    | cons a r => rw [List.takeWhile_cons, List.dropWhile_cons, hr a rfl]; exact ⟨rfl, rfl⟩
  induction ds with
  | nil => exact hrest
  | cons a ds ih =>
    have ha := h a (by simp)
    obtain ⟨i1, i2⟩ := ih fun c hc => h c (by simp [hc])
    rw [List.cons_append, List.takeWhile_cons, List.dropWhile_cons, if_pos ha, if_pos ha, i1, i2]
    exact ⟨rfl, rfl⟩

theorem dropWhile_stop {α : Type} (p : α → Bool) (ws t : List α) (h : ∀ c ∈ ws, p c = true) (ht : ∀ c, t.head? = some c → p c = false) :
    (ws ++ t).dropWhile p = t := (takeWhile_append_stop p ws t h ht).2

theorem toDigits_isDigit (n : Nat) : ∀ c ∈ Nat.toDigits 10 n, c.isDigit = true :=
  fun _ hc => Nat.isDigit_of_mem_toDigits (by norm_num) (le_refl _) hc

theorem toDigits_head (n : Nat) : ∃ c r, Nat.toDigits 10 n = c :: r ∧ c.isDigit = true := by
  cases h : Nat.toDigits 10 n with
  | nil => exact absurd h Nat.toDigits_ne_nil
  | cons c r => exact ⟨c, r, rfl, toDigits_isDigit n c (by rw [h]; simp)⟩

/-- Reading a number that was printed in decimal, preceded by white space and followed by something that is not a digit. -/
theorem scanInt_digits (n : Nat) (ws rest : List Char) (hn : n ≤ intMax) (hws : ∀ c ∈ ws, isSpaceC c = true)
    (hrest : ∀ c, rest.head? = some c → c.isDigit = false) :
    scanInt (ws ++ (Nat.toDigits 10 n ++ rest)) = .ok (some ((n : Int), rest)) := by
  obtain ⟨c, r, hcr, hc⟩ := toDigits_head n
  have h1 : (ws ++ (Nat.toDigits 10 n ++ rest)).dropWhile isSpaceC = Nat.toDigits 10 n ++ rest := by
    apply dropWhile_stop _ _ _ hws
    intro d hd
    rw [hcr] at hd
    simp only [List.cons_append, List.head?_cons, Option.some.injEq] at hd
    rw [← hd]
    exact isSpaceC_of_isDigit hc
  have hminus : c ≠ '-' := by rintro rfl; exact absurd hc (by decide)
  have hplus : c ≠ '+' := by rintro rfl; exact absurd hc (by decide)
  have hhead : (Nat.toDigits 10 n ++ rest).head? = some c := by rw [hcr]; rfl
  obtain ⟨h2, h3⟩ := takeWhile_append_stop Char.isDigit (Nat.toDigits 10 n) rest (toDigits_isDigit n) hrest
  have hval : Nat.ofDigitChars 10 (Nat.toDigits 10 n) 0 = n := Nat.ofDigitChars_toDigits (by norm_num) (le_refl _)
  unfold scanInt
  simp only [h1, hhead, Option.some.injEq, hminus, hplus, or_self, if_false, h2, h3]
  rw [if_neg Nat.toDigits_ne_nil]
  have hs : signedVal (decide False) (Nat.toDigits 10 n) = (n : Int) := by simp [signedVal, hval]
  simp only [hs]
  rw [Outcome.valid_pos ⟨by omega, by exact_mod_cast hn⟩]
  rfl

theorem replicate_isSpace (k : Nat) : ∀ c ∈ List.replicate k ' ', isSpaceC c = true := by
  intro c hc
  rw [(List.mem_replicate.1 hc).2]
  decide

theorem toDigits_length_le {n k : Nat} (hk : 0 < k) (h : n < 10 ^ k) : (Nat.toDigits 10 n).length ≤ k :=
  (Nat.length_toDigits_le_iff (by norm_num) hk).2 h

/-- The same for a number printed with `%<w>d`. -/
theorem scanInt_fmtInt (w n : Nat) (ws rest : List Char) (hn : n ≤ intMax) (hws : ∀ c ∈ ws, isSpaceC c = true)
    (hrest : ∀ c, rest.head? = some c → c.isDigit = false) :
    scanInt (ws ++ (fmtInt w n ++ rest)) = .ok (some ((n : Int), rest)) := by
  have e : ws ++ (fmtInt w n ++ rest) = (ws ++ List.replicate (w - (Nat.toDigits 10 n).length) ' ') ++ (Nat.toDigits 10 n ++ rest) := by
    simp [fmtInt, padLeft]
  rw [e]
  apply scanInt_digits n _ rest hn _ hrest
  intro c hc
  rcases List.mem_append.1 hc with h | h
  · exact hws c h
  · exact replicate_isSpace _ c h

/-- A padded text shorter than the width begins with a blank. -/
theorem padLeft_head {w : Nat} {s : List Char} (h : s.length < w) (rest : List Char) : (padLeft w s ++ rest).head? = some ' ' := by
  unfold padLeft
  obtain ⟨k, hk⟩ : ∃ k, w - s.length = k + 1 := ⟨w - s.length - 1, by omega⟩
  rw [hk, List.replicate_succ]
  rfl

theorem scanDbl_padLeft (io : DecimalIO) (w : Nat) (d : Dbl) (rest : List Char) (hd : io.Faithful d) :
    scanDbl io (padLeft w (io.fmt d) ++ '\n' :: rest) = some (d, '\n' :: rest) := by
  obtain ⟨h0, _, hsp, hscan⟩ := hd
  obtain ⟨c, r, hcr⟩ := List.exists_cons_of_ne_nil h0
  have h1 : (padLeft w (io.fmt d) ++ '\n' :: rest).dropWhile isSpaceC = io.fmt d ++ '\n' :: rest := by
    unfold padLeft
    rw [List.append_assoc]
    apply dropWhile_stop _ _ _ (replicate_isSpace _)
    intro x hx
    rw [hcr] at hx
    simp only [List.cons_append, List.head?_cons, Option.some.injEq] at hx
    rw [← hx]
    exact hsp c (by rw [hcr]; simp)
  obtain ⟨h2, h3⟩ := takeWhile_append_stop (fun c => !isSpaceC c) (io.fmt d) ('\n' :: rest) (fun c hc => by simp [hsp c hc])
    (fun c hc => by simp only [List.head?_cons, Option.some.injEq] at hc; rw [← hc]; decide)
  unfold scanDbl
  simp only [h1, h2, h3, hscan]
  rw [if_neg (by simp [hcr])]

/-- Reading one line of a matrix file. -/
theorem scanEntry_line (io : DecimalIO) (i j : Nat) (d : Dbl) (ws rest : List Char) (hi : i + 1 ≤ 99999) (hj : j + 1 ≤ 99999) (hd : io.Faithful d)
    (hws : ∀ c ∈ ws, isSpaceC c = true) :
    scanEntry io (ws ++ (matrixLine io 6 i j d ++ rest)) = .ok (some ((i : Int) + 1, (j : Int) + 1, d, '\n' :: rest)) := by
  have e : ws ++ (matrixLine io 6 i j d ++ rest) =
      ws ++ (fmtInt 6 (i + 1) ++ (fmtInt 6 (j + 1) ++ (padLeft 30 (io.fmt d) ++ '\n' :: rest))) := by simp [matrixLine]
  have hjl : (Nat.toDigits 10 (j + 1)).length < 6 := Nat.lt_succ_of_le (toDigits_length_le (by norm_num) (by omega))
  have hfl : (io.fmt d).length < 30 := by have := hd.2.1; omega
  have hblank : ' '.isDigit = false := by decide
  rw [e]
  unfold scanEntry
  rw [scanInt_fmtInt 6 (i + 1) ws _ (by unfold intMax; omega) hws (fun c hc => by
    rw [fmtInt, padLeft_head hjl] at hc; rw [← Option.some.inj hc]; exact hblank)]
  simp only [Outcome.ok_bind]
  rw [show fmtInt 6 (j + 1) ++ (padLeft 30 (io.fmt d) ++ '\n' :: rest) = [] ++ (fmtInt 6 (j + 1) ++ (padLeft 30 (io.fmt d) ++ '\n' :: rest)) from rfl,
    scanInt_fmtInt 6 (j + 1) [] _ (by unfold intMax; omega) (by simp) (fun c hc => by
    rw [padLeft_head hfl] at hc; rw [← Option.some.inj hc]; exact hblank)]
  simp only [Outcome.ok_bind, scanDbl_padLeft io 30 d rest hd]
  push_cast
  rfl

/-- An entry of a file: row, column (from 0) and value. -/
abbrev FileEntry := Nat × Nat × Dbl

/-- The lines of a list of entries. -/
def entryLines (io : DecimalIO) (L : List FileEntry) : List Char := L.flatMap fun e => matrixLine io 6 e.1 e.2.1 e.2.2

/-- The elements stored while reading a list of entries. -/
def storeEntries (dim : Nat) (m : List Dbl) (L : List FileEntry) : List Dbl := L.foldl (fun m e => m.set (dim * e.1 + e.2.1) e.2.2) m

theorem storeEntries_length (dim : Nat) (L : List FileEntry) (m : List Dbl) : (storeEntries dim m L).length = m.length := by
  induction L generalizing m with
  | nil => rfl
  | cons e L ih => unfold storeEntries at *; rw [List.foldl_cons, ih]; simp

theorem storeEntries_get (dim : Nat) (F : Nat → Dbl) (L : List FileEntry) (m : List Dbl) (hpos : ∀ e ∈ L, dim * e.1 + e.2.1 < m.length)
    (hF : ∀ e ∈ L, e.2.2 = F (dim * e.1 + e.2.1)) (p : Nat) :
    (storeEntries dim m L)[p]? = if ∃ e ∈ L, dim * e.1 + e.2.1 = p then some (F p) else m[p]? := by
  induction L generalizing m with
  | nil => simp [storeEntries]
  | cons e L ih =>
    have hstep : storeEntries dim m (e :: L) = storeEntries dim (m.set (dim * e.1 + e.2.1) e.2.2) L := rfl
    rw [hstep, ih _ (fun e' he' => by rw [List.length_set]; exact hpos e' (by simp [he'])) (fun e' he' => hF e' (by simp [he']))]
    by_cases h : ∃ e' ∈ L, dim * e'.1 + e'.2.1 = p
    · rw [if_pos h, if_pos (by obtain ⟨e', he', hp⟩ := h; exact ⟨e', by simp [he'], hp⟩)]
    · rw [if_neg h]
      by_cases he : dim * e.1 + e.2.1 = p
      · rw [if_pos ⟨e, by simp, he⟩, ← he, List.getElem?_set_self (hpos e (by simp)), hF e (by simp)]
      · rw [if_neg (by
          rintro ⟨e', he', hp⟩
          rcases List.mem_cons.1 he' with rfl | h'
          · exact he hp
          · exact h ⟨e', h', hp⟩), List.getElem?_set_ne he]

theorem readEntries_stop (io : DecimalIO) (dim : Int) (m : List Dbl) (text : List Char) (h : scanEntry io text = .ok none) :
    readEntries io dim m text = .ok (some m) := by
  rw [readEntries, h]
  rfl

/-- Reading the lines of a list of entries, followed by something that is not an entry. -/
theorem readEntries_lines (io : DecimalIO) (dim : Nat) (hdim : dim ≤ 99999) (L : List FileEntry) (tail : List Char)
    (htail : scanEntry io ('\n' :: tail) = .ok none) (hL : ∀ e ∈ L, e.1 < dim ∧ e.2.1 < dim ∧ io.Faithful e.2.2) (m : List Dbl)
    (hm : m.length = dim * dim) :
    readEntries io dim m ('\n' :: (entryLines io L ++ tail)) = .ok (some (storeEntries dim m L)) := by
  induction L generalizing m with
  | nil => exact readEntries_stop io dim m _ htail
  | cons e L ih =>
    obtain ⟨he1, he2, he3⟩ := hL e (by simp)
    have e1 : ('\n' :: (entryLines io (e :: L) ++ tail)) =
        ['\n'] ++ (matrixLine io 6 e.1 e.2.1 e.2.2 ++ (entryLines io L ++ tail)) := by simp [entryLines]
    have hscan := scanEntry_line io e.1 e.2.1 e.2.2 ['\n'] (entryLines io L ++ tail) (by omega) (by omega) he3 (by simp; decide)
    rw [← e1] at hscan
    have hidx : ((dim : Int) * ((e.1 : Int) + 1 - 1) + ((e.2.1 : Int) + 1 - 1)).toNat = dim * e.1 + e.2.1 := by
      rw [show (dim : Int) * ((e.1 : Int) + 1 - 1) + ((e.2.1 : Int) + 1 - 1) = ((dim * e.1 + e.2.1 : Nat) : Int) by push_cast; ring]
      exact Int.toNat_natCast _
    have hlt : dim * e.1 + e.2.1 < dim * dim := by
      calc dim * e.1 + e.2.1 < dim * e.1 + dim := by omega
        _ = dim * (e.1 + 1) := by ring
        _ ≤ dim * dim := Nat.mul_le_mul_left _ he1
    have hlen : ('\n' :: (entryLines io L ++ tail)).length < ('\n' :: (entryLines io (e :: L) ++ tail)).length := by
      rw [e1]
      simp [matrixLine]
      omega
    rw [readEntries, hscan]
    simp only [Outcome.ok_bind]
    rw [if_neg (by omega), hidx]
    rw [show wr m (dim * e.1 + e.2.1) e.2.2 = .ok (m.set (dim * e.1 + e.2.1) e.2.2) by rw [wr, if_pos (by rw [hm]; exact hlt)]]
    simp only [Outcome.ok_bind]
    rw [dif_pos hlen, ih (fun e' he' => hL e' (by simp [he'])) _ (by simp [hm])]
    rfl

/-- Reading entries in range and going on. -/
theorem readEntries_go (io : DecimalIO) (dim : Nat) (hdim : dim ≤ 99999) (L : List FileEntry) (rest : List Char)
    (hL : ∀ e ∈ L, e.1 < dim ∧ e.2.1 < dim ∧ io.Faithful e.2.2) (m : List Dbl) (hm : m.length = dim * dim) :
    readEntries io dim m ('\n' :: (entryLines io L ++ rest)) = readEntries io dim (storeEntries dim m L) ('\n' :: rest) := by
  induction L generalizing m with
  | nil => rfl
  | cons e L ih =>
    obtain ⟨he1, he2, he3⟩ := hL e (by simp)
    have e1 : ('\n' :: (entryLines io (e :: L) ++ rest)) =
        ['\n'] ++ (matrixLine io 6 e.1 e.2.1 e.2.2 ++ (entryLines io L ++ rest)) := by simp [entryLines]
    have hscan := scanEntry_line io e.1 e.2.1 e.2.2 ['\n'] (entryLines io L ++ rest) (by omega) (by omega) he3 (by simp; decide)
    rw [← e1] at hscan
    have hidx : ((dim : Int) * ((e.1 : Int) + 1 - 1) + ((e.2.1 : Int) + 1 - 1)).toNat = dim * e.1 + e.2.1 := by
      rw [show (dim : Int) * ((e.1 : Int) + 1 - 1) + ((e.2.1 : Int) + 1 - 1) = ((dim * e.1 + e.2.1 : Nat) : Int) by push_cast; ring]
      exact Int.toNat_natCast _
    have hlt : dim * e.1 + e.2.1 < dim * dim := by
      calc dim * e.1 + e.2.1 < dim * e.1 + dim := by omega
        _ = dim * (e.1 + 1) := by ring
        _ ≤ dim * dim := Nat.mul_le_mul_left _ he1
    have hlen : ('\n' :: (entryLines io L ++ rest)).length < ('\n' :: (entryLines io (e :: L) ++ rest)).length := by
      rw [e1]
      simp [matrixLine]
      omega
    rw [readEntries, hscan]
    simp only [Outcome.ok_bind]
    rw [if_neg (by omega), hidx]
    rw [show wr m (dim * e.1 + e.2.1) e.2.2 = .ok (m.set (dim * e.1 + e.2.1) e.2.2) by rw [wr, if_pos (by rw [hm]; exact hlt)]]
    simp only [Outcome.ok_bind]
    rw [dif_pos hlen, ih (fun e' he' => hL e' (by simp [he'])) _ (by simp [hm])]
    rfl

/-! ## What is printed -/

open Classical in
/-- The entries printed for row `i`, up to column `n`. -/
noncomputable def rowEntries (dim : Nat) (matrix : List Dbl) (i n : Nat) : List FileEntry :=
  (List.range n).filterMap fun j => if (matrix.getD (i * dim + j) .nan).AbsGt (1e-14) then some (i, j, matrix.getD (i * dim + j) .nan) else none

/-- The entries printed for the rows before `n`. -/
noncomputable def lowerEntries (dim : Nat) (matrix : List Dbl) (n : Nat) : List FileEntry :=
  (List.range n).flatMap fun i => rowEntries dim matrix i (i + 1)

theorem mem_rowEntries {dim : Nat} {matrix : List Dbl} {i n : Nat} {e : FileEntry} :
    e ∈ rowEntries dim matrix i n ↔ e.1 = i ∧ e.2.1 < n ∧ e.2.2 = matrix.getD (i * dim + e.2.1) .nan ∧ e.2.2.AbsGt (1e-14) := by
  classical
  obtain ⟨a, b, d⟩ := e
  unfold rowEntries
  simp only [List.mem_filterMap, List.mem_range]
  constructor
  · rintro ⟨j, hj, h⟩
    split_ifs at h with hgt
    · simp only [Option.some.injEq, Prod.mk.injEq] at h
      obtain ⟨rfl, rfl, rfl⟩ := h
      exact ⟨rfl, hj, rfl, hgt⟩
  · rintro ⟨h1, h2, h3, h4⟩
    subst h1
    refine ⟨b, h2, ?_⟩
    rw [← h3, if_pos h4]

theorem mem_lowerEntries {dim : Nat} {matrix : List Dbl} {n : Nat} {e : FileEntry} :
    e ∈ lowerEntries dim matrix n ↔ e.1 < n ∧ e.2.1 ≤ e.1 ∧ e.2.2 = matrix.getD (e.1 * dim + e.2.1) .nan ∧ e.2.2.AbsGt (1e-14) := by
  unfold lowerEntries
  simp only [List.mem_flatMap, List.mem_range, mem_rowEntries]
  constructor
  · rintro ⟨i, hi, rfl, h2, h3, h4⟩
    exact ⟨hi, by omega, h3, h4⟩
  · rintro ⟨h1, h2, h3, h4⟩
    exact ⟨e.1, h1, rfl, by omega, h3, h4⟩

theorem entryLines_append (io : DecimalIO) (a b : List FileEntry) : entryLines io (a ++ b) = entryLines io a ++ entryLines io b := by
  simp [entryLines]

theorem printRow (io : DecimalIO) (dim : Nat) (matrix : List Dbl) (i n : Nat) (out : List Char) (hi : ∀ j < n, i * dim + j ≤ intMax)
    (hm : ∀ j < n, i * dim + j < matrix.length) (body : Nat → List Char → Outcome (List Char))
    (hbody : ∀ j out, body j out = (do
      Outcome.valid (i * dim + j ≤ intMax)
      let d ← rd matrix (i * dim + j)
      .ok (open Classical in if d.AbsGt (1e-14) then out ++ matrixLine io 6 i j d else out))) :
    forRange n out body = .ok (out ++ entryLines io (rowEntries dim matrix i n)) := by
  classical
  induction n with
  | zero => simp [forRange_zero, rowEntries, entryLines]
  | succ n ih =>
    rw [forRange_succ, ih (fun j hj => hi j (by omega)) (fun j hj => hm j (by omega)), Outcome.ok_bind, hbody,
      Outcome.valid_pos (hi n (by omega)), Outcome.ok_bind, rd_ok (hm n (by omega)), Outcome.ok_bind]
    have hget : matrix.getD (i * dim + n) .nan = matrix[i * dim + n]'(hm n (by omega)) := by
      rw [List.getD_eq_getElem?_getD, List.getElem?_eq_getElem (hm n (by omega))]; rfl
    have hrow : rowEntries dim matrix i (n + 1) = rowEntries dim matrix i n ++
        (if (matrix.getD (i * dim + n) .nan).AbsGt (1e-14) then [(i, n, matrix.getD (i * dim + n) .nan)] else []) := by
      unfold rowEntries
      rw [List.range_succ, List.filterMap_append]
      congr 1
      by_cases h : (matrix.getD (i * dim + n) .nan).AbsGt (1e-14)
      · simp only [List.filterMap_cons, if_pos h, List.filterMap_nil]
      · simp only [List.filterMap_cons, if_neg h, List.filterMap_nil]
    rw [hrow, entryLines_append, hget]
    by_cases h : (matrix[i * dim + n]'(hm n (by omega))).AbsGt (1e-14)
    · rw [if_pos h, if_pos h]; simp [entryLines]
    · rw [if_neg h, if_neg h]; simp [entryLines]

theorem lower_index {dim i j : Nat} (hi : i < dim) (hj : j < dim) : i * dim + j < dim * dim := by
  calc i * dim + j < i * dim + dim := by omega
    _ = (i + 1) * dim := by ring
    _ ≤ dim * dim := Nat.mul_le_mul_right _ hi

/-- The contents of the file. -/
theorem printLower_eq (io : DecimalIO) (dim : Nat) (matrix : List Dbl) (hdim : dim ≤ 46340) (hm : dim * dim ≤ matrix.length) :
    printLower io dim matrix = .ok (fmtInt 6 dim ++ '\n' :: entryLines io (lowerEntries dim matrix dim)) := by
  classical
  have hsq : dim * dim ≤ intMax := le_trans (Nat.mul_le_mul hdim hdim) (by unfold intMax; norm_num)
  have key : ∀ n, n ≤ dim → ∀ body : Nat → List Char → Outcome (List Char), (∀ i out, i < dim → body i out =
      .ok (out ++ entryLines io (rowEntries dim matrix i (i + 1)))) →
      forRange n (fmtInt 6 dim ++ ['\n']) body = .ok (fmtInt 6 dim ++ '\n' :: entryLines io (lowerEntries dim matrix n)) := by
    intro n hn body hb
    induction n with
    | zero => simp [forRange_zero, lowerEntries, entryLines]
    | succ n ih =>
      rw [forRange_succ, ih (by omega), Outcome.ok_bind, hb n _ (by omega)]
      have : lowerEntries dim matrix (n + 1) = lowerEntries dim matrix n ++ rowEntries dim matrix n (n + 1) := by
        unfold lowerEntries
        rw [List.range_succ, List.flatMap_append]
        simp
      rw [this, entryLines_append]
      simp
  unfold printLower
  apply key dim le_rfl
  intro i out hi
  apply printRow
  · intro j hj; have := lower_index hi (show j < dim by omega); omega
  · intro j hj; have := lower_index hi (show j < dim by omega); omega
  · intro j out; rfl

theorem scanEntry_end (io : DecimalIO) : scanEntry io ['\n'] = .ok none := rfl

/-- The matrix read from the entries of a matrix. -/
theorem storeEntries_lower (dim : Nat) (matrix : List Dbl) (i j : Nat) (hi : i < dim) (hj : j < dim) (hm : dim * dim ≤ matrix.length) :
    (storeEntries dim (List.replicate (dim * dim) (.fin 0)) (lowerEntries dim matrix dim))[i * dim + j]? =
      some (keptElement (matrix.getD (i * dim + j) .nan) i j) := by
  classical
  have hlt := lower_index hi hj
  rw [storeEntries_get dim (fun p => matrix.getD p .nan) _ _ (fun e he => by
      obtain ⟨h1, h2, _, _⟩ := mem_lowerEntries.1 he
      rw [List.length_replicate, mul_comm dim e.1]
      exact lower_index h1 (by omega))
    (fun e he => by rw [mul_comm dim e.1]; exact (mem_lowerEntries.1 he).2.2.1)]
  have hiff : (∃ e ∈ lowerEntries dim matrix dim, dim * e.1 + e.2.1 = i * dim + j) ↔ j ≤ i ∧ (matrix.getD (i * dim + j) .nan).AbsGt (1e-14) := by
    constructor
    · rintro ⟨e, he, hp⟩
      obtain ⟨h1, h2, h3, h4⟩ := mem_lowerEntries.1 he
      have hr : e.1 = i := by
        have := congrArg (· / dim) hp
        rwa [Nat.mul_add_div (by omega), Nat.div_eq_of_lt (by omega : e.2.1 < dim), mul_comm i dim, Nat.mul_add_div (by omega),
          Nat.div_eq_of_lt hj, add_zero, add_zero] at this
      have hc : e.2.1 = j := by rw [hr, mul_comm] at hp; omega
      rw [hr, hc] at h3
      exact ⟨by omega, h3 ▸ h4⟩
    · rintro ⟨h1, h2⟩
      exact ⟨(i, j, matrix.getD (i * dim + j) .nan), mem_lowerEntries.2 ⟨hi, h1, rfl, h2⟩, by rw [mul_comm]⟩
  by_cases h : j ≤ i ∧ (matrix.getD (i * dim + j) .nan).AbsGt (1e-14)
  · rw [if_pos (hiff.2 h), keptElement, if_pos h]
  · rw [if_neg (fun hc => h (hiff.1 hc)), keptElement, if_neg h, List.getElem?_replicate, if_pos hlt]

/-! ## Comparing -/

open Classical in
/-- The comparison finds the first difference in the order of the rows. -/
theorem compareMatrices_eq (dim : Nat) (m1 m2 : List Dbl) (t : ℝ) (h1 : m1.length = dim * dim) (h2 : m2.length = dim * dim) :
    ∃ r, compareMatrices dim m1 m2 t = .ok r ∧
      (r = none → ∀ i < dim, ∀ j < dim, ¬ ((m1.getD (i * dim + j) .nan).sub (m2.getD (i * dim + j) .nan)).AbsGt t) ∧
      (∀ p, r = some p → p.1 < dim ∧ p.2 < dim ∧ ((m1.getD (p.1 * dim + p.2) .nan).sub (m2.getD (p.1 * dim + p.2) .nan)).AbsGt t ∧
        ∀ i < dim, ∀ j < dim, i < p.1 ∨ (i = p.1 ∧ j < p.2) →
          ¬ ((m1.getD (i * dim + j) .nan).sub (m2.getD (i * dim + j) .nan)).AbsGt t) := by
  set D : Nat → Nat → Prop := fun i j => ((m1.getD (i * dim + j) .nan).sub (m2.getD (i * dim + j) .nan)).AbsGt t with hD
  have hget : ∀ (m : List Dbl) (p : Nat), p < m.length → rd m p = .ok (m.getD p .nan) := fun m p hp => by
    rw [rd_ok hp, List.getD_eq_getElem?_getD, List.getElem?_eq_getElem hp]; rfl
  unfold compareMatrices
  refine forRange_spec (fun n r => (r = none → ∀ i < n, ∀ j < dim, ¬ D i j) ∧
    ∀ p, r = some p → p.1 < n ∧ p.2 < dim ∧ D p.1 p.2 ∧ ∀ i < dim, ∀ j < dim, i < p.1 ∨ (i = p.1 ∧ j < p.2) → ¬ D i j) ?_ ?_ ?_
  · exact ⟨fun _ i hi => absurd hi (by omega), fun p hp => by simp at hp⟩
  · rintro i r hi ⟨hn, hs⟩
    cases r with
    | some p =>
      refine ⟨some p, rfl, by simp, fun q hq => ?_⟩
      obtain ⟨a, b⟩ := hs q hq
      exact ⟨by omega, b⟩
    | none =>
      have hprev := hn rfl
      refine forRange_spec (fun n r => (r = none → ∀ j < n, ¬ D i j) ∧
        ∀ p, r = some p → p.1 = i ∧ p.2 < n ∧ D p.1 p.2 ∧ ∀ j < p.2, ¬ D i j) ?_ ?_ ?_
      · exact ⟨fun _ j hj => absurd hj (by omega), fun p hp => by simp at hp⟩
      · rintro j r hj ⟨hn2, hs2⟩
        cases r with
        | some p =>
          refine ⟨some p, rfl, by simp, fun q hq => ?_⟩
          obtain ⟨a, b, c⟩ := hs2 q hq
          exact ⟨a, by omega, c⟩
        | none =>
          have hlt := lower_index hi hj
          have hp2 := hn2 rfl
          simp only [hget m1 _ (by omega : i * dim + j < m1.length), hget m2 _ (by omega : i * dim + j < m2.length), Outcome.ok_bind]
          refine ⟨_, rfl, ?_, ?_⟩
          · intro h j' hj'
            by_cases hd : D i j
            · rw [if_pos hd] at h; simp at h
            · rcases Nat.lt_succ_iff_lt_or_eq.1 hj' with h' | rfl
              · exact hp2 j' h'
              · exact hd
          · intro p hp
            by_cases hd : D i j
            · rw [if_pos hd] at hp
              rw [← Option.some.inj hp]
              exact ⟨rfl, by omega, hd, hp2⟩
            · rw [if_neg hd] at hp; simp at hp
      · rintro r ⟨a, b⟩
        refine ⟨fun hr i' hi' j hj => ?_, fun p hp => ?_⟩
        · rcases Nat.lt_succ_iff_lt_or_eq.1 hi' with h' | rfl
          · exact hprev i' h' j hj
          · exact a hr j hj
        · obtain ⟨c1, c2, c3, c4⟩ := b p hp
          refine ⟨by omega, c2, c3, fun i' hi' j hj h => ?_⟩
          rcases h with h | ⟨h, h'⟩
          · exact hprev i' (by omega) j hj
          · rw [h, c1]; exact c4 j h'
  · rintro r ⟨a, b⟩
    exact ⟨a, b⟩

end Libgrpp
