import Verif.Lemmas.TestScript

/-! # Lemmas on reading arbitrary files with `compare_matrices` -/

namespace Libgrpp

theorem scanInt_cases (text : List Char) : scanInt text = .ub ∨ scanInt text = .ok none ∨ ∃ v r, scanInt text = .ok (some (v, r)) ∧ r <:+ text := by
  unfold scanInt
  set t := text.dropWhile isSpaceC with ht
  have h1 : t <:+ text := List.dropWhile_suffix _
  set u := if t.head? = some '-' ∨ t.head? = some '+' then t.tail else t with hu
  have h2 : u <:+ t := by
    rw [hu]
    split_ifs
    · exact List.tail_suffix t
    · exact List.suffix_rfl
  simp only
  by_cases hd : u.takeWhile Char.isDigit = []
  · rw [if_pos hd]
    exact .inr (.inl rfl)
  · rw [if_neg hd]
    by_cases hv : -(intMax : Int) - 1 ≤ signedVal (decide (t.head? = some '-')) (u.takeWhile Char.isDigit) ∧
        signedVal (decide (t.head? = some '-')) (u.takeWhile Char.isDigit) ≤ intMax
    · refine .inr (.inr ⟨signedVal (decide (t.head? = some '-')) (u.takeWhile Char.isDigit), u.dropWhile Char.isDigit, ?_, ((List.dropWhile_suffix _).trans h2).trans h1⟩)
      rw [Outcome.valid_pos hv]
      rfl
    · refine .inl ?_
      rw [Outcome.valid_neg hv]
      rfl

theorem scanDbl_suffix (io : DecimalIO) (text : List Char) (d : Dbl) (r : List Char) (h : scanDbl io text = some (d, r)) : r <:+ text := by
  unfold scanDbl at h
  simp only at h
  split at h
  · split_ifs at h
    simp only [Option.some.injEq, Prod.mk.injEq] at h
    rw [← h.2]
    exact (List.dropWhile_suffix _).trans (List.dropWhile_suffix _)
  · simp at h

/-- Every integer that could be read anywhere in the text fits an `int`. -/
def IntsFit (text : List Char) : Prop := ∀ t, t <:+ text → scanInt t ≠ .ub

theorem IntsFit.suffix {s t : List Char} (h : IntsFit t) (hs : s <:+ t) : IntsFit s := fun u hu => h u (hu.trans hs)

theorem scanEntry_cases (io : DecimalIO) (text : List Char) (h : IntsFit text) :
    scanEntry io text = .ok none ∨ ∃ i j d r, scanEntry io text = .ok (some (i, j, d, r)) ∧ r <:+ text := by
  unfold scanEntry
  rcases scanInt_cases text with h1 | h1 | ⟨i, r, h1, hr⟩
  · exact absurd h1 (h _ List.suffix_rfl)
  · rw [h1]; exact .inl rfl
  · rw [h1]
    simp only [Outcome.ok_bind]
    rcases scanInt_cases r with h2 | h2 | ⟨j, r2, h2, hr2⟩
    · exact absurd h2 (h _ hr)
    · rw [h2]; exact .inl rfl
    · rw [h2]
      simp only [Outcome.ok_bind]
      cases h3 : scanDbl io r2 with
      | none => exact .inl rfl
      | some p => exact .inr ⟨i, j, p.1, p.2, rfl, (scanDbl_suffix io r2 p.1 p.2 h3).trans (hr2.trans hr)⟩

theorem readEntries_safe (io : DecimalIO) (dim : Int) (M : List Dbl) (text : List Char) (h : IntsFit text) (hM : M.length = (dim * dim).toNat) :
    ∃ R, readEntries io dim M text = .ok R := by
  induction hn : text.length using Nat.strong_induction_on generalizing M text with
  | _ n ih =>
    rw [readEntries]
    rcases scanEntry_cases io text h with h1 | ⟨i, j, d, r, h1, hr⟩
    · rw [h1]; exact ⟨_, rfl⟩
    · rw [h1]
      simp only [Outcome.ok_bind]
      by_cases hb : ¬ (1 ≤ i ∧ i ≤ dim) ∨ ¬ (1 ≤ j ∧ j ≤ dim)
      · rw [if_pos hb]; exact ⟨_, rfl⟩
      · rw [if_neg hb]
        push Not at hb
        obtain ⟨⟨hi1, hi2⟩, hj1, hj2⟩ := hb
        have hlt : (dim * (i - 1) + (j - 1)).toNat < M.length := by
          rw [hM]
          have h1 : dim * (i - 1) ≤ dim * (dim - 1) := mul_le_mul_of_nonneg_left (by omega) (by omega)
          have h2 : dim * (dim - 1) = dim * dim - dim := by ring
          have h3 : 0 ≤ dim * (i - 1) := mul_nonneg (by omega) (by omega)
          omega
        rw [wr_ok d hlt]
        simp only [Outcome.ok_bind]
        split_ifs with hl
        · exact ih _ (hn ▸ hl) _ r (h.suffix hr) (by rw [List.length_set]; exact hM) rfl
        · exact ⟨_, rfl⟩

theorem storeEntries_absent (dim : Nat) (L : List FileEntry) (m : List Dbl) (p : Nat) (hL : ∀ e' ∈ L, dim * e'.1 + e'.2.1 ≠ p) :
    (storeEntries dim m L)[p]? = m[p]? := by
  induction L generalizing m with
  | nil => rfl
  | cons a L ih =>
    show (storeEntries dim (m.set (dim * a.1 + a.2.1) a.2.2) L)[p]? = _
    rw [ih _ (fun e' he' => hL e' (by simp [he'])), List.getElem?_set_ne (hL a (by simp))]

/-- The last entry of a list at a position. -/
theorem storeEntries_last (dim : Nat) (L₁ L₂ : List FileEntry) (e : FileEntry) (m : List Dbl) (hp : dim * e.1 + e.2.1 < m.length)
    (hlast : ∀ e' ∈ L₂, dim * e'.1 + e'.2.1 ≠ dim * e.1 + e.2.1) : (storeEntries dim m (L₁ ++ e :: L₂))[dim * e.1 + e.2.1]? = some e.2.2 := by
  have h : storeEntries dim m (L₁ ++ e :: L₂) = storeEntries dim ((storeEntries dim m L₁).set (dim * e.1 + e.2.1) e.2.2) L₂ := by
    simp [storeEntries, List.foldl_append]
  rw [h, storeEntries_absent _ _ _ _ hlast, List.getElem?_set_self (by rw [storeEntries_length]; exact hp)]

/-- A negative dimension is read by `%d`. -/
theorem scanInt_negative (n : Nat) (rest : List Char) (hn : n ≤ intMax) (hrest : ∀ c, rest.head? = some c → c.isDigit = false) :
    scanInt ('-' :: (Nat.toDigits 10 n ++ rest)) = .ok (some (-(n : Int), rest)) := by
  obtain ⟨h1, h2⟩ := takeWhile_append_stop Char.isDigit (Nat.toDigits 10 n) rest (toDigits_isDigit n) hrest
  obtain ⟨c, r, hc, -⟩ := toDigits_head n
  have hd : ('-' :: (Nat.toDigits 10 n ++ rest)).dropWhile isSpaceC = '-' :: (Nat.toDigits 10 n ++ rest) := by
    rw [List.dropWhile_cons, if_neg (by decide)]
  have hne : Nat.toDigits 10 n ≠ [] := by rw [hc]; simp
  have hv : Nat.ofDigitChars 10 (Nat.toDigits 10 n) 0 = n := by simp
  unfold scanInt
  rw [hd]
  simp only [List.head?_cons, true_or, if_true, List.tail_cons, h1, h2, if_neg hne, signedVal, decide_true, hv]
  rw [Outcome.valid_pos (by omega)]
  rfl

end Libgrpp
