import Verif.Lemmas.MatrixSafe

/-! # C116: the comparison program on arbitrary files

C102 and C113 are about files written by the driver programs. Here the files are arbitrary texts. -/

namespace Libgrpp

/-- A text whose first number, if it begins with one, is small enough that its square is an `int`, and in which no number is too large for an `int`. -/
def MatrixText (text : List Char) : Prop := IntsFit text ∧ ∀ n r, scanInt text = .ok (some (n, r)) → n * n ≤ intMax

/-- **Reading is safe.** For every text whatsoever within the range of `int`, `read_matrix` returns; whatever lines the file has, nothing is written
outside the matrix, and the matrix it returns has the square of the dimension elements. -/
theorem matrix_read_safe (io : DecimalIO) (text : List Char) (h : MatrixText text) :
    ∃ R, readMatrix io text = .ok R ∧ ∀ n M, R = some (n, M) → M.length = (n * n).toNat ∧ n * n ≤ intMax := by
  have key : ∃ R, readMatrix io text = .ok R := by
    unfold readMatrix
    rcases scanInt_cases text with h1 | h1 | ⟨n, r, h1, hr⟩
    · exact absurd h1 (h.1 _ List.suffix_rfl)
    · rw [h1]; exact ⟨_, rfl⟩
    · rw [h1]
      simp only [Outcome.ok_bind]
      rw [Outcome.valid_pos (h.2 n r h1)]
      simp only [Outcome.ok_bind]
      obtain ⟨R, hR⟩ := readEntries_safe io n (List.replicate (n * n).toNat (.fin 0)) r (h.1.suffix hr) (by simp)
      rw [hR]
      cases R <;> exact ⟨_, rfl⟩
  obtain ⟨R, hR⟩ := key
  refine ⟨R, hR, fun n M hM => ?_⟩
  subst hM
  refine ⟨readMatrix_length io text n M hR, ?_⟩
  unfold readMatrix at hR
  rcases scanInt_cases text with h1 | h1 | ⟨k, r, h1, hr⟩
  · exact absurd h1 (h.1 _ List.suffix_rfl)
  · rw [h1] at hR; simp at hR
  · rw [h1] at hR
    have hk := h.2 k r h1
    simp only [Outcome.ok_bind] at hR
    rw [Outcome.valid_pos hk] at hR
    simp only [Outcome.ok_bind] at hR
    obtain ⟨R, hR'⟩ := readEntries_safe io k (List.replicate (k * k).toNat (.fin 0)) r (h.1.suffix hr) (by simp)
    rw [hR'] at hR
    cases R with
    | none => simp at hR
    | some m =>
      simp only [Outcome.ok_bind, Outcome.ok.injEq, Option.some.injEq, Prod.mk.injEq] at hR
      rw [← hR.1]
      exact hk

/-- **The comparison is safe.** For every directory and every two names: if the files are missing or are texts within the range of `int`, the comparison
ends with status 0 or 1, for every threshold. -/
theorem matrix_compare_safe (io : DecimalIO) (t : Dbl) (d : Dir) (a b : String) (ha : ∀ text, d a = some text → MatrixText text)
    (hb : ∀ text, d b = some text → MatrixText text) : compareFiles io t d a b = .ok 0 ∨ compareFiles io t d a b = .ok 1 := by
  have key : ∀ c, (∀ text, d c = some text → MatrixText text) → ∃ R, readMatrixFile io d c = .ok R := by
    intro c hc
    unfold readMatrixFile
    cases hd : d c with
    | none => exact ⟨_, rfl⟩
    | some text =>
      obtain ⟨R, hR, -⟩ := matrix_read_safe io text (hc text hd)
      exact ⟨R, hR⟩
  obtain ⟨A, hA⟩ := key a ha
  obtain ⟨B, hB⟩ := key b hb
  rcases A with _ | ⟨n, A⟩
  · refine .inr ?_
    unfold compareFiles
    rw [hA]
    rfl
  · rcases B with _ | ⟨m, B⟩
    · refine .inr ?_
      unfold compareFiles
      rw [hA]
      simp only [Outcome.ok_bind]
      rw [hB]
      rfl
    · rcases compareFiles_read io t d a b n m A B hA hB with ⟨h, -⟩ | ⟨h, -⟩
      · exact .inl h
      · exact .inr h

/-- A dimension 2, an entry in row 3, and something that is not a number. -/
def oddText : List Char := ['2', '\n', '3', ' ', '1', ' ', 'x']

theorem oddText_ok : MatrixText oddText := by
  constructor
  · intro t ht
    rw [← List.mem_tails] at ht
    simp only [oddText, List.tails, List.mem_cons, List.not_mem_nil, or_false] at ht
    rcases ht with rfl | rfl | rfl | rfl | rfl | rfl | rfl | rfl <;>
      simp [scanInt, isSpaceC, signedVal, Nat.ofDigitChars, Char.isDigit, Outcome.valid, intMax]
  · intro n r h
    simp [oddText, scanInt, isSpaceC, signedVal, Nat.ofDigitChars, Char.isDigit, Outcome.valid, intMax] at h
    rw [← h.1]
    unfold intMax
    norm_num

example (io : DecimalIO) : ∃ R, readMatrix io oddText = .ok R ∧ ∀ n M, R = some (n, M) → M.length = (n * n).toNat ∧ n * n ≤ intMax :=
  matrix_read_safe io oddText oddText_ok

example (io : DecimalIO) (t : Dbl) : compareFiles io t (fun s => if s = "a" then some oddText else none) "a" "b" = .ok 0 ∨
    compareFiles io t (fun s => if s = "a" then some oddText else none) "a" "b" = .ok 1 :=
  matrix_compare_safe io t _ "a" "b" (fun text h => by simp at h; rw [← h]; exact oddText_ok) (fun text h => by simp at h)

/-- **Repeated lines.** A file may list its entries in any order and more than once, above or below the diagonal: of the lines for one element the last
one counts, and elements without a line are zero. -/
theorem matrix_file_last_line (io : DecimalIO) (dim : Nat) (hdim : dim ≤ 46340) (L : List (Nat × Nat × Dbl))
    (hL : ∀ e ∈ L, e.1 < dim ∧ e.2.1 < dim ∧ io.Faithful e.2.2) :
    ∃ R, readMatrix io (fmtInt 6 dim ++ '\n' :: L.flatMap fun e => matrixLine io 6 e.1 e.2.1 e.2.2) = .ok (some ((dim : Int), R)) ∧
      (∀ L₁ i j d L₂, L = L₁ ++ (i, j, d) :: L₂ → (∀ e ∈ L₂, e.1 = i → e.2.1 ≠ j) → R[dim * i + j]? = some d) ∧
      ∀ i j, i < dim → j < dim → (∀ e ∈ L, e.1 = i → e.2.1 ≠ j) → R[dim * i + j]? = some (.fin 0) := by
  have hsq : dim * dim ≤ intMax := le_trans (Nat.mul_le_mul hdim hdim) (by unfold intMax; norm_num)
  have hhead := scanInt_fmtInt 6 dim [] ('\n' :: (entryLines io L ++ [])) (by unfold intMax; omega) (by simp)
    (fun c hc => by simp only [List.head?_cons, Option.some.injEq] at hc; rw [← hc]; decide)
  rw [List.nil_append] at hhead
  have hpos : ∀ {i j i' j'}, j < dim → j' < dim → dim * i' + j' = dim * i + j → i' = i ∧ j' = j := by
    intro i j i' j' hj hj' h
    have h0 : 0 < dim := by omega
    have e1 := congrArg (· / dim) h
    have e2 := congrArg (· % dim) h
    simp only [Nat.mul_add_div h0, Nat.mul_add_mod, Nat.div_eq_of_lt hj, Nat.div_eq_of_lt hj', Nat.mod_eq_of_lt hj, Nat.mod_eq_of_lt hj', add_zero] at e1 e2
    exact ⟨e1, e2⟩
  refine ⟨storeEntries dim (List.replicate (dim * dim) (.fin 0)) L, ?_, ?_, ?_⟩
  · have ht : (fmtInt 6 dim ++ '\n' :: L.flatMap fun e => matrixLine io 6 e.1 e.2.1 e.2.2) = fmtInt 6 dim ++ '\n' :: (entryLines io L ++ []) := by
      rw [List.append_nil]; rfl
    rw [ht]
    unfold readMatrix
    rw [hhead]
    simp only [Outcome.ok_bind]
    rw [Outcome.valid_pos (by exact_mod_cast hsq), Outcome.ok_bind,
      show ((dim : Int) * (dim : Int)).toNat = dim * dim by rw [← Nat.cast_mul]; exact Int.toNat_natCast _,
      readEntries_lines io dim (by omega) L [] (scanEntry_end io) hL _ (by simp)]
    rfl
  · rintro L₁ i j d L₂ rfl hlast
    obtain ⟨hi, hj, -⟩ := hL (i, j, d) (by simp)
    have hlt := lower_index hi hj
    refine storeEntries_last dim L₁ L₂ (i, j, d) _ ?_ fun e he h => ?_
    · rw [List.length_replicate, Nat.mul_comm dim i]; exact hlt
    · obtain ⟨-, he2, -⟩ := hL e (by simp [he])
      obtain ⟨h1, h2⟩ := hpos hj he2 h
      exact hlast e he h1 h2
  · intro i j hi hj habs
    have hlt := lower_index hi hj
    rw [storeEntries_absent dim L _ _ fun e he h => ?_, List.getElem?_replicate, if_pos (by rw [Nat.mul_comm dim i]; exact hlt)]
    obtain ⟨-, he2, -⟩ := hL e he
    obtain ⟨h1, h2⟩ := hpos hj he2 h
    exact habs e he h1 h2

/-- The element (2, 1) is given twice, the last time as 1; the element (1, 2) is missing. -/
example : ∃ R, readMatrix exampleIO (fmtInt 6 2 ++ '\n' :: ([(1, 0, .fin 2), (0, 0, .fin 2), (1, 0, .fin 1)] : List (Nat × Nat × Dbl)).flatMap
      fun e => matrixLine exampleIO 6 e.1 e.2.1 e.2.2) = .ok (some (2, R)) ∧ R[2]? = some (.fin 1) ∧ R[0]? = some (.fin 2) ∧ R[1]? = some (.fin 0) := by
  obtain ⟨R, h1, h2, h3⟩ := matrix_file_last_line exampleIO 2 (by norm_num) [(1, 0, .fin 2), (0, 0, .fin 2), (1, 0, .fin 1)] (by
    intro e he
    simp only [List.mem_cons, List.not_mem_nil, or_false] at he
    rcases he with rfl | rfl | rfl
    · exact ⟨by norm_num, by norm_num, exampleIO_two⟩
    · exact ⟨by norm_num, by norm_num, exampleIO_two⟩
    · exact ⟨by norm_num, by norm_num, exampleIO_one⟩)
  exact ⟨R, h1, h2 [(1, 0, .fin 2), (0, 0, .fin 2)] 1 0 (.fin 1) [] rfl (by simp), h2 [(1, 0, .fin 2)] 0 0 (.fin 2) [(1, 0, .fin 1)] rfl (by simp),
    h3 0 1 (by norm_num) (by norm_num) (by simp)⟩

/-- **A negative dimension is accepted.** A file whose first number is negative is read, and `|dim|^2` elements are allocated, if no entry follows; a file
with an entry is rejected. -/
theorem matrix_file_negative (io : DecimalIO) (n : Nat) (hn : 1 ≤ n) (hn2 : n ≤ 46340) (rest : List Char)
    (hrest : ∀ c, rest.head? = some c → c.isDigit = false) :
    (scanEntry io rest = .ok none →
      readMatrix io ('-' :: (Nat.toDigits 10 n ++ rest)) = .ok (some (-(n : Int), List.replicate (n * n) (.fin 0)))) ∧
    ∀ e, scanEntry io rest = .ok (some e) → readMatrix io ('-' :: (Nat.toDigits 10 n ++ rest)) = .ok none := by
  have hsq : n * n ≤ intMax := le_trans (Nat.mul_le_mul hn2 hn2) (by unfold intMax; norm_num)
  have hs := scanInt_negative n rest (by unfold intMax; omega) hrest
  have e1 : -(n : Int) * -(n : Int) = ((n * n : Nat) : Int) := by push_cast; ring
  constructor
  · intro h
    unfold readMatrix
    rw [hs]
    simp only [Outcome.ok_bind]
    rw [Outcome.valid_pos (by rw [e1]; exact_mod_cast hsq), Outcome.ok_bind, readEntries_stop _ _ _ _ h, e1, Int.toNat_natCast]
    rfl
  · rintro ⟨i, j, d, t⟩ h
    unfold readMatrix
    rw [hs]
    simp only [Outcome.ok_bind]
    rw [Outcome.valid_pos (by rw [e1]; exact_mod_cast hsq), Outcome.ok_bind, readEntries, h]
    simp only [Outcome.ok_bind]
    rw [if_pos (by omega)]
    rfl

example (io : DecimalIO) : readMatrix io ['-', '3', '\n'] = .ok (some (-3, List.replicate 9 (.fin 0))) :=
  (matrix_file_negative io 3 (by norm_num) (by norm_num) ['\n'] (by simp)).1 (scanEntry_end io)

/-- **Files without a matrix are found equal.** Two files with the same negative dimension and no entries, whatever else they contain, are found equal,
for every threshold: that two files are equal does not show that they hold a matrix. -/
theorem matrix_compare_negative (io : DecimalIO) (t : Dbl) (d : Dir) (a b : String) (n : Nat) (hn : 1 ≤ n) (hn2 : n ≤ 46340) (ra rb : List Char)
    (ha : d a = some ('-' :: (Nat.toDigits 10 n ++ ra))) (hb : d b = some ('-' :: (Nat.toDigits 10 n ++ rb)))
    (ha1 : ∀ c, ra.head? = some c → c.isDigit = false) (hb1 : ∀ c, rb.head? = some c → c.isDigit = false)
    (ha2 : scanEntry io ra = .ok none) (hb2 : scanEntry io rb = .ok none) : compareFiles io t d a b = .ok 0 := by
  rw [compareFiles_zero]
  refine ⟨_, _, -(n : Int), _, _, ha, hb, (matrix_file_negative io n hn hn2 ra ha1).1 ha2, (matrix_file_negative io n hn hn2 rb hb1).1 hb2, ?_⟩
  intro i j hi
  omega

/-- The files `-3`, one of them followed by an error message. -/
example (io : DecimalIO) (t : Dbl) : compareFiles io t (fun s => if s = "a" then some "-3\n".toList else some "-3 error\n".toList) "a" "b" = .ok 0 :=
  matrix_compare_negative io t _ "a" "b" 3 (by norm_num) (by norm_num) ['\n'] " error\n".toList (by simp; rfl) (by simp; rfl)
    (by simp) (by simp) (scanEntry_end io) rfl

end Libgrpp
