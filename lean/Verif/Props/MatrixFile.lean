import Verif.Lemmas.MatrixFile

/-! # C102: matrix files and their comparison

The driver program writes matrices with `print_matrix_lower_triangle`; the program `compare_matrices` of the test suite reads two such files and decides
whether the tests pass. -/

namespace Libgrpp

/-- All elements that are printed can be printed and read again by the C library. -/
def FaithfulElements (io : DecimalIO) (matrix : List Dbl) : Prop := ∀ d ∈ matrix, d.AbsGt (1e-14) → io.Faithful d

theorem FaithfulElements.entries {io : DecimalIO} {dim : Nat} {matrix : List Dbl} (h : FaithfulElements io matrix) (hm : dim * dim ≤ matrix.length) :
    ∀ e ∈ lowerEntries dim matrix dim, e.1 < dim ∧ e.2.1 < dim ∧ io.Faithful e.2.2 := by
  intro e he
  obtain ⟨h1, h2, h3, h4⟩ := mem_lowerEntries.1 he
  have hlt : e.1 * dim + e.2.1 < matrix.length := lt_of_lt_of_le (lower_index h1 (by omega)) hm
  refine ⟨h1, by omega, h _ ?_ h4⟩
  rw [h3, List.getD_eq_getElem?_getD, List.getElem?_eq_getElem hlt]
  exact List.getElem_mem hlt

theorem readMatrix_printed (io : DecimalIO) (dim : Nat) (matrix : List Dbl) (tail : List Char) (hdim : dim ≤ 46340) (hm : dim * dim ≤ matrix.length)
    (hf : FaithfulElements io matrix) (htail : scanEntry io ('\n' :: tail) = .ok none) :
    readMatrix io (fmtInt 6 dim ++ '\n' :: (entryLines io (lowerEntries dim matrix dim) ++ tail)) =
      .ok (some ((dim : Int), storeEntries dim (List.replicate (dim * dim) (.fin 0)) (lowerEntries dim matrix dim))) := by
  have hsq : dim * dim ≤ intMax := le_trans (Nat.mul_le_mul hdim hdim) (by unfold intMax; norm_num)
  have hhead := scanInt_fmtInt 6 dim [] ('\n' :: (entryLines io (lowerEntries dim matrix dim) ++ tail)) (by unfold intMax; omega) (by simp)
    (fun c hc => by simp only [List.head?_cons, Option.some.injEq] at hc; rw [← hc]; decide)
  rw [List.nil_append] at hhead
  unfold readMatrix
  rw [hhead]
  simp only [Outcome.ok_bind]
  rw [Outcome.valid_pos (by exact_mod_cast hsq), Outcome.ok_bind,
    show ((dim : Int) * (dim : Int)).toNat = dim * dim by rw [← Nat.cast_mul]; exact Int.toNat_natCast _,
    readEntries_lines io dim (by omega) _ tail htail (hf.entries hm) _ (by simp)]
  rfl

/-- **Round trip.** For every dimension up to 46340, every matrix, and every C library that prints its elements faithfully: the file that the driver
program writes is read by the comparison program, with the right dimension; of the elements it obtains the lower triangle, where numbers not larger than
1e-14 in magnitude and NaNs have become zero. In particular the numbers of a line never run together. -/
theorem matrix_file_round_trip (io : DecimalIO) (dim : Nat) (matrix : List Dbl) (hdim : dim ≤ 46340) (hm : dim * dim ≤ matrix.length)
    (hf : FaithfulElements io matrix) :
    ∃ text R, printLower io dim matrix = .ok text ∧ readMatrix io text = .ok (some ((dim : Int), R)) ∧ R.length = dim * dim ∧
      ∀ i j, i < dim → j < dim → ∃ d, matrix[i * dim + j]? = some d ∧ R[i * dim + j]? = some (keptElement d i j) := by
  have hr := readMatrix_printed io dim matrix [] hdim hm hf (scanEntry_end io)
  rw [List.append_nil] at hr
  refine ⟨_, _, printLower_eq io dim matrix hdim hm, hr, by rw [storeEntries_length]; simp, fun i j hi hj => ?_⟩
  have hlt : i * dim + j < matrix.length := lt_of_lt_of_le (lower_index hi hj) hm
  refine ⟨matrix.getD (i * dim + j) .nan, ?_, storeEntries_lower dim matrix i j hi hj hm⟩
  rw [List.getD_eq_getElem?_getD, List.getElem?_eq_getElem hlt]
  rfl

open Classical in
/-- A C library good enough for the numbers 1, 2 and infinity. -/
noncomputable def exampleIO : DecimalIO where
  fmt d := match d with
    | .fin x => if x = 1 then ['1', '.', '0', 'E', '+', '0', '0'] else ['2', '.', '0', 'E', '+', '0', '0']
    | .inf _ => ['I', 'N', 'F']
    | .nan => ['N', 'A', 'N']
  scan s := if s = ['1', '.', '0', 'E', '+', '0', '0'] then some (.fin 1) else if s = ['2', '.', '0', 'E', '+', '0', '0'] then some (.fin 2)
    else if s = ['I', 'N', 'F'] then some (.inf false) else if s = ['N', 'A', 'N'] then some .nan else none

theorem exampleIO_one : exampleIO.Faithful (.fin 1) := by
  refine ⟨?_, ?_, ?_, ?_⟩ <;> simp [exampleIO, isSpaceC]

theorem exampleIO_two : exampleIO.Faithful (.fin 2) := by
  refine ⟨?_, ?_, ?_, ?_⟩ <;> simp [exampleIO, isSpaceC]

/-- A matrix with a symmetric pair of elements, a zero and a NaN. -/
def exampleMatrix : List Dbl := [.fin 1, .fin 2, .fin 2, .nan]

theorem exampleMatrix_faithful : FaithfulElements exampleIO exampleMatrix := by
  intro d hd hgt
  simp only [exampleMatrix, List.mem_cons, List.not_mem_nil, or_false] at hd
  rcases hd with rfl | rfl | rfl | rfl
  · exact exampleIO_one
  · exact exampleIO_two
  · exact exampleIO_two
  · exact absurd hgt (by simp [Dbl.AbsGt])

example : ∃ text R, printLower exampleIO 2 exampleMatrix = .ok text ∧ readMatrix exampleIO text = .ok (some (2, R)) ∧
    R[0]? = some (.fin 1) ∧ R[1]? = some (.fin 0) ∧ R[2]? = some (.fin 2) ∧ R[3]? = some (.fin 0) := by
  obtain ⟨text, R, h1, h2, h3, h4⟩ := matrix_file_round_trip exampleIO 2 exampleMatrix (by norm_num) (by simp [exampleMatrix]) exampleMatrix_faithful
  refine ⟨text, R, h1, h2, ?_, ?_, ?_, ?_⟩
  · obtain ⟨d, hd, hR⟩ := h4 0 0 (by norm_num) (by norm_num)
    simp only [exampleMatrix, List.getElem?_cons_zero, Option.some.injEq, zero_mul, add_zero] at hd hR
    rw [hR, ← hd, keptElement, if_pos ⟨le_rfl, by simp [Dbl.AbsGt]; norm_num⟩]
  · obtain ⟨d, hd, hR⟩ := h4 0 1 (by norm_num) (by norm_num)
    simp only [zero_mul, zero_add] at hR
    rw [hR, keptElement, if_neg (by simp)]
  · obtain ⟨d, hd, hR⟩ := h4 1 0 (by norm_num) (by norm_num)
    simp only [exampleMatrix, one_mul, add_zero, List.getElem?_cons_succ, List.getElem?_cons_zero, Option.some.injEq] at hd hR
    rw [hR, ← hd, keptElement, if_pos ⟨by norm_num, by simp [Dbl.AbsGt]; norm_num⟩]
  · obtain ⟨d, hd, hR⟩ := h4 1 1 (by norm_num) (by norm_num)
    simp only [exampleMatrix, one_mul, Nat.reduceAdd, List.getElem?_cons_succ, List.getElem?_cons_zero, Option.some.injEq] at hd hR
    rw [hR, ← hd, keptElement, if_neg (by simp [Dbl.AbsGt])]

/-- **The verdict.** For two matrices of the same dimension, written by the driver program, the comparison program ends with status 0 or 1, and with 0
exactly if no kept element of one differs from that of the other by more than the threshold. -/
theorem matrix_compare_verdict (io : DecimalIO) (dim : Nat) (A B : List Dbl) (t : ℝ) (hdim : dim ≤ 46340) (hA : dim * dim ≤ A.length)
    (hB : dim * dim ≤ B.length) (hfA : FaithfulElements io A) (hfB : FaithfulElements io B) :
    ∃ ta tb s, printLower io dim A = .ok ta ∧ printLower io dim B = .ok tb ∧ compareProgram io t ta tb = .ok s ∧ (s = 0 ∨ s = 1) ∧
      (s = 0 ↔ ∀ i j a b, i < dim → j < dim → A[i * dim + j]? = some a → B[i * dim + j]? = some b →
        ¬ ((keptElement a i j).sub (keptElement b i j)).AbsGt t) := by
  obtain ⟨ta, RA, h1, h2, h3, h4⟩ := matrix_file_round_trip io dim A hdim hA hfA
  obtain ⟨tb, RB, g1, g2, g3, g4⟩ := matrix_file_round_trip io dim B hdim hB hfB
  obtain ⟨r, hr, hnone, hsome⟩ := compareMatrices_eq dim RA RB t h3 g3
  have hRA : ∀ i j a, i < dim → j < dim → A[i * dim + j]? = some a → RA.getD (i * dim + j) .nan = keptElement a i j := by
    intro i j a hi hj ha
    obtain ⟨d, hd, hR⟩ := h4 i j hi hj
    rw [List.getD_eq_getElem?_getD, hR, ← Option.some.inj (hd.symm.trans ha)]
    rfl
  have hRB : ∀ i j b, i < dim → j < dim → B[i * dim + j]? = some b → RB.getD (i * dim + j) .nan = keptElement b i j := by
    intro i j a hi hj ha
    obtain ⟨d, hd, hR⟩ := g4 i j hi hj
    rw [List.getD_eq_getElem?_getD, hR, ← Option.some.inj (hd.symm.trans ha)]
    rfl
  have hprog : compareProgram io t ta tb = .ok (match r with | none => 0 | some _ => 1) := by
    unfold compareProgram
    rw [h2]
    simp only [Outcome.ok_bind]
    rw [g2]
    simp only [Outcome.ok_bind, ne_eq, not_true_eq_false, if_false, Int.toNat_natCast, hr]
    cases r <;> rfl
  refine ⟨ta, tb, _, h1, g1, hprog, ?_, ?_⟩
  · cases r <;> simp
  · cases r with
    | none =>
      simp only [true_iff]
      intro i j a b hi hj ha hb
      rw [← hRA i j a hi hj ha, ← hRB i j b hi hj hb]
      exact hnone rfl i hi j hj
    | some p =>
      simp only [one_ne_zero, false_iff]
      intro hall
      obtain ⟨p1, p2, p3, _⟩ := hsome p rfl
      obtain ⟨a, ha, _⟩ := h4 p.1 p.2 p1 p2
      obtain ⟨b, hb, _⟩ := g4 p.1 p.2 p1 p2
      rw [hRA p.1 p.2 a p1 p2 ha, hRB p.1 p.2 b p1 p2 hb] at p3
      exact hall p.1 p.2 a b p1 p2 ha hb p3

theorem keptElement_fin (x : ℝ) (i j : Nat) (h : j ≤ i) : ∃ y, keptElement (.fin x) i j = .fin y ∧ |x - y| ≤ 1e-14 := by
  classical
  unfold keptElement
  by_cases hx : (Dbl.fin x).AbsGt (1e-14)
  · exact ⟨x, by rw [if_pos ⟨h, hx⟩], by simp; norm_num⟩
  · exact ⟨0, by rw [if_neg (fun hc => hx hc.2)], by simpa [Dbl.AbsGt] using hx⟩

/-- The full statement "the tests accept only what agrees within the threshold" is false, see `matrix_compare_nan`, so this is partial: it needs finite
matrices. **Soundness:** if the comparison of the files of two matrices of finite numbers ends with status 0, then the elements of the lower triangles
differ by at most the threshold plus 2e-14; if both matrices are symmetric, or both antisymmetric, all elements do. -/
theorem matrix_compare_sound_partial (io : DecimalIO) (dim : Nat) (A B : Nat → Nat → ℝ) (la lb : List Dbl) (t : ℝ) (hdim : dim ≤ 46340)
    (hA : ∀ i j, i < dim → j < dim → la[i * dim + j]? = some (.fin (A i j))) (hB : ∀ i j, i < dim → j < dim → lb[i * dim + j]? = some (.fin (B i j)))
    (hla : dim * dim ≤ la.length) (hlb : dim * dim ≤ lb.length) (hfA : FaithfulElements io la) (hfB : FaithfulElements io lb)
    (ta tb : List Char) (hta : printLower io dim la = .ok ta) (htb : printLower io dim lb = .ok tb) (hs : compareProgram io t ta tb = .ok 0) :
    (∀ i j, i < dim → j ≤ i → |A i j - B i j| ≤ t + 2e-14) ∧
      (∀ c : ℝ, |c| = 1 → (∀ i j, i < dim → j < dim → A j i = c * A i j ∧ B j i = c * B i j) →
        ∀ i j, i < dim → j < dim → |A i j - B i j| ≤ t + 2e-14) := by
  obtain ⟨ta', tb', s, h1, h2, h3, _, h5⟩ := matrix_compare_verdict io dim la lb t hdim hla hlb hfA hfB
  obtain rfl : ta' = ta := Outcome.ok.inj (h1.symm.trans hta)
  obtain rfl : tb' = tb := Outcome.ok.inj (h2.symm.trans htb)
  have hall := h5.1 (Outcome.ok.inj (h3.symm.trans hs))
  have hlow : ∀ i j, i < dim → j ≤ i → |A i j - B i j| ≤ t + 2e-14 := by
    intro i j hi hj
    have h := hall i j _ _ hi (by omega) (hA i j hi (by omega)) (hB i j hi (by omega))
    obtain ⟨y, hy, hy2⟩ := keptElement_fin (A i j) i j hj
    obtain ⟨z, hz, hz2⟩ := keptElement_fin (B i j) i j hj
    rw [hy, hz] at h
    simp only [Dbl.sub, Dbl.AbsGt, not_lt] at h
    rw [abs_le] at *
    constructor <;> linarith [hy2.1, hy2.2, hz2.1, hz2.2, h.1, h.2]
  refine ⟨hlow, fun c hc hsym i j hi hj => ?_⟩
  rcases le_total j i with h | h
  · exact hlow i j hi h
  · obtain ⟨ha, hb⟩ := hsym j i hj hi
    rw [ha, hb, ← mul_sub, abs_mul, hc, one_mul]
    exact hlow j i hj h

/-- **Completeness:** if the elements of the lower triangles of two finite matrices differ by at most the threshold less 1e-14, the comparison of the two
files ends with status 0. -/
theorem matrix_compare_complete (io : DecimalIO) (dim : Nat) (A B : Nat → Nat → ℝ) (la lb : List Dbl) (t : ℝ) (hdim : dim ≤ 46340)
    (hA : ∀ i j, i < dim → j < dim → la[i * dim + j]? = some (.fin (A i j))) (hB : ∀ i j, i < dim → j < dim → lb[i * dim + j]? = some (.fin (B i j)))
    (hla : dim * dim ≤ la.length) (hlb : dim * dim ≤ lb.length) (hfA : FaithfulElements io la) (hfB : FaithfulElements io lb) (ht : 0 ≤ t)
    (hAB : ∀ i j, i < dim → j ≤ i → |A i j - B i j| ≤ t - 1e-14) :
    ∃ ta tb, printLower io dim la = .ok ta ∧ printLower io dim lb = .ok tb ∧ compareProgram io t ta tb = .ok 0 := by
  classical
  obtain ⟨ta, tb, s, h1, h2, h3, _, h5⟩ := matrix_compare_verdict io dim la lb t hdim hla hlb hfA hfB
  refine ⟨ta, tb, h1, h2, ?_⟩
  rw [h3, h5.2]
  intro i j a b hi hj ha hb
  rw [hA i j hi hj, Option.some.injEq] at ha
  rw [hB i j hi hj, Option.some.injEq] at hb
  subst ha hb
  by_cases hji : j ≤ i
  · have h := hAB i j hi hji
    unfold keptElement
    by_cases hx : (Dbl.fin (A i j)).AbsGt (1e-14) <;> by_cases hy : (Dbl.fin (B i j)).AbsGt (1e-14)
    · rw [if_pos ⟨hji, hx⟩, if_pos ⟨hji, hy⟩]
      simp only [Dbl.sub, Dbl.AbsGt, not_lt]
      linarith
    · rw [if_pos ⟨hji, hx⟩, if_neg (fun hc => hy hc.2)]
      simp only [Dbl.sub, Dbl.AbsGt, not_lt] at hy ⊢
      rw [abs_le] at *
      constructor <;> linarith [h.1, h.2, hy.1, hy.2]
    · rw [if_neg (fun hc => hx hc.2), if_pos ⟨hji, hy⟩]
      simp only [Dbl.sub, Dbl.AbsGt, not_lt] at hx ⊢
      rw [abs_le] at *
      constructor <;> linarith [h.1, h.2, hx.1, hx.2]
    · rw [if_neg (fun hc => hx hc.2), if_neg (fun hc => hy hc.2)]
      simpa [Dbl.sub, Dbl.AbsGt] using ht
  · unfold keptElement
    rw [if_neg (fun hc => hji hc.1), if_neg (fun hc => hji hc.1)]
    simpa [Dbl.sub, Dbl.AbsGt] using ht

/-- A symmetric matrix of ones and twos, stored as it is in the driver program. -/
noncomputable def exampleFinite : List Dbl := [.fin 1, .fin 2, .fin 2, .fin 1]

theorem exampleFinite_faithful : FaithfulElements exampleIO exampleFinite := by
  intro d hd _
  simp only [exampleFinite, List.mem_cons, List.not_mem_nil, or_false] at hd
  rcases hd with rfl | rfl | rfl | rfl
  · exact exampleIO_one
  · exact exampleIO_two
  · exact exampleIO_two
  · exact exampleIO_one

theorem exampleFinite_get : ∀ i j, i < 2 → j < 2 → exampleFinite[i * 2 + j]? = some (.fin (if i = j then 1 else 2)) := by
  intro i j hi hj
  interval_cases i <;> interval_cases j <;> simp [exampleFinite]

/-- The hypotheses of the two theorems can be satisfied together. -/
example : ∃ ta tb, printLower exampleIO 2 exampleFinite = .ok ta ∧ printLower exampleIO 2 exampleFinite = .ok tb ∧
    compareProgram exampleIO (1e-10) ta tb = .ok 0 :=
  matrix_compare_complete exampleIO 2 (fun i j => if i = j then 1 else 2) (fun i j => if i = j then 1 else 2) exampleFinite exampleFinite (1e-10)
    (by norm_num) exampleFinite_get exampleFinite_get (by simp [exampleFinite]) (by simp [exampleFinite]) exampleFinite_faithful exampleFinite_faithful
    (by norm_num) (fun i j _ _ => by simp; norm_num)

/-- Different matrices are told apart: the same matrix with 1 in place of 2. -/
example : ∃ ta tb, printLower exampleIO 2 exampleFinite = .ok ta ∧ printLower exampleIO 2 [.fin 1, .fin 1, .fin 1, .fin 1] = .ok tb ∧
    compareProgram exampleIO (1e-10) ta tb = .ok 1 := by
  have hf : FaithfulElements exampleIO [.fin 1, .fin 1, .fin 1, .fin 1] := by
    intro d hd _
    simp only [List.mem_cons, List.not_mem_nil, or_false, or_self] at hd
    rw [hd]; exact exampleIO_one
  have hones : ∀ i j, i < 2 → j < 2 → ([.fin 1, .fin 1, .fin 1, .fin 1] : List Dbl)[i * 2 + j]? = some (.fin 1) := by
    intro i j hi hj
    interval_cases i <;> interval_cases j <;> simp
  obtain ⟨ta, tb, s, h1, h2, h3, h4, h5⟩ := matrix_compare_verdict exampleIO 2 exampleFinite [.fin 1, .fin 1, .fin 1, .fin 1] (1e-10) (by norm_num)
    (by simp [exampleFinite]) (by simp) exampleFinite_faithful hf
  refine ⟨ta, tb, h1, h2, ?_⟩
  rcases h4 with h | h
  · exfalso
    subst h
    have := (matrix_compare_sound_partial exampleIO 2 (fun i j => if i = j then 1 else 2) (fun _ _ => 1) exampleFinite [.fin 1, .fin 1, .fin 1, .fin 1]
      (1e-10) (by norm_num) exampleFinite_get hones (by simp [exampleFinite]) (by simp) exampleFinite_faithful hf ta tb h1 h2 h3).1 1 0 (by norm_num) (by norm_num)
    norm_num at this
  · rw [h3, h]

/-- **NaNs are lost when they are printed.** A NaN is treated as zero: the file of a matrix is the same when its NaNs are replaced by zeros. -/
theorem matrix_file_nan (io : DecimalIO) (dim : Nat) (A B : List Dbl) (hdim : dim ≤ 46340) (hA : dim * dim ≤ A.length) (hB : dim * dim ≤ B.length)
    (h : ∀ p < dim * dim, ∃ a b, A[p]? = some a ∧ B[p]? = some b ∧ ((a = .nan ∧ b = .fin 0) ∨ a = b)) :
    printLower io dim A = printLower io dim B := by
  classical
  rw [printLower_eq io dim A hdim hA, printLower_eq io dim B hdim hB]
  have : lowerEntries dim A dim = lowerEntries dim B dim := by
    unfold lowerEntries
    apply List.flatMap_congr
    intro i hi
    unfold rowEntries
    apply List.filterMap_congr
    intro j hj
    rw [List.mem_range] at hi hj
    obtain ⟨a, b, ha, hb, hab⟩ := h _ (lower_index hi (show j < dim by omega))
    rw [List.getD_eq_getElem?_getD, List.getD_eq_getElem?_getD, ha, hb]
    simp only [Option.getD_some]
    rcases hab with ⟨rfl, rfl⟩ | rfl
    · rw [if_neg (by simp [Dbl.AbsGt]), if_neg (by simp [Dbl.AbsGt]; norm_num)]
    · rfl
  rw [this]

example : printLower exampleIO 2 exampleMatrix = printLower exampleIO 2 [.fin 1, .fin 2, .fin 2, .fin 0] :=
  matrix_file_nan exampleIO 2 _ _ (by norm_num) (by simp [exampleMatrix]) (by simp) fun p hp => by
    interval_cases p <;> simp [exampleMatrix]

/-- **NaNs pass the tests.** For every threshold: if all elements read from the first file are NaNs, the matrices "are equal", whatever the second file
contains. So a calculation that yields only NaNs agrees with every reference. -/
theorem matrix_compare_nan (io : DecimalIO) (dim : Nat) (m1 m2 : List Dbl) (t : ℝ) (text1 text2 : List Char)
    (h1 : readMatrix io text1 = .ok (some ((dim : Int), m1))) (h2 : readMatrix io text2 = .ok (some ((dim : Int), m2)))
    (hl1 : m1.length = dim * dim) (hl2 : m2.length = dim * dim) (hnan : ∀ d ∈ m1, d = .nan) : compareProgram io t text1 text2 = .ok 0 := by
  obtain ⟨r, hr, hnone, hsome⟩ := compareMatrices_eq dim m1 m2 t hl1 hl2
  unfold compareProgram
  rw [h1]
  simp only [Outcome.ok_bind]
  rw [h2]
  simp only [Outcome.ok_bind, ne_eq, not_true_eq_false, if_false, Int.toNat_natCast, hr]
  cases r with
  | none => rfl
  | some p =>
    obtain ⟨p1, p2, p3, _⟩ := hsome p rfl
    have hlt : p.1 * dim + p.2 < m1.length := by rw [hl1]; exact lower_index p1 p2
    rw [List.getD_eq_getElem?_getD, List.getElem?_eq_getElem hlt, Option.getD_some, hnan _ (List.getElem_mem hlt)] at p3
    exact absurd p3 (by simp [Dbl.sub, Dbl.AbsGt])

/-- The file `1 \n 1 1 NAN` against the file `1 \n 1 1 2.0E+00`. -/
example : compareProgram exampleIO (1e-10) ['1', '\n', '1', ' ', '1', ' ', 'N', 'A', 'N', '\n']
    ['1', '\n', '1', ' ', '1', ' ', '2', '.', '0', 'E', '+', '0', '0', '\n'] = .ok 0 := by
  have e1 : scanEntry exampleIO ['\n', '1', ' ', '1', ' ', 'N', 'A', 'N', '\n'] = .ok (some (1, 1, .nan, ['\n'])) := by
    simp [scanEntry, scanInt, scanDbl, isSpaceC, signedVal, exampleIO, Nat.ofDigitChars, Char.isDigit, Outcome.valid, intMax]
  have e2 : scanEntry exampleIO ['\n', '1', ' ', '1', ' ', '2', '.', '0', 'E', '+', '0', '0', '\n'] = .ok (some (1, 1, .fin 2, ['\n'])) := by
    simp [scanEntry, scanInt, scanDbl, isSpaceC, signedVal, exampleIO, Nat.ofDigitChars, Char.isDigit, Outcome.valid, intMax]
  refine matrix_compare_nan exampleIO 1 [.nan] [.fin 2] _ _ _ ?_ ?_ rfl rfl (by simp)
  · simp [readMatrix, scanInt, isSpaceC, signedVal, Nat.ofDigitChars, Char.isDigit, Outcome.valid, intMax]
    rw [readEntries, e1]
    simp [wr, readEntries_stop _ _ _ _ (scanEntry_end exampleIO)]
  · simp [readMatrix, scanInt, isSpaceC, signedVal, Nat.ofDigitChars, Char.isDigit, Outcome.valid, intMax]
    rw [readEntries, e2]
    simp [wr, readEntries_stop _ _ _ _ (scanEntry_end exampleIO)]

/-- **A damaged file is not noticed.** If the lines of a file are followed by something that begins neither with a digit nor with a sign (after white
space), everything from there on is ignored, and no error is reported. -/
theorem matrix_file_damaged (io : DecimalIO) (dim : Nat) (matrix : List Dbl) (tail : List Char) (hdim : dim ≤ 46340) (hm : dim * dim ≤ matrix.length)
    (hf : FaithfulElements io matrix)
    (htail : ∀ c, (tail.dropWhile isSpaceC).head? = some c → c.isDigit = false ∧ c ≠ '-' ∧ c ≠ '+') :
    ∃ text, printLower io dim matrix = .ok text ∧ readMatrix io (text ++ tail) = readMatrix io text := by
  refine ⟨_, printLower_eq io dim matrix hdim hm, ?_⟩
  have hstop : scanEntry io ('\n' :: tail) = .ok none := by
    have hd : ('\n' :: tail).dropWhile isSpaceC = tail.dropWhile isSpaceC := by
      rw [List.dropWhile_cons, if_pos (by decide)]
    have hint : scanInt ('\n' :: tail) = .ok none := by
      unfold scanInt
      rw [hd]
      cases hc : tail.dropWhile isSpaceC with
      | nil => simp
      | cons c r =>
        obtain ⟨h1, h2, h3⟩ := htail c (by rw [hc]; rfl)
        simp [h1, h2, h3]
    unfold scanEntry
    rw [hint]
    rfl
  have h1 := readMatrix_printed io dim matrix tail hdim hm hf hstop
  have h2 := readMatrix_printed io dim matrix [] hdim hm hf (scanEntry_end io)
  rw [List.append_nil] at h2
  rw [h2, ← h1]
  congr 1
  simp

/-- A matrix of zeros followed by an error message and by the elements that belong to it. -/
example : ∃ text, printLower exampleIO 2 exampleMatrix = .ok text ∧
    readMatrix exampleIO (text ++ ['e', 'r', 'r', 'o', 'r', '\n', '1', ' ', '1', ' ', '2', '.', '0', 'E', '+', '0', '0']) = readMatrix exampleIO text :=
  matrix_file_damaged exampleIO 2 exampleMatrix _ (by norm_num) (by simp [exampleMatrix]) exampleMatrix_faithful (by
    intro c hc
    simp [isSpaceC] at hc
    rw [← hc]
    decide)

/-- **Lines out of range are rejected.** A file with an entry whose row or column is larger than the dimension in its first line is rejected, whatever
precedes (entries in range) and whatever follows, and nothing is written beyond the matrix. -/
theorem matrix_file_out_of_range (io : DecimalIO) (dim : Nat) (hdim : dim ≤ 46340) (L : List (Nat × Nat × Dbl))
    (hL : ∀ e ∈ L, e.1 < dim ∧ e.2.1 < dim ∧ io.Faithful e.2.2) (i j : Nat) (d : Dbl) (hd : io.Faithful d) (hi : i < 99999) (hj : j < 99999)
    (hout : dim ≤ i ∨ dim ≤ j) (rest : List Char) (threshold : ℝ) (other : List Char) :
    let text := fmtInt 6 dim ++ '\n' :: ((L.flatMap fun e => matrixLine io 6 e.1 e.2.1 e.2.2) ++ (matrixLine io 6 i j d ++ rest))
    readMatrix io text = .ok none ∧ compareProgram io threshold text other = .ok 1 := by
  intro text
  have hr : readMatrix io text = .ok none := by
    have hsq : dim * dim ≤ intMax := le_trans (Nat.mul_le_mul hdim hdim) (by unfold intMax; norm_num)
    have hhead := scanInt_fmtInt 6 dim [] ('\n' :: (entryLines io L ++ (matrixLine io 6 i j d ++ rest))) (by unfold intMax; omega) (by simp)
      (fun c hc => by simp only [List.head?_cons, Option.some.injEq] at hc; rw [← hc]; decide)
    rw [List.nil_append] at hhead
    have hscan := scanEntry_line io i j d ['\n'] rest (by omega) (by omega) hd (by simp; decide)
    have ht : text = fmtInt 6 dim ++ '\n' :: (entryLines io L ++ (matrixLine io 6 i j d ++ rest)) := rfl
    rw [ht]
    unfold readMatrix
    rw [hhead]
    simp only [Outcome.ok_bind]
    rw [Outcome.valid_pos (by exact_mod_cast hsq), Outcome.ok_bind,
      show ((dim : Int) * (dim : Int)).toNat = dim * dim by rw [← Nat.cast_mul]; exact Int.toNat_natCast _,
      readEntries_go io dim (by omega) L _ hL _ (by simp), readEntries,
      show '\n' :: (matrixLine io 6 i j d ++ rest) = ['\n'] ++ (matrixLine io 6 i j d ++ rest) from rfl, hscan]
    simp only [Outcome.ok_bind]
    rw [if_pos (by omega)]
    rfl
  refine ⟨hr, ?_⟩
  unfold compareProgram
  rw [hr]
  rfl

/-- A matrix of dimension 2 with an entry in row 3, after an entry in row 1. -/
example (threshold : ℝ) (rest other : List Char) :
    readMatrix exampleIO (fmtInt 6 2 ++ '\n' :: ((([(0, 0, .fin 2)] : List (Nat × Nat × Dbl)).flatMap fun e => matrixLine exampleIO 6 e.1 e.2.1 e.2.2) ++
      (matrixLine exampleIO 6 2 0 (.fin 2) ++ rest))) = .ok none :=
  (matrix_file_out_of_range exampleIO 2 (by norm_num) [(0, 0, .fin 2)] (fun e he => by
    rw [List.mem_singleton] at he
    subst he
    exact ⟨by norm_num, by norm_num, exampleIO_two⟩) 2 0 (.fin 2) exampleIO_two (by norm_num) (by norm_num)
    (Or.inl le_rfl) rest threshold other).1

/-- **Too large a dimension.** A file whose dimension is 46341 or more makes the comparison program overflow an `int`, whatever follows. -/
theorem matrix_file_too_large (io : DecimalIO) (n : Nat) (rest : List Char) (hn : 46341 ≤ n) (hmax : n ≤ intMax)
    (hrest : ∀ c, rest.head? = some c → c.isDigit = false) : readMatrix io (Nat.toDigits 10 n ++ rest) = .ub := by
  have h := scanInt_digits n [] rest hmax (by simp) hrest
  rw [List.nil_append] at h
  unfold readMatrix
  rw [h]
  simp only [Outcome.ok_bind]
  rw [Outcome.valid_neg]
  · rfl
  · have : 46341 * 46341 ≤ n * n := Nat.mul_le_mul hn hn
    have h2 : ((46341 * 46341 : Nat) : Int) ≤ (n : Int) * (n : Int) := by exact_mod_cast this
    intro hc
    have := le_trans h2 hc
    unfold intMax at this
    norm_num at this

example : readMatrix exampleIO (Nat.toDigits 10 50000 ++ ['\n']) = .ub :=
  matrix_file_too_large exampleIO 50000 ['\n'] (by norm_num) (by unfold intMax; norm_num) (by simp)

end Libgrpp
