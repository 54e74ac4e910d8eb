import Verif.Lemmas.FortranMatrix
import Verif.Props.MatrixFile

/-! # C111: the matrix files of the Fortran program and their comparison

The Fortran program leaves out elements up to 1e-10 (the driver in C: up to 1e-14) and prints 16 significant digits (the driver in C: 17), while the default
threshold of `compare_matrices` is 1e-10. -/

namespace Libgrpp

/-- **C111**, the file. For every dimension up to 46340 and every matrix whose elements above 1e-10 are printed with a relative error of at most `eps`: the file of
the Fortran program is read by the comparison program, with the right dimension. Elements of the lower triangle are read with this relative error; those
up to 1e-10 in magnitude are read as zero, like the elements above the diagonal. -/
theorem fortran_matrix_file (io : DecimalIO) (eps : ℝ) (dim : Nat) (M : List ℝ) (hdim : dim ≤ 46340) (hM : dim * dim ≤ M.length)
    (hio : ∀ x ∈ M, 1e-10 < |x| → io.Near eps x) :
    ∃ text R, ftnPrintMatrix io dim (M.map Dbl.fin) = .ok text ∧ readMatrix io text = .ok (some ((dim : Int), R)) ∧ R.length = dim * dim ∧
      ∀ i j, i < dim → j < dim → ∃ x y, M[i * dim + j]? = some x ∧ R[i * dim + j]? = some (.fin y) ∧
        (i < j → y = 0) ∧ (|x| ≤ 1e-10 → y = 0) ∧ (j ≤ i → 1e-10 < |x| → |y - x| ≤ eps * |x|) := by
  classical
  set g : Dbl → Dbl := fun d => match d with | .fin x => if h : 1e-10 < |x| ∧ x ∈ M then .fin (hio x h.2 h.1).choose else .fin x | d => d with hg
  have hcut : ∀ x : ℝ, 1e-10 < |x| → cutElement (.fin x) = .fin x := fun x h => cutElement_of_gt h
  have hcut0 : ∀ x : ℝ, ¬ 1e-10 < |x| → cutElement (.fin x) = .fin 0 := fun x h => if_neg h
  have hmem : ∀ d ∈ (M.map Dbl.fin).map cutElement, d.AbsGt (1e-14) → ∃ x ∈ M, d = .fin x ∧ 1e-10 < |x| := by
    intro d hd hgt
    simp only [List.map_map, List.mem_map, Function.comp] at hd
    obtain ⟨x, hx, rfl⟩ := hd
    have h := (cutElement_gt _).1 hgt
    exact ⟨x, hx, hcut x h, h⟩
  obtain ⟨text, R, h1, h2, h3, h4⟩ := readMatrix_near io g dim ((M.map Dbl.fin).map cutElement) hdim (by simpa using hM) (fun d hd hgt => by
    obtain ⟨x, hx, rfl, h10⟩ := hmem d hd hgt
    simp only [hg]
    rw [dif_pos ⟨h10, hx⟩]
    exact (hio x hx h10).choose_spec.1)
  refine ⟨text, R, ?_, h2, h3, fun i j hi hj => ?_⟩
  · rw [ftnPrint_eq io dim _ hdim (by simpa using hM) (fun d hd hgt => ?_), h1]
    obtain ⟨x, hx, rfl⟩ := List.mem_map.1 hd
    obtain ⟨y, hy, -⟩ := hio x hx hgt
    have := hy.2.1
    omega
  · have hlt : i * dim + j < M.length := lt_of_lt_of_le (lower_index hi hj) hM
    obtain ⟨d, hd, h5, h6⟩ := h4 i j hi hj
    have hx : M[i * dim + j]? = some M[i * dim + j] := List.getElem?_eq_getElem hlt
    set x := M[i * dim + j] with hxd
    have hxm : x ∈ M := List.getElem_mem hlt
    rw [List.map_map, List.getElem?_map, hx] at hd
    obtain rfl : cutElement (.fin x) = d := Option.some.inj hd
    by_cases hp : j ≤ i ∧ 1e-10 < |x|
    · rw [hcut x hp.2] at h5
      have hv : g (.fin x) = .fin (hio x hxm hp.2).choose := by
        simp only [hg]
        rw [dif_pos ⟨hp.2, hxm⟩]
      have := h5 ⟨hp.1, (show (1e-14 : ℝ) < |x| from lt_trans (by norm_num) hp.2)⟩
      rw [hv] at this
      exact ⟨x, _, hx, this, fun h => absurd h (by omega), fun h => absurd hp.2 (not_lt.2 h), fun _ _ => (hio x hxm hp.2).choose_spec.2⟩
    · refine ⟨x, 0, hx, h6 (fun hc => hp ⟨hc.1, (cutElement_gt _).1 hc.2⟩), fun _ => rfl, fun _ => rfl, fun h1 h2 => absurd ⟨h1, h2⟩ hp⟩

/-- The number 2.0000000000000001, which `exampleIO` prints like 2. -/
theorem exampleIO_near : exampleIO.Near (1e-16) (2 + 1e-16) := by
  have h1 : (2 + 1e-16 : ℝ) ≠ 1 := by norm_num
  refine ⟨2, ⟨?_, ?_, ?_, ?_⟩, ?_⟩
  · simp [exampleIO, h1]
  · simp [exampleIO, h1]
  · simp [exampleIO, h1, isSpaceC]
  · simp [exampleIO, h1]
  · rw [abs_of_neg (by norm_num), abs_of_pos (by norm_num)]; norm_num

theorem exampleIO_near_one : exampleIO.Near (1e-16) 1 := ⟨1, exampleIO_one, by norm_num⟩

/-- A symmetric matrix with an element that is not printed and one that is rounded. -/
noncomputable def exampleFtnMatrix : List ℝ := [1e-11, 2 + 1e-16, 2 + 1e-16, 1]

theorem exampleFtnMatrix_near : ∀ x ∈ exampleFtnMatrix, 1e-10 < |x| → exampleIO.Near (1e-16) x := by
  intro x hx hgt
  simp only [exampleFtnMatrix, List.mem_cons, List.not_mem_nil, or_false] at hx
  rcases hx with rfl | rfl | rfl | rfl
  · exact absurd hgt (by rw [abs_of_pos (by norm_num)]; norm_num)
  · exact exampleIO_near
  · exact exampleIO_near
  · exact exampleIO_near_one

example : ∃ text R, ftnPrintMatrix exampleIO 2 (exampleFtnMatrix.map Dbl.fin) = .ok text ∧ readMatrix exampleIO text = .ok (some (2, R)) ∧
    R[0]? = some (.fin 0) ∧ R[1]? = some (.fin 0) ∧ ∃ y : ℝ, R[2]? = some (.fin y) ∧ |y - (2 + 1e-16)| ≤ 1e-15 := by
  obtain ⟨text, R, h1, h2, -, h4⟩ := fortran_matrix_file exampleIO (1e-16) 2 exampleFtnMatrix (by norm_num) (by simp [exampleFtnMatrix]) exampleFtnMatrix_near
  refine ⟨text, R, h1, h2, ?_, ?_, ?_⟩
  · obtain ⟨x, y, hx, hy, -, h, -⟩ := h4 0 0 (by norm_num) (by norm_num)
    simp only [zero_mul, add_zero, exampleFtnMatrix, List.getElem?_cons_zero, Option.some.injEq] at hx hy
    rw [hy, h (by rw [← hx, abs_of_pos (by norm_num)]; norm_num)]
  · obtain ⟨x, y, hx, hy, h, -⟩ := h4 0 1 (by norm_num) (by norm_num)
    simp only [zero_mul, zero_add] at hy
    rw [hy, h (by norm_num)]
  · obtain ⟨x, y, hx, hy, -, -, h⟩ := h4 1 0 (by norm_num) (by norm_num)
    simp only [one_mul, add_zero, exampleFtnMatrix, List.getElem?_cons_succ, List.getElem?_cons_zero, Option.some.injEq] at hx hy
    subst hx
    refine ⟨y, hy, le_trans (h (by norm_num) (by rw [abs_of_pos (by norm_num)]; norm_num)) ?_⟩
    rw [abs_of_pos (by norm_num)]; norm_num

/-- **C111**, what is lost. The file depends only on the elements of the lower triangle which are larger than 1e-10 in magnitude: small numbers and NaNs are
taken for zero. -/
theorem fortran_matrix_lost (io : DecimalIO) (dim : Nat) (A B : List Dbl) (hA : dim * dim ≤ A.length) (hB : dim * dim ≤ B.length)
    (h : ∀ i j a b, i < dim → j ≤ i → A[i * dim + j]? = some a → B[i * dim + j]? = some b → a = b ∨ ¬ a.AbsGt (1e-10) ∧ ¬ b.AbsGt (1e-10)) :
    ftnPrintMatrix io dim A = ftnPrintMatrix io dim B := by
  classical
  unfold ftnPrintMatrix
  refine forRange_body_congr fun i hi out => forRange_body_congr fun j hj out => ?_
  have hlt := lower_index hi (show j < dim by omega)
  have h1 : i * dim + j < A.length := by omega
  have h2 : i * dim + j < B.length := by omega
  rw [rd_ok h1, rd_ok h2]
  simp only [Outcome.ok_bind]
  rcases h i j _ _ hi (by omega) (List.getElem?_eq_getElem h1) (List.getElem?_eq_getElem h2) with h | ⟨h3, h4⟩
  · rw [h]
  · rw [if_neg h3, if_neg h4]

/-- A matrix of NaNs is printed like the zero matrix. -/
example (io : DecimalIO) : ftnPrintMatrix io 2 [.nan, .fin 1, .nan, .fin 1e-10] = ftnPrintMatrix io 2 [.fin 0, .fin 0, .fin 0, .fin 0] := by
  refine fortran_matrix_lost io 2 _ _ (by simp) (by simp) fun i j a b hi hj ha hb => Or.inr ?_
  have h10 : |(1e-10 : ℝ)| = 1e-10 := abs_of_pos (by norm_num)
  interval_cases i <;> interval_cases j <;> simp at ha hb <;> subst ha hb <;> simp [Dbl.AbsGt, h10] <;> norm_num

/-- **C111**, agreement. If the Fortran program and the driver in C have the same matrix, the comparison of their files ends with status 0 for the default
threshold 1e-10 and every larger one, in both orders, unless there are elements so large that their rounding error exceeds the threshold. -/
theorem fortran_compare_same (io ioF : DecimalIO) (hscan : ioF.scan = io.scan) (eps : ℝ) (dim : Nat) (M : List ℝ) (t : ℝ) (hdim : dim ≤ 46340)
    (hM : dim * dim ≤ M.length) (hio : FaithfulElements io (M.map Dbl.fin)) (hioF : ∀ x ∈ M, 1e-10 < |x| → ioF.Near eps x) (ht : 1e-10 ≤ t)
    (hbig : ∀ x ∈ M, eps * |x| ≤ t) :
    ∃ tf tc, ftnPrintMatrix ioF dim (M.map Dbl.fin) = .ok tf ∧ printLower io dim (M.map Dbl.fin) = .ok tc ∧
      compareProgram io t tf tc = .ok 0 ∧ compareProgram io t tc tf = .ok 0 := by
  classical
  obtain ⟨tf, RF, f1, f2, f3, f4⟩ := fortran_matrix_file ioF eps dim M hdim hM hioF
  obtain ⟨tc, RC, c1, c2, c3, c4⟩ := matrix_file_round_trip io dim (M.map Dbl.fin) hdim (by simpa using hM) hio
  rw [readMatrix_scan ioF io hscan] at f2
  have key : ∀ i j a b, i < dim → j < dim → RF[i * dim + j]? = some a → RC[i * dim + j]? = some b → ∃ y z, a = .fin y ∧ b = .fin z ∧ |y - z| ≤ t := by
    intro i j a b hi hj ha hb
    obtain ⟨x, y, hx, hy, g1, g2, g3⟩ := f4 i j hi hj
    obtain ⟨d, hd, hR⟩ := c4 i j hi hj
    rw [List.getElem?_map, hx] at hd
    obtain rfl : Dbl.fin x = d := Option.some.inj hd
    rw [ha] at hy
    rw [hb] at hR
    obtain rfl := Option.some.inj hy
    obtain rfl := Option.some.inj hR
    have hxm : x ∈ M := List.mem_of_getElem? hx
    unfold keptElement
    by_cases hji : j ≤ i
    · by_cases h14 : (Dbl.fin x).AbsGt (1e-14)
      · rw [if_pos ⟨hji, h14⟩]
        refine ⟨y, x, rfl, rfl, ?_⟩
        rcases le_or_gt (|x|) (1e-10) with h | h
        · rw [g2 h, zero_sub, abs_neg]; linarith
        · exact le_trans (g3 hji h) (hbig x hxm)
      · rw [if_neg fun hc => h14 hc.2]
        refine ⟨y, 0, rfl, rfl, ?_⟩
        simp only [Dbl.AbsGt, not_lt] at h14
        rw [g2 (le_trans h14 (by norm_num))]
        simp only [sub_zero, abs_zero]
        linarith
    · rw [if_neg fun hc => hji hc.1]
      refine ⟨y, 0, rfl, rfl, ?_⟩
      rw [g1 (by omega)]
      simp only [sub_zero, abs_zero]
      linarith
  refine ⟨tf, tc, f1, c1, ?_, ?_⟩
  · obtain ⟨s, s1, -, s2⟩ := compareProgram_read io t tf tc dim RF RC f2 c2 f3 c3
    rw [s1, s2.2]
    intro i j a b hi hj ha hb
    obtain ⟨y, z, rfl, rfl, h⟩ := key i j a b hi hj ha hb
    simpa [Dbl.sub, Dbl.AbsGt] using h
  · obtain ⟨s, s1, -, s2⟩ := compareProgram_read io t tc tf dim RC RF c2 f2 c3 f3
    rw [s1, s2.2]
    intro i j a b hi hj ha hb
    obtain ⟨y, z, rfl, rfl, h⟩ := key i j b a hi hj hb ha
    rw [abs_sub_comm] at h
    simpa [Dbl.sub, Dbl.AbsGt] using h

/-- A Fortran compiler that prints 1 and 2 and numbers close to 2 in the same way as the C library; the matrix has these elements. -/
example : ∃ tf tc, ftnPrintMatrix exampleIO 2 ([1, 2, 2, 1].map Dbl.fin) = .ok tf ∧ printLower exampleIO 2 ([1, 2, 2, 1].map Dbl.fin) = .ok tc ∧
    compareProgram exampleIO (1e-10) tf tc = .ok 0 ∧ compareProgram exampleIO (1e-10) tc tf = .ok 0 := by
  have hx : ∀ x ∈ ([1, 2, 2, 1] : List ℝ), x = 1 ∨ x = 2 := by intro x hx; simp at hx; tauto
  refine fortran_compare_same exampleIO exampleIO rfl (1e-16) 2 [1, 2, 2, 1] (1e-10) (by norm_num) (by simp) exampleFinite_faithful (fun x h _ => ?_) le_rfl
    (fun x h => ?_)
  · rcases hx x h with rfl | rfl
    · exact exampleIO_near_one
    · exact ⟨2, exampleIO_two, by norm_num⟩
  · rcases hx x h with rfl | rfl <;> norm_num

/-- The full statement "the tests accept only what agrees within the threshold" is false, see `fortran_compare_coarse`. **C111**, soundness with a larger
bound: if the comparison of the file of the Fortran program with a file of the driver in C ends with status 0, the elements of the lower triangles differ by at most the
threshold plus 1.0001e-10 plus the rounding error of printing. -/
theorem fortran_compare_sound_partial (io ioF : DecimalIO) (hscan : ioF.scan = io.scan) (eps : ℝ) (heps : 0 ≤ eps) (dim : Nat) (A B : List ℝ) (t : ℝ)
    (hdim : dim ≤ 46340) (hA : dim * dim ≤ A.length) (hB : dim * dim ≤ B.length) (hioF : ∀ x ∈ A, 1e-10 < |x| → ioF.Near eps x)
    (hio : FaithfulElements io (B.map Dbl.fin)) (ta tb : List Char) (hta : ftnPrintMatrix ioF dim (A.map Dbl.fin) = .ok ta)
    (htb : printLower io dim (B.map Dbl.fin) = .ok tb) (hs : compareProgram io t ta tb = .ok 0) :
    ∀ i j a b, i < dim → j ≤ i → A[i * dim + j]? = some a → B[i * dim + j]? = some b → |a - b| ≤ t + 1.0001e-10 + eps * |a| := by
  obtain ⟨tf, RF, f1, f2, f3, f4⟩ := fortran_matrix_file ioF eps dim A hdim hA hioF
  obtain ⟨tc, RC, c1, c2, c3, c4⟩ := matrix_file_round_trip io dim (B.map Dbl.fin) hdim (by simpa using hB) hio
  obtain rfl : tf = ta := Outcome.ok.inj (f1.symm.trans hta)
  obtain rfl : tc = tb := Outcome.ok.inj (c1.symm.trans htb)
  rw [readMatrix_scan ioF io hscan] at f2
  obtain ⟨s, s1, -, s2⟩ := compareProgram_read io t tf tc dim RF RC f2 c2 f3 c3
  have hall := s2.1 (Outcome.ok.inj (s1.symm.trans hs))
  intro i j a b hi hj ha hb
  obtain ⟨x, y, hx, hy, -, g2, g3⟩ := f4 i j hi (by omega)
  obtain ⟨d, hd, hR⟩ := c4 i j hi (by omega)
  obtain rfl : a = x := Option.some.inj (ha.symm.trans hx)
  rw [List.getElem?_map, hb] at hd
  obtain rfl : Dbl.fin b = d := Option.some.inj hd
  obtain ⟨z, hz, hz2⟩ := keptElement_fin b i j hj
  rw [hz] at hR
  have h := hall i j _ _ hi (by omega) hy hR
  simp only [Dbl.sub, Dbl.AbsGt, not_lt] at h
  have hya : |y - a| ≤ 1e-10 + eps * |a| := by
    have := mul_nonneg heps (abs_nonneg a)
    rcases le_or_gt (|a|) (1e-10) with h1 | h1
    · rw [g2 h1, zero_sub, abs_neg]; linarith
    · have := g3 hj h1; linarith
  rw [abs_le] at *
  constructor <;> linarith [hya.1, hya.2, hz2.1, hz2.2, h.1, h.2]

/-- **C111** (negative part). With the default threshold, the comparison accepts every file of the driver in C whose elements are at most 1e-10 in magnitude, if the elements
of the Fortran program are at most 1e-10 in magnitude, whatever their signs: differences of 2e-10 are accepted, which are found between files of the driver in C. -/
theorem fortran_compare_coarse (io ioF : DecimalIO) (hscan : ioF.scan = io.scan) (dim : Nat) (A B : List ℝ) (hdim : dim ≤ 46340) (hA : dim * dim ≤ A.length)
    (hB : dim * dim ≤ B.length) (hsA : ∀ x ∈ A, |x| ≤ 1e-10) (hsB : ∀ x ∈ B, |x| ≤ 1e-10) (hio : FaithfulElements io (B.map Dbl.fin))
    (hioA : FaithfulElements io (A.map Dbl.fin)) :
    ∃ tf ta tb, ftnPrintMatrix ioF dim (A.map Dbl.fin) = .ok tf ∧ printLower io dim (A.map Dbl.fin) = .ok ta ∧ printLower io dim (B.map Dbl.fin) = .ok tb ∧
      compareProgram io (1e-10) tf tb = .ok 0 ∧
      ∀ i j a b, i < dim → j ≤ i → A[i * dim + j]? = some a → B[i * dim + j]? = some b → 1e-10 + 2e-14 < |a - b| → compareProgram io (1e-10) ta tb = .ok 1 := by
  classical
  obtain ⟨tf, RF, f1, f2, f3, f4⟩ := fortran_matrix_file ioF 0 dim A hdim hA fun x hx h => absurd h (not_lt.2 (hsA x hx))
  obtain ⟨tb, RB, c1, c2, c3, c4⟩ := matrix_file_round_trip io dim (B.map Dbl.fin) hdim (by simpa using hB) hio
  obtain ⟨ta, tb', s', a1, b1, p1, p2, p3⟩ := matrix_compare_verdict io dim (A.map Dbl.fin) (B.map Dbl.fin) (1e-10) hdim (by simpa using hA) (by simpa using hB) hioA hio
  obtain rfl : tb' = tb := Outcome.ok.inj (b1.symm.trans c1)
  rw [readMatrix_scan ioF io hscan] at f2
  refine ⟨tf, ta, tb', f1, a1, c1, ?_, fun i j a b hi hj ha hb hab => ?_⟩
  · obtain ⟨s, s1, -, s2⟩ := compareProgram_read io (1e-10) tf tb' dim RF RB f2 c2 f3 c3
    rw [s1, s2.2]
    intro i j a b hi hj ha hb
    obtain ⟨x, y, hx, hy, -, g2, -⟩ := f4 i j hi hj
    obtain ⟨d, hd, hR⟩ := c4 i j hi hj
    have hlt : i * dim + j < B.length := lt_of_lt_of_le (lower_index hi hj) hB
    rw [List.getElem?_map, List.getElem?_eq_getElem hlt] at hd
    have hd' : Dbl.fin B[i * dim + j] = d := Option.some.inj hd
    have hm := hsB _ (List.getElem_mem hlt)
    rw [ha] at hy
    rw [hb] at hR
    obtain rfl := Option.some.inj hy
    obtain rfl := Option.some.inj hR
    rw [g2 (hsA x (List.mem_of_getElem? hx)), ← hd']
    unfold keptElement
    split_ifs
    · simpa [Dbl.sub, Dbl.AbsGt] using hm
    · simp only [Dbl.sub, Dbl.AbsGt, sub_zero, abs_zero, not_lt]; norm_num
  · rcases p2 with rfl | rfl
    · exfalso
      have h := p3.1 rfl i j (.fin a) (.fin b) hi (by omega) (by rw [List.getElem?_map, ha]; rfl) (by rw [List.getElem?_map, hb]; rfl)
      obtain ⟨y, hy, hy2⟩ := keptElement_fin a i j hj
      obtain ⟨z, hz, hz2⟩ := keptElement_fin b i j hj
      rw [hy, hz] at h
      simp only [Dbl.sub, Dbl.AbsGt, not_lt] at h
      have := abs_sub_abs_le_abs_sub a b
      rw [abs_le] at hy2 hz2 h
      rcases lt_abs.1 hab with h' | h' <;> linarith [hy2.1, hy2.2, hz2.1, hz2.2, h.1, h.2]
    · exact p1

open Classical in
/-- A C library which prints 1e-10 and −1e-10. -/
noncomputable def exampleTinyIO : DecimalIO where
  fmt d := match d with
    | .fin x => if 0 < x then ['1', 'E', '-', '1', '0'] else ['-', '1', 'E', '-', '1', '0']
    | _ => []
  scan s := if s = ['1', 'E', '-', '1', '0'] then some (.fin 1e-10) else if s = ['-', '1', 'E', '-', '1', '0'] then some (.fin (-1e-10)) else none

/-- The matrices (1e-10) and (−1e-10): the file of the Fortran program passes, that of the driver in C does not. -/
example : ∃ tf ta tb, ftnPrintMatrix exampleTinyIO 1 ([1e-10].map Dbl.fin) = .ok tf ∧ printLower exampleTinyIO 1 ([1e-10].map Dbl.fin) = .ok ta ∧
    printLower exampleTinyIO 1 ([-1e-10].map Dbl.fin) = .ok tb ∧ compareProgram exampleTinyIO (1e-10) tf tb = .ok 0 ∧
    compareProgram exampleTinyIO (1e-10) ta tb = .ok 1 := by
  have hp : (0 : ℝ) < 1e-10 := by norm_num
  have h10 : |(1e-10 : ℝ)| = 1e-10 := abs_of_pos hp
  obtain ⟨tf, ta, tb, h1, h2, h3, h4, h5⟩ := fortran_compare_coarse exampleTinyIO exampleTinyIO rfl 1 [1e-10] [-1e-10] (by norm_num) (by simp) (by simp)
    (by simp only [List.mem_singleton, forall_eq]; exact h10.le) (by simp only [List.mem_singleton, forall_eq, abs_neg]; exact h10.le)
    (fun d hd _ => by
      rw [List.map_singleton, List.mem_singleton] at hd
      subst hd
      have hn : ¬ (0 : ℝ) < -1e-10 := by norm_num
      refine ⟨?_, ?_, ?_, ?_⟩ <;> simp [exampleTinyIO, hn, isSpaceC])
    (fun d hd _ => by
      rw [List.map_singleton, List.mem_singleton] at hd
      subst hd
      refine ⟨?_, ?_, ?_, ?_⟩ <;> simp only [exampleTinyIO, if_pos hp] <;> simp [isSpaceC])
  refine ⟨tf, ta, tb, h1, h2, h3, h4, h5 0 0 _ _ (by norm_num) le_rfl rfl rfl ?_⟩
  rw [abs_of_pos (by norm_num)]; norm_num

end Libgrpp
