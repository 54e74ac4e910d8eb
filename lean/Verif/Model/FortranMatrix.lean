import Verif.Model.MatrixFile

/-! # Model of the matrix files of the Fortran front end: `print_matrix`, `test_libgrpp_f90/evalints.f90:685-711`

The files are compared with those of the driver in C and with the references of the test suite by `compare_matrices` (`Verif/Model/MatrixFile.lean`). -/

namespace Libgrpp

/-- An edit descriptor of width `w`: the text is moved to the right; a text that is too long is replaced by asterisks. -/
def ftnField (w : Nat) (s : List Char) : List Char := if s.length ≤ w then padLeft w s else List.replicate w '*'

/-- The record `(2i6,e30.16)`, evalints.f90:704; `i` and `j` count from 0. `io.fmt` gives the characters of `e30.16` without the blanks. -/
def ftnLine (io : DecimalIO) (i j : Nat) (d : Dbl) : List Char :=
  ftnField 6 (Nat.toDigits 10 (i + 1)) ++ ftnField 6 (Nat.toDigits 10 (j + 1)) ++ ftnField 30 (io.fmt d) ++ ['\n']

open Classical in
/-- `print_matrix`, evalints.f90:685-711, for a square matrix stored by rows: the contents of the file. The matrix has `dim` rows and columns. -/
noncomputable def ftnPrintMatrix (io : DecimalIO) (dim : Nat) (matrix : List Dbl) : Outcome (List Char) :=
  forRange dim (ftnField 6 (Nat.toDigits 10 dim) ++ ['\n']) fun i out =>
    forRange (i + 1) out fun j out => do
      let d ← rd matrix (i * dim + j)
      .ok (if d.AbsGt (1e-10) then out ++ ftnLine io i j d else out)

/-! ## Specification -/

/-- The number `d` is printed by the Fortran program so that `%lf` reads `d'`: at most 29 characters without white space. `e30.16` prints 16 significant
digits, which is less than the 17 needed to distinguish all numbers, so that `d'` may differ from `d`. Numbers with an exponent of three digits are
printed without the letter `E` and are not read in this way. -/
def DecimalIO.ReadsAs (io : DecimalIO) (d d' : Dbl) : Prop :=
  io.fmt d ≠ [] ∧ (io.fmt d).length ≤ 29 ∧ (∀ c ∈ io.fmt d, isSpaceC c = false) ∧ io.scan (io.fmt d) = some d'

/-- The number `x` is read again with a relative error of at most `eps`; for `e30.16` this is less than 1e-15. -/
def DecimalIO.Near (io : DecimalIO) (eps x : ℝ) : Prop := ∃ y, io.ReadsAs (.fin x) (.fin y) ∧ |y - x| ≤ eps * |x|

end Libgrpp
