import Verif.Model.Driver

/-! # Model of the matrix files: `test_libgrpp_c/print_matrix.c` writes them, `test/compare_matrices.c` reads and compares them

A file is the list of its characters. A `double` is a finite real number, an infinity or a NaN. The conversion of a `double` to decimal digits and
back by the C library is a parameter, see `DecimalIO`. That `fopen` succeeds and that memory can be allocated is assumed. -/

namespace Libgrpp

/-- A value of type `double`; rounding is not modelled. -/
inductive Dbl where
  | fin (x : ℝ)
  | inf (neg : Bool)
  | nan

/-- Subtraction of IEEE 754. -/
noncomputable def Dbl.sub : Dbl → Dbl → Dbl
  | fin x, fin y => fin (x - y)
  | nan, _ => nan
  | _, nan => nan
  | inf a, fin _ => inf a
  | fin _, inf b => inf (!b)
  | inf a, inf b => if a = b then nan else inf a

/-- `fabs(d) > t` of IEEE 754: false for a NaN. -/
def Dbl.AbsGt (d : Dbl) (t : ℝ) : Prop :=
  match d with
  | fin x => t < |x|
  | inf _ => True
  | nan => False

/-- The conversions of the C library: `fmt d` are the characters printed by `%.16E`, `scan token` is the number that `%lf` reads from a token (`none` if
it is not a number). Simplification: `%lf` is applied to the characters up to the next white space, while the C library stops at the first character
that cannot continue a number. -/
structure DecimalIO where
  fmt : Dbl → List Char
  scan : List Char → Option Dbl

/-- `isspace` in the C locale. -/
def isSpaceC (c : Char) : Bool := c = ' ' || c = '\t' || c = '\n' || c = '\x0b' || c = '\x0c' || c = '\r'

/-- Padding with blanks on the left to the width `w` of a conversion `%6d` or `%30.16E`. A longer text is not cut. -/
def padLeft (w : Nat) (s : List Char) : List Char := List.replicate (w - s.length) ' ' ++ s

/-- `%<w>d` for a number that is not negative. -/
def fmtInt (w n : Nat) : List Char := padLeft w (Nat.toDigits 10 n)

/-- One line `%<w>d%<w>d%30.16E\n`, print_matrix.c:22 (w = 4) and :42 (w = 6); `i` and `j` count from 0. -/
def matrixLine (io : DecimalIO) (w i j : Nat) (d : Dbl) : List Char :=
  fmtInt w (i + 1) ++ fmtInt w (j + 1) ++ padLeft 30 (io.fmt d) ++ ['\n']

open Classical in
/-- `print_matrix_lower_triangle`, print_matrix.c:31-48: the contents of the file. The index is an `int`. -/
noncomputable def printLower (io : DecimalIO) (dim : Nat) (matrix : List Dbl) : Outcome (List Char) :=
  forRange dim (fmtInt 6 dim ++ ['\n']) fun i out =>
    forRange (i + 1) out fun j out => do
      Outcome.valid (i * dim + j ≤ intMax)
      let d ← rd matrix (i * dim + j)
      .ok (if d.AbsGt (1e-14) then out ++ matrixLine io 6 i j d else out)

/-- The value of a sequence of digits with or without a sign. -/
def signedVal (neg : Bool) (ds : List Char) : Int := if neg then -(Nat.ofDigitChars 10 ds 0 : Int) else Nat.ofDigitChars 10 ds 0

/-- The conversion `%d` of `fscanf`: white space is skipped, then a sign and digits are read. `none`: end of file or not a number. A number that is not
an `int` is undefined behaviour. -/
def scanInt (text : List Char) : Outcome (Option (Int × List Char)) :=
  let t := text.dropWhile isSpaceC
  let neg := t.head? = some '-'
  let t := if t.head? = some '-' ∨ t.head? = some '+' then t.tail else t
  let ds := t.takeWhile Char.isDigit
  if ds = [] then .ok none
  else do
    Outcome.valid (-(intMax : Int) - 1 ≤ signedVal neg ds ∧ signedVal neg ds ≤ intMax)
    .ok (some (signedVal neg ds, t.dropWhile Char.isDigit))

/-- The conversion `%lf` of `fscanf`, see `DecimalIO`. -/
def scanDbl (io : DecimalIO) (text : List Char) : Option (Dbl × List Char) :=
  let t := text.dropWhile isSpaceC
  match io.scan (t.takeWhile fun c => !isSpaceC c) with
  | some d => if t = [] then none else some (d, t.dropWhile fun c => !isSpaceC c)
  | none => none

/-- `fscanf(f, "%d%d%lf", &i, &j, &val)`, compare_matrices.c:107; `none`: the result is not 3. -/
def scanEntry (io : DecimalIO) (text : List Char) : Outcome (Option (Int × Int × Dbl × List Char)) := do
  match ← scanInt text with
  | none => .ok none
  | some (i, t) =>
    match ← scanInt t with
    | none => .ok none
    | some (j, t) =>
      match scanDbl io t with
      | none => .ok none
      | some (d, t) => .ok (some (i, j, d, t))

/-- The loop of `read_matrix`, compare_matrices.c:107-113; `none` is the return value -1. Every entry read consumes characters of the file, so that
the test of the lengths, needed for the termination of the definition, always succeeds. -/
def readEntries (io : DecimalIO) (dim : Int) (matrix : List Dbl) (text : List Char) : Outcome (Option (List Dbl)) := do
  match ← scanEntry io text with
  | none => .ok (some matrix)
  | some (i, j, d, t) =>
    if ¬ (1 ≤ i ∧ i ≤ dim) ∨ ¬ (1 ≤ j ∧ j ≤ dim) then .ok none
    else
      let m ← wr matrix (dim * (i - 1) + (j - 1)).toNat d
      if _h : t.length < text.length then readEntries io dim m t else .ok (some m)
termination_by text.length

/-- `read_matrix`, compare_matrices.c:85-118: dimension and elements, or `none` if it returns -1. -/
def readMatrix (io : DecimalIO) (text : List Char) : Outcome (Option (Int × List Dbl)) := do
  match ← scanInt text with
  | none => .ok none
  | some (dim, t) =>
    Outcome.valid (dim * dim ≤ intMax)
    match ← readEntries io dim (List.replicate (dim * dim).toNat (.fin 0)) t with
    | none => .ok none
    | some m => .ok (some (dim, m))

open Classical in
/-- `compare_matrices`, compare_matrices.c:127-147: the position of the first difference, `none` if it returns 1. -/
noncomputable def compareMatrices (dim : Nat) (m1 m2 : List Dbl) (threshold : ℝ) : Outcome (Option (Nat × Nat)) :=
  forRange dim none fun i found => match found with
    | some p => .ok (some p)
    | none => forRange dim none fun j found => match found with
      | some p => .ok (some p)
      | none => do
        let z1 ← rd m1 (i * dim + j)
        let z2 ← rd m2 (i * dim + j)
        .ok (if (z1.sub z2).AbsGt threshold then some (i, j) else none)

/-- `main` of compare_matrices.c:40-76 after the command line has been read: the exit status, 0 for "matrices are equal". -/
noncomputable def compareProgram (io : DecimalIO) (threshold : ℝ) (text1 text2 : List Char) : Outcome Nat := do
  match ← readMatrix io text1 with
  | none => .ok 1
  | some (dim1, m1) =>
    match ← readMatrix io text2 with
    | none => .ok 1
    | some (dim2, m2) =>
      if dim1 ≠ dim2 then .ok 1
      else
        match ← compareMatrices dim1.toNat m1 m2 threshold with
        | none => .ok 0
        | some _ => .ok 1

/-! ## Specification -/

/-- The C library prints the number `d` so that it can be read again: at most 29 characters without white space, from which the same number is read. The
numbers of type `double` satisfy this: `%.16E` prints 17 significant digits in at most 24 characters. -/
def DecimalIO.Faithful (io : DecimalIO) (d : Dbl) : Prop :=
  io.fmt d ≠ [] ∧ (io.fmt d).length ≤ 29 ∧ (∀ c ∈ io.fmt d, isSpaceC c = false) ∧ io.scan (io.fmt d) = some d

open Classical in
/-- What a matrix file keeps of element (i, j): elements above the diagonal, elements that are nearly zero, and NaNs are lost. -/
noncomputable def keptElement (d : Dbl) (i j : Nat) : Dbl := if j ≤ i ∧ d.AbsGt (1e-14) then d else .fin 0

end Libgrpp
