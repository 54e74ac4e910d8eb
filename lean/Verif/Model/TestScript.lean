import Verif.Model.Program

/-! # Model of the tests: `main` of `test/compare_matrices.c` with its command line, and the scripts `test/*/run_test.sh`

A directory gives for each name the contents of the file, or none. The shell, the search path and the redirection of the output to `test.out` are not
modelled. -/

namespace Libgrpp

/-- A directory. -/
abbrev Dir := String → Option (List Char)

/-- The directory after files have been written, one after the other: `fopen(path, "w")` replaces a file of that name. -/
def Dir.write (d : Dir) : List OutFile → Dir
  | [] => d
  | f :: fs => Dir.write (Function.update d f.1 (some f.2)) fs

/-- `fabs(d) > t` of IEEE 754 for any threshold. -/
def Dbl.Exceeds (d t : Dbl) : Prop :=
  match t with
  | fin t => d.AbsGt t
  | nan => False
  | inf neg => neg = true ∧ d ≠ nan

open Classical in
/-- `compare_matrices`, compare_matrices.c:129-148, for any threshold: the position of the first difference, `none` if it returns 1. -/
noncomputable def compareWith (dim : Nat) (m1 m2 : List Dbl) (threshold : Dbl) : Outcome (Option (Nat × Nat)) :=
  forRange dim none fun i found => match found with
    | some p => .ok (some p)
    | none => forRange dim none fun j found => match found with
      | some p => .ok (some p)
      | none => do
        let z1 ← rd m1 (i * dim + j)
        let z2 ← rd m2 (i * dim + j)
        .ok (if (z1.sub z2).Exceeds threshold then some (i, j) else none)

/-- `read_matrix`, compare_matrices.c:88-120, with `fopen`. -/
def readMatrixFile (io : DecimalIO) (d : Dir) (path : String) : Outcome (Option (Int × List Dbl)) :=
  match d path with
  | none => .ok none
  | some text => readMatrix io text

/-- compare_matrices.c:43-78: the exit status. -/
noncomputable def compareFiles (io : DecimalIO) (threshold : Dbl) (d : Dir) (path1 path2 : String) : Outcome Nat := do
  match ← readMatrixFile io d path1 with
  | none => .ok 1
  | some (dim1, m1) =>
    match ← readMatrixFile io d path2 with
    | none => .ok 1
    | some (dim2, m2) =>
      if dim1 ≠ dim2 then .ok 1
      else
        match ← compareWith dim1.toNat m1 m2 threshold with
        | none => .ok 0
        | some (i, j) => do
          let _ ← rd m1 (i * dim1.toNat + j)
          let _ ← rd m2 (i * dim1.toNat + j)
          .ok 1

/-- `main`, compare_matrices.c:15-79, with the arguments `args` (without the name of the program): the exit status. The threshold is read by `sscanf` with
`%lf`, line 30. -/
noncomputable def compareMain (io : DecimalIO) (d : Dir) (args : List String) : Outcome Nat :=
  match args with
  | [path1, path2] => compareFiles io (.fin (1e-10)) d path1 path2
  | [t, path1, path2] =>
    match scanDbl io t.toList with
    | none => .ok 1
    | some (threshold, _) => compareFiles io threshold d path1 path2
  | _ => .ok 1

/-- The comparisons of a script: each is followed by `if [ $? -ne 0 ]; then exit 1; fi`. -/
noncomputable def runComparisons (io : DecimalIO) (d : Dir) : List (String × String) → Outcome Nat
  | [] => .ok 0
  | (a, b) :: rest => do
    let s ← compareMain io d [a, b]
    if s ≠ 0 then .ok 1 else runComparisons io d rest

/-- A script `run_test.sh`: it runs a driver, the exit status of which it does not look at, then the comparisons. If the driver is stopped by a failed assertion or an
error in the middle of the calculation, `left` are the files which it has written before. -/
noncomputable def testScript (io : DecimalIO) (d : Dir) (driver : Outcome (List OutFile)) (left : List OutFile) (comparisons : List (String × String)) : Outcome Nat :=
  match driver with
  | .ok files => runComparisons io (d.write files) comparisons
  | .ub => .ub
  | _ => runComparisons io (d.write left) comparisons

/-- The files which the driver in C writes; its exit status is not used. -/
noncomputable def driverFiles {G : Type} (env : ProgEnv G) (args : List String) (mol basis ecp : List Char) : Outcome (List OutFile) := do
  let r ← programMain env (args.map String.toList) mol basis ecp
  .ok r.files

/-- The comparisons of the pseudopotential: test/Cs/run_test.sh:5-12, test/ThO/run_test.sh and test/UO2/run_test.sh. -/
def grppComparisons : List (String × String) :=
  [("libgrpp_c_arep.txt", "arep.txt"), ("libgrpp_c_so_x.txt", "so_x.txt"), ("libgrpp_c_so_y.txt", "so_y.txt"), ("libgrpp_c_so_z.txt", "so_z.txt")]

/-- test/Cs/run_test.sh:3. -/
def csArgs : List String := ["--grpp", "--overlap", "--coulomb-point"]

/-- test/Cs/run_test.sh:5-17. -/
def csComparisons : List (String × String) := grppComparisons ++ [("libgrpp_c_overlap.txt", "overlap.txt"), ("libgrpp_c_nucattr_point.txt", "coulomb.txt")]

/-- test/K/run_test.sh:3 and test/Tl_qz/run_test.sh:3. -/
def kArgs : List String := ["--coulomb-point", "--coulomb-point-num", "--coulomb-ball", "--coulomb-gauss", "--coulomb-fermi"]

/-- test/K/run_test.sh:5-14 and test/Tl_qz/run_test.sh:5-14. -/
def kComparisons : List (String × String) :=
  [("libgrpp_c_nucattr_point.txt", "nucattr_point.txt"), ("libgrpp_c_nucattr_point_numerical.txt", "nucattr_point_numerical.txt"),
    ("libgrpp_c_nucattr_charged_ball.txt", "nucattr_charged_ball.txt"), ("libgrpp_c_nucattr_gaussian.txt", "nucattr_gaussian.txt"),
    ("libgrpp_c_nucattr_fermi.txt", "nucattr_fermi.txt")]

/-- test/H2O/run_test.sh:3. -/
def h2oArgs : List String := ["--grpp", "--overlap", "--coulomb-point", "--kinetic", "--momentum", "--overlap-grad", "--grpp-grad"]

/-- The comparisons of gradients with one label for `n` atoms. -/
def gradComparisons (driver label : String) (n : Nat) : List (String × String) :=
  (List.range n).flatMap fun a => ["x", "y", "z"].map fun k =>
    (driver ++ label ++ "_grad_" ++ toString a ++ k ++ ".txt", label ++ "_grad_" ++ toString a ++ k ++ ".txt")

/-- test/H2O/run_test.sh:9-159. -/
def h2oComparisons : List (String × String) :=
  grppComparisons ++ [("libgrpp_c_overlap.txt", "overlap.txt"), ("libgrpp_c_nucattr_point.txt", "coulomb.txt"), ("libgrpp_c_kinetic_energy.txt", "kinetic_energy.txt"),
    ("libgrpp_c_momentum_x.txt", "momentum_x.txt"), ("libgrpp_c_momentum_y.txt", "momentum_y.txt"), ("libgrpp_c_momentum_z.txt", "momentum_z.txt")] ++
  ["overlap", "arep", "so_x", "so_y", "so_z"].flatMap fun l => gradComparisons "libgrpp_c_" l 3

/-- test/KCs/run_test.sh:8-79. -/
def kcsComparisons : List (String × String) :=
  [("libgrpp_f90_arep.txt", "arep.txt"), ("libgrpp_f90_so_x.txt", "so_x.txt"), ("libgrpp_f90_so_y.txt", "so_y.txt"), ("libgrpp_f90_so_z.txt", "so_z.txt")] ++
  ["arep", "so_x", "so_y", "so_z"].flatMap fun l => gradComparisons "libgrpp_f90_" l 2

/-! ## Specification -/

/-- Two matrices of dimension `n` of numbers of type `double` are equal within a threshold, as the program for comparison sees it. -/
def EqualWithin (threshold : Dbl) (n : Nat) (A B : List Dbl) : Prop :=
  ∀ i j, i < n → j < n → ∃ a b, A[i * n + j]? = some a ∧ B[i * n + j]? = some b ∧ ¬ (a.sub b).Exceeds threshold

/-- The names of the files which a calculation of the driver in C writes for a molecule with `natoms` atoms. -/
def calcNames (natoms : Nat) : Calc → List String
  | .grpp => ["libgrpp_c_arep.txt", "libgrpp_c_so_x.txt", "libgrpp_c_so_y.txt", "libgrpp_c_so_z.txt"]
  | .overlap => ["libgrpp_c_overlap.txt"]
  | .kinetic => ["libgrpp_c_kinetic_energy.txt"]
  | .momentum => ["libgrpp_c_momentum_x.txt", "libgrpp_c_momentum_y.txt", "libgrpp_c_momentum_z.txt"]
  | .point => ["libgrpp_c_nucattr_point.txt"]
  | .pointNum => ["libgrpp_c_nucattr_point_numerical.txt"]
  | .ball => ["libgrpp_c_nucattr_charged_ball.txt"]
  | .gauss => ["libgrpp_c_nucattr_gaussian.txt"]
  | .fermi => ["libgrpp_c_nucattr_fermi.txt"]
  | .fermiBubble => ["libgrpp_c_nucattr_fermi_bubble.txt"]
  | .overlapGrad => gradNames ["overlap"]
  | .grppGrad => gradNames ["arep", "so_x", "so_y", "so_z"]
  | .gradType1 => gradNames ["arep_type1"]
  | .gradType2 => gradNames ["arep_type2"]
  | .gradSpinOrbit => gradNames ["so_x_so", "so_y_so", "so_z_so"]
  | .gradOutercore => gradNames ["arep_ocpot", "so_x_ocpot", "so_y_ocpot", "so_z_ocpot"]
where
  gradNames (labels : List String) : List String := (List.range natoms).flatMap fun a => labels.flatMap fun l =>
    ["libgrpp_c_" ++ l ++ "_grad_" ++ toString a ++ "x.txt", "libgrpp_c_" ++ l ++ "_grad_" ++ toString a ++ "y.txt",
      "libgrpp_c_" ++ l ++ "_grad_" ++ toString a ++ "z.txt"]

/-- The reference file `name` of a directory, as the program for comparison reads it, is a matrix of dimension `N` whose lower triangle differs from that of `V` by at
most `tol v`, where `v` is the element, and which has nearly nothing above the diagonal. Elements that are no numbers may be anywhere. -/
def IsReference (io : DecimalIO) (d : Dir) (name : String) (N : ℕ) (V : ℕ → ℕ → ℝ) (tol : ℝ → ℝ) : Prop :=
  ∃ tb B, d name = some tb ∧ readMatrix io tb = .ok (some ((N : Int), B)) ∧
    ∀ p q, p < N → q < N → B[p * N + q]? = some .nan ∨
      ∃ x, B[p * N + q]? = some (.fin x) ∧ (q ≤ p → |V p q - x| ≤ tol (V p q)) ∧ (p < q → |x| ≤ 1e-10)

/-- What the files of the driver in C leave uncertain: the threshold plus the 1e-14 which may be lost in printing. -/
noncomputable def tolC : ℝ → ℝ := fun _ => 1e-10 + 1e-14

/-- What the files of the Fortran program leave uncertain, if numbers are printed with a relative error of at most `eps`: the threshold plus the 1e-10 which may be lost in
printing, and the error of printing. -/
noncomputable def tolF (eps : ℝ) : ℝ → ℝ := fun v => 2e-10 + eps * |v|

end Libgrpp
