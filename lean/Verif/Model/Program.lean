import Verif.Model.DriverGrpp
import Verif.Model.DriverNuclear
import Verif.Model.DriverTerms
import Verif.Model.FullLib
import Verif.Model.MatrixFile
import Verif.Model.BasisFile
import Verif.Model.GrppFile
import Verif.Model.Elements

/-! # Model of the whole driver program: `main` of `test_libgrpp_c/main.c`, from the command line and the three input files to the output files

Conventions as in `Verif/Model/BasisFile.lean`: files are lists of characters, numbers that are infinite or no numbers in input files count as undefined
behaviour, memory is always available, all files can be opened. -/

namespace Libgrpp

/-- The calculations which the program offers, in the order in which it performs them, main.c:257-347. -/
inductive Calc
  | grpp | overlap | kinetic | momentum | point | pointNum | ball | gauss | fermi | fermiBubble | overlapGrad | grppGrad | gradType1 | gradType2
  | gradSpinOrbit | gradOutercore
  deriving DecidableEq

/-- The order of main.c:257-347. -/
def Calc.all : List Calc :=
  [.grpp, .overlap, .kinetic, .momentum, .point, .pointNum, .ball, .gauss, .fermi, .fermiBubble, .overlapGrad, .grppGrad, .gradType1, .gradType2,
    .gradSpinOrbit, .gradOutercore]

/-- The arguments, main.c:95-142. -/
def Calc.arg : Calc → List Char
  | .grpp => "--grpp".toList
  | .overlap => "--overlap".toList
  | .point => "--coulomb-point".toList
  | .pointNum => "--coulomb-point-num".toList
  | .ball => "--coulomb-ball".toList
  | .gauss => "--coulomb-gauss".toList
  | .fermi => "--coulomb-fermi".toList
  | .fermiBubble => "--coulomb-fermi-bubble".toList
  | .kinetic => "--kinetic".toList
  | .momentum => "--momentum".toList
  | .grppGrad => "--grpp-grad".toList
  | .gradType1 => "--grad-type1".toList
  | .gradType2 => "--grad-type2".toList
  | .gradSpinOrbit => "--grad-spin-orbit".toList
  | .gradOutercore => "--grad-outercore".toList
  | .overlapGrad => "--overlap-grad".toList

/-- The chain of comparisons of one argument with the names, main.c:95-142. -/
def parseArg (a : List Char) : Option Calc := Calc.all.find? fun c => c.arg == a

/-- One pass of the loop over the arguments, main.c:95-164: which calculations are to be done, `none` after `return 1`. -/
def parseStep (args : List (List Char)) (i : Nat) (st : Option (Calc → Bool)) : Outcome (Option (Calc → Bool)) :=
  match st with
  | none => .ok none
  | some flags => do
    let a ← rd args i
    match parseArg a with
    | none => .ok none
    | some c => .ok (some fun c' => flags c' || c' == c)

/-- The loop over the arguments, main.c:94-165. -/
def parseArgs (args : List (List Char)) : Outcome (Option (Calc → Bool)) :=
  forRange args.length (some fun _ => false) (parseStep args)

/-- The conversion `%lf` in `read_molecule`, molecule.c:75. -/
def readCoord (io : DecimalIO) (text : List Char) : Outcome (Option (ℝ × List Char)) :=
  match scanDbl io text with
  | none => .ok none
  | some (.fin x, t) => .ok (some (x, t))
  | some _ => .ub

/-- `fscanf(inp_file, "%s%lf%lf%lf", buf, …)`, molecule.c:75; `none`: the result is not 4. The array `buf` has 256 elements. -/
def readXyzRecord (io : DecimalIO) (text : List Char) : Outcome (Option (List Char × Point × List Char)) :=
  match scanWord text with
  | none => .ok none
  | some (w, t) => do
    Outcome.valid (w.length < 256)
    match ← readCoord io t with
    | none => .ok none
    | some (x, t) =>
      match ← readCoord io t with
      | none => .ok none
      | some (y, t) =>
        match ← readCoord io t with
        | none => .ok none
        | some (z, t) => .ok (some (w, ![x, y, z], t))

/-- One pass of the loop of `read_molecule`, molecule.c:75-88: the atoms so far and the rest of the file; `none` after an error. -/
def readAtom (io : DecimalIO) (st : Option (List (Nat × Point) × List Char)) : Outcome (Option (List (Nat × Point) × List Char)) :=
  match st with
  | none => .ok none
  | some (l, t) => do
    match ← readXyzRecord io t with
    | none => .ok none
    | some (w, p, t) =>
      let z ← getElementNucCharge (w.map Char.toNat)
      .ok (if z = -1 then none else some (l ++ [(z.toNat, p)], t))

/-- `read_molecule`, molecule.c:46-102: charges and positions, `none` for `NULL`. A negative number of atoms counts as zero. Characters are bytes. -/
def readMoleculeText (io : DecimalIO) (text : List Char) : Outcome (Option (List (Nat × Point))) := do
  match ← scanInt text with
  | none => .ok none
  | some (n, t) =>
    let r ← forRange n.toNat (some (([] : List (Nat × Point)), t)) fun _ st => readAtom io st
    .ok (r.map Prod.fst)

/-- Printing the basis sets, main.c:217-224 with `print_basis_set`, basis.c:166-186: the string of labels has 15 elements. -/
def printBasisSets (sets : List (Option (List BasisFun))) : Outcome Unit :=
  forRange 131 () fun i _ => do
    match ← rd sets i with
    | none => .ok ()
    | some fs => forRange fs.length () fun k _ => do
      let f ← rd fs k
      Outcome.valid (f.L < 15)

/-- `print_shell_list`, shell_list.c:74-119: the label of a component `x^n y^l z^m` is stored in an array of 32 elements. -/
def printShells (shells : List Shell) : Outcome Unit :=
  forRange shells.length () fun i _ => do
    let s ← rd shells i
    forRange s.cart_size () fun k _ => do
      let c ← rd s.cartList k
      Outcome.valid (max (c.1 + c.2.1 + c.2.2) 1 < 32)

/-- A file written by the program: its name and its contents. -/
abbrev OutFile := String × List Char

/-- `calloc(basis_dim * basis_dim, sizeof(double))`, main.c:370 and elsewhere; the product is an `int`. -/
def newMatrix (dim : Nat) : Outcome (List ℝ) := do
  Outcome.valid (dim * dim ≤ intMax)
  .ok (List.replicate (dim * dim) 0)

/-- `print_matrix_lower_triangle`, main.c:383 and elsewhere. -/
noncomputable def writeMatrix (io : DecimalIO) (name : String) (dim : Nat) (M : List ℝ) : Outcome OutFile := do
  let t ← printLower io dim (M.map Dbl.fin)
  .ok (name, t)

/-- What the program runs on: the library after `libgrpp_set_cartesian_order`, `libgrpp_init` and `libgrpp_set_radial_tolerance` (main.c:64, 191, 377), the
conversions of numbers of the C library, the order of the iterations of the parallel loop, the contents of uninitialised or thread-private buffers, and what
the out-of-bounds reads in the gradient routines of the library return (for a calculation, the offsets of two shells, two atoms and a potential; `none`: such
a read is undefined behaviour). -/
structure ProgEnv (G : Type) where
  lib : Lib G
  sf : SpecFun
  sk : SkFun
  io : DecimalIO
  order : Nat → List Nat
  grppBufs : Nat → Fin 4 → List ℝ
  buf : List ℝ
  mbuf : Fin 3 → List ℝ
  nbuf : List ℝ
  junk : Calc → Nat → Nat → Nat → Nat → Nat → Option (Nat → ℝ)

/-- The library as the nuclear-attraction routines see it. -/
def ProgEnv.nuc {G : Type} (env : ProgEnv G) : NucEnv G := ⟨env.lib.init, env.lib.prm, env.lib.bt, env.sf, env.sk⟩

/-- `libgrpp_full_grpp_integrals` for a pseudopotential `g` at `C`. -/
noncomputable def ProgEnv.full {G : Type} (env : ProgEnv G) (g : GrppData) (C : Point) : FullRoutine :=
  fun S T M => fullGrpp (libKernels env.lib env.sf) env.lib.init S T g C M

/-- `calculate_write_grpp_integrals`, main.c:365-394. -/
noncomputable def writeGrpp {G : Type} (env : ProgEnv G) (shells : List Shell) (atoms : List (Nat × Point)) (grpps : List (Option GrppData)) :
    Outcome (List OutFile) := do
  let dim ← basisDim shells
  let m ← newMatrix dim
  let r ← evalGrpp (libKernels env.lib env.sf) shells atoms grpps env.order env.grppBufs fun _ => m
  let f0 ← writeMatrix env.io "libgrpp_c_arep.txt" dim (r 0)
  let f1 ← writeMatrix env.io "libgrpp_c_so_x.txt" dim (r 1)
  let f2 ← writeMatrix env.io "libgrpp_c_so_y.txt" dim (r 2)
  let f3 ← writeMatrix env.io "libgrpp_c_so_z.txt" dim (r 3)
  .ok [f0, f1, f2, f3]

/-- `calculate_write_overlap_integrals`, main.c:397-411. -/
noncomputable def writeOverlap {G : Type} (env : ProgEnv G) (shells : List Shell) : Outcome (List OutFile) := do
  let dim ← basisDim shells
  let m ← newMatrix dim
  let r ← evalOverlap shells env.buf m
  let f ← writeMatrix env.io "libgrpp_c_overlap.txt" dim r
  .ok [f]

/-- `calculate_write_kinetic_energy_integrals`, main.c:414-428. -/
noncomputable def writeKinetic {G : Type} (env : ProgEnv G) (shells : List Shell) : Outcome (List OutFile) := do
  let dim ← basisDim shells
  let m ← newMatrix dim
  let r ← evalKinetic shells env.buf m
  let f ← writeMatrix env.io "libgrpp_c_kinetic_energy.txt" dim r
  .ok [f]

/-- `calculate_write_momentum_integrals`, main.c:431-451. -/
noncomputable def writeMomentum {G : Type} (env : ProgEnv G) (shells : List Shell) : Outcome (List OutFile) := do
  let dim ← basisDim shells
  let m ← newMatrix dim
  let r ← evalMomentum shells env.mbuf fun _ => m
  let f0 ← writeMatrix env.io "libgrpp_c_momentum_x.txt" dim (r 0)
  let f1 ← writeMatrix env.io "libgrpp_c_momentum_y.txt" dim (r 1)
  let f2 ← writeMatrix env.io "libgrpp_c_momentum_z.txt" dim (r 2)
  .ok [f0, f1, f2]

/-- The names of the files in the `switch` of `calculate_write_nuclear_attraction_integrals`, main.c:464-485; for other models nothing is written. -/
def nuclearFile (model : Int) : Option String :=
  if model = modelPoint then some "libgrpp_c_nucattr_point.txt"
  else if model = modelPointNumerical then some "libgrpp_c_nucattr_point_numerical.txt"
  else if model = modelBall then some "libgrpp_c_nucattr_charged_ball.txt"
  else if model = modelGaussian then some "libgrpp_c_nucattr_gaussian.txt"
  else if model = modelFermi then some "libgrpp_c_nucattr_fermi.txt"
  else if model = modelBubble then some "libgrpp_c_nucattr_fermi_bubble.txt"
  else none

/-- `calculate_write_nuclear_attraction_integrals`, main.c:454-490. -/
noncomputable def writeNuclear {G : Type} (env : ProgEnv G) (model : Int) (shells : List Shell) (atoms : List (Nat × Point)) : Outcome (List OutFile) := do
  let dim ← basisDim shells
  let m ← newMatrix dim
  let r ← evalNuclear env.nuc model shells atoms env.nbuf m
  match nuclearFile model with
  | none => .ok []
  | some name =>
    let f ← writeMatrix env.io name dim r
    .ok [f]

/-- Allocation of the matrices of a gradient, main.c:497-500 (and 534-544, 636-639, 678-681, 720-728, 803-813): an array of `3 * n_atoms` pointers. -/
def newGrads (natoms dim : Nat) : Outcome (List (List ℝ)) :=
  forRange (3 * natoms) [] fun _ l => do
    let m ← newMatrix dim
    .ok (l ++ [m])

/-- `sprintf(buf, "libgrpp_c_…_grad_%dx.txt", iatom)`, main.c:511-513 and elsewhere. At most 42 characters, if the number is an `int`; the arrays have 100. -/
def gradFile (label : String) (ia : Nat) (k : Fin 3) : String :=
  "libgrpp_c_" ++ label ++ "_grad_" ++ toString ia ++ (match k with | 0 => "x" | 1 => "y" | 2 => "z") ++ ".txt"

/-- Three calls of `print_matrix_lower_triangle` for one atom, main.c:515-517 and elsewhere. -/
noncomputable def writeAtomGrad (io : DecimalIO) (dim : Nat) (label : String) (grad : List (List ℝ)) (ia : Nat) : Outcome (List OutFile) := do
  let mx ← rd grad (3 * ia + 0)
  let fx ← writeMatrix io (gradFile label ia 0) dim mx
  let my ← rd grad (3 * ia + 1)
  let fy ← writeMatrix io (gradFile label ia 1) dim my
  let mz ← rd grad (3 * ia + 2)
  let fz ← writeMatrix io (gradFile label ia 2) dim mz
  .ok [fx, fy, fz]

/-- The files of one atom, of all gradients of a calculation one after the other, main.c:506-518, 552-613, 646-661, 688-703, 736-782, 824-885. -/
noncomputable def writeAtomGrads (io : DecimalIO) (dim ia : Nat) : List (String × List (List ℝ)) → Outcome (List OutFile)
  | [] => .ok []
  | (label, grad) :: rest => do
    let fs ← writeAtomGrad io dim label grad ia
    let gs ← writeAtomGrads io dim ia rest
    .ok (fs ++ gs)

/-- The loop over the atoms which writes the files of gradients, main.c:506-518 and elsewhere. -/
noncomputable def writeGrads (io : DecimalIO) (natoms dim : Nat) (grads : List (String × List (List ℝ))) : Outcome (List OutFile) :=
  forRange natoms [] fun ia out => do
    let fs ← writeAtomGrads io dim ia grads
    .ok (out ++ fs)

/-- `calculate_write_overlap_gradient`, main.c:493-526. -/
noncomputable def writeOverlapGrad {G : Type} (env : ProgEnv G) (shells : List Shell) (atoms : List (Nat × Point)) : Outcome (List OutFile) := do
  let dim ← basisDim shells
  let g ← newGrads atoms.length dim
  let r ← evalOverlapGrad env.lib.gen (fun io jo ia => env.junk .overlapGrad io jo ia 0 0) shells atoms g
  writeGrads env.io atoms.length dim [("overlap", r)]

/-- `calculate_write_grpp_gradient`, main.c:529-628. -/
noncomputable def writeGrppGrad {G : Type} (env : ProgEnv G) (shells : List Shell) (atoms : List (Nat × Point)) (grpps : List (Option GrppData)) :
    Outcome (List OutFile) := do
  let dim ← basisDim shells
  let g ← newGrads atoms.length dim
  let r ← evalGrppGrad env.lib.gen (fun io jo ia ir => env.junk .grppGrad io jo ia ir 0) env.full shells atoms grpps fun _ => g
  writeGrads env.io atoms.length dim [("arep", r 0), ("so_x", r 1), ("so_y", r 2), ("so_z", r 3)]

/-- `calculate_write_type1_gradient`, main.c:631-670. -/
noncomputable def writeType1Grad {G : Type} (env : ProgEnv G) (shells : List Shell) (atoms : List (Nat × Point)) (grpps : List (Option GrppData)) :
    Outcome (List OutFile) := do
  let dim ← basisDim shells
  let g ← newGrads atoms.length dim
  let r ← evalType1Grad env.lib.gen (fun io jo ia ir => env.junk .gradType1 io jo ia ir 0) env.full shells atoms grpps g
  writeGrads env.io atoms.length dim [("arep_type1", r)]

/-- `calculate_write_type2_gradient`, main.c:673-712. -/
noncomputable def writeType2Grad {G : Type} (env : ProgEnv G) (shells : List Shell) (atoms : List (Nat × Point)) (grpps : List (Option GrppData)) :
    Outcome (List OutFile) := do
  let dim ← basisDim shells
  let g ← newGrads atoms.length dim
  let r ← evalType2Grad env.lib.gen (env.junk .gradType2) env.full shells atoms grpps g
  writeGrads env.io atoms.length dim [("arep_type2", r)]

/-- `calculate_write_spin_orbit_gradient`, main.c:715-795. -/
noncomputable def writeSOGrad {G : Type} (env : ProgEnv G) (shells : List Shell) (atoms : List (Nat × Point)) (grpps : List (Option GrppData)) :
    Outcome (List OutFile) := do
  let dim ← basisDim shells
  let g ← newGrads atoms.length dim
  let r ← evalSOGrad env.lib.gen (env.junk .gradSpinOrbit) env.full shells atoms grpps fun _ => g
  writeGrads env.io atoms.length dim [("so_x_so", r 0), ("so_y_so", r 1), ("so_z_so", r 2)]

/-- `calculate_write_outercore_potential_gradient`, main.c:798-900. -/
noncomputable def writeOcGrad {G : Type} (env : ProgEnv G) (shells : List Shell) (atoms : List (Nat × Point)) (grpps : List (Option GrppData)) :
    Outcome (List OutFile) := do
  let dim ← basisDim shells
  let g ← newGrads atoms.length dim
  let r ← evalOcGrad env.lib.gen (fun io jo ia ir => env.junk .gradOutercore io jo ia ir 0) env.full shells atoms grpps fun _ => g
  writeGrads env.io atoms.length dim [("arep_ocpot", r 0), ("so_x_ocpot", r 1), ("so_y_ocpot", r 2), ("so_z_ocpot", r 3)]

/-- One calculation, main.c:257-347. -/
noncomputable def runCalc {G : Type} (env : ProgEnv G) (shells : List Shell) (atoms : List (Nat × Point)) (grpps : List (Option GrppData)) (c : Calc) :
    Outcome (List OutFile) :=
  match c with
  | .grpp => writeGrpp env shells atoms grpps
  | .overlap => writeOverlap env shells
  | .kinetic => writeKinetic env shells
  | .momentum => writeMomentum env shells
  | .point => writeNuclear env modelPoint shells atoms
  | .pointNum => writeNuclear env modelPointNumerical shells atoms
  | .ball => writeNuclear env modelBall shells atoms
  | .gauss => writeNuclear env modelGaussian shells atoms
  | .fermi => writeNuclear env modelFermi shells atoms
  | .fermiBubble => writeNuclear env modelBubble shells atoms
  | .overlapGrad => writeOverlapGrad env shells atoms
  | .grppGrad => writeGrppGrad env shells atoms grpps
  | .gradType1 => writeType1Grad env shells atoms grpps
  | .gradType2 => writeType2Grad env shells atoms grpps
  | .gradSpinOrbit => writeSOGrad env shells atoms grpps
  | .gradOutercore => writeOcGrad env shells atoms grpps

/-- The sequence of the calculations, main.c:257-347: those selected, in the order of `cs`. -/
noncomputable def runCalcs {G : Type} (env : ProgEnv G) (shells : List Shell) (atoms : List (Nat × Point)) (grpps : List (Option GrppData))
    (flags : Calc → Bool) : List Calc → Outcome (List OutFile)
  | [] => .ok []
  | c :: cs =>
    if flags c then do
      let f ← runCalc env shells atoms grpps c
      let fs ← runCalcs env shells atoms grpps flags cs
      .ok (f ++ fs)
    else runCalcs env shells atoms grpps flags cs

/-- What remains of a run: the exit status, the argument which the program calls unknown, the files. -/
structure ProgResult where
  status : Nat
  unknown : Option (List Char)
  files : List OutFile

/-- `main`, main.c:59-362, with the arguments `args` (without the name of the program) and the contents of `molecule.xyz`, `basis.inp` and `ecp.inp`. -/
noncomputable def programMain {G : Type} (env : ProgEnv G) (args : List (List Char)) (mol basis ecp : List Char) : Outcome ProgResult := do
  match ← parseArgs args with
  | none =>
    let a ← rd args 0
    .ok ⟨1, some a, []⟩
  | some flags =>
    match ← readMoleculeText env.io mol with
    | none => .ok ⟨1, none, []⟩
    | some atoms =>
      let sets ← mainBasisSets env.lib.gen env.io basis atoms
      let _ ← printBasisSets sets
      let grpps ← mainGrpps env.lib.gen env.io ecp atoms
      let shells ← constructShellList env.lib.gen atoms sets
      let _ ← printShells shells
      let files ← runCalcs env shells atoms grpps flags Calc.all
      .ok ⟨0, none, files⟩

/-! ## Specification -/

/-- The number of basis functions which the blocks of an entry, beginning with angular momentum `L`, describe. -/
def entryDim (L : Nat) : List BasisBlock → Nat
  | [] => 0
  | b :: bs => b.nc * ((L + 1) * (L + 2) / 2) + entryDim (L + 1) bs

/-- The number of basis functions of a molecule. -/
def moleculeDim (atoms : List (Nat × Point)) (entries : Nat → List BasisBlock) : Nat := (atoms.map fun a => entryDim 0 (entries a.1)).sum

end Libgrpp
