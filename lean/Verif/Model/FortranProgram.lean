import Verif.Model.FortranGradient
import Verif.Model.FortranRpp
import Verif.Model.FortranMatrix
import Verif.Model.Program

/-! # Model of the whole Fortran program: `test_libgrpp_f90/main.f90`, with `print_basis`, `print_ecp` and the labels of the basis functions

What is written to the terminal is left out, but not the conditions under which it can be written: the items of a formatted output must fit the edit descriptors. If
there are more items than descriptors, the format is used again from its beginning (format reversion). An item which does not fit is a violation of the rules of the
language; the outcome is undefined (with gfortran the program stops). The units and names of files are as given; opening files always succeeds. -/

namespace Libgrpp

/-! ## Formatted output -/

/-- Kinds of data edit descriptors (`i`, `f`, `a`), and of items. -/
inductive FEdit where
  | int
  | real
  | char
  deriving DecidableEq

/-- The items fit the descriptors of a format without nested groups, which is used again and again. -/
def EditOk (fmt items : List FEdit) : Prop := ∀ i < items.length, items[i]? = fmt[i % fmt.length]?

instance (fmt items : List FEdit) : Decidable (EditOk fmt items) := inferInstanceAs (Decidable (∀ i < items.length, _))

/-- The statements `print '(f20.10,a,20f16.10)'` for the primitives of a block, basis.f90:122-125 and rpp.f90:136-139. -/
def ftnPrintFuns (np nc : Nat) (exps : List ℝ) (coeffs : List (List ℝ)) : Outcome Unit :=
  forRange np () fun ip _ => do
    let _ ← rd exps ip
    forRange nc () fun f _ => do
      let c ← rd coeffs f
      let _ ← rd c ip
      .ok ()
    Outcome.valid (EditOk (.real :: .char :: List.replicate 20 .real) (.real :: .char :: List.replicate nc .real))

/-- `print_basis`, basis.f90:108-129. `symbols_table` has 10 elements. -/
def ftnPrintBasis (b : FBasis) : Outcome Unit :=
  forRange b.numBlocks () fun L _ => do
    Outcome.valid (L < 10)
    let blk ← rd b.blocks L
    ftnPrintFuns blk.numPrim blk.numContr blk.exponents blk.coeffs

/-- The outer-core functions in `print_ecp`, rpp.f90:131-141. -/
def ftnPrintCore (e : FEcp) : Outcome Unit :=
  forRange e.numArep () fun L _ => do
    let r ← rd e.rows L
    if r.numOc = 0 then .ok ()
    else do
      Outcome.valid (L < 10)
      ftnPrintFuns r.ocNum r.numOc r.ocAlpha r.ocCoeffs

/-- The semilocal potentials in `print_ecp`, rpp.f90:145-151. -/
def ftnPrintSemilocal (e : FEcp) : Outcome Unit :=
  forRange e.numArep () fun L _ => do
    Outcome.valid (L < 10)
    let r ← rd e.rows L
    forRange r.numPrim () fun ip _ => do
      let _ ← rd r.powers ip
      let _ ← rd r.alpha ip
      let _ ← rd r.arep ip
      let _ ← rd r.esop ip
      Outcome.valid (EditOk [.int, .real, .real, .real] [.int, .real, .real, .real])

/-- The outer-core potentials in `print_ecp`, rpp.f90:155-177. The formats of the headings (lines 162 and 166) have groups of descriptors for text and are
always fit. -/
def ftnPrintOcPots (e : FEcp) : Outcome Unit :=
  forRange e.numArep () fun L _ => do
    let r ← rd e.rows L
    if r.numOc = 0 then .ok ()
    else do
      Outcome.valid (L < 10)
      forRange r.numPrim () fun ip _ => do
        let _ ← rd r.powers ip
        let _ ← rd r.alpha ip
        forRange r.numOc () fun i _ => do
          let c ← rd r.ocpot i
          let _ ← rd c ip
          .ok ()
        Outcome.valid (EditOk (.int :: List.replicate 20 .real) (.int :: .real :: List.replicate r.numOc .real))

/-- `print_ecp`, rpp.f90:113-180. -/
def ftnPrintEcp (e : FEcp) : Outcome Unit := do
  ftnPrintCore e
  ftnPrintSemilocal e
  ftnPrintOcPots e

/-- The loop over all elements, main.f90:55-62; `N_ELEMENTS` is 131. -/
def ftnPrintAll (basis : List FBasis) (ecp : List FEcp) : Outcome Unit :=
  forRange 131 () fun i _ => do
    let b ← rd1 basis (i + 1)
    let _ ← (if b.numBlocks ≠ 0 then ftnPrintBasis b else .ok () : Outcome Unit)
    let e ← rd1 ecp (i + 1)
    if e.numArep ≠ 0 then ftnPrintEcp e else .ok ()

/-! ## Labels of the basis functions -/

/-- `label(i:i) = c` for `n` values of `i`, beginning with `st.2`; for example basis.f90:197-200. -/
def ftnLetters (n : Nat) (c : Char) (st : List Char × Nat) : Outcome (List Char × Nat) :=
  forRange n st fun _ st => do
    let l ← wr st.1 st.2 c
    .ok (l, st.2 + 1)

/-- `get_cartesian_fun_label`, basis.f90:182-210. -/
def ftnFunLabel (nlm : Comp) : Outcome (List Char) := do
  let st ← ftnLetters nlm.1 'X' ('S' :: List.replicate 15 ' ', 0)
  let st ← ftnLetters nlm.2.1 'Y' st
  let st ← ftnLetters nlm.2.2 'Z' st
  .ok st.1

/-- The record `(i3,a,a2,a,a)`, basis.f90:246, in a variable of 32 characters. The edit descriptor `a2` takes the first two of eight characters. -/
def ftnLabelLine (count z : Nat) (label : List Char) : List Char :=
  let symbol := (ftnSymbols.getD z []) ++ List.replicate 8 ' '
  let line := ftnField 3 (Nat.toDigits 10 count) ++ ' ' :: (symbol.take 2 ++ ' ' :: label)
  line ++ List.replicate (32 - line.length) ' '

/-- `get_atom_centered_basis_set_labels`, basis.f90:213-253. `labels` is the array of `basis_dim` elements, main.f90:74; `cl` the uninitialised array `cart_list`. -/
def ftnLabels (mol : FMol) (cl : List Comp) (labels : List (List Char)) : Outcome (List (List Char)) := do
  let r ← forRange mol.charges.length (0, labels) fun i st => do
    let z ← rd mol.charges i
    Outcome.valid (z + 1 ≤ 131)
    let b ← rd1 mol.basis z
    forRange b.numBlocks st fun L st => do
      let c ← generateCartesians L cl
      let blk ← rd b.blocks L
      forRange blk.numContr st fun _ st => forRange c.2 st fun icart st => do
        let nlm ← rd c.1 icart
        let l ← ftnFunLabel nlm
        let labels ← wr st.2 st.1 (ftnLabelLine (st.1 + 1) z l)
        .ok (st.1 + 1, labels)
  .ok r.2

/-! ## main.f90 -/

/-- What the program runs on: the library after `libgrpp_init`, the conversions of numbers of the Fortran library, dynamic memory, the contents of the static
arrays `basis0` and `ecp0` before the program begins, the contents of the uninitialised local arrays of the subroutines and of the arrays allocated for
gradients and labels, and what out-of-bounds reads in the gradient routines of the library return. -/
structure FtnEnv (G : Type) where
  lib : Lib G
  sf : SpecFun
  sk : SkFun
  num : FtnNum
  io : DecimalIO
  h : Store
  basis0 : List FBasis
  ecp0 : List FEcp
  cl : List Comp
  tab : FOcTable
  buf : Fin 4 → List ℝ
  gbuf : Fin 3 → List ℝ
  gbufSO : Fin 3 × Fin 3 → List ℝ
  obuf : List ℝ
  nbuf : List ℝ
  mp : List ℝ
  grad0 : Nat → Nat → List Grads
  labels0 : Nat → List (List Char)
  junk : Nat → Nat → Nat → Nat → FGradCall → Nat → Option (Nat → ℝ)

/-- The library as the nuclear-attraction routines see it. -/
def FtnEnv.nuc {G : Type} (env : FtnEnv G) : NucEnv G := ⟨env.lib.init, env.lib.prm, env.lib.bt, env.sf, env.sk⟩

/-- `xyz_letters`, main.f90:24. -/
def xyzLetter : Fin 3 → String
  | 0 => "x"
  | 1 => "y"
  | 2 => "z"

/-- The names of the files of gradients, main.f90:121 and 130; `x = 0` for the averaged potential, and 1, 2, 3 for the spin-orbit potentials. -/
def ftnGradFile (x : Fin 4) (a : Nat) (k : Fin 3) : String :=
  (match x with
    | 0 => "libgrpp_f90_arep_grad_"
    | 1 => "libgrpp_f90_so_x_grad_"
    | 2 => "libgrpp_f90_so_y_grad_"
    | 3 => "libgrpp_f90_so_z_grad_") ++ toString a ++ xyzLetter k ++ ".txt"

/-- The calls of `print_matrix`, main.f90:111-116: names and matrices. -/
def ftnMatrixList (r : Fin 4 → List ℝ) (s n : List ℝ) : List (String × List ℝ) :=
  [("libgrpp_f90_arep.txt", r 0), ("libgrpp_f90_so_x.txt", r 1), ("libgrpp_f90_so_y.txt", r 2), ("libgrpp_f90_so_z.txt", r 3),
    ("libgrpp_f90_overlap.txt", s), ("libgrpp_f90_nucattr.txt", n)]

/-- The calls of `print_matrix` for gradients, main.f90:119-134. -/
def ftnGradList (g : List Grads) : List (String × List ℝ) :=
  (g.zipIdx.flatMap fun M => [0, 1, 2].map fun k : Fin 3 => (ftnGradFile 0 M.2 k, M.1 (0, k))) ++
    g.zipIdx.flatMap fun M => [0, 1, 2].flatMap fun k : Fin 3 => [1, 2, 3].map fun j : Fin 4 => (ftnGradFile j M.2 k, M.1 (j, k))

/-- A sequence of calls of `print_matrix`. -/
noncomputable def ftnWriteAll (io : DecimalIO) (dim : Nat) : List (String × List ℝ) → Outcome (List OutFile)
  | [] => .ok []
  | (name, M) :: rest => do
    let t ← ftnPrintMatrix io dim (M.map Dbl.fin)
    let fs ← ftnWriteAll io dim rest
    .ok ((name, t) :: fs)

/-- The arrays of the modules `basis` and `ecp` after the loop of main.f90:47-52. -/
noncomputable def ftnReadLoop {G : Type} (env : FtnEnv G) (charges : List Nat) (basis ecp : List FRecord) : Outcome (List FBasis × List FEcp) :=
  forRange charges.length (env.basis0, env.ecp0) fun i st => do
    let z ← rd charges i
    let b ← ftnBasisLoop env.num z st.1 basis
    let b ← ftnNormalize env.lib.gen z b
    let e ← ftnReadRpp env.num z st.2 ecp
    .ok (b, e)

/-- The part of `main.f90` after the input has been read and printed, main.f90:70-134. -/
noncomputable def ftnCalculate {G : Type} (env : FtnEnv G) (mol : FMol) : Outcome (List OutFile) := do
  let dim ← cartBasisSize mol
  let _ ← ftnLabels mol env.cl (env.labels0 dim)
  let r ← ftnEcpMatrices env.lib env.sf mol env.cl env.tab dim env.h env.buf fun _ => List.replicate (dim * dim) 0
  let g ← ftnGradients env.lib env.sf env.junk mol env.cl dim r.1 env.gbuf env.gbufSO (env.grad0 mol.charges.length dim)
  let s ← ftnOverlapMatrix env.lib.gen mol env.cl dim g.1 env.obuf (List.replicate (dim * dim) 0)
  let n ← ftnNuclearMatrix env.lib.gen env.nuc mol env.cl dim env.mp s.1 env.nbuf (List.replicate (dim * dim) 0)
  ftnWriteAll env.io dim (ftnMatrixList r.2 s.2 n.2 ++ ftnGradList g.2)

/-- The program, main.f90, on the records of the files `molecule.xyz`, `basis.inp` and `ecp.inp`: the files it writes. -/
noncomputable def ftnProgram {G : Type} (env : FtnEnv G) (xyz basis ecp : List FRecord) : Outcome (List OutFile) := do
  let atoms ← ftnReadMolecule env.num xyz
  let st ← ftnReadLoop env (atoms.map Prod.fst) basis ecp
  ftnPrintAll st.1 st.2
  let b ← forRange (atoms.map Prod.fst).length st.1 fun i b => do
    let z ← rd (atoms.map Prod.fst) i
    ftnNormalize env.lib.gen z b
  ftnCalculate env ⟨atoms.map Prod.fst, atoms.map Prod.snd, b, st.2⟩

/-! ## Specification -/

/-- The text which a label shows for exponents `c`: letters, or `S`. -/
def compText (c : Comp) : List Char :=
  let l := List.replicate c.1 'X' ++ List.replicate c.2.1 'Y' ++ List.replicate c.2.2 'Z'
  if l = [] then ['S'] else l

end Libgrpp
