import Verif.Model.FortranModule
import Verif.Model.Driver

/-! # Model of the Fortran front end: `test_libgrpp_f90/evalints.f90`, `basis.f90` and the calls in `main.f90`

The program `test_libgrpp_f90` is the second complete caller of the library in the repository. Input is taken from the arrays of the modules
`xyz`, `basis` and `ecp` as the readers leave them; they are grouped by their first index, the charge, and by the second, the block:
`a(z, i, :)` is a component of the `i`-th block of the `z`-th element. Arrays are counted from one, so that there is no element for charge 0.
`integer` variables are natural numbers without overflow. Array sections such as `coeffs(z, iblock, ifun, :)` are copied by the compiler; the copies are
the lists themselves. Elements of the arrays which were never assigned have some unknown value. Output to the terminal is left out. -/

namespace Libgrpp

/-- `a(i)` for an array whose first index is one. -/
def rd1 {α : Type} (a : List α) (i : Nat) : Outcome α := if i = 0 then .ub else rd a (i - 1)

/-- Block `iblock` of element `z` in the module `basis`, basis.f90:18-22: `block_num_prim(z, iblock)`, `block_num_contr(z, iblock)`,
`exponents(z, iblock, :)` and the rows `coeffs(z, iblock, ifun, :)`. -/
structure FBlock where
  numPrim : Nat
  numContr : Nat
  exponents : List ℝ
  coeffs : List (List ℝ)

/-- Element `z` in the module `basis`: `num_blocks(z)` and the blocks. -/
structure FBasis where
  numBlocks : Nat
  blocks : List FBlock

/-- Row `irep` of element `z` in the module `ecp`, rpp.f90:21-33: `n_oc_shells(z, irep)`, `ecp_num_prim(z, irep)`, `ecp_alpha(z, irep, :)`,
`ecp_powers(z, irep, :)`, `arep(z, irep, :)`, `esop(z, irep, :)`, the rows `ocpot(z, irep, ioc, :)`, `ocbas_num_prim(z, irep)`,
`ocbas_alpha(z, irep, :)` and the columns `ocbas_coeffs(z, irep, :, ioc)`. -/
structure FEcpRow where
  numOc : Nat
  numPrim : Nat
  alpha : List ℝ
  powers : List Int
  arep : List ℝ
  esop : List ℝ
  ocpot : List (List ℝ)
  ocNum : Nat
  ocAlpha : List ℝ
  ocCoeffs : List (List ℝ)

/-- Element `z` in the module `ecp`: `n_arep(z)` and the rows. -/
structure FEcp where
  numArep : Nat
  rows : List FEcpRow

/-- The data of the modules: `charges`, `coord`, and the arrays of `basis` and `ecp` for the elements 1, 2, …. -/
structure FMol where
  charges : List Nat
  coord : List Point
  basis : List FBasis
  ecp : List FEcp

/-! ## basis.f90 -/

/-- `generate_cartesians`, basis.f90:155-179: the array `cart_list(100, 3)` and `ncart`. The three loops run downwards. -/
def generateCartesians (L : Nat) (list : List Comp) : Outcome (List Comp × Nat) :=
  forRange (L + 1) (list, 0) fun i st => forRange (L + 1) st fun j st => forRange (L + 1) st fun k st =>
    if (L - i) + (L - j) + (L - k) ≠ L then .ok st
    else do
      let l ← wr st.1 st.2 (L - i, L - j, L - k)
      .ok (l, st.2 + 1)

/-- `cart_basis_size`, basis.f90:131-153. -/
def cartBasisSize (mol : FMol) : Outcome Nat :=
  forRange mol.charges.length 0 fun i size => do
    let z ← rd mol.charges i
    let b ← rd1 mol.basis z
    forRange b.numBlocks size fun L size => do
      let blk ← rd b.blocks L
      .ok (size + blk.numContr * (L + 1) * (L + 2) / 2)

/-! ## evalints.f90 -/

/-- One of the two equal nests of loops over the shells, for example evalints.f90:496-500 and 505-509: atoms, blocks, contracted functions. `body` gets
the arguments that describe the shell. -/
noncomputable def forFShells {σ : Type} (mol : FMol) (s : σ) (body : FShell → σ → Outcome σ) : Outcome σ :=
  forRange mol.charges.length s fun i s => do
    let z ← rd mol.charges i
    let b ← rd1 mol.basis z
    forRange b.numBlocks s fun L s => do
      let blk ← rd b.blocks L
      forRange blk.numContr s fun f s => do
        let O ← rd mol.coord i
        let c ← rd blk.coeffs f
        body ⟨O, L, blk.numPrim, c, blk.exponents⟩ s

/-- Both nests with the offsets `ioffs` and `joffs`, for example evalints.f90:494-540. `body` gets the offsets, the numbers of components `ncart1` and
`ncart2` and the two shells. `cl` stands for the uninitialised arrays `cart_list_1` and `cart_list_2`. -/
noncomputable def forFPairs {σ : Type} (mol : FMol) (cl : List Comp) (s : σ)
    (body : Nat → Nat → Nat → Nat → FShell → FShell → σ → Outcome σ) : Outcome σ := do
  let r ← forFShells mol ((0 : Nat), s) fun a st => do
    let c1 ← generateCartesians a.L cl
    let r ← forFShells mol ((0 : Nat), st.2) fun b st2 => do
      let c2 ← generateCartesians b.L cl
      let s ← body st.1 st2.1 c1.2 c2.2 a b st2.2
      .ok (st2.1 + c2.2, s)
    .ok (st.1 + c1.2, r.2)
  .ok r.2

/-- `update_matrix_part`, evalints.f90:666-683. The matrix `A(:,:)` of dimension `dim` is a list of rows. -/
noncomputable def updateMatrixPart (dim : Nat) (A : List ℝ) (o1 o2 : Nat) (B : List ℝ) (s1 s2 : Nat) : Outcome (List ℝ) :=
  forRange s1 A fun i A => forRange s2 A fun j A => do
    Outcome.valid (o1 + i < dim ∧ o2 + j < dim)
    let v ← rd A ((o1 + i) * dim + (o2 + j))
    let e ← rd B (i * s2 + j)
    wr A ((o1 + i) * dim + (o2 + j)) (v + e)

/-- `A = 0.0d0` for a whole array. -/
def zeroAll (A : List ℝ) : List ℝ := A.map fun _ => 0

/-- `calculate_overlap_integrals`, evalints.f90:446-542. `buf` is the uninitialised array `buf`, `dim` the dimension of `overlap_matrix`. -/
noncomputable def ftnOverlapMatrix (gen : Nat → List Comp) (mol : FMol) (cl : List Comp) (dim : Nat) (h : Store) (buf M : List ℝ) :
    Outcome (Store × List ℝ) := do
  let r ← forFPairs mol cl ((h, buf, zeroAll M) : Store × List ℝ × List ℝ) fun io jo n1 n2 a b st => do
    let c ← ftnOverlap gen st.1 a b st.2.1
    let m ← updateMatrixPart dim st.2.2 io jo c.2 n1 n2
    .ok (c.1, c.2, m)
  .ok (r.1, r.2.2)

/-- `calculate_nuclear_attraction_integrals`, evalints.f90:545-663, for `LIBGRPP_NUCLEAR_MODEL_POINT_CHARGE`, the only model `main.f90` asks for (line
106). The estimate of the radius is not used by this model; its argument is an element of `mass_numbers`, which has 131 elements. `mp` is the
uninitialised array `nuclear_model_params`. -/
noncomputable def ftnNuclearMatrix {G : Type} (gen : Nat → List Comp) (env : NucEnv G) (mol : FMol) (cl : List Comp) (dim : Nat) (mp : List ℝ)
    (h : Store) (buf M : List ℝ) : Outcome (Store × List ℝ) := do
  let r ← forFPairs mol cl ((h, buf, zeroAll M) : Store × List ℝ × List ℝ) fun io jo n1 n2 a b st =>
    forRange mol.charges.length st fun ic st => do
      let zc ← rd mol.charges ic
      Outcome.valid (zc + 1 ≤ 131)
      let C ← rd mol.coord ic
      let c ← ftnNuclear gen env st.1 a b C zc modelPoint mp st.2.1
      let m ← updateMatrixPart dim st.2.2 io jo c.2 n1 n2
      .ok (c.1, c.2, m)
  .ok (r.1, r.2.2)

/-- Dynamic memory, the buffers `buf_a`, `buf_x`, `buf_y`, `buf_z` and the four matrices (scalar part, spin-orbit parts x, y, z). -/
structure FState where
  h : Store
  buf : Fin 4 → List ℝ
  out : Fin 4 → List ℝ

/-- The arguments for the potential of row `r` with the coefficients `c`. -/
def FEcpRow.pot (r : FEcpRow) (c : List ℝ) : FPot := ⟨r.numPrim, r.powers, c, r.alpha⟩

/-- The radially local part, evalints.f90:105-113. -/
noncomputable def ftnLocalStep {G : Type} (lib : Lib G) (sf : SpecFun) (dim io jo n1 n2 : Nat) (a b : FShell) (C : Point) (e : FEcp) (st : FState) :
    Outcome FState := do
  let r ← rd1 e.rows e.numArep
  let c ← ftnType1 lib.gen sf lib.init st.h a b C (r.pot r.arep) (st.buf 0)
  let m ← updateMatrixPart dim (st.out 0) io jo c.2 n1 n2
  .ok ⟨c.1, Function.update st.buf 0 c.2, Function.update st.out 0 m⟩

/-- One semilocal term, evalints.f90:118-127, with `L = iarep - 1`. -/
noncomputable def ftnSemilocalStep {G : Type} (lib : Lib G) (dim io jo n1 n2 : Nat) (a b : FShell) (C : Point) (e : FEcp) (L : Nat) (st : FState) :
    Outcome FState := do
  let r ← rd e.rows L
  let c ← ftnType2 lib st.h a b C L (r.pot r.arep) (st.buf 0)
  let m ← updateMatrixPart dim (st.out 0) io jo c.2 n1 n2
  .ok ⟨c.1, Function.update st.buf 0 c.2, Function.update st.out 0 m⟩

/-- `buf = buf * 2.0 / (2.0 * L + 1)` for a whole array, evalints.f90:142-144. -/
noncomputable def scaleBuf (L : Nat) (l : List ℝ) : List ℝ := l.map fun x => x * 2 / (2 * L + 1)

/-- One spin-orbit term, evalints.f90:133-147, with `L = iarep - 1`. -/
noncomputable def ftnSOStep {G : Type} (lib : Lib G) (dim io jo n1 n2 : Nat) (a b : FShell) (C : Point) (e : FEcp) (L : Nat) (st : FState) :
    Outcome FState := do
  let r ← rd e.rows L
  let c ← ftnSpinOrbit lib st.h a b C L (r.pot r.esop) ⟨st.buf 1, st.buf 2, st.buf 3⟩
  let mx ← updateMatrixPart dim (st.out 1) io jo (scaleBuf L c.2.x) n1 n2
  let my ← updateMatrixPart dim (st.out 2) io jo (scaleBuf L c.2.y) n1 n2
  let mz ← updateMatrixPart dim (st.out 3) io jo (scaleBuf L c.2.z) n1 n2
  .ok ⟨c.1, ![st.buf 0, scaleBuf L c.2.x, scaleBuf L c.2.y, scaleBuf L c.2.z], ![st.out 0, mx, my, mz]⟩

/-- The value stored in `oc_shells_J`, evalints.f90:166-172, with `L` and `i` counted from zero. -/
def ftnOcJ (L i : Nat) : Int := if L = 0 then 1 else if (i + 1) % 2 = 1 then 2 * L - 1 else 2 * L + 1

/-- The assignments in the loops of evalints.f90:163-181, with `L` and `i` counted from zero. -/
def ftnOcEntry (L : Nat) (r : FEcpRow) (i : Nat) (t : FOcTable) : Outcome FOcTable := do
  let l ← wr t.L t.num L
  let j ← wr t.J t.num (ftnOcJ L i)
  let pn ← wr t.potNum t.num r.numPrim
  let pp ← wr t.powers t.num r.powers
  let c ← rd r.ocpot i
  let pc ← wr t.coeffs t.num c
  let pa ← wr t.alpha t.num r.alpha
  let sn ← wr t.shellNum t.num r.ocNum
  let s ← rd r.ocCoeffs i
  let sc ← wr t.shellCoeffs t.num s
  let sa ← wr t.shellAlpha t.num r.ocAlpha
  .ok ⟨t.num + 1, l, j, pn, pp, pc, pa, sn, sc, sa⟩

/-- The arrays for the outer-core routine, evalints.f90:160-184. `t` holds the arrays with `ECP_MAX_OC_SHELLS` rows, from earlier passes or
uninitialised; `ECP_MAXL` is 10. -/
def ftnOcTable (e : FEcp) (t : FOcTable) : Outcome FOcTable :=
  forRange 10 { t with num := 0 } fun L t => do
    let r ← rd e.rows L
    forRange r.numOc t fun i t => ftnOcEntry L r i t

/-- The outer-core part, evalints.f90:160-200. -/
noncomputable def ftnOcStep {G : Type} (lib : Lib G) (sf : SpecFun) (t0 : FOcTable) (dim io jo n1 n2 : Nat) (a b : FShell) (C : Point) (e : FEcp)
    (st : FState) : Outcome FState := do
  let t ← ftnOcTable e t0
  let c ← modOuterCore lib.gen sf lib.init st.h a b C t st.buf
  let m0 ← updateMatrixPart dim (st.out 0) io jo (c.2 0) n1 n2
  let m1 ← updateMatrixPart dim (st.out 1) io jo (c.2 1) n1 n2
  let m2 ← updateMatrixPart dim (st.out 2) io jo (c.2 2) n1 n2
  let m3 ← updateMatrixPart dim (st.out 3) io jo (c.2 3) n1 n2
  .ok ⟨c.1, c.2, ![m0, m1, m2, m3]⟩

/-- The contribution of one atom with a pseudopotential, evalints.f90:105-200. -/
noncomputable def ftnEcpAtom {G : Type} (lib : Lib G) (sf : SpecFun) (t0 : FOcTable) (dim io jo n1 n2 : Nat) (a b : FShell) (C : Point) (e : FEcp)
    (st : FState) : Outcome FState := do
  let st ← ftnLocalStep lib sf dim io jo n1 n2 a b C e st
  let st ← forRange (e.numArep - 1) st fun i st => ftnSemilocalStep lib dim io jo n1 n2 a b C e i st
  let st ← forRange (e.numArep - 1) st fun i st => ftnSOStep lib dim io jo n1 n2 a b C e (i + 1) st
  ftnOcStep lib sf t0 dim io jo n1 n2 a b C e st

/-- One pass through the loop over the atoms, evalints.f90:98-202. -/
noncomputable def ftnEcpPass {G : Type} (lib : Lib G) (sf : SpecFun) (mol : FMol) (t0 : FOcTable) (dim io jo n1 n2 : Nat) (a b : FShell)
    (ic : Nat) (st : FState) : Outcome FState := do
  let zc ← rd mol.charges ic
  let e ← rd1 mol.ecp zc
  if e.numArep = 0 then .ok st
  else do
    let C ← rd mol.coord ic
    ftnEcpAtom lib sf t0 dim io jo n1 n2 a b C e st

/-- `calculate_ecp_integrals`, evalints.f90:12-216. `buf` and `t0` are the uninitialised local arrays, `M` holds `arep_matrix` and the three parts
`so_matrices(1,:,:)`, `so_matrices(2,:,:)`, `so_matrices(3,:,:)`, each of dimension `dim`. -/
noncomputable def ftnEcpMatrices {G : Type} (lib : Lib G) (sf : SpecFun) (mol : FMol) (cl : List Comp) (t0 : FOcTable) (dim : Nat) (h : Store)
    (buf M : Fin 4 → List ℝ) : Outcome (Store × (Fin 4 → List ℝ)) := do
  let r ← forFPairs mol cl (⟨h, buf, fun k => zeroAll (M k)⟩ : FState) fun io jo n1 n2 a b st =>
    forRange mol.charges.length st fun ic st => ftnEcpPass lib sf mol t0 dim io jo n1 n2 a b ic st
  .ok (r.h, r.out)

end Libgrpp
