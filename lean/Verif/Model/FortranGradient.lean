import Verif.Model.FortranDriver
import Verif.Model.FullLib

/-! # Model of the gradients in the Fortran front end: `calculate_rpp_integrals_gradients`, `test_libgrpp_f90/evalints.f90:218-443`

Conventions as in `Verif/Model/FortranDriver.lean`. Element `ipoint` of the list `out` stands for `arep_grad(ipoint, k, :, :)` (component 0) and
`so_grad(ipoint, k, q, :, :)` (components 1 to 3); both arrays are allocated with the same first dimension (main.f90:94-95). The sections `buf_so(i, j, :)` are
not contiguous and are copied by the compiler before and after the call; the copies are the lists themselves. The part for the outer-core potentials
(lines 374-424) is commented out in the source and hence absent here. `junk` gives the values returned by out-of-bounds reads in the library (see
`Verif/Model/GrppGradient.lean`), for each call. -/

namespace Libgrpp

/-- Dynamic memory, `buf_arep_dx`, `buf_arep_dy`, `buf_arep_dz`, `buf_so` (component, coordinate) and the results. -/
structure FGradState where
  h : Store
  buf : Fin 3 → List ℝ
  bufSO : Fin 3 × Fin 3 → List ℝ
  out : List Grads

/-- The arguments `coord(ic, :)` and `coord(ipoint, :)` of a call, with the state of the library. The shells are made of the other arguments. -/
noncomputable def ftnGradEnv {G : Type} (lib : Lib G) (sf : SpecFun) (junk : Option (Nat → ℝ)) (C D : Point) : GradEnv :=
  ⟨lib.gen, junk, libKernels lib sf, lib.init, ⟨0, fun _ => 0, 0, [], 0, [], []⟩, ⟨0, fun _ => 0, 0, [], 0, [], []⟩, C, D⟩

/-- The three calls of `update_matrix_part` for `arep_grad`, evalints.f90:325-327 and 342-344. -/
noncomputable def updateArepGrad (dim : Nat) (out : List Grads) (ip io jo : Nat) (b : Fin 3 → List ℝ) (n1 n2 : Nat) : Outcome (List Grads) := do
  let M ← rd out ip
  let M ← forCoord M fun i M => do
    let m ← updateMatrixPart dim (M (0, i)) io jo (b i) n1 n2
    .ok (Function.update M (0, i) m)
  wr out ip M

/-- The nine calls of `update_matrix_part` for `so_grad`, evalints.f90:366-371. -/
noncomputable def updateSOGrad (dim : Nat) (out : List Grads) (ip io jo : Nat) (b : Fin 3 × Fin 3 → List ℝ) (n1 n2 : Nat) : Outcome (List Grads) := do
  let M ← rd out ip
  let M ← forCoord M fun i M => forCoord M fun j M => do
    let m ← updateMatrixPart dim (M (j.succ, i)) io jo (b (j, i)) n1 n2
    .ok (Function.update M (j.succ, i) m)
  wr out ip M

/-- The radially local part, evalints.f90:316-327. -/
noncomputable def ftnGradLocal {G : Type} (lib : Lib G) (sf : SpecFun) (junk : Option (Nat → ℝ)) (dim io jo n1 n2 ip : Nat) (a b : FShell) (C D : Point)
    (e : FEcp) (st : FGradState) : Outcome FGradState := do
  let r ← rd1 e.rows e.numArep
  let c ← ftnType1Gradient (ftnGradEnv lib sf junk C D) st.h a b (r.pot r.arep) st.buf
  let out ← updateArepGrad dim st.out ip io jo c.2 n1 n2
  .ok ⟨c.1, c.2, st.bufSO, out⟩

/-- One semilocal term, evalints.f90:331-345, with `L = iarep - 1`. -/
noncomputable def ftnGradSemilocal {G : Type} (lib : Lib G) (sf : SpecFun) (junk : Option (Nat → ℝ)) (dim io jo n1 n2 ip : Nat) (a b : FShell)
    (C D : Point) (e : FEcp) (L : Nat) (st : FGradState) : Outcome FGradState := do
  let r ← rd e.rows L
  let c ← ftnType2Gradient (ftnGradEnv lib sf junk C D) st.h a b L (r.pot r.arep) st.buf
  let out ← updateArepGrad dim st.out ip io jo c.2 n1 n2
  .ok ⟨c.1, c.2, st.bufSO, out⟩

/-- One spin-orbit term, evalints.f90:349-372, with `L = iarep - 1`. -/
noncomputable def ftnGradSO {G : Type} (lib : Lib G) (sf : SpecFun) (junk : Option (Nat → ℝ)) (dim io jo n1 n2 ip : Nat) (a b : FShell)
    (C D : Point) (e : FEcp) (L : Nat) (st : FGradState) : Outcome FGradState := do
  let r ← rd e.rows L
  let c ← ftnSpinOrbitGradient (ftnGradEnv lib sf junk C D) st.h a b L (r.pot r.esop) st.bufSO
  let out ← updateSOGrad dim st.out ip io jo (fun qk => scaleBuf L (c.2 qk)) n1 n2
  .ok ⟨c.1, st.buf, fun qk => scaleBuf L (c.2 qk), out⟩

/-- The kind of a call. -/
inductive FGradCall where
  | loc
  | semilocal
  | so

/-- The contribution of one atom with a pseudopotential, evalints.f90:314-372. -/
noncomputable def ftnGradAtom {G : Type} (lib : Lib G) (sf : SpecFun) (junk : FGradCall → Nat → Option (Nat → ℝ)) (dim io jo n1 n2 ip : Nat)
    (a b : FShell) (C D : Point) (e : FEcp) (st : FGradState) : Outcome FGradState := do
  let st ← ftnGradLocal lib sf (junk .loc 0) dim io jo n1 n2 ip a b C D e st
  let st ← forRange (e.numArep - 1) st fun i st => ftnGradSemilocal lib sf (junk .semilocal i) dim io jo n1 n2 ip a b C D e i st
  forRange (e.numArep - 1) st fun i st => ftnGradSO lib sf (junk .so (i + 1)) dim io jo n1 n2 ip a b C D e (i + 1) st

/-- One pass through the loop over the atoms with pseudopotentials, evalints.f90:308-426. -/
noncomputable def ftnGradPass {G : Type} (lib : Lib G) (sf : SpecFun) (junk : FGradCall → Nat → Option (Nat → ℝ)) (mol : FMol)
    (dim io jo n1 n2 ip : Nat) (a b : FShell) (ic : Nat) (st : FGradState) : Outcome FGradState := do
  let zc ← rd mol.charges ic
  let e ← rd1 mol.ecp zc
  if e.numArep = 0 then .ok st
  else do
    let C ← rd mol.coord ic
    let D ← rd mol.coord ip
    ftnGradAtom lib sf junk dim io jo n1 n2 ip a b C D e st

/-- `calculate_rpp_integrals_gradients`, evalints.f90:218-443. `buf` and `bufSO` are the uninitialised local arrays; `junk` depends on the call: the offsets,
the point, the atom, the kind and the row. -/
noncomputable def ftnGradients {G : Type} (lib : Lib G) (sf : SpecFun) (junk : Nat → Nat → Nat → Nat → FGradCall → Nat → Option (Nat → ℝ)) (mol : FMol)
    (cl : List Comp) (dim : Nat) (h : Store) (buf : Fin 3 → List ℝ) (bufSO : Fin 3 × Fin 3 → List ℝ) (out : List Grads) :
    Outcome (Store × List Grads) := do
  let r ← forFPairs mol cl (⟨h, buf, bufSO, out.map fun M qk => zeroAll (M qk)⟩ : FGradState) fun io jo n1 n2 a b st =>
    forRange mol.charges.length st fun ip st =>
      forRange mol.charges.length st fun ic st => ftnGradPass lib sf (junk io jo ip ic) mol dim io jo n1 n2 ip a b ic st
  .ok (r.h, r.out)

end Libgrpp
