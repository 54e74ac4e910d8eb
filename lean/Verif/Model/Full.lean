import Verif.Model.OneElectron
import Verif.Model.Potential

/-! # Model of `libgrpp/full_grpp_integrals.c`

The four kinds of integrals are parameters (`Kernels`): this file models how they are combined. Memory management of the
GRPP object is in `Model/Grpp.lean`. -/

namespace Libgrpp

/-- Contents of `libgrpp_grpp_t`, libgrpp.h:94-103 (arrays with their counts as lists; the two parallel arrays `U_oc` and
`oc_shells` as a list of pairs). -/
structure GrppData where
  local_ : Option Potential
  arep : List Potential
  esop : List Potential
  oc : List (Potential × Shell)

/-- The integral routines `libgrpp_type1_integrals`, `libgrpp_type2_integrals`, `libgrpp_spin_orbit_integrals` and
`libgrpp_outercore_potential_integrals`: from shells, GRPP centre, potential(s) and previous contents of the output
matrices to the new contents. `none` is a NULL potential. -/
structure Kernels where
  type1 : Shell → Shell → Point → Option Potential → List ℝ → Outcome (List ℝ)
  type2 : Shell → Shell → Point → Potential → List ℝ → Outcome (List ℝ)
  so : Shell → Shell → Point → Potential → (Fin 3 → List ℝ) → Outcome (Fin 3 → List ℝ)
  oc : Shell → Shell → Point → List (Potential × Shell) → (Fin 4 → List ℝ) → Outcome (Fin 4 → List ℝ)

/-- Work buffers and output matrices: index 0 is the scalar part, 1, 2, 3 the spin-orbit parts x, y, z. -/
structure FullState where
  buf : Fin 4 → List ℝ
  out : Fin 4 → List ℝ

/-- `libgrpp_daxpy(size, w, buf_q, matrix_q)`. -/
noncomputable def FullState.axpy (size : Nat) (w : ℝ) (q : Fin 4) (st : FullState) : Outcome FullState := do
  let l ← daxpy size w (st.buf q) (st.out q)
  .ok { st with out := Function.update st.out q l }

/-- Store new scalar buffer. -/
def FullState.setArep (st : FullState) (l : List ℝ) : FullState := { st with buf := Function.update st.buf 0 l }

/-- Store the three spin-orbit buffers. -/
def FullState.setSO (st : FullState) (l : Fin 3 → List ℝ) : FullState :=
  { st with buf := ![st.buf 0, l 0, l 1, l 2] }

/-- One semilocal term, full_grpp_integrals.c:66-69. -/
noncomputable def fullArepStep (K : Kernels) (A B : Shell) (C : Point) (size : Nat) (pot : Potential) (st : FullState) :
    Outcome FullState := do
  let l ← K.type2 A B C pot (st.buf 0)
  (st.setArep l).axpy size 1 0

/-- One spin-orbit term, full_grpp_integrals.c:74-83. -/
noncomputable def fullSOStep (K : Kernels) (A B : Shell) (C : Point) (size : Nat) (pot : Potential) (st : FullState) :
    Outcome FullState := do
  let l ← K.so A B C pot ![st.buf 1, st.buf 2, st.buf 3]
  let w : ℝ := 2 / (2 * (pot.L : ℝ) + 1)
  let st ← (st.setSO l).axpy size w 1
  let st ← st.axpy size w 2
  st.axpy size w 3

/-- `libgrpp_full_grpp_integrals`, full_grpp_integrals.c:27-104. `init` is `libgrpp_is_initialized()`; `M` holds the four
output matrices. -/
noncomputable def fullGrpp (K : Kernels) (init : Bool) (A B : Shell) (g : GrppData) (C : Point) (M : Fin 4 → List ℝ) :
    Outcome (Fin 4 → List ℝ) := do
  Outcome.assert (init = true)
  let size := A.cart_size * B.cart_size
  let m0 ← memset0 size (M 0)
  let m1 ← memset0 size (M 1)
  let m2 ← memset0 size (M 2)
  let m3 ← memset0 size (M 3)
  let st : FullState := ⟨fun _ => List.replicate size 0, ![m0, m1, m2, m3]⟩
  let l ← K.type1 A B C g.local_ (st.buf 0)
  let st ← (st.setArep l).axpy size 1 0
  let st ← forRange g.arep.length st fun i st => do
    let p ← rd g.arep i
    fullArepStep K A B C size p st
  let st ← forRange g.esop.length st fun i st => do
    let p ← rd g.esop i
    fullSOStep K A B C size p st
  let b ← K.oc A B C g.oc st.buf
  let st : FullState := { st with buf := b }
  let st ← st.axpy size 1 0
  let st ← st.axpy size 1 1
  let st ← st.axpy size 1 2
  let st ← st.axpy size 1 3
  .ok st.out

end Libgrpp
