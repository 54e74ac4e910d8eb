import Verif.Model.Driver
import Verif.Model.Full

/-! # Model of the GRPP part of the driver: `evaluate_grpp_integrals` of `test_libgrpp_c/eval_integrals.c`

The four output matrices and buffers are indexed by `Fin 4`: the scalar part and the spin-orbit parts x, y, z. Output to the
terminal and the clock are left out. -/

namespace Libgrpp

/-- `evaluate_grpp_integrals_shell_pair`, eval_integrals.c:133-208. The library routines are the parameter `K`. That the outer-core routine moves
the outer-core shells is left out: its result does not depend on where they are (C52). -/
noncomputable def driverPair (K : Kernels) (A B : Shell) (g : GrppData) (C : Point) (M : Fin 4 → List ℝ) : Outcome (Fin 4 → List ℝ) := do
  let size := A.cart_size * B.cart_size
  let buf0 : List ℝ := List.replicate size 0
  let m0 ← memset0 size (M 0)
  let m1 ← memset0 size (M 1)
  let m2 ← memset0 size (M 2)
  let m3 ← memset0 size (M 3)
  let b ← K.type1 A B C g.local_ buf0
  let m0 ← updateVector size m0 1 b
  let r ← forRange g.arep.length (b, m0) fun i st => do
    let p ← rd g.arep i
    let b ← K.type2 A B C p st.1
    let m ← updateVector size st.2 1 b
    .ok (b, m)
  let s ← forRange g.esop.length ((![buf0, buf0, buf0] : Fin 3 → List ℝ), (![m1, m2, m3] : Fin 3 → List ℝ)) fun i st => do
    let p ← rd g.esop i
    let b ← K.so A B C p st.1
    let w : ℝ := 2 / (2 * (p.L : ℝ) + 1)
    let m1 ← updateVector size (st.2 0) w (b 0)
    let m2 ← updateVector size (st.2 1) w (b 1)
    let m3 ← updateVector size (st.2 2) w (b 2)
    .ok (b, ![m1, m2, m3])
  let b ← K.oc A B C g.oc ![r.1, s.1 0, s.1 1, s.1 2]
  let m0 ← updateVector size r.2 1 (b 0)
  let m1 ← updateVector size (s.2 0) 1 (b 1)
  let m2 ← updateVector size (s.2 1) 1 (b 2)
  let m3 ← updateVector size (s.2 2) 1 (b 3)
  .ok ![m0, m1, m2, m3]

/-- The array `offsets`, eval_integrals.c:56-62. -/
def driverOffsets (shells : List Shell) : Outcome (List Nat) := do
  let r ← forRange shells.length (List.replicate shells.length 0, 0) fun i st => do
    let offsets ← wr st.1 i st.2
    let s ← rd shells i
    .ok (offsets, st.2 + s.cart_size)
  .ok r.1

/-- The array `shell_pairs` and the number of pairs, eval_integrals.c:64-72. The size of the array is computed in `int`. -/
def driverPairs (n : Nat) : Outcome (List Nat × Nat) := do
  Outcome.valid (n * n * 2 ≤ intMax)
  forRange n (List.replicate (n * n * 2) 0, 0) fun i st =>
    forRange n st fun j st => do
      let l ← wr st.1 (2 * st.2) i
      let l ← wr l (2 * st.2 + 1) j
      .ok (l, st.2 + 1)

/-- The body of the parallel loop, eval_integrals.c:84-127. An atom is its charge and its position; `grpps` is the array `grpp_list`, with `none` for
`NULL`. `buf` stands for the uninitialised arrays `buf_arep` and `buf_spin_orbit`. -/
noncomputable def driverIteration (K : Kernels) (shells : List Shell) (atoms : List (Nat × Point)) (grpps : List (Option GrppData)) (dim : Nat)
    (offsets pairs : List Nat) (buf : Fin 4 → List ℝ) (ipair : Nat) (M : Fin 4 → List ℝ) : Outcome (Fin 4 → List ℝ) := do
  let ishell ← rd pairs (2 * ipair)
  let jshell ← rd pairs (2 * ipair + 1)
  let io ← rd offsets ishell
  let jo ← rd offsets jshell
  let bra ← rd shells ishell
  let ket ← rd shells jshell
  let r ← forRange atoms.length (buf, M) fun ia st => do
    let atom ← rd atoms ia
    let g ← rd grpps atom.1
    match g with
    | none => .ok st
    | some g =>
      let b ← driverPair K bra ket g atom.2 st.1
      let m0 ← addBlock dim (st.2 0) bra.cart_size ket.cart_size (b 0) io jo 1
      let m1 ← addBlock dim (st.2 1) bra.cart_size ket.cart_size (b 1) io jo 1
      let m2 ← addBlock dim (st.2 2) bra.cart_size ket.cart_size (b 2) io jo 1
      let m3 ← addBlock dim (st.2 3) bra.cart_size ket.cart_size (b 3) io jo 1
      .ok (b, ![m0, m1, m2, m3])
  .ok r.2

/-- `evaluate_grpp_integrals`, eval_integrals.c:42-130. The iterations of the parallel loop are executed one after the other in the order `order`
(for one thread `[0, 1, 2, …]`); `bufs i` is what iteration `i` finds in its buffers. The matrices are distinct arrays. -/
noncomputable def evalGrpp (K : Kernels) (shells : List Shell) (atoms : List (Nat × Point)) (grpps : List (Option GrppData))
    (order : Nat → List Nat) (bufs : Nat → Fin 4 → List ℝ) (M : Fin 4 → List ℝ) : Outcome (Fin 4 → List ℝ) := do
  let dim ← basisDim shells
  let m0 ← memset0 (dim * dim) (M 0)
  let m1 ← memset0 (dim * dim) (M 1)
  let m2 ← memset0 (dim * dim) (M 2)
  let m3 ← memset0 (dim * dim) (M 3)
  let offsets ← driverOffsets shells
  let pairs ← driverPairs shells.length
  (order pairs.2).foldlM (fun M ipair => driverIteration K shells atoms grpps dim offsets pairs.1 (bufs ipair) ipair M) ![m0, m1, m2, m3]

/-! ## Specification -/

/-- The basis functions of a molecule as components of shells, in the order of `basisFns`. -/
def basisComps (shells : List Shell) : List (Shell × Nat) :=
  shells.flatMap fun s => (List.range s.cart_size).map fun m => (s, m)

/-- The pseudopotentials of a molecule with their centres. -/
def moleculeGrpps (atoms : List (Nat × Point)) (grpps : List (Option GrppData)) : List (GrppData × Point) :=
  atoms.filterMap fun a => (grpps.getD a.1 none).map fun g => (g, a.2)

end Libgrpp
