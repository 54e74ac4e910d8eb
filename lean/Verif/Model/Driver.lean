import Verif.Model.OneElectron
import Verif.Model.Spec

/-! # Model of the assembly of molecular matrices: `test_libgrpp_c/eval_integrals.c`, `test_libgrpp_c/shell_list.c`

The program `test_libgrpp_c` is the only complete caller of the library in the repository: it evaluates the matrices of all
shell pairs of a molecule. Output to the terminal and the clock are left out. A list of shells stands for the array
`shell_list` together with `num_shells`. -/

namespace Libgrpp

/-- The largest `int`. -/
def intMax : Nat := 2147483647

/-- `add_block_to_matrix`, eval_integrals.c:409-419. The index is an `int`; overflow is undefined behaviour. -/
noncomputable def addBlock (dim2 : Nat) (matrix : List ℝ) (bd1 bd2 : Nat) (block : List ℝ) (colOff rowOff : Nat) (factor : ℝ) :
    Outcome (List ℝ) :=
  forRange bd1 matrix fun i m => forRange bd2 m fun j m => do
    let e ← rd block (i * bd2 + j)
    Outcome.valid ((colOff + i) * dim2 + (rowOff + j) ≤ intMax)
    let v ← rd m ((colOff + i) * dim2 + (rowOff + j))
    wr m ((colOff + i) * dim2 + (rowOff + j)) (v + factor * e)

/-- `update_vector`, eval_integrals.c:425-430. -/
noncomputable def updateVector (size : Nat) (a : List ℝ) (factor : ℝ) (b : List ℝ) : Outcome (List ℝ) :=
  forRange size a fun i a => do
    let x ← rd b i
    let y ← rd a i
    wr a i (y + factor * x)

/-- `calculate_basis_dim`, shell_list.c:61-71. -/
def basisDim (shells : List Shell) : Outcome Nat :=
  forRange shells.length 0 fun i dim => do
    let s ← rd shells i
    .ok (dim + s.cart_size)

/-- The double loop over shells with running offsets, eval_integrals.c:222-248 (and, with the same code, 263-289, 308-337,
353-405 and the loops of eval_integrals_grad.c). `body` gets the offsets of the bra and ket blocks and the two shells. -/
noncomputable def forShellPairs {σ : Type} (shells : List Shell) (s : σ) (body : Nat → Nat → Shell → Shell → σ → Outcome σ) :
    Outcome σ := do
  let r ← forRange shells.length ((0 : Nat), s) fun i st => do
    let bra ← rd shells i
    let r ← forRange shells.length ((0 : Nat), st.2) fun j st2 => do
      let ket ← rd shells j
      let s ← body st.1 st2.1 bra ket st2.2
      .ok (st2.1 + ket.cart_size, s)
    .ok (st.1 + bra.cart_size, r.2)
  .ok r.2

/-- The common part of `evaluate_overlap_integrals` (eval_integrals.c:214-249) and `evaluate_kinetic_energy_integrals`
(255-290). `buf` is the uninitialised array `double buf[MAX_BUF]`: its contents are unknown. -/
noncomputable def evalMatrix (run : Shell → Shell → List ℝ → Outcome (List ℝ)) (shells : List Shell) (buf matrix : List ℝ) :
    Outcome (List ℝ) := do
  let dim ← basisDim shells
  let matrix ← memset0 (dim * dim) matrix
  let r ← forShellPairs shells (buf, matrix) fun io jo bra ket st => do
    let buf ← run bra ket st.1
    let m ← addBlock dim st.2 bra.cart_size ket.cart_size buf io jo 1
    .ok (buf, m)
  .ok r.2

/-- `MAX_BUF`, eval_integrals.c:19. -/
def maxBuf : Nat := 10000

/-- `evaluate_overlap_integrals`, eval_integrals.c:214-249. -/
noncomputable def evalOverlap (shells : List Shell) (buf matrix : List ℝ) : Outcome (List ℝ) :=
  evalMatrix overlapIntegrals shells buf matrix

/-- `evaluate_kinetic_energy_integrals`, eval_integrals.c:255-290. -/
noncomputable def evalKinetic (shells : List Shell) (buf matrix : List ℝ) : Outcome (List ℝ) :=
  evalMatrix kineticIntegrals shells buf matrix

/-- `evaluate_momentum_integrals`, eval_integrals.c:296-338, three buffers and three matrices. -/
noncomputable def evalMomentum (shells : List Shell) (buf matrix : Fin 3 → List ℝ) : Outcome (Fin 3 → List ℝ) := do
  let dim ← basisDim shells
  let mx ← memset0 (dim * dim) (matrix 0)
  let my ← memset0 (dim * dim) (matrix 1)
  let mz ← memset0 (dim * dim) (matrix 2)
  let r ← forShellPairs shells (buf, ![mx, my, mz]) fun io jo bra ket st => do
    let bx ← momentumIntegrals 0 bra ket (st.1 0)
    let by_ ← momentumIntegrals 1 bra ket (st.1 1)
    let bz ← momentumIntegrals 2 bra ket (st.1 2)
    let mx ← addBlock dim (st.2 0) bra.cart_size ket.cart_size bx io jo 1
    let my ← addBlock dim (st.2 1) bra.cart_size ket.cart_size by_ io jo 1
    let mz ← addBlock dim (st.2 2) bra.cart_size ket.cart_size bz io jo 1
    .ok (![bx, by_, bz], ![mx, my, mz])
  .ok r.2

/-! ## Specification -/

/-- The basis functions of a molecule, in the order of the shells and of the components of each shell. -/
noncomputable def basisFns (shells : List Shell) : List (Point → ℝ) :=
  shells.flatMap fun s => (List.range s.cart_size).map (basisFn s)

end Libgrpp
