import Verif.Model.Driver
import Verif.Model.DriverGrpp
import Verif.Model.GrppGradient

/-! # Model of the gradients of molecular matrices in the driver: `test_libgrpp_c/eval_integrals_grad.c`

`gradient` is an array of `3 * n_atoms` pointers to matrices: a list of lists. The matrices are distinct arrays. Output to the terminal and the
clock are left out, as is the overflow of `3 * iatom` for more than 7·10⁸ atoms. `junk` is what out-of-bounds reads in the
gradient routines of the library return (see `Model/Gradient.lean`; `none`: such a read is undefined behaviour). -/

namespace Libgrpp

/-- Three calls of `add_block_to_matrix` on the matrices `3 * iatom + 0`, `+ 1`, `+ 2` of a gradient, eval_integrals_grad.c:95-104 (and 109-118,
123-132, 137-146, 222-231, 306-315, 628-634). -/
noncomputable def addGrads (dim : Nat) (grad : List (List ℝ)) (bd1 bd2 : Nat) (blocks : Fin 3 → List ℝ) (io jo ia : Nat) (factor : ℝ) :
    Outcome (List (List ℝ)) :=
  forCoord grad fun k grad => do
    let m ← rd grad (3 * ia + k)
    let m ← addBlock dim m bd1 bd2 (blocks k) io jo factor
    wr grad (3 * ia + k) m

/-- `evaluate_overlap_integrals_gradient`, eval_integrals_grad.c:593-647, `alloc_gradients`, 677-687. The library routine changes the exponents
in the bra shell and restores them; the model is undefined should they differ after the call. -/
noncomputable def evalOverlapGrad (gen : Nat → List Comp) (junk : Nat → Nat → Nat → Option (Nat → ℝ)) (shells : List Shell)
    (atoms : List (Nat × Point)) (grad : List (List ℝ)) : Outcome (List (List ℝ)) := do
  let dim ← basisDim shells
  forShellPairs shells grad fun io jo bra ket grad => do
    let buf : Fin 3 → List ℝ := fun _ => List.replicate (bra.cart_size * ket.cart_size) 0
    let r ← forRange atoms.length (buf, grad) fun ia st => do
      let atom ← rd atoms ia
      let og ← overlapGradient gen (junk io jo ia) bra ket atom.2 st.1
      Outcome.valid (og.1 = bra.cartInts)
      let grad ← addGrads dim st.2 bra.cart_size ket.cart_size og.2 io jo ia 1
      .ok (og.2, grad)
    .ok r.2

/-- The twelve calls of `add_block_to_matrix`, eval_integrals_grad.c:95-146. -/
noncomputable def addGrads4 (dim : Nat) (grads : Fin 4 → List (List ℝ)) (bd1 bd2 : Nat) (b : Grads) (io jo ia : Nat) (factor : ℝ) :
    Outcome (Fin 4 → List (List ℝ)) :=
  forFour grads fun q grads => do
    let l ← addGrads dim (grads q) bd1 bd2 (fun k => b (q, k)) io jo ia factor
    .ok (Function.update grads q l)

/-- `evaluate_grpp_integrals_gradient`, eval_integrals_grad.c:37-163. `full g C` is the library routine `libgrpp_full_grpp_integrals` for a
pseudopotential `g` at `C`. -/
noncomputable def evalGrppGrad (gen : Nat → List Comp) (junk : Nat → Nat → Nat → Nat → Option (Nat → ℝ)) (full : GrppData → Point → FullRoutine)
    (shells : List Shell) (atoms : List (Nat × Point)) (grpps : List (Option GrppData)) (grads : Fin 4 → List (List ℝ)) :
    Outcome (Fin 4 → List (List ℝ)) := do
  let dim ← basisDim shells
  forShellPairs shells grads fun io jo bra ket grads =>
    forRange atoms.length grads fun ia grads => do
      let atom ← rd atoms ia
      forRange atoms.length grads fun ir grads => do
        let centre ← rd atoms ir
        let g ← rd grpps centre.1
        match g with
        | none => .ok grads
        | some g =>
          let buf : Grads := fun _ => List.replicate (bra.cart_size * ket.cart_size) 0
          let b ← grppGradient gen (junk io jo ia ir) (full g centre.2) bra ket centre.2 atom.2 buf
          addGrads4 dim grads bra.cart_size ket.cart_size b io jo ia 1

/-! ## Specification -/

/-- The shell after the atom at `D` has been displaced by `t` along coordinate `k`. -/
noncomputable def moveAtom (D : Point) (k : Fin 3) (t : ℝ) (s : Shell) : Shell :=
  if s.origin = D then { s with origin := Function.update s.origin k (s.origin k + t) } else s

/-- A centre after the atom at `D` has been displaced by `t` along coordinate `k`. -/
noncomputable def movePoint (D : Point) (k : Fin 3) (t : ℝ) (C : Point) : Point :=
  if C = D then Function.update C k (C k + t) else C

end Libgrpp
