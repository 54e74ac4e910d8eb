import Verif.Model.DriverGradient
import Verif.Model.Grpp

/-! # Model of the gradients of single terms in the driver: `test_libgrpp_c/eval_integrals_grad.c`

Conventions as in `Verif/Model/DriverGradient.lean`. The library routines for single terms (grpp_integrals_gradient.c:123-272) are modelled with the objects
they create and delete in `Verif/Model/Grpp.lean`; here only the arrays appear. That both agree is C44 and `term_routines_agree`
(`Verif/Props/DriverTerms.lean`). -/

namespace Libgrpp

/-- The loops which the four routines have in common, eval_integrals_grad.c:178-216, 260-300, 343-383, 470-506: pairs of shells, atoms, and atoms with
a pseudopotential. -/
noncomputable def forGradCentres {σ : Type} (shells : List Shell) (atoms : List (Nat × Point)) (grpps : List (Option GrppData)) (s : σ)
    (body : Nat → Nat → Nat → Nat → Shell → Shell → GrppData → Point → Point → σ → Outcome σ) : Outcome σ :=
  forShellPairs shells s fun io jo bra ket s =>
    forRange atoms.length s fun ia s => do
      let atom ← rd atoms ia
      forRange atoms.length s fun ir s => do
        let centre ← rd atoms ir
        let g ← rd grpps centre.1
        match g with
        | none => .ok s
        | some g => body io jo ia ir bra ket g centre.2 atom.2 s

/-- `libgrpp_type1_integrals_gradient` and `libgrpp_type2_integrals_gradient`, grpp_integrals_gradient.c:123-192: the gradient of a pseudopotential with
this one term, of which the scalar part is stored; the other arrays are auxiliary. `full` are the integrals of that pseudopotential. -/
noncomputable def scalarTermGradient (gen : Nat → List Comp) (junk : Option (Nat → ℝ)) (full : FullRoutine) (A B : Shell) (C D : Point)
    (grad : Fin 3 → List ℝ) : Outcome (Fin 3 → List ℝ) := do
  let G ← grppGradient gen junk full A B C D fun qk => if qk.1 = 0 then grad qk.2 else List.replicate (A.cart_size * B.cart_size) 0
  .ok fun k => G (0, k)

/-- `libgrpp_spin_orbit_integrals_gradient`, grpp_integrals_gradient.c:199-243, for a potential of angular momentum `L`. -/
noncomputable def soTermGradient (gen : Nat → List Comp) (junk : Option (Nat → ℝ)) (full : FullRoutine) (A B : Shell) (C D : Point) (L : Int)
    (grad : Fin 3 × Fin 3 → List ℝ) : Outcome (Fin 3 × Fin 3 → List ℝ) := do
  let G ← grppGradient gen junk full A B C D fun qk =>
    Fin.cases (List.replicate (A.cart_size * B.cart_size) 0) (fun q => grad (q, qk.2)) qk.1
  let G ← rescaleSO ((2 * (L : ℝ) + 1) / 2) (A.cart_size * B.cart_size) G
  .ok fun qk => G (qk.1.succ, qk.2)

/-- `evaluate_type1_integrals_gradient`, eval_integrals_grad.c:170-245. `full g C` is the library routine for a pseudopotential `g` at `C`. -/
noncomputable def evalType1Grad (gen : Nat → List Comp) (junk : Nat → Nat → Nat → Nat → Option (Nat → ℝ)) (full : GrppData → Point → FullRoutine)
    (shells : List Shell) (atoms : List (Nat × Point)) (grpps : List (Option GrppData)) (grad : List (List ℝ)) : Outcome (List (List ℝ)) := do
  let dim ← basisDim shells
  forGradCentres shells atoms grpps grad fun io jo ia ir bra ket g C D grad => do
    let b ← scalarTermGradient gen (junk io jo ia ir) (full ⟨g.local_, [], [], []⟩ C) bra ket C D
      fun _ => List.replicate (bra.cart_size * ket.cart_size) 0
    addGrads dim grad bra.cart_size ket.cart_size b io jo ia 1

/-- `evaluate_type2_integrals_gradient`, eval_integrals_grad.c:252-330. -/
noncomputable def evalType2Grad (gen : Nat → List Comp) (junk : Nat → Nat → Nat → Nat → Nat → Option (Nat → ℝ))
    (full : GrppData → Point → FullRoutine) (shells : List Shell) (atoms : List (Nat × Point)) (grpps : List (Option GrppData)) (grad : List (List ℝ)) : Outcome (List (List ℝ)) := do
  let dim ← basisDim shells
  forGradCentres shells atoms grpps grad fun io jo ia ir bra ket g C D grad =>
    forRange g.arep.length grad fun ip grad => do
      let u ← rd g.arep ip
      let b ← scalarTermGradient gen (junk io jo ia ir ip) (full ⟨none, [u], [], []⟩ C) bra ket C D
        fun _ => List.replicate (bra.cart_size * ket.cart_size) 0
      addGrads dim grad bra.cart_size ket.cart_size b io jo ia 1

/-- The nine calls of `add_block_to_matrix`, eval_integrals_grad.c:403-433. -/
noncomputable def addGrads3 (dim : Nat) (grads : Fin 3 → List (List ℝ)) (bd1 bd2 : Nat) (b : Fin 3 × Fin 3 → List ℝ) (io jo ia : Nat) (factor : ℝ) :
    Outcome (Fin 3 → List (List ℝ)) :=
  forCoord grads fun q grads => do
    let l ← addGrads dim (grads q) bd1 bd2 (fun k => b (q, k)) io jo ia factor
    .ok (Function.update grads q l)

/-- `evaluate_spin_orbit_integrals_gradient`, eval_integrals_grad.c:333-450: three arrays of gradients, for the three components. -/
noncomputable def evalSOGrad (gen : Nat → List Comp) (junk : Nat → Nat → Nat → Nat → Nat → Option (Nat → ℝ))
    (full : GrppData → Point → FullRoutine) (shells : List Shell) (atoms : List (Nat × Point)) (grpps : List (Option GrppData)) (grads : Fin 3 → List (List ℝ)) :
    Outcome (Fin 3 → List (List ℝ)) := do
  let dim ← basisDim shells
  forGradCentres shells atoms grpps grads fun io jo ia ir bra ket g C D grads =>
    forRange g.esop.length grads fun ip grads => do
      let u ← rd g.esop ip
      let b ← soTermGradient gen (junk io jo ia ir ip) (full ⟨none, [], [u], []⟩ C) bra ket C D u.L
        fun _ => List.replicate (bra.cart_size * ket.cart_size) 0
      addGrads3 dim grads bra.cart_size ket.cart_size b io jo ia (2 / (2 * (u.L : ℝ) + 1))

/-- `evaluate_outercore_potential_integrals_gradient`, eval_integrals_grad.c:457-586. -/
noncomputable def evalOcGrad (gen : Nat → List Comp) (junk : Nat → Nat → Nat → Nat → Option (Nat → ℝ)) (full : GrppData → Point → FullRoutine)
    (shells : List Shell) (atoms : List (Nat × Point)) (grpps : List (Option GrppData)) (grads : Fin 4 → List (List ℝ)) :
    Outcome (Fin 4 → List (List ℝ)) := do
  let dim ← basisDim shells
  forGradCentres shells atoms grpps grads fun io jo ia ir bra ket g C D grads => do
    let b ← grppGradient gen (junk io jo ia ir) (full ⟨none, [], [], g.oc⟩ C) bra ket C D fun _ => List.replicate (bra.cart_size * ket.cart_size) 0
    addGrads4 dim grads bra.cart_size ket.cart_size b io jo ia 1

/-! ## Specification -/

/-- The local part of a pseudopotential. -/
def localPart (g : GrppData) : List GrppData := [⟨g.local_, [], [], []⟩]

/-- The semilocal parts, one by one. -/
def arepParts (g : GrppData) : List GrppData := g.arep.map fun u => ⟨none, [u], [], []⟩

/-- The spin-orbit parts, one by one. -/
def esopParts (g : GrppData) : List GrppData := g.esop.map fun u => ⟨none, [], [u], []⟩

/-- The outer-core part. -/
def ocPart (g : GrppData) : List GrppData := [⟨none, [], [], g.oc⟩]

/-- The parts of all pseudopotentials of a molecule, with their positions. -/
def moleculeParts (parts : GrppData → List GrppData) (atoms : List (Nat × Point)) (grpps : List (Option GrppData)) : List (GrppData × Point) :=
  (moleculeGrpps atoms grpps).flatMap fun o => (parts o.1).map fun g => (g, o.2)

end Libgrpp
