import Verif.Model.Full
import Verif.Model.Mmd
import Verif.Model.Type2
import Verif.Model.OuterCore
import Verif.Model.SpecSemilocal
import Verif.Model.SpecLocal
import Verif.Model.SpecOuterCore

/-! # The integral routines which `libgrpp_full_grpp_integrals` calls, and the operator they stand for -/

namespace Libgrpp

open MeasureTheory

/-- The routines called in full_grpp_integrals.c:60, 67, 75-77, 89-91. -/
noncomputable def libKernels {G : Type} (lib : Lib G) (sf : SpecFun) : Kernels where
  type1 A B C pot l := type1Integrals sf lib.init A B C pot l
  type2 A B C pot l := type2Integrals lib A B C pot l
  so A B C pot l := do
    let r ← spinOrbitIntegrals lib A B C pot ⟨l 0, l 1, l 2⟩
    .ok ![r.x, r.y, r.z]
  oc A B C s l := do
    let r ← outerCore sf lib.init A B C s l
    .ok r.2

/-- The outer-core operator between two functions: `U P + P U` for each shell, and `- P (U + U')/2 P'` for each pair of shells with equal `L` and `J`. -/
noncomputable def ocElement (A B : Shell) (C : Point) (oc : List (Potential × Shell)) (q : Fin 4) (i j : ℕ) : ℝ :=
  ∑ a : Fin oc.length, ocOne A B A B C oc[a].1 oc[a].2 oc[a].2 q i j -
    ∑ a : Fin oc.length, ∑ b : Fin oc.length, ocTwo A B C oc[a].1 oc[a].2 oc[b].1 oc[b].2 q i j

/-- The local potential between two functions. -/
noncomputable def localPotElement (A B : Shell) (C : Point) (p : Option Potential) (m n : ℕ) : ℝ :=
  match p with
  | none => 0
  | some p => ∫ r, basisFn A m r * potentialFn p C r * basisFn B n r

/-- The matrix elements of a generalised relativistic pseudopotential centred at `C`. For `q = 0` the scalar part: the local potential,
`U_L(r) P_L` for each semilocal potential and the outer-core operator. For `q = 1, 2, 3` the spin-orbit parts: `2/(2L+1) U_L(r) P_L l_q P_L` for
each spin-orbit potential (the angular momentum divided by `i`) and the outer-core operator. -/
noncomputable def grppElement (A B : Shell) (C : Point) (g : GrppData) (q : Fin 4) (m n : ℕ) : ℝ :=
  Fin.cases
    (localPotElement A B C g.local_ m n + (g.arep.map fun u => semilocal u.L.toNat projector C (potentialRadial u) (basisFn A m) (basisFn B n)).sum)
    (fun k => (g.esop.map fun u => 2 / (2 * (u.L : ℝ) + 1) *
      semilocal u.L.toNat (rotationMatrix u.L.toNat k) C (potentialRadial u) (basisFn A m) (basisFn B n)).sum) q + ocElement A B C g.oc q m n

end Libgrpp
