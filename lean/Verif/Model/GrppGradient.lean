import Verif.Model.Gradient
import Verif.Model.Full

/-! # Model of `libgrpp/grpp_integrals_gradient.c` (assembly and case analysis)

The routine for the integrals themselves, `libgrpp_full_grpp_integrals` with a fixed GRPP object and centre, is the
parameter `full`. The exponents are decremented and incremented in local copies here (lines 444-452, 838-846), unlike in
the overlap gradient. -/

namespace Libgrpp

/-- The twelve gradient arrays `grad_arep[3], grad_so_x[3], grad_so_y[3], grad_so_z[3]`. -/
abbrev Grads := Fin 4 × Fin 3 → List ℝ

/-- `libgrpp_full_grpp_integrals` as seen by the gradient code: shells and the four zero-filled matrices. -/
abbrev FullRoutine := Shell → Shell → (Fin 4 → List ℝ) → Outcome (Fin 4 → List ℝ)

/-- The same statement for the scalar and the three spin-orbit matrices, in this order. -/
def forFour {σ : Type _} (s : σ) (body : Fin 4 → σ → Outcome σ) : Outcome σ := do
  let s ← body 0 s
  let s ← body 1 s
  let s ← body 2 s
  body 3 s

/-- Four updates `grad_q[k][index] += w * m_q[idx]` (lines 465-472, 483-486, 659-666, 677-680, 865-868, 882-885). -/
noncomputable def addFour (junk : Option (Nat → ℝ)) (k : Fin 3) (index : Nat) (w : ℝ) (m : Fin 4 → List ℝ) (idx : Nat)
    (G : Grads) : Outcome Grads :=
  forFour G fun q G => do
    let v ← rdJ junk (m q) idx
    gadd G (q, k) index (w * v)

/-- Result of `grpp_gradient_diff_gaussian`: matrices of the `L-1` shell (empty lists for NULL) and of the `L+1` shell, and
the sizes of these shells. -/
structure DiffMats where
  down : Fin 4 → List ℝ
  up : Fin 4 → List ℝ
  sizeDown : Nat
  sizeUp : Nat

/-- The call of the integral routine with shell `d` in place of the differentiated one, on fresh zero-filled matrices. -/
noncomputable def fullWith (full : FullRoutine) (A B : Shell) (diffBra : Bool) (d : Shell) : Outcome (Fin 4 → List ℝ) :=
  full (if diffBra then d else A) (if diffBra then B else d)
    fun _ => List.replicate ((if diffBra then B.cart_size else A.cart_size) * d.cart_size) 0

/-- `grpp_gradient_diff_gaussian`, lines 914-1016; with `diffBra` also `grpp_gradient_diff_bra_grpp_integrals`, lines
515-587, without it `grpp_gradient_diff_ket_grpp_integrals`, lines 709-783. -/
noncomputable def diffMats (gen : Nat → List Comp) (full : FullRoutine) (A B : Shell) (diffBra : Bool) :
    Outcome DiffMats := do
  let d ← differentiateShell gen (if diffBra then A else B)
  let down ← match d.1 with
    | some dn => fullWith full A B diffBra dn
    | none => .ok fun _ => []
  let up ← fullWith full A B diffBra d.2
  .ok ⟨down, up, (d.1.map Shell.cart_size).getD 0, d.2.cart_size⟩

/-- `nlm[k] += d` on a local copy. -/
def shiftC (c : IComp) (k : Fin 3) (d : Int) : IComp := Function.update c k (c k + d)

/-- Body of the assembly loops, lines 838-885 (also 444-486 and 638-680). `guard` is the condition for the `L-1` block. -/
noncomputable def ggBody (gen : Nat → List Comp) (junk : Option (Nat → ℝ)) (A B : Shell) (diffBra guard : Bool)
    (factor : ℝ) (m : DiffMats) (k : Fin 3) (i j : Nat) (G : Grads) : Outcome Grads := do
  let bra ← rd A.cartInts i
  let ket ← rd B.cartInts j
  let index := i * B.cart_size + j
  let n : ℝ := if diffBra then bra k else ket k
  let dn (c : IComp) (own : Bool) : IComp := if own then shiftC c k (-1) else c
  let up (c : IComp) (own : Bool) : IComp := if own then shiftC c k 1 else c
  let idxDown := (if diffBra then B.cart_size else m.sizeDown) * nlmIndex gen (dn bra diffBra) + nlmIndex gen (dn ket !diffBra)
  let idxUp := (if diffBra then B.cart_size else m.sizeUp) * nlmIndex gen (up bra diffBra) + nlmIndex gen (up ket !diffBra)
  if guard then do
    let G ← addFour junk k index (-(factor * n)) m.down idxDown G
    addFour junk k index factor m.up idxUp G
  else addFour junk k index factor m.up idxUp G

/-- The three assembly loops. -/
noncomputable def ggLoops (gen : Nat → List Comp) (junk : Option (Nat → ℝ)) (A B : Shell) (diffBra guard : Bool)
    (factor : ℝ) (m : DiffMats) (G : Grads) : Outcome Grads :=
  forCoord G fun k G =>
    forRange A.cart_size G fun i G =>
      forRange B.cart_size G fun j G => ggBody gen junk A B diffBra guard factor m k i j G

/-- `grpp_gradient_contribution`, lines 786-900: the guard is `cart_size_down > 0`. -/
noncomputable def ggContribution (gen : Nat → List Comp) (junk : Option (Nat → ℝ)) (full : FullRoutine) (A B : Shell)
    (diffBra : Bool) (factor : ℝ) (G : Grads) : Outcome Grads := do
  let m ← diffMats gen full A B diffBra
  ggLoops gen junk A B diffBra (decide (m.sizeDown > 0)) factor m G

/-- `grpp_gradient_diff_bra_contribution`, lines 403-501: the guard is `shell_A->L > 0`. -/
noncomputable def ggBraContribution (gen : Nat → List Comp) (junk : Option (Nat → ℝ)) (full : FullRoutine) (A B : Shell)
    (factor : ℝ) (G : Grads) : Outcome Grads := do
  let m ← diffMats gen full A B true
  ggLoops gen junk A B true (decide (A.L > 0)) factor m G

/-- `grpp_gradient_diff_ket_contribution`, lines 597-695: the guard is `shell_B->L > 0`. -/
noncomputable def ggKetContribution (gen : Nat → List Comp) (junk : Option (Nat → ℝ)) (full : FullRoutine) (A B : Shell)
    (factor : ℝ) (G : Grads) : Outcome Grads := do
  let m ← diffMats gen full A B false
  ggLoops gen junk A B false (decide (B.L > 0)) factor m G

/-- `memset` of the twelve arrays, lines 299-304. -/
noncomputable def memsetGrads (n : Nat) (G : Grads) : Outcome Grads :=
  forCoord G fun k G => forFour G fun q G => do
    let l ← memset0 n (G (q, k))
    .ok (Function.update G (q, k) l)

/-- A statement executed only if `c` holds. -/
def onlyIf {σ : Type _} (c : Prop) [Decidable c] (f : σ → Outcome σ) (s : σ) : Outcome σ := if c then f s else .ok s

/-- `libgrpp_full_grpp_integrals_gradient`, lines 280-393. -/
noncomputable def grppGradient (gen : Nat → List Comp) (junk : Option (Nat → ℝ)) (full : FullRoutine) (A B : Shell)
    (C D : Point) (G : Grads) : Outcome Grads := do
  let G ← memsetGrads (A.cart_size * B.cart_size) G
  if pointsAreEqual A.origin C ∧ pointsAreEqual B.origin C then .ok G
  else if ¬ pointsAreEqual A.origin D ∧ ¬ pointsAreEqual B.origin D ∧ ¬ pointsAreEqual C D then .ok G
  else do
    -- type ACB, lines 334-349
    let G ← onlyIf (¬ pointsAreEqual A.origin C ∧ ¬ pointsAreEqual C B.origin ∧ ¬ pointsAreEqual A.origin B.origin)
      (fun G => do
        let G ← onlyIf (pointsAreEqual A.origin D) (ggContribution gen junk full A B true 1) G
        let G ← onlyIf (pointsAreEqual B.origin D) (ggContribution gen junk full A B false 1) G
        onlyIf (pointsAreEqual C D) (fun G => do
          let G ← ggContribution gen junk full A B true (-1) G
          ggContribution gen junk full A B false (-1) G) G) G
    -- type ACA, lines 354-366
    let G ← onlyIf (pointsAreEqual A.origin B.origin ∧ ¬ pointsAreEqual A.origin C)
      (fun G => if pointsAreEqual A.origin D then do
          let G ← ggBraContribution gen junk full A B 1 G
          ggKetContribution gen junk full A B 1 G
        else do
          let G ← ggBraContribution gen junk full A B (-1) G
          ggKetContribution gen junk full A B (-1) G) G
    -- type ACC, lines 371-379
    let G ← onlyIf (¬ pointsAreEqual A.origin C ∧ pointsAreEqual C B.origin)
      (fun G => if pointsAreEqual A.origin D then ggContribution gen junk full A B true 1 G
        else ggContribution gen junk full A B true (-1) G) G
    -- type CCB, lines 384-392
    onlyIf (pointsAreEqual A.origin C ∧ ¬ pointsAreEqual C B.origin)
      (fun G => if pointsAreEqual B.origin D then ggContribution gen junk full A B false 1 G
        else ggContribution gen junk full A B false (-1) G) G

end Libgrpp
