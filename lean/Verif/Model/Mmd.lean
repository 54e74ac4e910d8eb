import Verif.Model.OneElectron
import Verif.Model.Potential
import Verif.Model.SpecFun

/-! # Model of `libgrpp/type1_mcmurchie_davidson.c` and of `libgrpp_type1_integrals` -/

namespace Libgrpp

/-- A four-dimensional array on the stack; elements never stored are `none`. -/
abbrev Tab4 := Nat → Nat → Nat → Nat → Option ℝ

/-- `E[c][i][j][t]` of `double E[3][10][10][20]`, type1_mcmurchie_davidson.c:65. -/
noncomputable def eGet (E : Tab4) (c i j t : Nat) : Outcome ℝ :=
  if c < 3 ∧ i < maxBasisL ∧ j < maxBasisL ∧ t < 2 * maxBasisL then
    match E c i j t with
    | some v => .ok v
    | none => .ub
  else .ub

/-- `E[c][i][j][t] = v`. -/
noncomputable def eSet (E : Tab4) (c i j t : Nat) (v : ℝ) : Outcome Tab4 :=
  if c < 3 ∧ i < maxBasisL ∧ j < maxBasisL ∧ t < 2 * maxBasisL then
    .ok fun c' i' j' t' => if c' = c ∧ i' = i ∧ j' = j ∧ t' = t then some v else E c' i' j' t'
  else .ub

/-- `R[t][u][v][n]` of `double R[20][20][20][20]`, type1_mcmurchie_davidson.c:66. -/
noncomputable def rGet (R : Tab4) (t u v n : Nat) : Outcome ℝ :=
  if t < 2 * maxBasisL ∧ u < 2 * maxBasisL ∧ v < 2 * maxBasisL ∧ n < 2 * maxBasisL then
    match R t u v n with
    | some x => .ok x
    | none => .ub
  else .ub

/-- `R[t][u][v][n] = x`. -/
noncomputable def rSet (R : Tab4) (t u v n : Nat) (x : ℝ) : Outcome Tab4 :=
  if t < 2 * maxBasisL ∧ u < 2 * maxBasisL ∧ v < 2 * maxBasisL ∧ n < 2 * maxBasisL then
    .ok fun t' u' v' n' => if t' = t ∧ u' = u ∧ v' = v ∧ n' = n then some x else R t' u' v' n'
  else .ub

/-- The scalar fields of `struct mmd_data`, type1_mcmurchie_davidson.c:56-67. -/
structure Mmd where
  A : Point
  B : Point
  C : Point
  Q : Point
  q : ℝ
  K : Point
  rqc2 : ℝ

/-- Initialisation of the scalar fields, type1_mcmurchie_davidson.c:179-213 (identically 280-314, 382-416). -/
noncomputable def mmdData (A : Point) (a : ℝ) (B : Point) (b : ℝ) (C : Point) (c : ℝ) : Mmd :=
  let q := a + b + c
  let muAB := a * b / q
  let muAC := a * c / q
  let muBC := b * c / q
  let Q : Point := fun i => (a * A i + b * B i + c * C i) / q
  { A := A, B := B, C := C, Q := Q, q := q,
    K := fun i => Real.exp (-muAB * (A i - B i) * (A i - B i)) * Real.exp (-muAC * (A i - C i) * (A i - C i)) *
      Real.exp (-muBC * (B i - C i) * (B i - C i)),
    rqc2 := distanceSquared Q C }

/-- One element of the table of Hermite expansion coefficients, type1_mcmurchie_davidson.c:579-616. -/
noncomputable def eStep (d : Mmd) (c : Fin 3) (i j t : Nat) (E : Tab4) : Outcome Tab4 :=
  if t = 0 then
    if i = 0 ∧ j = 0 then eSet E c 0 0 0 (d.K c)
    else if i = 1 ∧ j = 0 then do
      let e ← eGet E c 0 0 0
      eSet E c 1 0 0 ((d.Q c - d.A c) * e)
    else if i = 0 ∧ j = 1 then do
      let e ← eGet E c 0 0 0
      eSet E c 0 1 0 ((d.Q c - d.B c) * e)
    else if i = 0 then do
      let e0 ← eGet E c i (j - 1) 0
      let e1 ← eGet E c i (j - 1) 1
      eSet E c i j 0 ((d.Q c - d.B c) * e0 + e1)
    else do
      let e0 ← eGet E c (i - 1) j 0
      let e1 ← eGet E c (i - 1) j 1
      eSet E c i j 0 ((d.Q c - d.A c) * e0 + e1)
  else do
    let factor := 1 / (2 * d.q * (t : ℝ))
    let s ← if i > 0 then do
        let e ← eGet E c (i - 1) j (t - 1)
        .ok (0 + factor * (i : ℝ) * e)
      else .ok 0
    let s ← if j > 0 then do
        let e ← eGet E c i (j - 1) (t - 1)
        .ok (s + factor * (j : ℝ) * e)
      else .ok s
    eSet E c i j t s

/-- `setup_E_array`, type1_mcmurchie_davidson.c:569-622. -/
noncomputable def setupE (d : Mmd) (LA LB : Nat) : Outcome Tab4 :=
  forCoord (fun _ _ _ _ => none) fun c E =>
    forRange (LA + 1) E fun i E =>
      forRange (LB + 1) E fun j E =>
        forRange (i + j + 1) E fun t E =>
          eStep d c i j t E

/-- The three lines `if (k > 1) val += (k - 1) * R[..k-2..][n+1]; val += X * R[..k-1..][n+1]` of `setup_R_array`,
type1_mcmurchie_davidson.c:485-501; `get k n` reads the element with the lowered index. -/
noncomputable def rLower (X : ℝ) (k n : Nat) (get : Nat → Nat → Outcome ℝ) : Outcome ℝ := do
  let s ← if k > 1 then do
      let r ← get (k - 2) (n + 1)
      .ok (0 + ((k : ℝ) - 1) * r)
    else .ok 0
  let r ← get (k - 1) (n + 1)
  .ok (s + X * r)

/-- The corresponding lines of `setup_G_array`, type1_mcmurchie_davidson.c:540-556. -/
noncomputable def gLower (q X : ℝ) (k n : Nat) (get : Nat → Nat → Outcome ℝ) : Outcome ℝ := do
  let s ← if k > 1 then do
      let r1 ← get (k - 2) (n + 1)
      let r0 ← get (k - 2) n
      .ok (0 + ((k : ℝ) - 1) * (r1 - 2 * q * r0))
    else .ok 0
  let r1 ← get (k - 1) (n + 1)
  let r0 ← get (k - 1) n
  .ok (s + X * (r1 - 2 * q * r0))

/-- Value of one element of `R`: type1_mcmurchie_davidson.c:479-502 and 534-557. `lower` is `rLower` or `gLower`; `base` is
`-2q` or `2q`. -/
noncomputable def rValue (lower : ℝ → Nat → Nat → (Nat → Nat → Outcome ℝ) → Outcome ℝ) (base : ℝ) (d : Mmd) (b : Aux)
    (t u v n : Nat) (R : Tab4) : Outcome ℝ :=
  if t + u + v = 0 then do
    let x ← auxGet b n
    .ok (base ^ n * x)
  else if t + u = 0 then lower (d.Q 2 - d.C 2) v n fun k n => rGet R t u k n
  else if t = 0 then lower (d.Q 1 - d.C 1) u n fun k n => rGet R t k v n
  else lower (d.Q 0 - d.C 0) t n fun k n => rGet R k u v n

/-- `setup_R_array` (457-507) and `setup_G_array` (512-563), type1_mcmurchie_davidson.c. -/
noncomputable def setupRG (lower : ℝ → Nat → Nat → (Nat → Nat → Outcome ℝ) → Outcome ℝ) (base : ℝ) (d : Mmd) (LA LB : Nat)
    (b : Aux) : Outcome Tab4 :=
  forRange (LA + LB + 1) (fun _ _ _ _ => none) fun t R =>
    forRange (LA + LB + 1) R fun u R =>
      forRange (LA + LB + 1) R fun v R =>
        if t + u + v > LA + LB then .ok R
        else forRange (LA + LB - (t + u + v) + 1) R fun n R => do
          let x ← rValue lower base d b t u v n R
          rSet R t u v n x

/-- The triple sum over `t, u, v`, type1_mcmurchie_davidson.c:243-259 and 344-360. -/
noncomputable def sumTUV (E R : Tab4) (x y : Comp) : Outcome ℝ :=
  forRange (x.1 + y.1 + 1) 0 fun t s => do
    let ex ← eGet E 0 x.1 y.1 t
    forRange (x.2.1 + y.2.1 + 1) s fun u s => do
      let ey ← eGet E 1 x.2.1 y.2.1 u
      forRange (x.2.2 + y.2.2 + 1) s fun v s => do
        let ez ← eGet E 2 x.2.2 y.2.2 v
        let r ← rGet R t u v 0
        .ok (s + ex * ey * ez * r)

/-- The numbers the library takes from its special-function code: the Boys table and the Dawson function. -/
structure SpecFun where
  boys : BoysTable
  dawson : ℝ → ℝ

/-- `evaluate_rpp_type1_mmd_n2_primitive_shell_pair`, type1_mcmurchie_davidson.c:375-451. -/
noncomputable def mmdPrim2 (A B : Shell) (C : Point) (c : ℝ) (a b : ℝ) (buf : List ℝ) : Outcome (List ℝ) := do
  let d := mmdData A.origin a B.origin b C c
  let E ← setupE d A.L B.L
  let nA := gaussianNormFactor A.L 0 0 a
  let nB := gaussianNormFactor B.L 0 0 b
  storePairs A B (fun x y => do
    let ex ← eGet E 0 x.1 y.1 0
    let ey ← eGet E 1 x.2.1 y.2.1 0
    let ez ← eGet E 2 x.2.2 y.2.2 0
    .ok (nA * nB * ex * ey * ez * (Real.pi / d.q) ^ (1.5 : ℝ))) buf

/-- `evaluate_rpp_type1_mmd_n1_primitive_shell_pair`, type1_mcmurchie_davidson.c:273-369. -/
noncomputable def mmdPrim1 (sf : SpecFun) (A B : Shell) (C : Point) (c : ℝ) (a b : ℝ) (buf : List ℝ) :
    Outcome (List ℝ) := do
  let d := mmdData A.origin a B.origin b C c
  let f ← boysValues sf.boys (d.q * d.rqc2) (A.L + B.L)
  let E ← setupE d A.L B.L
  let R ← setupRG rLower (-2 * d.q) d A.L B.L f
  let nA := gaussianNormFactor A.L 0 0 a
  let nB := gaussianNormFactor B.L 0 0 b
  storePairs A B (fun x y => do
    let s ← sumTUV E R x y
    .ok (s * (nA * nB * 2 * Real.pi / d.q))) buf

/-- `evaluate_rpp_type1_mmd_n0_primitive_shell_pair`, type1_mcmurchie_davidson.c:172-267. -/
noncomputable def mmdPrim0 (sf : SpecFun) (A B : Shell) (C : Point) (c : ℝ) (a b : ℝ) (buf : List ℝ) :
    Outcome (List ℝ) := do
  let d := mmdData A.origin a B.origin b C c
  let f ← gfunValues sf.dawson (d.q * d.rqc2) (A.L + B.L)
  let E ← setupE d A.L B.L
  let R ← setupRG (gLower d.q) (2 * d.q) d A.L B.L f
  let nA := gaussianNormFactor A.L 0 0 a
  let nB := gaussianNormFactor B.L 0 0 b
  storePairs A B (fun x y => do
    let s ← sumTUV E R x y
    .ok (s * (nA * nB * 2 * Real.pi ^ (1.5 : ℝ) / Real.sqrt d.q))) buf

/-- The contraction loops with screening, type1_mcmurchie_davidson.c:114-166. -/
noncomputable def contractScreened (A B : Shell) (prim : ℝ → ℝ → List ℝ → Outcome (List ℝ)) (out : List ℝ) :
    Outcome (List ℝ) := do
  let n := A.cart_size * B.cart_size
  let buf := List.replicate n (0 : ℝ)
  let out ← memset0 n out
  let r ← forRange A.num (buf, out) fun i (st : List ℝ × List ℝ) => do
    let ci ← rd A.coeffs i
    if |ci| < zeroThresh then .ok st
    else forRange B.num st fun j (st : List ℝ × List ℝ) => do
      let cj ← rd B.coeffs j
      if |cj| < zeroThresh then .ok st
      else do
        let ai ← rd A.alpha i
        let aj ← rd B.alpha j
        let buf ← prim ai aj st.1
        let out ← daxpy n (ci * cj) buf st.2
        .ok (buf, out)
  .ok r.2

/-- The primitive routine chosen by the power, type1_mcmurchie_davidson.c:136-159. -/
noncomputable def mmdPrim (sf : SpecFun) (power : Int) (A B : Shell) (C : Point) (c : ℝ) :
    ℝ → ℝ → List ℝ → Outcome (List ℝ) :=
  if power = 2 then mmdPrim2 A B C c
  else if power = 1 then mmdPrim1 sf A B C c
  else if power = 0 then mmdPrim0 sf A B C c
  else fun _ _ buf => .ok buf

/-- `libgrpp_type1_integrals_mcmurchie_davidson_1978`, type1_mcmurchie_davidson.c:107-166. -/
noncomputable def mmdIntegrals (sf : SpecFun) (A B : Shell) (C : Point) (c : ℝ) (power : Int) (out : List ℝ) :
    Outcome (List ℝ) := do
  Outcome.assert (power = 0 ∨ power = 1 ∨ power = 2)
  contractScreened A B (mmdPrim sf power A B C c) out

/-- `libgrpp_type1_integrals`, type1_integrals.c:43-100. `init` is `libgrpp_is_initialized()`; the potential may be NULL. -/
noncomputable def type1Integrals (sf : SpecFun) (init : Bool) (A B : Shell) (C : Point) (pot : Option Potential)
    (out : List ℝ) : Outcome (List ℝ) := do
  Outcome.assert (init = true)
  let n := A.cart_size * B.cart_size
  let out ← memset0 n out
  match pot with
  | none => .ok out
  | some p => do
    let r ← forRange p.num (List.replicate n (0 : ℝ), out) fun k (st : List ℝ × List ℝ) => do
      let c ← rd p.coeffs k
      let a ← rd p.alpha k
      let w ← rd p.powers k
      let buf ← mmdIntegrals sf A B C a w st.1
      let out ← daxpy n c buf st.2
      .ok (buf, out)
    .ok r.2

end Libgrpp
