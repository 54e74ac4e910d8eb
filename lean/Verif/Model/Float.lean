import Verif.Model.OneElectron
import Verif.Model.Potential
import Mathlib.Data.Int.Log
import Mathlib.Algebra.Order.Round

/-! # The routines in floating-point arithmetic

The other models compute with real numbers. Here the routines are modelled with the operations of an arithmetic `F`, one call of `F` for every
operation of the source, in the order of the source. A `double` is its value; an operation whose result is not representable (overflow,
underflow, infinities, not-a-number) ends the program as with enabled floating-point traps: outcome `abort`. (In the default environment the program
continues and a sticky flag of the floating-point status is set; the theorems then say nothing about the result.)
Exact in binary arithmetic, and therefore not calls of `F`: changes of sign, conversions of small integers, the product `0.5 * (n + l + m)`. -/

namespace Libgrpp

/-- The operations and library functions used, and the value of `M_PI`. -/
structure Arith where
  add : ℝ → ℝ → Outcome ℝ
  sub : ℝ → ℝ → Outcome ℝ
  mul : ℝ → ℝ → Outcome ℝ
  div : ℝ → ℝ → Outcome ℝ
  sqrt : ℝ → Outcome ℝ
  exp : ℝ → Outcome ℝ
  pow : ℝ → ℝ → Outcome ℝ
  pi : ℝ

/-- Real arithmetic. -/
noncomputable def Arith.exact : Arith where
  add x y := .ok (x + y)
  sub x y := .ok (x - y)
  mul x y := .ok (x * y)
  div x y := .ok (x / y)
  sqrt x := .ok (Real.sqrt x)
  exp x := .ok (Real.exp x)
  pow x y := .ok (x ^ y)
  pi := Real.pi

/-! ## Binary floating point -/

/-- Rounding to the nearest integer, ties to even. -/
noncomputable def roundEven (x : ℝ) : ℤ :=
  if x - ⌊x⌋ < 1 / 2 then ⌊x⌋ else if 1 / 2 < x - ⌊x⌋ then ⌊x⌋ + 1 else if Even ⌊x⌋ then ⌊x⌋ else ⌊x⌋ + 1

/-- Rounding to 53 binary digits, ties to even (IEEE 754, `double`), without a limit for the exponent. -/
noncomputable def round53 (x : ℝ) : ℝ := roundEven (x / 2 ^ (Int.log 2 |x| - 52)) * 2 ^ (Int.log 2 |x| - 52)

open Classical in
/-- A result in the format `double`: zero, or a normal number; otherwise a trap. -/
noncomputable def double (x : ℝ) : Outcome ℝ :=
  if x = 0 ∨ ((2 : ℝ) ^ (-1022 : ℤ) ≤ |round53 x| ∧ |round53 x| < 2 ^ (1024 : ℤ)) then .ok (round53 x) else .abort

/-- IEEE arithmetic with given functions `exp` and `pow` of the mathematical library; `M_PI` is a literal of `math.h`. -/
noncomputable def Arith.ieee (exp : ℝ → Outcome ℝ) (pow : ℝ → ℝ → Outcome ℝ) : Arith where
  add x y := double (x + y)
  sub x y := double (x - y)
  mul x y := double (x * y)
  div x y := double (x / y)
  sqrt x := double (Real.sqrt x)
  exp := exp
  pow := pow
  pi := round53 3.14159265358979323846

/-! ## Routines -/

/-- `libgrpp_daxpy`, utils.c:53-58. -/
noncomputable def flDaxpy (F : Arith) (n : Nat) (a : ℝ) (x y : List ℝ) : Outcome (List ℝ) :=
  forRange n y fun i y => do
    let xi ← rd x i
    let yi ← rd y i
    let t ← F.mul a xi
    let v ← F.add yi t
    wr y i v

/-- Inner loop of `libgrpp_multiply_matrices`, utils.c:68-71. -/
noncomputable def flMatMulSum (F : Arith) (i j N K : Nat) (A B : List ℝ) : Outcome ℝ :=
  forRange K 0 fun k sum => do
    let a ← rd A (i * K + k)
    let b ← rd B (k * N + j)
    let t ← F.mul a b
    F.add sum t

/-- `libgrpp_multiply_matrices`, utils.c:64-75. -/
noncomputable def flMultiplyMatrices (F : Arith) (M N K : Nat) (A B C : List ℝ) : Outcome (List ℝ) :=
  forRange M C fun i C =>
    forRange N C fun j C => do
      let sum ← flMatMulSum F i j N K A B
      let c ← rd C (i * N + j)
      let v ← F.add c sum
      wr C (i * N + j) v

/-- `libgrpp_potential_value`, potential.c:70-81. -/
noncomputable def flPotentialValue (F : Arith) (pot : Potential) (r : ℝ) : Outcome ℝ := do
  let r2 ← F.mul r r
  forRange pot.num 0 fun i val => do
    let n ← rd pot.powers i
    let c ← rd pot.coeffs i
    let a ← rd pot.alpha i
    let p ← F.pow r ((n - 2 : ℤ) : ℝ)
    let t ← F.mul c p
    let x ← F.mul (-a) r2
    let e ← F.exp x
    let t ← F.mul t e
    F.add val t

/-- `gaussian_norm_factor`, norm_gaussian.c:16-23. -/
noncomputable def flNormFactor (F : Arith) (n l m : Nat) (alpha : ℝ) : Outcome ℝ := do
  let x ← F.mul 2 alpha
  let x ← F.div x F.pi
  let x ← F.pow x 0.75
  let y ← F.mul 4 alpha
  let y ← F.pow y (0.5 * ((n : ℝ) + l + m))
  F.mul x y

/-- One element of the Obara-Saika table: overlap.c:98-121, momentum.c:120-143, kinetic.c:98-121. -/
noncomputable def flOsStep (F : Arith) (d : Nat) (c : Fin 3) (p mu xab xpa xpb pfac : ℝ) (i j : Nat) (S : Table) : Outcome Table :=
  if i + j = 0 then do
    let q ← F.div F.pi p
    let s ← F.sqrt q
    let x ← F.mul (-mu) xab
    let x ← F.mul x xab
    let e ← F.exp x
    let v ← F.mul s e
    tset d S c 0 0 v
  else if i = 0 then do
    let s1 ← tget d S c i (j - 1)
    let t ← F.mul xpb s1
    let acc ← F.add 0 t
    let acc ← if j - 1 > 0 then do
        let s2 ← tget d S c i (j - 2)
        let t ← F.mul ((j - 1 : ℕ) : ℝ) pfac
        let t ← F.mul t s2
        F.add acc t
      else .ok acc
    tset d S c i j acc
  else do
    let s1 ← tget d S c (i - 1) j
    let t ← F.mul xpa s1
    let acc ← F.add 0 t
    let acc ← if i - 1 > 0 then do
        let s2 ← tget d S c (i - 2) j
        let t ← F.mul ((i - 1 : ℕ) : ℝ) pfac
        let t ← F.mul t s2
        F.add acc t
      else .ok acc
    let acc ← if j > 0 then do
        let s3 ← tget d S c (i - 1) (j - 1)
        let t ← F.mul (j : ℝ) pfac
        let t ← F.mul t s3
        F.add acc t
      else .ok acc
    tset d S c i j acc

/-- The loops filling `S`: overlap.c:80-123, momentum.c:102-145, kinetic.c:80-123. -/
noncomputable def flFillS (F : Arith) (d iMax jMax : Nat) (a b : ℝ) (A B : Point) : Outcome Table := do
  let p ← F.add a b
  let t ← F.mul a b
  let q ← F.add a b
  let mu ← F.div t q
  forCoord Table.uninit fun c S => do
    let x ← F.mul a (A c)
    let y ← F.mul b (B c)
    let t ← F.add x y
    let P ← F.div t p
    let xab ← F.sub (A c) (B c)
    let xpa ← F.sub P (A c)
    let xpb ← F.sub P (B c)
    let t ← F.mul 2 p
    let pfac ← F.div 1 t
    forRange (iMax + 1) S fun i S =>
      forRange (jMax + 1) S fun j S =>
        flOsStep F d c p mu xab xpa xpb pfac i j S

/-- `a * b * c * d * e`. -/
noncomputable def flProd5 (F : Arith) (a b c d e : ℝ) : Outcome ℝ := do
  let t ← F.mul a b
  let t ← F.mul t c
  let t ← F.mul t d
  F.mul t e

/-- `overlap_integrals_shell_pair_obara_saika`, overlap.c:66-138. -/
noncomputable def flOverlapPrim (F : Arith) (A B : Shell) (a b : ℝ) (buf : List ℝ) : Outcome (List ℝ) := do
  let nA ← flNormFactor F A.L 0 0 a
  let nB ← flNormFactor F B.L 0 0 b
  let S ← flFillS F maxBasisL A.L B.L a b A.origin B.origin
  storePairs A B (fun x y => do
    let sx ← tget maxBasisL S 0 x.1 y.1
    let sy ← tget maxBasisL S 1 x.2.1 y.2.1
    let sz ← tget maxBasisL S 2 x.2.2 y.2.2
    flProd5 F nA nB sx sy sz) buf

/-- The contraction loop, overlap.c:39-63, kinetic.c:38-62, momentum.c:44-82. -/
noncomputable def flContract (F : Arith) (A B : Shell) (prim : ℝ → ℝ → List ℝ → Outcome (List ℝ)) (out : List ℝ) : Outcome (List ℝ) := do
  let n := A.cart_size * B.cart_size
  let buf := List.replicate n (0 : ℝ)
  let out ← memset0 n out
  let r ← forRange A.num (buf, out) fun i (st : List ℝ × List ℝ) =>
    forRange B.num st fun j (st : List ℝ × List ℝ) => do
      let ai ← rd A.alpha i
      let aj ← rd B.alpha j
      let ci ← rd A.coeffs i
      let cj ← rd B.coeffs j
      let buf ← prim ai aj st.1
      let cc ← F.mul ci cj
      let out ← flDaxpy F n cc buf st.2
      .ok (buf, out)
  .ok r.2

/-- `libgrpp_overlap_integrals`, overlap.c:39-63. -/
noncomputable def flOverlap (F : Arith) (A B : Shell) (out : List ℝ) : Outcome (List ℝ) := flContract F A B (flOverlapPrim F A B) out

/-- The loops filling `D2`, kinetic.c:129-145. -/
noncomputable def flFillD2 (F : Arith) (iMax jMax : Nat) (a : ℝ) (S : Table) : Outcome Table :=
  forCoord Table.uninit fun c D =>
    forRange (iMax + 1) D fun i D =>
      forRange (jMax + 1) D fun j D => do
        let s1 ← tget (maxBasisL + 2) S c (i + 2) j
        let t ← F.mul 4 a
        let t ← F.mul t a
        let t ← F.mul t s1
        let acc ← F.add 0 t
        let s2 ← tget (maxBasisL + 2) S c i j
        let t ← F.mul 2 a
        let t ← F.mul t (2 * (i : ℝ) + 1)
        let t ← F.mul t s2
        let acc ← F.sub acc t
        let acc ← if i ≥ 2 then do
            let s3 ← tget (maxBasisL + 2) S c (i - 2) j
            let t ← F.mul ((i : ℝ) * ((i : ℝ) - 1)) s3
            F.add acc t
          else .ok acc
        tset maxBasisL D c i j acc

/-- `kinetic_energy_integrals_shell_pair_obara_saika`, kinetic.c:65-162. -/
noncomputable def flKineticPrim (F : Arith) (A B : Shell) (a b : ℝ) (buf : List ℝ) : Outcome (List ℝ) := do
  let nA ← flNormFactor F A.L 0 0 a
  let nB ← flNormFactor F B.L 0 0 b
  let S ← flFillS F (maxBasisL + 2) (A.L + 2) (B.L + 2) a b A.origin B.origin
  let D2 ← flFillD2 F A.L B.L a S
  storePairs A B (fun x y => do
    let dx ← tget maxBasisL D2 0 x.1 y.1
    let dy ← tget maxBasisL D2 1 x.2.1 y.2.1
    let dz ← tget maxBasisL D2 2 x.2.2 y.2.2
    let sx ← tget (maxBasisL + 2) S 0 x.1 y.1
    let sy ← tget (maxBasisL + 2) S 1 x.2.1 y.2.1
    let sz ← tget (maxBasisL + 2) S 2 x.2.2 y.2.2
    let f ← F.mul (-0.5) nA
    let f ← F.mul f nB
    let t1 ← F.mul dx sy
    let t1 ← F.mul t1 sz
    let t2 ← F.mul sx dy
    let t2 ← F.mul t2 sz
    let t3 ← F.mul sx sy
    let t3 ← F.mul t3 dz
    let t ← F.add t1 t2
    let t ← F.add t t3
    F.mul f t) buf

/-- `libgrpp_kinetic_energy_integrals`, kinetic.c:38-62. -/
noncomputable def flKinetic (F : Arith) (A B : Shell) (out : List ℝ) : Outcome (List ℝ) := flContract F A B (flKineticPrim F A B) out

/-- The loops filling `D1`, momentum.c:151-166. -/
noncomputable def flFillD1 (F : Arith) (iMax jMax : Nat) (a : ℝ) (S : Table) : Outcome Table :=
  forCoord Table.uninit fun c D =>
    forRange (iMax + 1) D fun i D =>
      forRange (jMax + 1) D fun j D => do
        let s1 ← tget (maxBasisL + 1) S c (i + 1) j
        let t ← F.mul 2 a
        let t ← F.mul t s1
        let acc ← F.add 0 t
        let acc ← if i ≥ 1 then do
            let s2 ← tget (maxBasisL + 1) S c (i - 1) j
            let t ← F.mul (i : ℝ) s2
            F.sub acc t
          else .ok acc
        tset maxBasisL D c i j acc

/-- `momentum_integrals_shell_pair_obara_saika`, momentum.c:85-183, output matrix of direction `k` (see `momentumPrim`). -/
noncomputable def flMomentumPrim (F : Arith) (k : Fin 3) (A B : Shell) (a b : ℝ) (buf : List ℝ) : Outcome (List ℝ) := do
  let nA ← flNormFactor F A.L 0 0 a
  let nB ← flNormFactor F B.L 0 0 b
  let S ← flFillS F (maxBasisL + 1) (A.L + 1) (B.L + 1) a b A.origin B.origin
  let D1 ← flFillD1 F A.L B.L a S
  storePairs A B (fun x y => do
    let fx ← if k = 0 then tget maxBasisL D1 0 x.1 y.1 else tget (maxBasisL + 1) S 0 x.1 y.1
    let fy ← if k = 1 then tget maxBasisL D1 1 x.2.1 y.2.1 else tget (maxBasisL + 1) S 1 x.2.1 y.2.1
    let fz ← if k = 2 then tget maxBasisL D1 2 x.2.2 y.2.2 else tget (maxBasisL + 1) S 2 x.2.2 y.2.2
    flProd5 F (-nA) nB fx fy fz) buf

/-- `libgrpp_momentum_integrals`, momentum.c:44-82, output matrix of direction `k`. -/
noncomputable def flMomentum (F : Arith) (k : Fin 3) (A B : Shell) (out : List ℝ) : Outcome (List ℝ) := flContract F A B (flMomentumPrim F k A B) out

end Libgrpp
