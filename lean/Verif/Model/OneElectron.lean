import Verif.Model.Shell
import Mathlib.Analysis.SpecialFunctions.Sqrt
import Mathlib.Analysis.SpecialFunctions.Exp

/-! # Model of `libgrpp/overlap.c`, `libgrpp/momentum.c`, `libgrpp/kinetic.c`

Stack arrays `double S[3][d][d]` are partial functions: an element that was never written, or an index outside
`[0,d) × [0,d)`, is undefined behaviour when read; an index outside is undefined behaviour when written. -/

namespace Libgrpp

/-- An array `double S[3][d][d]` (uninitialised elements are `none`). -/
abbrev Table := Fin 3 → Nat → Nat → Option ℝ

/-- An array on the stack before any store. -/
def Table.uninit : Table := fun _ _ _ => none

/-- `S[coord][i][j]` as an rvalue; `d` is the declared dimension. -/
noncomputable def tget (d : Nat) (S : Table) (c : Fin 3) (i j : Nat) : Outcome ℝ :=
  if i < d ∧ j < d then
    match S c i j with
    | some v => .ok v
    | none => .ub
  else .ub

/-- `S[coord][i][j] = v`. -/
noncomputable def tset (d : Nat) (S : Table) (c : Fin 3) (i j : Nat) (v : ℝ) : Outcome Table :=
  if i < d ∧ j < d then
    .ok fun c' i' j' => if c' = c ∧ i' = i ∧ j' = j then some v else S c' i' j'
  else .ub

/-- `for (int coord = 0; coord < 3; coord++)` -/
def forCoord {σ : Type _} (s : σ) (body : Fin 3 → σ → Outcome σ) : Outcome σ := do
  let s ← body 0 s
  let s ← body 1 s
  body 2 s

/-- `LIBGRPP_MAX_BASIS_L`, libgrpp.h:16. -/
def maxBasisL : Nat := 10

/-- One element of the Obara-Saika table: overlap.c:98-121, momentum.c:120-143, kinetic.c:98-121. -/
noncomputable def osStep (d : Nat) (c : Fin 3) (p mu xab xpa xpb pfac : ℝ) (i j : Nat) (S : Table) :
    Outcome Table :=
  if i + j = 0 then
    tset d S c 0 0 (Real.sqrt (Real.pi / p) * Real.exp (-mu * xab * xab))
  else if i = 0 then do
    let s1 ← tget d S c i (j - 1)
    let acc := 0 + xpb * s1
    let acc ← if j - 1 > 0 then do
        let s2 ← tget d S c i (j - 2)
        .ok (acc + ((j - 1 : ℕ) : ℝ) * pfac * s2)
      else .ok acc
    tset d S c i j acc
  else do
    let s1 ← tget d S c (i - 1) j
    let acc := 0 + xpa * s1
    let acc ← if i - 1 > 0 then do
        let s2 ← tget d S c (i - 2) j
        .ok (acc + ((i - 1 : ℕ) : ℝ) * pfac * s2)
      else .ok acc
    let acc ← if j > 0 then do
        let s3 ← tget d S c (i - 1) (j - 1)
        .ok (acc + (j : ℝ) * pfac * s3)
      else .ok acc
    tset d S c i j acc

/-- The loops filling `S` up to `i ≤ iMax`, `j ≤ jMax`: overlap.c:88-123 (`d = 10`, `L_A`, `L_B`),
momentum.c:110-145 (`d = 11`, `L_A + 1`, `L_B + 1`), kinetic.c:88-123 (`d = 12`, `L_A + 2`, `L_B + 2`). -/
noncomputable def fillS (d iMax jMax : Nat) (alphaA alphaB : ℝ) (A B : Point) : Outcome Table :=
  let p := alphaA + alphaB
  let mu := alphaA * alphaB / (alphaA + alphaB)
  forCoord Table.uninit fun c S =>
    let P := (alphaA * A c + alphaB * B c) / p
    let xab := A c - B c
    let xpa := P - A c
    let xpb := P - B c
    let pfac := 1 / (2 * p)
    forRange (iMax + 1) S fun i S =>
      forRange (jMax + 1) S fun j S =>
        osStep d c p mu xab xpa xpb pfac i j S

/-- Loops over all Cartesian component pairs storing into a row-major matrix:
overlap.c:126-137, momentum.c:167-181, kinetic.c:146-161. `val` computes the stored value from the two components. -/
noncomputable def storePairs (A B : Shell) (val : Comp → Comp → Outcome ℝ) (buf : List ℝ) : Outcome (List ℝ) :=
  forRange A.cart_size buf fun m buf =>
    forRange B.cart_size buf fun n buf => do
      let a ← rd A.cartList m
      let b ← rd B.cartList n
      let v ← val a b
      wr buf (m * B.cart_size + n) v

/-- `overlap_integrals_shell_pair_obara_saika`, overlap.c:66-138. -/
noncomputable def overlapPrim (A B : Shell) (alphaA alphaB : ℝ) (buf : List ℝ) : Outcome (List ℝ) := do
  let nA := gaussianNormFactor A.L 0 0 alphaA
  let nB := gaussianNormFactor B.L 0 0 alphaB
  let S ← fillS maxBasisL A.L B.L alphaA alphaB A.origin B.origin
  storePairs A B (fun a b => do
    let sx ← tget maxBasisL S 0 a.1 b.1
    let sy ← tget maxBasisL S 1 a.2.1 b.2.1
    let sz ← tget maxBasisL S 2 a.2.2 b.2.2
    .ok (nA * nB * sx * sy * sz)) buf

/-- `memset(matrix, 0, n * sizeof(double))`. -/
noncomputable def memset0 (n : Nat) (m : List ℝ) : Outcome (List ℝ) :=
  forRange n m fun i m => wr m i 0

/-- The contraction loop shared by overlap.c:39-63 and kinetic.c:38-62: the primitive routine `prim` overwrites the
buffer, which is accumulated with `daxpy`. -/
noncomputable def contract (A B : Shell) (prim : ℝ → ℝ → List ℝ → Outcome (List ℝ)) (out : List ℝ) :
    Outcome (List ℝ) := do
  let n := A.cart_size * B.cart_size
  let buf := List.replicate n (0 : ℝ)
  let out ← memset0 n out
  let r ← forRange A.num (buf, out) fun i (st : List ℝ × List ℝ) =>
    forRange B.num st fun j (st : List ℝ × List ℝ) => do
      let ai ← rd A.alpha i
      let aj ← rd B.alpha j
      let ci ← rd A.coeffs i
      let cj ← rd B.coeffs j
      let buf ← prim ai aj st.1
      let out ← daxpy n (ci * cj) buf st.2
      .ok (buf, out)
  .ok r.2

/-- `libgrpp_overlap_integrals`, overlap.c:39-63. -/
noncomputable def overlapIntegrals (A B : Shell) (out : List ℝ) : Outcome (List ℝ) :=
  contract A B (overlapPrim A B) out

/-- The loops filling `D2`, kinetic.c:129-145 (reads `S[3][12][12]`, writes `D2[3][10][10]`). -/
noncomputable def fillD2 (iMax jMax : Nat) (alphaA : ℝ) (S : Table) : Outcome Table :=
  forCoord Table.uninit fun c D =>
    forRange (iMax + 1) D fun i D =>
      forRange (jMax + 1) D fun j D => do
        let s1 ← tget (maxBasisL + 2) S c (i + 2) j
        let acc := 0 + 4 * alphaA * alphaA * s1
        let s2 ← tget (maxBasisL + 2) S c i j
        let acc := acc - 2 * alphaA * (2 * (i : ℝ) + 1) * s2
        let acc ← if i ≥ 2 then do
            let s3 ← tget (maxBasisL + 2) S c (i - 2) j
            .ok (acc + (i : ℝ) * ((i : ℝ) - 1) * s3)
          else .ok acc
        tset maxBasisL D c i j acc

/-- `kinetic_energy_integrals_shell_pair_obara_saika`, kinetic.c:65-162. -/
noncomputable def kineticPrim (A B : Shell) (alphaA alphaB : ℝ) (buf : List ℝ) : Outcome (List ℝ) := do
  let nA := gaussianNormFactor A.L 0 0 alphaA
  let nB := gaussianNormFactor B.L 0 0 alphaB
  let S ← fillS (maxBasisL + 2) (A.L + 2) (B.L + 2) alphaA alphaB A.origin B.origin
  let D2 ← fillD2 A.L B.L alphaA S
  storePairs A B (fun a b => do
    let dx ← tget maxBasisL D2 0 a.1 b.1
    let dy ← tget maxBasisL D2 1 a.2.1 b.2.1
    let dz ← tget maxBasisL D2 2 a.2.2 b.2.2
    let sx ← tget (maxBasisL + 2) S 0 a.1 b.1
    let sy ← tget (maxBasisL + 2) S 1 a.2.1 b.2.1
    let sz ← tget (maxBasisL + 2) S 2 a.2.2 b.2.2
    .ok (-0.5 * nA * nB * (dx * sy * sz + sx * dy * sz + sx * sy * dz))) buf

/-- `libgrpp_kinetic_energy_integrals`, kinetic.c:38-62. -/
noncomputable def kineticIntegrals (A B : Shell) (out : List ℝ) : Outcome (List ℝ) :=
  contract A B (kineticPrim A B) out

/-- The loops filling `D1`, momentum.c:151-166 (reads `S[3][11][11]`, writes `D1[3][10][10]`). -/
noncomputable def fillD1 (iMax jMax : Nat) (alphaA : ℝ) (S : Table) : Outcome Table :=
  forCoord Table.uninit fun c D =>
    forRange (iMax + 1) D fun i D =>
      forRange (jMax + 1) D fun j D => do
        let s1 ← tget (maxBasisL + 1) S c (i + 1) j
        let acc := 0 + 2 * alphaA * s1
        let acc ← if i ≥ 1 then do
            let s2 ← tget (maxBasisL + 1) S c (i - 1) j
            .ok (acc - (i : ℝ) * s2)
          else .ok acc
        tset maxBasisL D c i j acc

/-- The value stored by `momentum_integrals_shell_pair_obara_saika` for direction `k`, momentum.c:178-180: the factor
of direction `k` is taken from `D1`, the two others from `S`. -/
noncomputable def momentumVal (nA nB : ℝ) (S D1 : Table) (k : Fin 3) (a b : Comp) : Outcome ℝ := do
  let fx ← if k = 0 then tget maxBasisL D1 0 a.1 b.1 else tget (maxBasisL + 1) S 0 a.1 b.1
  let fy ← if k = 1 then tget maxBasisL D1 1 a.2.1 b.2.1 else tget (maxBasisL + 1) S 1 a.2.1 b.2.1
  let fz ← if k = 2 then tget maxBasisL D1 2 a.2.2 b.2.2 else tget (maxBasisL + 1) S 2 a.2.2 b.2.2
  .ok (-nA * nB * fx * fy * fz)

/-- `momentum_integrals_shell_pair_obara_saika`, momentum.c:85-183, restricted to the output matrix of direction
`k` (0, 1, 2 for x, y, z). Simplification: in C one pass over the component pairs stores into three distinct
matrices; the three stores are independent, so the model makes one pass per matrix. -/
noncomputable def momentumPrim (k : Fin 3) (A B : Shell) (alphaA alphaB : ℝ) (buf : List ℝ) :
    Outcome (List ℝ) := do
  let nA := gaussianNormFactor A.L 0 0 alphaA
  let nB := gaussianNormFactor B.L 0 0 alphaB
  let S ← fillS (maxBasisL + 1) (A.L + 1) (B.L + 1) alphaA alphaB A.origin B.origin
  let D1 ← fillD1 A.L B.L alphaA S
  storePairs A B (momentumVal nA nB S D1 k) buf

/-- `libgrpp_momentum_integrals`, momentum.c:44-82, output matrix of direction `k` (see `momentumPrim`). -/
noncomputable def momentumIntegrals (k : Fin 3) (A B : Shell) (out : List ℝ) : Outcome (List ℝ) :=
  contract A B (momentumPrim k A B) out

end Libgrpp
