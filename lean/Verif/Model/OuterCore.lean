import Verif.Model.Mmd
import Verif.Model.LMatrix
import Verif.Model.SphericalHarmonics

/-! # Model of `libgrpp/outercore_integrals.c`

Shells are values here. `oc_shells` of the call are distinct objects from `shell_A` and `shell_B`. The outputs are numbered: `0` is `arep`,
`1`, `2`, `3` are `esop_x`, `esop_y`, `esop_z`. -/

namespace Libgrpp

/-- `oc_shell->origin[k] = C[k]` for `k = 0, 1, 2`, outercore_integrals.c:108-110, 162-164, 297-302. -/
def bindOrigin (C : Point) (s : Shell) : Shell := { s with origin := ![C 0, C 1, C 2] }

/-- `ang_norm_factor`, outercore_integrals.c:545-553. -/
noncomputable def angNormFactor (lx ly lz : Nat) : Outcome ℝ := do
  let L := lx + ly + lz
  let d ← doubleFactorialC (2 * (L : Int) + 1)
  .ok (1 / (2 * Real.sqrt Real.pi) * Real.sqrt d)

/-- `S_lm_coef`, outercore_integrals.c:171-180, 323-332: the transformation from Cartesian to spherical components. -/
noncomputable def slmCoef (L : Nat) (s : Shell) : Outcome (List ℝ) :=
  forRange (2 * L + 1) (List.replicate ((2 * L + 1) * s.cart_size) 0) fun mi S =>
    forRange s.cart_size S fun icart S => do
      let c ← rd s.cartList icart
      let u ← sphCoef L ((mi : Int) - L) c.1 c.2.1 c.2.2
      let f ← angNormFactor c.1 c.2.1 c.2.2
      wr S (s.cart_size * mi + icart) (u / f)

/-- `transform_to_sph_basis_ket`, outercore_integrals.c:508-523. -/
noncomputable def transformKet (dimBra dimCart dimSph : Nat) (Ain Aout S : List ℝ) : Outcome (List ℝ) :=
  forRange dimBra Aout fun i Aout =>
    forRange dimSph Aout fun j Aout => do
      let s ← forRange dimCart (0 : ℝ) fun icart s => do
        let u ← rd S (dimCart * j + icart)
        let a ← rd Ain (i * dimCart + icart)
        .ok (s + u * a)
      wr Aout (i * dimSph + j) s

/-- `transform_to_sph_basis_bra`, outercore_integrals.c:526-542. -/
noncomputable def transformBra (dimCart dimSph dimKet : Nat) (Ain Aout S : List ℝ) : Outcome (List ℝ) :=
  forRange dimKet Aout fun j Aout =>
    forRange dimSph Aout fun i Aout => do
      let s ← forRange dimCart (0 : ℝ) fun icart s => do
        let u ← rd S (dimCart * i + icart)
        let a ← rd Ain (icart * dimKet + j)
        .ok (s + u * a)
      wr Aout (i * dimKet + j) s

/-- `arep_factor`, outercore_integrals.c:224, 357; `J2` is `oc_potential->J`. -/
noncomputable def arepFactor (L : Nat) (J2 : Int) : ℝ :=
  if (J2 : ℝ) / 2 < L then (L : ℝ) / (2 * L + 1) else ((L : ℝ) + 1) / (2 * L + 1)

/-- `esop_factor`, outercore_integrals.c:255, 379. -/
noncomputable def esopFactor (L : Nat) (J2 : Int) : ℝ := if (J2 : ℝ) / 2 < L then -2 / (2 * L + 1) else 2 / (2 * L + 1)

/-- The four calls of `libgrpp_daxpy`, outercore_integrals.c:228, 256-258, 360, 380-382. The scalar matrix is updated before the
spin-orbit ones are computed; the order does not matter as the arrays are distinct. -/
noncomputable def ocAdd (n : Nat) (wA wS : ℝ) (arep : List ℝ) (so : Fin 3 → List ℝ) (out : Fin 4 → List ℝ) : Outcome (Fin 4 → List ℝ) := do
  let a ← daxpy n wA arep (out 0)
  let x ← daxpy n wS (so 0) (out 1)
  let y ← daxpy n wS (so 1) (out 2)
  let z ← daxpy n wS (so 2) (out 3)
  .ok ![a, x, y, z]

/-- The matrices of angular momentum, outercore_integrals.c:235-236, 367-368. -/
noncomputable def ocL (L : Nat) : Outcome (Fin 3 → List ℝ) := do
  let n := (2 * L + 1) * (2 * L + 1)
  let M ← lmatRsh L ⟨List.replicate n 0, List.replicate n 0, List.replicate n 0⟩
  .ok ![M.x, M.y, M.z]

/-- `libgrpp_outercore_potential_integrals_part_1`, outercore_integrals.c:147-270, after the stores to `oc_shell->origin` in lines 162-164, with
the shell `s` as it is in memory then. -/
noncomputable def ocPart1Seen (sf : SpecFun) (init : Bool) (A B : Shell) (C : Point) (pot : Potential) (s : Shell) (out : Fin 4 → List ℝ) :
    Outcome (Fin 4 → List ℝ) := do
  let L := s.L
  let nA := A.cart_size
  let nB := B.cart_size
  let n := s.cart_size
  let d := 2 * L + 1
  let S ← slmCoef L s
  let SBc ← overlapIntegrals s B (List.replicate (n * nB) 0)
  let SAc ← overlapIntegrals A s (List.replicate (nA * n) 0)
  let SA ← transformKet nA n d SAc (List.replicate (nA * d) 0) S
  let SB ← transformBra n d nB SBc (List.replicate (d * nB) 0) S
  let UBc ← type1Integrals sf init s B C (some pot) (List.replicate (n * nB) 0)
  let UAc ← type1Integrals sf init A s C (some pot) (List.replicate (nA * n) 0)
  let UA ← transformKet nA n d UAc (List.replicate (nA * d) 0) S
  let UB ← transformBra n d nB UBc (List.replicate (d * nB) 0) S
  let buf ← multiplyMatrices nA nB d SA UB (List.replicate (nA * nB) 0)
  let arep ← multiplyMatrices nA nB d UA SB buf
  let M ← ocL L
  let so ← forCoord ((List.replicate (d * max nA nB) (0 : ℝ), fun _ => List.replicate (nA * nB) (0 : ℝ)) : List ℝ × (Fin 3 → List ℝ))
    fun c st => do
      let b ← memset0 (d * nB) st.1
      let b ← multiplyMatrices d nB d (M c) SB b
      let so ← multiplyMatrices nA nB d UA b (st.2 c)
      let b ← memset0 (d * nA) b
      let b ← multiplyMatrices nA d d SA (M c) b
      let so ← multiplyMatrices nA nB d b UB so
      .ok (b, Function.update st.2 c so)
  ocAdd (nA * nB) (arepFactor L pot.J) (esopFactor L pot.J) arep so.2 out

/-- `libgrpp_outercore_potential_integrals_part_1`, outercore_integrals.c:147-270. The stores to `oc_shell->origin` repeat those of the
caller and are modelled by the argument `s`. -/
noncomputable def ocPart1 (sf : SpecFun) (init : Bool) (A B : Shell) (C : Point) (pot : Potential) (s : Shell) (out : Fin 4 → List ℝ) :
    Outcome (Fin 4 → List ℝ) := ocPart1Seen sf init A B C pot (bindOrigin C s) out

/-- `analytic_one_center_rpp_integral_primitive`, outercore_integrals.c:454-465. `/` of C truncates towards zero. -/
noncomputable def oneCenterPrim (L : Int) (a1 a2 : ℝ) (n : Int) (zeta : ℝ) : Outcome ℝ :=
  let a := a1 + a2 + zeta
  if Int.tmod n 2 = 0 then do
    let k := L + Int.tdiv n 2
    let d ← doubleFactorialC (2 * k - 1)
    .ok (d / ((2:ℝ) ^ (k + 1) * a ^ k) * Real.sqrt (Real.pi / a))
  else do
    let k := L + Int.tdiv (n - 1) 2
    let d ← factorialC k
    .ok (d / (2 * a ^ (k + 1)))

/-- `factors`, outercore_integrals.c:476-497: numerators over powers of ten. -/
def gtoFactors : List (Nat × Nat) :=
  [(25264751109842587, 16), (29173221708553032, 16), (26093322745198853, 16), (19724697960897537, 16), (13149798640598356, 16),
   (79296269381073192, 17), (43985656185609934, 17), (22714095183849672, 17), (11017954545099481, 17), (50553842554329785, 18),
   (22063505731056757, 18), (92011179391124215, 19), (36804471756449694, 19), (14166047783978804, 19), (52611380677564405, 20),
   (18898565833279173, 20), (65796360823633550, 21), (22243229718298637, 21), (73135288801774484, 22), (23422037547660024, 22)]

/-- `radial_gto_norm_factor`, outercore_integrals.c:472-500. -/
noncomputable def radialGtoNorm (L : Int) (alpha : ℝ) : Outcome ℝ := do
  let f ← rdInt gtoFactors L
  .ok ((f.1 : ℝ) / 10 ^ f.2 * alpha ^ (0.75 + (L : ℝ) / 2))

/-- `analytic_one_center_rpp_integral_contracted`, outercore_integrals.c:418-446. -/
noncomputable def oneCenterContracted (bra ket : Shell) (pot : Potential) : Outcome ℝ :=
  forRange bra.num 0 fun i sum => do
    let ci ← rd bra.coeffs i
    let ai ← rd bra.alpha i
    let Ni ← radialGtoNorm pot.L ai
    forRange ket.num sum fun j sum => do
      let cj ← rd ket.coeffs j
      let aj ← rd ket.alpha j
      let Nj ← radialGtoNorm pot.L aj
      let factor := Ni * Nj * ci * cj
      forRange pot.num sum fun k sum => do
        let ck ← rd pot.coeffs k
        let zeta ← rd pot.alpha k
        let n ← rd pot.powers k
        let u ← oneCenterPrim pot.L ai aj n zeta
        .ok (sum + factor * ck * u)

/-- `calculate_delta_integral`, outercore_integrals.c:397-412. -/
noncomputable def deltaIntegral (p1 : Potential) (s1 : Shell) (p2 : Potential) (s2 : Shell) : Outcome ℝ :=
  if p1.L ≠ p2.L ∨ p1.J ≠ p2.J then .ok 0
  else do
    let U1 ← oneCenterContracted s1 s2 p1
    let U2 ← oneCenterContracted s1 s2 p2
    .ok (0.5 * (U1 + U2))

/-- `libgrpp_outercore_potential_integrals_part_2`, outercore_integrals.c:277-390. `L` is an `int`; a negative value would be the size of
an array and is undefined behaviour here. -/
noncomputable def ocPart2 (A B : Shell) (C : Point) (p1 : Potential) (s1 : Shell) (p2 : Potential) (s2 : Shell) (out : Fin 4 → List ℝ) :
    Outcome (Fin 4 → List ℝ) :=
  if p1.L ≠ p2.L then .ok out
  else if p1.J ≠ p2.J then .ok out
  else do
    let s1 := bindOrigin C s1
    let s2 := bindOrigin C s2
    let delta ← deltaIntegral p1 s1 p2 s2
    Outcome.valid (0 ≤ p1.L)
    let L := p1.L.toNat
    let nA := A.cart_size
    let nB := B.cart_size
    let n := s1.cart_size
    let d := 2 * L + 1
    let S ← slmCoef L s1
    let SBc ← overlapIntegrals s2 B (List.replicate (n * nB) 0)
    let SAc ← overlapIntegrals A s1 (List.replicate (nA * n) 0)
    let SA ← transformKet nA n d SAc (List.replicate (nA * d) 0) S
    let SB ← transformBra n d nB SBc (List.replicate (d * nB) 0) S
    let arep ← multiplyMatrices nA nB d SA SB (List.replicate (nA * nB) 0)
    let M ← ocL L
    let so ← forCoord ((List.replicate (d * nB) (0 : ℝ), fun _ => List.replicate (nA * nB) (0 : ℝ)) : List ℝ × (Fin 3 → List ℝ))
      fun c st => do
        let b ← memset0 (d * nB) st.1
        let b ← multiplyMatrices d nB d (M c) SB b
        let so ← multiplyMatrices nA nB d SA b (st.2 c)
        .ok (b, Function.update st.2 c so)
    ocAdd (nA * nB) (-1 * delta * arepFactor L p1.J) (-1 * delta * esopFactor L p1.J) arep so.2 out

/-- `libgrpp_outercore_potential_integrals`, outercore_integrals.c:83-139. The result contains the caller's list of potentials and shells
after the call. -/
noncomputable def outerCore (sf : SpecFun) (init : Bool) (A B : Shell) (C : Point) (oc : List (Potential × Shell)) (out : Fin 4 → List ℝ) :
    Outcome (List (Potential × Shell) × (Fin 4 → List ℝ)) := do
  Outcome.assert (init = true)
  let n := A.cart_size * B.cart_size
  let o0 ← memset0 n (out 0)
  let o1 ← memset0 n (out 1)
  let o2 ← memset0 n (out 2)
  let o3 ← memset0 n (out 3)
  let oc := oc.map fun p => (p.1, bindOrigin C p.2)
  let out ← forRange oc.length (![o0, o1, o2, o3] : Fin 4 → List ℝ) fun i out => do
    let p ← rd oc i
    ocPart1 sf init A B C p.1 p.2 out
  let out ← forRange oc.length out fun i out => forRange oc.length out fun j out => do
    let p ← rd oc i
    let q ← rd oc j
    ocPart2 A B C p.1 p.2 q.1 q.2 out
  .ok (oc, out)

end Libgrpp
