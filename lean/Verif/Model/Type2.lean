import Verif.Model.RadialLocal
import Verif.Model.GaussMoment
import Verif.Model.Potential
import Verif.Model.LMatrix

/-! # Model of `libgrpp/type2_integrals.c`, `libgrpp/spin_orbit_integrals.c` and the rest of `libgrpp/radial_type2_integral.c` -/

namespace Libgrpp

/-- What `screening_radial_type2` (screening.c:193-248) answers: `none` when it does not return `EXIT_SUCCESS`, otherwise the
estimate. The arguments are the shells and the potential after shrinking, `CA_2`, `CB_2` and the key `(n, lambda1, lambda2)`. The
routine is modelled in Model/Screening (`screenType2`); it has no effect besides its answer, and the theorems which do not mention
`screenType2` hold for every function in its place. -/
abbrev Screen := Shell → Shell → Potential → ℝ → ℝ → Nat × Nat × Nat → Option ℝ

/-- What the routines below depend on besides their arguments: the flag of `libgrpp_is_initialized`, the parameters of the library,
the Bessel table, the Cartesian generator and the screening routine. -/
structure Lib (G : Type) where
  init : Bool
  prm : LibParams G
  bt : BesselTab
  gen : Nat → List Comp
  screen : Screen

/-- `radial_type2_integrand_fun_contracted`, radial_type2_integral.c:463-480, with the values of `k` of lines 483-488. -/
noncomputable def type2F (bt : BesselTab) (lam : Nat) (CA : ℝ) (s : Shell) (r : ℝ) : Outcome ℝ :=
  forRange s.num 0 fun i F => do
    let a ← rd s.alpha i
    let c ← rd s.coeffs i
    let b ← besselScaled bt lam (2 * a * CA * r)
    .ok (F + c * Real.exp (-a * ((r - CA) * (r - CA))) * b)

/-- The integrand without the weight, `pot_values[i] * F1[i] * F2[i] * r_N[i]`, radial_type2_integral.c:285-287, from the arrays
filled in lines 356-384 and 405-441; the key is `(n, lambda1, lambda2)`. The Bessel routine is total for the orders that occur (see
`radialType2`), and the other reads are inside of the arrays of the copies. -/
noncomputable def type2Integrand (bt : BesselTab) (pot : Potential) (CA CB : ℝ) (bra ket : Shell) (key : Nat × Nat × Nat) (r : ℝ) : ℝ :=
  (potentialValue pot r).getD 0 * (type2F bt key.2.1 CA bra r).getD 0 * (type2F bt key.2.2 CB ket r).getD 0 * r ^ key.1

/-- The branch for one centre, radial_type2_integral.c:126-155. -/
noncomputable def oneCentre (nmax : Nat) (pot : Potential) (bra ket : Shell) (table : List ℝ) : Outcome (List ℝ) :=
  forRange bra.num table fun i t => do
    let a ← rd bra.alpha i
    let c ← rd bra.coeffs i
    let ci := c * gaussianNormFactor bra.L 0 0 a
    forRange ket.num t fun j t => do
      let b ← rd ket.alpha j
      let c ← rd ket.coeffs j
      let cj := c * gaussianNormFactor ket.L 0 0 b
      forRange pot.num t fun k t => do
        let eta ← rd pot.alpha k
        let ni ← rd pot.powers k
        let ck ← rd pot.coeffs k
        let p := a + b + eta
        let factor := ci * cj * ck
        forRange (nmax + 1) t fun n t => do
          let v ← gaussMoment (ni + n) p
          let old ← rd t n
          wr t n (old + factor * v)

/-- Copy, shrink and normalise, radial_type2_integral.c:166-168, 170-172. -/
noncomputable def preparedShell (gen : Nat → List Comp) (s : Shell) : Outcome Shell := do
  let s ← shellDeepCopy gen s
  let s ← shellShrink s
  shellMultNormcoef s

/-- `tabulate_radial_type2_integrals`, radial_type2_integral.c:101-208. The orders of the Bessel functions go up to `l1max` and
`l2max`; a table or an asymptotic coefficient outside its array is undefined behaviour for orders `≥ 50` (simplification: for the
orders from 50 to 59 only when some argument exceeds 16). -/
noncomputable def radialType2 {G : Type} (lib : Lib G) (l1max l2max nmax : Nat) (CA2 CB2 : ℝ) (pot : Potential) (bra ket : Shell) :
    Outcome (List ℝ) :=
  if CA2 < 1e-14 ∧ CB2 < 1e-14 then
    oneCentre nmax pot bra ket (List.replicate ((l1max + 1) * (l2max + 1) * (nmax + 1)) 0)
  else do
    let pot ← shrinkPotential pot
    let bra ← preparedShell lib.gen bra
    let ket ← preparedShell lib.gen ket
    Outcome.valid (l1max < 50 ∧ l2max < 50)
    tabulateType2 lib.prm (type2Integrand lib.bt pot (Real.sqrt CA2) (Real.sqrt CB2) bra ket) (lib.screen bra ket pot CA2 CB2)
      l1max l2max nmax

/-- Values of the real spherical harmonics, `double rsh_values[rows][cols]`: type2_integrals.c:107-113 and
spin_orbit_integrals.c:109-115, one of the two arrays. What the array contains before is irrelevant. -/
noncomputable def rshRows (rows cols lmax : Nat) (k : Point) : Outcome (List (List ℝ)) :=
  forRange (lmax + 1) (List.replicate rows (List.replicate cols 0)) fun lam t => do
    let row ← rd t lam
    let row ← evalRshArray lam k row
    wr t lam row

/-- The loops over `a, …, f`, `lambda_1` and `lambda_2` for one pair of components, type2_integrals.c:129-205,
spin_orbit_integrals.c:143-231. `ang` is the angular sum; its values are numbers or triples. `thrF`, `thrQ` are the thresholds for
the factor and for the radial integral. -/
noncomputable def semilocalElement {V : Type} [AddCommMonoid V] [SMul ℝ V] (thrF thrQ : ℝ) (L l2max nmax : Nat) (CA CB : Point)
    (table : List ℝ) (ang : Nat → Comp → Nat → Comp → Outcome V) (x y : Comp) : Outcome V :=
  forMono thrF CA CB x y 0 fun p q factor gamma => do
    let P := p.1 + p.2.1 + p.2.2
    let P' := q.1 + q.2.1 + q.2.2
    let sum ← forRange (L + P + 1 - (L - P)) (0 : V) fun i1 sum =>
      let l1 := L - P + i1
      if (L + P - l1) % 2 ≠ 0 then .ok sum
      else forRange (L + P' + 1 - (L - P')) sum fun i2 sum =>
        let l2 := L - P' + i2
        if (L + P' - l2) % 2 ≠ 0 then .ok sum
        else do
          let Q ← getType2 l2max nmax table l1 l2 (P + P')
          if |Q| < thrQ then .ok sum
          else do
            let g ← ang l1 p l2 q
            .ok (sum + Q • g)
    .ok (gamma + factor • sum)

/-- `type2_angular_sum`, type2_integrals.c:219-243. -/
noncomputable def type2AngularSum (L : Nat) (rA rB : List (List ℝ)) (l1 : Nat) (p : Comp) (l2 : Nat) (q : Comp) : Outcome ℝ := do
  let vA ← rd rA l1
  let vB ← rd rB l2
  forRange (2 * L + 1) 0 fun mi sum => do
    let w1 ← angType2 l1 L ((mi : ℤ) - L) p.1 p.2.1 p.2.2 vA
    if |w1| < 1e-16 then .ok sum
    else do
      let w2 ← angType2 l2 L ((mi : ℤ) - L) q.1 q.2.1 q.2.2 vB
      .ok (sum + w1 * w2)

/-- `type3_angular_sum`, spin_orbit_integrals.c:252-288. -/
noncomputable def type3AngularSum (L : Nat) (M : LMat) (rA rB : List (List ℝ)) (l1 : Nat) (p : Comp) (l2 : Nat) (q : Comp) :
    Outcome Point := do
  let vA ← rd rA l1
  let vB ← rd rB l2
  forRange (2 * L + 1) 0 fun i1 sum => forRange (2 * L + 1) sum fun i2 sum => do
    let lx ← rd M.x ((2 * L + 1) * i1 + i2)
    let ly ← rd M.y ((2 * L + 1) * i1 + i2)
    let lz ← rd M.z ((2 * L + 1) * i1 + i2)
    if |lx| < zeroThresh ∧ |ly| < zeroThresh ∧ |lz| < zeroThresh then .ok sum
    else do
      let w1 ← angType2 l1 L ((i1 : ℤ) - L) p.1 p.2.1 p.2.2 vA
      if |w1| < zeroThresh then .ok sum
      else do
        let w2 ← angType2 l2 L ((i2 : ℤ) - L) q.1 q.2.1 q.2.2 vB
        .ok (sum + ![w1 * w2 * lx, w1 * w2 * ly, w1 * w2 * lz])

/-- `libgrpp_type2_integrals`, type2_integrals.c:34-211. `L` is `potential->L`, which is not negative for a semilocal term. -/
noncomputable def type2Integrals {G : Type} (lib : Lib G) (A B : Shell) (C : Point) (pot : Potential) (out : List ℝ) :
    Outcome (List ℝ) := do
  Outcome.assert (lib.init = true)
  let out ← memset0 (A.cart_size * B.cart_size) out
  let L := pot.L.toNat
  let LA ← firstDegree A
  let LB ← firstDegree B
  let CA : Point := fun i => C i - A.origin i
  let CB : Point := fun i => C i - B.origin i
  let CA2 := CA 0 * CA 0 + CA 1 * CA 1 + CA 2 * CA 2
  let CB2 := CB 0 * CB 0 + CB 1 * CB 1 + CB 2 * CB 2
  let aA ← rd A.alpha 0
  let aB ← rd B.alpha 0
  let kA : Point := fun i => -2 * (aA * CA i)
  let kB : Point := fun i => -2 * (aB * CB i)
  let table ← radialType2 lib (L + LA) (L + LB) (LA + LB) CA2 CB2 pot A B
  let lmax := max (max (L + LA) (L + LB)) L
  let rA ← rshRows 90 180 lmax kA
  let rB ← rshRows 90 180 lmax kB
  storePairs A B (fun x y => do
    let v ← semilocalElement 1e-13 1e-16 L (L + LB) (LA + LB) CA CB table (type2AngularSum L rA rB) x y
    .ok (v * (16 * Real.pi * Real.pi))) out

/-- `libgrpp_spin_orbit_integrals`, spin_orbit_integrals.c:41-245. -/
noncomputable def spinOrbitIntegrals {G : Type} (lib : Lib G) (A B : Shell) (C : Point) (pot : Potential) (out : LMat) : Outcome LMat := do
  Outcome.assert (lib.init = true)
  let out ← lmatZero (A.cart_size * B.cart_size) out
  let L := pot.L.toNat
  let LA ← firstDegree A
  let LB ← firstDegree B
  let CA : Point := fun i => C i - A.origin i
  let CB : Point := fun i => C i - B.origin i
  let CA2 := CA 0 * CA 0 + CA 1 * CA 1 + CA 2 * CA 2
  let CB2 := CB 0 * CB 0 + CB 1 * CB 1 + CB 2 * CB 2
  let aA ← rd A.alpha 0
  let aB ← rd B.alpha 0
  let kA : Point := fun i => -2 * (aA * CA i)
  let kB : Point := fun i => -2 * (aB * CB i)
  let n := (2 * L + 1) * (2 * L + 1)
  let M ← lmatRsh L ⟨List.replicate n 0, List.replicate n 0, List.replicate n 0⟩
  let lmax := max (max (L + LA) (L + LB)) L
  let rA ← rshRows 30 61 lmax kA
  let rB ← rshRows 30 61 lmax kB
  let table ← radialType2 lib (L + LA) (L + LB) (LA + LB) CA2 CB2 pot A B
  forRange A.cart_size out fun m out =>
    forRange B.cart_size out fun n out => do
      let x ← rd A.cartList m
      let y ← rd B.cartList n
      let v ← semilocalElement zeroThresh zeroThresh L (L + LB) (LA + LB) CA CB table (type3AngularSum L M rA rB) x y
      lmatSet out (m * B.cart_size + n) (v 0 * (16 * Real.pi * Real.pi)) (v 1 * (16 * Real.pi * Real.pi))
        (v 2 * (16 * Real.pi * Real.pi))

end Libgrpp
