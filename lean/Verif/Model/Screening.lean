import Verif.Model.Type2
import Verif.Model.NuclearModels

/-! # Model of `libgrpp/screening.c`: estimates of the type-2 radial integrals

`none` stands for `EXIT_FAILURE` and also for an estimate which is not a finite number: the caller
(radial_type2_integral.c:277, 308) treats them alike, because all its comparisons with a NaN are false.
A quotient with denominator zero is infinite or NaN; an infinite `r0` is followed by a NaN in the next round of the loop (or by the limit on the
number of rounds), so that every quotient with denominator zero ends as `none`. The same holds for the root of a negative number and, for
`p ≤ 0`, for `sqrt(M_PI / p)`. The orders of the Bessel functions are those of `radialType2`, which are checked there.
For `screening_radial_type1` (screening.c:73-186) see Model/Screening1. -/

namespace Libgrpp

/-- A quotient of doubles; `none` if it is not finite. -/
noncomputable def quotC (x y : ℝ) : Option ℝ := if y = 0 then none else some (x / y)

/-- `sqrt`; `none` if it is NaN. -/
noncomputable def rootC (x : ℝ) : Option ℝ := if x < 0 then none else some (Real.sqrt x)

/-- `K1_ratio`, `K2_ratio`, screening.c:350-366. -/
noncomputable def screenRatio (bt : BesselTab) (lam : Nat) (x : ℝ) : Option ℝ :=
  if lam = 0 then quotC ((besselScaled bt 1 x).getD 0) ((besselScaled bt 0 x).getD 0)
  else quotC ((besselScaled bt (lam - 1) x).getD 0) ((besselScaled bt lam x).getD 0)

/-- `screening_type2_equation_for_maximum`, screening.c:348-378. -/
noncomputable def screenNext (bt : BesselTab) (n : ℤ) (lam1 lam2 : Nat) (p k1 k2 r : ℝ) : Option ℝ := do
  let K1 ← screenRatio bt lam1 (k1 * r)
  let K2 ← screenRatio bt lam2 (k2 * r)
  let a := K1 * (k1 * r) + K2 * (k2 * r) + (n : ℝ)
  let a := if 0 < lam1 then a - lam1 - 1 else a
  let a := if 0 < lam2 then a - lam2 - 1 else a
  rootC (a / (2 * p))

/-- The loop of screening.c:316-329 with `steps` evaluations left before `EXIT_FAILURE`. -/
noncomputable def screenLoop (next : ℝ → Option ℝ) : Nat → ℝ → Option ℝ
  | 0, _ => none
  | steps + 1, r0 => do
    let r ← next r0
    if |r - r0| > 1e-2 then screenLoop next steps r else some r

/-- The envelope, screening.c:334-339. -/
noncomputable def screenValue (bt : BesselTab) (n : ℤ) (lam1 lam2 : Nat) (CA CB a b k1 k2 eta p r0 : ℝ) : ℝ :=
  Real.sqrt (Real.pi / p) * r0 ^ n * (besselScaled bt lam1 (k1 * r0)).getD 0 * (besselScaled bt lam2 (k2 * r0)).getD 0 *
    Real.exp (-eta * r0 * r0 - a * (r0 - CA) * (r0 - CA) - b * (r0 - CB) * (r0 - CB)) * 0.5 * (1 + erfC (Real.sqrt p * r0))

/-- `screening_radial_type2_integral_primitive`, screening.c:272-342. The counter reaches 5 before the fifth evaluation. Simplification: a
`gaussian_integral` which does not return (moments of even order above 30) counts as zero. -/
noncomputable def screenPrimitive (bt : BesselTab) (lam1 lam2 : Nat) (n : ℤ) (CA2 CB2 a b k1 k2 eta : ℝ) : Option ℝ :=
  if 1 ≤ lam1 ∧ |k1| ≤ zeroThresh then some 0
  else if 1 ≤ lam2 ∧ |k2| ≤ zeroThresh then some 0
  else
    let p := a + b + eta
    let CA := Real.sqrt CA2
    let CB := Real.sqrt CB2
    if (lam1 = 0 ∧ lam2 = 0) ∧ (|k1| ≤ zeroThresh ∧ |k2| ≤ zeroThresh) then
      some (Real.exp (-a * CA * CA - b * CB * CB) * (gaussMoment n p).getD 0)
    else if p ≤ 0 then none
    else do
      let r0 ← screenLoop (screenNext bt n lam1 lam2 p k1 k2) 4 ((a * CA + b * CB) / p)
      some (screenValue bt n lam1 lam2 CA CB a b k1 k2 eta p r0)

/-- A loop `for (int i = 0; i < n; i++)` which is left when the answer is `none`. -/
noncomputable def optRange (n : Nat) (s : ℝ) (body : Nat → ℝ → Option ℝ) : Option ℝ := (List.range n).foldlM (fun s i => body i s) s

/-- `screening_radial_type2`, screening.c:193-248. The reads are inside of the arrays of the copies. -/
noncomputable def screenType2 (bt : BesselTab) : Screen := fun bra ket pot CA2 CB2 key =>
  optRange bra.num 0 fun i s =>
    let a := bra.alpha.getD i 0
    let ci := bra.coeffs.getD i 0
    optRange ket.num s fun j s =>
      let b := ket.alpha.getD j 0
      let cj := ket.coeffs.getD j 0
      optRange pot.num s fun k s => do
        let v ← screenPrimitive bt key.2.1 key.2.2 ((key.1 : ℤ) + pot.powers.getD k 0) CA2 CB2 a b (2 * a * Real.sqrt CA2) (2 * b * Real.sqrt CB2)
          (pot.alpha.getD k 0)
        some (s + ci * cj * pot.coeffs.getD k 0 * v)

end Libgrpp
