import Verif.Model.Screening
import Verif.Model.SpecSemilocal

/-! # Model of `libgrpp/screening.c`: estimates of the type-1 radial integrals

`screening_radial_type1` is declared in screening.h; its only call (radial_type1_integral.c:269-287) is inside of a comment.

The outer `none` stands for `EXIT_FAILURE`; `some none` for `EXIT_SUCCESS` with an estimate which is not a finite number. A comparison with a NaN is
false, so that the loop is left with success when `r0` becomes a NaN. Simplification: a quotient with denominator zero counts as a NaN (with `k * r = 0`
it is one, or is multiplied by zero; otherwise an infinite `r0` is followed by a NaN in the next round or by the limit on the number of rounds). -/

namespace Libgrpp

/-- `screening_type1_equation_for_maximum`, screening.c:168-184; `none` if it is not a number. -/
noncomputable def screenNext1 (bt : BesselTab) (n : ℤ) (lam : Nat) (p k r : ℝ) : Option ℝ := do
  let K ← screenRatio bt lam (k * r)
  let a := (n : ℝ) + K * k * r
  let a := if 0 < lam then a - lam - 1 else a
  rootC (a / (2 * p))

/-- The loop of screening.c:143-153 with `steps` evaluations left before `EXIT_FAILURE`. -/
noncomputable def screenLoop1 (next : ℝ → Option ℝ) : Nat → ℝ → Option (Option ℝ)
  | 0, _ => none
  | steps + 1, r0 =>
    match next r0 with
    | none => some none
    | some r => if |r - r0| > 1e-2 then screenLoop1 next steps r else some (some r)

/-- `screening_radial_type1_integral_primitive`, screening.c:119-162. The counter reaches 10 before the tenth evaluation. Simplification: for
`p ≤ 0`, where the last factor is not a number, `EXIT_FAILURE` is not told apart from success. -/
noncomputable def screenPrimitive1 (bt : BesselTab) (lam : Nat) (n : ℤ) (CA2 CB2 a b k eta : ℝ) : Option (Option ℝ) :=
  let p := a + b + eta
  let CA := Real.sqrt CA2
  let CB := Real.sqrt CB2
  if p ≤ 0 then some none
  else
    match screenLoop1 (screenNext1 bt n lam p k) 9 ((a * CA + b * CB) / p) with
    | none => none
    | some none => some none
    | some (some r0) =>
      if r0 = 0 ∧ n < 0 then some none
      else some (some (Real.sqrt (Real.pi / p) * r0 ^ n * (besselScaled bt lam (k * r0)).getD 0 *
        Real.exp (-p * r0 * r0 - a * CA2 - b * CB2 + k * r0) * 0.5 * (1 + erfC (Real.sqrt p * r0))))

/-- `screening_radial_type1`, screening.c:73-112; `D` is the `prefactor`. The reads are inside of the arrays of a well-formed potential. -/
noncomputable def screenType1 (bt : BesselTab) (lam n : Nat) (CA2 CB2 a b k D : ℝ) (pot : Potential) : Option (Option ℝ) :=
  if 1 ≤ lam ∧ |k| ≤ zeroThresh then some (some 0)
  else (List.range pot.num).foldlM (fun (s : Option ℝ) i =>
    match screenPrimitive1 bt lam ((n : ℤ) + pot.powers.getD i 0) CA2 CB2 a b k (pot.alpha.getD i 0) with
    | none => none
    | some v => some (do
      let s ← s
      let v ← v
      some (s + D * pot.coeffs.getD i 0 * v))) (some 0)

/-- Specification: the radial integral of type 1, `∫ r² U(r) r^n D i_λ(k r) exp(-(a + b) r² - a CA² - b CB²) dr`. -/
noncomputable def localRadial (U : ℝ → ℝ) (lam n : Nat) (CA2 CB2 a b k D : ℝ) : ℝ :=
  ∫ r in Set.Ioi (0:ℝ), r ^ 2 * (U r * (r ^ n * (D * (Real.exp (-(a + b) * r ^ 2 - a * CA2 - b * CB2) * besselI lam (k * r)))))

end Libgrpp
