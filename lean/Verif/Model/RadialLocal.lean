import Verif.Model.OneElectron
import Verif.Model.Binomial
import Verif.Model.Radial
import Verif.Model.Angular
import Verif.Model.Bessel

/-! # Model of `evaluate_radially_local_potential_integral_primitive_gaussians` (`libgrpp/type1_integrals.c`)

The six nested loops over binomial expansions are shared with `libgrpp/type2_integrals.c` and
`libgrpp/spin_orbit_integrals.c`. -/

namespace Libgrpp

/-- The six loops over `a, b, c, d, e, f` with the `factor` and the test that skips small factors:
type1_integrals.c:211-261, type2_integrals.c:129-205 (`thr = 1e-13`), spin_orbit_integrals.c:143-231 (`thr = 1e-14`). The
rest of the innermost body is `body (a, b, c) (d, e, f) factor`. In C the binomial coefficients and powers are computed at the
level of the loop they depend on; `pow` with an integer exponent is the power. -/
noncomputable def forMono {σ : Type} (thr : ℝ) (CA CB : Point) (x y : Comp) (s : σ)
    (body : Comp → Comp → ℝ → σ → Outcome σ) : Outcome σ :=
  forRange (x.1 + 1) s fun a s => do
    let ba ← binomial x.1 a
    forRange (x.2.1 + 1) s fun b s => do
      let bb ← binomial x.2.1 b
      forRange (x.2.2 + 1) s fun c s => do
        let bc ← binomial x.2.2 c
        forRange (y.1 + 1) s fun d s => do
          let bd ← binomial y.1 d
          forRange (y.2.1 + 1) s fun e s => do
            let be ← binomial y.2.1 e
            forRange (y.2.2 + 1) s fun f s => do
              let bf ← binomial y.2.2 f
              let factor : ℝ := (ba : ℝ) * bb * bc * bd * be * bf * CA 0 ^ (x.1 - a) * CA 1 ^ (x.2.1 - b) * CA 2 ^ (x.2.2 - c) *
                CB 0 ^ (y.1 - d) * CB 1 ^ (y.2.1 - e) * CB 2 ^ (y.2.2 - f)
              if |factor| < thr then .ok s else body (a, b, c) (d, e, f) factor s

/-- The sum of the exponents of the first component of a shell, type1_integrals.c:177-178. -/
def firstDegree (s : Shell) : Outcome Nat := do
  let x ← rd s.cartList 0
  .ok (x.1 + x.2.1 + x.2.2)

/-- The value of a routine that is known not to fail. -/
noncomputable def Outcome.getD {α : Type} (x : Outcome α) (d : α) : α :=
  match x with
  | .ok a => a
  | _ => d

/-- The integrand without the weight, `pot_values[i] * gto_values[i] * r_N[i] * mod_bessel[i]`, radial_type1_integral.c:180-190,
231-244, 292 with the function of 136-148; the key is `(n, lambda)`. The Bessel routine is total for the orders that occur (see
`radialLocal`). -/
noncomputable def type1Integrand (bt : BesselTab) (pot : ℝ → ℝ) (CA2 CB2 a b k D : ℝ) (key : Nat × Nat) (r : ℝ) : ℝ :=
  pot r * (D * Real.exp (k * r - (a + b) * r * r - a * CA2 - b * CB2)) * r ^ key.1 * (besselScaled bt key.2 (r * k)).getD 0

/-- Number stored for one pair of components, type1_integrals.c:198-256. -/
noncomputable def localElement (CA CB k : Point) (lmax : Nat) (table : List ℝ) (x y : Comp) : Outcome ℝ :=
  forMono 1e-13 CA CB x y 0 fun p q factor chi => do
    let N := p.1 + p.2.1 + p.2.2 + q.1 + q.2.1 + q.2.2
    let sum ← forRange (lmax + 1) (0 : ℝ) fun lam sum => do
      let Q ← getType1 lmax table lam N
      if |Q| < 1e-16 then .ok sum
      else do
        let omega ← angType1 lam (p.1 + q.1) (p.2.1 + q.2.1) (p.2.2 + q.2.2) k
        .ok (sum + omega * Q)
    .ok (chi + factor * sum)

/-- `evaluate_radially_local_potential_integral_primitive_gaussians`, type1_integrals.c:144-262, for primitives with exponents `a`,
`b`. `pot` is the potential function with its parameters. The orders of the Bessel functions go up to `lambda_max`; a table or an
asymptotic coefficient outside its array is undefined behaviour for `lambda_max ≥ 50` (simplification: for the orders from 50 to
59 only when some `r * k` exceeds 16). -/
noncomputable def radialLocal {G : Type} (prm : LibParams G) (bt : BesselTab) (pot : ℝ → ℝ) (A B : Shell) (C : Point) (a b : ℝ)
    (buf : List ℝ) : Outcome (List ℝ) := do
  Outcome.assert (0 < A.cart_size)
  Outcome.assert (0 < B.cart_size)
  let buf ← memset0 (A.cart_size * B.cart_size) buf
  let CA : Point := fun i => C i - A.origin i
  let CB : Point := fun i => C i - B.origin i
  let CA2 := CA 0 * CA 0 + CA 1 * CA 1 + CA 2 * CA 2
  let CB2 := CB 0 * CB 0 + CB 1 * CB 1 + CB 2 * CB 2
  let kv : Point := fun i => -2 * (a * CA i + b * CB i)
  let k := Real.sqrt (kv 0 * kv 0 + kv 1 * kv 1 + kv 2 * kv 2)
  let LA ← firstDegree A
  let LB ← firstDegree B
  let D := 4 * Real.pi * gaussianNormFactor LA 0 0 a * gaussianNormFactor LB 0 0 b
  let lmax := LA + LB
  Outcome.valid (lmax < 50)
  let table ← tabulateType1 prm (type1Integrand bt pot CA2 CB2 a b k D) lmax lmax
  storePairs A B (localElement CA CB kv lmax table) buf

end Libgrpp
