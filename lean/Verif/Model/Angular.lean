import Verif.Model.SphericalHarmonics

/-! # Model of `libgrpp/angular_integrals.c` -/

namespace Libgrpp

/-- `integrate_unitary_sphere_polynomial`, angular_integrals.c:118-130. The exponents of all callers are non-negative. -/
noncomputable def uspInt (i j k : ℕ) : Outcome ℝ :=
  if i % 2 = 0 ∧ j % 2 = 0 ∧ k % 2 = 0 then do
    let di ← doubleFactorialC ((i : ℤ) - 1)
    let dj ← doubleFactorialC ((j : ℤ) - 1)
    let dk ← doubleFactorialC ((k : ℤ) - 1)
    let d ← doubleFactorialC ((i : ℤ) + j + k + 1)
    .ok (4 * Real.pi * di * dj * dk / d)
  else .ok 0

/-- `angular_type1_integral`, angular_integrals.c:35-56. -/
noncomputable def angType1 (lambda II JJ KK : ℕ) (k : Point) : Outcome ℝ :=
  forRange (2 * lambda + 1) 0 fun mi sum => do
    let mu : ℤ := (mi : ℤ) - lambda
    let sum2 ← forRange (lambda + 1) (0 : ℝ) fun r sum2 =>
      forRange (lambda + 1) sum2 fun s sum2 =>
        forRange (lambda + 1) sum2 fun t sum2 =>
          if r + s + t = lambda then do
            let y ← sphCoef lambda mu r s t
            let u ← uspInt (II + r) (JJ + s) (KK + t)
            .ok (sum2 + y * u)
          else .ok sum2
    let e ← evalRsh lambda mu k
    .ok (sum + sum2 * e)

/-- `angular_type2_integral`, angular_integrals.c:63-111. -/
noncomputable def angType2 (lambda L : ℕ) (m : ℤ) (a b c : ℕ) (rshValues : List ℝ) : Outcome ℝ := do
  let tabLam ← rshTable lambda
  let tabL ← rshTable L
  forRange (2 * lambda + 1) 0 fun mi sum => do
    let val ← rd rshValues mi
    if |val| < zeroThresh then .ok sum
    else do
      let sum2 ← forRange tabL.n_cart_comb (0 : ℝ) fun iu sum2 => do
        let q ← rd tabL.comb iu
        let yL ← rdInt tabL.coeffs ((m + L) * tabL.n_cart_comb + iu)
        if |yL| < zeroThresh then .ok sum2
        else
          forRange tabLam.n_cart_comb sum2 fun ir sum2 => do
            let p ← rd tabLam.comb ir
            let yl ← rd tabLam.coeffs (mi * tabLam.n_cart_comb + ir)
            if |yl| < zeroThresh then .ok sum2
            else do
              let u ← uspInt (a + p.1 + q.1) (b + p.2.1 + q.2.1) (c + p.2.2 + q.2.2)
              .ok (sum2 + yl * yL * u)
      .ok (sum + sum2 * val)

end Libgrpp
