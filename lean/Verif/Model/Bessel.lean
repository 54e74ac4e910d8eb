import Verif.Model.SpecFun
import Verif.Model.BesselTable
import Verif.Model.RfunTable

/-! # Model of `libgrpp/specfunc_scaled_mod_sph_bessel.c`

The orders `n`, `lambda` are natural numbers (callers pass nothing else); an index outside the declared bounds of an array is
undefined behaviour. -/

namespace Libgrpp

/-- `bessel_table_0[i][lam]`, specfunc_bessel_table.c:27, for `i ≤ 1600`, `lam < 60`. -/
noncomputable def besselLiteral (i lam : Nat) : ℝ :=
  let e := besselRows.getD i 0 / 10 ^ (20 * lam) % 10 ^ 20
  ((e / 1000 : Nat) : ℝ) / 10 ^ (16 + e % 1000)

/-- `rfun_coeffs[n][k]`, specfunc_scaled_mod_sph_bessel.c:197, for `n, k < 50`. -/
noncomputable def rfunLiteral (n k : Nat) : ℝ :=
  let e := rfunRows.getD n 0 / 10 ^ (20 * k) % 10 ^ 20
  ((e / 1000 : Nat) : ℝ) * 10 ^ (e % 1000) / 10 ^ 16

/-- Contents of `double bessel_table[2000][60][10]`, specfunc_scaled_mod_sph_bessel.c:35. -/
abbrev BesselTab := Nat → Nat → Nat → ℝ

/-- Static storage: all elements are zero before the first call. -/
def besselTab0 : BesselTab := fun _ _ _ => 0

/-- `bessel_table[i][lam][k]`. -/
def btGet (t : BesselTab) (i lam k : Nat) : Outcome ℝ := if i < 2000 ∧ lam < 60 ∧ k < 10 then .ok (t i lam k) else .ub

/-- `bessel_table[i][lam][k] = v`. -/
noncomputable def btSet (t : BesselTab) (i lam k : Nat) (v : ℝ) : Outcome BesselTab :=
  if i < 2000 ∧ lam < 60 ∧ k < 10 then .ok (fun a b c => if a = i ∧ b = lam ∧ c = k then v else t a b c) else .ub

/-- `bessel_table_0[i][lam]`; outside the array undefined. -/
noncomputable def besselLitGet (i lam : Nat) : Outcome ℝ := if i < 1601 ∧ lam < 60 then .ok (besselLiteral i lam) else .ub

/-- `modified_scaled_bessel_derivative`, specfunc_scaled_mod_sph_bessel.c:135-156. -/
noncomputable def besselDerivative (t : BesselTab) (n lam ix : Nat) : Outcome ℝ :=
  if n = 0 then btGet t ix lam 0
  else do
    let deriv : ℝ := 0
    let deriv ← (if 0 < lam then do
        let v ← btGet t ix (lam - 1) (n - 1)
        .ok (deriv + (lam : ℝ) / (2 * (lam : ℝ) + 1) * v)
      else .ok deriv)
    let v ← btGet t ix (lam + 1) (n - 1)
    let deriv := deriv + ((lam : ℝ) + 1) / (2 * (lam : ℝ) + 1) * v
    let v ← btGet t ix lam (n - 1)
    .ok (deriv - v)

/-- One row of `pretabulate_bessel`, specfunc_scaled_mod_sph_bessel.c:49-59. -/
noncomputable def pretabulateRow (i : Nat) (t : BesselTab) : Outcome BesselTab := do
  let t ← forRange 60 t fun lam t => do
    let v ← besselLitGet i lam
    btSet t i lam 0 v
  forRange 4 t fun k t =>
    forRange 55 t fun lam t => do
      let v ← besselDerivative t (k + 1) lam i
      btSet t i lam (k + 1) v

/-- `pretabulate_bessel`, specfunc_scaled_mod_sph_bessel.c:45-61. -/
noncomputable def pretabulateBessel (t : BesselTab) : Outcome BesselTab := forRange 1601 t pretabulateRow

/-- `rfun_coeffs[n][k]`; outside the array undefined. -/
noncomputable def rfunGet (n k : Nat) : Outcome ℝ := if n < 50 ∧ k < 50 then .ok (rfunLiteral n k) else .ub

/-- `bessel_asymptotic_R_function`, specfunc_scaled_mod_sph_bessel.c:176-190. The state of the loop is `(sum, denom)`. -/
noncomputable def besselR (n : Nat) (x : ℝ) : Outcome ℝ := do
  let invX := 1 / x
  let s ← forRange (n + 1) ((0, 1) : ℝ × ℝ) fun k s => do
    let c ← rfunGet n k
    .ok (s.1 + c * s.2, s.2 * invX)
  .ok s.1

/-- `modified_bessel_scaled`, specfunc_scaled_mod_sph_bessel.c:67-122; `t` is the content of `bessel_table`. -/
noncomputable def besselScaled (t : BesselTab) (n : Nat) (x : ℝ) : Outcome ℝ :=
  if x ≤ 1e-7 then
    match n with
    | 0 => .ok (1 - x)
    | 1 => .ok ((1 - x) * x * (1 / 3))
    | 2 => .ok ((1 - x) * x * x * (1 / 15))
    | _ => .ok 0
  else if x ≤ 16 then do
    let i0 := (truncInt ((roundC (x * 100) : ℝ) + 1e-5)).toNat
    let x0 := (i0 : ℝ) * 0.01
    let dx := x - x0
    let d0 ← btGet t i0 n 0
    let d1 ← btGet t i0 n 1
    let d2 ← btGet t i0 n 2
    let d3 ← btGet t i0 n 3
    let d4 ← btGet t i0 n 4
    let dx2 := dx * dx
    let dx3 := dx2 * dx
    let dx4 := dx3 * dx
    .ok (d0 + d1 * dx + d2 * dx2 * 0.5 + d3 * dx3 * (1 / 6) + d4 * dx4 * (1 / 24))
  else do
    let r ← besselR n (-x)
    .ok (r / (2 * x))

end Libgrpp
