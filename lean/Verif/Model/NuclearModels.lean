import Verif.Model.Outcome
import Verif.Model.SkTable
import Mathlib.Analysis.SpecialFunctions.Pow.Real
import Mathlib.Analysis.SpecialFunctions.Sqrt
import Mathlib.Analysis.SpecialFunctions.Trigonometric.Basic
import Mathlib.MeasureTheory.Integral.IntervalIntegral.Basic

/-! # Model of `libgrpp/nuclear_models.c` and of `specfunc_fermi_sk` (`libgrpp/specfunc_fermi_sk.c`)

The C library function `erf` is the error function. The functions of the Fermi models take the routine
`specfunc_fermi_sk` as the parameter `sk`. -/

namespace Libgrpp

/-- `erf` of the C library. -/
noncomputable def erfC (x : ℝ) : ℝ := 2 / Real.sqrt Real.pi * ∫ t in (0 : ℝ)..x, Real.exp (-t ^ 2)

/-- `libgrpp_estimate_nuclear_rms_radius_johnson_1985`, nuclear_models.c:41-44. -/
noncomputable def rmsJohnson (A : Int) : ℝ := 0.836 * (A : ℝ) ^ (1 / 3 : ℝ) + 0.570

/-- `libgrpp_estimate_nuclear_rms_radius_golovko_2008`, nuclear_models.c:56-59. -/
noncomputable def rmsGolovko (A : Int) : ℝ := 0.77 * (A : ℝ) ^ (1 / 3 : ℝ) + 0.98

/-- `libgrpp_estimate_fermi_model_parameters`, nuclear_models.c:68-80: return value, `*c` (given its previous value) and
`*a`. -/
noncomputable def estimateFermi (rms c0 : ℝ) : Int × ℝ × ℝ :=
  let t : ℝ := 2.3
  let a := t / (4 * Real.log 3)
  let c2 := 5 / 3 * rms * rms - 7 / 3 * Real.pi * Real.pi * a * a
  if c2 < 0 then (-1, c0, a) else (1, Real.sqrt c2, a)

/-- `libgrpp_coulomb_potential_point`, nuclear_models.c:92-95. -/
noncomputable def potPoint (r Z : ℝ) : ℝ := -Z / r

/-- `libgrpp_charge_density_ball`, nuclear_models.c:101-110. -/
noncomputable def densBall (r Z rms : ℝ) : ℝ :=
  let R0 := Real.sqrt (5 / 3) * rms
  if r ≤ R0 then 3 * Z / (4 * Real.pi * R0 * R0 * R0) else 0

/-- `libgrpp_coulomb_potential_ball`, nuclear_models.c:121-130. -/
noncomputable def potBall (r Z rms : ℝ) : ℝ :=
  let R0 := Real.sqrt (5 / 3) * rms
  if r ≤ R0 then -Z / (2 * R0) * (3 - r * r / (R0 * R0)) else -Z / r

/-- `libgrpp_charge_density_gaussian`, nuclear_models.c:136-142. -/
noncomputable def densGauss (r Z rms : ℝ) : ℝ :=
  let xi := 3 / (2 * rms * rms)
  let rho0 := Z * (xi / Real.pi) ^ (1.5 : ℝ)
  rho0 * Real.exp (-xi * r * r)

/-- `libgrpp_coulomb_potential_gaussian`, nuclear_models.c:153-158. -/
noncomputable def potGauss (r Z rms : ℝ) : ℝ :=
  let xi := 3 / (2 * rms * rms);
  -Z / r * erfC (Real.sqrt xi * r)

/-- The table `specfunc_fermi_sk_table[2001][10]`, specfunc_fermi_sk.c:34, 128-. -/
abbrev SkTable := Fin 2001 → Fin 10 → ℝ

/-- The numbers of the source. -/
noncomputable def skLiteral : SkTable := fun i j => -(((skRows.getD i.val []).getD j.val 0 : ℕ) : ℝ) / 10 ^ 21

/-- `specfunc_fermi_sk_table[i][j]`; an index outside is undefined behaviour. -/
noncomputable def skEntry (tab : SkTable) (i j : Int) : Outcome ℝ :=
  if h : 0 ≤ i ∧ i < 2001 ∧ 0 ≤ j ∧ j < 10 then .ok (tab ⟨i.toNat, by omega⟩ ⟨j.toNat, by omega⟩) else .ub

/-- `specfunc_fermi_sk`, specfunc_fermi_sk.c:42-88. `(int)(floor(y) + 1e-10)` is truncation towards zero of `floor(y) + 1e-10`:
`floor(y)` for nonnegative values; for negative ones `floor(y) + 1`. -/
noncomputable def fermiSk (tab : SkTable) (k : Int) (x : ℝ) : Outcome ℝ := do
  Outcome.assert (k ≥ 2 ∧ k ≤ 7)
  if x ≤ -30 then .ok (-1 * Real.exp x)
  else if x ≤ -14 then .ok (-1 * Real.exp x + 1 * Real.exp (2 * x) / 2 ^ k)
  else if x ≤ -10 then
    .ok (-1 * Real.exp x + 1 * Real.exp (2 * x) / 2 ^ k + -1 * Real.exp (3 * x) / 3 ^ k)
  else do
    let y := (⌊(x + 10) * 200⌋ : ℝ) + 1e-10
    let i0 : Int := if 0 ≤ y then ⌊y⌋ else ⌈y⌉
    let x0 : ℝ := -10 + (i0 : ℝ) * 0.005
    let dx := x - x0
    if i0 = 2000 then skEntry tab i0 (k + 2)
    else do
      let d0 ← skEntry tab i0 (k + 2)
      let d1 ← skEntry tab i0 (k + 1)
      let d2 ← skEntry tab i0 k
      let d3 ← skEntry tab i0 (k - 1)
      .ok (d0 + d1 * dx + d2 * (dx * dx) * 0.5 + d3 * (dx * dx * dx) * (1 / 6))

/-- The routine `specfunc_fermi_sk` as used by the nuclear models. -/
abbrev SkFun := Int → ℝ → Outcome ℝ

/-- `fermi_model_norm_factor`, nuclear_models.c:231-239. -/
noncomputable def fermiNorm (sk : SkFun) (c a : ℝ) : Outcome ℝ := do
  let s ← sk 3 (-c / a)
  .ok (1 + Real.pi * Real.pi * (a * a) / (c * c) - 6 * (a * a * a) / (c * c * c) * s)

/-- `libgrpp_charge_density_fermi`, nuclear_models.c:164-171. -/
noncomputable def densFermi (sk : SkFun) (r Z c a : ℝ) : Outcome ℝ := do
  let N ← fermiNorm sk c a
  let rho0 := 3 * Z / (4 * Real.pi * (c * c * c) * N)
  .ok (rho0 / (1 + Real.exp ((r - c) / a)))

/-- `libgrpp_rms_radius_fermi`, nuclear_models.c:177-191. -/
noncomputable def rmsFermi (sk : SkFun) (Z : Int) (c a : ℝ) : Outcome ℝ := do
  let N ← fermiNorm sk c a
  let rho0 := 3 * (Z : ℝ) / (4 * Real.pi * (c * c * c) * N)
  let s ← sk 5 (-c / a)
  let r2 := 4 * Real.pi * rho0 / Z * c ^ 5 / 5 *
    (1 + 10 / 3 * a * a * Real.pi * Real.pi / (c * c) + 7 / 3 * Real.pi ^ 4 * a ^ 4 / c ^ 4 - 120 * a ^ 5 / c ^ 5 * s)
  .ok (Real.sqrt r2)

/-- `libgrpp_coulomb_potential_fermi`, nuclear_models.c:203-225. -/
noncomputable def potFermi (sk : SkFun) (r Z c a : ℝ) : Outcome ℝ := do
  let N ← fermiNorm sk c a
  if r > c then do
    let S2 ← sk 2 ((c - r) / a)
    let S3 ← sk 3 ((c - r) / a)
    .ok (-Z / (N * r) * (N + 3 * (a * a) * r / (c * c * c) * S2 + 6 * (a * a * a) / (c * c * c) * S3))
  else do
    let P2 ← sk 2 ((r - c) / a)
    let P3 ← sk 3 ((r - c) / a)
    let S3 ← sk 3 (-c / a)
    .ok (-Z / (N * r) * (1.5 * r / c - r * r * r / (2 * (c * c * c)) +
      Real.pi * Real.pi * (a * a) * r / (2 * (c * c * c)) - 3 * (a * a) * r / (c * c * c) * P2 +
      6 * (a * a * a) / (c * c * c) * (P3 - S3)))

/-- `fermi_bubble_model_norm_factor`, nuclear_models.c:364-380. -/
noncomputable def bubbleNorm (sk : SkFun) (c a k : ℝ) : Outcome ℝ := do
  let N ← fermiNorm sk c a
  let s ← sk 5 (-c / a)
  .ok (N + 3 / 5 * k + 2 * Real.pi * Real.pi * a ^ 2 * k / c ^ 2 +
    7 * Real.pi * Real.pi * Real.pi * Real.pi * a ^ 4 * k / (5 * c ^ 4) - 72 * a ^ 5 * k / c ^ 5 * s)

/-- `libgrpp_charge_density_fermi_bubble`, nuclear_models.c:245-252. -/
noncomputable def densBubble (sk : SkFun) (r Z c a k : ℝ) : Outcome ℝ := do
  let Nk ← bubbleNorm sk c a k
  let rho0 := 3 * Z / (4 * Real.pi * (c * c * c) * Nk)
  .ok (rho0 * (1 + k * (r / c) ^ 2) / (1 + Real.exp ((r - c) / a)))

/-- `libgrpp_rms_radius_fermi_bubble`, nuclear_models.c:258-283. -/
noncomputable def rmsBubble (sk : SkFun) (Z : Int) (c a k : ℝ) : Outcome ℝ := do
  let Nk ← bubbleNorm sk c a k
  let rho0 := 3 * (Z : ℝ) / (4 * Real.pi * (c * c * c) * Nk)
  let s5 ← sk 5 (-c / a)
  let part4 := c ^ 5 / 5 *
    (1 + 10 / 3 * a * a * Real.pi * Real.pi / (c * c) + 7 / 3 * Real.pi ^ 4 * a ^ 4 / c ^ 4 - 120 * a ^ 5 / c ^ 5 * s5)
  let s7 ← sk 7 (-c / a)
  let part6 := c ^ 7 / 7 *
    (1 + 7 * a * a * Real.pi * Real.pi / (c * c) + 49 / 3 * Real.pi ^ 4 * a ^ 4 / c ^ 4 +
      31 / 3 * Real.pi ^ 6 * a ^ 6 / c ^ 6 - 5040 * a ^ 7 / c ^ 7 * s7)
  let r2 := 4 * Real.pi * rho0 / Z * (part4 + k / (c * c) * part6)
  .ok (Real.sqrt r2)

/-- `libgrpp_coulomb_potential_fermi_bubble`, nuclear_models.c:296-358 (the unused variable `rho0` is left out). -/
noncomputable def potBubble (sk : SkFun) (r Z c a k : ℝ) : Outcome ℝ := do
  let Nk ← bubbleNorm sk c a k
  let F ← if r < c then do
      let S2 ← sk 2 ((r - c) / a)
      let S3 ← sk 3 ((r - c) / a)
      let S4 ← sk 4 ((r - c) / a)
      let S5 ← sk 5 ((r - c) / a)
      let s3 ← sk 3 (-c / a)
      let F0 := -r ^ 3 / 6 - r * a * a * S2 + 2 * a ^ 3 * S3 + r * c * c / 2 + Real.pi * Real.pi / 6 * r * a * a -
        2 * a ^ 3 * s3
      let s5 ← sk 5 (-c / a)
      let F2 := -r ^ 5 / 20 - r ^ 3 * a ^ 2 * S2 + 6 * r ^ 2 * a ^ 3 * S3 - 18 * r * a ^ 4 * S4 + 24 * a ^ 5 * S5 +
        r * c ^ 4 / 4 + r * Real.pi * Real.pi * c * c * a * a / 2 + r * a ^ 4 * Real.pi ^ 4 * 7 / 60 - 24 * a ^ 5 * s5
      Outcome.ok (F0, F2)
    else do
      let S2 ← sk 2 ((c - r) / a)
      let S3 ← sk 3 ((c - r) / a)
      let S4 ← sk 4 ((c - r) / a)
      let S5 ← sk 5 ((c - r) / a)
      let s3 ← sk 3 (-c / a)
      let F0 := c ^ 3 / 3 + Real.pi * Real.pi / 3 * c * a * a - 2 * a ^ 3 * s3 + r * a * a * S2 + 2 * a ^ 3 * S3
      let s5 ← sk 5 (-c / a)
      let F2 := c ^ 5 / 5 + 2 * c ^ 3 * a * a * Real.pi * Real.pi / 3 + 7 * a ^ 4 * c * Real.pi ^ 4 / 15 - 24 * a ^ 5 * s5 +
        a ^ 2 * r ^ 3 * S2 + 6 * a ^ 3 * r ^ 2 * S3 + 18 * r * a ^ 4 * S4 + 24 * a ^ 5 * S5
      Outcome.ok (F0, F2)
  .ok (-Z / (Nk * r) * 3 / c ^ 3 * (F.1 + k / (c * c) * F.2))

end Libgrpp
