import Verif.Model.Factorial
import Verif.Model.Memory
import Verif.Model.BoysTable
import Mathlib.Analysis.SpecialFunctions.Exp
import Mathlib.Analysis.SpecialFunctions.Sqrt
import Mathlib.Analysis.SpecialFunctions.Trigonometric.Basic
import Mathlib.Algebra.Order.Round

/-! # Model of `libgrpp/specfunc_boys.c` and `libgrpp/specfunc_gfun.c`

The functions take the pretabulated numbers `boys_table[301][40]` and the Dawson function as parameters; `boysLiteral` is
the table of the source. -/

namespace Libgrpp

/-- `boys_table`, specfunc_boys.c:60-: 301 rows of 40 numbers. -/
abbrev BoysTable := Fin 301 → Fin 40 → ℝ

/-- The numbers of the source. -/
noncomputable def boysLiteral : BoysTable := fun i k => ((boysRows.getD i []).getD k 0 : ℝ) / 10 ^ 32

/-- `boys_table[idx][n]`; an index outside is undefined behaviour. -/
noncomputable def boysEntry (tab : BoysTable) (idx : Int) (n : Nat) : Outcome ℝ :=
  if h : 0 ≤ idx ∧ idx < 301 ∧ n < 40 then .ok (tab ⟨idx.toNat, by omega⟩ ⟨n, h.2.2⟩) else .ub

/-- C's `(int) y` for a `double`: truncation towards zero. -/
noncomputable def truncInt (y : ℝ) : Int := if 0 ≤ y then ⌊y⌋ else ⌈y⌉

/-- C's `round`: half away from zero. -/
noncomputable def roundC (y : ℝ) : Int := if 0 ≤ y then ⌊y + 1 / 2⌋ else ⌈y - 1 / 2⌉

/-- `boys_function`, specfunc_boys.c:21-47. -/
noncomputable def boysFunction (tab : BoysTable) (n : Nat) (x : ℝ) : Outcome ℝ :=
  if x ≤ 30 then do
    let step : ℝ := 0.1
    let idx := truncInt ((roundC (x / step) : ℝ) + 1e-6)
    let dx := x - (idx : ℝ) * step
    let b0 ← boysEntry tab idx n
    let b1 ← boysEntry tab idx (n + 1)
    let b2 ← boysEntry tab idx (n + 2)
    let b3 ← boysEntry tab idx (n + 3)
    let b4 ← boysEntry tab idx (n + 4)
    let b5 ← boysEntry tab idx (n + 5)
    let b6 ← boysEntry tab idx (n + 6)
    .ok (b0 - b1 * dx + b2 * dx ^ 2 / 2 - b3 * dx ^ 3 / 6 + b4 * dx ^ 4 / 24 - b5 * dx ^ 5 / 120 + b6 * dx ^ 6 / 720)
  else do
    let d ← doubleFactorialC (2 * (n : Int) - 1)
    .ok (d / 2 ^ (n + 1) * Real.sqrt (Real.pi / x ^ (2 * n + 1)))

/-- `double boys[100]` of `struct mmd_data`, type1_mcmurchie_davidson.c:64. Elements never stored are `none`. -/
abbrev Aux := Nat → Option ℝ

/-- `data->boys[n]`. -/
noncomputable def auxGet (b : Aux) (n : Nat) : Outcome ℝ :=
  if n < 100 then
    match b n with
    | some v => .ok v
    | none => .ub
  else .ub

/-- `data->boys[n] = v`. -/
noncomputable def auxSet (b : Aux) (n : Nat) (v : ℝ) : Outcome Aux :=
  if n < 100 then .ok (fun k => if k = n then some v else b k) else .ub

/-- `memset(b, 0, (nmax + 1) * sizeof(double))`. -/
noncomputable def auxZero (nmax : Nat) : Outcome Aux :=
  forRange (nmax + 1) (fun _ => none) fun n b => auxSet b n 0

/-- `boys_values`, specfunc_boys.c:50-57. -/
noncomputable def boysValues (tab : BoysTable) (x : ℝ) (nmax : Nat) : Outcome Aux := do
  let b ← auxZero nmax
  forRange (nmax + 1) b fun n b => do
    let v ← boysFunction tab n x
    auxSet b n v

/-- One term of the Taylor series, specfunc_gfun.c:79-84. -/
noncomputable def gfunTerm (n k : Nat) (x : ℝ) : Outcome ℝ := do
  let f ← factorialC k
  .ok (Real.exp (-x) * x ^ k / f / (2 * (n : ℝ) + 2 * (k : ℝ) + 1))

/-- The loop of `gfun_taylor`, specfunc_gfun.c:77-90, from term `k` with `fuel` terms left. -/
noncomputable def gfunTaylorLoop (n : Nat) (x : ℝ) : Nat → Nat → ℝ → Outcome ℝ
  | 0, _, sum => .ok sum
  | fuel + 1, k, sum => do
    let c ← gfunTerm n k x
    if |c| < 1e-15 then .ok (sum + c) else gfunTaylorLoop n x fuel (k + 1) (sum + c)

/-- `gfun_taylor`, specfunc_gfun.c:72-93. -/
noncomputable def gfunTaylor (n : Nat) (x : ℝ) : Outcome ℝ := gfunTaylorLoop n x 100 0 0

/-- `gfun_values`, specfunc_gfun.c:40-65. `dawson` is `Dawsons_Integral`. The downward loop `for (n = nmax; n > 0; n--)` is
indexed by `k = nmax - n`. -/
noncomputable def gfunValues (dawson : ℝ → ℝ) (x : ℝ) (nmax : Nat) : Outcome Aux := do
  let g ← auxZero nmax
  if x ≤ 12 then do
    let t ← gfunTaylor nmax x
    let g ← auxSet g nmax t
    forRange nmax g fun k g => do
      let n := nmax - k
      let gn ← auxGet g n
      auxSet g (n - 1) ((1 - 2 * x * gn) / (2 * (n : ℝ) - 1))
  else do
    let g ← auxSet g 0 (dawson (Real.sqrt x) / Real.sqrt x)
    forRange nmax g fun n g => do
      let gn ← auxGet g n
      auxSet g (n + 1) ((1 - (2 * (n : ℝ) + 1) * gn) / (2 * x))

end Libgrpp
