import Verif.Model.Outcome
import Mathlib.Data.Real.Basic

/-! # Model of `libgrpp/factorial.c`

Results of type `double` are real numbers. `int` arguments are integers. -/

namespace Libgrpp

/-- `pretabulated_factorials`, factorial.c:14-35 (entries `0!` to `20!`). -/
def factorialTable : List ℕ :=
  [1, 1, 2, 6, 24, 120, 720, 5040, 40320, 362880, 3628800, 39916800, 479001600, 6227020800,
   87178291200, 1307674368000, 20922789888000, 355687428096000, 6402373705728000,
   121645100408832000, 2432902008176640000]

/-- `factorial`, factorial.c:37-47. A table read outside the table would be undefined behaviour. -/
noncomputable def factorialC (n : ℤ) : Outcome ℝ :=
  if n < 0 then .ok 1
  else if n ≤ 20 then
    match factorialTable[n.toNat]? with
    | some v => .ok (v : ℝ)
    | none => .ub
  else do
    let f ← factorialC (n - 1)
    .ok ((n : ℝ) * f)
termination_by n.toNat

/-- `factorial_ratio`, the branch `n > m`, factorial.c:62-68: product of `i` for `i = m+1 .. n`. -/
noncomputable def factorialRatioUp (n m : ℤ) : ℝ :=
  (List.range (n - m).toNat).foldl (fun prod (i : ℕ) => prod * ((m + 1 + (i : ℤ) : ℤ) : ℝ)) 1

/-- `factorial_ratio`, factorial.c:55-69. -/
noncomputable def factorialRatio (n m : ℤ) : ℝ :=
  if n = m then 1
  else if n < m then 1 / factorialRatioUp m n
  else factorialRatioUp n m

/-- `pretabulated_double_factorials`, factorial.c:71-103 (entries `0!!` to `30!!`). -/
def doubleFactorialTable : List ℕ :=
  [1, 1, 2, 3, 8, 15, 48, 105, 384, 945, 3840, 10395, 46080, 135135, 645120, 2027025, 10321920,
   34459425, 185794560, 654729075, 3715891200, 13749310575, 81749606400, 316234143225,
   1961990553600, 7905853580625, 51011754393600, 213458046676875, 1428329123020800,
   6190283353629375, 42849873690624000]

/-- `double_factorial`, factorial.c:105-115. The branch `n > 30` after the assertion is dead code;
it is not modelled. -/
noncomputable def doubleFactorialC (n : ℤ) : Outcome ℝ := do
  Outcome.assert (n ≥ -1 ∧ n ≤ 30)
  if n = -1 then .ok 1
  else
    match doubleFactorialTable[n.toNat]? with
    | some v => .ok (v : ℝ)
    | none => .ub

end Libgrpp
