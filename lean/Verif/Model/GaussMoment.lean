import Verif.Model.Factorial
import Mathlib.Analysis.SpecialFunctions.Sqrt
import Mathlib.Analysis.SpecialFunctions.Trigonometric.Basic

/-! # `gaussian_integral`, screening.c -/

namespace Libgrpp

/-- `gaussian_integral`, screening.c:255-265. `pow` with an integral exponent is the integer power. C's `n % 2` is 0 for
even `n` of either sign, and is -1 or 1 otherwise; `n / 2` and `(n - 1) / 2` truncate towards zero. -/
noncomputable def gaussMoment (n : Int) (a : ℝ) : Outcome ℝ :=
  if Int.tmod n 2 = 0 then do
    let k := Int.tdiv n 2
    let d ← doubleFactorialC (2 * k - 1)
    .ok (d / ((2:ℝ) ^ (k + 1) * a ^ k) * Real.sqrt (Real.pi / a))
  else do
    let k := Int.tdiv (n - 1) 2
    let d ← factorialC k
    .ok (d / (2 * a ^ (k + 1)))

end Libgrpp
