import Verif.Model.Outcome

/-!
# Model of `libgrpp/binomial.c`

`uint64_t` values are naturals; every product is reduced modulo `2^64` as in C.
-/

namespace Libgrpp

/-- `UINT64_MAX`. -/
def uint64Max : Nat := 2 ^ 64 - 1

/-- Wrap-around of unsigned 64-bit arithmetic. -/
def u64 (x : Nat) : Nat := x % 2 ^ 64

/-- The `while (y > 0)` loop of `gcd_ui`, binomial.c:71-75. -/
def gcdLoop (x y : Nat) : Nat :=
  if _h : 0 < y then gcdLoop y (x % y) else x
termination_by y
decreasing_by exact Nat.mod_lt _ _h

/-- `gcd_ui`, binomial.c:62-77: swap so that `x ≤ y`, then Euclid's loop. -/
def gcdUi (x y : Nat) : Nat :=
  if y < x then gcdLoop y x else gcdLoop x y

/-- The `for (d = 1; d <= k; d++)` loop of `binomial`, binomial.c:40-58.
`steps` is the number of remaining iterations `k + 1 - d`.
Integer division by zero is undefined behaviour. -/
def binomialLoop : (steps d r n : Nat) → Outcome Nat
  | 0, _, r, _ => .ok r
  | steps + 1, d, r, n => do
    Outcome.valid (n ≠ 0)
    if r ≥ uint64Max / n then
      let g := gcdUi n d
      Outcome.valid (g ≠ 0)
      let nr := n / g
      let dr := d / g
      let g2 := gcdUi r dr
      Outcome.valid (g2 ≠ 0)
      let r := r / g2
      let dr := dr / g2
      Outcome.valid (nr ≠ 0)
      if r ≥ uint64Max / nr then .ok 0
      else do
        Outcome.valid (dr ≠ 0)
        binomialLoop steps (d + 1) (u64 (r * nr) / dr) (n - 1)
    else do
      Outcome.valid (d ≠ 0)
      binomialLoop steps (d + 1) (u64 (r * n) / d) (n - 1)

/-- `binomial`, binomial.c:24-59. Arguments are `uint64_t`, i.e. below `2^64`. -/
def binomial (n k : Nat) : Outcome Nat :=
  if k = 0 then .ok 1
  else if k = 1 then .ok n
  else if k ≥ n then .ok (if k = n then 1 else 0)
  else
    let k := if k > n / 2 then n - k else k
    binomialLoop k 1 1 n

end Libgrpp
