/-! # Model of the Cartesian component lists

`libgrpp/parameters.c` (generators), `libgrpp/shell.c` (list of a shell), `libgrpp/overlap_gradient.c` (lookup).

A component `x^n y^l z^m` is the triple `(n, l, m)`. The C array `cart_list` of length `3 * n_cart` is the
list of its triples; the generators write triple number `count` and increment `count`, i.e. they append. -/

namespace Libgrpp

/-- A Cartesian component. -/
abbrev Comp := Nat × Nat × Nat

/-- Index values of `for (int i = n; i >= 0; i--)`. -/
def desc : Nat → List Nat
  | 0 => [0]
  | n + 1 => (n + 1) :: desc n

/-- `cartesian_generator_dirac`, parameters.c:94-113 (the triples written, in order). -/
def cartesianDirac (L : Nat) : List Comp :=
  (desc L).flatMap fun r =>
    (desc L).flatMap fun s =>
      (desc L).flatMap fun t =>
        if r + s + t = L then [(r, s, t)] else []

/-- `cartesian_generator_turbomole`, parameters.c:116-134 (the triples written, in order). -/
def cartesianTurbomole (L : Nat) : List Comp :=
  (desc L).flatMap fun r =>
    (desc (L - r)).flatMap fun s =>
      [(r, s, L - r - s)]

/-- `(L + 1) * (L + 2) / 2`: `cart_size` of a shell (shell.c:31), size of the allocated list (shell.c:118)
and return value of both generators (parameters.c:97, 119). -/
def cartSize (L : Nat) : Nat := (L + 1) * (L + 2) / 2

/-- `nlm_to_linear`, overlap_gradient.c:219-241, for a component list generator `gen`: linear search with
`break`; the loop variable is `cart_size` when nothing was found.
Simplification: for a negative sum of exponents (never passed by the callers) the result is `0`;
in C this holds for sums `-1` and `-2`. -/
def nlmToLinear (gen : Nat → List Comp) (n l m : Int) : Nat :=
  if n + l + m < 0 then 0
  else (gen (n + l + m).toNat).findIdx fun c => decide ((c.1 : Int) = n ∧ (c.2.1 : Int) = l ∧ (c.2.2 : Int) = m)

end Libgrpp
