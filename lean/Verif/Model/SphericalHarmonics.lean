import Verif.Model.Memory
import Verif.Model.Factorial
import Verif.Model.Binomial
import Verif.Model.Cartesian
import Verif.Model.Utils
import Verif.Model.Shell
import Mathlib.Analysis.SpecialFunctions.Trigonometric.Basic
import Mathlib.Analysis.SpecialFunctions.Sqrt

/-! # Model of `libgrpp/spherical_harmonics.c`

Expansion of the real spherical harmonics in unit-sphere monomials: coefficients, tables, evaluation. -/

namespace Libgrpp

/-- Conversion of an `int` argument to the `uint64_t` parameters of `binomial`. -/
def toU64 (z : ℤ) : ℕ := (z % 2 ^ 64).toNat

/-- `a[i]` with a signed index. -/
def rdInt {α : Type _} (a : List α) (i : ℤ) : Outcome α := if i < 0 then .ub else rd a i.toNat

/-- `a[i]` of an array on the stack; elements never stored are `none`. -/
def rdInit {α : Type _} (a : List (Option α)) (i : ℕ) : Outcome α := do
  match ← rd a i with
  | some v => .ok v
  | none => .ub

/-- The inner sum, spherical_harmonics.c:150-155. The product of the two binomials is a product of `uint64_t` numbers;
`/` is the truncating division of C. -/
noncomputable def sphInner (am lx j : ℤ) : Outcome ℝ :=
  forRange (j + 1).toNat 0 fun k sum => do
    let b1 ← binomial (toU64 j) (toU64 k)
    let b2 ← binomial (toU64 am) (toU64 (lx - 2 * k))
    .ok (sum + (u64 (b1 * b2) : ℝ) * (-1) ^ ((am - lx + 2 * k).tdiv 2))

/-- One iteration of the loop over `i`, spherical_harmonics.c:134-157; the second component of the state records `break`. -/
noncomputable def sphOuterStep (l : ℕ) (am lx j i : ℤ) (s : ℝ × Bool) : Outcome (ℝ × Bool) :=
  if s.2 then .ok s
  else if 2 * (l : ℤ) - 2 * i < 0 then .ok (0, true)
  else if (l : ℤ) - am - 2 * i < 0 then .ok (0, true)
  else do
    let b1 ← binomial (toU64 l) (toU64 i)
    let b2 ← binomial (toU64 i) (toU64 j)
    let factor1 := (u64 (b1 * b2) : ℝ) * (-1) ^ i * factorialRatio (2 * l - 2 * i) (l - am - 2 * i)
    let sum ← sphInner am lx j
    .ok (s.1 + factor1 * sum, false)

/-- `spherical_to_cartesian_coef`, spherical_harmonics.c:115-166. -/
noncomputable def sphCoef (l : ℕ) (m : ℤ) (lx ly _lz : ℕ) : Outcome ℝ :=
  let am : ℤ := m.natAbs
  let j : ℤ := (lx : ℤ) + ly - am
  if j.tmod 2 ≠ 0 then .ok 0
  else
    let j := j.tdiv 2
    if ¬ ((m > 0 ∧ (am - lx).tmod 2 = 0) ∨ (m = 0 ∧ (lx : ℤ).tmod 2 = 0) ∨ (m < 0 ∧ (am - lx).tmod 2 ≠ 0)) then .ok 0
    else do
      let f1 ← factorialC (l - am)
      let f2 ← factorialC (l + am)
      let f0 ← factorialC l
      let prefactor := Real.sqrt ((2 * (l : ℝ) + 1) / (2 * Real.pi) * f1 / f2) / (2 ^ l * f0)
      let s ← forRange (((l : ℤ) - am).tdiv 2 - j + 1).toNat ((0 : ℝ), false) fun t s => sphOuterStep l am lx j (j + t) s
      let u := s.1 * prefactor
      .ok (if m = 0 ∧ (lx : ℤ).tmod 2 = 0 then u * (1 / Real.sqrt 2) else u)

/-- `generate_cartesian_combinations`, spherical_harmonics.c:283-304: the triples written, in order. -/
def cartesianAsc (L : ℕ) : List Comp :=
  (List.range (L + 1)).flatMap fun i =>
    (List.range (L + 1)).flatMap fun j =>
      (List.range (L + 1)).flatMap fun k =>
        if i + j + k = L then [(i, j, k)] else []

/-- `rsh_coef_table_t`, spherical_harmonics.h. The array `cartesian_comb` is the list of its triples. -/
structure RshTable where
  n_cart_comb : ℕ
  comb : List Comp
  coeffs : List ℝ

/-- `tabulate_real_spherical_harmonic_coeffs`, spherical_harmonics.c:68-89. The loop `m = -L .. L` is counted from `0`. -/
noncomputable def rshTabulate (L : ℕ) : Outcome RshTable := do
  let ncart := cartSize L
  let comb := cartesianAsc L
  let coeffs ← forRange (2 * L + 1) (List.replicate ((2 * L + 1) * ncart) (0 : ℝ)) fun mi c =>
    forRange ncart c fun icomb c => do
      let q ← rd comb icomb
      let v ← sphCoef L ((mi : ℤ) - L) q.1 q.2.1 q.2.2
      wr c (mi * ncart + icomb) v
  .ok ⟨ncart, comb, coeffs⟩

/-- `rsh_tables_lmax` after `libgrpp_init`, init_finalize.c:24. -/
def rshTablesLmax : ℕ := 40

/-- `get_real_spherical_harmonic_table`, spherical_harmonics.c:95-103, in an initialised library, for callers that
dereference the result: for `L > Lmax` the function returns a null pointer. -/
noncomputable def rshTable (L : ℕ) : Outcome RshTable := if L > rshTablesLmax then .ub else rshTabulate L

/-- The unit vector, spherical_harmonics.c:183-194 (238-250 multiply with `1/|k|` instead of dividing). -/
noncomputable def rshUnit (k : Point) : Point :=
  let len := Real.sqrt (k 0 * k 0 + k 1 * k 1 + k 2 * k 2)
  if len > zeroThresh then fun i => k i / len else fun _ => 0

/-- Powers `0 .. l` of one coordinate in an array of length 200, spherical_harmonics.c:197-205 (252-260). -/
noncomputable def rshPowers (l : ℕ) (x : ℝ) : Outcome (List (Option ℝ)) := do
  let p ← wr (List.replicate 200 none) 0 (some 1)
  forRange l p fun i p => do
    let v ← rdInit p i
    wr p (i + 1) (some (v * x))

/-- `evaluate_real_spherical_harmonic`, spherical_harmonics.c:172-220. -/
noncomputable def evalRsh (l : ℕ) (m : ℤ) (k : Point) : Outcome ℝ := do
  let tab ← rshTable l
  let n := rshUnit k
  let px ← rshPowers l (n 0)
  let py ← rshPowers l (n 1)
  let pz ← rshPowers l (n 2)
  forRange tab.n_cart_comb 0 fun icomb value => do
    let q ← rd tab.comb icomb
    let y ← rdInt tab.coeffs ((m + l) * tab.n_cart_comb + icomb)
    let x1 ← rdInit px q.1
    let x2 ← rdInit py q.2.1
    let x3 ← rdInit pz q.2.2
    .ok (value + y * x1 * x2 * x3)

/-- `evaluate_real_spherical_harmonics_array`, spherical_harmonics.c:227-280, writing to `rsh_array`. -/
noncomputable def evalRshArray (l : ℕ) (k : Point) (arr : List ℝ) : Outcome (List ℝ) := do
  let tab ← rshTable l
  let n := rshUnit k
  let px ← rshPowers l (n 0)
  let py ← rshPowers l (n 1)
  let pz ← rshPowers l (n 2)
  let arr ← forRange (2 * l + 1) arr fun i a => wr a i 0
  forRange tab.n_cart_comb arr fun icomb arr => do
    let q ← rd tab.comb icomb
    let x1 ← rdInit px q.1
    let x2 ← rdInit py q.2.1
    let x3 ← rdInit pz q.2.2
    let kxyz := x1 * x2 * x3
    forRange (2 * l + 1) arr fun mi arr => do
      let y ← rd tab.coeffs (mi * tab.n_cart_comb + icomb)
      let v ← rd arr mi
      wr arr mi (v + y * kxyz)

end Libgrpp
