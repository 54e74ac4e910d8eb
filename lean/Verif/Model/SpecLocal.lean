import Verif.Model.Spec
import Verif.Model.Potential
import Mathlib.MeasureTheory.Integral.IntervalIntegral.Basic

/-! # Mathematical meaning of radially local potentials

What the documentation says (libgrpp manual, "Radially local integrals"); nothing here refers to how the library
computes anything. -/

namespace Libgrpp

/-- `|r - C|` -/
noncomputable def radius (C r : Point) : ℝ := Real.sqrt (∑ k, (r k - C k) ^ 2)

/-- One term of a potential: `|r-C|^(n-2) exp(-c|r-C|²)`. -/
noncomputable def localTerm (n : ℤ) (c : ℝ) (C r : Point) : ℝ :=
  radius C r ^ (n - 2) * Real.exp (-c * radius C r ^ 2)

/-- A potential as a function of the point. -/
noncomputable def potentialFn (p : Potential) (C r : Point) : ℝ :=
  ∑ k ∈ Finset.range p.num, p.coeffs.getD k 0 * localTerm (p.powers.getD k 0) (p.alpha.getD k 0) C r

/-- The Boys function `F_n(x) = ∫_0^1 t^{2n} exp(-x t²) dt`. -/
noncomputable def boysF (n : ℕ) (x : ℝ) : ℝ := ∫ t in (0 : ℝ)..1, t ^ (2 * n) * Real.exp (-x * t ^ 2)

/-- `G_n(x) = ∫_0^1 t^{2n} exp(-x(1-t²)) dt`. -/
noncomputable def gF (n : ℕ) (x : ℝ) : ℝ := ∫ t in (0 : ℝ)..1, t ^ (2 * n) * Real.exp (-x * (1 - t ^ 2))

/-- The argument of the Boys or `G` function for the primitives `i` of `A` and `j` of `B` and the potential Gaussian `c` at
`C`: `q |Q - C|²` where `q` is the sum of the three exponents and `Q` the weighted mean of the three centres. -/
noncomputable def pairArg (A B : Shell) (C : Point) (c : ℝ) (i j : Nat) : ℝ :=
  (A.alpha.getD i 0 + B.alpha.getD j 0 + c) * ∑ k, ((A.alpha.getD i 0 * A.origin k + B.alpha.getD j 0 * B.origin k + c * C k) /
    (A.alpha.getD i 0 + B.alpha.getD j 0 + c) - C k) ^ 2

/-- A shell with the contraction coefficients below the documented threshold `1e-14` replaced by zero. -/
noncomputable def dropTiny (s : Shell) : Shell :=
  { s with coeffs := s.coeffs.map fun c => if |c| < zeroThresh then 0 else c }

/-- The matrix element of a function of the distance to `C` between two contracted functions, without the pairs of primitives
whose coefficients have a product below `1e-13` in absolute value. -/
noncomputable def pairScreened (A B : Shell) (C : Point) (V : ℝ → ℝ) (m n : Nat) : ℝ :=
  ∑ i ∈ Finset.range A.num, ∑ j ∈ Finset.range B.num,
    if |A.coeffs.getD i 0 * B.coeffs.getD j 0| < 1e-13 then 0 else A.coeffs.getD i 0 * B.coeffs.getD j 0 *
      ∫ r, primFn A.L A.origin (A.cartList.getD m (0, 0, 0)) (A.alpha.getD i 0) r * V (radius C r) *
        primFn B.L B.origin (B.cartList.getD n (0, 0, 0)) (B.alpha.getD j 0) r

end Libgrpp
