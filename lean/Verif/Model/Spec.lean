import Verif.Model.Shell
import Mathlib.Analysis.SpecialFunctions.Gaussian.GaussianIntegral
import Mathlib.Analysis.Calculus.Deriv.Basic
import Mathlib.MeasureTheory.Integral.Pi

/-! # Mathematical meaning of shells

What the documentation (libgrpp manual, "Basis functions") says a shell is: a set of contracted Cartesian
Gaussian functions. Nothing here refers to how the library computes anything. -/

namespace Libgrpp

/-- Exponents of a component as a function of the coordinate. -/
def Comp.exp (c : Comp) : Fin 3 → Nat := ![c.1, c.2.1, c.2.2]

/-- The normalised primitive `N(L,α) (x-Ax)^n (y-Ay)^l (z-Az)^m exp(-α|r-A|²)` with
`N(L,α) = (2α/π)^(3/4) (4α)^(L/2)`. -/
noncomputable def primFn (L : Nat) (O : Point) (c : Comp) (α : ℝ) (r : Point) : ℝ :=
  (2 * α / Real.pi) ^ (3 / 4 : ℝ) * (4 * α) ^ ((L : ℝ) / 2) *
    ((∏ k, (r k - O k) ^ c.exp k) * Real.exp (-α * ∑ k, (r k - O k) ^ 2))

/-- The `m`-th contracted function of a shell. -/
noncomputable def basisFn (s : Shell) (m : Nat) (r : Point) : ℝ :=
  ∑ i ∈ Finset.range s.num,
    s.coeffs.getD i 0 * primFn s.L s.origin (s.cartList.getD m (0, 0, 0)) (s.alpha.getD i 0) r

/-- Partial derivative with respect to coordinate `k`. -/
noncomputable def pderiv (k : Fin 3) (f : Point → ℝ) (r : Point) : ℝ :=
  deriv (fun t => f (Function.update r k t)) (r k)

/-- Laplacian. -/
noncomputable def laplacian (f : Point → ℝ) (r : Point) : ℝ := ∑ k, pderiv k (pderiv k f) r

end Libgrpp
