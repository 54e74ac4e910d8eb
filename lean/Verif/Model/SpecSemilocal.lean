import Verif.Model.Spec
import Verif.Model.SpecLocal
import Verif.Model.SpecSphere

/-! # Specification: matrix elements of semilocal potentials -/

namespace Libgrpp

open MeasureTheory Set

/-- The component of `f` along the real spherical harmonic `S_Lm` on the sphere of radius `r` about `C`: `∫ S_Lm(ω) f(C + r ω) dω`. -/
noncomputable def project (L : ℕ) (m : ℤ) (C : Point) (f : Point → ℝ) (r : ℝ) : ℝ :=
  sphInt fun ω => rsh L m ω * f fun i => C i + r * ω i

/-- The matrix element of the operator `U(r) Σ_mm' |S_Lm⟩ W_mm' ⟨S_Lm'|` centred at `C` between `f` and `g`; indices `0, …, 2L` stand for
`m = -L, …, L`. -/
noncomputable def semilocal (L : ℕ) (W : ℕ → ℕ → ℝ) (C : Point) (U : ℝ → ℝ) (f g : Point → ℝ) : ℝ :=
  ∫ r in Ioi (0:ℝ), r ^ 2 * (U r * ∑ i ∈ Finset.range (2 * L + 1), ∑ j ∈ Finset.range (2 * L + 1),
    W i j * (project L ((i : ℤ) - L) C f r * project L ((j : ℤ) - L) C g r))

/-- The projector `Σ_m |S_Lm⟩⟨S_Lm|`. -/
def projector (i j : ℕ) : ℝ := if i = j then 1 else 0

/-- The radial function of a potential, `Σ_k c_k r^(n_k - 2) exp(-ζ_k r²)`. -/
noncomputable def potentialRadial (p : Potential) (r : ℝ) : ℝ :=
  ∑ k ∈ Finset.range p.num, p.coeffs.getD k 0 * (r ^ (p.powers.getD k 0 - 2) * Real.exp (-p.alpha.getD k 0 * r ^ 2))

/-- A shell with the contraction coefficients up to `1e-14` in absolute value replaced by zero. -/
noncomputable def keepLarge (s : Shell) : Shell :=
  { s with coeffs := s.coeffs.map fun c => if |c| > zeroThresh then c else 0 }

/-- A potential with the coefficients up to `1e-14` in absolute value replaced by zero. -/
noncomputable def keepLargeTerms (p : Potential) : Potential :=
  { p with coeffs := p.coeffs.map fun c => if |c| > zeroThresh then c else 0 }

end Libgrpp
