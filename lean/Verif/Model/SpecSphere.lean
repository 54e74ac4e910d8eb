import Verif.Model.Utils
import Mathlib.MeasureTheory.Constructions.HaarToSphere
import Mathlib.MeasureTheory.Measure.Haar.OfBasis
import Mathlib.Analysis.InnerProductSpace.PiL2
import Mathlib.MeasureTheory.Measure.Haar.InnerProductSpace
import Mathlib.Algebra.Polynomial.Derivative
import Mathlib.Analysis.SpecialFunctions.Trigonometric.Basic
import Mathlib.Analysis.SpecialFunctions.Sqrt
import Mathlib.Data.Nat.Factorial.DoubleFactorial
import Mathlib.Topology.Algebra.InfiniteSum.Basic

/-! # The unit sphere: integration, real spherical harmonics, modified spherical Bessel functions

Standard definitions of mathematics; nothing here refers to how the library computes anything. -/

namespace Libgrpp

open scoped Nat Polynomial

/-- `∫ f(ω) dω` over the unit sphere, with respect to the surface measure (total mass `4π`). -/
noncomputable def sphInt {F : Type*} [NormedAddCommGroup F] [NormedSpace ℝ F] (f : Point → F) : F :=
  ∫ ω : Metric.sphere (0 : EuclideanSpace ℝ (Fin 3)) 1, f (fun k => (ω : EuclideanSpace ℝ (Fin 3)) k)
    ∂(MeasureTheory.Measure.toSphere (MeasureTheory.volume : MeasureTheory.Measure (EuclideanSpace ℝ (Fin 3))))

/-- The `m`-th derivative of the Legendre polynomial `P_l`, by Rodrigues' formula: `(d/dz)^(l+m) (z²-1)^l / (2^l l!)`. -/
noncomputable def legendreDeriv (l m : ℕ) : ℝ[X] :=
  Polynomial.C (1 / (2 ^ l * (l ! : ℝ))) * Polynomial.derivative^[l + m] ((Polynomial.X ^ 2 - 1 : ℝ[X]) ^ l)

/-- Normalisation of the real spherical harmonics; the factor `1/√2` for `m = 0`. -/
noncomputable def rshNorm (l m : ℕ) : ℝ :=
  Real.sqrt ((2 * l + 1) / (2 * Real.pi) * (((l - m)! : ℝ) / ((l + m)! : ℝ))) * if m = 0 then 1 / Real.sqrt 2 else 1

/-- The real spherical harmonic `S_lm` at the point `ω` of the unit sphere: `N_lm P_l^(|m|)(z)` times `Re (x+iy)^m` for `m ≥ 0`,
`Im (x+iy)^|m|` for `m < 0`, i.e. `sin^|m| θ` times `cos mφ` resp. `sin |m|φ`. -/
noncomputable def rsh (l : ℕ) (m : ℤ) (ω : Point) : ℝ :=
  rshNorm l m.natAbs * (legendreDeriv l m.natAbs).eval (ω 2) *
    if 0 ≤ m then ((⟨ω 0, ω 1⟩ : ℂ) ^ m.natAbs).re else ((⟨ω 0, ω 1⟩ : ℂ) ^ m.natAbs).im

/-- The modified spherical Bessel function of the first kind, `i_l(x) = Σ_j x^(l+2j) / ((2j)!! (2l+2j+1)!!)`. -/
noncomputable def besselI (l : ℕ) (x : ℝ) : ℝ := ∑' j : ℕ, x ^ (l + 2 * j) / ((2 * j)‼ * (2 * l + 2 * j + 1)‼ : ℝ)

end Libgrpp
