import Verif.Model.SpecSphere
import Mathlib.Analysis.SpecialFunctions.Trigonometric.Deriv

/-! # Specification: rotations of space -/

namespace Libgrpp

/-- The point turned by the angle `t` about the axis `0`, `1` or `2`. -/
noncomputable def turn (axis : Fin 3) (t : ℝ) (ω : Point) : Point :=
  match axis with
  | 0 => ![ω 0, Real.cos t * ω 1 - Real.sin t * ω 2, Real.sin t * ω 1 + Real.cos t * ω 2]
  | 1 => ![Real.cos t * ω 0 + Real.sin t * ω 2, ω 1, Real.cos t * ω 2 - Real.sin t * ω 0]
  | 2 => ![Real.cos t * ω 0 - Real.sin t * ω 1, Real.sin t * ω 0 + Real.cos t * ω 1, ω 2]

end Libgrpp
