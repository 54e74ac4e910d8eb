import Mathlib.Analysis.SpecialFunctions.Exp
import Mathlib.Analysis.SpecialFunctions.Trigonometric.Basic
import Mathlib.MeasureTheory.Integral.IntervalIntegral.Basic
import Mathlib.Topology.Algebra.InfiniteSum.Basic

/-! # Mathematical meaning of nuclear charge distributions

Spherically symmetric charge densities and their electrostatic potentials; nothing here refers to how the library
computes anything. -/

namespace Libgrpp

open MeasureTheory

/-- Total charge of the density `ρ(|r|)`. -/
noncomputable def totalCharge (ρ : ℝ → ℝ) : ℝ := ∫ s in Set.Ioi (0 : ℝ), 4 * Real.pi * s ^ 2 * ρ s

/-- Second moment `∫ |r|² ρ(|r|) dr`. -/
noncomputable def secondMoment (ρ : ℝ → ℝ) : ℝ := ∫ s in Set.Ioi (0 : ℝ), 4 * Real.pi * s ^ 4 * ρ s

/-- Energy of an electron (charge -1) at distance `r` from the centre of the density: minus the electrostatic potential,
the charge inside the sphere of radius `r` acting as if it were at the centre, and every shell outside of it contributing
its charge divided by its radius. -/
noncomputable def electronEnergy (ρ : ℝ → ℝ) (r : ℝ) : ℝ :=
  -((∫ s in (0 : ℝ)..r, 4 * Real.pi * s ^ 2 * ρ s) / r + ∫ s in Set.Ioi r, 4 * Real.pi * s * ρ s)

/-- The Fermi (Woods-Saxon) density of total charge `Z`: proportional to `1 / (1 + exp((r - c) / a))`. -/
noncomputable def fermiDensity (Z c a r : ℝ) : ℝ :=
  Z / totalCharge (fun s => 1 / (1 + Real.exp ((s - c) / a))) * (1 / (1 + Real.exp ((r - c) / a)))

/-- `S_k(x) = Σ_{n ≥ 1} (-1)^n exp(n x) / n^k` (comment at specfunc_fermi_sk.c:16-31, and N. S. Mosyagin et al. 2019), for
`x ≤ 0`. -/
noncomputable def fermiS (k : ℕ) (x : ℝ) : ℝ := ∑' n : ℕ, (-1 : ℝ) ^ (n + 1) * Real.exp (((n : ℝ) + 1) * x) / ((n : ℝ) + 1) ^ k

end Libgrpp
