import Verif.Model.Radial
import Verif.Model.Shell

/-! # Library parameters: parameters.c -/

namespace Libgrpp

/-- Calls of the setters. -/
inductive ParamCall where
  | setDefault
  | radial (x : ℝ)
  | angular (x : ℝ)
  | bessel (x : ℝ)
  | order (o : Int)
  | generator (g : Nat → List Comp)

/-- `libgrpp_params`. -/
abbrev Params := LibParams (Nat → List Comp)

/-- Initial value, parameters.c:17-27. -/
noncomputable def initialParams : Params := ⟨1e-16, 1e-16, 1e-16, cartesianDirac⟩

/-- One setter: `libgrpp_set_default_parameters` parameters.c:30-39, `libgrpp_set_radial_tolerance` 42-48,
`libgrpp_set_angular_screening_tolerance` 51-57, `libgrpp_set_modified_bessel_tolerance` 60-66,
`libgrpp_set_cartesian_order` 69-82 (0: DIRAC, 1: TURBOMOLE, parameters.h:11-14), `libgrpp_set_cartesian_generator` 85-91. -/
noncomputable def applyParam (p : Params) : ParamCall → Outcome Params
  | .setDefault => .ok ⟨1e-16, 1e-16, 1e-16, cartesianDirac⟩
  | .radial x => .ok { p with radial := x }
  | .angular x => .ok { p with angular := x }
  | .bessel x => .ok { p with bessel := x }
  | .order o => do
    Outcome.assert (o = 0 ∨ o = 1)
    if o = 0 then .ok { p with generator := cartesianDirac }
    else if o = 1 then .ok { p with generator := cartesianTurbomole }
    else .ok p
  | .generator g => .ok { p with generator := g }

/-- A sequence of setter calls. -/
noncomputable def runParams (p : Params) (cs : List ParamCall) : Outcome Params := cs.foldlM applyParam p

/-- `libgrpp_new_shell` under the current parameters: shell.c:121 calls `libgrpp_params.cartesian_generator`. -/
noncomputable def newShellP (p : Params) (origin : Point) (L num : Nat) (coeffs alpha : List ℝ) : Outcome Shell :=
  newShell p.generator origin L num coeffs alpha

end Libgrpp
