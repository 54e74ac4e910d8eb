import Verif.Model.Driver
import Verif.Model.DriverGrpp
import Verif.Model.Elements
import Verif.Model.NuclearAttraction
import Verif.Model.SpecNuclear

/-! # Model of the nuclear-attraction part of the driver: `evaluate_nuclear_attraction_integrals` of `test_libgrpp_c/eval_integrals.c` -/

namespace Libgrpp

/-- `FERMI_UNITS_TO_ATOMIC`, nuclear_models.h:11. -/
noncomputable def fermiToAtomic : ℝ := 1 / 52917.7210903

/-- The array `nucmod_params`, eval_integrals.c:377-391: the elements that are stored (reading one of the others is undefined). If the estimate of the
parameters of the Fermi model fails, `c` stays uninitialised, and reading it is undefined; the return value is ignored. -/
noncomputable def driverNucParams (model : Int) (rms : ℝ) : Outcome (List ℝ) :=
  if model = modelPoint ∨ model = modelPointNumerical then .ok []
  else if model = modelGaussian ∨ model = modelBall then .ok [rms * fermiToAtomic]
  else do
    let e := estimateFermi rms 0
    Outcome.valid (e.1 ≠ -1)
    .ok [e.2.1 * fermiToAtomic, e.2.2 * fermiToAtomic]

/-- `evaluate_nuclear_attraction_integrals`, eval_integrals.c:343-406. An atom is its charge and its position. `buf` is the uninitialised array
`buf_nucattr`. -/
noncomputable def evalNuclear {G : Type} (env : NucEnv G) (model : Int) (shells : List Shell) (atoms : List (Nat × Point)) (buf matrix : List ℝ) :
    Outcome (List ℝ) := do
  let dim ← basisDim shells
  let matrix ← memset0 (dim * dim) matrix
  let r ← forShellPairs shells (buf, matrix) fun io jo bra ket st =>
    forRange atoms.length st fun ia (st : List ℝ × List ℝ) => do
      let atom ← rd atoms ia
      let mass ← massNumberAbundant atom.1
      let mp ← driverNucParams model (rmsJohnson mass)
      let buf ← nuclearAttraction env bra ket atom.2 atom.1 model mp st.1
      let m ← addBlock dim st.2 bra.cart_size ket.cart_size buf io jo 1
      .ok (buf, m)
  .ok r.2

/-! ## Specification -/

/-- The rms radius of the nucleus of charge `z` in atomic units: the estimate of Johnson and Soff (1985) for the mass number of the table. -/
noncomputable def nucleusRadius (z : Nat) : ℝ := (0.836 * ((periodicTable.getD z ⟨[], 0⟩).mass : ℝ) ^ (1 / 3 : ℝ) + 0.570) / 52917.7210903

/-- The parameter `a` of the Fermi model in atomic units: skin thickness 2.3 fm. -/
noncomputable def nucleusSkin : ℝ := 2.3 / (4 * Real.log 3) / 52917.7210903

/-- The parameter `c` of the Fermi model in atomic units, so that the rms radius is (nearly) `nucleusRadius z`. -/
noncomputable def nucleusHalf (z : Nat) : ℝ := Real.sqrt (5 / 3 * nucleusRadius z ^ 2 - 7 / 3 * Real.pi ^ 2 * nucleusSkin ^ 2)

/-- The energy of an electron in the field of the nucleus of charge `z` in the model `model`. -/
noncomputable def nucleusEnergy (model : Int) (z : Nat) : ℝ → ℝ :=
  if model = modelBall then electronEnergy fun s => densBall s z (nucleusRadius z)
  else if model = modelGaussian then electronEnergy fun s => densGauss s z (nucleusRadius z)
  else if model = modelFermi then electronEnergy (fermiDensity z (nucleusHalf z) nucleusSkin)
  else fun r => -(z : ℝ) / r

end Libgrpp
