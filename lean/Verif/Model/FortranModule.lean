import Verif.Model.Fortran
import Verif.Model.NuclearModels

/-! # Model of the Fortran 90 module `test_libgrpp_f90/libgrpp.f90` and of the scalar wrappers of `libgrpp/fortran.c`

Two-dimensional arrays are lists of rows: `a(i, :)` is the `i`-th row (counted from zero here). Row sections are copied into contiguous
temporaries by the compiler before the C routine is called; the copies are the rows themselves. -/

namespace Libgrpp

/-- The arguments of `libgrpp_outercore_potential_integrals` that describe the outer-core shells and their potentials, libgrpp.f90:263-265 and
282-293. -/
structure FOcTable where
  num : Nat
  L : List Nat
  J : List Int
  potNum : List Nat
  powers : List (List Int)
  coeffs : List (List ℝ)
  alpha : List (List ℝ)
  shellNum : List Nat
  shellCoeffs : List (List ℝ)
  shellAlpha : List (List ℝ)

/-- The arguments taken from row `i`, libgrpp.f90:318-325, 333-343. -/
def FOcTable.row (t : FOcTable) (i : Nat) : Outcome FOc := do
  let L ← rd t.L i
  let J ← rd t.J i
  let n ← rd t.potNum i
  let p ← rd t.powers i
  let c ← rd t.coeffs i
  let a ← rd t.alpha i
  let sn ← rd t.shellNum i
  let sc ← rd t.shellCoeffs i
  let sa ← rd t.shellAlpha i
  .ok ⟨L, J, ⟨n, p, c, a⟩, sn, sc, sa⟩

/-- `libgrpp_outercore_potential_integrals` of the module, libgrpp.f90:260-349. -/
noncomputable def modOuterCore (gen : Nat → List Comp) (sf : SpecFun) (init : Bool) (h : Store) (a b : FShell) (C : Point) (t : FOcTable)
    (out : Fin 4 → List ℝ) : Outcome (Store × (Fin 4 → List ℝ)) := do
  let n := (a.L + 1) * (a.L + 2) / 2 * ((b.L + 1) * (b.L + 2) / 2)
  let o0 ← memset0 n (out 0)
  let o1 ← memset0 n (out 1)
  let o2 ← memset0 n (out 2)
  let o3 ← memset0 n (out 3)
  let st ← forRange t.num ((h, ![o0, o1, o2, o3]) : Store × (Fin 4 → List ℝ)) fun i st => do
    let u ← t.row i
    ftnOcPart1 gen sf init st.1 a b C u.L u.J u.u u.num u.coeffs u.alpha st.2
  forRange t.num st fun i st => forRange t.num st fun j st => do
    let u ← t.row i
    let v ← t.row j
    ftnOcPart2 gen st.1 a b C u v st.2

/-- `libgrpp_outercore_potential_integrals_gradient` of the module, libgrpp.f90:351-416: the body is a comment, so that nothing is written.
`grad` are the twelve arrays for the results. -/
def modOuterCoreGradient (h : Store) (_a _b : FShell) (_C : Point) (_t : FOcTable) (_point : Point) (grad : Fin 12 → List ℝ) :
    Outcome (Store × (Fin 12 → List ℝ)) := .ok (h, grad)

/-! ## Nuclear models, fortran.c:1000-1081

A variable of the Fortran program is a cell; the wrappers read their arguments and write the result. -/

/-- Cells for `double` and `int32_t` variables. -/
structure Cells where
  real : Nat → ℝ
  int : Nat → Int

/-- `*p = v;` -/
def Cells.put (m : Cells) (p : Nat) (v : ℝ) : Cells := { m with real := Function.update m.real p v }

/-- `libgrpp_estimate_nuclear_rms_radius_johnson_1985_`, fortran.c:1000-1003. -/
noncomputable def ftnRmsJohnson (m : Cells) (A R : Nat) : Cells := m.put R (rmsJohnson (m.int A))

/-- `libgrpp_estimate_nuclear_rms_radius_golovko_2008_`, fortran.c:1006-1009. -/
noncomputable def ftnRmsGolovko (m : Cells) (A R : Nat) : Cells := m.put R (rmsGolovko (m.int A))

/-- `libgrpp_estimate_fermi_model_parameters_`, fortran.c:1012-1015. The C routine writes `*a` first and `*c` only if it succeeds
(nuclear_models.c:71-79); here the old value of `*c` is stored again otherwise, which is the same as long as `a` and `c` are different variables. -/
noncomputable def ftnEstimateFermi (m : Cells) (R c a err : Nat) : Cells :=
  let r := estimateFermi (m.real R) (m.real c)
  let m := (m.put a r.2.2).put c r.2.1
  { m with int := Function.update m.int err r.1 }

/-- `libgrpp_charge_density_ball_`, fortran.c:1018-1021. -/
noncomputable def ftnDensBall (m : Cells) (r Z R rho : Nat) : Cells := m.put rho (densBall (m.real r) (m.real Z) (m.real R))

/-- `libgrpp_charge_density_gaussian_`, fortran.c:1024-1027. -/
noncomputable def ftnDensGauss (m : Cells) (r Z R rho : Nat) : Cells := m.put rho (densGauss (m.real r) (m.real Z) (m.real R))

/-- `libgrpp_charge_density_fermi_`, fortran.c:1030-1033. -/
noncomputable def ftnDensFermi (sk : SkFun) (m : Cells) (r Z c a rho : Nat) : Outcome Cells := do
  let v ← densFermi sk (m.real r) (m.real Z) (m.real c) (m.real a)
  .ok (m.put rho v)

/-- `libgrpp_charge_density_fermi_bubble_`, fortran.c:1036-1039. -/
noncomputable def ftnDensBubble (sk : SkFun) (m : Cells) (r Z c a k rho : Nat) : Outcome Cells := do
  let v ← densBubble sk (m.real r) (m.real Z) (m.real c) (m.real a) (m.real k)
  .ok (m.put rho v)

/-- `libgrpp_coulomb_potential_point_`, fortran.c:1042-1045. -/
noncomputable def ftnPotPoint (m : Cells) (r Z pot : Nat) : Cells := m.put pot (potPoint (m.real r) (m.real Z))

/-- `libgrpp_coulomb_potential_ball_`, fortran.c:1048-1051. -/
noncomputable def ftnPotBall (m : Cells) (r Z R pot : Nat) : Cells := m.put pot (potBall (m.real r) (m.real Z) (m.real R))

/-- `libgrpp_coulomb_potential_gaussian_`, fortran.c:1054-1057. -/
noncomputable def ftnPotGauss (m : Cells) (r Z R pot : Nat) : Cells := m.put pot (potGauss (m.real r) (m.real Z) (m.real R))

/-- `libgrpp_coulomb_potential_fermi_`, fortran.c:1060-1063. -/
noncomputable def ftnPotFermi (sk : SkFun) (m : Cells) (r Z c a pot : Nat) : Outcome Cells := do
  let v ← potFermi sk (m.real r) (m.real Z) (m.real c) (m.real a)
  .ok (m.put pot v)

/-- `libgrpp_coulomb_potential_fermi_bubble_`, fortran.c:1066-1069. -/
noncomputable def ftnPotBubble (sk : SkFun) (m : Cells) (r Z c a k pot : Nat) : Outcome Cells := do
  let v ← potBubble sk (m.real r) (m.real Z) (m.real c) (m.real a) (m.real k)
  .ok (m.put pot v)

/-- `libgrpp_rms_radius_fermi_`, fortran.c:1072-1075. -/
noncomputable def ftnRmsFermi (sk : SkFun) (m : Cells) (Z c a rms : Nat) : Outcome Cells := do
  let v ← rmsFermi sk (m.int Z) (m.real c) (m.real a)
  .ok (m.put rms v)

/-- `libgrpp_rms_radius_fermi_bubble_`, fortran.c:1078-1081. -/
noncomputable def ftnRmsBubble (sk : SkFun) (m : Cells) (Z c a k rms : Nat) : Outcome Cells := do
  let v ← rmsBubble sk (m.int Z) (m.real c) (m.real a) (m.real k)
  .ok (m.put rms v)

end Libgrpp
