import Verif.Model.Grpp
import Verif.Model.Type2
import Verif.Model.OuterCore
import Verif.Model.NuclearAttraction
import Verif.Model.Parameters

/-! # Model of `libgrpp/fortran.c`

The store is that of `Model/Grpp.lean`. `int32_t` arguments are passed by reference and converted to `int`; both are integers here.
`L` and numbers of primitives are naturals. Caller's arrays are lists. Objects are handed over by address: the C routines read the shells
and potentials when they are called. The work buffers inside the C routines are not part of the store. -/

namespace Libgrpp

/-- The five arguments that describe a contracted Gaussian. -/
structure FShell where
  origin : Point
  L : Nat
  num : Nat
  coeffs : List ℝ
  alpha : List ℝ

/-- The four arguments that describe the primitives of a potential. -/
structure FPot where
  num : Nat
  powers : List Int
  coeffs : List ℝ
  alpha : List ℝ

/-- `libgrpp_new_shell`, with the object in the store. -/
noncomputable def putShell (gen : Nat → List Comp) (h : Store) (a : FShell) : Outcome (Addr × Store) := do
  let s ← newShell gen a.origin a.L a.num a.coeffs a.alpha
  .ok (h.alloc (.shell s))

/-- `libgrpp_new_potential`, with the object in the store. -/
noncomputable def putPot (h : Store) (L J : Int) (num : Nat) (powers : List Int) (coeffs alpha : List ℝ) : Outcome (Addr × Store) := do
  let p ← newPotential L J num powers coeffs alpha
  .ok (h.alloc (.pot p))

/-- The loop `pot_powers_int[i] = rpp_powers[i];` into a zero-filled array, for example fortran.c:101-105. -/
def copyPowers (n : Nat) (powers : List Int) : Outcome (List Int) :=
  forRange n (List.replicate n 0) fun i q => do
    let v ← rd powers i
    wr q i v

/-- The common text of the wrappers without a potential, for example fortran.c:726-732: two shells are created, `call` is called, the shells are
deleted. -/
noncomputable def withShells {α : Type} (gen : Nat → List Comp) (h : Store) (a b : FShell)
    (call : Store → Addr → Addr → Outcome (Store × α)) : Outcome (Store × α) := do
  let s ← putShell gen h a
  let t ← putShell gen s.2 b
  let r ← call t.2 s.1 t.1
  let h ← r.1.release .shell (some s.1)
  let h ← h.release .shell (some t.1)
  .ok (h, r.2)

/-- The common text of the wrappers with one potential, for example fortran.c:101-116. -/
noncomputable def withPot {α : Type} (gen : Nat → List Comp) (h : Store) (a b : FShell) (L J : Int) (u : FPot)
    (call : Store → Addr → Addr → Addr → Outcome (Store × α)) : Outcome (Store × α) := do
  let q := h.alloc .array
  let pw ← copyPowers u.num u.powers
  let p ← putPot q.2 L J u.num pw u.coeffs u.alpha
  let r ← withShells gen p.2 a b fun h s t => call h s t p.1
  let h ← r.1.release .pot (some p.1)
  let h ← h.release .array (some q.1)
  .ok (h, r.2)

/-- A call of a routine that reads two shells. -/
def onShells {α : Type} (f : Shell → Shell → Outcome α) (h : Store) (s t : Addr) : Outcome (Store × α) := do
  let A ← derefShell h (some s)
  let B ← derefShell h (some t)
  let r ← f A B
  .ok (h, r)

/-- A call of a routine that reads two shells and a potential. -/
def onPot {α : Type} (f : Shell → Shell → Potential → Outcome α) (h : Store) (s t p : Addr) : Outcome (Store × α) := do
  let A ← derefShell h (some s)
  let B ← derefShell h (some t)
  let P ← derefPot h (some p)
  let r ← f A B P
  .ok (h, r)

/-! ## Integrals -/

/-- `libgrpp_type1_integrals_`, fortran.c:78-117. -/
noncomputable def ftnType1 (gen : Nat → List Comp) (sf : SpecFun) (init : Bool) (h : Store) (a b : FShell) (C : Point) (u : FPot) (out : List ℝ) :
    Outcome (Store × List ℝ) :=
  withPot gen h a b 0 0 u (onPot fun A B P => type1Integrals sf init A B C (some P) out)

/-- `libgrpp_type2_integrals_`, fortran.c:124-165. -/
noncomputable def ftnType2 {G : Type} (lib : Lib G) (h : Store) (a b : FShell) (C : Point) (L : Int) (u : FPot) (out : List ℝ) :
    Outcome (Store × List ℝ) :=
  withPot lib.gen h a b L 0 u (onPot fun A B P => type2Integrals lib A B C P out)

/-- `libgrpp_spin_orbit_integrals_`, fortran.c:172-222. -/
noncomputable def ftnSpinOrbit {G : Type} (lib : Lib G) (h : Store) (a b : FShell) (C : Point) (L : Int) (u : FPot) (out : LMat) :
    Outcome (Store × LMat) :=
  withPot lib.gen h a b L 0 u (onPot fun A B P => spinOrbitIntegrals lib A B C P out)

/-- `oc_shell->origin[i] = C[i];` in the routine called, outercore_integrals.c:162-164, 297-302. -/
def moveShell (C : Point) (h : Store) (a : Addr) : Outcome Store := do
  let s ← derefShell h (some a)
  .ok { h with mem := Function.update h.mem a (some (.shell (bindOrigin C s))) }

/-- `libgrpp_outercore_potential_integrals_part_1_`, fortran.c:231-316. The routine called stores the origin in the outer-core shell. -/
noncomputable def ftnOcPart1 (gen : Nat → List Comp) (sf : SpecFun) (init : Bool) (h : Store) (a b : FShell) (C : Point) (L : Nat) (J : Int) (u : FPot)
    (num : Nat) (coeffs alpha : List ℝ) (out : Fin 4 → List ℝ) : Outcome (Store × (Fin 4 → List ℝ)) := do
  let q := h.alloc .array
  let pw ← copyPowers u.num u.powers
  let s ← putShell gen q.2 a
  let t ← putShell gen s.2 b
  let p ← putPot t.2 L J u.num pw u.coeffs u.alpha
  let o ← putShell gen p.2 ⟨C, L, num, coeffs, alpha⟩
  let A ← derefShell o.2 (some s.1)
  let B ← derefShell o.2 (some t.1)
  let P ← derefPot o.2 (some p.1)
  let O ← derefShell o.2 (some o.1)
  let out ← ocPart1 sf init A B C P O out
  let h ← moveShell C o.2 o.1
  let h ← h.release .shell (some s.1)
  let h ← h.release .shell (some t.1)
  let h ← h.release .pot (some p.1)
  let h ← h.release .shell (some o.1)
  let h ← h.release .array (some q.1)
  .ok (h, out)

/-- The arguments that describe an outer-core shell and its potential. -/
structure FOc where
  L : Nat
  J : Int
  u : FPot
  num : Nat
  coeffs : List ℝ
  alpha : List ℝ

/-- `libgrpp_outercore_potential_integrals_part_2_`, fortran.c:325-436. The routine called stores the origin in both outer-core shells, unless it
returns at once (outercore_integrals.c:287-292). -/
noncomputable def ftnOcPart2 (gen : Nat → List Comp) (h : Store) (a b : FShell) (C : Point) (u v : FOc) (out : Fin 4 → List ℝ) :
    Outcome (Store × (Fin 4 → List ℝ)) := do
  let q1 := h.alloc .array
  let q2 := q1.2.alloc .array
  let w1 ← copyPowers u.u.num u.u.powers
  let w2 ← copyPowers v.u.num v.u.powers
  let s ← putShell gen q2.2 a
  let t ← putShell gen s.2 b
  let p1 ← putPot t.2 u.L u.J u.u.num w1 u.u.coeffs u.u.alpha
  let o1 ← putShell gen p1.2 ⟨C, u.L, u.num, u.coeffs, u.alpha⟩
  let p2 ← putPot o1.2 v.L v.J v.u.num w2 v.u.coeffs v.u.alpha
  let o2 ← putShell gen p2.2 ⟨C, v.L, v.num, v.coeffs, v.alpha⟩
  let A ← derefShell o2.2 (some s.1)
  let B ← derefShell o2.2 (some t.1)
  let P1 ← derefPot o2.2 (some p1.1)
  let O1 ← derefShell o2.2 (some o1.1)
  let P2 ← derefPot o2.2 (some p2.1)
  let O2 ← derefShell o2.2 (some o2.1)
  let out ← ocPart2 A B C P1 O1 P2 O2 out
  let h ← if P1.L ≠ P2.L ∨ P1.J ≠ P2.J then .ok o2.2 else do
    let h ← moveShell C o2.2 o1.1
    moveShell C h o2.1
  let h ← h.release .shell (some s.1)
  let h ← h.release .shell (some t.1)
  let h ← h.release .pot (some p1.1)
  let h ← h.release .pot (some p2.1)
  let h ← h.release .shell (some o1.1)
  let h ← h.release .shell (some o2.1)
  let h ← h.release .array (some q1.1)
  let h ← h.release .array (some q2.1)
  .ok (h, out)

/-- `libgrpp_overlap_integrals_`, fortran.c:709-733. -/
noncomputable def ftnOverlap (gen : Nat → List Comp) (h : Store) (a b : FShell) (out : List ℝ) : Outcome (Store × List ℝ) :=
  withShells gen h a b (onShells fun A B => overlapIntegrals A B out)

/-- `libgrpp_kinetic_energy_integrals_`, fortran.c:740-764. -/
noncomputable def ftnKinetic (gen : Nat → List Comp) (h : Store) (a b : FShell) (out : List ℝ) : Outcome (Store × List ℝ) :=
  withShells gen h a b (onShells fun A B => kineticIntegrals A B out)

/-- `libgrpp_momentum_integrals_`, fortran.c:771-797. The C routine fills the three matrices one after the other in every step of its loops;
its model (Model/OneElectron) has one function per matrix. -/
noncomputable def ftnMomentum (gen : Nat → List Comp) (h : Store) (a b : FShell) (out : Fin 3 → List ℝ) : Outcome (Store × (Fin 3 → List ℝ)) :=
  withShells gen h a b (onShells fun A B => do
    let x ← momentumIntegrals 0 A B (out 0)
    let y ← momentumIntegrals 1 A B (out 1)
    let z ← momentumIntegrals 2 A B (out 2)
    .ok ![x, y, z])

/-- `libgrpp_nuclear_attraction_integrals_`, fortran.c:804-834. -/
noncomputable def ftnNuclear {G : Type} (gen : Nat → List Comp) (env : NucEnv G) (h : Store) (a b : FShell) (C : Point) (charge model : Int)
    (mp out : List ℝ) : Outcome (Store × List ℝ) :=
  withShells gen h a b (onShells fun A B => nuclearAttraction env A B C charge model mp out)

/-- `libgrpp_nuclear_attraction_integrals_point_charge_`, fortran.c:837-864. -/
noncomputable def ftnNuclearPoint {G : Type} (gen : Nat → List Comp) (env : NucEnv G) (h : Store) (a b : FShell) (C : Point) (charge : Int)
    (out : List ℝ) : Outcome (Store × List ℝ) :=
  withShells gen h a b (onShells fun A B => nucAttractionPoint env A B C charge out)

/-- `libgrpp_nuclear_attraction_integrals_charged_ball_`, fortran.c:867-895. -/
noncomputable def ftnNuclearBall {G : Type} (gen : Nat → List Comp) (env : NucEnv G) (h : Store) (a b : FShell) (C : Point) (charge : Int)
    (rms : ℝ) (out : List ℝ) : Outcome (Store × List ℝ) :=
  withShells gen h a b (onShells fun A B => nucAttractionBall env A B C charge rms out)

/-- `libgrpp_nuclear_attraction_integrals_gaussian_model_`, fortran.c:898-926. -/
noncomputable def ftnNuclearGaussian {G : Type} (gen : Nat → List Comp) (env : NucEnv G) (h : Store) (a b : FShell) (C : Point) (charge : Int)
    (rms : ℝ) (out : List ℝ) : Outcome (Store × List ℝ) :=
  withShells gen h a b (onShells fun A B => nucAttractionGaussian env A B C charge rms out)

/-- `libgrpp_nuclear_attraction_integrals_fermi_model_`, fortran.c:929-959. -/
noncomputable def ftnNuclearFermi {G : Type} (gen : Nat → List Comp) (env : NucEnv G) (h : Store) (a b : FShell) (C : Point) (charge : Int)
    (c w : ℝ) (out : List ℝ) : Outcome (Store × List ℝ) :=
  withShells gen h a b (onShells fun A B => nucAttractionFermi env A B C charge c w out)

/-- `libgrpp_nuclear_attraction_integrals_fermi_bubble_model_`, fortran.c:962-993. -/
noncomputable def ftnNuclearBubble {G : Type} (gen : Nat → List Comp) (env : NucEnv G) (h : Store) (a b : FShell) (C : Point) (charge : Int)
    (c w k : ℝ) (out : List ℝ) : Outcome (Store × List ℝ) :=
  withShells gen h a b (onShells fun A B => nucAttractionBubble env A B C charge c w k out)

/-! ## Gradients

The C routines work on the store; the shells are part of `GradEnv` by value. -/

/-- `libgrpp_type1_integrals_gradient_`, fortran.c:443-490; `e` holds the remaining arguments, its shells are replaced. -/
noncomputable def ftnType1Gradient (e : GradEnv) (h : Store) (a b : FShell) (u : FPot) (grad : Fin 3 → List ℝ) :
    Outcome (Store × (Fin 3 → List ℝ)) :=
  withPot e.gen h a b 0 0 u fun h s t p => do
    let A ← derefShell h (some s)
    let B ← derefShell h (some t)
    type1Gradient { e with A := A, B := B } h (some p) grad

/-- `libgrpp_type2_integrals_gradient_`, fortran.c:497-546. -/
noncomputable def ftnType2Gradient (e : GradEnv) (h : Store) (a b : FShell) (L : Int) (u : FPot) (grad : Fin 3 → List ℝ) :
    Outcome (Store × (Fin 3 → List ℝ)) :=
  withPot e.gen h a b L 0 u fun h s t p => do
    let A ← derefShell h (some s)
    let B ← derefShell h (some t)
    type2Gradient { e with A := A, B := B } h (some p) grad

/-- `libgrpp_spin_orbit_integrals_gradient_`, fortran.c:553-633. -/
noncomputable def ftnSpinOrbitGradient (e : GradEnv) (h : Store) (a b : FShell) (L : Int) (u : FPot) (grad : Fin 3 × Fin 3 → List ℝ) :
    Outcome (Store × (Fin 3 × Fin 3 → List ℝ)) :=
  withPot e.gen h a b L 0 u fun h s t p => do
    let A ← derefShell h (some s)
    let B ← derefShell h (some t)
    soGradient { e with A := A, B := B } h (some p) grad

/-! ## Overlap of two functions and normalisation -/

/-- `shell->cart_size = 1; shell->cart_list[0..2] = n, l, m;`, fortran.c:668-676. -/
def oneComp (s : Shell) (c : Comp) : Outcome Shell := do
  let l ← wr s.cartList 0 c
  .ok { s with cart_size := 1, cartList := l }

/-- The arguments of one function in `evaluate_overlap_integral_contracted_`. -/
structure FComp where
  origin : Point
  comp : Comp
  num : Nat
  coeffs : List ℝ
  alpha : List ℝ

/-- Store a modified shell. -/
def Store.setShell (h : Store) (a : Addr) (s : Shell) : Store := { h with mem := Function.update h.mem a (some (.shell s)) }

/-- `evaluate_overlap_integral_contracted_`, fortran.c:641-682. `*overlap_integral` is an array with one element. -/
noncomputable def ftnOverlapOne (gen : Nat → List Comp) (h : Store) (a b : FComp) (out : List ℝ) : Outcome (Store × List ℝ) :=
  withShells gen h ⟨a.origin, a.comp.1 + a.comp.2.1 + a.comp.2.2, a.num, a.coeffs, a.alpha⟩
    ⟨b.origin, b.comp.1 + b.comp.2.1 + b.comp.2.2, b.num, b.coeffs, b.alpha⟩ fun h s t => do
      let A ← derefShell h (some s)
      let A ← oneComp A a.comp
      let h := h.setShell s A
      let B ← derefShell h (some t)
      let B ← oneComp B b.comp
      let h := h.setShell t B
      let r ← overlapIntegrals A B out
      .ok (h, r)

/-- `radial_gto_norm_factor_`, fortran.c:689-702. -/
noncomputable def ftnNormFactor (gen : Nat → List Comp) (h : Store) (L num : Nat) (coeffs alpha : List ℝ) : Outcome (Store × ℝ) := do
  let f : FComp := ⟨![0, 0, 0], (L, 0, 0), num, coeffs, alpha⟩
  let r ← ftnOverlapOne gen h f f [0]
  let S ← rd r.2 0
  let d ← doubleFactorialC (2 * L - 1)
  .ok (r.1, Real.sqrt d / Real.sqrt S)

/-! ## Parameters and nuclear models -/

/-- The Fortran setters, fortran.c:29-56: each calls the C setter with the value its argument points to. -/
inductive FParamCall where
  | setDefault
  | radial (x : ℝ)
  | angular (x : ℝ)
  | bessel (x : ℝ)
  | order (o : Int)

/-- `libgrpp_set_default_parameters_`, `libgrpp_set_radial_tolerance_`, `libgrpp_set_angular_screening_tolerance_`,
`libgrpp_set_modified_bessel_tolerance_`, `libgrpp_set_cartesian_order_`, fortran.c:29-56. -/
noncomputable def ftnParam (p : Params) : FParamCall → Outcome Params
  | .setDefault => applyParam p .setDefault
  | .radial x => applyParam p (.radial x)
  | .angular x => applyParam p (.angular x)
  | .bessel x => applyParam p (.bessel x)
  | .order o => applyParam p (.order o)

end Libgrpp
