import Verif.Model.RadialLocal
import Verif.Model.Mmd
import Verif.Model.NuclearModels

/-! # Model of `libgrpp/nuclear_attraction.c` -/

namespace Libgrpp

/-- `enum` of the nuclear models, libgrpp.h. -/
def modelPoint : Int := 0
def modelBall : Int := 1
def modelGaussian : Int := 2
def modelFermi : Int := 3
def modelBubble : Int := 4
def modelPointNumerical : Int := 5

/-- What the routines depend on besides their arguments: the parameters and the initialisation flag of the library, the table of
Bessel functions, and the special functions. -/
structure NucEnv (G : Type) where
  init : Bool
  prm : LibParams G
  bt : BesselTab
  sf : SpecFun
  sk : SkFun

/-- A potential that is evaluated on a grid. Simplification: a potential that fails at some positive distance is taken to fail
(undefined behaviour) even if no grid point is there. -/
noncomputable def totalPotential (pot : ℝ → Outcome ℝ) : Outcome (ℝ → ℝ) :=
  open Classical in if ∀ r, 0 < r → ∃ v, pot r = .ok v then .ok (fun r => (pot r).getD 0) else .ub

/-- The parameters `params[0..]` copied from `charge` and `model_params`, and the potential, nuclear_attraction.c:119-155 with
the wrappers of 277-321. `model_params` is a list; reading beyond its end (or from `NULL`, the empty list) is undefined. -/
noncomputable def nucPotential (sk : SkFun) (charge model : Int) (mp : List ℝ) : Outcome (ℝ → Outcome ℝ) :=
  if model = modelPointNumerical then .ok fun r => .ok (potPoint r charge)
  else if model = modelBall then do
    let p1 ← rd mp 0
    .ok fun r => .ok (potBall r charge p1)
  else if model = modelGaussian then do
    let p1 ← rd mp 0
    .ok fun r => .ok (potGauss r charge p1)
  else if model = modelFermi then do
    let p1 ← rd mp 0
    let p2 ← rd mp 1
    .ok fun r => potFermi sk r charge p1 p2
  else do
    let p1 ← rd mp 0
    let p2 ← rd mp 1
    let p3 ← rd mp 2
    .ok fun r => potBubble sk r charge p1 p2 p3

/-- The body for one pair of primitives up to `daxpy`, nuclear_attraction.c:101-163. `(-1) * charge` is a product of `int`s,
undefined for the smallest `int`. -/
noncomputable def nucPrim {G : Type} (env : NucEnv G) (A B : Shell) (C : Point) (charge model : Int) (mp : List ℝ)
    (a b : ℝ) (buf : List ℝ) : Outcome (List ℝ) :=
  if model = modelPoint then do
    let buf ← mmdPrim1 env.sf A B C 0 a b buf
    forRange (A.cart_size * B.cart_size) buf fun k buf => do
      Outcome.valid (charge ≠ -2147483648)
      let v ← rd buf k
      wr buf k (v * ((-1) * (charge : ℝ)))
  else if model = modelBall ∨ model = modelGaussian ∨ model = modelFermi ∨ model = modelBubble ∨ model = modelPointNumerical then do
    let f ← nucPotential env.sk charge model mp
    let pot ← totalPotential f
    radialLocal env.prm env.bt pot A B C a b buf
  else .exit

/-- `libgrpp_nuclear_attraction_integrals`, nuclear_attraction.c:80-170. -/
noncomputable def nuclearAttraction {G : Type} (env : NucEnv G) (A B : Shell) (C : Point) (charge model : Int) (mp : List ℝ)
    (out : List ℝ) : Outcome (List ℝ) := do
  Outcome.assert (env.init = true)
  let n := A.cart_size * B.cart_size
  let buf := List.replicate n (0 : ℝ)
  let out ← memset0 n out
  let r ← forRange A.num (buf, out) fun i (st : List ℝ × List ℝ) => do
    let ci ← rd A.coeffs i
    forRange B.num st fun j (st : List ℝ × List ℝ) => do
      let cj ← rd B.coeffs j
      if |ci * cj| < 1e-13 then .ok st
      else do
        let ai ← rd A.alpha i
        let aj ← rd B.alpha j
        let buf ← nucPrim env A B C charge model mp ai aj st.1
        let out ← daxpy n (ci * cj) buf st.2
        .ok (buf, out)
  .ok r.2

/-- `libgrpp_nuclear_attraction_integrals_point_charge`, nuclear_attraction.c:178-184. -/
noncomputable def nucAttractionPoint {G : Type} (env : NucEnv G) (A B : Shell) (C : Point) (charge : Int) (out : List ℝ) :
    Outcome (List ℝ) :=
  nuclearAttraction env A B C charge modelPoint [] out

/-- `libgrpp_nuclear_attraction_integrals_charged_ball`, nuclear_attraction.c:194-204. Of the local array `double params[10]` of
this and the following entry points only the elements that are stored are kept. -/
noncomputable def nucAttractionBall {G : Type} (env : NucEnv G) (A B : Shell) (C : Point) (charge : Int) (rms : ℝ)
    (out : List ℝ) : Outcome (List ℝ) :=
  nuclearAttraction env A B C charge modelBall [(charge : ℝ), rms] out

/-- `libgrpp_nuclear_attraction_integrals_gaussian_model`, nuclear_attraction.c:214-224. -/
noncomputable def nucAttractionGaussian {G : Type} (env : NucEnv G) (A B : Shell) (C : Point) (charge : Int) (rms : ℝ)
    (out : List ℝ) : Outcome (List ℝ) :=
  nuclearAttraction env A B C charge modelGaussian [(charge : ℝ), rms] out

/-- `libgrpp_nuclear_attraction_integrals_fermi_model`, nuclear_attraction.c:234-245. -/
noncomputable def nucAttractionFermi {G : Type} (env : NucEnv G) (A B : Shell) (C : Point) (charge : Int) (c a : ℝ)
    (out : List ℝ) : Outcome (List ℝ) :=
  nuclearAttraction env A B C charge modelFermi [(charge : ℝ), c, a] out

/-- `libgrpp_nuclear_attraction_integrals_fermi_bubble_model`, nuclear_attraction.c:256-268. -/
noncomputable def nucAttractionBubble {G : Type} (env : NucEnv G) (A B : Shell) (C : Point) (charge : Int) (c a k : ℝ)
    (out : List ℝ) : Outcome (List ℝ) :=
  nuclearAttraction env A B C charge modelBubble [(charge : ℝ), c, a, k] out

end Libgrpp
