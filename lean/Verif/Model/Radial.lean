import Mathlib.Analysis.SpecialFunctions.Log.Basic
import Verif.Model.Memory

/-! # Radial quadrature: nested grids and adaptive refinement

Model of radial_type1_integral.c and radial_type2_integral.c. A grid keeps several arrays of the same capacity
(`r`, `w`, `pot_values`, `gto_values`, `r_N[n]`, `mod_bessel[lambda]`, resp. `rpp_values`, `F1[lambda1]`, `F2[lambda2]`)
filled at the same index by the same statement block; here one index carries one `Node`: the weight and, for every integral
`key` = (n, lambda) resp. (n, lambda1, lambda2), the product of the other arrays, i.e. the integrand `f key` at the point.
`f` is arbitrary, so nothing is assumed about potentials, Gaussians or Bessel functions. -/

namespace Libgrpp

/-- `MAX_GRID`, radial_type1_integral.c:38, radial_type2_integral.c:33. -/
def maxGrid : Nat := 10000

/-- `xi`, radial_type1_integral.c:173, 224; radial_type2_integral.c:358, 414. -/
noncomputable def gridXi (nr i : Nat) : ℝ := i / (nr + 1)

/-- `ln_xi`, radial_type1_integral.c:175, 226; radial_type2_integral.c:360, 416. -/
noncomputable def gridLn (nr i : Nat) : ℝ := Real.log (1 - gridXi nr i * gridXi nr i * gridXi nr i)

/-- `ri`, radial_type1_integral.c:177, 228; radial_type2_integral.c:362, 418; `R = 5`. -/
noncomputable def gridR (nr i : Nat) : ℝ := -5 * gridLn nr i

/-- `wi`, radial_type1_integral.c:176, 227; radial_type2_integral.c:361, 417; `R3 = 125`. -/
noncomputable def gridW (nr i : Nat) : ℝ :=
  3 * 125 * gridXi nr i * gridXi nr i * gridLn nr i * gridLn nr i /
    ((1 - gridXi nr i * gridXi nr i * gridXi nr i) * (nr + 1))

/-- The array elements of one index. -/
structure Node (κ : Type) where
  w : ℝ
  val : κ → ℝ

variable {κ : Type}

/-- The elements computed for point `i` of the grid with `nr` points. -/
noncomputable def mkNode (f : κ → ℝ → ℝ) (nr i : Nat) : Node κ := ⟨gridW nr i, fun key => f key (gridR nr i)⟩

/-- `radial_type1_grid_t`, `radial_type2_grid_t`. -/
structure RGrid (κ : Type) where
  nr : Nat
  pts : List (Node κ)

/-- `create_radial_type1_grid`, radial_type1_integral.c:151-194, and `create_radial_type2_grid`,
radial_type2_integral.c:324-386; `m` is `MIN_GRID`; arrays come from `calloc`. -/
noncomputable def createGrid (f : κ → ℝ → ℝ) (m : Nat) : Outcome (RGrid κ) := do
  let pts ← forRange m (List.replicate maxGrid ⟨0, fun _ => 0⟩) fun i pts => wr pts i (mkNode f m (i + 1))
  .ok ⟨m, pts⟩

/-- `expand_radial_type1_grid`, radial_type1_integral.c:209-248, and `expand_radial_type2_grid`,
radial_type2_integral.c:390-444. The loop `for (i = 1; i <= nr; i += 2)` has `(nr + 1) / 2` iterations, `i = 2 j + 1`. -/
noncomputable def expandGrid (f : κ → ℝ → ℝ) (g : RGrid κ) (nr : Nat) : Outcome (RGrid κ) :=
  if nr > maxGrid then .ok g
  else if nr ≤ g.nr then .ok g
  else do
    let pts ← forRange ((nr + 1) / 2) g.pts fun j pts => wr pts (g.nr + j) (mkNode f nr (2 * j + 1))
    .ok ⟨nr, pts⟩

/-- `for (int i = a; i < b; i++) sum += w[i] * ...;`, radial_type1_integral.c:291-293, 311-313;
radial_type2_integral.c:285-287, 304-306. -/
noncomputable def sumNodes (g : RGrid κ) (key : κ) (a b : Nat) (sum : ℝ) : Outcome ℝ :=
  forRange (b - a) sum fun j s => do
    let p ← rd g.pts (a + j)
    .ok (s + p.w * p.val key)

/-- The test of radial_type2_integral.c:308-311 (`continue` in a `do … while (!converged)` with `converged = 0`). For
type 1 it is commented out: `none`. `screened` is not 0 there because of line 277. -/
noncomputable def tooSmall (screened : Option ℝ) (sum : ℝ) : Bool :=
  match screened with
  | none => false
  | some x => decide (|sum| / |x| < 0.001)

/-- The `do … while` loop, radial_type1_integral.c:298-322; radial_type2_integral.c:292-315, entered with the given
values of `nr`, `sum` and `*converged`. Returns the sum, `*converged` and the grid. -/
noncomputable def refineLoop (f : κ → ℝ → ℝ) (key : κ) (tol : ℝ) (screened : Option ℝ) (g : RGrid κ) (nr : Nat)
    (sum : ℝ) (conv : Bool) : Outcome (ℝ × Bool × RGrid κ) :=
  if 2 * nr + 1 > maxGrid then .ok (sum, conv, g)
  else do
    let g' ← expandGrid f g (2 * nr + 1)
    let s ← sumNodes g' key nr (2 * nr + 1) (0.5 * sum)
    if tooSmall screened s then refineLoop f key tol screened g' (2 * nr + 1) s false
    else if |s - sum| ≤ tol then .ok (s, true, g')
    else refineLoop f key tol screened g' (2 * nr + 1) s false
termination_by maxGrid - nr
decreasing_by all_goals simp only [maxGrid] at *; omega

/-- `calculate_radial_type1_integral`, radial_type1_integral.c:251-325 (`screened = none`, its screening is commented out)
and `calculate_radial_type2_integral`, radial_type2_integral.c:242-318 (`screened = some x` if the screening succeeded with
value `x`, `none` if it failed). -/
noncomputable def calcRadial (f : κ → ℝ → ℝ) (m : Nat) (key : κ) (tol : ℝ) (screened : Option ℝ) (g : RGrid κ) :
    Outcome (ℝ × Bool × RGrid κ) :=
  let full : Outcome (ℝ × Bool × RGrid κ) := do
    let s ← sumNodes g key 0 m 0
    refineLoop f key tol screened g m s false
  match screened with
  | none => full
  | some x => if |x| < tol then .ok (x, true, g) else full

/-- Library parameters, parameters.h:16-21. The generator is the list-valued model of Model/Cartesian. -/
structure LibParams (G : Type) where
  radial : ℝ
  angular : ℝ
  bessel : ℝ
  generator : G

/-- `tabulate_radial_type1_integrals`, radial_type1_integral.c:73-119, with the tolerance of line 87 and the index of
line 112, whose stride is `lambda_max + 1` in an array of `(lambda_max + 1) * (n_max + 1)` elements (line 92). -/
noncomputable def tabulateType1 {G : Type} (p : LibParams G) (f : Nat × Nat → ℝ → ℝ) (lmax nmax : Nat) : Outcome (List ℝ) := do
  let g ← createGrid f 2047
  let r ← forRange (lmax + 1) (List.replicate ((lmax + 1) * (nmax + 1)) (0 : ℝ), g) fun lam st =>
    forRange (nmax + 1) st fun n (st : List ℝ × RGrid (Nat × Nat)) => do
      let q ← calcRadial f 2047 (n, lam) p.radial none st.2
      let t ← wr st.1 (lam * (lmax + 1) + n) q.1
      .ok (t, q.2.2)
  .ok r.1

/-- `get_radial_type1_integral`, radial_type1_integral.c:129-133. -/
def getType1 (lmax : Nat) (table : List ℝ) (lam n : Nat) : Outcome ℝ := rd table (lam * (lmax + 1) + n)

/-- The numerical branch of `tabulate_radial_type2_integrals`, radial_type2_integral.c:158-208. The
parameters of the library are passed to show that they are not used: line 188 has the literal `1e-16`. -/
noncomputable def tabulateType2 {G : Type} (_p : LibParams G) (f : Nat × Nat × Nat → ℝ → ℝ) (screen : Nat × Nat × Nat → Option ℝ)
    (l1max l2max nmax : Nat) : Outcome (List ℝ) := do
  let g ← createGrid f 31
  let r ← forRange (l1max + 1) (List.replicate ((l1max + 1) * (l2max + 1) * (nmax + 1)) (0 : ℝ), g) fun l1 st =>
    forRange (l2max + 1) st fun l2 st =>
      forRange (nmax + 1) st fun n (st : List ℝ × RGrid (Nat × Nat × Nat)) => do
        let q ← calcRadial f 31 (n, l1, l2) 1e-16 (screen (n, l1, l2)) st.2
        let t ← wr st.1 ((l2max + 1) * (nmax + 1) * l1 + (nmax + 1) * l2 + n) q.1
        .ok (t, q.2.2)
  .ok r.1

/-- `get_radial_type2_integral`, radial_type2_integral.c:223-235. -/
def getType2 (l2max nmax : Nat) (table : List ℝ) (l1 l2 n : Nat) : Outcome ℝ :=
  rd table ((l2max + 1) * (nmax + 1) * l1 + (nmax + 1) * l2 + n)

end Libgrpp
