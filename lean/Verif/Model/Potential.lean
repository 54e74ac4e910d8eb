import Verif.Model.Shell
import Mathlib.Analysis.SpecialFunctions.Exp

/-! # Model of `libgrpp/potential.c` -/

namespace Libgrpp

/-- `libgrpp_potential_t`, libgrpp.h:42-49. -/
structure Potential where
  L : Int
  J : Int
  num : Nat
  powers : List Int
  coeffs : List ℝ
  alpha : List ℝ

/-- Filtering copy loop into fresh zero-filled arrays; `keep c` decides whether primitive `i` with
coefficient `c` is copied. Used at potential.c:32-43 (`continue` when `|c| < 1e-14`) and at
potential.c:95-102 (copy when `|c| > 1e-14`). The order of the three independent stores differs between the two. -/
noncomputable def copyTerms (keep : ℝ → Prop) [DecidablePred keep] (n : Nat) (powers : List Int)
    (coeffs alpha : List ℝ) : Outcome (Nat × List Int × List ℝ × List ℝ) :=
  forRange n (0, List.replicate n 0, List.replicate n 0, List.replicate n 0)
    fun i (st : Nat × List Int × List ℝ × List ℝ) => do
      let c ← rd coeffs i
      if keep c then do
        let p ← rd powers i
        let a ← rd alpha i
        let ps ← wr st.2.1 st.1 p
        let cs ← wr st.2.2.1 st.1 c
        let as ← wr st.2.2.2 st.1 a
        .ok (st.1 + 1, ps, cs, as)
      else .ok st

/-- `libgrpp_new_potential`, potential.c:22-46. -/
noncomputable def newPotential (L J : Int) (num : Nat) (powers : List Int) (coeffs alpha : List ℝ) :
    Outcome Potential := do
  let r ← copyTerms (fun c => ¬ |c| < zeroThresh) num powers coeffs alpha
  .ok { L := L, J := J, num := r.1, powers := r.2.1, coeffs := r.2.2.1, alpha := r.2.2.2 }

/-- `libgrpp_shrink_potential`, potential.c:88-115. -/
noncomputable def shrinkPotential (src : Potential) : Outcome Potential := do
  let r ← copyTerms (fun c => |c| > zeroThresh) src.num src.powers src.coeffs src.alpha
  newPotential src.L src.J r.1 r.2.1 r.2.2.1 r.2.2.2

/-- `libgrpp_potential_value`, potential.c:70-81. `pow(r, n - 2)` with an integer second argument is the
integer power; for `r = 0` and `n < 2` the library returns an infinity and the real model 0, so theorems assume `r ≠ 0`. -/
noncomputable def potentialValue (pot : Potential) (r : ℝ) : Outcome ℝ :=
  forRange pot.num 0 fun i val => do
    let n ← rd pot.powers i
    let c ← rd pot.coeffs i
    let a ← rd pot.alpha i
    .ok (val + c * r ^ (n - 2) * Real.exp (-a * (r * r)))

end Libgrpp
