import Verif.Model.OneElectron

/-! # Model of `libgrpp/diff_gaussian.c` and `libgrpp/overlap_gradient.c`

The overlap gradient decrements and increments the exponents stored in the caller's shell while it works
(overlap_gradient.c:113-139), so the component list of the bra shell is part of the state here, with integer
exponents. -/

namespace Libgrpp

/-- `norm_factor`, diff_gaussian.c:70-73. -/
noncomputable def normFactorL (alpha : ℝ) (L : Nat) : ℝ :=
  (2 * alpha / Real.pi) ^ (0.75 : ℝ) * (4 * alpha) ^ (0.5 * (L : ℝ))

/-- `coeffs[i] *= f(alpha[i])` for all primitives; `alpha` is read from the original shell
(diff_gaussian.c:42-48, 57-63). -/
noncomputable def scaleCoeffs (src : Shell) (f : ℝ → ℝ) (s : Shell) : Outcome Shell := do
  let cs ← forRange src.num s.coeffs fun i cs => do
    let a ← rd src.alpha i
    let c ← rd cs i
    wr cs i (c * f a)
  .ok { s with coeffs := cs }

/-- `differentiate_shell`, diff_gaussian.c:35-63: the shells `L-1` (`none` is `NULL`) and `L+1`. -/
noncomputable def differentiateShell (gen : Nat → List Comp) (s : Shell) : Outcome (Option Shell × Shell) := do
  let minus ← if s.L > 0 then do
      let d ← newShell gen s.origin (s.L - 1) s.num s.coeffs s.alpha
      let d ← scaleCoeffs s (fun a => normFactorL a s.L / normFactorL a (s.L - 1)) d
      Outcome.ok (some d)
    else Outcome.ok none
  let u ← newShell gen s.origin (s.L + 1) s.num s.coeffs s.alpha
  let u ← scaleCoeffs s (fun a => 2 * a * normFactorL a s.L / normFactorL a (s.L + 1)) u
  .ok (minus, u)

/-- Exponents as the `int[3]` they are in C. -/
abbrev IComp := Fin 3 → Int

/-- `cart_list` of a shell as the array of `int` triples it is in C. -/
def Shell.cartInts (s : Shell) : List IComp := s.cartList.map fun c => ![(c.1 : Int), c.2.1, c.2.2]

/-- `nlm_to_linear(nlm)` for a triple. -/
def nlmIndex (gen : Nat → List Comp) (c : IComp) : Nat := nlmToLinear gen (c 0) (c 1) (c 2)

/-- A read with a policy for indices outside the array: `none` makes it undefined behaviour (the C standard),
`some f` returns the unknown value `f i` (what the hardware does when the address happens to be readable). -/
noncomputable def rdJ (junk : Option (Nat → ℝ)) (a : List ℝ) (i : Nat) : Outcome ℝ :=
  match a[i]? with
  | some v => .ok v
  | none => match junk with
    | none => .ub
    | some f => .ok (f i)

/-- `grad[k][p] += v`. -/
noncomputable def gadd {ι : Type} [DecidableEq ι] (G : ι → List ℝ) (k : ι) (p : Nat) (v : ℝ) :
    Outcome (ι → List ℝ) := do
  let x ← rd (G k) p
  let l ← wr (G k) p (x + v)
  .ok (Function.update G k l)

/-- `nlm[k] += d` in the component list. -/
def bumpCart (cl : List IComp) (i : Nat) (k : Fin 3) (d : Int) : Outcome (List IComp) := do
  let c ← rd cl i
  wr cl i (Function.update c k (c k + d))

/-- State of the assembly: the bra shell's component list and the gradient arrays. -/
abbrev OGState := List IComp × (Fin 3 → List ℝ)

/-- Contribution of the `L-1` matrix, overlap_gradient.c:124-132. -/
noncomputable def ogDown (gen : Nat → List Comp) (junk : Option (Nat → ℝ)) (sizeB : Nat) (factor : ℝ)
    (down : List ℝ) (k : Fin 3) (i : Nat) (ket : IComp) (index : Nat) (st : OGState) : Outcome OGState := do
  let cl ← bumpCart st.1 i k (-1)
  let c ← rd cl i
  let bi := nlmIndex gen c
  let ki := nlmIndex gen ket
  let cl ← bumpCart cl i k 1
  let c ← rd cl i
  let v ← rdJ junk down (sizeB * bi + ki)
  let G ← gadd st.2 k index (-(factor * (c k : ℝ) * v))
  .ok (cl, G)

/-- Contribution of the `L+1` matrix, overlap_gradient.c:134-142. -/
noncomputable def ogUp (gen : Nat → List Comp) (junk : Option (Nat → ℝ)) (sizeB : Nat) (factor : ℝ)
    (up : List ℝ) (k : Fin 3) (i : Nat) (ket : IComp) (index : Nat) (st : OGState) : Outcome OGState := do
  let cl ← bumpCart st.1 i k 1
  let c ← rd cl i
  let bi := nlmIndex gen c
  let ki := nlmIndex gen ket
  let cl ← bumpCart cl i k (-1)
  let v ← rdJ junk up (sizeB * bi + ki)
  let G ← gadd st.2 k index (factor * v)
  .ok (cl, G)

/-- Overlap matrices with the differentiated bra, `overlap_gradient_diff_bra_overlap_integrals`,
overlap_gradient.c:166-213. The empty list stands for `NULL`. -/
noncomputable def ogMatrices (gen : Nat → List Comp) (A B : Shell) : Outcome (List ℝ × List ℝ) := do
  let d ← differentiateShell gen A
  let down ← match d.1 with
    | some dn => overlapIntegrals dn B (List.replicate (dn.cart_size * B.cart_size) 0)
    | none => .ok []
  let up ← overlapIntegrals d.2 B (List.replicate (d.2.cart_size * B.cart_size) 0)
  .ok (down, up)

/-- Body of the assembly loops, overlap_gradient.c:117-143. -/
noncomputable def ogBody (gen : Nat → List Comp) (junk : Option (Nat → ℝ)) (A B : Shell) (factor : ℝ)
    (m : List ℝ × List ℝ) (k : Fin 3) (i j : Nat) (st : OGState) : Outcome OGState := do
  let ket ← rd B.cartInts j
  let index := i * B.cart_size + j
  if A.L > 0 then do
    let st ← ogDown gen junk B.cart_size factor m.1 k i ket index st
    ogUp gen junk B.cart_size factor m.2 k i ket index st
  else ogUp gen junk B.cart_size factor m.2 k i ket index st

/-- `overlap_gradient_diff_bra_contribution`, overlap_gradient.c:92-152. `cl` is the component list inside the
caller's bra shell. -/
noncomputable def ogContribution (gen : Nat → List Comp) (junk : Option (Nat → ℝ)) (A B : Shell) (factor : ℝ)
    (st : OGState) : Outcome OGState := do
  let m ← ogMatrices gen A B
  forCoord st fun k st =>
    forRange A.cart_size st fun i st =>
      forRange B.cart_size st fun j st => ogBody gen junk A B factor m k i j st

/-- `memset(grad[icoord], 0, ...)` for the three arrays, overlap_gradient.c:53-55. -/
noncomputable def memsetGrad (n : Nat) (G : Fin 3 → List ℝ) : Outcome (Fin 3 → List ℝ) :=
  forCoord G fun k G => do
    let l ← memset0 n (G k)
    .ok (Function.update G k l)

/-- `libgrpp_overlap_integrals_gradient`, overlap_gradient.c:41-82. Result: the component list of the caller's bra
shell after the call and the three gradient arrays. -/
noncomputable def overlapGradient (gen : Nat → List Comp) (junk : Option (Nat → ℝ)) (A B : Shell) (D : Point)
    (G : Fin 3 → List ℝ) : Outcome OGState := do
  let G ← memsetGrad (A.cart_size * B.cart_size) G
  if pointsAreEqual A.origin B.origin then .ok (A.cartInts, G)
  else do
    let st ← if pointsAreEqual A.origin D then ogContribution gen junk A B 1 (A.cartInts, G)
      else .ok (A.cartInts, G)
    if pointsAreEqual B.origin D then ogContribution gen junk A B (-1) st else .ok st

end Libgrpp
