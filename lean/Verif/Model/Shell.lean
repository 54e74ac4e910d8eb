import Verif.Model.Utils
import Verif.Model.Cartesian
import Mathlib.Analysis.SpecialFunctions.Pow.Real
import Mathlib.Analysis.Real.Pi.Bounds

/-! # Model of `libgrpp/shell.c` and `libgrpp/norm_gaussian.c`

`Shell` is the object by value; `HShell` is the object with pointers into a heap, used for ownership. -/

namespace Libgrpp

/-- `LIBGRPP_ZERO_THRESH`, libgrpp.h:26. -/
noncomputable def zeroThresh : ℝ := 1e-14

/-- `libgrpp_shell_t`, libgrpp.h:66-74. The field `cart_size` is `cartList.length` of the list allocated for it:
`cartSize`, kept as a separate field as in C. -/
structure Shell where
  L : Nat
  origin : Point
  cart_size : Nat
  cartList : List Comp
  num : Nat
  coeffs : List ℝ
  alpha : List ℝ

/-- Copy loop of `libgrpp_new_shell`, shell.c:36-39: `n` elements of `coeffs`, `alpha` into the fresh,
zero-filled (`calloc`) arrays. -/
noncomputable def copyPrims (n : Nat) (coeffs alpha : List ℝ) : Outcome (List ℝ × List ℝ) :=
  forRange n (List.replicate n 0, List.replicate n 0) fun i s => do
    let c ← rd coeffs i
    let cs ← wr s.1 i c
    let a ← rd alpha i
    let as ← wr s.2 i a
    .ok (cs, as)

/-- `libgrpp_new_shell`, shell.c:23-43, with the current Cartesian generator `gen`
(`libgrpp_generate_shell_cartesians`, shell.c:116-124). -/
noncomputable def newShell (gen : Nat → List Comp) (origin : Point) (L num : Nat) (coeffs alpha : List ℝ) :
    Outcome Shell := do
  let s ← copyPrims num coeffs alpha
  .ok { L := L, origin := origin, cart_size := cartSize L, cartList := gen L, num := num,
        coeffs := s.1, alpha := s.2 }

/-- `libgrpp_shell_deep_copy`, shell.c:49-60. -/
noncomputable def shellDeepCopy (gen : Nat → List Comp) (s : Shell) : Outcome Shell :=
  newShell gen s.origin s.L s.num s.coeffs s.alpha

/-- `libgrpp_shell_shrink`, shell.c:67-80 (in place, source and destination arrays coincide). -/
noncomputable def shellShrink (s : Shell) : Outcome Shell := do
  let r ← forRange s.num ((0 : Nat), s.coeffs, s.alpha) fun i (st : Nat × List ℝ × List ℝ) => do
    let c ← rd st.2.1 i
    if |c| > zeroThresh then do
      let cs ← wr st.2.1 st.1 c
      let a ← rd st.2.2 i
      let as ← wr st.2.2 st.1 a
      .ok (st.1 + 1, cs, as)
    else .ok st
  .ok { s with num := r.1, coeffs := r.2.1, alpha := r.2.2 }

/-- `gaussian_norm_factor`, norm_gaussian.c:16-23. `pow` is `Real.rpow`. -/
noncomputable def gaussianNormFactor (n l m : Nat) (alpha : ℝ) : ℝ :=
  (2 * alpha / Real.pi) ^ (0.75 : ℝ) * (4 * alpha) ^ (0.5 * ((n : ℝ) + l + m))

/-- `libgrpp_shell_mult_normcoef`, shell.c:86-92. -/
noncomputable def shellMultNormcoef (s : Shell) : Outcome Shell := do
  let cs ← forRange s.num s.coeffs fun i cs => do
    let a ← rd s.alpha i
    let c ← rd cs i
    wr cs i (c * gaussianNormFactor s.L 0 0 a)
  .ok { s with coeffs := cs }

/-! ## Heap level -/

/-- Allocated blocks of `double`. -/
abbrev Heap := Nat → Option (List ℝ)

/-- `p[i] = v` through the heap. -/
noncomputable def hstore (h : Heap) (p i : Nat) (v : ℝ) : Outcome Heap :=
  match h p with
  | none => .ub
  | some b => do
    let b' ← wr b i v
    .ok (Function.update h p (some b'))

/-- `p[i]` through the heap. -/
noncomputable def hload (h : Heap) (p i : Nat) : Outcome ℝ :=
  match h p with
  | none => .ub
  | some b => rd b i

/-- `calloc(n, sizeof(double))` returning the address `p` chosen by the allocator. -/
noncomputable def hcalloc (h : Heap) (p n : Nat) : Heap := Function.update h p (some (List.replicate n 0))

/-- A shell object with its pointers. The fields `origin`, `cart_list` are by value: `origin` is an array
inside the struct; `cart_list` is allocated and filled inside the constructor from `L` only. -/
structure HShell where
  L : Nat
  origin : Point
  cart_size : Nat
  cartList : List Comp
  num : Nat
  coeffs : Nat
  alpha : Nat

/-- `libgrpp_new_shell`, shell.c:23-43, with pointers: `origin` points to a block with at least three elements;
`pc`, `pa` are the addresses returned by the two `calloc` calls. -/
noncomputable def newShellHeap (gen : Nat → List Comp) (h : Heap) (origin L num coeffs alpha pc pa : Nat) :
    Outcome (Heap × HShell) := do
  let o0 ← hload h origin 0
  let o1 ← hload h origin 1
  let o2 ← hload h origin 2
  let h := hcalloc h pc num
  let h := hcalloc h pa num
  let h ← forRange num h fun i h => do
    let c ← hload h coeffs i
    let h ← hstore h pc i c
    let a ← hload h alpha i
    hstore h pa i a
  .ok (h, { L := L, origin := ![o0, o1, o2], cart_size := cartSize L, cartList := gen L, num := num,
            coeffs := pc, alpha := pa })

/-- The value of a shell object in a heap, when its arrays are allocated. -/
def HShell.view (s : HShell) (h : Heap) : Option Shell :=
  match h s.coeffs, h s.alpha with
  | some c, some a => some { L := s.L, origin := s.origin, cart_size := s.cart_size, cartList := s.cartList,
                             num := s.num, coeffs := c, alpha := a }
  | _, _ => none

end Libgrpp
