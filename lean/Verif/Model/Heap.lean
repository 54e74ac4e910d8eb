import Verif.Model.Outcome
import Mathlib.Data.Multiset.AddSub
import Mathlib.Algebra.Order.Group.Multiset

/-! # Dynamic memory of the library

The routines of the library once more, reduced to what they do with dynamic memory: every `malloc`, `calloc` and `free`,
every use of a block that was obtained dynamically, and the control flow around them. Numbers do not appear. A condition or
a loop count that depends on numbers is answered by the environment (`ask`), which is arbitrary, so a statement about all
environments covers every outcome of every comparison and every number of iterations. A value that is tested twice (the
angular momentum of a shell, a NULL pointer) is asked for once and remembered.

Left out: the sizes of blocks (`calloc(0)` counts as a block), failure of `malloc`, accesses outside a live block (these are
in the value models of the same routines), and variables on the stack. The user's Cartesian generator is taken to leave
dynamic memory as it is. `assert` is taken to succeed (its failures are in the value models). -/

namespace Libgrpp.Heap

/-- What the routines cannot control. `pick t s` is the address of the block handed out by the allocator as the `t`-th
action when the blocks `s` are in use; the only requirement is that the block is not in use. `choice t` is the answer to
the question asked as the `t`-th action. -/
structure Env where
  pick : Nat → Multiset Nat → Nat
  fresh : ∀ t s, pick t s ∉ s
  choice : Nat → Nat

/-- The blocks in use and a clock. -/
structure State where
  live : Multiset Nat
  time : Nat

/-- A piece of a C program, as an action on dynamic memory. -/
def Act (α : Type) : Type := Env → State → Outcome (α × State)

instance : Monad Act where
  pure a := fun _ s => .ok (a, s)
  bind p f := fun e s => match p e s with
    | .ok (a, s') => f a e s'
    | .ub => .ub
    | .abort => .abort
    | .exit => .exit

/-- `malloc`, `calloc`. -/
def alloc : Act Nat := fun e s =>
  .ok (e.pick s.time s.live, ⟨e.pick s.time s.live ::ₘ s.live, s.time + 1⟩)

/-- `free` of a pointer that is not NULL: undefined unless the block is in use. -/
def free (p : Nat) : Act Unit := fun _ s =>
  if p ∈ s.live then .ok ((), ⟨s.live.erase p, s.time + 1⟩) else .ub

/-- `free(p)` where `p` may be NULL. -/
def freeOpt : Option Nat → Act Unit
  | none => pure ()
  | some p => free p

/-- Reading or writing blocks: undefined unless all of them are in use. -/
def touch (ps : List Nat) : Act Unit := fun _ s =>
  if ∀ p ∈ ps, p ∈ s.live then .ok ((), s) else .ub

/-- A number computed from data. -/
def ask : Act Nat := fun e s => .ok (e.choice s.time, ⟨s.live, s.time + 1⟩)

/-- Access outside an array of pointers. -/
def undef : Act Unit := fun _ _ => .ub

/-- `for (int i = 0; i < n; i++) body(i);` -/
def loop : Nat → (Nat → Act Unit) → Act Unit
  | 0, _ => pure ()
  | n + 1, body => do
    loop n body
    body n

/-- Use of the entry `l[i]` of an array. -/
def entry {α : Type} (l : List α) (i : Nat) (f : α → Act Unit) : Act Unit :=
  match l[i]? with
  | some x => f x
  | none => undef

/-- `if (<condition on numbers>) p` -/
def optionally (p : Act Unit) : Act Unit := do
  let c ← ask
  if c = 0 then pure () else p

/-! ## Objects -/

/-- A `libgrpp_shell_t *` (libgrpp.h): the structure and its three arrays, and the angular momentum. -/
structure Shell where
  self : Nat
  cart : Nat
  coeffs : Nat
  alpha : Nat
  L : Nat

def Shell.ptrs (s : Shell) : List Nat := [s.self, s.cart, s.coeffs, s.alpha]

/-- `libgrpp_generate_shell_cartesians` (shell.c:116-124). -/
def generateCartesians : Act Nat := do
  let c ← alloc
  touch [c]
  pure c

/-- `libgrpp_new_shell` (shell.c:23-43). `args` are the blocks of the caller it copies from. -/
def newShell (args : List Nat) (L : Nat) : Act Shell := do
  let self ← alloc
  touch (self :: args)
  let cart ← generateCartesians
  let coeffs ← alloc
  let alpha ← alloc
  touch (self :: coeffs :: alpha :: args)
  pure ⟨self, cart, coeffs, alpha, L⟩

/-- `libgrpp_shell_deep_copy` (shell.c:49-60). -/
def deepCopy (s : Shell) : Act Shell := newShell s.ptrs s.L

/-- `libgrpp_shell_shrink` and `libgrpp_shell_mult_normcoef` (shell.c:67-93): changes in place. -/
def shrinkShell (s : Shell) : Act Unit := touch [s.self, s.coeffs, s.alpha]

/-- `libgrpp_delete_shell` (shell.c:107-113). -/
def deleteShell (s : Shell) : Act Unit := do
  touch [s.self]
  free s.cart
  free s.coeffs
  free s.alpha
  free s.self

/-- A `libgrpp_potential_t *` that is not NULL. -/
structure Pot where
  self : Nat
  powers : Nat
  coeffs : Nat
  alpha : Nat

def Pot.ptrs (p : Pot) : List Nat := [p.self, p.powers, p.coeffs, p.alpha]

/-- `libgrpp_new_potential` (potential.c:22-46). -/
def newPot (args : List Nat) : Act Pot := do
  let self ← alloc
  touch [self]
  let powers ← alloc
  let coeffs ← alloc
  let alpha ← alloc
  touch (self :: powers :: coeffs :: alpha :: args)
  pure ⟨self, powers, coeffs, alpha⟩

/-- `libgrpp_delete_potential` (potential.c:52-62) of a pointer that is not NULL. -/
def deletePot (p : Pot) : Act Unit := do
  touch [p.self]
  free p.powers
  free p.coeffs
  free p.alpha
  free p.self

/-- `libgrpp_shrink_potential` (potential.c:88-115). -/
def shrinkPot (p : Pot) : Act Pot := do
  touch p.ptrs
  let powers ← alloc
  let coeffs ← alloc
  let alpha ← alloc
  touch (powers :: coeffs :: alpha :: p.ptrs)
  let q ← newPot [powers, coeffs, alpha]
  free powers
  free coeffs
  free alpha
  pure q

/-- Result of `alloc_zeros_2d`: the array of pointers and the rows. -/
structure Table where
  self : Nat
  rows : List Nat

def Table.ptrs (t : Table) : List Nat := t.self :: t.rows

/-- The rows of `alloc_zeros_2d` (utils.c:34-36). -/
def allocRows : Nat → Act (List Nat)
  | 0 => pure []
  | n + 1 => do
    let r ← allocRows n
    let p ← alloc
    pure (r ++ [p])

/-- `alloc_zeros_2d` (utils.c:30-39). -/
def allocTable (n : Nat) : Act Table := do
  let self ← alloc
  let rows ← allocRows n
  touch [self]
  pure ⟨self, rows⟩

/-- `free_2d` (utils.c:41-47). -/
def freeTable (t : Table) (n : Nat) : Act Unit := do
  touch [t.self]
  loop n (fun i => entry t.rows i free)
  free t.self

/-! ## One-electron integrals -/

/-- `libgrpp_overlap_integrals` (overlap.c:39-63) and, with the same use of memory, `libgrpp_kinetic_energy_integrals`
(kinetic.c:38-62). -/
def overlap (A B : Shell) (m : Nat) : Act Unit := do
  touch (A.ptrs ++ B.ptrs)
  let buf ← alloc
  touch [m]
  let nA ← ask
  loop nA (fun _ => do
    let nB ← ask
    loop nB (fun _ => touch (A.ptrs ++ B.ptrs ++ [buf, m])))
  free buf

/-- `libgrpp_momentum_integrals` (momentum.c:44-82). -/
def momentum (A B : Shell) (mx my mz : Nat) : Act Unit := do
  touch (A.ptrs ++ B.ptrs)
  let bx ← alloc
  let by' ← alloc
  let bz ← alloc
  touch [mx, my, mz]
  let nA ← ask
  loop nA (fun _ => do
    let nB ← ask
    loop nB (fun _ => touch (A.ptrs ++ B.ptrs ++ [bx, by', bz, mx, my, mz])))
  free bx
  free by'
  free bz

/-- `differentiate_shell` (diff_gaussian.c:35-63): the shell with `L - 1`, if any, and the shell with `L + 1`. -/
def differentiate (s : Shell) : Act (Option Shell × Shell) := do
  touch [s.self]
  if s.L > 0 then do
    let down ← newShell s.ptrs (s.L - 1)
    touch (s.ptrs ++ down.ptrs)
    let up ← newShell s.ptrs (s.L + 1)
    touch (s.ptrs ++ up.ptrs)
    pure (some down, up)
  else do
    let up ← newShell s.ptrs (s.L + 1)
    touch (s.ptrs ++ up.ptrs)
    pure (none, up)

/-- `nlm_to_linear` (overlap_gradient.c:219-241). -/
def nlmToLinear : Act Unit := do
  let c ← generateCartesians
  touch [c]
  free c

/-- `overlap_gradient_diff_bra_overlap_integrals` (overlap_gradient.c:166-213). -/
def overlapDiff (A B : Shell) : Act (Option Nat × Nat) := do
  let d ← differentiate A
  match d with
  | (some down, up) => do
    touch [down.self, up.self]
    let mdown ← alloc
    overlap down B mdown
    let mup ← alloc
    overlap up B mup
    deleteShell down
    deleteShell up
    pure (some mdown, mup)
  | (none, up) => do
    touch [up.self]
    let mup ← alloc
    overlap up B mup
    deleteShell up
    pure (none, mup)

/-- `overlap_gradient_diff_bra_contribution` (overlap_gradient.c:92-152). `g` are the blocks of the gradient. -/
def overlapContribution (A B : Shell) (g : List Nat) : Act Unit := do
  let r ← overlapDiff A B
  loop 3 (fun _ => do
    let nA ← ask
    loop nA (fun _ => do
      let nB ← ask
      loop nB (fun _ => do
        touch (A.ptrs ++ B.ptrs)
        (if A.L > 0 then do
          nlmToLinear
          nlmToLinear
          touch (r.1.toList ++ g)
        else pure ())
        nlmToLinear
        nlmToLinear
        touch (r.2 :: g))))
  freeOpt r.1
  free r.2

/-- `libgrpp_overlap_integrals_gradient` (overlap_gradient.c:41-82). -/
def overlapGradient (A B : Shell) (g : List Nat) : Act Unit := do
  touch (A.ptrs ++ B.ptrs ++ g)
  let c ← ask
  if c ≠ 0 then pure () else do
    optionally (overlapContribution A B g)
    optionally (overlapContribution A B g)

/-! ## Local potentials and nuclear attraction -/

/-- `libgrpp_type1_integrals_mcmurchie_davidson_1978` (type1_mcmurchie_davidson.c:107-166). The routines for pairs of
primitives (lines 172-450) use the stack only. -/
def mmd (A B : Shell) (m : Nat) : Act Unit := do
  touch (A.ptrs ++ B.ptrs)
  let buf ← alloc
  touch [m]
  let nA ← ask
  loop nA (fun _ => do
    touch [A.coeffs]
    optionally (do
      let nB ← ask
      loop nB (fun _ => do
        touch [B.coeffs]
        optionally (touch (A.ptrs ++ B.ptrs ++ [buf, m])))))
  free buf

/-- `libgrpp_type1_integrals` (type1_integrals.c:43-79). -/
def type1 (A B : Shell) (pot : Option Pot) (m : Nat) : Act Unit := do
  touch (A.ptrs ++ B.ptrs ++ [m])
  match pot with
  | none => pure ()
  | some p => do
    let buf ← alloc
    touch p.ptrs
    let n ← ask
    loop n (fun _ => do
      touch p.ptrs
      mmd A B buf
      touch [buf, m])
    free buf

/-- `radial_type1_grid_t` with its limits. -/
structure Grid1 where
  self : Nat
  r : Nat
  w : Nat
  pot : Nat
  gto : Nat
  rN : Table
  bessel : Table
  nmax : Nat
  lmax : Nat

def Grid1.ptrs (g : Grid1) : List Nat := [g.self, g.r, g.w, g.pot, g.gto] ++ g.rN.ptrs ++ g.bessel.ptrs

/-- `create_radial_type1_grid` (radial_type1_integral.c:151-194). -/
def createGrid1 (lmax nmax : Nat) : Act Grid1 := do
  let self ← alloc
  touch [self]
  let r ← alloc
  let w ← alloc
  let pot ← alloc
  let gto ← alloc
  let rN ← allocTable (nmax + 1)
  let bessel ← allocTable (lmax + 1)
  touch ([self, r, w, pot, gto] ++ rN.ptrs ++ bessel.ptrs)
  pure ⟨self, r, w, pot, gto, rN, bessel, nmax, lmax⟩

/-- `delete_radial_type1_grid` (radial_type1_integral.c:197-206). -/
def deleteGrid1 (g : Grid1) : Act Unit := do
  touch [g.self]
  free g.r
  free g.w
  free g.pot
  free g.gto
  freeTable g.rN (g.nmax + 1)
  freeTable g.bessel (g.lmax + 1)
  free g.self

/-- `tabulate_radial_type1_integrals` (radial_type1_integral.c:73-119): the structure and its array. The refinement of the
grid (`expand_radial_type1_grid`, lines 209-248) writes in place. -/
def tabulate1 (lmax nmax : Nat) : Act (Nat × Nat) := do
  let t ← alloc
  touch [t]
  let v ← alloc
  let g ← createGrid1 lmax nmax
  loop (lmax + 1) (fun _ => loop (nmax + 1) (fun _ => touch (g.ptrs ++ [t, v])))
  deleteGrid1 g
  pure (t, v)

/-- `evaluate_radially_local_potential_integral_primitive_gaussians` (type1_integrals.c:144-270), with
`delete_radial_type1_integrals` (radial_type1_integral.c:122-126). -/
def radiallyLocal (A B : Shell) (m : Nat) : Act Unit := do
  touch (m :: A.ptrs ++ B.ptrs)
  let t ← tabulate1 (A.L + B.L) (A.L + B.L)
  let n ← ask
  loop n (fun _ => touch (t.1 :: t.2 :: m :: A.ptrs ++ B.ptrs))
  free t.2
  free t.1

/-- `libgrpp_nuclear_attraction_integrals` (nuclear_attraction.c:80-170) for a known nuclear model; `point` tells whether it
is the point charge. -/
def nuclearAttraction (A B : Shell) (point : Bool) (m : Nat) : Act Unit := do
  touch (A.ptrs ++ B.ptrs)
  let buf ← alloc
  touch [m]
  let nA ← ask
  loop nA (fun _ => do
    touch (A.ptrs ++ B.ptrs)
    let nB ← ask
    loop nB (fun _ => optionally (do
      (if point then touch (A.ptrs ++ B.ptrs ++ [buf]) else radiallyLocal A B buf)
      touch [buf, m])))
  free buf

/-! ## Semilocal and spin-orbit integrals -/

/-- `radial_type2_grid_t` with its limits. -/
structure Grid2 where
  self : Nat
  r : Nat
  w : Nat
  pot : Nat
  F1 : Table
  F2 : Table
  rN : Table
  l1max : Nat
  l2max : Nat
  nmax : Nat

def Grid2.ptrs (g : Grid2) : List Nat := [g.self, g.r, g.w, g.pot] ++ g.F1.ptrs ++ g.F2.ptrs ++ g.rN.ptrs

/-- `create_radial_type2_grid` (radial_type2_integral.c:324-384). -/
def createGrid2 (l1max l2max nmax : Nat) (pot : Pot) (bra ket : Shell) : Act Grid2 := do
  let self ← alloc
  touch [self]
  let r ← alloc
  let w ← alloc
  let v ← alloc
  let F1 ← allocTable (l1max + 1)
  let F2 ← allocTable (l2max + 1)
  let rN ← allocTable (nmax + 1)
  touch (bra.ptrs ++ ket.ptrs)
  let braK ← alloc
  let ketK ← alloc
  touch ([self, r, w, v] ++ F1.ptrs ++ F2.ptrs ++ rN.ptrs ++ [braK, ketK] ++ bra.ptrs ++ ket.ptrs ++ pot.ptrs)
  free braK
  free ketK
  pure ⟨self, r, w, v, F1, F2, rN, l1max, l2max, nmax⟩

/-- `expand_radial_type2_grid` (radial_type2_integral.c:390-444). -/
def expandGrid2 (g : Grid2) (pot : Pot) (bra ket : Shell) : Act Unit := do
  let c1 ← ask
  if c1 ≠ 0 then pure () else do
    touch [g.self]
    let c2 ← ask
    if c2 ≠ 0 then pure () else do
      touch (bra.ptrs ++ ket.ptrs)
      let braK ← alloc
      let ketK ← alloc
      touch (g.ptrs ++ [braK, ketK] ++ bra.ptrs ++ ket.ptrs ++ pot.ptrs)
      free braK
      free ketK

/-- `delete_radial_type2_grid` (radial_type2_integral.c:450-459). -/
def deleteGrid2 (g : Grid2) : Act Unit := do
  touch [g.self]
  free g.r
  free g.w
  free g.pot
  freeTable g.F1 (g.l1max + 1)
  freeTable g.F2 (g.l2max + 1)
  freeTable g.rN (g.nmax + 1)
  free g.self

/-- `calculate_radial_type2_integral` (radial_type2_integral.c:242-318): screening (screening.c:193-341, no dynamic memory),
then any number of refinements. -/
def radial2 (g : Grid2) (pot : Pot) (bra ket : Shell) : Act Unit := do
  touch (g.ptrs ++ bra.ptrs ++ ket.ptrs ++ pot.ptrs)
  let c ← ask
  if c ≠ 0 then pure () else do
    let n ← ask
    loop n (fun _ => do
      expandGrid2 g pot bra ket
      touch g.ptrs)

/-- `tabulate_radial_type2_integrals` (radial_type2_integral.c:101-207): the structure and its array. -/
def tabulate2 (l1max l2max nmax : Nat) (pot : Pot) (bra ket : Shell) : Act (Nat × Nat) := do
  let t ← alloc
  touch [t]
  let v ← alloc
  let c ← ask
  if c ≠ 0 then do
    touch ([t, v] ++ pot.ptrs ++ bra.ptrs ++ ket.ptrs)
    pure (t, v)
  else do
    let pot' ← shrinkPot pot
    let bra' ← deepCopy bra
    shrinkShell bra'
    let ket' ← deepCopy ket
    shrinkShell ket'
    let g ← createGrid2 l1max l2max nmax pot' bra' ket'
    loop (l1max + 1) (fun _ => loop (l2max + 1) (fun _ => loop (nmax + 1) (fun _ => do
      radial2 g pot' bra' ket'
      touch [t, v])))
    deletePot pot'
    deleteShell bra'
    deleteShell ket'
    deleteGrid2 g
    pure (t, v)

/-- `libgrpp_type2_integrals` (type2_integrals.c:34-214), with `delete_radial_type2_integrals`
(radial_type2_integral.c:213-217). `L` is the angular momentum of the potential. -/
def type2 (A B : Shell) (pot : Pot) (m : Nat) : Act Unit := do
  touch (A.ptrs ++ B.ptrs ++ [m, pot.self])
  let L ← ask
  let t ← tabulate2 (L + A.L) (L + B.L) (A.L + B.L) pot A B
  let n ← ask
  loop n (fun _ => touch (t.1 :: t.2 :: m :: A.ptrs ++ B.ptrs))
  free t.2
  free t.1

/-- `construct_angular_momentum_matrices_rsh` (lmatrix.c:28-84). -/
def lMatrices (lx ly lz : Nat) : Act Unit := do
  touch [lx, ly, lz]
  let cx ← alloc
  let cy ← alloc
  let cz ← alloc
  touch [lx, ly, lz, cx, cy, cz]
  free cx
  free cy
  free cz

/-- `libgrpp_spin_orbit_integrals` (spin_orbit_integrals.c:41-243). -/
def spinOrbit (A B : Shell) (pot : Pot) (mx my mz : Nat) : Act Unit := do
  touch (A.ptrs ++ B.ptrs ++ [mx, my, mz, pot.self])
  let L ← ask
  let lx ← alloc
  let ly ← alloc
  let lz ← alloc
  lMatrices lx ly lz
  let t ← tabulate2 (L + A.L) (L + B.L) (A.L + B.L) pot A B
  let n ← ask
  loop n (fun _ => touch (t.1 :: t.2 :: lx :: ly :: lz :: mx :: my :: mz :: A.ptrs ++ B.ptrs))
  free t.2
  free t.1
  free lx
  free ly
  free lz

/-! ## Outer-core integrals -/

/-- `libgrpp_outercore_potential_integrals_part_1` (outercore_integrals.c:147-270). -/
def outerCore1 (A B : Shell) (pot : Pot) (oc : Shell) (m mx my mz : Nat) : Act Unit := do
  touch (A.ptrs ++ B.ptrs ++ oc.ptrs ++ [pot.self])
  let slm ← alloc
  touch (slm :: oc.ptrs)
  let sbCart ← alloc
  let saCart ← alloc
  let sb ← alloc
  let sa ← alloc
  overlap oc B sbCart
  overlap A oc saCart
  touch [slm, sbCart, saCart, sb, sa]
  free sbCart
  free saCart
  let ubCart ← alloc
  let uaCart ← alloc
  let ub ← alloc
  let ua ← alloc
  type1 oc B (some pot) ubCart
  type1 A oc (some pot) uaCart
  touch [slm, ubCart, uaCart, ub, ua]
  free ubCart
  free uaCart
  let buf ← alloc
  touch [sa, ub, ua, sb, buf, m]
  free buf
  let lm ← allocTable 3
  match lm.rows with
  | [lx, ly, lz] => do
    touch [lm.self]
    lMatrices lx ly lz
    let so ← allocTable 3
    let buf2 ← alloc
    loop 3 (fun _ => touch (lm.ptrs ++ so.ptrs ++ [buf2, sb, ua, sa, ub]))
    free buf2
    touch (so.ptrs ++ [mx, my, mz])
    free slm
    free sa
    free sb
    free ua
    free ub
    freeTable lm 3
    freeTable so 3
  | _ => undef

/-- `libgrpp_outercore_potential_integrals_part_2` (outercore_integrals.c:277-390). `calculate_delta_integral`
(lines 397-412) uses no dynamic memory of its own. -/
def outerCore2 (A B : Shell) (p1 : Pot) (oc1 : Shell) (p2 : Pot) (oc2 : Shell) (m mx my mz : Nat) : Act Unit := do
  touch (A.ptrs ++ B.ptrs ++ [p1.self, p2.self])
  let cL ← ask
  if cL ≠ 0 then pure () else do
    let cJ ← ask
    if cJ ≠ 0 then pure () else do
      touch (oc1.ptrs ++ oc2.ptrs ++ p1.ptrs ++ p2.ptrs)
      let slm ← alloc
      touch (slm :: oc1.ptrs)
      let sbCart ← alloc
      let saCart ← alloc
      let sb ← alloc
      let sa ← alloc
      overlap oc2 B sbCart
      overlap A oc1 saCart
      touch [slm, sbCart, saCart, sb, sa]
      free sbCart
      free saCart
      let buf ← alloc
      touch [sa, sb, buf, m]
      free buf
      let lm ← allocTable 3
      match lm.rows with
      | [lx, ly, lz] => do
        touch [lm.self]
        lMatrices lx ly lz
        let so ← allocTable 3
        let buf2 ← alloc
        loop 3 (fun _ => touch (lm.ptrs ++ so.ptrs ++ [buf2, sb, sa]))
        free buf2
        touch (so.ptrs ++ [mx, my, mz])
        freeTable so 3
        freeTable lm 3
        free sb
        free sa
        free slm
      | _ => undef

/-- The arrays of outer-core potentials and shells (possibly NULL when there are none) and their contents. -/
structure Cores where
  arrPot : Option Nat
  arrShell : Option Nat
  items : List (Pot × Shell)

def Cores.ptrs (c : Cores) : List Nat :=
  c.arrPot.toList ++ c.arrShell.toList ++ c.items.flatMap (fun x => x.1.ptrs ++ x.2.ptrs)

/-- `libgrpp_outercore_potential_integrals` (outercore_integrals.c:83-140). -/
def outerCore (A B : Shell) (c : Cores) (m mx my mz : Nat) : Act Unit := do
  touch (A.ptrs ++ B.ptrs ++ [m, mx, my, mz])
  touch (if c.items.length = 0 then [] else c.ptrs)
  loop c.items.length (fun i => entry c.items i (fun x => outerCore1 A B x.1 x.2 m mx my mz))
  loop c.items.length (fun i => loop c.items.length (fun j => entry c.items i (fun x => entry c.items j (fun y =>
    outerCore2 A B x.1 x.2 y.1 y.2 m mx my mz))))

/-! ## GRPP objects and their integrals -/

/-- A `libgrpp_grpp_t *`: the structure, the local potential, the arrays and their contents. -/
structure Grpp where
  self : Nat
  uL : Option Pot
  arrArep : Option Nat
  arep : List Pot
  arrEsop : Option Nat
  esop : List Pot
  cores : Cores

def Grpp.ptrs (g : Grpp) : List Nat :=
  g.self :: (g.uL.toList.flatMap Pot.ptrs ++ g.arrArep.toList ++ g.arep.flatMap Pot.ptrs ++ g.arrEsop.toList ++
    g.esop.flatMap Pot.ptrs ++ g.cores.ptrs)

/-- `libgrpp_new_grpp` (grpp.c:15-18). -/
def newGrpp : Act Grpp := do
  let self ← alloc
  pure ⟨self, none, none, [], none, [], ⟨none, none, []⟩⟩

/-- `libgrpp_grpp_set_local_potential` (grpp.c:21-28). -/
def setLocal (g : Grpp) (p : Option Pot) : Act Grpp := do
  touch [g.self]
  match g.uL with
  | some q => do
    deletePot q
    pure { g with uL := p }
  | none => pure { g with uL := p }

/-- `libgrpp_grpp_add_averaged_potential` (grpp.c:31-38). -/
def addArep (g : Grpp) (p : Pot) : Act Grpp := do
  touch [g.self]
  if g.arep = [] then do
    let a ← alloc
    touch [a]
    pure { g with arrArep := some a, arep := [p] }
  else do
    touch g.arrArep.toList
    pure { g with arep := g.arep ++ [p] }

/-- `libgrpp_grpp_add_spin_orbit_potential` (grpp.c:41-48). -/
def addEsop (g : Grpp) (p : Pot) : Act Grpp := do
  touch [g.self]
  if g.esop = [] then do
    let a ← alloc
    touch [a]
    pure { g with arrEsop := some a, esop := [p] }
  else do
    touch g.arrEsop.toList
    pure { g with esop := g.esop ++ [p] }

/-- `libgrpp_grpp_add_outercore_potential` (grpp.c:51-61). -/
def addCore (g : Grpp) (x : Pot × Shell) : Act Grpp := do
  touch [g.self]
  if g.cores.items = [] then do
    let a ← alloc
    let b ← alloc
    touch [a, b]
    pure { g with cores := ⟨some a, some b, [x]⟩ }
  else do
    touch (g.cores.arrPot.toList ++ g.cores.arrShell.toList)
    pure { g with cores := { g.cores with items := g.cores.items ++ [x] } }

/-- Deletion of the entries of a list in order. -/
def deleteAll {α : Type} (f : α → Act Unit) : List α → Act Unit
  | [] => pure ()
  | x :: r => do
    f x
    deleteAll f r

/-- `libgrpp_delete_grpp` (grpp.c:64-109). -/
def deleteGrpp (g : Grpp) : Act Unit := do
  touch [g.self]
  deleteAll deletePot g.uL.toList
  deleteAll (fun p => do
    touch g.arrArep.toList
    deletePot p) g.arep
  freeOpt g.arrArep
  deleteAll (fun p => do
    touch g.arrEsop.toList
    deletePot p) g.esop
  freeOpt g.arrEsop
  deleteAll (fun x => do
    touch (g.cores.arrPot.toList ++ g.cores.arrShell.toList)
    deletePot x.1
    deleteShell x.2) g.cores.items
  freeOpt g.cores.arrPot
  freeOpt g.cores.arrShell
  free g.self

/-- A call that fills a GRPP object. The client hands over potentials and shells that were made for the purpose, as the object
deletes them. -/
inductive GrppOp
  | setLocal
  | addArep
  | addEsop
  | addCore

/-- One call; `args` are the blocks the new objects are copied from. -/
def clientStep (args : List Nat) (g : Grpp) : GrppOp → Act Grpp
  | .setLocal => do
    let p ← newPot args
    setLocal g (some p)
  | .addArep => do
    let p ← newPot args
    addArep g p
  | .addEsop => do
    let p ← newPot args
    addEsop g p
  | .addCore => do
    let p ← newPot args
    let l ← ask
    let s ← newShell args l
    addCore g (p, s)

/-- Any number of calls in any order (at most 100 of each kind; more overflow the arrays, see the value model). -/
def clientSteps (args : List Nat) (g : Grpp) : List GrppOp → Act Grpp
  | [] => pure g
  | o :: r => do
    let g ← clientStep args g o
    clientSteps args g r

/-- The life of a GRPP object: made, filled, used, deleted. -/
def lifetime (args : List Nat) (ops : List GrppOp) (work : Grpp → Act Unit) : Act Unit := do
  let g ← newGrpp
  let g ← clientSteps args g ops
  work g
  deleteGrpp g

/-- `libgrpp_full_grpp_integrals` (full_grpp_integrals.c:27-104). -/
def fullGrpp (A B : Shell) (g : Grpp) (m mx my mz : Nat) : Act Unit := do
  touch (A.ptrs ++ B.ptrs)
  let b ← alloc
  let bx ← alloc
  let by' ← alloc
  let bz ← alloc
  touch [m, mx, my, mz, g.self]
  type1 A B g.uL b
  touch [b, m]
  loop g.arep.length (fun i => entry g.arep i (fun p => do
    touch g.arrArep.toList
    type2 A B p b
    touch [b, m]))
  loop g.esop.length (fun i => entry g.esop i (fun p => do
    touch g.arrEsop.toList
    spinOrbit A B p bx by' bz
    touch [p.self, bx, by', bz, mx, my, mz]))
  outerCore A B g.cores b bx by' bz
  touch [b, bx, by', bz, m, mx, my, mz]
  free b
  free bx
  free by'
  free bz

/-! ## Gradients -/

/-- The four matrices of one differentiated shell. -/
structure Quad where
  a : Nat
  x : Nat
  y : Nat
  z : Nat

def Quad.ptrs (q : Quad) : List Nat := [q.a, q.x, q.y, q.z]

/-- Four `calloc`s (grpp_integrals_gradient.c:550-553 and the like). -/
def allocQuad : Act Quad := do
  let a ← alloc
  let x ← alloc
  let y ← alloc
  let z ← alloc
  pure ⟨a, x, y, z⟩

/-- Four `free`s (grpp_integrals_gradient.c:492-495 and the like). -/
def freeQuad (q : Quad) : Act Unit := do
  free q.a
  free q.x
  free q.y
  free q.z

/-- `grpp_gradient_diff_gaussian` (grpp_integrals_gradient.c:914-1016); for `bra = true` and `bra = false` it uses memory as
`grpp_gradient_diff_bra_grpp_integrals` (lines 515-587) and `grpp_gradient_diff_ket_grpp_integrals` (lines 709-783) do. -/
def diffGaussian (bra : Bool) (A B : Shell) (g : Grpp) : Act (Option Quad × Quad) := do
  let d ← differentiate (if bra then A else B)
  match d with
  | (some down, up) => do
    touch ([down.self, up.self] ++ A.ptrs ++ B.ptrs)
    let qd ← allocQuad
    (if bra then fullGrpp down B g qd.a qd.x qd.y qd.z else fullGrpp A down g qd.a qd.x qd.y qd.z)
    let qu ← allocQuad
    (if bra then fullGrpp up B g qu.a qu.x qu.y qu.z else fullGrpp A up g qu.a qu.x qu.y qu.z)
    deleteShell down
    deleteShell up
    pure (some qd, qu)
  | (none, up) => do
    touch ([up.self] ++ A.ptrs ++ B.ptrs)
    let qu ← allocQuad
    (if bra then fullGrpp up B g qu.a qu.x qu.y qu.z else fullGrpp A up g qu.a qu.x qu.y qu.z)
    deleteShell up
    pure (none, qu)

/-- `grpp_gradient_contribution` (grpp_integrals_gradient.c:786-900); the same use of memory in
`grpp_gradient_diff_bra_contribution` (lines 403-501) and `grpp_gradient_diff_ket_contribution` (lines 597-695), where the
test is `L > 0` instead of `cart_size_down > 0`. `gr` are the blocks of the gradients. -/
def contribution (bra : Bool) (A B : Shell) (g : Grpp) (gr : List Nat) : Act Unit := do
  let q ← diffGaussian bra A B g
  loop 3 (fun _ => do
    let nA ← ask
    loop nA (fun _ => do
      let nB ← ask
      loop nB (fun _ => do
        touch (A.ptrs ++ B.ptrs)
        (match q.1 with
        | some d => do
          nlmToLinear
          nlmToLinear
          touch (d.ptrs ++ gr)
        | none => pure ())
        nlmToLinear
        nlmToLinear
        touch (q.2.ptrs ++ gr))))
  (match q.1 with
  | some d => freeQuad d
  | none => pure ())
  freeQuad q.2

/-- `libgrpp_full_grpp_integrals_gradient` (grpp_integrals_gradient.c:280-393). Every `points_are_equal` is answered
independently, which covers all the cases that can occur. -/
def fullGradient (A B : Shell) (g : Grpp) (gr : List Nat) : Act Unit := do
  touch (A.ptrs ++ B.ptrs ++ gr)
  let c1 ← ask
  if c1 ≠ 0 then pure () else do
    let c2 ← ask
    if c2 ≠ 0 then pure () else do
      -- type ACB
      optionally (do
        optionally (contribution true A B g gr)
        optionally (contribution false A B g gr)
        optionally (do
          contribution true A B g gr
          contribution false A B g gr))
      -- type ACA, either sign of the factor
      optionally (do
        contribution true A B g gr
        contribution false A B g gr)
      -- type ACC
      optionally (contribution true A B g gr)
      -- type CCB
      optionally (contribution false A B g gr)

/-- `libgrpp_alloc_gradients` (grpp_integrals_gradient.c:1022-1032). -/
def allocGradients : Act Table := do
  let self ← alloc
  let rows ← allocRows 3
  touch [self]
  pure ⟨self, rows⟩

/-- `libgrpp_dealloc_gradients` (grpp_integrals_gradient.c:1038-1044). -/
def deallocGradients (t : Table) : Act Unit := do
  touch [t.self]
  match t.rows with
  | [x, y, z] => do
    free x
    free y
    free z
    free t.self
  | _ => undef

/-- `libgrpp_type1_integrals_gradient` (grpp_integrals_gradient.c:123-154). -/
def type1Gradient (A B : Shell) (pot : Option Pot) (gr : List Nat) : Act Unit := do
  let g ← newGrpp
  let g ← setLocal g pot
  let sx ← allocGradients
  let sy ← allocGradients
  let sz ← allocGradients
  fullGradient A B g (gr ++ sx.ptrs ++ sy.ptrs ++ sz.ptrs)
  deallocGradients sx
  deallocGradients sy
  deallocGradients sz
  touch [g.self]
  deleteGrpp { g with uL := none }

/-- `libgrpp_type2_integrals_gradient` (grpp_integrals_gradient.c:161-192). -/
def type2Gradient (A B : Shell) (pot : Pot) (gr : List Nat) : Act Unit := do
  let g ← newGrpp
  let g ← addArep g pot
  let sx ← allocGradients
  let sy ← allocGradients
  let sz ← allocGradients
  fullGradient A B g (gr ++ sx.ptrs ++ sy.ptrs ++ sz.ptrs)
  deallocGradients sx
  deallocGradients sy
  deallocGradients sz
  touch [g.self]
  deleteGrpp { g with arep := [] }

/-- `libgrpp_spin_orbit_integrals_gradient` (grpp_integrals_gradient.c:199-243). -/
def spinOrbitGradient (A B : Shell) (pot : Pot) (gr : List Nat) : Act Unit := do
  let g ← newGrpp
  let g ← addEsop g pot
  let sa ← allocGradients
  fullGradient A B g (gr ++ sa.ptrs)
  touch (pot.self :: gr ++ A.ptrs ++ B.ptrs)
  deallocGradients sa
  touch [g.self]
  deleteGrpp { g with esop := [] }

/-- The additions of `libgrpp_outercore_potential_integrals_gradient` (grpp_integrals_gradient.c:261-263), at most 100 of
them (more overflow the array; see the value model). -/
def addCores (g : Grpp) : List (Pot × Shell) → Act Grpp
  | [] => pure g
  | x :: r => do
    let g ← addCore g x
    addCores g r

/-- `libgrpp_outercore_potential_integrals_gradient` (grpp_integrals_gradient.c:246-272). -/
def outerCoreGradient (A B : Shell) (xs : List (Pot × Shell)) (gr : List Nat) : Act Unit := do
  let g ← newGrpp
  let g ← addCores g xs
  fullGradient A B g gr
  touch [g.self]
  deleteGrpp { g with cores := { g.cores with items := [] } }

/-! ## Fortran interface -/

/-- Frame of the Fortran entry points with a potential (fortran.c:78-222, 443-633): convert the powers, make the potential and
the shells, call, delete. `args` are the blocks of the caller. -/
def fortranPot (args : List Nat) (call : Shell → Shell → Pot → Act Unit) : Act Unit := do
  let pw ← alloc
  touch (pw :: args)
  let pot ← newPot (pw :: args)
  let lA ← ask
  let A ← newShell args lA
  let lB ← ask
  let B ← newShell args lB
  call A B pot
  deleteShell A
  deleteShell B
  deletePot pot
  free pw

/-- Frame of the Fortran entry points without a potential (fortran.c:641-682, 709-993). -/
def fortranPair (args : List Nat) (call : Shell → Shell → Act Unit) : Act Unit := do
  let lA ← ask
  let A ← newShell args lA
  let lB ← ask
  let B ← newShell args lB
  call A B
  deleteShell A
  deleteShell B

/-- `libgrpp_outercore_potential_integrals_part_1_` (fortran.c:231-316). -/
def fortranOuterCore1 (args : List Nat) (m mx my mz : Nat) : Act Unit := do
  let pw ← alloc
  touch (pw :: args)
  let lA ← ask
  let A ← newShell args lA
  let lB ← ask
  let B ← newShell args lB
  let pot ← newPot (pw :: args)
  let lO ← ask
  let oc ← newShell args lO
  outerCore1 A B pot oc m mx my mz
  deleteShell A
  deleteShell B
  deletePot pot
  deleteShell oc
  free pw

/-- `libgrpp_outercore_potential_integrals_part_2_` (fortran.c:325-436). -/
def fortranOuterCore2 (args : List Nat) (m mx my mz : Nat) : Act Unit := do
  let pw1 ← alloc
  let pw2 ← alloc
  touch (pw1 :: pw2 :: args)
  let lA ← ask
  let A ← newShell args lA
  let lB ← ask
  let B ← newShell args lB
  let p1 ← newPot (pw1 :: args)
  let lO ← ask
  let oc1 ← newShell args lO
  let p2 ← newPot (pw2 :: args)
  let lP ← ask
  let oc2 ← newShell args lP
  outerCore2 A B p1 oc1 p2 oc2 m mx my mz
  deleteShell A
  deleteShell B
  deletePot p1
  deletePot p2
  deleteShell oc1
  deleteShell oc2
  free pw1
  free pw2

/-! ## Initialisation -/

/-- The static variables: `libgrpp_initialized` (init_finalize.c:13), `rsh_coef_tables` and `rsh_tables_lmax`
(spherical_harmonics.c:31-32); each table is the structure, its list of combinations and its coefficients. -/
structure Statics where
  initialized : Bool
  arr : Option Nat
  tables : List (Nat × Nat × Nat)

def Statics.ptrs (g : Statics) : List Nat := g.arr.toList ++ g.tables.flatMap (fun t => [t.1, t.2.1, t.2.2])

/-- The variables at program start. -/
def Statics.start : Statics := ⟨false, none, []⟩

/-- `tabulate_real_spherical_harmonic_coeffs` (spherical_harmonics.c:68-90), with `generate_cartesian_combinations`
(lines 283-304). -/
def tabulateHarmonics : Act (Nat × Nat × Nat) := do
  let t ← alloc
  touch [t]
  let c ← alloc
  touch [c]
  let v ← alloc
  touch [t, c, v]
  pure (t, c, v)

/-- `n` further tables (spherical_harmonics.c:57-59). -/
def moreHarmonics : Nat → Act (List (Nat × Nat × Nat))
  | 0 => pure []
  | n + 1 => do
    let r ← moreHarmonics n
    let t ← tabulateHarmonics
    pure (r ++ [t])

/-- `create_real_spherical_harmonic_coeffs_tables(40)` (spherical_harmonics.c:48-62). `realloc` gives a new block and releases
the old one. -/
def createHarmonics (g : Statics) : Act Statics := do
  if 41 ≤ g.tables.length then pure g else do
    let a ← alloc
    freeOpt g.arr
    let ts ← moreHarmonics (41 - g.tables.length)
    touch [a]
    pure { g with arr := some a, tables := g.tables ++ ts }

/-- `libgrpp_init` (init_finalize.c:19-30). `pretabulate_bessel` uses a static array. -/
def init (g : Statics) : Act Statics := do
  if g.initialized then pure g else do
    let g ← createHarmonics g
    pure { g with initialized := true }

/-- `libgrpp_finalize` (init_finalize.c:42-50). -/
def finalize (g : Statics) : Act Statics :=
  pure (if g.initialized then { g with initialized := false } else g)

/-- `n` pairs of `libgrpp_init` and `libgrpp_finalize`. -/
def cycles : Nat → Statics → Act Statics
  | 0, g => pure g
  | n + 1, g => do
    let g ← cycles n g
    let g ← init g
    finalize g

end Libgrpp.Heap
