import Verif.Model.GrppGradient

/-! # Model of `libgrpp/grpp.c` with a heap, and of the single-term gradient routines

Simplifications: a potential, a shell or an array of pointers is one heap object (in C a potential or shell consists of
several blocks that are allocated and released together, potential.c:22-62, shell.c); allocation never fails; addresses
are not reused. -/

namespace Libgrpp

/-- Address of a heap object. NULL is `none` in `Option Addr`. -/
notation "Addr" => Nat

/-- Store objects. -/
inductive Obj
  | pot (p : Potential)
  | shell (s : Shell)
  | array
  | grpp

/-- ObjKind of a heap object. -/
inductive ObjKind | pot | shell | array | grpp
  deriving DecidableEq

def Obj.kind : Obj → ObjKind
  | .pot _ => .pot
  | .shell _ => .shell
  | .array => .array
  | .grpp => .grpp

/-- Store: live objects, the next fresh address, and (for specifications) the log of released addresses, newest first. -/
structure Store where
  mem : Addr → Option Obj
  next : Addr
  freed : List Addr

/-- `calloc`. -/
def Store.alloc (h : Store) (o : Obj) : Addr × Store :=
  (h.next, { h with mem := Function.update h.mem h.next (some o), next := h.next + 1 })

/-- `if (p != NULL) libgrpp_delete_potential(p);` (potential.c:52-62), the same with `libgrpp_delete_shell` (shell.c:107-113),
and `free(p)`: nothing for NULL; undefined unless the pointer is to a live object of the right kind. -/
def Store.release (k : ObjKind) (p : Option Addr) (h : Store) : Outcome Store :=
  match p with
  | none => .ok h
  | some a =>
    match h.mem a with
    | some o => if o.kind = k then .ok { h with mem := Function.update h.mem a none, freed := a :: h.freed } else .ub
    | none => .ub

/-- `LIBGRPP_MAX_NUMBER_POTENTIALS`, grpp.c:12. -/
def maxPotentials : Nat := 100

/-- Array of pointers on the heap (`block = none` and no slots before the first allocation). -/
structure PtrArray where
  block : Option Addr
  slots : List (Option Addr)

/-- `libgrpp_grpp_t`, libgrpp.h:94-103, as stored at address `self`. -/
structure GrppObj where
  self : Addr
  uL : Option Addr
  nArep : Nat
  arep : PtrArray
  nEsop : Nat
  esop : PtrArray
  nOc : Nat
  oc : PtrArray
  ocShells : PtrArray

/-- `libgrpp_new_grpp`, grpp.c:15-18. -/
def newGrpp (h : Store) : Store × GrppObj :=
  let r := h.alloc .grpp
  (r.2, ⟨r.1, none, 0, ⟨none, []⟩, 0, ⟨none, []⟩, 0, ⟨none, []⟩, ⟨none, []⟩⟩)

/-- `libgrpp_grpp_set_local_potential`, grpp.c:21-28. -/
def setLocal (st : Store × GrppObj) (p : Option Addr) : Outcome (Store × GrppObj) := do
  let h ← st.1.release .pot st.2.uL
  .ok (h, { st.2 with uL := p })

/-- `if (n == 0) array = calloc(100, sizeof(pointer));` -/
def allocIfFirst (h : Store) (n : Nat) (a : PtrArray) : Store × PtrArray :=
  if n = 0 then
    let r := h.alloc .array
    (r.2, ⟨some r.1, List.replicate maxPotentials none⟩)
  else (h, a)

/-- `array[n] = p;` -/
def storePtr (a : PtrArray) (n : Nat) (p : Option Addr) : Outcome PtrArray := do
  let s ← wr a.slots n p
  .ok { a with slots := s }

/-- `libgrpp_grpp_add_averaged_potential`, grpp.c:31-38. -/
def addArep (st : Store × GrppObj) (p : Option Addr) : Outcome (Store × GrppObj) := do
  let r := allocIfFirst st.1 st.2.nArep st.2.arep
  let a ← storePtr r.2 st.2.nArep p
  .ok (r.1, { st.2 with arep := a, nArep := st.2.nArep + 1 })

/-- `libgrpp_grpp_add_spin_orbit_potential`, grpp.c:41-48. -/
def addEsop (st : Store × GrppObj) (p : Option Addr) : Outcome (Store × GrppObj) := do
  let r := allocIfFirst st.1 st.2.nEsop st.2.esop
  let a ← storePtr r.2 st.2.nEsop p
  .ok (r.1, { st.2 with esop := a, nEsop := st.2.nEsop + 1 })

/-- `libgrpp_grpp_add_outercore_potential`, grpp.c:51-61. -/
def addOc (st : Store × GrppObj) (p s : Option Addr) : Outcome (Store × GrppObj) := do
  let r := allocIfFirst st.1 st.2.nOc st.2.oc
  let r' := allocIfFirst r.1 st.2.nOc st.2.ocShells
  let a ← storePtr r.2 st.2.nOc p
  let b ← storePtr r'.2 st.2.nOc s
  .ok (r'.1, { st.2 with oc := a, ocShells := b, nOc := st.2.nOc + 1 })

/-- Loop releasing the objects in slots `0..n-1`. -/
def releaseSlots (k : ObjKind) (n : Nat) (a : PtrArray) (h : Store) : Outcome Store :=
  forRange n h fun i h => do
    let p ← rd a.slots i
    h.release k p

/-- Loop of the outer-core part, grpp.c:98-105. -/
def releaseOc (n : Nat) (a b : PtrArray) (h : Store) : Outcome Store :=
  forRange n h fun i h => do
    let p ← rd a.slots i
    let h ← h.release .pot p
    let s ← rd b.slots i
    h.release .shell s

/-- `libgrpp_delete_grpp`, grpp.c:64-110 (for a non-NULL argument). -/
def deleteGrpp (h : Store) (g : GrppObj) : Outcome Store := do
  let h ← h.release .pot g.uL
  let h ← releaseSlots .pot g.nArep g.arep h
  let h ← h.release .array g.arep.block
  let h ← releaseSlots .pot g.nEsop g.esop h
  let h ← h.release .array g.esop.block
  let h ← releaseOc g.nOc g.oc g.ocShells h
  let h ← h.release .array g.oc.block
  let h ← h.release .array g.ocShells.block
  h.release .grpp (some g.self)

/-! ## Calls -/

/-- Calls that modify a GRPP object. -/
inductive GrppCall
  | setLocal (p : Option Addr)
  | addArep (p : Option Addr)
  | addEsop (p : Option Addr)
  | addOc (p s : Option Addr)

/-- Effect of a call. -/
def GrppCall.run : GrppCall → Store × GrppObj → Outcome (Store × GrppObj)
  | .setLocal p, st => Libgrpp.setLocal st p
  | .addArep p, st => Libgrpp.addArep st p
  | .addEsop p, st => Libgrpp.addEsop st p
  | .addOc p s, st => Libgrpp.addOc st p s

/-- A sequence of calls. -/
def runCalls (cs : List GrppCall) (st : Store × GrppObj) : Outcome (Store × GrppObj) :=
  cs.foldlM (fun st c => c.run st) st

/-! ## Reading the object -/

/-- Access through a pointer to a potential. -/
def derefPot (h : Store) (p : Option Addr) : Outcome Potential :=
  match p with
  | none => .ub
  | some a => match h.mem a with
    | some (.pot u) => .ok u
    | _ => .ub

/-- Access through a pointer to a shell. -/
def derefShell (h : Store) (p : Option Addr) : Outcome Shell :=
  match p with
  | none => .ub
  | some a => match h.mem a with
    | some (.shell s) => .ok s
    | _ => .ub

/-- Potentials in slots `0..n-1`. -/
def readPots (h : Store) (n : Nat) (a : PtrArray) : Outcome (List Potential) :=
  forRange n [] fun i l => do
    let p ← rd a.slots i
    let u ← derefPot h p
    .ok (l ++ [u])

/-- Outer-core potentials and shells in slots `0..n-1`. -/
def readOc (h : Store) (n : Nat) (a b : PtrArray) : Outcome (List (Potential × Shell)) :=
  forRange n [] fun i l => do
    let p ← rd a.slots i
    let u ← derefPot h p
    let s ← rd b.slots i
    let s ← derefShell h s
    .ok (l ++ [(u, s)])

/-- The local potential (NULL allowed, type1_integrals.c:63-65). -/
def readLocal (h : Store) (p : Option Addr) : Outcome (Option Potential) :=
  match p with
  | none => .ok none
  | some a => do
    let u ← derefPot h (some a)
    .ok (some u)

/-- What the integral routine sees of the object. The pointers are followed before the calculation starts; the integral
routines do not write to potentials, so the time does not matter. -/
def readGrpp (h : Store) (g : GrppObj) : Outcome GrppData := do
  let l ← readLocal h g.uL
  let a ← readPots h g.nArep g.arep
  let e ← readPots h g.nEsop g.esop
  let o ← readOc h g.nOc g.oc g.ocShells
  .ok ⟨l, a, e, o⟩

/-- `libgrpp_full_grpp_integrals` on an object. -/
noncomputable def fullObj (K : Kernels) (init : Bool) (C : Point) (h : Store) (g : GrppObj) : FullRoutine := fun S T M => do
  let d ← readGrpp h g
  fullGrpp K init S T d C M

/-! ## Single-term gradients (grpp_integrals_gradient.c:123-272) -/

/-- Fixed arguments of the gradient routines. -/
structure GradEnv where
  gen : Nat → List Comp
  junk : Option (Nat → ℝ)
  K : Kernels
  init : Bool
  A : Shell
  B : Shell
  C : Point
  D : Point

/-- `libgrpp_alloc_gradients`, lines 1022-1033: zero-filled stub arrays. -/
noncomputable def GradEnv.stub (e : GradEnv) : List ℝ := List.replicate (e.A.cart_size * e.B.cart_size) 0

/-- `libgrpp_full_grpp_integrals_gradient` on an object. -/
noncomputable def GradEnv.gradient (e : GradEnv) (h : Store) (g : GrppObj) (G : Grads) : Outcome Grads :=
  grppGradient e.gen e.junk (fullObj e.K e.init e.C h g) e.A e.B e.C e.D G

/-- `libgrpp_type1_integrals_gradient`, lines 123-154. -/
noncomputable def type1Gradient (e : GradEnv) (h : Store) (pot : Option Addr) (grad : Fin 3 → List ℝ) :
    Outcome (Store × (Fin 3 → List ℝ)) := do
  let st ← setLocal (newGrpp h) pot
  let G ← e.gradient st.1 st.2 fun qk => if qk.1 = 0 then grad qk.2 else e.stub
  let h ← deleteGrpp st.1 { st.2 with uL := none }
  .ok (h, fun k => G (0, k))

/-- `libgrpp_type2_integrals_gradient`, lines 161-192. -/
noncomputable def type2Gradient (e : GradEnv) (h : Store) (pot : Option Addr) (grad : Fin 3 → List ℝ) :
    Outcome (Store × (Fin 3 → List ℝ)) := do
  let st ← addArep (newGrpp h) pot
  let G ← e.gradient st.1 st.2 fun qk => if qk.1 = 0 then grad qk.2 else e.stub
  let h ← deleteGrpp st.1 { st.2 with nArep := 0 }
  .ok (h, fun k => G (0, k))

/-- `grad_so_q[k][i] *= w;` -/
noncomputable def scaleAt (w : ℝ) (q : Fin 3) (k : Fin 3) (i : Nat) (G : Grads) : Outcome Grads := do
  let x ← rd (G (q.succ, k)) i
  let l ← wr (G (q.succ, k)) i (x * w)
  .ok (Function.update G (q.succ, k) l)

/-- Rescaling loop, lines 229-236. -/
noncomputable def rescaleSO (w : ℝ) (size : Nat) (G : Grads) : Outcome Grads :=
  forCoord G fun k G => forRange size G fun i G => forCoord G fun q G => scaleAt w q k i G

/-- `libgrpp_spin_orbit_integrals_gradient`, lines 199-243. The arrays `grad (q, k)` are `grad_so_x/y/z[k]`. -/
noncomputable def soGradient (e : GradEnv) (h : Store) (pot : Option Addr) (grad : Fin 3 × Fin 3 → List ℝ) :
    Outcome (Store × (Fin 3 × Fin 3 → List ℝ)) := do
  let st ← addEsop (newGrpp h) pot
  let G ← e.gradient st.1 st.2 fun qk => Fin.cases e.stub (fun q => grad (q, qk.2)) qk.1
  let u ← derefPot st.1 pot
  let G ← rescaleSO ((2 * (u.L : ℝ) + 1) / 2) (e.A.cart_size * e.B.cart_size) G
  let h ← deleteGrpp st.1 { st.2 with nEsop := 0 }
  .ok (h, fun qk => G (qk.1.succ, qk.2))

/-- `libgrpp_outercore_potential_integrals_gradient`, lines 246-272. -/
noncomputable def ocGradient (e : GradEnv) (h : Store) (num : Nat) (pots shells : List (Option Addr)) (G : Grads) :
    Outcome (Store × Grads) := do
  let st ← forRange num (newGrpp h) fun i st => do
    let p ← rd pots i
    let s ← rd shells i
    addOc st p s
  let G ← e.gradient st.1 st.2 G
  let h ← deleteGrpp st.1 { st.2 with nOc := 0 }
  .ok (h, G)

end Libgrpp
