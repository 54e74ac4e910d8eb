import Verif.Model.Type2
import Verif.Model.OuterCore

/-! # Integral routines as programs over a memory shared by threads

A thread is a tree of loads and stores; the tree branches over the value loaded. Memory is divided into blocks (`malloc`, `calloc` or an array of the
caller), each an array of cells. Memory which only one thread can reach (stack, temporary arrays, deep copies of shells) is part of the thread and not
of the shared memory. Allocation does not fail, and the allocator is thread safe. The tables made by `libgrpp_init` are constant here (their
construction is the subject of C39). Memory is sequentially consistent; data races, for which C does not promise that, are stated separately
(`Pool.Race`). -/

namespace Libgrpp

/-- A cell of memory: `double`, `int` or the address of a block. -/
inductive Cell where
  | num (x : ℝ)
  | int (n : Int)
  | ptr (b : Nat)

/-- A block and an index in it. -/
abbrev Loc := Nat × Nat

/-- Memory; `none` is not allocated. -/
abbrev Memory := Loc → Option Cell

/-- A program: finished with an outcome, or about to access a cell. -/
inductive Prog (α : Type) where
  | ret (o : Outcome α)
  | load (x : Loc) (k : Cell → Prog α)
  | store (x : Loc) (c : Cell) (p : Prog α)

/-- The part of `libgrpp_type2_integrals` (see `type2Integrals`) which works on private memory only; the result is the matrix element as a function
of the two components. -/
noncomputable def type2Values {G : Type} (lib : Lib G) (A B : Shell) (C : Point) (pot : Potential) : Outcome (Comp → Comp → Outcome ℝ) := do
  let L := pot.L.toNat
  let LA ← firstDegree A
  let LB ← firstDegree B
  let CA : Point := fun i => C i - A.origin i
  let CB : Point := fun i => C i - B.origin i
  let CA2 := CA 0 * CA 0 + CA 1 * CA 1 + CA 2 * CA 2
  let CB2 := CB 0 * CB 0 + CB 1 * CB 1 + CB 2 * CB 2
  let aA ← rd A.alpha 0
  let aB ← rd B.alpha 0
  let kA : Point := fun i => -2 * (aA * CA i)
  let kB : Point := fun i => -2 * (aB * CB i)
  let table ← radialType2 lib (L + LA) (L + LB) (LA + LB) CA2 CB2 pot A B
  let lmax := max (max (L + LA) (L + LB)) L
  let rA ← rshRows 90 180 lmax kA
  let rB ← rshRows 90 180 lmax kB
  .ok fun x y => do
    let v ← semilocalElement 1e-13 1e-16 L (L + LB) (LA + LB) CA CB table (type2AngularSum L rA rB) x y
    .ok (v * (16 * Real.pi * Real.pi))

/-- The same for `libgrpp_spin_orbit_integrals` (see `spinOrbitIntegrals`). -/
noncomputable def spinOrbitValues {G : Type} (lib : Lib G) (A B : Shell) (C : Point) (pot : Potential) : Outcome (Comp → Comp → Outcome Point) := do
  let L := pot.L.toNat
  let LA ← firstDegree A
  let LB ← firstDegree B
  let CA : Point := fun i => C i - A.origin i
  let CB : Point := fun i => C i - B.origin i
  let CA2 := CA 0 * CA 0 + CA 1 * CA 1 + CA 2 * CA 2
  let CB2 := CB 0 * CB 0 + CB 1 * CB 1 + CB 2 * CB 2
  let aA ← rd A.alpha 0
  let aB ← rd B.alpha 0
  let kA : Point := fun i => -2 * (aA * CA i)
  let kB : Point := fun i => -2 * (aB * CB i)
  let n := (2 * L + 1) * (2 * L + 1)
  let M ← lmatRsh L ⟨List.replicate n 0, List.replicate n 0, List.replicate n 0⟩
  let lmax := max (max (L + LA) (L + LB)) L
  let rA ← rshRows 30 61 lmax kA
  let rB ← rshRows 30 61 lmax kB
  let table ← radialType2 lib (L + LA) (L + LB) (LA + LB) CA2 CB2 pot A B
  .ok (semilocalElement zeroThresh zeroThresh L (L + LB) (LA + LB) CA CB table (type3AngularSum L M rA rB))

namespace Prog

variable {α β : Type}

/-- Sequencing. -/
protected def bind (p : Prog α) (f : α → Prog β) : Prog β :=
  match p with
  | ret (.ok a) => f a
  | ret .ub => ret .ub
  | ret .abort => ret .abort
  | ret .exit => ret .exit
  | load x k => load x fun c => (k c).bind f
  | store x c p => store x c (p.bind f)

instance : Monad Prog where
  pure a := ret (.ok a)
  bind := Prog.bind

/-- A computation on private memory. -/
def lift (o : Outcome α) : Prog α := ret o

/-- Read a `double`, an `int`, an address. The wrong type is undefined behaviour. -/
def getNum (x : Loc) : Prog ℝ := load x fun c => match c with | .num v => ret (.ok v) | _ => ret .ub
def getInt (x : Loc) : Prog Int := load x fun c => match c with | .int v => ret (.ok v) | _ => ret .ub
def getPtr (x : Loc) : Prog Nat := load x fun c => match c with | .ptr b => ret (.ok b) | _ => ret .ub

/-- Write a `double`. -/
def setNum (x : Loc) (v : ℝ) : Prog Unit := store x (.num v) (ret (.ok ()))

/-- `for (int i = 0; i < n; i++)` -/
def loop {σ : Type} : Nat → σ → (Nat → σ → Prog σ) → Prog σ
  | 0, s, _ => ret (.ok s)
  | n + 1, s, body => (loop n s body).bind (body n)

/-- The first `n` elements of an array of `double`. -/
def getNums (b n : Nat) : Prog (List ℝ) := loop n [] fun i l => do
  let v ← getNum (b, i)
  ret (.ok (l ++ [v]))

/-- The first `n` elements of an array of `int`. -/
def getInts (b n : Nat) : Prog (List Int) := loop n [] fun i l => do
  let v ← getInt (b, i)
  ret (.ok (l ++ [v]))

/-- `n` Cartesian components, three `int` each. -/
def getComps (b n : Nat) : Prog (List Comp) := loop n [] fun i l => do
  let x ← getInt (b, 3 * i)
  let y ← getInt (b, 3 * i + 1)
  let z ← getInt (b, 3 * i + 2)
  ret (.ok (l ++ [(x.toNat, y.toNat, z.toNat)]))

/-- A `double[3]`. -/
def getPoint (b off : Nat) : Prog Point := do
  let x ← getNum (b, off)
  let y ← getNum (b, off + 1)
  let z ← getNum (b, off + 2)
  ret (.ok ![x, y, z])

/-- All of a `libgrpp_shell_t` at block `s`, libgrpp.h:66-74 (fields at offsets 0 to 8 in the order of the structure, `origin` at 6, 7, 8).
Simplification: where a routine of the library reads some fields of a shell, some of them several times, the program reads all of them once. -/
def getShell (s : Nat) : Prog Shell := do
  let L ← getInt (s, 0)
  let size ← getInt (s, 1)
  let pl ← getPtr (s, 2)
  let num ← getInt (s, 3)
  let pc ← getPtr (s, 4)
  let pa ← getPtr (s, 5)
  let origin ← getPoint s 6
  let list ← getComps pl size.toNat
  let coeffs ← getNums pc num.toNat
  let alpha ← getNums pa num.toNat
  ret (.ok ⟨L.toNat, origin, size.toNat, list, num.toNat, coeffs, alpha⟩)

/-- All of a `libgrpp_potential_t`, libgrpp.h:42-49. -/
def getPotential (p : Nat) : Prog Potential := do
  let L ← getInt (p, 0)
  let J ← getInt (p, 1)
  let num ← getInt (p, 2)
  let pp ← getPtr (p, 3)
  let pc ← getPtr (p, 4)
  let pa ← getPtr (p, 5)
  let powers ← getInts pp num.toNat
  let coeffs ← getNums pc num.toNat
  let alpha ← getNums pa num.toNat
  ret (.ok ⟨L, J, num.toNat, powers, coeffs, alpha⟩)

/-- `memset(matrix, 0, n * sizeof(double))`. -/
def zero (o n : Nat) : Prog Unit := loop n () fun i _ => setNum (o, i) 0

/-- `libgrpp_daxpy` from a private buffer to block `o`, utils.c:53-58. -/
noncomputable def axpy (n : Nat) (a : ℝ) (x : List ℝ) (o : Nat) : Prog Unit := loop n () fun i _ => do
  let xi ← lift (rd x i)
  let yi ← getNum (o, i)
  setNum (o, i) (yi + a * xi)

/-- Component `i` of the list of Cartesian components of the shell at block `s`. -/
def getComp (s i : Nat) : Prog Comp := do
  let b ← getPtr (s, 2)
  let x ← getInt (b, 3 * i)
  let y ← getInt (b, 3 * i + 1)
  let z ← getInt (b, 3 * i + 2)
  ret (.ok (x.toNat, y.toNat, z.toNat))

/-- The contraction loop of overlap.c:39-63, kinetic.c:38-62, momentum.c:44-82 (see `contract`), on shells at the blocks `a`, `b`, with the output
matrix at block `o`. The temporary buffer is private. The primitive routine, a function of the values of the shells, reads them again. -/
noncomputable def contractAt (prim : Shell → Shell → ℝ → ℝ → List ℝ → Outcome (List ℝ)) (a b o : Nat) : Prog Unit := do
  let sa ← getInt (a, 1)
  let sb ← getInt (b, 1)
  let n := sa.toNat * sb.toNat
  zero o n
  let na ← getInt (a, 3)
  let _ ← loop na.toNat (List.replicate n (0 : ℝ)) fun i buf => do
    let nb ← getInt (b, 3)
    loop nb.toNat buf fun j buf => do
      let aa ← getPtr (a, 5)
      let ai ← getNum (aa, i)
      let ab ← getPtr (b, 5)
      let aj ← getNum (ab, j)
      let ca ← getPtr (a, 4)
      let ci ← getNum (ca, i)
      let cb ← getPtr (b, 4)
      let cj ← getNum (cb, j)
      let A ← getShell a
      let B ← getShell b
      let buf ← lift (prim A B ai aj buf)
      axpy n (ci * cj) buf o
      ret (.ok buf)
  ret (.ok ())

/-- `libgrpp_overlap_integrals`, overlap.c:39-63. -/
noncomputable def overlap (a b o : Nat) : Prog Unit := contractAt overlapPrim a b o

/-- `libgrpp_kinetic_energy_integrals`, kinetic.c:38-62. -/
noncomputable def kinetic (a b o : Nat) : Prog Unit := contractAt kineticPrim a b o

/-- `libgrpp_momentum_integrals`, momentum.c:44-82, one matrix after the other (see `momentumPrim`). -/
noncomputable def momentum (a b ox oy oz : Nat) : Prog Unit := do
  contractAt (momentumPrim 0) a b ox
  contractAt (momentumPrim 1) a b oy
  contractAt (momentumPrim 2) a b oz

/-- `libgrpp_type1_integrals`, type1_integrals.c:43-100, for a potential at block `p` and a centre at block `c`. The integrals of one term go to a
private buffer (type1_mcmurchie_davidson.c:107-166), which is accumulated in the output matrix. -/
noncomputable def type1 (sf : SpecFun) (init : Bool) (a b c p o : Nat) : Prog Unit := do
  lift (Outcome.assert (init = true))
  let sa ← getInt (a, 1)
  let sb ← getInt (b, 1)
  let n := sa.toNat * sb.toNat
  zero o n
  let np ← getInt (p, 2)
  let _ ← loop np.toNat (List.replicate n (0 : ℝ)) fun k buf => do
    let pc ← getPtr (p, 4)
    let ck ← getNum (pc, k)
    let pa ← getPtr (p, 5)
    let ak ← getNum (pa, k)
    let pp ← getPtr (p, 3)
    let wk ← getInt (pp, k)
    let A ← getShell a
    let B ← getShell b
    let C ← getPoint c 0
    let buf ← lift (mmdIntegrals sf A B C ak wk buf)
    axpy n ck buf o
    ret (.ok buf)
  ret (.ok ())

/-- `libgrpp_type2_integrals`, type2_integrals.c:34-211: clear the output matrix (52), prepare the tables, which are private (54-116), and store the
matrix elements (118-208). -/
noncomputable def type2 {G : Type} (lib : Lib G) (a b c p o : Nat) : Prog Unit := do
  lift (Outcome.assert (lib.init = true))
  let sa ← getInt (a, 1)
  let sb ← getInt (b, 1)
  zero o (sa.toNat * sb.toNat)
  let A ← getShell a
  let B ← getShell b
  let C ← getPoint c 0
  let U ← getPotential p
  let val ← lift (type2Values lib A B C U)
  loop A.cart_size () fun m _ =>
    loop B.cart_size () fun n _ => do
      let x ← getComp a m
      let y ← getComp b n
      let v ← lift (val x y)
      setNum (o, m * B.cart_size + n) v

/-- `libgrpp_spin_orbit_integrals`, spin_orbit_integrals.c:41-245, as `type2`, with three output matrices. -/
noncomputable def spinOrbit {G : Type} (lib : Lib G) (a b c p ox oy oz : Nat) : Prog Unit := do
  lift (Outcome.assert (lib.init = true))
  let sa ← getInt (a, 1)
  let sb ← getInt (b, 1)
  zero ox (sa.toNat * sb.toNat)
  zero oy (sa.toNat * sb.toNat)
  zero oz (sa.toNat * sb.toNat)
  let A ← getShell a
  let B ← getShell b
  let C ← getPoint c 0
  let U ← getPotential p
  let val ← lift (spinOrbitValues lib A B C U)
  loop A.cart_size () fun m _ =>
    loop B.cart_size () fun n _ => do
      let x ← getComp a m
      let y ← getComp b n
      let v ← lift (val x y)
      setNum (ox, m * B.cart_size + n) (v 0 * (16 * Real.pi * Real.pi))
      setNum (oy, m * B.cart_size + n) (v 1 * (16 * Real.pi * Real.pi))
      setNum (oz, m * B.cart_size + n) (v 2 * (16 * Real.pi * Real.pi))

/-- The beginning of `libgrpp_outercore_potential_integrals` up to the first store to the shells of the GRPP and the rest of that loop,
outercore_integrals.c:97-116; `shells` is the array of addresses of `num` shells. What follows is the program `rest`. -/
noncomputable def bindOuterCore (init : Bool) (a b c shells num : Nat) (o : Fin 4 → Nat) (rest : Prog Unit) : Prog Unit := do
  lift (Outcome.assert (init = true))
  let sa ← getInt (a, 1)
  let sb ← getInt (b, 1)
  let n := sa.toNat * sb.toNat
  zero (o 0) n
  zero (o 1) n
  zero (o 2) n
  zero (o 3) n
  loop num () fun i _ => do
    let s ← getPtr (shells, i)
    let x ← getNum (c, 0)
    setNum (s, 6) x
    let y ← getNum (c, 1)
    setNum (s, 7) y
    let z ← getNum (c, 2)
    setNum (s, 8) z
  rest

end Prog

/-- Threads (any number) and the memory which they share. -/
structure Pool (ι : Type) where
  mem : Memory
  thread : ι → Prog Unit

/-- One access by thread `i`. Access to memory which is not allocated is undefined behaviour. -/
inductive Pool.Step {ι : Type} [DecidableEq ι] (i : ι) : Pool ι → Pool ι → Prop
  | load (s : Pool ι) (x : Loc) (k : Cell → Prog Unit) (c : Cell) : s.thread i = .load x k → s.mem x = some c →
      Pool.Step i s ⟨s.mem, Function.update s.thread i (k c)⟩
  | store (s : Pool ι) (x : Loc) (c d : Cell) (p : Prog Unit) : s.thread i = .store x c p → s.mem x = some d →
      Pool.Step i s ⟨Function.update s.mem x (some c), Function.update s.thread i p⟩
  | badLoad (s : Pool ι) (x : Loc) (k : Cell → Prog Unit) : s.thread i = .load x k → s.mem x = none →
      Pool.Step i s ⟨s.mem, Function.update s.thread i (.ret .ub)⟩
  | badStore (s : Pool ι) (x : Loc) (c : Cell) (p : Prog Unit) : s.thread i = .store x c p → s.mem x = none →
      Pool.Step i s ⟨s.mem, Function.update s.thread i (.ret .ub)⟩

/-- States reachable under the schedule `l`, a list of the threads which make the steps. -/
inductive Pool.Exec {ι : Type} [DecidableEq ι] : List ι → Pool ι → Pool ι → Prop
  | nil (s : Pool ι) : Pool.Exec [] s s
  | snoc (l : List ι) (i : ι) (s t u : Pool ι) : Pool.Exec l s t → Pool.Step i t u → Pool.Exec (l ++ [i]) s u

/-- The cell which a program is going to access next, and whether it is a store. -/
def Prog.next {α : Type} : Prog α → Option (Loc × Bool)
  | .ret _ => none
  | .load x _ => some (x, false)
  | .store x _ _ => some (x, true)

/-- Two different threads are both about to access `x`, one of them writing: a data race, i.e. undefined behaviour in C (C11 5.1.2.4). -/
def Pool.Race {ι : Type} (s : Pool ι) (x : Loc) : Prop :=
  ∃ i j, i ≠ j ∧ (s.thread i).next = some (x, true) ∧ ∃ w, (s.thread j).next = some (x, w)

/-! ## Objects in memory and calls -/

/-- The blocks of a shell. -/
structure ShellBlocks where
  obj : Nat
  list : Nat
  coeffs : Nat
  alpha : Nat

/-- The blocks of a potential. -/
structure PotBlocks where
  obj : Nat
  powers : Nat
  coeffs : Nat
  alpha : Nat

def ShellBlocks.set (s : ShellBlocks) : Set Nat := {s.obj, s.list, s.coeffs, s.alpha}
def PotBlocks.set (p : PotBlocks) : Set Nat := {p.obj, p.powers, p.coeffs, p.alpha}

/-- The cells of a set of blocks. -/
def cells (s : Set Nat) : Set Loc := {x | x.1 ∈ s}

/-- Memory contains the shell `A`, as the constructor lays it out. -/
structure ShellAt (m : Memory) (s : ShellBlocks) (A : Shell) : Prop where
  L : m (s.obj, 0) = some (.int A.L)
  size : m (s.obj, 1) = some (.int A.cart_size)
  list : m (s.obj, 2) = some (.ptr s.list)
  num : m (s.obj, 3) = some (.int A.num)
  coeffs : m (s.obj, 4) = some (.ptr s.coeffs)
  alpha : m (s.obj, 5) = some (.ptr s.alpha)
  origin : ∀ k : Fin 3, m (s.obj, 6 + k) = some (.num (A.origin k))
  sizes : A.cartList.length = A.cart_size ∧ A.coeffs.length = A.num ∧ A.alpha.length = A.num
  comps : ∀ i (hi : i < A.cartList.length), m (s.list, 3 * i) = some (.int A.cartList[i].1) ∧ m (s.list, 3 * i + 1) = some (.int A.cartList[i].2.1) ∧
    m (s.list, 3 * i + 2) = some (.int A.cartList[i].2.2)
  coeff : ∀ i (hi : i < A.coeffs.length), m (s.coeffs, i) = some (.num A.coeffs[i])
  exps : ∀ i (hi : i < A.alpha.length), m (s.alpha, i) = some (.num A.alpha[i])

/-- Memory contains the potential `U`. -/
structure PotAt (m : Memory) (p : PotBlocks) (U : Potential) : Prop where
  L : m (p.obj, 0) = some (.int U.L)
  J : m (p.obj, 1) = some (.int U.J)
  num : m (p.obj, 2) = some (.int U.num)
  powers : m (p.obj, 3) = some (.ptr p.powers)
  coeffs : m (p.obj, 4) = some (.ptr p.coeffs)
  alpha : m (p.obj, 5) = some (.ptr p.alpha)
  sizes : U.powers.length = U.num ∧ U.coeffs.length = U.num ∧ U.alpha.length = U.num
  power : ∀ i (hi : i < U.powers.length), m (p.powers, i) = some (.int U.powers[i])
  coeff : ∀ i (hi : i < U.coeffs.length), m (p.coeffs, i) = some (.num U.coeffs[i])
  exps : ∀ i (hi : i < U.alpha.length), m (p.alpha, i) = some (.num U.alpha[i])

/-- Memory contains the point `C` at block `c`. -/
def PointAt (m : Memory) (c : Nat) (C : Point) : Prop := ∀ k : Fin 3, m (c, (k : ℕ)) = some (.num (C k))

/-- Block `o` is the array `l`. -/
def ArrayAt (m : Memory) (o : Nat) (l : List ℝ) : Prop := ∀ i, m (o, i) = (l[i]?).map .num

/-- Memory with the array `l` at block `o`. -/
def Memory.put (m : Memory) (o : Nat) (l : List ℝ) : Memory := fun x => if x.1 = o then (l[x.2]?).map .num else m x

/-- Memory with three matrices. -/
def Memory.put3 (m : Memory) (ox oy oz : Nat) (M : LMat) : Memory := ((m.put ox M.x).put oy M.y).put oz M.z

/-- A call of an integral routine: objects and output matrices are named by their blocks. -/
inductive Call (G : Type) where
  | overlap (a b : ShellBlocks) (o : Nat)
  | kinetic (a b : ShellBlocks) (o : Nat)
  | momentum (a b : ShellBlocks) (ox oy oz : Nat)
  | type1 (sf : SpecFun) (init : Bool) (a b : ShellBlocks) (c : Nat) (p : PotBlocks) (o : Nat)
  | type2 (lib : Lib G) (a b : ShellBlocks) (c : Nat) (p : PotBlocks) (o : Nat)
  | spinOrbit (lib : Lib G) (a b : ShellBlocks) (c : Nat) (p : PotBlocks) (ox oy oz : Nat)

namespace Call
variable {G : Type}

/-- The program of a call. -/
noncomputable def prog : Call G → Prog Unit
  | overlap a b o => Prog.overlap a.obj b.obj o
  | kinetic a b o => Prog.kinetic a.obj b.obj o
  | momentum a b ox oy oz => Prog.momentum a.obj b.obj ox oy oz
  | type1 sf init a b c p o => Prog.type1 sf init a.obj b.obj c p.obj o
  | type2 lib a b c p o => Prog.type2 lib a.obj b.obj c p.obj o
  | spinOrbit lib a b c p ox oy oz => Prog.spinOrbit lib a.obj b.obj c p.obj ox oy oz

/-- The blocks of the objects passed to a call. -/
def ins : Call G → Set Nat
  | overlap a b _ => a.set ∪ b.set
  | kinetic a b _ => a.set ∪ b.set
  | momentum a b _ _ _ => a.set ∪ b.set
  | type1 _ _ a b c p _ => a.set ∪ b.set ∪ ({c} ∪ p.set)
  | type2 _ a b c p _ => a.set ∪ b.set ∪ ({c} ∪ p.set)
  | spinOrbit _ a b c p _ _ _ => a.set ∪ b.set ∪ ({c} ∪ p.set)

/-- The blocks of its output matrices. -/
def outs : Call G → Set Nat
  | overlap _ _ o => {o}
  | kinetic _ _ o => {o}
  | momentum _ _ ox oy oz => {ox, oy, oz}
  | type1 _ _ _ _ _ _ o => {o}
  | type2 _ _ _ _ _ o => {o}
  | spinOrbit _ _ _ _ _ ox oy oz => {ox, oy, oz}

/-- The effect of a call by itself, in terms of the models of the routines as functions of values: in memory `m` are the objects `A`, `B`, ... and the
output matrices, apart from the objects; the routine returns the contents of the output matrices in `m'`, and nothing else is different. -/
inductive Gives (m : Memory) : Call G → Memory → Prop
  | overlap {a b : ShellBlocks} {o : Nat} {A B : Shell} {l l' : List ℝ} : ShellAt m a A → ShellAt m b B → ArrayAt m o l → o ∉ a.set → o ∉ b.set →
      overlapIntegrals A B l = .ok l' → Gives m (.overlap a b o) (m.put o l')
  | kinetic {a b : ShellBlocks} {o : Nat} {A B : Shell} {l l' : List ℝ} : ShellAt m a A → ShellAt m b B → ArrayAt m o l → o ∉ a.set → o ∉ b.set →
      kineticIntegrals A B l = .ok l' → Gives m (.kinetic a b o) (m.put o l')
  | momentum {a b : ShellBlocks} {ox oy oz : Nat} {A B : Shell} {x y z x' y' z' : List ℝ} : ShellAt m a A → ShellAt m b B →
      ArrayAt m ox x → ArrayAt m oy y → ArrayAt m oz z → ox ≠ oy → ox ≠ oz → oy ≠ oz → (∀ o ∈ ({ox, oy, oz} : Set Nat), o ∉ a.set ∧ o ∉ b.set) →
      momentumIntegrals 0 A B x = .ok x' → momentumIntegrals 1 A B y = .ok y' → momentumIntegrals 2 A B z = .ok z' →
      Gives m (.momentum a b ox oy oz) (m.put3 ox oy oz ⟨x', y', z'⟩)
  | type1 {sf : SpecFun} {init : Bool} {a b : ShellBlocks} {c : Nat} {p : PotBlocks} {o : Nat} {A B : Shell} {C : Point} {U : Potential} {l l' : List ℝ} :
      ShellAt m a A → ShellAt m b B → PointAt m c C → PotAt m p U → ArrayAt m o l → o ∉ a.set → o ∉ b.set → o ≠ c → o ∉ p.set →
      type1Integrals sf init A B C (some U) l = .ok l' → Gives m (.type1 sf init a b c p o) (m.put o l')
  | type2 {lib : Lib G} {a b : ShellBlocks} {c : Nat} {p : PotBlocks} {o : Nat} {A B : Shell} {C : Point} {U : Potential} {l l' : List ℝ} :
      ShellAt m a A → ShellAt m b B → PointAt m c C → PotAt m p U → ArrayAt m o l → o ∉ a.set → o ∉ b.set → o ≠ c → o ∉ p.set →
      type2Integrals lib A B C U l = .ok l' → Gives m (.type2 lib a b c p o) (m.put o l')
  | spinOrbit {lib : Lib G} {a b : ShellBlocks} {c : Nat} {p : PotBlocks} {ox oy oz : Nat} {A B : Shell} {C : Point} {U : Potential} {M M' : LMat} :
      ShellAt m a A → ShellAt m b B → PointAt m c C → PotAt m p U → ArrayAt m ox M.x → ArrayAt m oy M.y → ArrayAt m oz M.z →
      ox ≠ oy → ox ≠ oz → oy ≠ oz → (∀ o ∈ ({ox, oy, oz} : Set Nat), o ∉ a.set ∧ o ∉ b.set ∧ o ≠ c ∧ o ∉ p.set) →
      spinOrbitIntegrals lib A B C U M = .ok M' → Gives m (.spinOrbit lib a b c p ox oy oz) (m.put3 ox oy oz M')

end Call

/-- The program of a thread: calls one after the other. -/
noncomputable def callsProg {G : Type} : List (Call G) → Prog Unit
  | [] => .ret (.ok ())
  | c :: cs => c.prog >>= fun _ => callsProg cs

/-- The effect of calls one after the other. -/
inductive CallsGive {G : Type} : List (Call G) → Memory → Memory → Prop
  | nil (m : Memory) : CallsGive [] m m
  | cons (c : Call G) (cs : List (Call G)) (m m1 m2 : Memory) : c.Gives m m1 → CallsGive cs m1 m2 → CallsGive (c :: cs) m m2

/-- The blocks of the objects, and of the output matrices, of a sequence of calls. -/
def callIns {G : Type} (cs : List (Call G)) : Set Nat := {x | ∃ c ∈ cs, x ∈ c.ins}
def callOuts {G : Type} (cs : List (Call G)) : Set Nat := {x | ∃ c ∈ cs, x ∈ c.outs}

end Libgrpp
