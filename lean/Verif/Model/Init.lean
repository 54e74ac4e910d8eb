import Mathlib.Logic.Function.Basic

/-! # Initialisation, finalisation and the shared tables, executed by any number of threads

`libgrpp_init`, `libgrpp_is_initialized`, `libgrpp_finalize` (init_finalize.c:13-50) and the two table builders they call
(spherical_harmonics.c:31-62, specfunc_scaled_mod_sph_bessel.c:45-60), as a transition system. One step of a thread is
one access to a shared variable (one table, one table row). The schedule is arbitrary. Memory is sequentially consistent;
data races are therefore stated separately, as two conflicting accesses that are next in two threads (`Races`).

Both `#pragma omp critical` blocks are unnamed, hence one and the same lock. Simplifications: the contents of a table
`rsh_coef_tables[L]` and of a row `bessel_table[i]` are opaque values `tab L`, `row i` (their computation depends on
nothing shared); `realloc` never fails; one row of `bessel_table` is written at once. -/

namespace Libgrpp

/-- A table read made by an integral routine: the table of one angular momentum, or one row of the Bessel table. -/
inductive TableRead where
  | rsh (L : Nat)
  | bessel (i : Nat)

/-- A call made by a thread. `integral` stands for any routine beginning with `assert(libgrpp_is_initialized())`
(full_grpp_integrals.c:38, nuclear_attraction.c:85, outercore_integrals.c:96, spin_orbit_integrals.c:45,
type1_integrals.c:51, type2_integrals.c:42) and then reading tables in some order. -/
inductive LibCall where
  | init
  | finalize
  | query
  | integral (reads : List TableRead)

/-- Program counter of a thread. -/
inductive Pc where
  | idle
  /-- init_finalize.c:21, waiting for the lock -/
  | initEnter
  /-- init_finalize.c:23 -/
  | initTest
  /-- spherical_harmonics.c:50 with `Lmax = 40` -/
  | rshTest
  /-- spherical_harmonics.c:55 -/
  | rshRealloc
  /-- spherical_harmonics.c:57-59, loop variable `L` -/
  | rshFill (L : Nat)
  /-- spherical_harmonics.c:60 -/
  | rshSetLmax
  /-- specfunc_scaled_mod_sph_bessel.c:47-60, loop variable `i` -/
  | besselFill (i : Nat)
  /-- init_finalize.c:27 -/
  | initSet
  /-- end of the critical block, init_finalize.c:29 -/
  | initLeave
  /-- init_finalize.c:44 -/
  | finEnter
  /-- init_finalize.c:46 -/
  | finTest
  /-- init_finalize.c:47 -/
  | finSet
  /-- init_finalize.c:49 -/
  | finLeave
  /-- init_finalize.c:35 -/
  | queryRead
  /-- the assertion at the head of an integral routine -/
  | intAssert (reads : List TableRead)
  /-- table reads still to do -/
  | intRead (reads : List TableRead)

/-- What a thread has observed. -/
inductive Obs (T B : Type) where
  /-- value returned by `libgrpp_is_initialized` -/
  | reported (v : Int)
  /-- entry returned by `get_real_spherical_harmonic_table(L)`; `none`: null or never written -/
  | rsh (L : Nat) (v : Option T)
  /-- row of `bessel_table`; `none`: never written -/
  | bessel (i : Nat) (v : Option B)

/-- A thread: program counter, calls still to make, calls of `libgrpp_init` that returned, observations. -/
structure LibThread (T B : Type) where
  pc : Pc
  todo : List LibCall
  inits : Nat
  seen : List (Obs T B)

/-- Shared state, with counters of how often each table was built (`rshBuilds`, `besselBuilds`), how often the pointer
table was reallocated and how often the flag was reset. -/
structure LibState (T B : Type) where
  /-- `libgrpp_initialized`, init_finalize.c:13 -/
  flag : Int
  /-- owner of the critical section -/
  lock : Option Nat
  /-- `rsh_tables_lmax`, spherical_harmonics.c:32 -/
  lmax : Int
  /-- `rsh_coef_tables[L]`, spherical_harmonics.c:31 -/
  rsh : Nat → Option T
  /-- `bessel_table[i]`, specfunc_scaled_mod_sph_bessel.c:35 -/
  bessel : Nat → Option B
  rshBuilds : Nat → Nat
  besselBuilds : Nat → Nat
  reallocs : Nat
  resets : Nat
  /-- the process has been aborted by a failed assertion -/
  aborted : Bool
  threads : Nat → LibThread T B

variable {T B : Type}

/-- State at program start: thread `t` is going to make the calls `progs t`. -/
def LibState.start (progs : Nat → List LibCall) : LibState T B where
  flag := 0
  lock := none
  lmax := -1
  rsh := fun _ => none
  bessel := fun _ => none
  rshBuilds := fun _ => 0
  besselBuilds := fun _ => 0
  reallocs := 0
  resets := 0
  aborted := false
  threads := fun t => ⟨.idle, progs t, 0, []⟩

/-- Where a call begins. -/
def LibCall.entry : LibCall → Pc
  | .init => .initEnter
  | .finalize => .finEnter
  | .query => .queryRead
  | .integral rs => .intAssert rs

/-- Replace the program counter of thread `t`. -/
def LibState.goto (s : LibState T B) (t : Nat) (pc : Pc) : LibState T B :=
  { s with threads := Function.update s.threads t { s.threads t with pc := pc } }

/-- Record an observation of thread `t`. -/
def LibState.observe (s : LibState T B) (t : Nat) (o : Obs T B) : LibState T B :=
  { s with threads := Function.update s.threads t { s.threads t with seen := o :: (s.threads t).seen } }

/-- `get_real_spherical_harmonic_table(L)`, spherical_harmonics.c:95-103. -/
def LibState.getRsh (s : LibState T B) (L : Nat) : Option T :=
  if (L : Int) > s.lmax then none else s.rsh L

/-- One step of thread `t`; `none`: the thread has finished, waits for the lock, or the process is dead. -/
def LibState.step (tab : Nat → T) (row : Nat → B) (s : LibState T B) (t : Nat) : Option (LibState T B) :=
  if s.aborted then none
  else match (s.threads t).pc with
  | .idle =>
    match (s.threads t).todo with
    | [] => none
    | c :: cs => some { s with threads := Function.update s.threads t { s.threads t with pc := c.entry, todo := cs } }
  | .initEnter => if s.lock = none then some ({ s with lock := some t }.goto t .initTest) else none
  | .initTest => some (s.goto t (if s.flag = 0 then .rshTest else .initLeave))
  | .rshTest => some (s.goto t (if 40 ≤ s.lmax then .besselFill 0 else .rshRealloc))
  | .rshRealloc =>
    some ({ s with
      rsh := fun L => if (L : Int) ≤ s.lmax then s.rsh L else none
      reallocs := s.reallocs + 1 }.goto t (.rshFill (s.lmax + 1).toNat))
  | .rshFill L =>
    if L ≤ 40 then
      some ({ s with
        rsh := Function.update s.rsh L (some (tab L))
        rshBuilds := Function.update s.rshBuilds L (s.rshBuilds L + 1) }.goto t (.rshFill (L + 1)))
    else some (s.goto t .rshSetLmax)
  | .rshSetLmax => some ({ s with lmax := 40 }.goto t (.besselFill 0))
  | .besselFill i =>
    if i ≤ 1600 then
      some ({ s with
        bessel := Function.update s.bessel i (some (row i))
        besselBuilds := Function.update s.besselBuilds i (s.besselBuilds i + 1) }.goto t (.besselFill (i + 1)))
    else some (s.goto t .initSet)
  | .initSet => some ({ s with flag := 1 }.goto t .initLeave)
  | .initLeave =>
    some { s with
      lock := none
      threads := Function.update s.threads t
        { s.threads t with pc := .idle, inits := (s.threads t).inits + 1 } }
  | .finEnter => if s.lock = none then some ({ s with lock := some t }.goto t .finTest) else none
  | .finTest => some (s.goto t (if s.flag = 1 then .finSet else .finLeave))
  | .finSet => some ({ s with flag := 0, resets := s.resets + 1 }.goto t .finLeave)
  | .finLeave => some ({ s with lock := none }.goto t .idle)
  | .queryRead => some ((s.observe t (.reported s.flag)).goto t .idle)
  | .intAssert rs => if s.flag ≠ 0 then some (s.goto t (.intRead rs)) else some { s with aborted := true }
  | .intRead [] => some (s.goto t .idle)
  | .intRead (.rsh L :: rs) => some ((s.observe t (.rsh L (s.getRsh L))).goto t (.intRead rs))
  | .intRead (.bessel i :: rs) => some ((s.observe t (.bessel i (s.bessel i))).goto t (.intRead rs))

/-- States that some schedule leads to. -/
inductive LibState.Reachable (tab : Nat → T) (row : Nat → B) (progs : Nat → List LibCall) : LibState T B → Prop
  | start : Reachable tab row progs (LibState.start progs)
  | step {s s' : LibState T B} (t : Nat) (h : Reachable tab row progs s) (hs : s.step tab row t = some s') :
      Reachable tab row progs s'

/-- Shared variables. -/
inductive LibVar where
  | flag
  | rshLmax
  /-- the pointer `rsh_coef_tables` -/
  | rshPointer
  | rshTable (L : Nat)
  | besselRow (i : Nat)
deriving DecidableEq

/-- The shared variable a thread is going to read (`false`) or write (`true`) next. For `get_real_spherical_harmonic_table`
the three reads `rsh_tables_lmax`, `rsh_coef_tables`, `rsh_coef_tables[L]` are listed. -/
def Pc.accesses : Pc → List (LibVar × Bool)
  | .initTest | .finTest | .queryRead | .intAssert _ => [(.flag, false)]
  | .rshTest => [(.rshLmax, false)]
  | .rshRealloc => [(.rshPointer, true), (.rshLmax, false)]
  | .rshFill L => if L ≤ 40 then [(.rshTable L, true)] else []
  | .rshSetLmax => [(.rshLmax, true)]
  | .besselFill i => if i ≤ 1600 then [(.besselRow i, true)] else []
  | .initSet | .finSet => [(.flag, true)]
  | .intRead (.rsh L :: _) => [(.rshLmax, false), (.rshPointer, false), (.rshTable L, false)]
  | .intRead (.bessel i :: _) => [(.besselRow i, false)]
  | _ => []

/-- Two different threads are both about to access `v`, one of them writing: a data race in the sense of C11 5.1.2.4
(none of these variables is atomic), i.e. undefined behaviour. -/
def LibState.Races (s : LibState T B) (v : LibVar) : Prop :=
  s.aborted = false ∧ ∃ t u : Nat, t ≠ u ∧ (v, true) ∈ (s.threads t).pc.accesses ∧
    ∃ w : Bool, (v, w) ∈ (s.threads u).pc.accesses

end Libgrpp
