import Mathlib.Data.Int.Notation

/-! # Memory accesses of two concurrent overlap-gradient calls to one exponent of a shared shell

`overlap_gradient_diff_bra_contribution` (overlap_gradient.c:92-152) changes the exponent `bra_nlm[icoord]` stored in
the caller's shell and restores it, without any synchronisation. One exponent is one `int` in memory here; each compound
assignment is a load into a register followed by a store; the threads are interleaved by an arbitrary schedule
(sequentially consistent memory, which the C standard does not even promise for such a race). -/

namespace Libgrpp

/-- One memory access of a thread. -/
inductive Access where
  | load
  /-- store the register plus a constant -/
  | store (d : Int)
  /-- read by `nlm_to_linear` (overlap_gradient.c:221-223) or as a factor (line 132); no effect on memory -/
  | peek

/-- The accesses to `bra_nlm[icoord]` in the body for one pair of components (overlap_gradient.c:117-143) for a shell
with `L > 0`: lines 126, 127, 129, 132, 138, 139, 141. -/
def iterAccesses : List Access :=
  [.load, .store (-1), .peek, .load, .store 1, .peek, .load, .store 1, .peek, .load, .store (-1)]

/-- The accesses of a whole call to this exponent: one body per ket component (lines 114-116), `n` of them. -/
def callAccesses : Nat → List Access
  | 0 => []
  | n + 1 => iterAccesses ++ callAccesses n

/-- A thread: what it has still to do and its register. -/
structure Thread where
  todo : List Access
  reg : Int

/-- Next access of a thread on the shared exponent. -/
def Thread.step (t : Thread) (x : Int) : Thread × Int :=
  match t.todo with
  | [] => (t, x)
  | .load :: r => (⟨r, x⟩, x)
  | .store d :: r => (⟨r, t.reg⟩, t.reg + d)
  | .peek :: r => (⟨r, t.reg⟩, x)

/-- Two threads and the shared exponent, run under a schedule (`true`: the first thread moves). -/
def interleave : List Bool → Thread → Thread → Int → Thread × Thread × Int
  | [], t, u, x => (t, u, x)
  | true :: s, t, u, x => let r := t.step x; interleave s r.1 u r.2
  | false :: s, t, u, x => let r := u.step x; interleave s t r.1 r.2

end Libgrpp
