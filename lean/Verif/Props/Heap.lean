import Verif.Lemmas.HeapGrpp
import Mathlib.Data.Multiset.Lattice
import Mathlib.Data.Multiset.Range
import Mathlib.Order.Nat

/-! # C90, C91: dynamic memory -/

namespace Libgrpp

open Heap

/-- The routine, called with the blocks `args` in use, returns without undefined behaviour (it frees no block twice, frees
nothing it has not got, and uses no block after its release), for every allocator and every outcome of every comparison, and
afterwards exactly the same blocks are in use as before. -/
def Clean (args : List Nat) (r : Act Unit) : Prop :=
  ∀ (e : Env) (s : Heap.State), (∀ x ∈ args, x ∈ s.live) → ∃ s', r e s = .ok ((), s') ∧ s'.live = s.live

theorem clean_of {P : List Nat} {r : Act Unit} (h : HT P [] r (fun _ => [])) : Clean P r := by
  intro e s hs
  obtain ⟨⟨⟩, s', h1, h2⟩ := h e s s.live (by simp) hs
  exact ⟨s', h1, by simpa using h2⟩

/-- **C90.** Overlap, kinetic energy and momentum integrals. -/
theorem memory_one_electron (A B : Heap.Shell) (m mx my mz : Nat) :
    Clean (A.ptrs ++ B.ptrs ++ [m]) (overlap A B m) ∧
    Clean (A.ptrs ++ B.ptrs ++ [mx, my, mz]) (momentum A B mx my mz) :=
  ⟨clean_of (overlap_ht A B m), clean_of (momentum_ht A B mx my mz)⟩

/-- **C90.** Nuclear attraction integrals, point charge and finite nuclei. -/
theorem memory_nuclear_attraction (A B : Heap.Shell) (point : Bool) (m : Nat) :
    Clean (A.ptrs ++ B.ptrs ++ [m]) (nuclearAttraction A B point m) :=
  clean_of (nuclearAttraction_ht A B point m)

/-- **C90.** The terms of the pseudopotential. `pot = none` is the NULL pointer. -/
theorem memory_terms (A B : Heap.Shell) (pot : Option Heap.Pot) (p : Heap.Pot) (c : Heap.Cores) (m mx my mz : Nat) :
    Clean (A.ptrs ++ B.ptrs ++ [m] ++ pot.toList.flatMap Pot.ptrs) (type1 A B pot m) ∧
    Clean (A.ptrs ++ B.ptrs ++ [m] ++ p.ptrs) (type2 A B p m) ∧
    Clean (A.ptrs ++ B.ptrs ++ [mx, my, mz] ++ p.ptrs) (spinOrbit A B p mx my mz) ∧
    Clean (A.ptrs ++ B.ptrs ++ c.ptrs ++ [m, mx, my, mz]) (outerCore A B c m mx my mz) :=
  ⟨clean_of (type1_ht A B pot m), clean_of (type2_ht A B p m), clean_of (spinOrbit_ht A B p mx my mz),
    clean_of (outerCore_ht A B c m mx my mz)⟩

/-- **C90.** The full pseudopotential and its gradient. -/
theorem memory_full_grpp (A B : Heap.Shell) (g : Heap.Grpp) (m mx my mz : Nat) (gr : List Nat) :
    Clean (A.ptrs ++ B.ptrs ++ g.ptrs ++ [m, mx, my, mz]) (fullGrpp A B g m mx my mz) ∧
    Clean (A.ptrs ++ B.ptrs ++ g.ptrs ++ gr) (fullGradient A B g gr) :=
  ⟨clean_of (fullGrpp_ht A B g m mx my mz), clean_of (fullGradient_ht A B g gr)⟩

/-- **C90.** The gradients of the overlap and of single terms. -/
theorem memory_gradients (A B : Heap.Shell) (pot : Option Heap.Pot) (p : Heap.Pot) (xs : List (Heap.Pot × Heap.Shell))
    (gr : List Nat) :
    Clean (A.ptrs ++ B.ptrs ++ gr) (overlapGradient A B gr) ∧
    Clean (A.ptrs ++ B.ptrs ++ pot.toList.flatMap Pot.ptrs ++ gr) (type1Gradient A B pot gr) ∧
    Clean (A.ptrs ++ B.ptrs ++ p.ptrs ++ gr) (type2Gradient A B p gr) ∧
    Clean (A.ptrs ++ B.ptrs ++ p.ptrs ++ gr) (spinOrbitGradient A B p gr) ∧
    Clean (A.ptrs ++ B.ptrs ++ xs.flatMap (fun x => x.1.ptrs ++ x.2.ptrs) ++ gr) (outerCoreGradient A B xs gr) :=
  ⟨clean_of (overlapGradient_ht A B gr), clean_of (type1Gradient_ht A B pot gr), clean_of (type2Gradient_ht A B p gr),
    clean_of (spinOrbitGradient_ht A B p gr), clean_of (outerCoreGradient_ht A B xs gr)⟩

/-- **C90.** The Fortran entry points with a potential; `out` are the arrays for the results. -/
theorem memory_fortran_potentials (args : List Nat) (m mx my mz : Nat) (gr : List Nat) :
    Clean (args ++ [m]) (fortranPot args (fun A B p => type1 A B (some p) m)) ∧
    Clean (args ++ [m]) (fortranPot args (fun A B p => type2 A B p m)) ∧
    Clean (args ++ [mx, my, mz]) (fortranPot args (fun A B p => spinOrbit A B p mx my mz)) ∧
    Clean (args ++ [m, mx, my, mz]) (fortranOuterCore1 args m mx my mz) ∧
    Clean (args ++ [m, mx, my, mz]) (fortranOuterCore2 args m mx my mz) ∧
    Clean (args ++ gr) (fortranPot args (fun A B p => type1Gradient A B (some p) gr)) ∧
    Clean (args ++ gr) (fortranPot args (fun A B p => type2Gradient A B p gr)) ∧
    Clean (args ++ gr) (fortranPot args (fun A B p => spinOrbitGradient A B p gr)) := by
  refine ⟨clean_of (fortranPot_ht (by simp +contextual) fun A B p => (type1_ht A B (some p) m).weaken ?_),
    clean_of (fortranPot_ht (by simp +contextual) fun A B p => (type2_ht A B p m).weaken ?_),
    clean_of (fortranPot_ht (by simp +contextual) fun A B p => (spinOrbit_ht A B p mx my mz).weaken ?_),
    clean_of (fortranOuterCore1_ht args m mx my mz), clean_of (fortranOuterCore2_ht args m mx my mz),
    clean_of (fortranPot_ht (by simp +contextual) fun A B p => (type1Gradient_ht A B (some p) gr).weaken ?_),
    clean_of (fortranPot_ht (by simp +contextual) fun A B p => (type2Gradient_ht A B p gr).weaken ?_),
    clean_of (fortranPot_ht (by simp +contextual) fun A B p => (spinOrbitGradient_ht A B p gr).weaken ?_)⟩ <;>
  · intro x
    simp only [List.mem_append, Option.toList_some, List.flatMap_cons, List.flatMap_nil, List.append_nil]
    tauto

/-- **C90.** The Fortran entry points without a potential. -/
theorem memory_fortran_pairs (args : List Nat) (point : Bool) (m mx my mz : Nat) (gr : List Nat) :
    Clean (args ++ [m]) (fortranPair args (fun A B => overlap A B m)) ∧
    Clean (args ++ [mx, my, mz]) (fortranPair args (fun A B => momentum A B mx my mz)) ∧
    Clean (args ++ [m]) (fortranPair args (fun A B => nuclearAttraction A B point m)) ∧
    Clean (args ++ gr) (fortranPair args (fun A B => overlapGradient A B gr)) := by
  refine ⟨clean_of (fortranPair_ht (by simp +contextual) fun A B => (overlap_ht A B m).weaken ?_),
    clean_of (fortranPair_ht (by simp +contextual) fun A B => (momentum_ht A B mx my mz).weaken ?_),
    clean_of (fortranPair_ht (by simp +contextual) fun A B => (nuclearAttraction_ht A B point m).weaken ?_),
    clean_of (fortranPair_ht (by simp +contextual) fun A B => (overlapGradient_ht A B gr).weaken ?_)⟩ <;>
  · intro x
    simp only [List.mem_append]
    tauto

/-- **C90.** A GRPP object that is made, filled by any calls in any order, used for integrals and gradients, and deleted,
leaves nothing behind; nor does a shell or a potential that is made and deleted. -/
theorem memory_objects (args : List Nat) (ops : List GrppOp) (A B : Heap.Shell) (m mx my mz L : Nat) (gr : List Nat) :
    Clean (args ++ (A.ptrs ++ B.ptrs ++ [m, mx, my, mz] ++ gr)) (lifetime args ops (fun g => do
      fullGrpp A B g m mx my mz
      fullGradient A B g gr)) ∧
    Clean args (do
      let s ← newShell args L
      deleteShell s) ∧
    Clean args (do
      let p ← newPot args
      deletePot p) := by
  refine ⟨clean_of (lifetime_ht ops (by simp +contextual) fun g => ?_), clean_of ?_, clean_of ?_⟩
  · refine HT.seq ((fullGrpp_ht A B g m mx my mz).weaken ?_) ((fullGradient_ht A B g gr).weaken ?_) <;>
    · intro x
      simp only [List.mem_append]
      tauto
  · exact HT.mk (newShell_ht args L) Cov.callers fun s => (deleteShell_ht s).weaken (by simp)
  · exact HT.mk (newPot_ht args) Cov.callers fun s => (deletePot_ht s).weaken (by simp)

/-- **C91** is false: whatever is done with it, the library keeps 124 blocks (a table of pointers and 41 tables of spherical
harmonics, three blocks each) after `libgrpp_init` and `libgrpp_finalize`, which were not in use before. -/
theorem finalize_keeps_memory (e : Env) (s : Heap.State) : ∃ g' s',
    (do let g ← Heap.init Statics.start; Heap.finalize g : Act Statics) e s = .ok (g', s') ∧
    g'.initialized = false ∧ s'.live = (g'.ptrs : Multiset Nat) + s.live ∧ g'.ptrs.length = 124 := by
  obtain ⟨g1, s1, h1, l1⟩ := init_ht Statics.start e s s.live (by simp [Statics.ptrs, Statics.start]) (by simp)
  obtain ⟨hi, -, h3⟩ := init_post Statics.start rfl e s g1 s1 h1
  obtain ⟨h4, h5⟩ := h3 (by simp [Statics.start])
  refine ⟨{ g1 with initialized := false }, s1, ?_, rfl, ?_, ?_⟩
  · rw [HT.bind_ok h1]
    unfold Heap.finalize
    rw [if_pos hi]; rfl
  · rw [l1, List.sum_cons, List.sum_nil, add_zero]; rfl
  · have ht := tableBlocks_length g1.tables
    obtain ⟨a, ha⟩ := Option.isSome_iff_exists.1 h5
    change (g1.arr.toList ++ tableBlocks g1.tables).length = 124
    rw [List.length_append, ht, h4, ha]; rfl

/-- **C91**, what holds: the memory does not grow. After the first pair of `libgrpp_init` and `libgrpp_finalize` further pairs
change nothing at all: neither the blocks in use nor the tables. -/
theorem finalize_cycles_partial (e : Env) (s : Heap.State) : ∃ g' s', s'.live.card = s.live.card + 124 ∧
    ∀ n, cycles (n + 1) Statics.start e s = .ok (g', s') := by
  obtain ⟨g1, s1, h1, hi, hl, hc⟩ := finalize_keeps_memory e s
  obtain ⟨g0, s0, k1, k2⟩ := init_ht Statics.start e s s.live (by simp [Statics.ptrs, Statics.start]) (by simp)
  obtain ⟨-, -, k3⟩ := init_post Statics.start rfl e s g0 s0 k1
  have hlen : g1.tables.length = 41 := by
    rw [HT.bind_ok k1] at h1
    unfold Heap.finalize at h1
    cases h1
    split <;> exact (k3 (by simp [Statics.start])).1
  refine ⟨g1, s1, by rw [hl, Multiset.card_add, Multiset.coe_card, hc, add_comm], fun n => ?_⟩
  induction n with
  | zero => exact h1
  | succ n ih =>
    unfold cycles
    rw [HT.bind_ok ih]
    have h2 : Heap.init g1 e s1 = .ok ({ g1 with initialized := true }, s1) := by
      unfold Heap.init createHarmonics
      rw [hi, if_neg (by simp), if_pos hlen.ge]; rfl
    rw [HT.bind_ok h2]
    have : g1 = { ({ g1 with initialized := true } : Statics) with initialized := false } := by
      cases g1; cases hi; rfl
    conv_rhs => rw [this]
    rfl

/-! ## Concrete cases -/

/-- An allocator that hands out the first address above all blocks in use; all comparisons succeed, all loops run twice. -/
def heapEnv : Env where
  pick _ s := s.sup + 1
  fresh := by
    intro _ s h
    have := Multiset.le_sup h
    omega
  choice _ := 2

/-- Blocks 0 to 16: two shells of angular momentum 1, two potentials and a matrix. -/
def heapStart : Heap.State := ⟨Multiset.range 17, 0⟩

def heapShell1 : Heap.Shell := ⟨0, 1, 2, 3, 1⟩
def heapShell2 : Heap.Shell := ⟨4, 5, 6, 7, 1⟩
def heapPot : Heap.Pot := ⟨8, 9, 10, 11⟩

example : ∃ s', type2 heapShell1 heapShell2 heapPot 16 heapEnv heapStart = .ok ((), s') ∧
    s'.live = Multiset.range 17 :=
  (memory_terms heapShell1 heapShell2 none heapPot ⟨none, none, []⟩ 16 16 16 16).2.1 heapEnv heapStart
    (by decide +kernel)

/-- A shell is four blocks: without the destructor the memory is not as before. -/
example : ∃ a s', newShell [] 0 heapEnv heapStart = .ok (a, s') ∧ s'.live.card = 21 := by
  obtain ⟨a, s', h, l⟩ := newShell_ht [] 0 heapEnv heapStart heapStart.live (by simp) (by simp)
  exact ⟨a, s', h, by rw [l]; simp [Shell.blocks, Shell.ptrs, heapStart]⟩

/-- Whether the outcome is undefined behaviour. -/
def isUb {α : Type} : Outcome α → Bool
  | .ub => true
  | _ => false

theorem eq_ub {α : Type} {o : Outcome α} (h : isUb o = true) : o = .ub := by cases o <;> simp_all [isUb]

/-- A second destructor is undefined behaviour. -/
example : (do let s ← newShell [] 0; deleteShell s; deleteShell s : Act Unit) heapEnv heapStart = .ub :=
  eq_ub (by decide +kernel)

/-- So is a routine with a shell that was deleted. -/
example : (do deleteShell heapShell1; overlap heapShell1 heapShell2 16 : Act Unit) heapEnv heapStart = .ub :=
  eq_ub (by decide +kernel)

example : ∃ g' s', (do let g ← Heap.init Statics.start; Heap.finalize g : Act Statics) heapEnv ⟨0, 0⟩ = .ok (g', s') ∧
    s'.live.card = 124 := by
  obtain ⟨g', s', h1, -, h3, h4⟩ := finalize_keeps_memory heapEnv ⟨0, 0⟩
  exact ⟨g', s', h1, by rw [h3]; simp [h4]⟩

end Libgrpp
