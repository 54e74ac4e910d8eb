import Verif.Lemmas.DriverHeap
import Verif.Props.Heap

/-! # C115: dynamic memory of the calculations of the driver in C -/

namespace Libgrpp

open Heap

/-- **C115.** Overlap, kinetic energy, momentum and nuclear attraction integrals and all gradients: no undefined behaviour, and
afterwards exactly the same blocks are in use as before, for every list of shells, every molecule and all pseudopotentials. -/
theorem driver_memory_clean (j : Job) (point : Bool) :
    Clean j.ptrs (writeOverlap j) ∧ Clean j.ptrs (writeMomentum j) ∧ Clean j.ptrs (writeNuclear j point) ∧
    Clean j.ptrs (writeOverlapGradient j) ∧ Clean j.ptrs (writeGradient j 4 fullTerm) ∧
    Clean j.ptrs (writeGradient j 1 type1Term) ∧ Clean j.ptrs (writeGradient j 1 type2Term) ∧
    Clean j.ptrs (writeGradient j 3 spinOrbitTerm) ∧ Clean j.ptrs (writeGradient j 4 outerCoreTerm) :=
  ⟨clean_of (writeOverlap_ht j), clean_of (writeMomentum_ht j), clean_of (writeNuclear_ht j point),
    clean_of (writeOverlapGradient_ht j), clean_of (writeGradient_ht j _ _ fullTerm_ht),
    clean_of (writeGradient_ht j _ _ type1Term_ht), clean_of (writeGradient_ht j _ _ type2Term_ht),
    clean_of (writeGradient_ht j _ _ spinOrbitTerm_ht), clean_of (writeGradient_ht j _ _ outerCoreTerm_ht)⟩

/-- **C115.** The pseudopotential integrals: no undefined behaviour either, and all blocks in use before are in use afterwards, but
there is one block more, the array `shell_pairs`, for every input, also for no shells at all. -/
theorem driver_memory_grpp_partial (j : Job) (e : Env) (s : Heap.State) (h : ∀ x ∈ j.ptrs, x ∈ s.live) :
    ∃ q s', writeGrpp j e s = .ok (q, s') ∧ s'.live = q ::ₘ s.live := by
  obtain ⟨q, s', h1, h2⟩ := writeGrpp_ht j e s s.live (by simp) h
  exact ⟨q, s', h1, by rw [h2]; simp⟩

/-- **C115.** So the pseudopotential integrals never leave the memory as it was. -/
theorem driver_memory_grpp_leaks (j : Job) : ¬ Clean j.ptrs (do let _ ← writeGrpp j; pure ()) := by
  intro hc
  let e : Env := ⟨fun _ s => s.sup + 1, by
    intro _ s h
    have := Multiset.le_sup h
    omega, fun _ => 0⟩
  let s : Heap.State := ⟨(j.ptrs : Multiset Nat), 0⟩
  have hs : ∀ x ∈ j.ptrs, x ∈ s.live := fun x hx => Multiset.mem_coe.2 hx
  obtain ⟨q, s', h1, h2⟩ := driver_memory_grpp_partial j e s hs
  obtain ⟨s'', h3, h4⟩ := hc e s hs
  rw [HT.bind_ok h1] at h3
  have : s' = s'' := by cases h3; rfl
  rw [← this, h2] at h4
  have := congrArg Multiset.card h4
  simp at this

/-- **C115.** The memory lost grows with the number of calculations. -/
theorem driver_memory_grpp_accumulates (j : Job) (n : Nat) (e : Env) (s : Heap.State) (h : ∀ x ∈ j.ptrs, x ∈ s.live) :
    ∃ s', loop n (fun _ => do let _ ← writeGrpp j; pure ()) e s = .ok ((), s') ∧ s.live ≤ s'.live ∧
      s'.live.card = s.live.card + n := by
  induction n with
  | zero => exact ⟨s, rfl, le_refl _, rfl⟩
  | succ n ih =>
    obtain ⟨s1, h1, l1, c1⟩ := ih
    obtain ⟨q, s2, h2, l2⟩ := driver_memory_grpp_partial j e s1 (fun x hx => Multiset.mem_of_le l1 (h x hx))
    refine ⟨s2, ?_, ?_, ?_⟩
    · unfold loop
      rw [HT.bind_ok h1]
      change (writeGrpp j >>= fun _ => (pure () : Act Unit)) e s1 = _
      rw [HT.bind_ok h2]; rfl
    · rw [l2]; exact l1.trans (Multiset.le_cons_self _ _)
    · rw [l2, Multiset.card_cons, c1]; omega

/-- **C115.** A run with the pseudopotential integrals and any of the other calculations after them: no undefined behaviour, and
exactly one block is lost. -/
theorem driver_memory_run_partial (j : Job) (e : Env) (s : Heap.State) (h : ∀ x ∈ j.ptrs, x ∈ s.live) :
    ∃ q s', (do let q ← writeGrpp j; otherCalculations j; pure q : Act Nat) e s = .ok (q, s') ∧ s'.live = q ::ₘ s.live := by
  obtain ⟨q, s1, h1, l1⟩ := driver_memory_grpp_partial j e s h
  obtain ⟨s2, h2, l2⟩ := clean_of (otherCalculations_ht j) e s1 (fun x hx => by rw [l1]; exact Multiset.mem_cons_of_mem (h x hx))
  exact ⟨q, s2, by rw [HT.bind_ok h1, HT.bind_ok h2]; rfl, by rw [l2, l1]⟩

/-- **C115.** The whole program after its command line, with given pseudopotentials: it reads the molecule and the basis sets, makes
the shells, does any of the calculations and releases what it has made. There is no undefined behaviour, and afterwards exactly
the blocks are in use that were in use before, and `shell_pairs` if pseudopotential integrals were asked for. -/
theorem driver_memory_main_partial (sets : Nat) (grpp : Bool) (table stack : Nat) (atoms : List (Option Heap.Grpp)) (e : Env)
    (s : Heap.State) (ht : table ∈ s.live) (hs : stack ∈ s.live)
    (hg : ∀ g, some g ∈ atoms → ∀ x ∈ Grpp.ptrs g, x ∈ s.live) :
    ∃ q s', mainHeap sets grpp table stack atoms e s = .ok (q, s') ∧ s'.live = (q.toList : Multiset Nat) + s.live ∧
      q.isSome = grpp := by
  obtain ⟨q, s', h1, h2⟩ := mainHeap_ht sets grpp table stack atoms e s s.live (by simp) (by
    intro x hx
    rcases List.mem_cons.1 hx with rfl | hx
    · exact ht
    rcases List.mem_cons.1 hx with rfl | hx
    · exact hs
    obtain ⟨o, ho, hx⟩ := List.mem_flatMap.1 hx
    cases o with
    | none => simp [grppPtrs] at hx
    | some g => exact hg g ho x (by simpa [grppPtrs] using hx))
  exact ⟨q, s', h1, by simpa using h2, mainHeap_post sets grpp table stack atoms e s q s' h1⟩

/-- **C115.** Reading and deleting a pseudopotential with at least as many outer-core functions as outer-core potentials: no undefined
behaviour, and all blocks in use before are in use afterwards, but each surplus function is lost, with its four blocks. -/
theorem driver_memory_read_grpp_partial (shells : Nat) (ocs : List Nat) (h : ocs.sum ≤ shells) (e : Env) (s : Heap.State) :
    ∃ s', (do let r ← readGrppHeap shells ocs; deleteGrpp r.1 : Act Unit) e s = .ok ((), s') ∧ s.live ≤ s'.live ∧
      s'.live.card = s.live.card + 4 * (shells - ocs.sum) := by
  obtain ⟨r, s1, h1, l1⟩ := readGrppHeap_ht shells ocs h e s s.live (by simp) (by simp)
  have hr := readGrppHeap_post shells ocs e s r s1 h1
  obtain ⟨⟨⟩, s2, h2, l2⟩ := deleteOwned_ht r.1 e s1 (((r.2.flatMap Shell.ptrs : List Nat) : Multiset Nat) + s.live)
    (by rw [l1]; simp only [List.sum_cons, List.sum_nil, add_zero, add_assoc]) (by simp)
  refine ⟨s2, by rw [HT.bind_ok h1, h2], ?_, ?_⟩
  · rw [l2, List.sum_nil, zero_add]; exact Multiset.le_add_left _ _
  · rw [l2, List.sum_nil, zero_add, Multiset.card_add, Multiset.coe_card, shells_card, ← hr]
    omega

/-- **C115.** So the memory is as before if and only if the numbers agree. -/
theorem driver_memory_read_grpp (shells : Nat) (ocs : List Nat) (h : ocs.sum ≤ shells) :
    Clean [] (do let r ← readGrppHeap shells ocs; deleteGrpp r.1) ↔ shells = ocs.sum := by
  constructor
  · intro hc
    let e : Env := ⟨fun _ s => s.sup + 1, by
      intro _ s h
      have := Multiset.le_sup h
      omega, fun _ => 0⟩
    obtain ⟨s1, h1, -, c1⟩ := driver_memory_read_grpp_partial shells ocs h e ⟨0, 0⟩
    obtain ⟨s2, h2, l2⟩ := hc e ⟨0, 0⟩ (by simp)
    rw [h1] at h2
    have : s1 = s2 := by cases h2; rfl
    rw [this, l2] at c1
    simp at c1
    omega
  · intro heq e s _
    obtain ⟨s1, h1, l1, c1⟩ := driver_memory_read_grpp_partial shells ocs h e s
    refine ⟨s1, h1, (Multiset.eq_of_le_of_card_le l1 ?_).symm⟩
    rw [c1, heq]; simp

/-- **C115.** With fewer functions than potentials a pointer without value is stored: undefined behaviour. -/
theorem driver_memory_read_grpp_undefined (shells : Nat) (ocs : List Nat) (h : shells < ocs.sum) (e : Env) (s : Heap.State) :
    readGrppHeap shells ocs e s = .ub := by
  have hw : ∀ self, Grpp.Wf ⟨self, none, none, [], none, [], ⟨none, none, []⟩⟩ :=
    fun self => ⟨fun _ => rfl, fun _ => rfl, fun _ => ⟨rfl, rfl⟩⟩
  obtain ⟨g, s0, h0, l0, w0⟩ : ∃ g s0, newGrpp e s = .ok (g, s0) ∧ s0.live = (g.ptrs : Multiset Nat) + s.live ∧ g.Wf :=
    ⟨_, _, rfl, rfl, hw _⟩
  obtain ⟨ss, s1, h1, l1⟩ := newShells_ht [] shells e s0 s0.live (by simp) (by simp)
  have c1 := newShells_post [] shells e s0 ss s1 h1
  rw [l0] at l1
  obtain ⟨gp, s2, h2, l2⟩ := readPotBlocks_ht ocs.length 0 g w0 ocs e s1
    (((ss.flatMap Shell.ptrs : List Nat) : Multiset Nat) + s.live)
    (by rw [l1]; simp only [List.sum_cons, List.sum_nil, add_zero]; ac_rfl) (by simp)
  have c2 := readPotBlocks_post ocs.length 0 g w0 ocs e s1 gp s2 h2
  unfold readGrppHeap
  rw [HT.bind_ok h0, HT.bind_ok h1, HT.bind_ok h2]
  refine addOuter_ub gp.1 c2.1 gp.2 ss (by rw [c1, c2.2]; exact h) e s2 s.live ?_
  rw [l2]
  simp only [List.sum_cons, List.sum_nil, add_zero]
  ac_rfl

/-- **C115.** The object that is read: one potential is the local one, the others are averaged; there is a spin-orbit potential for each block
but the first, and all outer-core potentials are in it. -/
theorem driver_memory_grpp_contents (shells : Nat) (ocs : List Nat) (e : Env) (s s' : Heap.State) (g : Heap.Grpp)
    (l : List Heap.Shell) (h : readGrppHeap shells ocs e s = .ok ((g, l), s')) :
    (g.uL.isSome ↔ ocs ≠ []) ∧ g.arep.length = ocs.length - 1 ∧ g.esop.length = ocs.length - 1 ∧
      g.cores.items.length = ocs.sum ∧ l.length = shells - ocs.sum := by
  have := readGrppHeap_counts shells ocs e s (g, l) s' h
  simp only [Grpp.counts, Prod.mk.injEq] at this
  refine ⟨?_, this.2.1, this.2.2.1, this.2.2.2, readGrppHeap_post shells ocs e s (g, l) s' h⟩
  rw [this.1]
  cases ocs <;> simp

/-- **C115.** The whole program with its pseudopotentials: no undefined behaviour as far as memory is concerned, everything in use before
is in use afterwards, and the number of lost blocks is one if pseudopotential integrals were asked for, and four for each surplus
outer-core function in the file. -/
theorem driver_memory_program_partial (specs : List (Nat × List Nat)) (h : ∀ x ∈ specs, x.2.sum ≤ x.1)
    (elems : List (Option Nat)) (sets : Nat) (grpp : Bool) (table stack : Nat) (e : Env) (s : Heap.State)
    (ht : table ∈ s.live) (hs : stack ∈ s.live) :
    ∃ s', programHeap specs elems sets grpp table stack e s = .ok ((), s') ∧ s.live ≤ s'.live ∧
      s'.live.card = s.live.card + (if grpp then 1 else 0) + 4 * (specs.map (fun x => x.1 - x.2.sum)).sum := by
  obtain ⟨s', q, l, h1, h2, h3, h4⟩ := programHeap_run specs h elems sets grpp table stack e s ht hs
  refine ⟨s', h1, by rw [h2]; exact Multiset.le_add_left _ _, ?_⟩
  rw [h2, Multiset.card_add, Multiset.card_add, Multiset.coe_card, Multiset.coe_card, h4]
  cases q with
  | none =>
    have : grpp = false := h3.symm
    subst this
    simp
    omega
  | some q =>
    have : grpp = true := h3.symm
    subst this
    simp
    omega

/-! ## Concrete cases -/

/-- Two shells, two atoms, one with a pseudopotential that has a local and an averaged potential, one without. -/
def heapJob : Job :=
  ⟨16, [heapShell1, heapShell2], [12, 13], 14,
    [some ⟨15, some heapPot, some 15, [heapPot], none, [], ⟨none, none, []⟩⟩, none], 16⟩

example : ∃ q s', writeGrpp heapJob heapEnv heapStart = .ok (q, s') ∧ s'.live = q ::ₘ Multiset.range 17 :=
  driver_memory_grpp_partial heapJob heapEnv heapStart (by decide +kernel)

example : ∃ s', loop 5 (fun _ => do let _ ← writeGrpp heapJob; pure ()) heapEnv heapStart = .ok ((), s') ∧
    heapStart.live ≤ s'.live ∧ s'.live.card = 22 := by
  have := driver_memory_grpp_accumulates heapJob 5 heapEnv heapStart (by decide +kernel)
  simpa [heapStart] using this

example : ∃ s', writeGradient heapJob 4 fullTerm heapEnv heapStart = .ok ((), s') ∧ s'.live = Multiset.range 17 :=
  (driver_memory_clean heapJob true).2.2.2.2.1 heapEnv heapStart (by decide +kernel)

/-- A program with three basis sets and the pseudopotential above, beginning with the blocks of the pseudopotential. -/
example : ∃ q s', mainHeap 3 true 14 16 heapJob.atoms heapEnv heapStart = .ok (q, s') ∧
    s'.live = (q.toList : Multiset Nat) + Multiset.range 17 ∧ q.isSome = true :=
  driver_memory_main_partial 3 true 14 16 heapJob.atoms heapEnv heapStart (by decide +kernel) (by decide +kernel) (by
    intro g hg x hx
    have : ∀ y ∈ heapJob.atoms.flatMap grppPtrs, y ∈ heapStart.live := by decide +kernel
    exact this x (List.mem_flatMap.2 ⟨some g, hg, by simpa [grppPtrs] using hx⟩))

/-- Three blocks with none, two and two outer-core potentials, and six outer-core functions: two shells are lost. -/
example : ∃ s', (do let r ← readGrppHeap 6 [0, 2, 2]; deleteGrpp r.1 : Act Unit) heapEnv heapStart = .ok ((), s') ∧
    heapStart.live ≤ s'.live ∧ s'.live.card = 25 := by
  have := driver_memory_read_grpp_partial 6 [0, 2, 2] (by decide) heapEnv heapStart
  simpa [heapStart] using this

example : Clean [] (do let r ← readGrppHeap 4 [0, 2, 2]; deleteGrpp r.1) :=
  (driver_memory_read_grpp 4 [0, 2, 2] (by decide)).2 rfl

example : ∃ g l s', readGrppHeap 6 [0, 2, 2] heapEnv heapStart = .ok ((g, l), s') ∧ g.uL.isSome ∧ g.arep.length = 2 ∧
    g.esop.length = 2 ∧ g.cores.items.length = 4 ∧ l.length = 2 := by
  obtain ⟨⟨g, l⟩, s', h, -⟩ := readGrppHeap_ht 6 [0, 2, 2] (by decide) heapEnv heapStart heapStart.live (by simp) (by simp)
  obtain ⟨h1, h2, h3, h4, h5⟩ := driver_memory_grpp_contents 6 [0, 2, 2] heapEnv heapStart s' g l h
  exact ⟨g, l, s', h, h1.2 (by simp), h2, h3, h4, h5⟩

example : readGrppHeap 3 [0, 2, 2] heapEnv heapStart = .ub :=
  driver_memory_read_grpp_undefined 3 [0, 2, 2] (by decide) heapEnv heapStart

/-- Water with a pseudopotential on oxygen only, which has one outer-core function too many: five blocks are lost. -/
example : ∃ s', programHeap [(3, [0, 1, 1])] [some 0, none, none] 2 true 14 16 heapEnv heapStart = .ok ((), s') ∧
    heapStart.live ≤ s'.live ∧ s'.live.card = 22 := by
  have := driver_memory_program_partial [(3, [0, 1, 1])] (by decide) [some 0, none, none] 2 true 14 16 heapEnv heapStart
    (by decide +kernel) (by decide +kernel)
  simpa [heapStart] using this

/-- Without the destructor of the molecule, five blocks would be left. -/
example : ∃ m s', readMoleculeHeap heapEnv heapStart = .ok (m, s') ∧ s'.live.card = 22 := by
  obtain ⟨m, s', h, l⟩ := readMoleculeHeap_ht heapEnv heapStart heapStart.live (by simp) (by simp)
  exact ⟨m, s', h, by rw [l]; simp [Mol.ptrs, heapStart]⟩

/-- With a shell that was deleted before the calculation, the behaviour is undefined. -/
example : (do deleteShell heapShell1; writeOverlap heapJob : Act Unit) heapEnv heapStart = .ub :=
  eq_ub (by decide +kernel)

end Libgrpp
