import Verif.Lemmas.HeapGrpp
import Verif.Model.DriverHeap

/-! # Dynamic memory of the calculations of the driver -/

namespace Libgrpp.Heap

variable {α β : Type}

theorem Job.list_mem (j : Job) : ∀ x ∈ [j.list], x ∈ j.ptrs := by simp [Job.ptrs]
theorem Job.stack_mem (j : Job) : ∀ x ∈ [j.stack], x ∈ j.ptrs := by simp [Job.ptrs]
theorem Job.mol_mem (j : Job) : ∀ x ∈ j.mol, x ∈ j.ptrs := by
  intro x hx; simp [Job.ptrs, hx]
theorem Job.table_mem (j : Job) : ∀ x ∈ j.table :: j.mol, x ∈ j.ptrs := by
  intro x hx
  rcases List.mem_cons.1 hx with rfl | hx
  · simp [Job.ptrs]
  · exact j.mol_mem x hx
theorem Job.shell_mem (j : Job) {A : Shell} (hA : A ∈ j.shells) : ∀ x ∈ A.ptrs, x ∈ j.ptrs := by
  intro x hx
  have : x ∈ j.shells.flatMap Shell.ptrs := List.mem_flatMap.2 ⟨A, hA, hx⟩
  simp only [Job.ptrs, List.mem_cons, List.mem_append, this, or_true, true_or]
theorem Job.grpp_mem (j : Job) {g : Grpp} (hg : some g ∈ j.atoms) : ∀ x ∈ g.ptrs, x ∈ j.ptrs := by
  intro x hx
  have : x ∈ j.atoms.flatMap grppPtrs := List.mem_flatMap.2 ⟨some g, hg, by simpa [grppPtrs] using hx⟩
  simp only [Job.ptrs, List.mem_cons, List.mem_append, this, or_true]

theorem Cov.of {P : List Nat} {K : List (Multiset Nat)} {p : List Nat} (h : ∀ x ∈ p, x ∈ P) : Cov P K p :=
  fun x hx => .inl (h x hx)

theorem withBlocks_ht {P : List Nat} {use : List Nat → Act Unit}
    (h : ∀ acc, HT (P ++ acc) [] (use acc) (fun _ => [])) (k : Nat) (acc : List Nat) :
    HT (P ++ acc) [] (withBlocks k acc use) (fun _ => []) := by
  induction k generalizing acc with
  | zero => exact h acc
  | succ k ih =>
    unfold withBlocks
    refine HT.alloc fun p => HT.run (ih (acc ++ [p])) ?_ ?_
    · exact Cov.append (Cov.callers.left) (Cov.append (Cov.callers.right) (by cov))
    · hfreeLast

theorem Table.cov (t : Table) {P : List Nat} {K : List (Multiset Nat)} : Cov P (t.blocks :: K) t.ptrs := Cov.own

theorem withGradients_ht {P : List Nat} {use : List Nat → Act Unit}
    (h : ∀ acc, HT (P ++ acc) [] (use acc) (fun _ => [])) (k : Nat) (acc : List Nat) :
    HT (P ++ acc) [] (withGradients k acc use) (fun _ => []) := by
  induction k generalizing acc with
  | zero => exact h acc
  | succ k ih =>
    unfold withGradients
    refine HT.mkP allocGradients_ht allocGradients_post (by cov) fun t ht => HT.run (ih (acc ++ t.ptrs)) ?_ ?_
    · exact Cov.append (Cov.callers.left) (Cov.append (Cov.callers.right) t.cov)
    · exact HT.dropLast (deallocGradients_ht t ht) (Pick.here _)

theorem withTables_ht {P : List Nat} {use : List Nat → Act Unit} (n : Nat)
    (h : ∀ acc, HT (P ++ acc) [] (use acc) (fun _ => [])) (k : Nat) (acc : List Nat) :
    HT (P ++ acc) [] (withTables n k acc use) (fun _ => []) := by
  induction k generalizing acc with
  | zero => exact h acc
  | succ k ih =>
    unfold withTables
    refine HT.mkP (allocTable_ht n) (allocTable_post n) (by cov) fun t ht => HT.run (ih (acc ++ t.ptrs)) ?_ ?_
    · exact Cov.append (Cov.callers.left) (Cov.append (Cov.callers.right) t.cov)
    · exact HT.dropLast (freeTable_ht t n ht) (Pick.here _)

theorem pairsLoop_ht {P : List Nat} {K : List (Multiset Nat)} {j : Job} (hP : ∀ x ∈ j.ptrs, x ∈ P)
    {body : Shell → Shell → Act Unit}
    (h : ∀ A ∈ j.shells, ∀ B ∈ j.shells, HT P K (body A B) (fun _ => K)) :
    HT P K (pairsLoop j body) (fun _ => K) := by
  unfold pairsLoop
  have hl : ∀ {K}, Cov P K [j.list] := fun {K} => Cov.of fun x hx => hP x (j.list_mem x hx)
  refine HT.loop fun i hi => HT.touch hl (entry_ht hi fun A hA => HT.loop fun k hk => HT.touch hl (entry_ht hk fun B hB =>
    HT.touch (Cov.append ?_ ?_) (h A hA B hB)))
  · exact Cov.of fun x hx => hP x (j.shell_mem hA x hx)
  · exact Cov.of fun x hx => hP x (j.shell_mem hB x hx)

theorem atomsLoop_ht {P : List Nat} {K : List (Multiset Nat)} {j : Job} (hP : ∀ x ∈ j.ptrs, x ∈ P) {body : Grpp → Act Unit}
    (h : ∀ g, some g ∈ j.atoms → HT P K (body g) (fun _ => K)) : HT P K (atomsLoop j body) (fun _ => K) := by
  unfold atomsLoop
  refine HT.loop fun i hi => HT.touch (Cov.of fun x hx => hP x (j.table_mem x hx)) (entry_ht hi fun o ho => ?_)
  cases o with
  | none => exact HT.ret rfl
  | some g => exact h g ho

theorem evalGrpp_ht (j : Job) (out : List Nat) : HT (j.ptrs ++ out) [] (evalGrpp j out) (fun q => [{q}]) := by
  unfold evalGrpp
  have hP : ∀ x ∈ j.ptrs, x ∈ j.ptrs ++ out := fun x hx => List.mem_append_left _ hx
  have hs : ∀ {K}, Cov (j.ptrs ++ out) K [j.stack] := fun {K} => Cov.of fun x hx => hP x (j.stack_mem x hx)
  have hl : ∀ {K}, Cov (j.ptrs ++ out) K [j.list] := fun {K} => Cov.of fun x hx => hP x (j.list_mem x hx)
  refine HT.touch Cov.callers.right (HT.alloc fun offsets => HT.seq (HT.loop fun i hi => ?_) (HT.alloc fun pairs =>
    HT.seq (HT.loop fun i hi => HT.loop fun k hk => HT.touchLast (by cov)) (HT.seq (pairsLoop_ht hP fun A hA B hB => ?_) ?_)))
  · refine HT.touch (Cov.append (p := [offsets]) (q := [j.list]) (by cov) hl) (entry_ht hi fun A hA => HT.touchLast ?_)
    exact Cov.of fun x hx => hP x (j.shell_mem hA x hx)
  · refine HT.touch (by cov) (atomsLoop_ht hP fun g hg => HT.run (fullGrpp_ht A B g _ _ _ _) ?_ (HT.touchLast ?_))
    · refine Cov.append (Cov.append (Cov.append (Cov.of fun x hx => hP x (j.shell_mem hA x hx))
        (Cov.of fun x hx => hP x (j.shell_mem hB x hx))) (Cov.of fun x hx => hP x (j.grpp_mem hg x hx))) ?_
      exact Cov.append (p := [j.stack]) hs (Cov.append (p := [j.stack]) hs (Cov.append (p := [j.stack]) hs hs))
    · exact Cov.append (p := [j.stack]) hs Cov.callers.right
  · hfree
    exact HT.ret rfl

theorem writeGrpp_ht (j : Job) : HT j.ptrs [] (writeGrpp j) (fun q => [{q}]) := by
  unfold writeGrpp
  refine HT.alloc fun m => HT.alloc fun mx => HT.alloc fun my => HT.alloc fun mz => ?_
  refine HT.mk (evalGrpp_ht j _) (Cov.append Cov.callers (by cov)) fun q => HT.touch (by cov) ?_
  hfree; hfree; hfree; hfree
  exact HT.ret rfl

section
variable (j : Job)

theorem writeOverlap_ht : HT j.ptrs [] (writeOverlap j) (fun _ => []) := by
  unfold writeOverlap
  have := withBlocks_ht (P := j.ptrs) (use := fun out => do
    touch out
    pairsLoop j (fun A B => do
      overlap A B j.stack
      touch (j.stack :: out))
    touch out) (fun out => ?_) 1 []
  · rwa [List.append_nil] at this
  have hP : ∀ x ∈ j.ptrs, x ∈ j.ptrs ++ out := fun x hx => List.mem_append_left _ hx
  have hs : ∀ {K}, Cov (j.ptrs ++ out) K [j.stack] := fun {K} => Cov.of fun x hx => hP x (j.stack_mem x hx)
  refine HT.touch Cov.callers.right (HT.seq (pairsLoop_ht hP fun A hA B hB => HT.run (overlap_ht A B _) ?_ (HT.touchLast ?_))
    (HT.touchLast Cov.callers.right))
  · exact Cov.append (Cov.append (Cov.of fun x hx => hP x (j.shell_mem hA x hx))
        (Cov.of fun x hx => hP x (j.shell_mem hB x hx))) hs
  · exact Cov.append (p := [j.stack]) hs Cov.callers.right

theorem writeMomentum_ht : HT j.ptrs [] (writeMomentum j) (fun _ => []) := by
  unfold writeMomentum
  have := withBlocks_ht (P := j.ptrs) (use := fun out => do
    touch out
    pairsLoop j (fun A B => do
      momentum A B j.stack j.stack j.stack
      touch (j.stack :: out))
    touch out) (fun out => ?_) 3 []
  · rwa [List.append_nil] at this
  have hP : ∀ x ∈ j.ptrs, x ∈ j.ptrs ++ out := fun x hx => List.mem_append_left _ hx
  have hs : ∀ {K}, Cov (j.ptrs ++ out) K [j.stack] := fun {K} => Cov.of fun x hx => hP x (j.stack_mem x hx)
  refine HT.touch Cov.callers.right (HT.seq (pairsLoop_ht hP fun A hA B hB => HT.run (momentum_ht A B _ _ _) ?_
    (HT.touchLast ?_)) (HT.touchLast Cov.callers.right))
  · exact Cov.append (Cov.append (Cov.of fun x hx => hP x (j.shell_mem hA x hx))
        (Cov.of fun x hx => hP x (j.shell_mem hB x hx))) (Cov.append (p := [j.stack]) hs (Cov.append (p := [j.stack]) hs hs))
  · exact Cov.append (p := [j.stack]) hs Cov.callers.right

theorem writeNuclear_ht (point : Bool) : HT j.ptrs [] (writeNuclear j point) (fun _ => []) := by
  unfold writeNuclear
  have := withBlocks_ht (P := j.ptrs) (use := fun out => do
    touch out
    pairsLoop j (fun A B => loop j.atoms.length (fun _ => do
      touch j.mol
      nuclearAttraction A B point j.stack
      touch (j.stack :: out)))
    touch out) (fun out => ?_) 1 []
  · rwa [List.append_nil] at this
  have hP : ∀ x ∈ j.ptrs, x ∈ j.ptrs ++ out := fun x hx => List.mem_append_left _ hx
  have hs : ∀ {K}, Cov (j.ptrs ++ out) K [j.stack] := fun {K} => Cov.of fun x hx => hP x (j.stack_mem x hx)
  refine HT.touch Cov.callers.right (HT.seq (pairsLoop_ht hP fun A hA B hB => HT.loop fun i hi =>
    HT.touch (Cov.of fun x hx => hP x (j.mol_mem x hx)) (HT.run (nuclearAttraction_ht A B _ _) ?_
    (HT.touchLast ?_))) (HT.touchLast Cov.callers.right))
  · exact Cov.append (Cov.append (Cov.of fun x hx => hP x (j.shell_mem hA x hx))
        (Cov.of fun x hx => hP x (j.shell_mem hB x hx))) hs
  · exact Cov.append (p := [j.stack]) hs Cov.callers.right

theorem writeOverlapGradient_ht : HT j.ptrs [] (writeOverlapGradient j) (fun _ => []) := by
  unfold writeOverlapGradient
  have := withTables_ht (P := j.ptrs) (use := fun out => do
    pairsLoop j (fun A B => withGradients 1 [] (fun gr => loop j.atoms.length (fun _ => do
      touch j.mol
      overlapGradient A B gr
      touch (gr ++ out))))
    touch out) (3 * j.atoms.length) (fun out => ?_) 1 []
  · rwa [List.append_nil] at this
  have hP : ∀ x ∈ j.ptrs, x ∈ j.ptrs ++ out := fun x hx => List.mem_append_left _ hx
  refine HT.seq (pairsLoop_ht hP fun A hA B hB => ?_) (HT.touchLast Cov.callers.right)
  have := withGradients_ht (P := j.ptrs ++ out) (use := fun gr => loop j.atoms.length (fun _ => do
      touch j.mol
      overlapGradient A B gr
      touch (gr ++ out))) (fun gr => ?_) 1 []
  · rwa [List.append_nil] at this
  refine HT.loop fun i hi => HT.touch ?_ (HT.run (overlapGradient_ht A B gr) ?_ (HT.touchLast ?_))
  · exact Cov.of fun x hx => List.mem_append_left _ (hP x (j.mol_mem x hx))
  · exact Cov.append (Cov.append (Cov.of fun x hx => List.mem_append_left _ (hP x (j.shell_mem hA x hx)))
        (Cov.of fun x hx => List.mem_append_left _ (hP x (j.shell_mem hB x hx)))) Cov.callers.right
  · exact Cov.append Cov.callers.right Cov.callers.left.right

theorem writeGradient_ht (k : Nat) (term : Shell → Shell → Grpp → List Nat → Act Unit)
    (h : ∀ A B g out, HT (A.ptrs ++ B.ptrs ++ g.ptrs ++ out) [] (term A B g out) (fun _ => [])) :
    HT j.ptrs [] (writeGradient j k term) (fun _ => []) := by
  unfold writeGradient
  have := withTables_ht (P := j.ptrs) (use := fun out => do
    pairsLoop j (fun A B => loop j.atoms.length (fun _ => do
      touch j.mol
      atomsLoop j (fun g => term A B g out)))
    touch out) (3 * j.atoms.length) (fun out => ?_) k []
  · rwa [List.append_nil] at this
  have hP : ∀ x ∈ j.ptrs, x ∈ j.ptrs ++ out := fun x hx => List.mem_append_left _ hx
  refine HT.seq (pairsLoop_ht hP fun A hA B hB => HT.loop fun i hi => HT.touch (Cov.of fun x hx => hP x (j.mol_mem x hx))
    (atomsLoop_ht hP fun g hg => HT.last (h A B g out) ?_)) (HT.touchLast Cov.callers.right)
  exact Cov.append (Cov.append (Cov.append (Cov.of fun x hx => hP x (j.shell_mem hA x hx))
        (Cov.of fun x hx => hP x (j.shell_mem hB x hx))) (Cov.of fun x hx => hP x (j.grpp_mem hg x hx))) Cov.callers.right

end

section
variable (A B : Shell) (g : Grpp) (out : List Nat)

/-- A call with the gradients of `k` quantities. -/
theorem gradientsCall_ht {P : List Nat} (k : Nat) {use : List Nat → Act Unit}
    (h : ∀ gr, HT (P ++ gr) [] (use gr) (fun _ => [])) : HT P [] (withGradients k [] use) (fun _ => []) := by
  have := withGradients_ht h k []
  rwa [List.append_nil] at this

theorem fullTerm_ht : HT (A.ptrs ++ B.ptrs ++ g.ptrs ++ out) [] (fullTerm A B g out) (fun _ => []) := by
  unfold fullTerm
  refine gradientsCall_ht 4 fun gr => HT.run (fullGradient_ht A B g gr) ?_ (HT.touchLast ?_)
  · exact Cov.append Cov.callers.left.left Cov.callers.right
  · exact Cov.append Cov.callers.right Cov.callers.left.right

theorem type1Term_ht : HT (A.ptrs ++ B.ptrs ++ g.ptrs ++ out) [] (type1Term A B g out) (fun _ => []) := by
  unfold type1Term
  refine gradientsCall_ht 1 fun gr => HT.touch ?_ (HT.run (type1Gradient_ht A B g.uL gr) ?_ (HT.touchLast ?_))
  · exact Cov.callers.left.left.right.sub g.self_mem
  · exact Cov.append (Cov.append Cov.callers.left.left.left (Cov.callers.left.left.right.sub g.local_mem)) Cov.callers.right
  · exact Cov.append Cov.callers.right Cov.callers.left.right

theorem type2Term_ht : HT (A.ptrs ++ B.ptrs ++ g.ptrs ++ out) [] (type2Term A B g out) (fun _ => []) := by
  unfold type2Term
  refine HT.loop fun i hi => gradientsCall_ht 1 fun gr => HT.touch ?_ (entry_ht hi fun p hp =>
    HT.run (type2Gradient_ht A B p gr) ?_ (HT.touchLast ?_))
  · exact Cov.append (p := [g.self]) (Cov.callers.left.left.right.sub g.self_mem)
      (Cov.callers.left.left.right.sub g.arrArep_mem)
  · exact Cov.append (Cov.append Cov.callers.left.left.left (Cov.callers.left.left.right.sub (g.arep_mem hp)))
      Cov.callers.right
  · exact Cov.append Cov.callers.right Cov.callers.left.right

theorem spinOrbitTerm_ht : HT (A.ptrs ++ B.ptrs ++ g.ptrs ++ out) [] (spinOrbitTerm A B g out) (fun _ => []) := by
  unfold spinOrbitTerm
  refine HT.loop fun i hi => HT.touch ?_ (entry_ht hi fun p hp => HT.touch ?_ (gradientsCall_ht 3 fun gr =>
    HT.run (spinOrbitGradient_ht A B p gr) ?_ (HT.touchLast ?_)))
  · exact Cov.append (p := [g.self]) (Cov.callers.left.right.sub g.self_mem) (Cov.callers.left.right.sub g.arrEsop_mem)
  · exact Cov.callers.left.right.sub fun x hx => g.esop_mem hp x (by
      simp only [List.mem_cons, List.not_mem_nil, or_false] at hx
      simp [hx, Pot.ptrs])
  · exact Cov.append (Cov.append Cov.callers.left.left.left (Cov.callers.left.left.right.sub (g.esop_mem hp)))
      Cov.callers.right
  · exact Cov.append Cov.callers.right Cov.callers.left.right

theorem outerCoreTerm_ht : HT (A.ptrs ++ B.ptrs ++ g.ptrs ++ out) [] (outerCoreTerm A B g out) (fun _ => []) := by
  unfold outerCoreTerm
  refine gradientsCall_ht 4 fun gr => HT.touch ?_ (HT.run (outerCoreGradient_ht A B g.cores.items gr) ?_ (HT.touchLast ?_))
  · exact Cov.callers.left.left.right.sub g.self_mem
  · refine Cov.append (Cov.append Cov.callers.left.left.left (Cov.callers.left.left.right.sub fun x hx => ?_))
      Cov.callers.right
    exact g.cores_mem x (List.mem_append_right _ hx)
  · exact Cov.append Cov.callers.right Cov.callers.left.right

end

theorem otherCalculations_ht (j : Job) : HT j.ptrs [] (otherCalculations j) (fun _ => []) := by
  unfold otherCalculations
  have hg := fun k term h => writeGradient_ht j k term h
  refine HT.seq (HT.optionally (writeOverlap_ht j)) (HT.seq (HT.optionally (writeOverlap_ht j))
    (HT.seq (HT.optionally (writeMomentum_ht j)) ?_))
  refine HT.seq (HT.optionally (writeNuclear_ht j _)) (HT.seq (HT.optionally (writeNuclear_ht j _))
    (HT.seq (HT.optionally (writeNuclear_ht j _)) (HT.seq (HT.optionally (writeNuclear_ht j _))
    (HT.seq (HT.optionally (writeNuclear_ht j _)) (HT.seq (HT.optionally (writeNuclear_ht j _)) ?_)))))
  exact HT.seq (HT.optionally (writeOverlapGradient_ht j)) (HT.seq (HT.optionally (hg _ _ fullTerm_ht))
    (HT.seq (HT.optionally (hg _ _ type1Term_ht)) (HT.seq (HT.optionally (hg _ _ type2Term_ht))
    (HT.seq (HT.optionally (hg _ _ spinOrbitTerm_ht)) (HT.optionally (hg _ _ outerCoreTerm_ht))))))

/-! ## The main program -/

/-- A loop that deletes the objects of a list. -/
theorem deleteEach_ht (pt : α → List Nat) (d : α → Act Unit) (hd : ∀ a, HT [] [(pt a : Multiset Nat)] (d a) (fun _ => []))
    (l r : List α) :
    HT [] [((l.flatMap pt : List Nat) : Multiset Nat)] (loop l.length (fun i => entry (l ++ r) i d)) (fun _ => []) := by
  induction l using List.reverseRecOn generalizing r with
  | nil => exact HT.ret rfl
  | append_singleton l a ih =>
    rw [List.length_append, List.length_singleton]
    unfold loop
    have h1 := ih (a :: r)
    rw [List.append_assoc, List.singleton_append]
    refine HT.bindOf (K0 := [((l.flatMap pt : List Nat) : Multiset Nat)]) (K1 := [(pt a : Multiset Nat)]) h1 ?_ (by cov) ?_
    · simp only [List.sum_cons, List.sum_nil, add_zero, List.flatMap_append, List.flatMap_cons, List.flatMap_nil,
        List.append_nil, Multiset.coe_add]
    · intro _
      unfold entry
      beta_reduce
      rw [List.getElem?_append_right (le_refl _), Nat.sub_self]
      exact hd a

theorem newMolecule_ht (args : List Nat) : HT args [] (newMolecule args) (fun m => [(m.ptrs : Multiset Nat)]) := by
  unfold newMolecule
  refine HT.alloc fun a => HT.alloc fun b => HT.alloc fun c => HT.alloc fun d => HT.alloc fun f => HT.touch ?_ (HT.ret ?_)
  · exact Cov.append (p := [a, b, c, d, f]) (by cov) Cov.callers
  · simp only [List.sum_cons, List.sum_nil, add_zero]
    rw [show ((Mol.ptrs ⟨a, b, c, d, f⟩ : List Nat) : Multiset Nat) = {a} + ({b} + ({c} + ({d} + {f}))) from rfl]
    ac_rfl

theorem readMoleculeHeap_ht : HT [] [] readMoleculeHeap (fun m => [(m.ptrs : Multiset Nat)]) := by
  unfold readMoleculeHeap
  refine HT.alloc fun a => HT.alloc fun b => HT.alloc fun c => HT.alloc fun d => HT.ask fun n =>
    HT.seq (HT.loop fun _ _ => HT.touchLast (by cov)) (HT.mk (newMolecule_ht _) (by cov) fun m => ?_)
  hfree; hfree; hfree; hfree
  exact HT.ret rfl

theorem deleteMolecule_ht (m : Mol) : HT [] [(m.ptrs : Multiset Nat)] (deleteMolecule m) (fun _ => []) := by
  unfold deleteMolecule
  intro e st F hs hF
  refine HT.touch (K := [{m.self}, {m.charges}, {m.x}, {m.y}, {m.z}]) (P := []) (by cov) ?_ e st F ?_ hF
  · hfree; hfree; hfree; hfree; hfreeLast
  · rw [hs]; rfl

theorem newBasisFun_ht : HT [] [] newBasisFun (fun f => [(f.ptrs : Multiset Nat)]) := by
  unfold newBasisFun
  refine HT.alloc fun a => HT.alloc fun b => HT.alloc fun c => HT.touch (by cov) (HT.ret ?_)
  simp only [List.sum_cons, List.sum_nil, add_zero]
  rw [show ((BasisFun.ptrs ⟨a, b, c⟩ : List Nat) : Multiset Nat) = {a} + ({b} + {c}) from rfl]
  ac_rfl

theorem deleteBasisFun_ht (f : BasisFun) : HT [] [(f.ptrs : Multiset Nat)] (deleteBasisFun f) (fun _ => []) := by
  unfold deleteBasisFun
  intro e st F hs hF
  refine HT.touch (K := [{f.self}, {f.coeffs}, {f.alpha}]) (P := []) (by cov) ?_ e st F ?_ hF
  · hfree; hfree; hfreeLast
  · rw [hs]; rfl

theorem BasisSetPtr.blocks_eq (b : BasisSetPtr) :
    (b.ptrs : Multiset Nat) = {b.self} + ({b.list} + ((b.funs.flatMap BasisFun.ptrs : List Nat) : Multiset Nat)) := rfl

theorem addBasisFun_ht (b : BasisSetPtr) :
    HT [] [(b.ptrs : Multiset Nat)] (addBasisFun b) (fun c => [(c.ptrs : Multiset Nat)]) := by
  unfold addBasisFun
  intro e st F hs hF
  refine HT.mk (K := [{b.self}, {b.list}, ((b.funs.flatMap BasisFun.ptrs : List Nat) : Multiset Nat)]) (P := [])
    newBasisFun_ht (by cov) (fun f => HT.touch (by cov) ?_) e st F ?_ hF
  · split
    · hfree
      refine HT.alloc fun l => HT.touch (by cov) (HT.ret ?_)
      simp only [List.sum_cons, List.sum_nil, add_zero, BasisSetPtr.blocks_eq, List.flatMap_append, List.flatMap_cons,
        List.flatMap_nil, List.append_nil, ← Multiset.coe_add]
      ac_rfl
    · refine HT.touch (by cov) (HT.ret ?_)
      simp only [List.sum_cons, List.sum_nil, add_zero, BasisSetPtr.blocks_eq, List.flatMap_append, List.flatMap_cons,
        List.flatMap_nil, List.append_nil, ← Multiset.coe_add]
      ac_rfl
  · rw [hs]; rfl

theorem addBasisFuns_ht (n : Nat) (b : BasisSetPtr) :
    HT [] [(b.ptrs : Multiset Nat)] (addBasisFuns n b) (fun c => [(c.ptrs : Multiset Nat)]) := by
  induction n generalizing b with
  | zero => exact HT.ret rfl
  | succ n ih =>
    unfold addBasisFuns
    exact HT.bindOf (K1 := []) (addBasisFun_ht b) (by simp) (by cov) fun c => ih c

theorem readBasisSetHeap_ht : HT [] [] readBasisSetHeap (fun b => [(b.ptrs : Multiset Nat)]) := by
  unfold readBasisSetHeap
  refine HT.alloc fun a => HT.alloc fun l => HT.touch (by cov) (HT.ask fun n => ?_)
  intro e st F hs hF
  refine addBasisFuns_ht n ⟨a, l, 1, []⟩ e st F ?_ hF
  rw [hs]
  simp only [List.sum_cons, List.sum_nil, add_zero, BasisSetPtr.blocks_eq, List.flatMap_nil, Multiset.coe_nil]
  ac_rfl

theorem deleteBasisSet_ht (b : BasisSetPtr) : HT [] [(b.ptrs : Multiset Nat)] (deleteBasisSet b) (fun _ => []) := by
  unfold deleteBasisSet
  intro e st F hs hF
  have h := deleteEach_ht BasisFun.ptrs deleteBasisFun deleteBasisFun_ht b.funs []
  rw [List.append_nil] at h
  refine HT.touch (K := [{b.self}, {b.list}, ((b.funs.flatMap BasisFun.ptrs : List Nat) : Multiset Nat)]) (P := [])
    (by cov) (HT.drop h (by pick) ?_) e st F ?_ hF
  · hfree; hfreeLast
  · rw [hs]; rfl

theorem readBasisSets_ht (n : Nat) :
    HT [] [] (readBasisSets n) (fun l => [((l.flatMap BasisSetPtr.ptrs : List Nat) : Multiset Nat)]) := by
  induction n with
  | zero => exact HT.ret rfl
  | succ n ih =>
    unfold readBasisSets
    refine HT.mk ih (by cov) fun r => HT.mk readBasisSetHeap_ht (by cov) fun b => HT.ret ?_
    simp only [List.sum_cons, List.sum_nil, add_zero, List.flatMap_append, List.flatMap_cons,
      List.flatMap_nil, List.append_nil, ← Multiset.coe_add]
    ac_rfl

theorem newShells_ht (args : List Nat) (n : Nat) :
    HT args [] (newShells args n) (fun l => [((l.flatMap Shell.ptrs : List Nat) : Multiset Nat)]) := by
  induction n with
  | zero => exact HT.ret rfl
  | succ n ih =>
    unfold newShells
    refine HT.mk ih Cov.callers fun r => HT.ask fun L => HT.mk (newShell_ht args L) Cov.callers fun s => HT.ret ?_
    simp only [List.sum_cons, List.sum_nil, add_zero, List.flatMap_append, List.flatMap_cons,
      List.flatMap_nil, List.append_nil, ← Multiset.coe_add, Shell.blocks]
    ac_rfl

theorem mainHeap_ht (sets : Nat) (grpp : Bool) (table stack : Nat) (atoms : List (Option Grpp)) :
    HT (table :: stack :: atoms.flatMap grppPtrs) [] (mainHeap sets grpp table stack atoms)
      (fun q => [((q.toList : List Nat) : Multiset Nat)]) := by
  unfold mainHeap
  refine HT.mk readMoleculeHeap_ht (by cov) fun mol => HT.mk (readBasisSets_ht sets) (by cov) fun bs => HT.ask fun n =>
    HT.alloc fun list => HT.mk (newShells_ht _ n) ?_ fun shells => HT.touch (by cov) ?_
  · exact Cov.append (Cov.weaken (Cov.weaken Cov.own)) (Cov.weaken Cov.own)
  have hS := deleteEach_ht Shell.ptrs deleteShell deleteShell_ht shells []
  have hB := deleteEach_ht BasisSetPtr.ptrs deleteBasisSet deleteBasisSet_ht bs []
  rw [List.append_nil] at hS hB
  have hj : ∀ {K : List (Multiset Nat)}, Cov (table :: stack :: atoms.flatMap grppPtrs)
      (((shells.flatMap Shell.ptrs : List Nat) : Multiset Nat) :: {list} ::
        ((bs.flatMap BasisSetPtr.ptrs : List Nat) : Multiset Nat) :: (mol.ptrs : Multiset Nat) :: K)
      (Job.ptrs ⟨list, shells, mol.ptrs, table, atoms, stack⟩) := by
    intro K
    have hm : ∀ {P : List Nat} {Q : List (Multiset Nat)}, Cov P ((mol.ptrs : Multiset Nat) :: Q) mol.ptrs := Cov.own
    generalize mol.ptrs = mp at hm ⊢
    refine Cov.append (p := [list]) (by cov) (Cov.append (p := [table]) (Cov.of (by simp))
      (Cov.append (p := [stack]) (Cov.of (by simp)) (Cov.append (p := mp ++ shells.flatMap Shell.ptrs) (Cov.append ?_ Cov.own) (Cov.of ?_))))
    · exact Cov.weaken (Cov.weaken (Cov.weaken hm))
    · intro x hx
      exact List.mem_cons_of_mem _ (List.mem_cons_of_mem _ hx)
  cases grpp with
  | true =>
    simp only [if_true]
    refine HT.mk (writeGrpp_ht _) hj fun q => HT.run (otherCalculations_ht _) (Cov.weaken hj) ?_
    refine HT.drop (deleteMolecule_ht mol) (by pick) (HT.drop hS (by pick) ?_)
    hfree
    refine HT.drop hB (by pick) (HT.ret ?_)
    simp
  | false =>
    simp only [Bool.false_eq_true, if_false]
    refine HT.run (otherCalculations_ht _) hj ?_
    refine HT.drop (deleteMolecule_ht mol) (by pick) (HT.drop hS (by pick) ?_)
    hfree
    refine HT.drop hB (by pick) (HT.ret ?_)
    simp

theorem mainHeap_post (sets : Nat) (grpp : Bool) (table stack : Nat) (atoms : List (Option Grpp)) :
    Post (mainHeap sets grpp table stack atoms) (fun q => q.isSome = grpp) := by
  unfold mainHeap
  refine Post.skip fun mol => Post.skip fun bs => Post.skip fun n => Post.skip fun list => Post.skip fun shells =>
    Post.skip fun _ => ?_
  cases grpp with
  | true =>
    exact Post.skip fun q => Post.skip fun _ => Post.skip fun _ => Post.skip fun _ => Post.skip fun _ => Post.skip fun _ =>
      Post.ret rfl
  | false =>
    exact Post.skip fun _ => Post.skip fun _ => Post.skip fun _ => Post.skip fun _ => Post.skip fun _ => Post.ret rfl

/-! ## Reading of pseudopotentials -/

/-- Sequencing with a fact about the result. -/
theorem HT.bindOfP {P P' : List Nat} {K K0 K1 : List (Multiset Nat)} {Q : α → List (Multiset Nat)}
    {R : β → List (Multiset Nat)} {p : Act α} {f : α → Act β} {Φ : α → Prop} (hp : HT P' K0 p Q) (hΦ : Post p Φ)
    (hk : K.sum = K0.sum + K1.sum) (hP : Cov P K1 P') (hf : ∀ a, Φ a → HT P (Q a ++ K1) (f a) R) : HT P K (p >>= f) R := by
  intro e s F hs hF
  obtain ⟨a, s1, h1, l1⟩ := hp e s (K1.sum + F) (by rw [hs, hk, add_assoc]) (by
    intro x hx
    rw [Multiset.mem_add]
    rcases hP x hx with h | h
    · exact .inr (hF x h)
    · exact .inl h)
  obtain ⟨b, s2, h2, l2⟩ := hf a (hΦ e s a s1 h1) e s1 F (by rw [l1, List.sum_append, add_assoc]) hF
  exact ⟨b, s2, by rw [HT.bind_ok h1, h2], l2⟩

theorem newPots_ht (n : Nat) : HT [] [] (newPots n) (fun l => [((l.flatMap Pot.ptrs : List Nat) : Multiset Nat)]) := by
  induction n with
  | zero => exact HT.ret rfl
  | succ n ih =>
    unfold newPots
    refine HT.mk ih (by cov) fun r => HT.mk (newPot_ht []) (by cov) fun p => HT.ret ?_
    simp only [List.sum_cons, List.sum_nil, add_zero, List.flatMap_append, List.flatMap_cons,
      List.flatMap_nil, List.append_nil, ← Multiset.coe_add, Pot.blocks]
    ac_rfl

theorem newPots_post (n : Nat) : Post (newPots n) (fun l => l.length = n) := by
  induction n with
  | zero => exact Post.ret rfl
  | succ n ih =>
    unfold newPots
    exact Post.bind ih fun r hr => Post.skip fun p => Post.ret (by simp [hr])

theorem newShells_post (args : List Nat) (n : Nat) : Post (newShells args n) (fun l => l.length = n) := by
  induction n with
  | zero => exact Post.ret rfl
  | succ n ih =>
    unfold newShells
    exact Post.bind ih fun r hr => Post.skip fun _ => Post.skip fun p => Post.ret (by simp [hr])

theorem clientSteps_post (args : List Nat) (ops : List GrppOp) (g : Grpp) (hg : g.Wf) :
    Post (clientSteps args g ops) Grpp.Wf := by
  induction ops generalizing g with
  | nil => exact Post.ret hg
  | cons o r ih =>
    unfold clientSteps
    exact Post.bind (clientStep_post args g hg o) fun g' hg' => ih g' hg'

theorem readPotBlocks_ht (n L : Nat) (g : Grpp) (hg : g.Wf) (ocs : List Nat) :
    HT [] [(g.ptrs : Multiset Nat)] (readPotBlocks n L g ocs)
      (fun r => [(r.1.ptrs : Multiset Nat), ((r.2.flatMap Pot.ptrs : List Nat) : Multiset Nat)]) := by
  induction ocs generalizing L g with
  | nil =>
    refine HT.ret ?_
    simp
  | cons k r ih =>
    unfold readPotBlocks
    refine HT.bindOfP (K1 := []) (clientStep_ht [] g hg _) (clientStep_post [] g hg _) (by simp) (by cov) fun g1 h1 => ?_
    refine HT.bindOfP (K1 := []) (clientSteps_ht [] _ g1 h1) (clientSteps_post [] _ g1 h1) (by simp) (by cov) fun g2 h2 => ?_
    refine HT.mk (newPots_ht k) (by cov) fun ps => ?_
    refine HT.bindOf (K0 := [(g2.ptrs : Multiset Nat)]) (K1 := [((ps.flatMap Pot.ptrs : List Nat) : Multiset Nat)])
      (ih (L + 1) g2 h2) ?_ (by cov) fun gq => HT.ret ?_
    · simp only [List.append_nil, List.sum_cons, List.sum_nil, add_zero]
      exact add_comm _ _
    · simp only [List.sum_cons, List.sum_nil, add_zero, List.sum_append, List.flatMap_append, ← Multiset.coe_add]
      ac_rfl

theorem readPotBlocks_post (n L : Nat) (g : Grpp) (hg : g.Wf) (ocs : List Nat) :
    Post (readPotBlocks n L g ocs) (fun r => r.1.Wf ∧ r.2.length = ocs.sum) := by
  induction ocs generalizing L g with
  | nil => exact Post.ret ⟨hg, rfl⟩
  | cons k r ih =>
    unfold readPotBlocks
    refine Post.bind (clientStep_post [] g hg _) fun g1 h1 => Post.bind (clientSteps_post [] _ g1 h1) fun g2 h2 =>
      Post.bind (newPots_post k) fun ps hp => Post.bind (ih (L + 1) g2 h2) fun gq hq => Post.ret ⟨hq.1, ?_⟩
    simp only [List.length_append, hp, hq.2, List.sum_cons]

theorem addCore_ht (g : Grpp) (hg : g.Wf) (p : Pot) (s : Shell) :
    HT [] [s.blocks, p.blocks, (g.ptrs : Multiset Nat)] (addCore g (p, s)) (fun g' => [(g'.ptrs : Multiset Nat)]) := by
  unfold addCore
  refine HT.touch (own_sub (g := g) (by simp) g.self_mem) ?_
  split
  · rename_i h
    refine HT.alloc fun a => HT.alloc fun b => HT.touch (by cov) (HT.ret ?_)
    simp only [List.sum_cons, List.sum_nil, add_zero, Grpp.blocks_eq, h, hg.2.2 h, Option.toList_none, List.flatMap_nil,
      Option.toList_some, List.flatMap_cons, List.append_nil, Multiset.coe_nil, Pot.blocks, Shell.blocks,
      Multiset.coe_singleton, ← Multiset.coe_add]
    ac_rfl
  · refine HT.touch (own_sub (g := g) (by simp) ?_) (HT.ret ?_)
    · intro x hx
      refine g.cores_mem x ?_
      unfold Cores.ptrs
      exact List.mem_append_left _ hx
    simp only [List.sum_cons, List.sum_nil, add_zero, Grpp.blocks_eq, List.flatMap_append, List.flatMap_nil,
      List.flatMap_cons, List.append_nil, ← Multiset.coe_add, Pot.blocks, Shell.blocks]
    ac_rfl

theorem addCore_post (g : Grpp) (hg : g.Wf) (x : Pot × Shell) : Post (addCore g x) Grpp.Wf := by
  unfold addCore
  refine Post.skip fun _ => ?_
  split
  · exact Post.skip fun _ => Post.skip fun _ => Post.skip fun _ => Post.ret ⟨hg.1, hg.2.1, by simp⟩
  · exact Post.skip fun _ => Post.ret ⟨hg.1, hg.2.1, by simp⟩

theorem addOuter_ht (g : Grpp) (hg : g.Wf) (ps : List Pot) (ss : List Shell) (h : ps.length ≤ ss.length) :
    HT [] [(g.ptrs : Multiset Nat), ((ps.flatMap Pot.ptrs : List Nat) : Multiset Nat),
        ((ss.flatMap Shell.ptrs : List Nat) : Multiset Nat)] (addOuter g ps ss)
      (fun r => [(r.1.ptrs : Multiset Nat), ((r.2.flatMap Shell.ptrs : List Nat) : Multiset Nat)]) := by
  induction ps generalizing g ss with
  | nil =>
    refine HT.ret ?_
    simp
  | cons p ps ih =>
    cases ss with
    | nil => simp at h
    | cons s ss =>
      unfold addOuter
      refine HT.bindOfP (K1 := [((ps.flatMap Pot.ptrs : List Nat) : Multiset Nat),
        ((ss.flatMap Shell.ptrs : List Nat) : Multiset Nat)]) (addCore_ht g hg p s) (addCore_post g hg (p, s)) ?_ (by cov)
        fun g' hg' => ih g' hg' ss (by simpa using h)
      simp only [List.sum_cons, List.sum_nil, add_zero, List.flatMap_cons, ← Multiset.coe_add, Pot.blocks, Shell.blocks]
      ac_rfl

theorem addOuter_post (g : Grpp) (ps : List Pot) (ss : List Shell) :
    Post (addOuter g ps ss) (fun r => r.2.length = ss.length - ps.length) := by
  induction ps generalizing g ss with
  | nil => exact Post.ret rfl
  | cons p ps ih =>
    cases ss with
    | nil => intro e s a s' h; cases h
    | cons s ss =>
      unfold addOuter
      refine Post.skip fun g' e st a st' h => ?_
      rw [ih g' ss e st a st' h]
      simp

theorem readGrppHeap_ht (shells : Nat) (ocs : List Nat) (h : ocs.sum ≤ shells) :
    HT [] [] (readGrppHeap shells ocs)
      (fun r => [(r.1.ptrs : Multiset Nat), ((r.2.flatMap Shell.ptrs : List Nat) : Multiset Nat)]) := by
  unfold readGrppHeap
  refine HT.newGrpp fun self => HT.mkP (newShells_ht [] shells) (newShells_post [] shells) (by cov) fun ss hss => ?_
  have hw : Grpp.Wf ⟨self, none, none, [], none, [], ⟨none, none, []⟩⟩ := ⟨fun _ => rfl, fun _ => rfl, fun _ => ⟨rfl, rfl⟩⟩
  refine HT.bindOfP (K1 := [((ss.flatMap Shell.ptrs : List Nat) : Multiset Nat)])
    (readPotBlocks_ht ocs.length 0 ⟨self, none, none, [], none, [], ⟨none, none, []⟩⟩ hw ocs)
    (readPotBlocks_post ocs.length 0 _ hw ocs) ?_ (by cov) fun gp hgp => ?_
  · simp only [List.sum_cons, List.sum_nil, add_zero]
    exact add_comm _ _
  · exact addOuter_ht gp.1 hgp.1 gp.2 ss (by rw [hgp.2, hss]; exact h)

theorem readGrppHeap_post (shells : Nat) (ocs : List Nat) :
    Post (readGrppHeap shells ocs) (fun r => r.2.length = shells - ocs.sum) := by
  unfold readGrppHeap
  refine Post.bind (Ψ := Grpp.Wf) (p := newGrpp) ?_ (fun g hg => Post.bind (newShells_post [] shells) fun ss hss =>
    Post.bind (readPotBlocks_post ocs.length 0 g hg ocs) fun gp hgp e st a st' ha => ?_)
  · exact Post.skip fun self => Post.ret ⟨fun _ => rfl, fun _ => rfl, fun _ => ⟨rfl, rfl⟩⟩
  · rw [addOuter_post gp.1 gp.2 ss e st a st' ha, hss, hgp.2]

theorem addOuter_ub (g : Grpp) (hg : g.Wf) (ps : List Pot) (ss : List Shell) (h : ss.length < ps.length) (e : Env) (s : State)
    (F : Multiset Nat) (hs : s.live = [(g.ptrs : Multiset Nat), ((ps.flatMap Pot.ptrs : List Nat) : Multiset Nat),
        ((ss.flatMap Shell.ptrs : List Nat) : Multiset Nat)].sum + F) : addOuter g ps ss e s = .ub := by
  induction ps generalizing g ss s with
  | nil => simp at h
  | cons p ps ih =>
    cases ss with
    | nil => rfl
    | cons q ss =>
      have hs' : s.live = [q.blocks, p.blocks, (g.ptrs : Multiset Nat)].sum +
          ([((ps.flatMap Pot.ptrs : List Nat) : Multiset Nat), ((ss.flatMap Shell.ptrs : List Nat) : Multiset Nat)].sum + F) := by
        rw [hs]
        simp only [List.sum_cons, List.sum_nil, add_zero, List.flatMap_cons, ← Multiset.coe_add, Pot.blocks, Shell.blocks]
        ac_rfl
      obtain ⟨g', s1, h1, l1⟩ := addCore_ht g hg p q e s _ hs' (by simp)
      unfold addOuter
      rw [HT.bind_ok h1]
      refine ih g' (addCore_post g hg (p, q) e s g' s1 h1) ss (by simpa using h) s1 ?_
      rw [l1]
      simp only [List.sum_cons, List.sum_nil, add_zero]
      ac_rfl

theorem shells_card (l : List Shell) : (l.flatMap Shell.ptrs).length = 4 * l.length := by
  induction l with
  | nil => rfl
  | cons a l ih =>
    rw [List.flatMap_cons, List.length_append, ih, List.length_cons]
    simp only [Shell.ptrs, List.length_cons, List.length_nil]
    omega

/-- The shells that are lost when pseudopotentials are read. -/
def lostShells (l : List (Grpp × List Shell)) : List Nat := l.flatMap (fun r => r.2.flatMap Shell.ptrs)

theorem readGrpps_ht (specs : List (Nat × List Nat)) (h : ∀ x ∈ specs, x.2.sum ≤ x.1) :
    HT [] [] (readGrpps specs)
      (fun l => [((l.flatMap (fun r => r.1.ptrs) : List Nat) : Multiset Nat), (lostShells l : Multiset Nat)]) := by
  induction specs with
  | nil => exact HT.ret rfl
  | cons x r ih =>
    unfold readGrpps
    refine HT.mk2 (readGrppHeap_ht x.1 x.2 (h x (by simp))) (by cov) fun g => ?_
    refine HT.mk2 (ih fun y hy => h y (by simp [hy])) (by cov) fun l => HT.ret ?_
    simp only [lostShells, List.sum_cons, List.sum_nil, add_zero, List.flatMap_cons, ← Multiset.coe_add]
    ac_rfl

theorem readGrpps_post (specs : List (Nat × List Nat)) :
    Post (readGrpps specs) (fun l => (lostShells l).length = 4 * (specs.map (fun x => x.1 - x.2.sum)).sum) := by
  induction specs with
  | nil => exact Post.ret rfl
  | cons x r ih =>
    unfold readGrpps
    refine Post.bind (readGrppHeap_post x.1 x.2) fun g hg => Post.bind ih fun l hl => Post.ret ?_
    rw [List.map_cons, List.sum_cons, ← hg, Nat.mul_add, ← hl, ← shells_card]
    simp only [lostShells, List.flatMap_cons, List.length_append]

theorem programHeap_run (specs : List (Nat × List Nat)) (h : ∀ x ∈ specs, x.2.sum ≤ x.1) (elems : List (Option Nat)) (sets : Nat)
    (grpp : Bool) (table stack : Nat) (e : Env) (s : State) (ht : table ∈ s.live) (hs : stack ∈ s.live) :
    ∃ (s' : State) (q : Option Nat) (l : List Nat), programHeap specs elems sets grpp table stack e s = .ok ((), s') ∧
      s'.live = (l : Multiset Nat) + ((q.toList : List Nat) : Multiset Nat) + s.live ∧ q.isSome = grpp ∧
      l.length = 4 * (specs.map (fun x => x.1 - x.2.sum)).sum := by
  obtain ⟨gs, s1, h1, l1⟩ := readGrpps_ht specs h e s s.live (by simp) (by simp)
  have c1 := readGrpps_post specs e s gs s1 h1
  simp only [List.sum_cons, List.sum_nil, add_zero] at l1
  obtain ⟨q, s2, h2, l2⟩ := mainHeap_ht sets grpp table stack
    (elems.map (fun o => o.bind (fun k => (gs[k]?).map Prod.fst))) e s1 s1.live (by simp) (by
      intro x hx
      rw [l1, Multiset.mem_add, Multiset.mem_add]
      rcases List.mem_cons.1 hx with rfl | hx
      · exact .inr ht
      rcases List.mem_cons.1 hx with rfl | hx
      · exact .inr hs
      refine .inl (.inl ?_)
      obtain ⟨o, ho, hx⟩ := List.mem_flatMap.1 hx
      obtain ⟨k, -, rfl⟩ := List.mem_map.1 ho
      obtain ⟨g, hg, hx⟩ := List.mem_flatMap.1 hx
      rw [Option.mem_toList] at hg
      cases k with
      | none => simp at hg
      | some k =>
        obtain ⟨a, ha, rfl⟩ := Option.map_eq_some_iff.1 hg
        exact Multiset.mem_coe.2 (List.mem_flatMap.2 ⟨a, List.mem_of_getElem? ha, hx⟩))
  have c2 := mainHeap_post sets grpp table stack _ e s1 q s2 h2
  rw [List.sum_cons, List.sum_nil, add_zero] at l2
  obtain ⟨⟨⟩, s3, h3, l3⟩ := deleteAll_ht (P := []) (f := fun g : Grpp × List Shell => deleteGrpp g.1)
    (b := fun g => g.1.ptrs) (fun g => deleteOwned_ht g.1) gs e s2
    ((lostShells gs : Multiset Nat) + ((q.toList : List Nat) : Multiset Nat) + s.live)
    (by rw [l2, l1]; simp only [List.sum_cons, List.sum_nil, add_zero]; ac_rfl) (by simp)
  refine ⟨s3, q, lostShells gs, ?_, ?_, c2, c1⟩
  · unfold programHeap
    rw [HT.bind_ok h1, HT.bind_ok h2]
    exact h3
  · rw [l3, List.sum_nil, zero_add]

/-- What an object holds: whether it has a local potential, and the numbers of averaged, spin-orbit and outer-core potentials. -/
def Grpp.counts (g : Grpp) : Bool × Nat × Nat × Nat := (g.uL.isSome, g.arep.length, g.esop.length, g.cores.items.length)

theorem setLocal_counts (args : List Nat) (g : Grpp) : Post (clientStep args g .setLocal)
    (fun g' => g'.counts = (true, g.arep.length, g.esop.length, g.cores.items.length)) := by
  refine Post.skip fun p => ?_
  unfold setLocal
  refine Post.skip fun _ => ?_
  split
  · exact Post.skip fun _ => Post.ret rfl
  · exact Post.ret rfl

theorem addArep_counts (args : List Nat) (g : Grpp) : Post (clientStep args g .addArep)
    (fun g' => g'.counts = (g.uL.isSome, g.arep.length + 1, g.esop.length, g.cores.items.length)) := by
  refine Post.skip fun p => ?_
  unfold addArep
  refine Post.skip fun _ => ?_
  split
  · rename_i h
    exact Post.skip fun _ => Post.skip fun _ => Post.ret (by simp [Grpp.counts, h])
  · exact Post.skip fun _ => Post.ret (by simp [Grpp.counts])

theorem addEsop_counts (args : List Nat) (g : Grpp) : Post (clientStep args g .addEsop)
    (fun g' => g'.counts = (g.uL.isSome, g.arep.length, g.esop.length + 1, g.cores.items.length)) := by
  refine Post.skip fun p => ?_
  unfold addEsop
  refine Post.skip fun _ => ?_
  split
  · rename_i h
    exact Post.skip fun _ => Post.skip fun _ => Post.ret (by simp [Grpp.counts, h])
  · exact Post.skip fun _ => Post.ret (by simp [Grpp.counts])

theorem addCore_counts (g : Grpp) (x : Pot × Shell) : Post (addCore g x)
    (fun g' => g'.counts = (g.uL.isSome, g.arep.length, g.esop.length, g.cores.items.length + 1)) := by
  unfold addCore
  refine Post.skip fun _ => ?_
  split
  · rename_i h
    exact Post.skip fun _ => Post.skip fun _ => Post.skip fun _ => Post.ret (by simp [Grpp.counts, h])
  · exact Post.skip fun _ => Post.ret (by simp [Grpp.counts])

theorem addOuter_counts (g : Grpp) (ps : List Pot) (ss : List Shell) : Post (addOuter g ps ss)
    (fun r => r.1.counts = (g.uL.isSome, g.arep.length, g.esop.length, g.cores.items.length + ps.length)) := by
  induction ps generalizing g ss with
  | nil => exact Post.ret rfl
  | cons p ps ih =>
    cases ss with
    | nil => intro e s a s' h; cases h
    | cons s ss =>
      unfold addOuter
      refine Post.bind (addCore_counts g (p, s)) fun g' hg' e st a st' h => ?_
      rw [ih g' ss e st a st' h]
      simp only [Grpp.counts, Prod.mk.injEq] at hg' ⊢
      simp only [hg', List.length_cons, true_and]
      omega

theorem readPotBlocks_counts (n L : Nat) (g : Grpp) (ocs : List Nat) (h : L + ocs.length = n) :
    Post (readPotBlocks n L g ocs) (fun r => r.1.counts = (g.uL.isSome || !ocs.isEmpty, g.arep.length + (ocs.length - 1),
      g.esop.length + (if L = 0 then ocs.length - 1 else ocs.length), g.cores.items.length)) := by
  induction ocs generalizing L g with
  | nil => exact Post.ret (by simp [Grpp.counts])
  | cons k r ih =>
    unfold readPotBlocks
    have h1 : Post (clientStep [] g (if L + 1 = n then .setLocal else .addArep)) (fun g' => g'.counts =
        (g.uL.isSome || r.isEmpty, g.arep.length + (if r.isEmpty then 0 else 1), g.esop.length, g.cores.items.length)) := by
      cases r with
      | nil =>
        rw [if_pos (by simpa using h)]
        simpa using setLocal_counts [] g
      | cons x r =>
        rw [if_neg (by simp at h; omega)]
        simpa using addArep_counts [] g
    refine Post.bind h1 fun g1 c1 => ?_
    have h2 : Post (clientSteps [] g1 (if L = 0 then [] else [.addEsop])) (fun g' => g'.counts =
        (g1.uL.isSome, g1.arep.length, g1.esop.length + (if L = 0 then 0 else 1), g1.cores.items.length)) := by
      split
      · exact Post.ret rfl
      · exact Post.bind (addEsop_counts [] g1) fun g' hg' => Post.ret hg'
    refine Post.bind h2 fun g2 c2 => Post.skip fun ps => Post.bind (ih (L + 1) g2 (by simp at h; omega)) fun gq hq => Post.ret ?_
    rw [hq]
    simp only [Grpp.counts, Prod.mk.injEq] at c1 c2
    rw [if_neg (Nat.succ_ne_zero L)]
    simp only [c2, c1, List.length_cons, Prod.mk.injEq, and_true]
    refine ⟨?_, ?_, ?_⟩
    · cases r <;> simp
    · cases r
      · simp
      · simp; omega
    · split <;> omega

theorem readGrppHeap_counts (shells : Nat) (ocs : List Nat) : Post (readGrppHeap shells ocs)
    (fun r => r.1.counts = (!ocs.isEmpty, ocs.length - 1, ocs.length - 1, ocs.sum)) := by
  unfold readGrppHeap
  refine Post.bind (Ψ := fun g => g.Wf ∧ g.counts = (false, 0, 0, 0)) (p := newGrpp)
    (Post.skip fun self => Post.ret ⟨⟨fun _ => rfl, fun _ => rfl, fun _ => ⟨rfl, rfl⟩⟩, rfl⟩) fun g hg => Post.skip fun ss => ?_
  have h2 : Post (readPotBlocks ocs.length 0 g ocs) (fun r => r.2.length = ocs.sum ∧ r.1.counts =
      (!ocs.isEmpty, ocs.length - 1, ocs.length - 1, 0)) := by
    intro e s r s' h
    refine ⟨(readPotBlocks_post ocs.length 0 g hg.1 ocs e s r s' h).2, ?_⟩
    rw [readPotBlocks_counts ocs.length 0 g ocs (by simp) e s r s' h]
    have := hg.2
    simp only [Grpp.counts, Prod.mk.injEq] at this
    simp only [this, Bool.false_or, zero_add, if_true]
  refine Post.bind h2 fun gp hgp e st a st' h => ?_
  rw [addOuter_counts gp.1 gp.2 ss e st a st' h]
  have := hgp.2
  simp only [Grpp.counts, Prod.mk.injEq] at this
  simp only [this, hgp.1, zero_add]

end Libgrpp.Heap
