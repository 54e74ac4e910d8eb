import Verif.Model.Heap
import Mathlib.Data.List.Induction

/-! # Rules for dynamic memory -/

namespace Libgrpp.Heap

variable {α β : Type}

/-- Triple with a frame: from any state in which the blocks of `K` and further blocks `F` are in use, where `F` includes the
blocks `P`, the action returns, and then the blocks of its result `Q` and `F` are in use. -/
def HT (P : List Nat) (K : List (Multiset Nat)) (p : Act α) (Q : α → List (Multiset Nat)) : Prop :=
  ∀ e s F, s.live = K.sum + F → (∀ x ∈ P, x ∈ F) → ∃ a s', p e s = .ok (a, s') ∧ s'.live = (Q a).sum + F

/-- The blocks `ps` belong to the caller (`P`) or to us (`K`). -/
def Cov (P : List Nat) (K : List (Multiset Nat)) (ps : List Nat) : Prop := ∀ x ∈ ps, x ∈ P ∨ x ∈ K.sum

/-- `Pick x l r`: `r` is `l` without one occurrence of `x`. -/
inductive Pick (x : Multiset Nat) : List (Multiset Nat) → List (Multiset Nat) → Prop
  | here (l) : Pick x (x :: l) l
  | there (y) {l r} : Pick x l r → Pick x (y :: l) (y :: r)

theorem Pick.sum {x : Multiset Nat} {l r : List (Multiset Nat)} (h : Pick x l r) : l.sum = x + r.sum := by
  induction h with
  | here l => simp
  | there y _ ih => simp only [List.sum_cons, ih]; rw [← add_assoc, ← add_assoc, add_comm y x]

theorem Cov.nil {P K} : Cov P K [] := by intro x h; simp at h
theorem Cov.cons {P K p ps} (h : p ∈ P ∨ p ∈ K.sum) (hs : Cov P K ps) : Cov P K (p :: ps) := by
  intro x hx
  rcases List.mem_cons.1 hx with rfl | hx
  · exact h
  · exact hs x hx
theorem Cov.append {P K p q} (h : Cov P K p) (h' : Cov P K q) : Cov P K (p ++ q) := by
  intro x hx
  rcases List.mem_append.1 hx with hx | hx
  · exact h x hx
  · exact h' x hx
theorem Cov.left {P K p q} (h : Cov P K (p ++ q)) : Cov P K p := fun x hx => h x (List.mem_append_left _ hx)
theorem Cov.right {P K p q} (h : Cov P K (p ++ q)) : Cov P K q := fun x hx => h x (List.mem_append_right _ hx)
theorem Cov.sub {P K p q} (h : Cov P K q) (hs : ∀ x ∈ p, x ∈ q) : Cov P K p := fun x hx => h x (hs x hx)
theorem Cov.weaken {P K p y} (h : Cov P K p) : Cov P (y :: K) p := by
  intro x hx
  rcases h x hx with h | h
  · exact .inl h
  · right; rw [List.sum_cons, Multiset.mem_add]; exact .inr h
theorem Cov.own {P K} {p : List Nat} : Cov P ((p : Multiset Nat) :: K) p := by
  intro x hx
  right; rw [List.sum_cons, Multiset.mem_add]; exact .inl hx
theorem Cov.callers {P K} : Cov P K P := fun _ hx => .inl hx

namespace HT

variable {P : List Nat} {K K' : List (Multiset Nat)} {Q : α → List (Multiset Nat)} {R : β → List (Multiset Nat)}

theorem ret {a : α} (h : K.sum = (Q a).sum) : HT P K (pure a) Q := by
  intro e s F hs _
  exact ⟨a, s, rfl, by rw [hs, h]⟩

theorem bind_ok {p : Act α} {f : α → Act β} {e : Env} {s s' : State} {a : α} (h : p e s = .ok (a, s')) :
    (p >>= f) e s = f a e s' := by
  change (match p e s with | .ok (a, s') => f a e s' | .ub => .ub | .abort => .abort | .exit => .exit) = _
  rw [h]

/-- Sequencing when the first action needs the blocks `K'` out of `K`. -/
theorem bindOf {p : Act α} {f : α → Act β} {P' : List Nat} {K0 K1 : List (Multiset Nat)} (hp : HT P' K0 p Q)
    (hk : K.sum = K0.sum + K1.sum) (hP : Cov P K1 P') (hf : ∀ a, HT P (Q a ++ K1) (f a) R) : HT P K (p >>= f) R := by
  intro e s F hs hF
  obtain ⟨a, s1, h1, l1⟩ := hp e s (K1.sum + F) (by rw [hs, hk, add_assoc]) (by
    intro x hx
    rw [Multiset.mem_add]
    rcases hP x hx with h | h
    · exact .inr (hF x h)
    · exact .inl h)
  obtain ⟨b, s2, h2, l2⟩ := hf a e s1 F (by rw [l1, List.sum_append, add_assoc]) hF
  exact ⟨b, s2, by rw [bind_ok h1, h2], l2⟩

/-- Call of a routine that needs nothing of ours. -/
theorem call {p : Act α} {f : α → Act β} {P' : List Nat} (hp : HT P' [] p Q) (hP : Cov P K P')
    (hf : ∀ a, HT P (Q a ++ K) (f a) R) : HT P K (p >>= f) R :=
  bindOf hp (by simp) hP hf

/-- Call of a constructor. -/
theorem mk {p : Act α} {f : α → Act β} {P' : List Nat} {x : α → Multiset Nat} (hp : HT P' [] p (fun a => [x a]))
    (hP : Cov P K P') (hf : ∀ a, HT P (x a :: K) (f a) R) : HT P K (p >>= f) R :=
  call hp hP hf

/-- Call of a routine that returns two blocks. -/
theorem mk2 {p : Act α} {f : α → Act β} {P' : List Nat} {x y : α → Multiset Nat}
    (hp : HT P' [] p (fun a => [x a, y a])) (hP : Cov P K P') (hf : ∀ a, HT P (x a :: y a :: K) (f a) R) :
    HT P K (p >>= f) R :=
  call hp hP hf

/-- Call of a routine that returns nothing and needs nothing of ours. -/
theorem run {p : Act Unit} {f : Unit → Act β} {P' : List Nat} (hp : HT P' [] p (fun _ => [])) (hP : Cov P K P')
    (hf : HT P K (f ()) R) : HT P K (p >>= f) R :=
  call hp hP (fun _ => hf)

/-- Call of a destructor. -/
theorem drop {p : Act Unit} {f : Unit → Act β} {x : Multiset Nat} (hp : HT [] [x] p (fun _ => []))
    (hk : Pick x K K') (hf : HT P K' (f ()) R) : HT P K (p >>= f) R :=
  bindOf hp (by simpa using hk.sum) (by intro x h; simp at h) (fun _ => hf)

/-- A call in final position. -/
theorem last {p : Act Unit} {P' : List Nat} (hp : HT P' [] p (fun _ => [])) (hP : Cov P K P') :
    HT P K p (fun _ => K) := by
  intro e s F hs hF
  obtain ⟨a, s', h, l⟩ := hp e s s.live (by simp) (by
    intro x hx
    rw [hs, Multiset.mem_add]
    rcases hP x hx with h | h
    · exact .inr (hF x h)
    · exact .inl h)
  exact ⟨a, s', h, by rw [l, hs]; simp⟩

theorem dropLast {p : Act Unit} {x : Multiset Nat} (hp : HT [] [x] p (fun _ => [])) (hk : Pick x K K') :
    HT P K p (fun _ => K') := by
  intro e s F hs hF
  obtain ⟨a, s', h, l⟩ := hp e s (K'.sum + F) (by rw [hs, hk.sum]; simp [add_assoc]) (by simp)
  exact ⟨a, s', h, by rw [l]; simp⟩

theorem weaken {p : Act α} {P' : List Nat} (hp : HT P' K p Q) (h : ∀ x ∈ P', x ∈ P) : HT P K p Q :=
  fun e s F hs hF => hp e s F hs (fun x hx => hF x (h x hx))

theorem alloc {f : Nat → Act β} (hf : ∀ q, HT P (({q} : Multiset Nat) :: K) (f q) R) : HT P K (Heap.alloc >>= f) R := by
  intro e s F hs hF
  obtain ⟨b, s2, h2, l2⟩ := hf (e.pick s.time s.live) e ⟨e.pick s.time s.live ::ₘ s.live, s.time + 1⟩ F
    (by rw [List.sum_cons, add_assoc, ← hs]; rfl) hF
  exact ⟨b, s2, by rw [bind_ok (p := Heap.alloc) (a := e.pick s.time s.live) rfl, h2], l2⟩

theorem free_one {q : Nat} : HT [] [({q} : Multiset Nat)] (Heap.free q) (fun _ => []) := by
  intro e s F hs _
  have hl : s.live = q ::ₘ F := by rw [hs]; simp [Multiset.singleton_add]
  refine ⟨(), ⟨s.live.erase q, s.time + 1⟩, ?_, ?_⟩
  · unfold Heap.free
    rw [if_pos (by rw [hl]; exact Multiset.mem_cons_self q F)]
  · rw [hl, Multiset.erase_cons_head]; simp

theorem free {q : Nat} {f : Unit → Act β} (hk : Pick ({q} : Multiset Nat) K K') (hf : HT P K' (f ()) R) :
    HT P K (Heap.free q >>= f) R := drop free_one hk hf

theorem freeLast {q : Nat} (hk : Pick ({q} : Multiset Nat) K K') : HT P K (Heap.free q) (fun _ => K') :=
  dropLast free_one hk

theorem touch_one {ps : List Nat} : HT ps [] (Heap.touch ps) (fun _ => []) := by
  intro e s F hs hF
  refine ⟨(), s, ?_, by simpa using hs⟩
  unfold Heap.touch
  rw [if_pos]
  intro p hp
  rw [hs]; simpa using hF p hp

theorem touch {ps : List Nat} {f : Unit → Act β} (hP : Cov P K ps) (hf : HT P K (f ()) R) :
    HT P K (Heap.touch ps >>= f) R := run touch_one hP hf

theorem touchLast {ps : List Nat} (hP : Cov P K ps) : HT P K (Heap.touch ps) (fun _ => K) := last touch_one hP

theorem ask {f : Nat → Act β} (hf : ∀ n, HT P K (f n) R) : HT P K (Heap.ask >>= f) R := by
  intro e s F hs hF
  obtain ⟨b, s2, h2, l2⟩ := hf (e.choice s.time) e ⟨s.live, s.time + 1⟩ F hs hF
  exact ⟨b, s2, by rw [bind_ok (p := Heap.ask) (a := e.choice s.time) rfl, h2], l2⟩

theorem loop {n : Nat} {body : Nat → Act Unit} (h : ∀ i, i < n → HT P K (body i) (fun _ => K)) :
    HT P K (Heap.loop n body) (fun _ => K) := by
  induction n with
  | zero => exact ret rfl
  | succ n ih =>
    intro e s F hs hF
    obtain ⟨a, s1, h1, l1⟩ := ih (fun i hi => h i (by omega)) e s F hs hF
    obtain ⟨b, s2, h2, l2⟩ := h n (by omega) e s1 F l1 hF
    exact ⟨b, s2, by unfold Heap.loop; rw [bind_ok h1]; exact h2, l2⟩

/-- Sequencing when the first action keeps our blocks. -/
theorem seq {p : Act Unit} {f : Unit → Act β} (hp : HT P K p (fun _ => K)) (hf : HT P K (f ()) R) :
    HT P K (p >>= f) R := by
  intro e s F hs hF
  obtain ⟨a, s1, h1, l1⟩ := hp e s F hs hF
  obtain ⟨b, s2, h2, l2⟩ := hf e s1 F l1 hF
  exact ⟨b, s2, by rw [bind_ok h1]; exact h2, l2⟩

theorem optionally {p : Act Unit} (h : HT P K p (fun _ => K)) : HT P K (Heap.optionally p) (fun _ => K) := by
  unfold Heap.optionally
  refine ask fun n => ?_
  split
  · exact ret rfl
  · exact h

/-- An action that needs and leaves nothing of ours, from the general triple. -/
theorem mono {p : Act α} (h : HT P K p Q) {Q' : α → List (Multiset Nat)} (hq : ∀ a, (Q a).sum = (Q' a).sum) :
    HT P K p Q' := by
  intro e s F hs hF
  obtain ⟨a, s', h1, l1⟩ := h e s F hs hF
  exact ⟨a, s', h1, by rw [l1, hq]⟩

end HT

/-- Finds the entry to remove. -/
macro "pick" : tactic => `(tactic| repeat first | exact Pick.here _ | apply Pick.there)

/-- One `free`. -/
macro "hfree" : tactic => `(tactic| (apply HT.free; · pick))
macro "hfreeLast" : tactic => `(tactic| (refine HT.mono (HT.freeLast ?_) (fun _ => rfl); pick))

/-! ## Objects -/

def Shell.blocks (s : Shell) : Multiset Nat := (s.ptrs : Multiset Nat)
def Pot.blocks (p : Pot) : Multiset Nat := (p.ptrs : Multiset Nat)
def Table.blocks (t : Table) : Multiset Nat := (t.ptrs : Multiset Nat)
def Grid1.blocks (t : Grid1) : Multiset Nat := (t.ptrs : Multiset Nat)
def Grid2.blocks (t : Grid2) : Multiset Nat := (t.ptrs : Multiset Nat)
def Quad.blocks (t : Quad) : Multiset Nat := (t.ptrs : Multiset Nat)

theorem Shell.mem_blocks {s : Shell} {x : Nat} : x ∈ s.blocks ↔ x ∈ s.ptrs := Iff.rfl
theorem Pot.mem_blocks {s : Pot} {x : Nat} : x ∈ s.blocks ↔ x ∈ s.ptrs := Iff.rfl
theorem Table.mem_blocks {s : Table} {x : Nat} : x ∈ s.blocks ↔ x ∈ s.ptrs := Iff.rfl
theorem Grid1.mem_blocks {s : Grid1} {x : Nat} : x ∈ s.blocks ↔ x ∈ s.ptrs := Iff.rfl
theorem Grid2.mem_blocks {s : Grid2} {x : Nat} : x ∈ s.blocks ↔ x ∈ s.ptrs := Iff.rfl
theorem Quad.mem_blocks {s : Quad} {x : Nat} : x ∈ s.blocks ↔ x ∈ s.ptrs := Iff.rfl

theorem Shell.blocks_eq (s : Shell) : s.blocks = {s.self} + ({s.cart} + ({s.coeffs} + {s.alpha})) := rfl
theorem Pot.blocks_eq (s : Pot) : s.blocks = {s.self} + ({s.powers} + ({s.coeffs} + {s.alpha})) := rfl
theorem Quad.blocks_eq (s : Quad) : s.blocks = {s.a} + ({s.x} + ({s.y} + {s.z})) := rfl

theorem Grid1.blocks_eq (g : Grid1) :
    g.blocks = {g.self} + ({g.r} + ({g.w} + ({g.pot} + ({g.gto} + (g.rN.blocks + g.bessel.blocks))))) := rfl
theorem Grid2.blocks_eq (g : Grid2) :
    g.blocks = {g.self} + ({g.r} + ({g.w} + ({g.pot} + (g.F1.blocks + (g.F2.blocks + g.rN.blocks))))) := by
  have h : g.ptrs = [g.self, g.r, g.w, g.pot] ++ (g.F1.ptrs ++ (g.F2.ptrs ++ g.rN.ptrs)) := by
    simp [Grid2.ptrs]
  unfold Grid2.blocks
  rw [h]; rfl

/-- Shows that blocks are in use. -/
macro "cov" : tactic => `(tactic| (
  repeat' with_reducible first | exact Cov.nil | refine Cov.append ?_ ?_ | refine Cov.cons ?_ ?_
  all_goals first
    | (intro x hx
       simp only [List.mem_append, List.mem_cons, List.sum_cons, Multiset.mem_add, Shell.mem_blocks, Pot.mem_blocks,
         Table.mem_blocks, Grid1.mem_blocks, Grid2.mem_blocks, Quad.mem_blocks, hx, true_or, or_true]
       done)
    | (simp only [List.mem_append, List.mem_cons, List.sum_cons, Multiset.mem_add, Multiset.mem_singleton,
         Shell.mem_blocks, Pot.mem_blocks, Table.mem_blocks, Grid1.mem_blocks, Grid2.mem_blocks, Quad.mem_blocks,
         true_or, or_true]
       done)
    | (simp only [List.mem_append, List.mem_cons, List.sum_cons, Multiset.mem_add, Multiset.mem_singleton,
         Shell.mem_blocks, Pot.mem_blocks, Table.mem_blocks, Grid1.mem_blocks, Grid2.mem_blocks, Quad.mem_blocks,
         Shell.ptrs, Pot.ptrs, Table.ptrs, Grid1.ptrs, Grid2.ptrs, Quad.ptrs, true_or, or_true]
       done)))

theorem generateCartesians_ht : HT [] [] generateCartesians (fun c => [{c}]) := by
  unfold generateCartesians
  refine HT.alloc fun c => HT.touch (by cov) (HT.ret rfl)

/-- Compares what is left with what is promised. -/
macro "left" : tactic => `(tactic| (
  simp only [List.sum_cons, List.sum_nil, Shell.blocks_eq, Pot.blocks_eq, Quad.blocks_eq, Grid1.blocks_eq, Grid2.blocks_eq, List.sum_append, add_zero,
    zero_add, List.cons_append, List.nil_append]
  try ac_rfl))

theorem newShell_ht (args : List Nat) (L : Nat) : HT args [] (newShell args L) (fun s => [s.blocks]) := by
  unfold newShell
  refine HT.alloc fun self => HT.touch (by cov) (HT.mk generateCartesians_ht (by cov) fun cart => ?_)
  refine HT.alloc fun co => HT.alloc fun al => HT.touch (by cov) (HT.ret ?_)
  left

theorem deleteShell_ht (s : Shell) : HT [] [s.blocks] (deleteShell s) (fun _ => []) := by
  unfold deleteShell
  intro e st F hs hF
  refine HT.touch (K := [{s.self}, {s.cart}, {s.coeffs}, {s.alpha}]) (P := []) (by cov) ?_ e st F ?_ hF
  · hfree; hfree; hfree; hfreeLast
  · rw [hs]; left

theorem deepCopy_ht (s : Shell) : HT s.ptrs [] (deepCopy s) (fun t => [t.blocks]) := newShell_ht _ _

theorem newPot_ht (args : List Nat) : HT args [] (newPot args) (fun s => [s.blocks]) := by
  unfold newPot
  refine HT.alloc fun self => HT.touch (by cov) (HT.alloc fun pw => ?_)
  refine HT.alloc fun co => HT.alloc fun al => HT.touch (by cov) (HT.ret ?_)
  left

theorem deletePot_ht (s : Pot) : HT [] [s.blocks] (deletePot s) (fun _ => []) := by
  unfold deletePot
  intro e st F hs hF
  refine HT.touch (K := [{s.self}, {s.powers}, {s.coeffs}, {s.alpha}]) (P := []) (by cov) ?_ e st F ?_ hF
  · hfree; hfree; hfree; hfreeLast
  · rw [hs]; left

theorem shrinkPot_ht (p : Pot) : HT p.ptrs [] (shrinkPot p) (fun q => [q.blocks]) := by
  unfold shrinkPot
  refine HT.touch (by cov) (HT.alloc fun pw => HT.alloc fun co => HT.alloc fun al => HT.touch (by cov) ?_)
  refine HT.mk (newPot_ht _) (by cov) fun q => ?_
  hfree; hfree; hfree; exact HT.ret rfl

/-- Facts about the result. -/
def Post (p : Act α) (Φ : α → Prop) : Prop := ∀ e s a s', p e s = .ok (a, s') → Φ a

theorem Post.ret {a : α} {Φ : α → Prop} (h : Φ a) : Post (pure a : Act α) Φ := by
  intro e s b s' hb
  cases hb; exact h

theorem Post.bind {p : Act α} {f : α → Act β} {Ψ : α → Prop} {Φ : β → Prop} (hp : Post p Ψ)
    (hf : ∀ a, Ψ a → Post (f a) Φ) : Post (p >>= f) Φ := by
  intro e s b s' hb
  change (match p e s with | .ok (a, s') => f a e s' | .ub => .ub | .abort => .abort | .exit => .exit) = _ at hb
  cases h : p e s with
  | ok x =>
    obtain ⟨a, s1⟩ := x
    rw [h] at hb
    exact hf a (hp e s a s1 h) e s1 b s' hb
  | ub => rw [h] at hb; cases hb
  | abort => rw [h] at hb; cases hb
  | exit => rw [h] at hb; cases hb

theorem Post.any {p : Act α} : Post p (fun _ => True) := fun _ _ _ _ _ => trivial

theorem Post.skip {p : Act α} {f : α → Act β} {Φ : β → Prop} (hf : ∀ a, Post (f a) Φ) : Post (p >>= f) Φ :=
  Post.bind Post.any (fun a _ => hf a)

/-- Call of a constructor with a fact about its result. -/
theorem HT.mkP {P : List Nat} {K : List (Multiset Nat)} {R : β → List (Multiset Nat)} {p : Act α} {f : α → Act β}
    {P' : List Nat} {x : α → Multiset Nat} {Φ : α → Prop} (hp : HT P' [] p (fun a => [x a])) (hΦ : Post p Φ)
    (hP : Cov P K P') (hf : ∀ a, Φ a → HT P (x a :: K) (f a) R) : HT P K (p >>= f) R := by
  intro e s F hs hF
  obtain ⟨a, s1, h1, l1⟩ := hp e s s.live (by simp) (by
    intro x hx
    rw [hs, Multiset.mem_add]
    rcases hP x hx with h | h
    · exact .inr (hF x h)
    · exact .inl h)
  obtain ⟨b, s2, h2, l2⟩ := hf a (hΦ e s a s1 h1) e s1 F (by rw [l1, hs]; simp [add_assoc]) hF
  exact ⟨b, s2, by rw [HT.bind_ok h1, h2], l2⟩

theorem allocRows_ht (n : Nat) : HT [] [] (allocRows n) (fun r => [((r : List Nat) : Multiset Nat)]) := by
  induction n with
  | zero => exact HT.ret rfl
  | succ n ih =>
    unfold allocRows
    refine HT.mk ih (by cov) fun r => HT.alloc fun p => HT.ret ?_
    simp only [List.sum_cons, List.sum_nil, add_zero]
    rw [add_comm]; rfl

theorem allocRows_post (n : Nat) : Post (allocRows n) (fun r => r.length = n) := by
  induction n with
  | zero => exact Post.ret rfl
  | succ n ih =>
    unfold allocRows
    exact Post.bind ih fun r hr => Post.skip fun p => Post.ret (by simp [hr])

theorem allocTable_ht (n : Nat) : HT [] [] (allocTable n) (fun t => [t.blocks]) := by
  unfold allocTable
  refine HT.alloc fun self => HT.mk (allocRows_ht n) (by cov) fun rows => HT.touch ?_ (HT.ret ?_)
  · intro x hx; right
    simp only [List.mem_cons, List.not_mem_nil, or_false] at hx
    simp [hx]
  · simp only [List.sum_cons, List.sum_nil, add_zero]
    rw [add_comm]; rfl

theorem allocTable_post (n : Nat) : Post (allocTable n) (fun t => t.rows.length = n) := by
  unfold allocTable
  exact Post.skip fun self => Post.bind (allocRows_post n) fun r hr => Post.skip fun _ => Post.ret hr

/-- The loop of `free_2d` after `i` rows. -/
theorem freeRows_ht (l r : List Nat) :
    HT [] [((l : List Nat) : Multiset Nat)]
      (loop l.length (fun i => entry (l ++ r) i free)) (fun _ => []) := by
  induction l using List.reverseRecOn generalizing r with
  | nil => exact HT.ret rfl
  | append_singleton l a ih =>
    rw [List.length_append, List.length_singleton]
    unfold loop
    have h1 := ih (a :: r)
    rw [List.append_assoc, List.singleton_append]
    refine HT.bindOf (K0 := [((l : List Nat) : Multiset Nat)]) (K1 := [({a} : Multiset Nat)]) h1 ?_ (by cov) ?_
    · simp only [List.sum_cons, List.sum_nil, add_zero]; rfl
    · intro _
      unfold entry
      beta_reduce
      rw [List.getElem?_append_right (le_refl _), Nat.sub_self]
      exact HT.mono (HT.freeLast (Pick.here _)) (fun _ => rfl)

theorem freeTable_ht (t : Table) (n : Nat) (h : t.rows.length = n) :
    HT [] [t.blocks] (freeTable t n) (fun _ => []) := by
  subst h
  unfold freeTable
  intro e st F hs hF
  refine HT.touch (K := [(t.rows : Multiset Nat), {t.self}]) (P := []) ?_ ?_ e st F ?_ hF
  · intro x hx; right
    simp only [List.mem_cons, List.not_mem_nil, or_false] at hx
    simp [hx]
  · refine HT.bindOf (K1 := [({t.self} : Multiset Nat)]) (by have := freeRows_ht t.rows []; rwa [List.append_nil] at this) ?_ (by cov) fun _ => ?_
    · simp
    · exact HT.mono (HT.freeLast (Pick.here _)) (fun _ => rfl)
  · rw [hs]
    simp only [List.sum_cons, List.sum_nil, add_zero]
    rw [add_comm (t.rows : Multiset Nat)]; rfl

/-- Straight-line code. -/
macro "hstep" : tactic => `(tactic| first
  | (refine HT.touch (by cov) ?_; skip)
  | refine HT.alloc fun _ => ?_
  | refine HT.seq (HT.optionally ?_) ?_
  | refine HT.optionally ?_
  | refine HT.ask fun _ => ?_
  | hfree
  | exact HT.ret rfl
  | hfreeLast
  | (refine HT.touchLast ?_; cov)
  | refine HT.seq (HT.loop fun _ _ => ?_) ?_
  | refine HT.loop fun _ _ => ?_)

theorem overlap_ht (A B : Shell) (m : Nat) : HT (A.ptrs ++ B.ptrs ++ [m]) [] (overlap A B m) (fun _ => []) := by
  unfold overlap
  repeat' hstep

theorem momentum_ht (A B : Shell) (mx my mz : Nat) :
    HT (A.ptrs ++ B.ptrs ++ [mx, my, mz]) [] (momentum A B mx my mz) (fun _ => []) := by
  unfold momentum
  repeat' hstep

/-- Deletion of an object. -/
macro "hdrop" h:term : tactic => `(tactic| (apply HT.drop $h; · pick))

theorem entry_ht {P : List Nat} {K : List (Multiset Nat)} {l : List α} {i : Nat} {f : α → Act Unit} (hi : i < l.length)
    (h : ∀ x ∈ l, HT P K (f x) (fun _ => K)) : HT P K (entry l i f) (fun _ => K) := by
  unfold entry
  rw [List.getElem?_eq_getElem hi]
  exact h _ (List.getElem_mem hi)

/-- The result of `differentiate_shell` in memory. -/
def diffBlocks (d : Option Shell × Shell) : List (Multiset Nat) :=
  match d with
  | (some s, t) => [s.blocks, t.blocks]
  | (none, t) => [t.blocks]

theorem differentiate_ht (s : Shell) : HT s.ptrs [] (differentiate s) diffBlocks := by
  unfold differentiate
  refine HT.touch (by cov) ?_
  split
  · refine HT.mk (newShell_ht _ _) (by cov) fun d => HT.touch (by cov) ?_
    refine HT.mk (newShell_ht _ _) (by cov) fun u => HT.touch (by cov) (HT.ret ?_)
    simp only [diffBlocks, List.sum_cons, List.sum_nil, add_zero]
    rw [add_comm]
  · refine HT.mk (newShell_ht _ _) (by cov) fun u => HT.touch (by cov) (HT.ret rfl)

theorem differentiate_post (s : Shell) : Post (differentiate s) (fun d => d.1.isSome = decide (s.L > 0)) := by
  unfold differentiate
  refine Post.skip fun _ => ?_
  split
  next h =>
    refine Post.skip fun _ => Post.skip fun _ => Post.skip fun _ => Post.skip fun _ => Post.ret ?_
    simp [h]
  next h =>
    refine Post.skip fun _ => Post.skip fun _ => Post.ret ?_
    simp [h]

theorem nlmToLinear_ht : HT [] [] nlmToLinear (fun _ => []) := by
  unfold nlmToLinear
  refine HT.mk generateCartesians_ht (by cov) fun c => ?_
  repeat' hstep

theorem overlapDiff_ht (A B : Shell) :
    HT (A.ptrs ++ B.ptrs) [] (overlapDiff A B) (fun r => [((r.1.toList : List Nat) : Multiset Nat), {r.2}]) := by
  unfold overlapDiff
  refine HT.call (differentiate_ht A) (by cov) fun d => ?_
  rcases d with ⟨_ | down, up⟩
  · change HT _ [up.blocks] _ _
    refine HT.touch (by cov) (HT.alloc fun mup => HT.run (overlap_ht up B mup) (by cov) ?_)
    hdrop (deleteShell_ht up)
    exact HT.ret (by simp)
  · change HT _ [down.blocks, up.blocks] _ _
    refine HT.touch (by cov) (HT.alloc fun md => HT.run (overlap_ht down B md) (by cov) ?_)
    refine HT.alloc fun mup => HT.run (overlap_ht up B mup) (by cov) ?_
    hdrop (deleteShell_ht down)
    hdrop (deleteShell_ht up)
    refine HT.ret ?_
    simp only [Option.toList_some, List.sum_cons, List.sum_nil, add_zero]
    rw [add_comm]; rfl

theorem overlapContribution_ht (A B : Shell) (g : List Nat) :
    HT (A.ptrs ++ B.ptrs ++ g) [] (overlapContribution A B g) (fun _ => []) := by
  unfold overlapContribution
  refine HT.mk2 (overlapDiff_ht A B) (by cov) fun r => ?_
  obtain ⟨d, u⟩ := r
  refine HT.seq (HT.loop fun _ _ => HT.ask fun _ => HT.loop fun _ _ => HT.ask fun _ => HT.loop fun _ _ => ?_) ?_
  · refine HT.touch (by cov) (HT.seq ?_ ?_)
    · split
      · refine HT.run nlmToLinear_ht (by cov) (HT.run nlmToLinear_ht (by cov) (HT.touchLast ?_))
        refine Cov.append (Cov.own) (by cov)
      · exact HT.ret rfl
    · refine HT.run nlmToLinear_ht (by cov) (HT.run nlmToLinear_ht (by cov) (HT.touchLast ?_))
      cov
  · cases d with
    | none =>
      unfold freeOpt
      refine HT.seq (HT.ret rfl) ?_
      refine HT.mono (HT.freeLast (Pick.there _ (Pick.here _))) (fun _ => rfl)
    | some d =>
      unfold freeOpt
      refine HT.free (Pick.here _) ?_
      exact HT.mono (HT.freeLast (Pick.here _)) (fun _ => rfl)

theorem overlapGradient_ht (A B : Shell) (g : List Nat) :
    HT (A.ptrs ++ B.ptrs ++ g) [] (overlapGradient A B g) (fun _ => []) := by
  unfold overlapGradient
  refine HT.touch (by cov) (HT.ask fun c => ?_)
  split
  · exact HT.ret rfl
  · exact HT.seq (HT.optionally (overlapContribution_ht A B g)) (HT.optionally (overlapContribution_ht A B g))

theorem mmd_ht (A B : Shell) (m : Nat) : HT (A.ptrs ++ B.ptrs ++ [m]) [] (mmd A B m) (fun _ => []) := by
  unfold mmd
  repeat' hstep

theorem type1_ht (A B : Shell) (pot : Option Pot) (m : Nat) :
    HT (A.ptrs ++ B.ptrs ++ [m] ++ pot.toList.flatMap Pot.ptrs) [] (type1 A B pot m) (fun _ => []) := by
  unfold type1
  refine HT.touch (by cov) ?_
  cases pot with
  | none => exact HT.ret rfl
  | some p =>
    rw [Option.toList_some, List.flatMap_cons, List.flatMap_nil, List.append_nil]
    refine HT.alloc fun buf => HT.touch (by cov) (HT.ask fun n => HT.seq (HT.loop fun _ _ => ?_) ?_)
    · refine HT.touch (by cov) (HT.seq (HT.last (mmd_ht A B buf) (by cov)) (HT.touchLast (by cov)))
    · hfreeLast

theorem createGrid1_ht (l n : Nat) : HT [] [] (createGrid1 l n) (fun g => [g.blocks]) := by
  unfold createGrid1
  repeat' hstep
  refine HT.mk (allocTable_ht _) (by cov) fun rN => HT.mk (allocTable_ht _) (by cov) fun be => ?_
  refine HT.touch (by cov) (HT.ret ?_)
  left

theorem createGrid1_post (l n : Nat) : Post (createGrid1 l n) (fun g => g.rN.rows.length = g.nmax + 1 ∧
    g.bessel.rows.length = g.lmax + 1) := by
  unfold createGrid1
  refine Post.skip fun _ => Post.skip fun _ => Post.skip fun _ => Post.skip fun _ => Post.skip fun _ => Post.skip fun _ => ?_
  exact Post.bind (allocTable_post _) fun t ht => Post.bind (allocTable_post _) fun u hu => Post.skip fun _ =>
    Post.ret ⟨ht, hu⟩

theorem deleteGrid1_ht (g : Grid1) (h : g.rN.rows.length = g.nmax + 1 ∧ g.bessel.rows.length = g.lmax + 1) :
    HT [] [g.blocks] (deleteGrid1 g) (fun _ => []) := by
  unfold deleteGrid1
  intro e st F hs hF
  refine HT.touch (K := [{g.self}, {g.r}, {g.w}, {g.pot}, {g.gto}, g.rN.blocks, g.bessel.blocks]) (P := []) (by cov) ?_
    e st F ?_ hF
  · hfree; hfree; hfree; hfree
    hdrop (freeTable_ht _ _ h.1)
    hdrop (freeTable_ht _ _ h.2)
    hfreeLast
  · rw [hs]; left

theorem tabulate1_ht (l n : Nat) : HT [] [] (tabulate1 l n) (fun t => [{t.1}, {t.2}]) := by
  unfold tabulate1
  refine HT.alloc fun t => HT.touch (by cov) (HT.alloc fun v => ?_)
  refine HT.mkP (createGrid1_ht l n) (createGrid1_post l n) (by cov) fun g hg => ?_
  refine HT.seq (HT.loop fun _ _ => HT.loop fun _ _ => HT.touchLast (by cov)) ?_
  hdrop (deleteGrid1_ht g hg)
  refine HT.ret ?_
  left

theorem radiallyLocal_ht (A B : Shell) (m : Nat) :
    HT (A.ptrs ++ B.ptrs ++ [m]) [] (radiallyLocal A B m) (fun _ => []) := by
  unfold radiallyLocal
  refine HT.touch (by cov) (HT.mk2 (tabulate1_ht _ _) (by cov) fun t => ?_)
  repeat' hstep

theorem nuclearAttraction_ht (A B : Shell) (point : Bool) (m : Nat) :
    HT (A.ptrs ++ B.ptrs ++ [m]) [] (nuclearAttraction A B point m) (fun _ => []) := by
  unfold nuclearAttraction
  refine HT.touch (by cov) (HT.alloc fun buf => HT.touch (by cov) (HT.ask fun n => HT.seq (HT.loop fun _ _ => ?_) ?_))
  · refine HT.touch (by cov) (HT.ask fun n => HT.loop fun _ _ => HT.optionally (HT.seq ?_ (HT.touchLast (by cov))))
    split
    · exact HT.touchLast (by cov)
    · exact HT.last (radiallyLocal_ht A B buf) (by cov)
  · hfreeLast

theorem createGrid2_ht (l1 l2 n : Nat) (pot : Pot) (bra ket : Shell) :
    HT (bra.ptrs ++ ket.ptrs ++ pot.ptrs) [] (createGrid2 l1 l2 n pot bra ket) (fun g => [g.blocks]) := by
  unfold createGrid2
  refine HT.alloc fun self => HT.touch (by cov) (HT.alloc fun r => HT.alloc fun w => HT.alloc fun v => ?_)
  refine HT.mk (allocTable_ht _) (by cov) fun F1 => HT.mk (allocTable_ht _) (by cov) fun F2 =>
    HT.mk (allocTable_ht _) (by cov) fun rN => ?_
  refine HT.touch (by cov) (HT.alloc fun bk => HT.alloc fun kk => HT.touch (by cov) ?_)
  hfree; hfree
  refine HT.ret ?_
  left

theorem createGrid2_post (l1 l2 n : Nat) (pot : Pot) (bra ket : Shell) :
    Post (createGrid2 l1 l2 n pot bra ket) (fun g => g.F1.rows.length = g.l1max + 1 ∧ g.F2.rows.length = g.l2max + 1 ∧
      g.rN.rows.length = g.nmax + 1) := by
  unfold createGrid2
  refine Post.skip fun _ => Post.skip fun _ => Post.skip fun _ => Post.skip fun _ => Post.skip fun _ => ?_
  refine Post.bind (allocTable_post _) fun t ht => Post.bind (allocTable_post _) fun u hu =>
    Post.bind (allocTable_post _) fun v hv => ?_
  exact Post.skip fun _ => Post.skip fun _ => Post.skip fun _ => Post.skip fun _ => Post.skip fun _ => Post.skip fun _ =>
    Post.ret ⟨ht, hu, hv⟩

theorem deleteGrid2_ht (g : Grid2) (h : g.F1.rows.length = g.l1max + 1 ∧ g.F2.rows.length = g.l2max + 1 ∧
      g.rN.rows.length = g.nmax + 1) : HT [] [g.blocks] (deleteGrid2 g) (fun _ => []) := by
  unfold deleteGrid2
  intro e st F hs hF
  refine HT.touch (K := [{g.self}, {g.r}, {g.w}, {g.pot}, g.F1.blocks, g.F2.blocks, g.rN.blocks]) (P := []) (by cov) ?_
    e st F ?_ hF
  · hfree; hfree; hfree
    hdrop (freeTable_ht _ _ h.1)
    hdrop (freeTable_ht _ _ h.2.1)
    hdrop (freeTable_ht _ _ h.2.2)
    hfreeLast
  · rw [hs]; left

theorem expandGrid2_ht (g : Grid2) (pot : Pot) (bra ket : Shell) :
    HT (g.ptrs ++ bra.ptrs ++ ket.ptrs ++ pot.ptrs) [] (expandGrid2 g pot bra ket) (fun _ => []) := by
  unfold expandGrid2
  refine HT.ask fun c => ?_
  split
  · exact HT.ret rfl
  refine HT.touch ?_ (HT.ask fun c => ?_)
  · refine Cov.sub Cov.callers ?_
    intro x hx
    simp only [List.mem_cons, List.not_mem_nil, or_false] at hx
    simp [hx, Grid2.ptrs]
  split
  · exact HT.ret rfl
  repeat' hstep

theorem radial2_ht (g : Grid2) (pot : Pot) (bra ket : Shell) :
    HT (g.ptrs ++ bra.ptrs ++ ket.ptrs ++ pot.ptrs) [] (radial2 g pot bra ket) (fun _ => []) := by
  unfold radial2
  refine HT.touch (by cov) (HT.ask fun c => ?_)
  split
  · exact HT.ret rfl
  refine HT.ask fun n => HT.loop fun _ _ => HT.seq (expandGrid2_ht g pot bra ket) (HT.touchLast (by cov))

theorem tabulate2_ht (l1 l2 n : Nat) (pot : Pot) (bra ket : Shell) :
    HT (pot.ptrs ++ bra.ptrs ++ ket.ptrs) [] (tabulate2 l1 l2 n pot bra ket) (fun t => [{t.1}, {t.2}]) := by
  unfold tabulate2
  refine HT.alloc fun t => HT.touch (by cov) (HT.alloc fun v => HT.ask fun c => ?_)
  split
  · refine HT.touch (by cov) (HT.ret ?_)
    left
  refine HT.mk (shrinkPot_ht pot) (by cov) fun pot' => HT.mk (deepCopy_ht bra) (by cov) fun bra' => ?_
  refine HT.touch (by cov) (HT.mk (deepCopy_ht ket) (by cov) fun ket' => HT.touch (by cov) ?_)
  refine HT.mkP (createGrid2_ht l1 l2 n pot' bra' ket') (createGrid2_post _ _ _ _ _ _) (by cov) fun g hg => ?_
  refine HT.seq (HT.loop fun _ _ => HT.loop fun _ _ => HT.loop fun _ _ => ?_) ?_
  · exact HT.seq (HT.last (radial2_ht g pot' bra' ket') (by cov)) (HT.touchLast (by cov))
  hdrop (deletePot_ht pot')
  hdrop (deleteShell_ht bra')
  hdrop (deleteShell_ht ket')
  hdrop (deleteGrid2_ht g hg)
  refine HT.ret ?_
  left

theorem type2_ht (A B : Shell) (pot : Pot) (m : Nat) :
    HT (A.ptrs ++ B.ptrs ++ [m] ++ pot.ptrs) [] (type2 A B pot m) (fun _ => []) := by
  unfold type2
  refine HT.touch (by cov) (HT.ask fun L => HT.mk2 (tabulate2_ht _ _ _ _ _ _) (by cov) fun t => ?_)
  repeat' hstep

theorem lMatrices_ht (lx ly lz : Nat) : HT [lx, ly, lz] [] (lMatrices lx ly lz) (fun _ => []) := by
  unfold lMatrices
  repeat' hstep

theorem spinOrbit_ht (A B : Shell) (pot : Pot) (mx my mz : Nat) :
    HT (A.ptrs ++ B.ptrs ++ [mx, my, mz] ++ pot.ptrs) [] (spinOrbit A B pot mx my mz) (fun _ => []) := by
  unfold spinOrbit
  refine HT.touch (by cov) (HT.ask fun L => HT.alloc fun lx => HT.alloc fun ly => HT.alloc fun lz => ?_)
  refine HT.run (lMatrices_ht lx ly lz) (by cov) (HT.mk2 (tabulate2_ht _ _ _ _ _ _) (by cov) fun t => ?_)
  repeat' hstep

end Libgrpp.Heap
