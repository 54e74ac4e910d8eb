import Verif.Model.Fortran
import Verif.Props.GrppTerms

/-! # Temporary objects of the Fortran wrappers -/

namespace Libgrpp

theorem Outcome.bind_assoc {α β γ : Type} (x : Outcome α) (f : α → Outcome β) (g : β → Outcome γ) :
    (x >>= f) >>= g = x >>= fun a => f a >>= g := by
  cases x <;> rfl

/-- `h'` is `h` with the additional live objects `own`; every other block allocated since has been released once. -/
structure Holds (h : Store) (own : List (Addr × Obj)) (h' : Store) : Prop where
  nodup : (own.map Prod.fst).Nodup
  mem : ∀ a, h'.mem a = (own.lookup a).or (h.mem a)
  rng : ∀ a ∈ own.map Prod.fst, h.next ≤ a ∧ a < h'.next
  nxt : h.next ≤ h'.next
  freed : (h'.freed ++ own.map Prod.fst).Perm (List.range' h.next (h'.next - h.next) ++ h.freed)

theorem Holds.refl (h : Store) : Holds h [] h :=
  ⟨by simp, fun a => by simp, by simp, le_rfl, by simp⟩

theorem Holds.restored {h h' : Store} (m : Holds h [] h') : Restored h h' :=
  ⟨funext fun a => by simpa using m.mem a, by simpa using m.freed, m.nxt⟩

theorem lookup_none_of_notMem {own : List (Addr × Obj)} {a : Addr} (h : a ∉ own.map Prod.fst) : own.lookup a = none := by
  rw [List.lookup_eq_none_iff]
  intro p hp
  simp only [List.mem_map, not_exists, not_and] at h
  have := h p hp
  simpa [bne_iff_ne] using fun h => this h.symm

theorem Holds.alloc {h h' : Store} {own : List (Addr × Obj)} (m : Holds h own h') (o : Obj) :
    Holds h ((h'.next, o) :: own) (h'.alloc o).2 := by
  have hnot : h'.next ∉ own.map Prod.fst := fun hm => absurd (m.rng _ hm).2 (lt_irrefl _)
  have hn := m.nxt
  refine ⟨?_, fun a => ?_, fun a ha => ?_, ?_, ?_⟩
  · rw [List.map_cons, List.nodup_cons]
    exact ⟨hnot, m.nodup⟩
  · by_cases ha : a = h'.next
    · subst ha
      simp [Store.alloc, List.lookup]
    · have : (a == h'.next) = false := by simpa using ha
      simp only [Store.alloc, Function.update_of_ne ha, List.lookup, this]
      exact m.mem a
  · rw [List.map_cons, List.mem_cons] at ha
    simp only [Store.alloc]
    rcases ha with rfl | ha
    · exact ⟨hn, Nat.lt_succ_self _⟩
    · exact ⟨(m.rng a ha).1, (m.rng a ha).2.trans (Nat.lt_succ_self _)⟩
  · simp only [Store.alloc]
    omega
  · have e : (h'.alloc o).2.next - h.next = (h'.next - h.next) + 1 := by simp only [Store.alloc]; omega
    rw [e, List.range'_concat, show h.next + 1 * (h'.next - h.next) = h'.next by omega]
    change (h'.freed ++ h'.next :: own.map Prod.fst).Perm _
    refine List.perm_middle.trans ((m.freed.cons _).trans ?_)
    rw [List.append_assoc]
    exact List.perm_middle.symm

theorem lookup_mid {l1 l2 : List (Addr × Obj)} {a : Addr} {o : Obj} (hd : ((l1 ++ (a, o) :: l2).map Prod.fst).Nodup) :
    (l1 ++ (a, o) :: l2).lookup a = some o ∧ (l1 ++ l2).lookup a = none ∧
      ∀ b, b ≠ a → (l1 ++ l2).lookup b = (l1 ++ (a, o) :: l2).lookup b := by
  rw [List.map_append, List.map_cons, List.nodup_append] at hd
  obtain ⟨-, h2, h3⟩ := hd
  rw [List.nodup_cons] at h2
  have n1 : a ∉ l1.map Prod.fst := fun h => h3 _ h _ (List.mem_cons_self ..) rfl
  refine ⟨?_, ?_, fun b hb => ?_⟩
  · rw [List.lookup_append, lookup_none_of_notMem n1]
    simp [List.lookup]
  · rw [List.lookup_append, lookup_none_of_notMem n1, lookup_none_of_notMem h2.1]
    rfl
  · have : (b == a) = false := by simpa using hb
    rw [List.lookup_append, List.lookup_append, List.lookup, this]

theorem Holds.release {h h' : Store} (hw : h.WF) {l1 l2 : List (Addr × Obj)} {a : Addr} {o : Obj} (m : Holds h (l1 ++ (a, o) :: l2) h') :
    ∃ h'', h'.release o.kind (some a) = .ok h'' ∧ Holds h (l1 ++ l2) h'' := by
  obtain ⟨e1, e2, e3⟩ := lookup_mid m.nodup
  have hma : h'.mem a = some o := by rw [m.mem, e1]; rfl
  refine ⟨⟨Function.update h'.mem a none, h'.next, a :: h'.freed⟩, by simp [Store.release, hma], ?_, fun b => ?_, fun b hb => ?_, m.nxt, ?_⟩
  · have := m.nodup
    rw [List.map_append, List.map_cons] at this
    rw [List.map_append]
    exact (List.perm_middle.nodup_iff.1 this).of_cons
  · by_cases hb : b = a
    · subst hb
      have := (m.rng b (by simp)).1
      rw [e2, hw b this]
      simp
    · simp only [Function.update_of_ne hb]
      rw [m.mem, e3 b hb]
  · exact m.rng b (by
      simp only [List.map_append, List.map_cons, List.mem_append, List.mem_cons] at hb ⊢
      tauto)
  · refine List.Perm.trans ?_ m.freed
    simp only [List.map_append, List.map_cons, List.cons_append]
    rw [← List.append_assoc, ← List.append_assoc]
    exact List.perm_middle.symm

theorem Holds.get {h h' : Store} {own : List (Addr × Obj)} (m : Holds h own h') {a : Addr} {o : Obj} (hm : (a, o) ∈ own) : h'.mem a = some o := by
  obtain ⟨l1, l2, rfl⟩ := List.append_of_mem hm
  rw [m.mem, (lookup_mid m.nodup).1]
  rfl

theorem Holds.shell {h h' : Store} {own : List (Addr × Obj)} (m : Holds h own h') {a : Addr} {s : Shell} (hm : (a, .shell s) ∈ own) :
    derefShell h' (some a) = .ok s := by
  simp only [derefShell, m.get hm]

theorem Holds.pot {h h' : Store} {own : List (Addr × Obj)} (m : Holds h own h') {a : Addr} {p : Potential} (hm : (a, .pot p) ∈ own) :
    derefPot h' (some a) = .ok p := by
  simp only [derefPot, m.get hm]

theorem Holds.wf {h h' : Store} {own : List (Addr × Obj)} (m : Holds h own h') (hw : h.WF) : h'.WF := by
  intro a ha
  have hn := m.nxt
  rw [m.mem, lookup_none_of_notMem fun hm => absurd (m.rng a hm).2 (by omega), hw a (by omega)]
  rfl

/-- A call that gives back everything it allocates. -/
theorem Holds.call {h h' h'' : Store} {own : List (Addr × Obj)} (m : Holds h own h') (r : Restored h' h'') : Holds h own h'' := by
  have hn := r.2.2
  have h1 := m.nxt
  refine ⟨m.nodup, fun a => by rw [r.1]; exact m.mem a, fun a ha => ⟨(m.rng a ha).1, (m.rng a ha).2.trans_le hn⟩, h1.trans hn, ?_⟩
  have e : List.range' h.next (h''.next - h.next) = List.range' h.next (h'.next - h.next) ++ List.range' h'.next (h''.next - h'.next) := by
    rw [show h''.next - h.next = (h'.next - h.next) + (h''.next - h'.next) by omega, ← List.range'_append,
      show h.next + 1 * (h'.next - h.next) = h'.next by omega]
  rw [e]
  refine (r.2.1.append_right _).trans ?_
  rw [List.append_assoc]
  refine (m.freed.append_left _).trans ?_
  rw [← List.append_assoc]
  exact (List.perm_append_comm.append_right _)

/-- Storing another shell in the place of one. -/
theorem Holds.replace {h h' : Store} {l1 l2 : List (Addr × Obj)} {a : Addr} {o : Obj} (m : Holds h (l1 ++ (a, o) :: l2) h') (o' : Obj) :
    Holds h (l1 ++ (a, o') :: l2) { h' with mem := Function.update h'.mem a (some o') } := by
  have e : (l1 ++ (a, o') :: l2).map Prod.fst = (l1 ++ (a, o) :: l2).map Prod.fst := by simp
  have hd := m.nodup
  refine ⟨by rw [e]; exact hd, fun b => ?_, fun b hb => m.rng b (by rwa [e] at hb), m.nxt, by rw [e]; exact m.freed⟩
  by_cases hb : b = a
  · subst hb
    rw [(lookup_mid (by rw [e]; exact hd)).1]
    simp
  · rw [← (lookup_mid (by rw [e]; exact hd)).2.2 b hb, (lookup_mid hd).2.2 b hb]
    simp only [Function.update_of_ne hb]
    exact m.mem b

theorem copyPowers_ok (n : Nat) (powers : List Int) (h : n ≤ powers.length) : copyPowers n powers = .ok (powers.take n) := by
  unfold copyPowers
  have := forRange_inv (n := n) (s := List.replicate n (0 : Int)) (body := fun i q => (do
      let v ← rd powers i
      wr q i v)) (fun i (q : List Int) => q.length = n ∧ ∀ j, q[j]? = if j < i then powers[j]? else (List.replicate n (0 : Int))[j]?)
    ⟨by simp, fun j => by simp⟩ (fun i q hi hq => ?_)
  · obtain ⟨q, hq, h1, h2⟩ := this
    rw [hq]
    congr 1
    refine List.ext_getElem? fun j => ?_
    rw [h2 j, List.getElem?_take]
    split
    · rfl
    · rw [List.getElem?_eq_none (by simpa using by omega)]
  · rw [rd_ok (by omega : i < powers.length), Outcome.ok_bind, wr_ok _ (by rw [hq.1]; exact hi)]
    refine ⟨_, rfl, by simpa using hq.1, fun j => ?_⟩
    rw [List.getElem?_set]
    by_cases hj : i = j
    · subst hj
      rw [if_pos rfl, if_pos (by rw [hq.1]; exact hi), if_pos (Nat.lt_succ_self _)]
      exact (List.getElem?_eq_getElem _).symm
    · rw [if_neg hj, hq.2 j]
      by_cases h1 : j < i
      · rw [if_pos h1, if_pos (by omega)]
      · rw [if_neg h1, if_neg (by omega)]

theorem newPotential_take (L J : Int) (num : Nat) (powers : List Int) (coeffs alpha : List ℝ) (h : num ≤ powers.length) :
    newPotential L J num (powers.take num) coeffs alpha = newPotential L J num powers coeffs alpha := by
  unfold newPotential copyTerms
  congr 1
  refine forRange_congr _ _ num (fun i hi s => ?_) _
  have : rd (powers.take num) i = rd powers i := by
    rw [rd_ok (show i < (powers.take num).length by rw [List.length_take]; omega), rd_ok (show i < powers.length by omega)]
    simp
  rw [this]

/-- What a wrapper without a potential does, in a store with other temporary objects. -/
theorem withShells_holds {α : Type} (gen : Nat → List Comp) {h0 h : Store} (hw : h0.WF) {own : List (Addr × Obj)} (m : Holds h0 own h) (a b : FShell)
    (call : Store → Addr → Addr → Outcome (Store × α)) (f : Shell → Shell → Outcome α)
    (hcall : ∀ A B s t h', Holds h0 ((t, .shell B) :: (s, .shell A) :: own) h' → ∃ h'' A' B',
      Holds h0 ((t, .shell B') :: (s, .shell A') :: own) h'' ∧ call h' s t = (do let r ← f A B; .ok (h'', r))) :
    ∃ h'', Holds h0 own h'' ∧ withShells gen h a b call = (do
      let A ← newShell gen a.origin a.L a.num a.coeffs a.alpha
      let B ← newShell gen b.origin b.L b.num b.coeffs b.alpha
      let r ← f A B
      .ok (h'', r)) := by
  unfold withShells putShell
  cases eA : newShell gen a.origin a.L a.num a.coeffs a.alpha with
  | ok A =>
    cases eB : newShell gen b.origin b.L b.num b.coeffs b.alpha with
    | ok B =>
      simp only [Outcome.ok_bind]
      obtain ⟨h1, A', B', m1, e1⟩ := hcall A B _ _ _ ((m.alloc (.shell A)).alloc (.shell B))
      obtain ⟨h2, e2, m2⟩ := Holds.release hw (l1 := [_]) m1
      obtain ⟨h3, e3, m3⟩ := Holds.release hw (l1 := []) m2
      refine ⟨h3, m3, ?_⟩
      change (do let r ← call _ h.next (h.next + 1); _) = _
      rw [show call _ h.next (h.next + 1) = _ from e1]
      cases f A B with
      | ok r =>
        simp only [Outcome.ok_bind]
        have e2' : h1.release .shell (some (h.alloc (.shell A)).1) = .ok h2 := e2
        have e3' : h2.release .shell (some ((h.alloc (.shell A)).2.alloc (.shell B)).1) = .ok h3 := e3
        simp only [e2', e3', Outcome.ok_bind]
      | ub => rfl
      | abort => rfl
      | exit => rfl
    | ub => exact ⟨h, m, rfl⟩
    | abort => exact ⟨h, m, rfl⟩
    | exit => exact ⟨h, m, rfl⟩
  | ub => exact ⟨h, m, rfl⟩
  | abort => exact ⟨h, m, rfl⟩
  | exit => exact ⟨h, m, rfl⟩

/-- What a wrapper with one potential does. -/
theorem withPot_holds {α : Type} (gen : Nat → List Comp) {h0 h : Store} (hw : h0.WF) {own : List (Addr × Obj)} (m : Holds h0 own h) (a b : FShell)
    (L J : Int) (u : FPot) (hu : u.num ≤ u.powers.length) (call : Store → Addr → Addr → Addr → Outcome (Store × α))
    (f : Shell → Shell → Potential → Outcome α)
    (hcall : ∀ A B P s t p own' h', (p, .pot P) ∈ own' → Holds h0 ((t, .shell B) :: (s, .shell A) :: own') h' → ∃ h'',
      Holds h0 ((t, .shell B) :: (s, .shell A) :: own') h'' ∧ call h' s t p = (do let r ← f A B P; .ok (h'', r))) :
    ∃ h'', Holds h0 own h'' ∧ withPot gen h a b L J u call = (do
      let P ← newPotential L J u.num u.powers u.coeffs u.alpha
      let A ← newShell gen a.origin a.L a.num a.coeffs a.alpha
      let B ← newShell gen b.origin b.L b.num b.coeffs b.alpha
      let r ← f A B P
      .ok (h'', r)) := by
  unfold withPot putPot
  simp only [copyPowers_ok _ _ hu, newPotential_take _ _ _ _ _ _ hu, Outcome.ok_bind]
  cases eP : newPotential L J u.num u.powers u.coeffs u.alpha with
  | ok P =>
    simp only [Outcome.ok_bind]
    have m2 := (m.alloc .array).alloc (.pot P)
    obtain ⟨h1, m1, e1⟩ := withShells_holds gen hw m2 a b (fun h' s t => call h' s t (h.next + 1)) (fun A B => f A B P)
      (fun A B s t h' mm => by
        obtain ⟨h'', m3, e3⟩ := hcall A B P s t (h.next + 1) _ h' (List.mem_cons_self ..) mm
        exact ⟨h'', A, B, m3, e3⟩)
    obtain ⟨h2, e2, m2⟩ := Holds.release hw (l1 := []) m1
    obtain ⟨h3, e3, m3⟩ := Holds.release hw (l1 := []) m2
    refine ⟨h3, m3, ?_⟩
    change (do let r ← withShells gen _ a b (fun h' s t => call h' s t (h.next + 1)); _) = _
    rw [show withShells gen _ a b (fun h' s t => call h' s t (h.next + 1)) = _ from e1]
    cases newShell gen a.origin a.L a.num a.coeffs a.alpha with
    | ok A =>
      cases newShell gen b.origin b.L b.num b.coeffs b.alpha with
      | ok B =>
        simp only [Outcome.ok_bind]
        cases f A B P with
        | ok r =>
          simp only [Outcome.ok_bind]
          have e2' : h1.release .pot (some ((h.alloc .array).2.alloc (.pot P)).1) = .ok h2 := e2
          have e3' : h2.release .array (some (h.alloc .array).1) = .ok h3 := e3
          simp only [e2', e3', Outcome.ok_bind]
        | ub => rfl
        | abort => rfl
        | exit => rfl
      | ub => rfl
      | abort => rfl
      | exit => rfl
    | ub => rfl
    | abort => rfl
    | exit => rfl
  | ub => exact ⟨h, m, rfl⟩
  | abort => exact ⟨h, m, rfl⟩
  | exit => exact ⟨h, m, rfl⟩

theorem onShells_holds {α : Type} (f : Shell → Shell → Outcome α) {h0 h' : Store} {own : List (Addr × Obj)} {A B : Shell} {s t : Addr}
    (m : Holds h0 ((t, .shell B) :: (s, .shell A) :: own) h') : onShells f h' s t = (do let r ← f A B; .ok (h', r)) := by
  unfold onShells
  rw [m.shell (a := s) (s := A) (by simp), m.shell (a := t) (s := B) (by simp)]
  rfl

theorem onPot_holds {α : Type} (f : Shell → Shell → Potential → Outcome α) {h0 h' : Store} {own : List (Addr × Obj)} {A B : Shell} {P : Potential}
    {s t p : Addr} (hp : (p, .pot P) ∈ own) (m : Holds h0 ((t, .shell B) :: (s, .shell A) :: own) h') :
    onPot f h' s t p = (do let r ← f A B P; .ok (h', r)) := by
  unfold onPot
  rw [m.shell (a := s) (s := A) (by simp), m.shell (a := t) (s := B) (by simp), m.pot (a := p) (p := P) (by simp [hp])]
  rfl

/-- The overlap routine reads only the first `cart_size` elements of the lists of components. -/
theorem overlap_list (A B : Shell) (l l' : List Comp) (hA : ∀ m, m < A.cart_size → rd l m = rd A.cartList m)
    (hB : ∀ m, m < B.cart_size → rd l' m = rd B.cartList m) (out : List ℝ) :
    overlapIntegrals { A with cartList := l } { B with cartList := l' } out = overlapIntegrals A B out := by
  have h1 : ∀ val buf, storePairs { A with cartList := l } { B with cartList := l' } val buf = storePairs A B val buf := by
    intro val buf
    unfold storePairs
    refine forRange_congr _ _ _ (fun m hm s => forRange_congr _ _ _ (fun n hn s => ?_) _) _
    simp only [hA m hm, hB n hn]
  have h2 : overlapPrim { A with cartList := l } { B with cartList := l' } = overlapPrim A B := by
    funext x y buf
    unfold overlapPrim
    simp only [h1]
  unfold overlapIntegrals
  rw [h2]
  rfl

end Libgrpp
