import Verif.Lemmas.Concurrent
import Verif.Props.OneElectron

/-! # C59, C52: threads -/

namespace Libgrpp

open Prog

variable {ι G : Type} [DecidableEq ι]

/-- **C59.** Any number of threads; each makes calls of integral routines, one after the other, on objects which it may share with the others. The output
matrices of a thread are not among the objects or output matrices of another thread. By itself, thread `i` would take memory from `m0` to `fin i`
(`CallsGive`, which refers to the models of the routines as functions of values). Then for every schedule, at every point of the execution: there is no
data race; a thread has either finished successfully, and its output matrices are those it would have produced by itself, or it can go on, with an
access to allocated memory; it has not failed. Nothing else in memory has changed. The number of accesses `steps i` of each thread does not depend on
the schedule. -/
theorem schedule_independence (m0 : Memory) (calls : ι → List (Call G)) (fin : ι → Memory) (alone : ∀ i, CallsGive (calls i) m0 (fin i))
    (sep : ∀ i j, i ≠ j → ∀ o ∈ callOuts (calls i), o ∉ callIns (calls j) ∧ o ∉ callOuts (calls j)) :
    ∃ steps : ι → ℕ, ∀ l s, Pool.Exec l ⟨m0, fun i => callsProg (calls i)⟩ s →
      (∀ x, ¬ s.Race x) ∧
      (∀ i, (s.thread i = .ret (.ok ()) ∧ l.count i = steps i ∧ ∀ x : Loc, x.1 ∈ callOuts (calls i) → s.mem x = fin i x) ∨
        (l.count i < steps i ∧ ∃ x w, (s.thread i).next = some (x, w) ∧ s.mem x ≠ none ∧ ∃ t, Pool.Step i s t)) ∧
      ∀ x : Loc, (∀ i, x.1 ∉ callOuts (calls i)) → s.mem x = m0 x := by
  choose steps hsteps using fun i => goes_calls (alone i)
  have hd : ∀ i j, i ≠ j → ∀ x ∈ cells (callOuts (calls i)), x ∉ cells (callIns (calls j) ∪ callOuts (calls j)) ∧ x ∉ cells (callOuts (calls j)) :=
    fun i j hij x hx => ⟨fun h => h.elim (sep i j hij _ hx).1 (sep i j hij _ hx).2, (sep i j hij _ hx).2⟩
  refine ⟨steps, fun l s hs => ?_⟩
  have inv := poolInv_exec hd hsteps hs
  have nextW : ∀ i x, (s.thread i).next = some (x, true) → x ∈ cells (callOuts (calls i)) := by
    intro i x hx
    obtain ⟨m, h1, _⟩ := inv.own i
    generalize s.thread i = p at h1 hx
    generalize steps i - l.count i = n at h1
    cases h1 with
    | ret => simp [Prog.next] at hx
    | load => simp [Prog.next] at hx
    | store h => simp only [Prog.next, Option.some.injEq, Prod.mk.injEq] at hx; exact hx.1 ▸ h
  have nextR : ∀ i x w, (s.thread i).next = some (x, w) → x ∈ cells (callIns (calls i) ∪ callOuts (calls i)) := by
    intro i x w hx
    obtain ⟨m, h1, _⟩ := inv.own i
    generalize s.thread i = p at h1 hx
    generalize steps i - l.count i = n at h1
    cases h1 with
    | ret => simp [Prog.next] at hx
    | load h => simp only [Prog.next, Option.some.injEq, Prod.mk.injEq] at hx; exact hx.1 ▸ h
    | store h => simp only [Prog.next, Option.some.injEq, Prod.mk.injEq] at hx; exact Or.inr (hx.1 ▸ h)
  refine ⟨?_, fun i => ?_, fun x hx => inv.rest x hx⟩
  · rintro x ⟨i, j, hij, h1, w, h2⟩
    exact (hd i j hij x (nextW i x h1)).1 (nextR j x w h2)
  · obtain ⟨m, h1, h2, h3⟩ := inv.own i
    generalize hp : s.thread i = p at h1
    generalize hn : steps i - l.count i = n at h1
    generalize ho : (Outcome.ok () : Outcome Unit) = o at h1
    generalize hf : fin i = f at h1
    cases h1 with
    | ret =>
      left
      exact ⟨by rw [← ho], by omega, fun x hx => h2 x (Or.inr hx)⟩
    | @load n x k _ _ c _ hx hm _ =>
      right
      have e := (h2 x (Or.inl hx)).trans hm
      exact ⟨by omega, x, false, rfl, by rw [e]; simp, _, .load s x k c hp e⟩
    | @store n x c d p _ _ _ hx hm _ =>
      right
      have e := (h2 x (Or.inr hx)).trans hm
      exact ⟨by omega, x, true, rfl, by rw [e]; simp, _, .store s x c d p hp e⟩

/-- **C59.** The final state of memory is the same for all schedules. -/
theorem schedule_final_memory (m0 : Memory) (calls : ι → List (Call G)) (fin : ι → Memory) (alone : ∀ i, CallsGive (calls i) m0 (fin i))
    (sep : ∀ i j, i ≠ j → ∀ o ∈ callOuts (calls i), o ∉ callIns (calls j) ∧ o ∉ callOuts (calls j)) (l l' : List ι) (s s' : Pool ι)
    (hs : Pool.Exec l ⟨m0, fun i => callsProg (calls i)⟩ s) (hs' : Pool.Exec l' ⟨m0, fun i => callsProg (calls i)⟩ s')
    (h : ∀ i, ∃ r, s.thread i = .ret r) (h' : ∀ i, ∃ r, s'.thread i = .ret r) : s.mem = s'.mem ∧ s.thread = s'.thread := by
  obtain ⟨steps, key⟩ := schedule_independence m0 calls fin alone sep
  obtain ⟨-, k1, k2⟩ := key l s hs
  obtain ⟨-, k1', k2'⟩ := key l' s' hs'
  have done : ∀ i, s.thread i = .ret (.ok ()) ∧ ∀ x : Loc, x.1 ∈ callOuts (calls i) → s.mem x = fin i x := fun i =>
    (k1 i).elim (fun e => ⟨e.1, e.2.2⟩) fun ⟨_, x, w, e, _⟩ => by
      obtain ⟨r, hr⟩ := h i
      rw [hr] at e
      cases e
  have done' : ∀ i, s'.thread i = .ret (.ok ()) ∧ ∀ x : Loc, x.1 ∈ callOuts (calls i) → s'.mem x = fin i x := fun i =>
    (k1' i).elim (fun e => ⟨e.1, e.2.2⟩) fun ⟨_, x, w, e, _⟩ => by
      obtain ⟨r, hr⟩ := h' i
      rw [hr] at e
      cases e
  refine ⟨funext fun x => ?_, funext fun i => (done i).1.trans (done' i).1.symm⟩
  by_cases hx : ∃ i, x.1 ∈ callOuts (calls i)
  · obtain ⟨i, hi⟩ := hx
    rw [(done i).2 x hi, (done' i).2 x hi]
  · push Not at hx
    rw [k2 x hx, k2' x hx]

/-- **C59**, for overlap integrals: threads with shells in shared memory and their own output matrices. When thread `i` has finished, whatever the
others have done meanwhile, its matrix is the one returned by the routine for its two shells. -/
theorem schedule_overlap (m0 : Memory) (a b : ι → ShellBlocks) (o : ι → Nat) (A B : ι → Shell) (l l' : ι → List ℝ)
    (ha : ∀ i, ShellAt m0 (a i) (A i)) (hb : ∀ i, ShellAt m0 (b i) (B i)) (ho : ∀ i, ArrayAt m0 (o i) (l i)) (oinj : ∀ i j, i ≠ j → o i ≠ o j)
    (oin : ∀ i j, o i ∉ (a j).set ∧ o i ∉ (b j).set) (hv : ∀ i, overlapIntegrals (A i) (B i) (l i) = .ok (l' i)) (sched : List ι) (s : Pool ι)
    (hs : Pool.Exec sched ⟨m0, fun i => Prog.overlap (a i).obj (b i).obj (o i) >>= fun _ => .ret (.ok ())⟩ s) (i : ι) (r : Outcome Unit)
    (hr : s.thread i = .ret r) : r = .ok () ∧ ArrayAt s.mem (o i) (l' i) := by
  have alone : ∀ i, CallsGive (G := Unit) [.overlap (a i) (b i) (o i)] m0 (m0.put (o i) (l' i)) := fun i =>
    .cons _ _ _ _ _ (.overlap (ha i) (hb i) (ho i) (oin i i).1 (oin i i).2 (hv i)) (.nil _)
  have outs : ∀ i, callOuts (G := Unit) [.overlap (a i) (b i) (o i)] = {o i} := fun i => by
    ext x; simp [callOuts, Call.outs]
  have ins : ∀ i, callIns (G := Unit) [.overlap (a i) (b i) (o i)] = (a i).set ∪ (b i).set := fun i => by
    ext x; simp [callIns, Call.ins]
  obtain ⟨steps, key⟩ := schedule_independence m0 _ _ alone (fun i j hij x hx => by
    rw [outs] at hx
    cases hx
    rw [outs, ins]
    exact ⟨fun h => h.elim (oin i j).1 (oin i j).2, fun h => oinj i j hij h⟩)
  obtain ⟨-, k, -⟩ := key sched s hs
  rcases k i with ⟨e, _, h⟩ | ⟨_, x, w, e, _⟩
  · rw [hr] at e
    cases e
    refine ⟨rfl, fun j => ?_⟩
    rw [h (o i, j) (by rw [outs]; rfl)]
    simp [Memory.put]
  · rw [hr] at e
    cases e

/-- **C52.** Two calls of the outer-core integrals (and so of the full integrals) on the same GRPP with at least one outer-core shell race on the centre
of this shell, for all shells `A`, `B`, centres and output matrices, whatever the calls do after moving the shells to their centre: a data race is
reachable, i.e. undefined behaviour. -/
theorem outer_core_race (m0 : Memory) (a b c : Bool → Nat) (shells num s : Nat) (o : Bool → Fin 4 → Nat) (sa sb : Bool → Nat) (x : Bool → ℝ)
    (rest : Bool → Prog Unit) (hnum : 0 < num) (ha : ∀ i, m0 (a i, 1) = some (.int (sa i))) (hb : ∀ i, m0 (b i, 1) = some (.int (sb i)))
    (hc : ∀ i, m0 (c i, 0) = some (.num (x i))) (hs : m0 (shells, 0) = some (.ptr s))
    (hout : ∀ i k, ∀ j < sa i * sb i, m0 (o i k, j) ≠ none) (hne : ∀ i j k, o i k ≠ a j ∧ o i k ≠ b j ∧ o i k ≠ c j ∧ o i k ≠ shells)
    : ∃ l st, Pool.Exec l ⟨m0, fun i => bindOuterCore true (a i) (b i) (c i) shells num (o i) (rest i)⟩ st ∧ st.Race (s, 6) := by
  obtain ⟨n, rfl⟩ : ∃ n, num = n + 1 := ⟨num - 1, by omega⟩
  obtain ⟨K, hK⟩ := bindOuterCore_prefix (a true) (b true) (c true) shells n (o true) (rest true)
  obtain ⟨K', hK'⟩ := bindOuterCore_prefix (a false) (b false) (c false) shells n (o false) (rest false)
  obtain ⟨m1, k, h1⟩ := goes_prefix (ha true) (hb true) (hc true) hs (hout true) fun k => ⟨(hne true true k).2.2.2, (hne true true k).2.2.1⟩
  have fr : ∀ y : Loc, (∀ k, o true k ≠ y.1) → m1 y = m0 y := fun y hy => h1.frame y (by rintro ⟨k, hk⟩; exact hy k hk)
  obtain ⟨m2, k', h2⟩ := goes_prefix (m := m1) (o := o false) ((fr _ fun k => (hne true false k).1).trans (ha false))
    ((fr _ fun k => (hne true false k).2.1).trans (hb false)) ((fr _ fun k => (hne true false k).2.2.1).trans (hc false))
    ((fr _ fun k => (hne true false k).2.2.2).trans hs) (fun k j hj => h1.alloc (hout false k j hj))
    fun k => ⟨(hne false true k).2.2.2, (hne false false k).2.2.1⟩
  let t : Bool → Prog Unit := fun i => bindOuterCore true (a i) (b i) (c i) shells (n + 1) (o i) (rest i)
  obtain ⟨l1, e1⟩ := h1.exec true (fun sx => Prog.store (sx.1, 6) (.num sx.2) (K sx)) t
  rw [← hK, show Function.update t true _ = t from Function.update_eq_self true t] at e1
  obtain ⟨l2, e2⟩ := h2.exec false (fun sx => Prog.store (sx.1, 6) (.num sx.2) (K' sx)) (Function.update t true (Prog.store (s, 6) (.num (x true)) (K (s, x true))))
  rw [← hK', show Function.update (Function.update t true (Prog.store (s, 6) (.num (x true)) (K (s, x true)))) false _ =
    Function.update t true (Prog.store (s, 6) (.num (x true)) (K (s, x true))) from by
      conv_rhs => rw [← Function.update_eq_self false (Function.update t true (Prog.store (s, 6) (.num (x true)) (K (s, x true))))]
      rfl] at e2
  exact ⟨_, _, e1.trans e2, true, false, by simp, by simp [Prog.next], true, by simp [Prog.next]⟩

/-! ## Examples -/

/-- Memory with the shell `A` in the blocks `s`. -/
noncomputable def Memory.withShell (m : Memory) (s : ShellBlocks) (A : Shell) : Memory := fun x =>
  if x.1 = s.obj then
    ([Cell.int A.L, .int A.cart_size, .ptr s.list, .int A.num, .ptr s.coeffs, .ptr s.alpha, .num (A.origin 0), .num (A.origin 1), .num (A.origin 2)])[x.2]?
  else if x.1 = s.list then (A.cartList.flatMap fun c => [Cell.int c.1, .int c.2.1, .int c.2.2])[x.2]?
  else if x.1 = s.coeffs then (A.coeffs.map Cell.num)[x.2]?
  else if x.1 = s.alpha then (A.alpha.map Cell.num)[x.2]?
  else m x

theorem withShell_at (m : Memory) {s : ShellBlocks} {A : Shell} (hd : [s.obj, s.list, s.coeffs, s.alpha].Nodup)
    (hs : A.cartList.length = A.cart_size ∧ A.coeffs.length = A.num ∧ A.alpha.length = A.num) : ShellAt (m.withShell s A) s A := by
  simp only [List.nodup_cons, List.mem_cons, List.not_mem_nil, or_false, not_or] at hd
  obtain ⟨⟨d1, d2, d3⟩, ⟨d4, d5⟩, d6, -⟩ := hd
  have flat : ∀ (l : List Comp) (i : ℕ) (hi : i < l.length), ∀ k < 3, (l.flatMap fun c => [Cell.int c.1, .int c.2.1, .int c.2.2])[3 * i + k]? =
      [Cell.int l[i].1, .int l[i].2.1, .int l[i].2.2][k]? := by
    intro l
    induction l with
    | nil => intro i hi; simp at hi
    | cons c l ih =>
      intro i hi k hk
      cases i with
      | zero =>
        rw [List.flatMap_cons, List.getElem?_append_left (by simp; omega)]
        simp
      | succ i =>
        rw [List.flatMap_cons, List.getElem?_append_right (by simp; omega)]
        simp only [List.length_cons, List.length_nil, List.getElem_cons_succ]
        rw [← ih i (by simpa using hi) k hk]
        congr 1
        omega
  constructor
  case origin => intro k; fin_cases k <;> simp [Memory.withShell]
  case sizes => exact hs
  case comps =>
    intro i hi
    have e := flat A.cartList i hi
    simp only [Memory.withShell, if_neg (Ne.symm d1), if_true]
    exact ⟨e 0 (by omega), e 1 (by omega), e 2 (by omega)⟩
  case coeff =>
    intro i hi
    simp [Memory.withShell, Ne.symm d2, Ne.symm d4, hi]
  case exps =>
    intro i hi
    simp [Memory.withShell, Ne.symm d3, Ne.symm d5, Ne.symm d6, hi]
  all_goals simp [Memory.withShell]

/-- Infinitely many threads with two calls each on a shared shell; thread `i` has the output matrices at the blocks `4 + 2 i` and `5 + 2 i`. -/
noncomputable def sharedMemory : Memory := Memory.withShell (fun x => if 4 ≤ x.1 ∧ x.2 < 9 then some (.num 1) else none) ⟨0, 1, 2, 3⟩ exampleShell

def sharedCalls (i : ℕ) : List (Call Unit) := [.overlap ⟨0, 1, 2, 3⟩ ⟨0, 1, 2, 3⟩ (4 + 2 * i), .kinetic ⟨0, 1, 2, 3⟩ ⟨0, 1, 2, 3⟩ (5 + 2 * i)]

theorem sharedMemory_shell : ShellAt sharedMemory ⟨0, 1, 2, 3⟩ exampleShell := withShell_at _ (by simp) (by simp [exampleShell])

theorem sharedMemory_out {o : ℕ} (h : 4 ≤ o) : ArrayAt sharedMemory o (List.replicate 9 1) := by
  intro i
  have h0 : o ≠ 0 := by omega
  have h1 : o ≠ 1 := by omega
  have h2 : o ≠ 2 := by omega
  have h3 : o ≠ 3 := by omega
  simp only [sharedMemory, Memory.withShell, h0, h1, h2, h3, if_false, h, true_and, List.getElem?_replicate]
  split <;> simp

theorem exampleShell_run (K : Kind) : ∃ l', K.run exampleShell exampleShell (List.replicate 9 1) = .ok l' := by
  obtain ⟨l', h, -⟩ := one_electron_in_bounds_partial K exampleShell exampleShell exampleShell_ready.1.wf exampleShell_ready.1.wf
    exampleShell_ready.1.listed exampleShell_ready.1.listed exampleShell_ready.1.small exampleShell_ready.1.small (List.replicate 9 1) (by simp [exampleShell])
  exact ⟨l', h⟩

example : ∃ fin : ℕ → Memory, (∀ i, CallsGive (sharedCalls i) sharedMemory (fin i)) ∧
    (∀ i j, i ≠ j → ∀ o ∈ callOuts (sharedCalls i), o ∉ callIns (sharedCalls j) ∧ o ∉ callOuts (sharedCalls j)) := by
  obtain ⟨l1, h1⟩ := exampleShell_run .overlap
  obtain ⟨l2, h2⟩ := exampleShell_run .kinetic
  have ni : ∀ o, 4 ≤ o → o ∉ (⟨0, 1, 2, 3⟩ : ShellBlocks).set := fun o ho => by simp [ShellBlocks.set]; omega
  refine ⟨fun i => (sharedMemory.put (4 + 2 * i) l1).put (5 + 2 * i) l2, fun i => ?_, fun i j hij o ho => ?_⟩
  · have n4 := ni (4 + 2 * i) (by omega)
    have n5 := ni (5 + 2 * i) (by omega)
    refine .cons _ _ _ _ _ (.overlap sharedMemory_shell sharedMemory_shell (sharedMemory_out (by omega)) n4 n4 h1) (.cons _ _ _ _ _
      (.kinetic (sharedMemory_shell.put n4 _) (sharedMemory_shell.put n4 _) (l := List.replicate 9 1) (fun k => ?_) n5 n5 h2) (.nil _))
    rw [Memory.put_ne _ _ (by simp only [ne_eq]; omega)]
    exact sharedMemory_out (by omega) k
  · simp only [sharedCalls, callOuts, callIns, Call.outs, Call.ins, ShellBlocks.set, List.mem_cons, List.not_mem_nil, or_false, exists_eq_or_imp, exists_eq_left,
      Set.mem_setOf_eq, Set.mem_singleton_iff, Set.mem_union, Set.mem_insert_iff] at ho ⊢
    omega

/-- Two threads with the same shells and different centres. -/
example (rest : Bool → Prog Unit) : ∃ m0 : Memory, ∃ l st, Pool.Exec l ⟨m0, fun i => bindOuterCore true 0 0 (bif i then 4 else 5) 6 1
    (fun k => (bif i then 8 else 12) + k) (rest i)⟩ st ∧ st.Race (7, 6) := by
  refine ⟨Memory.withShell (Memory.withShell (fun x => if x.1 = 4 then some (.num 1) else if x.1 = 5 then some (.num 2) else if x.1 = 6 then some (.ptr 7)
    else some (.num 0)) ⟨7, 16, 17, 18⟩ exampleShell) ⟨0, 1, 2, 3⟩ exampleShell, ?_⟩
  refine outer_core_race _ (fun _ => 0) (fun _ => 0) (fun i => bif i then 4 else 5) 6 1 7 (fun i k => (bif i then 8 else 12) + k) (fun _ => 3) (fun _ => 3)
    (fun i => bif i then 1 else 2) rest (by omega) (fun i => ?_) (fun i => ?_) (fun i => ?_) ?_ (fun i k j hj => ?_) fun i j k => ?_
  · simp [Memory.withShell, exampleShell]
  · simp [Memory.withShell, exampleShell]
  · cases i <;> simp [Memory.withShell]
  · simp [Memory.withShell]
  · have : (k : ℕ) < 4 := k.2
    cases i
    · have h1 : (12 + (k : ℕ)) ≠ 16 := by omega
      have h2 : (12 + (k : ℕ)) ≠ 17 := by omega
      have h3 : (12 + (k : ℕ)) ≠ 18 := by omega
      have h4 : (12 + (k : ℕ)) ≠ 7 := by omega
      simp [Memory.withShell, h1, h2, h3, h4]
      split_ifs <;> first | omega | simp
    · have h1 : (8 + (k : ℕ)) ≠ 16 := by omega
      have h2 : (8 + (k : ℕ)) ≠ 17 := by omega
      have h3 : (8 + (k : ℕ)) ≠ 18 := by omega
      have h4 : (8 + (k : ℕ)) ≠ 7 := by omega
      simp [Memory.withShell, h1, h2, h3, h4]
      split_ifs <;> first | omega | simp
  · cases i <;> cases j <;> simp <;> omega

end Libgrpp
