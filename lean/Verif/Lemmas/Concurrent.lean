import Verif.Model.Concurrent

/-! # Threads with disjoint writes -/

namespace Libgrpp

open Prog

namespace Prog

/-- `p` runs alone in `n` accesses, all valid, from memory `m` to `m'`, with outcome `o`; it reads in `R` and writes in `W`. -/
inductive Runs {α : Type} (R W : Set Loc) : ℕ → Prog α → Memory → Outcome α → Memory → Prop
  | ret (o : Outcome α) (m : Memory) : Runs R W 0 (.ret o) m o m
  | load {n : ℕ} {x : Loc} {k : Cell → Prog α} {m m' : Memory} {c : Cell} {o : Outcome α} : x ∈ R → m x = some c → Runs R W n (k c) m o m' →
      Runs R W (n + 1) (.load x k) m o m'
  | store {n : ℕ} {x : Loc} {c d : Cell} {p : Prog α} {m m' : Memory} {o : Outcome α} : x ∈ W → m x = some d →
      Runs R W n p (Function.update m x (some c)) o m' → Runs R W (n + 1) (.store x c p) m o m'

theorem Runs.frame {α : Type} {R W : Set Loc} {n : ℕ} {p : Prog α} {m m' : Memory} {o : Outcome α} (h : Runs R W n p m o m') :
    ∀ x, x ∉ W → m' x = m x := by
  induction h with
  | ret => intros; rfl
  | load _ _ _ ih => exact ih
  | @store n x c d p m m' o hx hm _ ih =>
    intro y hy
    have hyx : y ≠ x := by rintro rfl; exact hy hx
    rw [ih y hy, Function.update_of_ne hyx]

end Prog

section Pool
variable {ι : Type} [DecidableEq ι]

/-- What is known of every reachable state: `own i` is the memory when thread `i` has made the same number of steps alone. -/
structure PoolInv (R W : ι → Set Loc) (m0 : Memory) (steps : ι → ℕ) (o : ι → Outcome Unit) (fin : ι → Memory) (l : List ι) (s : Pool ι) : Prop where
  own : ∀ i, ∃ m, Runs (R i) (W i) (steps i - l.count i) (s.thread i) m (o i) (fin i) ∧ (∀ x, x ∈ R i ∨ x ∈ W i → s.mem x = m x) ∧ l.count i ≤ steps i
  rest : ∀ x, (∀ i, x ∉ W i) → s.mem x = m0 x

theorem PoolInv.next {R W : ι → Set Loc} {m0 : Memory} {steps : ι → ℕ} {o : ι → Outcome Unit} {fin : ι → Memory}
    (hd : ∀ i j, i ≠ j → ∀ x ∈ W i, x ∉ R j ∧ x ∉ W j) {l : List ι} {s : Pool ι} (h : PoolInv R W m0 steps o fin l s) {i : ι} {t : Pool ι}
    (hs : Pool.Step i s t) : PoolInv R W m0 steps o fin (l ++ [i]) t := by
  obtain ⟨m, hr, ha, hc⟩ := h.own i
  have hci : (l ++ [i]).count i = l.count i + 1 := by simp
  have hcj : ∀ j, j ≠ i → (l ++ [i]).count j = l.count j := fun j hj => by simp [List.count_cons, Ne.symm hj]
  generalize hn : steps i - l.count i = n at hr
  generalize hp : s.thread i = p at hr
  cases hr with
  | ret =>
    cases hs <;> simp_all
  | @load n x k m m' c o' hx hm hr =>
    have hmx : s.mem x = some c := (ha x (Or.inl hx)).trans hm
    cases hs with
    | load x' k' c' e e' =>
      rw [hp] at e
      cases e
      rw [hmx] at e'
      cases e'
      refine ⟨fun j => ?_, h.rest⟩
      by_cases hj : j = i
      · subst hj
        refine ⟨m, ?_, ha, by omega⟩
        rw [hci]
        simp only [Function.update_self]
        convert hr using 1
        omega
      · obtain ⟨mj, h1, h2, h3⟩ := h.own j
        refine ⟨mj, ?_, h2, by rw [hcj j hj]; exact h3⟩
        rw [hcj j hj]
        simpa [Function.update_of_ne hj] using h1
    | store x' c' d p e => rw [hp] at e; cases e
    | badLoad x' k' e e' => rw [hp] at e; cases e; rw [hmx] at e'; cases e'
    | badStore x' c' p e => rw [hp] at e; cases e
  | @store n x c d p m m' o' hx hm hr =>
    have hmx : s.mem x = some d := (ha x (Or.inr hx)).trans hm
    cases hs with
    | store x' c' d' p e =>
      rw [hp] at e
      cases e
      refine ⟨fun j => ?_, fun y hy => ?_⟩
      · by_cases hj : j = i
        · subst hj
          refine ⟨Function.update m x (some c), ?_, ?_, by omega⟩
          · rw [hci]
            simp only [Function.update_self]
            convert hr using 1
            omega
          · intro y hy
            by_cases hyx : y = x
            · subst hyx; simp
            · simp only [Function.update_of_ne hyx]
              exact ha y hy
        · obtain ⟨mj, h1, h2, h3⟩ := h.own j
          refine ⟨mj, ?_, fun y hy => ?_, by rw [hcj j hj]; exact h3⟩
          · rw [hcj j hj]
            simpa [Function.update_of_ne hj] using h1
          · have hyx : y ≠ x := by
              rintro rfl
              obtain ⟨h4, h5⟩ := hd i j (Ne.symm hj) y hx
              exact hy.elim h4 h5
            simp only [Function.update_of_ne hyx]
            exact h2 y hy
      · have hyx : y ≠ x := fun e => hy i (e ▸ hx)
        simp only [Function.update_of_ne hyx]
        exact h.rest y hy
    | load x' k' c' e => rw [hp] at e; cases e
    | badLoad x' k' e => rw [hp] at e; cases e
    | badStore x' c' p e e' => rw [hp] at e; cases e; rw [hmx] at e'; cases e'

theorem poolInv_exec {R W : ι → Set Loc} {m0 : Memory} {P : ι → Prog Unit} {steps : ι → ℕ} {o : ι → Outcome Unit} {fin : ι → Memory}
    (hd : ∀ i j, i ≠ j → ∀ x ∈ W i, x ∉ R j ∧ x ∉ W j) (hP : ∀ i, Runs (R i) (W i) (steps i) (P i) m0 (o i) (fin i)) {l : List ι} {s : Pool ι}
    (h : Pool.Exec l ⟨m0, P⟩ s) : PoolInv R W m0 steps o fin l s := by
  generalize hs0 : (⟨m0, P⟩ : Pool ι) = s0 at h
  induction h with
  | nil => subst hs0; exact ⟨fun i => ⟨m0, by simpa using hP i, fun _ _ => rfl, by simp⟩, fun _ _ => rfl⟩
  | snoc l i s t u _ hstep ih => exact (ih hs0).next hd hstep

end Pool

/-- `Runs` with some number of accesses. -/
def Goes {α : Type} (R W : Set Loc) (p : Prog α) (m : Memory) (o : Outcome α) (m' : Memory) : Prop := ∃ n, Prog.Runs R W n p m o m'

section Goes
variable {α β : Type} {R W : Set Loc} {m m1 m2 : Memory}

theorem Prog.Runs.bind {n k : ℕ} {p : Prog α} {a : α} {f : α → Prog β} {o : Outcome β} (h1 : Runs R W n p m (.ok a) m1)
    (h2 : Runs R W k (f a) m1 o m2) : Runs R W (n + k) (p >>= f) m o m2 := by
  generalize hr : Outcome.ok a = r at h1
  induction h1 with
  | ret => subst hr; rw [Nat.zero_add]; exact h2
  | load hx hm _ ih => rw [Nat.add_right_comm]; exact .load hx hm (ih h2 hr)
  | store hx hm _ ih => rw [Nat.add_right_comm]; exact .store hx hm (ih h2 hr)

theorem Goes.bind {p : Prog α} {a : α} {f : α → Prog β} {o : Outcome β} (h1 : Goes R W p m (.ok a) m1) (h2 : Goes R W (f a) m1 o m2) :
    Goes R W (p >>= f) m o m2 := by
  obtain ⟨n, h1⟩ := h1
  obtain ⟨k, h2⟩ := h2
  exact ⟨_, h1.bind h2⟩

theorem goes_ret (o : Outcome α) (m : Memory) : Goes R W (.ret o) m o m := ⟨0, .ret o m⟩

theorem goes_lift {o : Outcome α} {a : α} (h : o = .ok a) (m : Memory) : Goes R W (lift o) m (.ok a) m := h ▸ ⟨0, .ret _ m⟩

theorem goes_num {x : Loc} {v : ℝ} (hx : x ∈ R) (h : m x = some (.num v)) : Goes R W (getNum x) m (.ok v) m := ⟨_, .load hx h (.ret _ m)⟩
theorem goes_int {x : Loc} {v : Int} (hx : x ∈ R) (h : m x = some (.int v)) : Goes R W (getInt x) m (.ok v) m := ⟨_, .load hx h (.ret _ m)⟩
theorem goes_ptr {x : Loc} {v : Nat} (hx : x ∈ R) (h : m x = some (.ptr v)) : Goes R W (getPtr x) m (.ok v) m := ⟨_, .load hx h (.ret _ m)⟩

theorem goes_set {x : Loc} {v : ℝ} {d : Cell} (hx : x ∈ W) (h : m x = some d) :
    Goes R W (setNum x v) m (.ok ()) (Function.update m x (some (.num v))) := ⟨_, .store hx h (.ret _ _)⟩

/-- A loop over shared memory follows a loop over values: `g` is the private part of the state, `M` the memory. -/
theorem goes_loop {σ τ : Type} (g : τ → σ) (M : τ → Memory) {body : Nat → σ → Prog σ} {f : Nat → τ → Outcome τ} {n : ℕ} {s s' : τ}
    (hb : ∀ i < n, ∀ s s', f i s = .ok s' → Goes R W (body i (g s)) (M s) (.ok (g s')) (M s')) (h : forRange n s f = .ok s') :
    Goes R W (loop n (g s) body) (M s) (.ok (g s')) (M s') := by
  induction n generalizing s' with
  | zero =>
    rw [forRange_zero] at h
    cases h
    exact goes_ret _ _
  | succ n ih =>
    rw [forRange_succ] at h
    obtain ⟨s1, h1, h2⟩ := Outcome.bind_eq_ok.1 h
    exact (ih (fun i hi => hb i (by omega)) h1).bind (hb n (by omega) s1 s' h2)

theorem goes_collect {γ : Type} (l : List γ) (body : Nat → List γ → Prog (List γ))
    (hb : ∀ i (hi : i < l.length) acc, Goes R W (body i acc) m (.ok (acc ++ [l[i]])) m) : Goes R W (loop l.length [] body) m (.ok l) m := by
  have : ∀ n ≤ l.length, Goes R W (loop n [] body) m (.ok (l.take n)) m := by
    intro n hn
    induction n with
    | zero => exact goes_ret _ _
    | succ n ih =>
      rw [List.take_add_one, List.getElem?_eq_getElem (by omega)]
      exact (ih (by omega)).bind (hb n (by omega) _)
  simpa using this l.length le_rfl

theorem goes_nums {b n : ℕ} {l : List ℝ} (hn : n = l.length) (hR : ∀ i < n, (b, i) ∈ R) (h : ∀ i (hi : i < l.length), m (b, i) = some (.num l[i])) :
    Goes R W (getNums b n) m (.ok l) m := by
  subst hn
  exact goes_collect l _ fun i hi acc => (goes_num (hR i hi) (h i hi)).bind (goes_ret _ _)

theorem goes_ints {b n : ℕ} {l : List Int} (hn : n = l.length) (hR : ∀ i < n, (b, i) ∈ R) (h : ∀ i (hi : i < l.length), m (b, i) = some (.int l[i])) :
    Goes R W (getInts b n) m (.ok l) m := by
  subst hn
  exact goes_collect l _ fun i hi acc => (goes_int (hR i hi) (h i hi)).bind (goes_ret _ _)

theorem goes_comps {b n : ℕ} {l : List Comp} (hn : n = l.length) (hR : ∀ i, (b, i) ∈ R) (h : ∀ i (hi : i < l.length),
    m (b, 3 * i) = some (.int l[i].1) ∧ m (b, 3 * i + 1) = some (.int l[i].2.1) ∧ m (b, 3 * i + 2) = some (.int l[i].2.2)) :
    Goes R W (getComps b n) m (.ok l) m := by
  subst hn
  exact goes_collect l _ fun i hi acc => (goes_int (hR _) (h i hi).1).bind ((goes_int (hR _) (h i hi).2.1).bind
    ((goes_int (hR _) (h i hi).2.2).bind (by simpa using goes_ret _ _)))

end Goes

/-! ## Objects in memory -/

theorem ShellAt.congr {m m' : Memory} {s : ShellBlocks} {A : Shell} (h : ShellAt m s A) (e : ∀ x ∈ cells s.set, m' x = m x) : ShellAt m' s A := by
  have e1 : ∀ i, m' (s.obj, i) = m (s.obj, i) := fun i => e _ (by simp [cells, ShellBlocks.set])
  have e2 : ∀ i, m' (s.list, i) = m (s.list, i) := fun i => e _ (by simp [cells, ShellBlocks.set])
  have e3 : ∀ i, m' (s.coeffs, i) = m (s.coeffs, i) := fun i => e _ (by simp [cells, ShellBlocks.set])
  have e4 : ∀ i, m' (s.alpha, i) = m (s.alpha, i) := fun i => e _ (by simp [cells, ShellBlocks.set])
  constructor <;> try simp only [e1, e2, e3, e4]
  exacts [h.L, h.size, h.list, h.num, h.coeffs, h.alpha, h.origin, h.sizes, h.comps, h.coeff, h.exps]

theorem PotAt.congr {m m' : Memory} {p : PotBlocks} {U : Potential} (h : PotAt m p U) (e : ∀ x ∈ cells p.set, m' x = m x) : PotAt m' p U := by
  have e1 : ∀ i, m' (p.obj, i) = m (p.obj, i) := fun i => e _ (by simp [cells, PotBlocks.set])
  have e2 : ∀ i, m' (p.powers, i) = m (p.powers, i) := fun i => e _ (by simp [cells, PotBlocks.set])
  have e3 : ∀ i, m' (p.coeffs, i) = m (p.coeffs, i) := fun i => e _ (by simp [cells, PotBlocks.set])
  have e4 : ∀ i, m' (p.alpha, i) = m (p.alpha, i) := fun i => e _ (by simp [cells, PotBlocks.set])
  constructor <;> try simp only [e1, e2, e3, e4]
  exacts [h.L, h.J, h.num, h.powers, h.coeffs, h.alpha, h.sizes, h.power, h.coeff, h.exps]

theorem goes_point {R W : Set Loc} {m : Memory} {b off : ℕ} {C : Point} (hR : ∀ i, (b, i) ∈ R) (h : ∀ k : Fin 3, m (b, off + k) = some (.num (C k))) :
    Goes R W (getPoint b off) m (.ok C) m := by
  have e : (![C 0, C 1, C 2] : Point) = C := by funext k; fin_cases k <;> rfl
  refine (goes_num (hR _) (h 0)).bind ((goes_num (hR _) (h 1)).bind ((goes_num (hR _) (h 2)).bind ?_))
  rw [e]
  exact goes_ret _ _

theorem goes_shell {R W : Set Loc} {m : Memory} {s : ShellBlocks} {A : Shell} (hR : cells s.set ⊆ R) (h : ShellAt m s A) :
    Goes R W (getShell s.obj) m (.ok A) m := by
  have r1 : ∀ i, (s.obj, i) ∈ R := fun i => hR (by simp [cells, ShellBlocks.set])
  have r2 : ∀ i, (s.list, i) ∈ R := fun i => hR (by simp [cells, ShellBlocks.set])
  have r3 : ∀ i, (s.coeffs, i) ∈ R := fun i => hR (by simp [cells, ShellBlocks.set])
  have r4 : ∀ i, (s.alpha, i) ∈ R := fun i => hR (by simp [cells, ShellBlocks.set])
  unfold getShell
  refine (goes_int (r1 _) h.L).bind ((goes_int (r1 _) h.size).bind ((goes_ptr (r1 _) h.list).bind ((goes_int (r1 _) h.num).bind
    ((goes_ptr (r1 _) h.coeffs).bind ((goes_ptr (r1 _) h.alpha).bind ((goes_point r1 h.origin).bind
    ((goes_comps (by simp [h.sizes.1]) r2 h.comps).bind ((goes_nums (by simp [h.sizes.2.1]) (fun i _ => r3 i) h.coeff).bind
    ((goes_nums (by simp [h.sizes.2.2]) (fun i _ => r4 i) h.exps).bind ?_)))))))))
  exact goes_ret _ _

theorem goes_potential {R W : Set Loc} {m : Memory} {p : PotBlocks} {U : Potential} (hR : cells p.set ⊆ R) (h : PotAt m p U) :
    Goes R W (getPotential p.obj) m (.ok U) m := by
  have r1 : ∀ i, (p.obj, i) ∈ R := fun i => hR (by simp [cells, PotBlocks.set])
  have r2 : ∀ i, (p.powers, i) ∈ R := fun i => hR (by simp [cells, PotBlocks.set])
  have r3 : ∀ i, (p.coeffs, i) ∈ R := fun i => hR (by simp [cells, PotBlocks.set])
  have r4 : ∀ i, (p.alpha, i) ∈ R := fun i => hR (by simp [cells, PotBlocks.set])
  unfold getPotential
  refine (goes_int (r1 _) h.L).bind ((goes_int (r1 _) h.J).bind ((goes_int (r1 _) h.num).bind ((goes_ptr (r1 _) h.powers).bind
    ((goes_ptr (r1 _) h.coeffs).bind ((goes_ptr (r1 _) h.alpha).bind
    ((goes_ints (by simp [h.sizes.1]) (fun i _ => r2 i) h.power).bind ((goes_nums (by simp [h.sizes.2.1]) (fun i _ => r3 i) h.coeff).bind
    ((goes_nums (by simp [h.sizes.2.2]) (fun i _ => r4 i) h.exps).bind ?_))))))))
  exact goes_ret _ _

/-! ## Output matrices -/

theorem Memory.put_ne (m : Memory) {o : Nat} (l : List ℝ) {x : Loc} (h : x.1 ≠ o) : m.put o l x = m x := if_neg h

theorem Memory.put_at (m : Memory) (o : Nat) (l : List ℝ) {i : Nat} (h : i < l.length) : m.put o l (o, i) = some (.num l[i]) := by
  simp [Memory.put, List.getElem?_eq_getElem h]

theorem Memory.put_set (m : Memory) (o : Nat) (l : List ℝ) {i : Nat} (h : i < l.length) (v : ℝ) :
    Function.update (m.put o l) (o, i) (some (.num v)) = m.put o (l.set i v) := by
  funext x
  obtain ⟨b, j⟩ := x
  by_cases e : (b, j) = (o, i)
  · cases e
    simp [Memory.put, h]
  · rw [Function.update_of_ne e]
    unfold Memory.put
    by_cases hb : b = o
    · subst hb
      have : i ≠ j := fun e' => e (by rw [e'])
      simp [List.getElem?_set_ne this]
    · simp [hb]

theorem Memory.put_put (m : Memory) (o : Nat) (l l' : List ℝ) : (m.put o l).put o l' = m.put o l' := by
  funext x
  by_cases h : x.1 = o <;> simp [Memory.put, h]

theorem Memory.put_comm (m : Memory) {o o' : Nat} (h : o ≠ o') (l l' : List ℝ) : (m.put o l).put o' l' = (m.put o' l').put o l := by
  funext x
  unfold Memory.put
  by_cases h1 : x.1 = o
  · have h2 : x.1 ≠ o' := fun e => h (h1.symm.trans e)
    rw [if_neg h2, if_pos h1, if_pos h1]
  · rw [if_neg h1]
    by_cases h2 : x.1 = o'
    · rw [if_pos h2, if_neg h1]
    · rw [if_neg h2, if_neg h1]

section Out
variable {R W : Set Loc} {m : Memory} {o : Nat} (hR : ∀ i, (o, i) ∈ R) (hW : ∀ i, (o, i) ∈ W)
include hW

theorem goes_wr {l l' : List ℝ} {i : Nat} {v : ℝ} (h : wr l i v = .ok l') : Goes R W (setNum (o, i) v) (m.put o l) (.ok ()) (m.put o l') := by
  unfold wr at h
  split at h
  · next hi =>
    cases h
    rw [← Memory.put_set m o l hi v]
    exact goes_set (hW i) (m.put_at o l hi)
  · cases h

theorem goes_zero {n : Nat} {l l' : List ℝ} (h : memset0 n l = .ok l') : Goes R W (zero o n) (m.put o l) (.ok ()) (m.put o l') :=
  goes_loop (fun _ : List ℝ => ()) (fun l => m.put o l) (fun _ _ _ _ hs => goes_wr hW hs) h

include hR

theorem goes_rd {l : List ℝ} {i : Nat} {v : ℝ} (h : rd l i = .ok v) : Goes R W (getNum (o, i)) (m.put o l) (.ok v) (m.put o l) := by
  unfold rd at h
  split at h
  · next e =>
    cases h
    exact goes_num (hR i) (by simp [Memory.put, e])
  · cases h

theorem goes_axpy {n : Nat} {a : ℝ} {x l l' : List ℝ} (h : daxpy n a x l = .ok l') : Goes R W (axpy n a x o) (m.put o l) (.ok ()) (m.put o l') := by
  refine goes_loop (fun _ : List ℝ => ()) (fun l => m.put o l) (fun i _ s s' hs => ?_) h
  obtain ⟨xi, h1, hs⟩ := Outcome.bind_eq_ok.1 hs
  obtain ⟨yi, h2, hs⟩ := Outcome.bind_eq_ok.1 hs
  exact (goes_lift h1 _).bind ((goes_rd hR hW h2).bind (goes_wr hW hs))

end Out

/-! ## The routines -/

theorem goes_contract {R W : Set Loc} {m : Memory} {a b : ShellBlocks} {o : Nat} {A B : Shell} (ha : ShellAt m a A) (hb : ShellAt m b B)
    (oa : o ∉ a.set) (ob : o ∉ b.set) (ra : cells a.set ⊆ R) (rb : cells b.set ⊆ R) (ro : ∀ i, (o, i) ∈ R) (wo : ∀ i, (o, i) ∈ W)
    {prim : Shell → Shell → ℝ → ℝ → List ℝ → Outcome (List ℝ)} {l l' : List ℝ} (h : contract A B (prim A B) l = .ok l') :
    Goes R W (contractAt prim a.obj b.obj o) (m.put o l) (.ok ()) (m.put o l') := by
  have pa : ∀ l, ShellAt (m.put o l) a A := fun l => ha.congr fun x hx => m.put_ne l (by rintro rfl; exact oa hx)
  have pb : ∀ l, ShellAt (m.put o l) b B := fun l => hb.congr fun x hx => m.put_ne l (by rintro rfl; exact ob hx)
  have r1 : ∀ i, (a.obj, i) ∈ R := fun i => ra (by simp [cells, ShellBlocks.set])
  have r2 : ∀ i, (b.obj, i) ∈ R := fun i => rb (by simp [cells, ShellBlocks.set])
  have r3 : ∀ i, (a.alpha, i) ∈ R := fun i => ra (by simp [cells, ShellBlocks.set])
  have r4 : ∀ i, (b.alpha, i) ∈ R := fun i => rb (by simp [cells, ShellBlocks.set])
  have r5 : ∀ i, (a.coeffs, i) ∈ R := fun i => ra (by simp [cells, ShellBlocks.set])
  have r6 : ∀ i, (b.coeffs, i) ∈ R := fun i => rb (by simp [cells, ShellBlocks.set])
  have num : ∀ {c : Nat} {L : List ℝ} {l : List ℝ} {i : Nat} {v : ℝ}, (∀ i (hi : i < L.length), (m.put o l) (c, i) = some (.num L[i])) →
      (∀ i, (c, i) ∈ R) → rd L i = .ok v → Goes R W (getNum (c, i)) (m.put o l) (.ok v) (m.put o l) := by
    intro c L l i v hc hr hv
    have hi : i < L.length := by
      by_contra hi
      rw [rd_ub (by omega)] at hv
      cases hv
    rw [rd_ok hi] at hv
    cases hv
    exact goes_num (hr i) (hc i hi)
  unfold contract at h
  obtain ⟨l1, h1, h⟩ := Outcome.bind_eq_ok.1 h
  obtain ⟨r, h2, h⟩ := Outcome.bind_eq_ok.1 h
  cases h
  unfold contractAt
  refine (goes_int (r1 _) (pa l).size).bind ((goes_int (r2 _) (pb l).size).bind ((goes_zero wo h1).bind ((goes_int (r1 _) (pa l1).num).bind ?_)))
  refine Goes.bind (a := r.1) (m1 := m.put o r.2) ?_ (goes_ret _ _)
  refine goes_loop (Prod.fst : List ℝ × List ℝ → List ℝ) (fun st => m.put o st.2) (s := (List.replicate (A.cart_size * B.cart_size) 0, l1)) (fun i _ s s' hs => ?_) h2
  refine (goes_int (r2 _) (pb s.2).num).bind ?_
  refine goes_loop (Prod.fst : List ℝ × List ℝ → List ℝ) (fun st => m.put o st.2) (fun j _ s s' hs => ?_) hs
  obtain ⟨ai, e1, hs⟩ := Outcome.bind_eq_ok.1 hs
  obtain ⟨aj, e2, hs⟩ := Outcome.bind_eq_ok.1 hs
  obtain ⟨ci, e3, hs⟩ := Outcome.bind_eq_ok.1 hs
  obtain ⟨cj, e4, hs⟩ := Outcome.bind_eq_ok.1 hs
  obtain ⟨buf, e5, hs⟩ := Outcome.bind_eq_ok.1 hs
  obtain ⟨out, e6, hs⟩ := Outcome.bind_eq_ok.1 hs
  cases hs
  refine (goes_ptr (r1 _) (pa s.2).alpha).bind ((num (pa s.2).exps r3 e1).bind ((goes_ptr (r2 _) (pb s.2).alpha).bind ((num (pb s.2).exps r4 e2).bind
    ((goes_ptr (r1 _) (pa s.2).coeffs).bind ((num (pa s.2).coeff r5 e3).bind ((goes_ptr (r2 _) (pb s.2).coeffs).bind ((num (pb s.2).coeff r6 e4).bind
    ((goes_shell ra (pa s.2)).bind ((goes_shell rb (pb s.2)).bind ((goes_lift e5 _).bind ((goes_axpy ro wo ?_).bind (goes_ret _ _))))))))))))
  simpa using e6

theorem type2_split {G : Type} (lib : Lib G) (A B : Shell) (C : Point) (U : Potential) (out : List ℝ) :
    type2Integrals lib A B C U out = (do
      Outcome.assert (lib.init = true)
      let out ← memset0 (A.cart_size * B.cart_size) out
      let val ← type2Values lib A B C U
      storePairs A B val out) := by
  simp only [type2Integrals, type2Values, bind_assoc]
  rfl

theorem spinOrbit_split {G : Type} (lib : Lib G) (A B : Shell) (C : Point) (U : Potential) (out : LMat) :
    spinOrbitIntegrals lib A B C U out = (do
      Outcome.assert (lib.init = true)
      let out ← lmatZero (A.cart_size * B.cart_size) out
      let val ← spinOrbitValues lib A B C U
      forRange A.cart_size out fun m out =>
        forRange B.cart_size out fun n out => do
          let x ← rd A.cartList m
          let y ← rd B.cartList n
          let v ← val x y
          lmatSet out (m * B.cart_size + n) (v 0 * (16 * Real.pi * Real.pi)) (v 1 * (16 * Real.pi * Real.pi)) (v 2 * (16 * Real.pi * Real.pi))) := by
  simp only [spinOrbitIntegrals, spinOrbitValues, bind_assoc]
  rfl

theorem ShellAt.put {m : Memory} {s : ShellBlocks} {A : Shell} (h : ShellAt m s A) {o : Nat} (ho : o ∉ s.set) (l : List ℝ) : ShellAt (m.put o l) s A :=
  h.congr fun x hx => m.put_ne l (by rintro rfl; exact ho hx)

theorem PotAt.put {m : Memory} {p : PotBlocks} {U : Potential} (h : PotAt m p U) {o : Nat} (ho : o ∉ p.set) (l : List ℝ) : PotAt (m.put o l) p U :=
  h.congr fun x hx => m.put_ne l (by rintro rfl; exact ho hx)

theorem PointAt.put {m : Memory} {c : Nat} {C : Point} (h : PointAt m c C) {o : Nat} (ho : o ≠ c) (l : List ℝ) : PointAt (m.put o l) c C :=
  fun k => (m.put_ne l (Ne.symm ho)).trans (h k)

theorem goes_origin {R W : Set Loc} {m : Memory} {c : ℕ} {C : Point} (hR : ∀ i, (c, i) ∈ R) (h : PointAt m c C) : Goes R W (getPoint c 0) m (.ok C) m :=
  goes_point hR fun k => by simpa using h k

theorem goes_arr {R W : Set Loc} {m : Memory} {c : ℕ} {L : List ℝ} {i : Nat} {v : ℝ} (hR : ∀ i, (c, i) ∈ R)
    (hc : ∀ i (hi : i < L.length), m (c, i) = some (.num L[i])) (hv : rd L i = .ok v) : Goes R W (getNum (c, i)) m (.ok v) m := by
  have hi : i < L.length := by
    by_contra hi
    rw [rd_ub (by omega)] at hv
    cases hv
  rw [rd_ok hi] at hv
  cases hv
  exact goes_num (hR i) (hc i hi)

theorem goes_arrInt {R W : Set Loc} {m : Memory} {c : ℕ} {L : List Int} {i : Nat} {v : Int} (hR : ∀ i, (c, i) ∈ R)
    (hc : ∀ i (hi : i < L.length), m (c, i) = some (.int L[i])) (hv : rd L i = .ok v) : Goes R W (getInt (c, i)) m (.ok v) m := by
  have hi : i < L.length := by
    by_contra hi
    rw [rd_ub (by omega)] at hv
    cases hv
  rw [rd_ok hi] at hv
  cases hv
  exact goes_int (hR i) (hc i hi)

theorem goes_comp {R W : Set Loc} {m : Memory} {s : ShellBlocks} {A : Shell} (hR : cells s.set ⊆ R) (h : ShellAt m s A) {i : Nat} {c : Comp}
    (hc : rd A.cartList i = .ok c) : Goes R W (getComp s.obj i) m (.ok c) m := by
  have hi : i < A.cartList.length := by
    by_contra hi
    rw [rd_ub (by omega)] at hc
    cases hc
  rw [rd_ok hi] at hc
  cases hc
  have r1 : ∀ i, (s.obj, i) ∈ R := fun i => hR (by simp [cells, ShellBlocks.set])
  have r2 : ∀ i, (s.list, i) ∈ R := fun i => hR (by simp [cells, ShellBlocks.set])
  exact (goes_ptr (r1 _) h.list).bind ((goes_int (r2 _) (h.comps i hi).1).bind ((goes_int (r2 _) (h.comps i hi).2.1).bind
    ((goes_int (r2 _) (h.comps i hi).2.2).bind (goes_ret _ _))))

theorem goes_type1 {R W : Set Loc} {m : Memory} {a b : ShellBlocks} {c : Nat} {p : PotBlocks} {o : Nat} {A B : Shell} {C : Point} {U : Potential}
    (ha : ShellAt m a A) (hb : ShellAt m b B) (hc : PointAt m c C) (hp : PotAt m p U)
    (oa : o ∉ a.set) (ob : o ∉ b.set) (oc : o ≠ c) (op : o ∉ p.set) (ra : cells a.set ⊆ R) (rb : cells b.set ⊆ R) (rc : ∀ i, (c, i) ∈ R)
    (rp : cells p.set ⊆ R) (ro : ∀ i, (o, i) ∈ R) (wo : ∀ i, (o, i) ∈ W) {sf : SpecFun} {init : Bool} {l l' : List ℝ}
    (h : type1Integrals sf init A B C (some U) l = .ok l') :
    Goes R W (Prog.type1 sf init a.obj b.obj c p.obj o) (m.put o l) (.ok ()) (m.put o l') := by
  have r1 : ∀ i, (a.obj, i) ∈ R := fun i => ra (by simp [cells, ShellBlocks.set])
  have r2 : ∀ i, (b.obj, i) ∈ R := fun i => rb (by simp [cells, ShellBlocks.set])
  have r3 : ∀ i, (p.obj, i) ∈ R := fun i => rp (by simp [cells, PotBlocks.set])
  have r4 : ∀ i, (p.coeffs, i) ∈ R := fun i => rp (by simp [cells, PotBlocks.set])
  have r5 : ∀ i, (p.alpha, i) ∈ R := fun i => rp (by simp [cells, PotBlocks.set])
  have r6 : ∀ i, (p.powers, i) ∈ R := fun i => rp (by simp [cells, PotBlocks.set])
  unfold type1Integrals at h
  obtain ⟨_, h0, h⟩ := Outcome.bind_eq_ok.1 h
  obtain ⟨l1, h1, h⟩ := Outcome.bind_eq_ok.1 h
  obtain ⟨r, h2, h⟩ := Outcome.bind_eq_ok.1 h
  cases h
  unfold Prog.type1
  refine (goes_lift h0 _).bind ((goes_int (r1 _) (ha.put oa l).size).bind ((goes_int (r2 _) (hb.put ob l).size).bind ((goes_zero wo h1).bind
    ((goes_int (r3 _) (hp.put op l1).num).bind ?_))))
  refine Goes.bind (a := r.1) (m1 := m.put o r.2) ?_ (goes_ret _ _)
  refine goes_loop (Prod.fst : List ℝ × List ℝ → List ℝ) (fun st => m.put o st.2) (s := (List.replicate (A.cart_size * B.cart_size) 0, l1)) (fun k _ s s' hs => ?_) h2
  obtain ⟨ck, e1, hs⟩ := Outcome.bind_eq_ok.1 hs
  obtain ⟨ak, e2, hs⟩ := Outcome.bind_eq_ok.1 hs
  obtain ⟨wk, e3, hs⟩ := Outcome.bind_eq_ok.1 hs
  obtain ⟨buf, e5, hs⟩ := Outcome.bind_eq_ok.1 hs
  obtain ⟨out, e6, hs⟩ := Outcome.bind_eq_ok.1 hs
  cases hs
  have pp := hp.put op s.2
  refine (goes_ptr (r3 _) pp.coeffs).bind ((goes_arr r4 pp.coeff e1).bind ((goes_ptr (r3 _) pp.alpha).bind ((goes_arr r5 pp.exps e2).bind
    ((goes_ptr (r3 _) pp.powers).bind ((goes_arrInt r6 pp.power e3).bind ((goes_shell ra (ha.put oa _)).bind ((goes_shell rb (hb.put ob _)).bind
    ((goes_origin rc (hc.put oc _)).bind ((goes_lift e5 _).bind ((goes_axpy ro wo ?_).bind (goes_ret _ _)))))))))))
  simpa using e6

theorem goes_type2 {R W : Set Loc} {m : Memory} {a b : ShellBlocks} {c : Nat} {p : PotBlocks} {o : Nat} {A B : Shell} {C : Point} {U : Potential}
    (ha : ShellAt m a A) (hb : ShellAt m b B) (hc : PointAt m c C) (hp : PotAt m p U)
    (oa : o ∉ a.set) (ob : o ∉ b.set) (oc : o ≠ c) (op : o ∉ p.set) (ra : cells a.set ⊆ R) (rb : cells b.set ⊆ R) (rc : ∀ i, (c, i) ∈ R)
    (rp : cells p.set ⊆ R) (wo : ∀ i, (o, i) ∈ W) {G : Type} {lib : Lib G} {l l' : List ℝ}
    (h : type2Integrals lib A B C U l = .ok l') :
    Goes R W (Prog.type2 lib a.obj b.obj c p.obj o) (m.put o l) (.ok ()) (m.put o l') := by
  have r1 : ∀ i, (a.obj, i) ∈ R := fun i => ra (by simp [cells, ShellBlocks.set])
  have r2 : ∀ i, (b.obj, i) ∈ R := fun i => rb (by simp [cells, ShellBlocks.set])
  rw [type2_split] at h
  obtain ⟨_, h0, h⟩ := Outcome.bind_eq_ok.1 h
  obtain ⟨l1, h1, h⟩ := Outcome.bind_eq_ok.1 h
  obtain ⟨val, h2, h⟩ := Outcome.bind_eq_ok.1 h
  unfold Prog.type2
  refine (goes_lift h0 _).bind ((goes_int (r1 _) (ha.put oa l).size).bind ((goes_int (r2 _) (hb.put ob l).size).bind ((goes_zero wo h1).bind
    ((goes_shell ra (ha.put oa _)).bind ((goes_shell rb (hb.put ob _)).bind ((goes_origin rc (hc.put oc _)).bind ((goes_potential rp (hp.put op _)).bind
    ((goes_lift h2 _).bind ?_))))))))
  refine goes_loop (fun _ : List ℝ => ()) (fun l => m.put o l) (fun i _ s s' hs => ?_) h
  refine goes_loop (fun _ : List ℝ => ()) (fun l => m.put o l) (fun j _ s s' hs => ?_) hs
  obtain ⟨x, e1, hs⟩ := Outcome.bind_eq_ok.1 hs
  obtain ⟨y, e2, hs⟩ := Outcome.bind_eq_ok.1 hs
  obtain ⟨v, e3, hs⟩ := Outcome.bind_eq_ok.1 hs
  exact (goes_comp ra (ha.put oa _) e1).bind ((goes_comp rb (hb.put ob _) e2).bind ((goes_lift e3 _).bind (goes_wr wo hs)))

section Put3
variable {R W : Set Loc} {m : Memory} {ox oy oz : Nat} (dxy : ox ≠ oy) (dxz : ox ≠ oz) (dyz : oy ≠ oz) {α : Type} {p : Prog α} {r : Outcome α}
  {l l' x y z : List ℝ}

include dxy dxz in
theorem goes_x (h : ∀ m : Memory, Goes R W p (m.put ox l) r (m.put ox l')) : Goes R W p (m.put3 ox oy oz ⟨l, y, z⟩) r (m.put3 ox oy oz ⟨l', y, z⟩) := by
  have e : ∀ l, m.put3 ox oy oz ⟨l, y, z⟩ = ((m.put oy y).put oz z).put ox l := fun l => by
    unfold Memory.put3
    rw [m.put_comm dxy, Memory.put_comm _ dxz]
  rw [e, e]
  exact h _

include dyz in
theorem goes_y (h : ∀ m : Memory, Goes R W p (m.put oy l) r (m.put oy l')) : Goes R W p (m.put3 ox oy oz ⟨x, l, z⟩) r (m.put3 ox oy oz ⟨x, l', z⟩) := by
  have e : ∀ l, m.put3 ox oy oz ⟨x, l, z⟩ = ((m.put ox x).put oz z).put oy l := fun l => by
    unfold Memory.put3
    rw [Memory.put_comm _ dyz]
  rw [e, e]
  exact h _

theorem goes_z (h : ∀ m : Memory, Goes R W p (m.put oz l) r (m.put oz l')) : Goes R W p (m.put3 ox oy oz ⟨x, y, l⟩) r (m.put3 ox oy oz ⟨x, y, l'⟩) := h _

end Put3

theorem goes_spinOrbit {R W : Set Loc} {m : Memory} {a b : ShellBlocks} {c : Nat} {p : PotBlocks} {ox oy oz : Nat} {A B : Shell} {C : Point} {U : Potential}
    (ha : ShellAt m a A) (hb : ShellAt m b B) (hc : PointAt m c C) (hp : PotAt m p U)
    (dxy : ox ≠ oy) (dxz : ox ≠ oz) (dyz : oy ≠ oz) (hin : ∀ o ∈ ({ox, oy, oz} : Set Nat), o ∉ a.set ∧ o ∉ b.set ∧ o ≠ c ∧ o ∉ p.set)
    (ra : cells a.set ⊆ R) (rb : cells b.set ⊆ R) (rc : ∀ i, (c, i) ∈ R)
    (rp : cells p.set ⊆ R) (wo : ∀ o ∈ ({ox, oy, oz} : Set Nat), ∀ i, (o, i) ∈ W) {G : Type} {lib : Lib G} {M M' : LMat}
    (h : spinOrbitIntegrals lib A B C U M = .ok M') :
    Goes R W (Prog.spinOrbit lib a.obj b.obj c p.obj ox oy oz) (m.put3 ox oy oz M) (.ok ()) (m.put3 ox oy oz M') := by
  have r1 : ∀ i, (a.obj, i) ∈ R := fun i => ra (by simp [cells, ShellBlocks.set])
  have r2 : ∀ i, (b.obj, i) ∈ R := fun i => rb (by simp [cells, ShellBlocks.set])
  obtain ⟨xa, xb, xc, xp⟩ := hin ox (by simp)
  obtain ⟨ya, yb, yc, yp⟩ := hin oy (by simp)
  obtain ⟨za, zb, zc, zp⟩ := hin oz (by simp)
  have wx := wo ox (by simp)
  have wy := wo oy (by simp)
  have wz := wo oz (by simp)
  have pa : ∀ M, ShellAt (m.put3 ox oy oz M) a A := fun M => ((ha.put xa _).put ya _).put za _
  have pb : ∀ M, ShellAt (m.put3 ox oy oz M) b B := fun M => ((hb.put xb _).put yb _).put zb _
  have pc : ∀ M, PointAt (m.put3 ox oy oz M) c C := fun M => ((hc.put xc _).put yc _).put zc _
  have pp : ∀ M, PotAt (m.put3 ox oy oz M) p U := fun M => ((hp.put xp _).put yp _).put zp _
  rw [spinOrbit_split] at h
  obtain ⟨_, h0, h⟩ := Outcome.bind_eq_ok.1 h
  obtain ⟨M1, h1, h⟩ := Outcome.bind_eq_ok.1 h
  obtain ⟨val, h2, h⟩ := Outcome.bind_eq_ok.1 h
  unfold lmatZero at h1
  obtain ⟨x1, hx, h1⟩ := Outcome.bind_eq_ok.1 h1
  obtain ⟨y1, hy, h1⟩ := Outcome.bind_eq_ok.1 h1
  obtain ⟨z1, hz, h1⟩ := Outcome.bind_eq_ok.1 h1
  cases h1
  unfold Prog.spinOrbit
  refine (goes_lift h0 _).bind ((goes_int (r1 _) (pa M).size).bind ((goes_int (r2 _) (pb M).size).bind ?_))
  refine (goes_x (y := M.y) (z := M.z) dxy dxz fun m => goes_zero wx hx).bind ((goes_y (z := M.z) dyz fun m => goes_zero wy hy).bind ((goes_z fun m => goes_zero wz hz).bind ?_))
  refine (goes_shell ra (pa _)).bind ((goes_shell rb (pb _)).bind ((goes_origin rc (pc _)).bind ((goes_potential rp (pp _)).bind ((goes_lift h2 _).bind ?_))))
  refine goes_loop (fun _ : LMat => ()) (fun M => m.put3 ox oy oz M) (fun i _ s s' hs => ?_) h
  refine goes_loop (fun _ : LMat => ()) (fun M => m.put3 ox oy oz M) (fun j _ s s' hs => ?_) hs
  obtain ⟨x, e1, hs⟩ := Outcome.bind_eq_ok.1 hs
  obtain ⟨y, e2, hs⟩ := Outcome.bind_eq_ok.1 hs
  obtain ⟨v, e3, hs⟩ := Outcome.bind_eq_ok.1 hs
  unfold lmatSet at hs
  obtain ⟨x2, e4, hs⟩ := Outcome.bind_eq_ok.1 hs
  obtain ⟨y2, e5, hs⟩ := Outcome.bind_eq_ok.1 hs
  obtain ⟨z2, e6, hs⟩ := Outcome.bind_eq_ok.1 hs
  cases hs
  refine (goes_comp ra (pa s) e1).bind ((goes_comp rb (pb s) e2).bind ((goes_lift e3 _).bind ?_))
  exact (goes_x (y := s.y) (z := s.z) dxy dxz fun m => goes_wr wx e4).bind ((goes_y (z := s.z) dyz fun m => goes_wr wy e5).bind (goes_z fun m => goes_wr wz e6))

theorem goes_momentum {R W : Set Loc} {m : Memory} {a b : ShellBlocks} {ox oy oz : Nat} {A B : Shell} (ha : ShellAt m a A) (hb : ShellAt m b B)
    (dxy : ox ≠ oy) (dxz : ox ≠ oz) (dyz : oy ≠ oz) (hin : ∀ o ∈ ({ox, oy, oz} : Set Nat), o ∉ a.set ∧ o ∉ b.set)
    (ra : cells a.set ⊆ R) (rb : cells b.set ⊆ R) (ro : ∀ o ∈ ({ox, oy, oz} : Set Nat), ∀ i, (o, i) ∈ R)
    (wo : ∀ o ∈ ({ox, oy, oz} : Set Nat), ∀ i, (o, i) ∈ W) {x y z x' y' z' : List ℝ}
    (hx : momentumIntegrals 0 A B x = .ok x') (hy : momentumIntegrals 1 A B y = .ok y') (hz : momentumIntegrals 2 A B z = .ok z') :
    Goes R W (Prog.momentum a.obj b.obj ox oy oz) (m.put3 ox oy oz ⟨x, y, z⟩) (.ok ()) (m.put3 ox oy oz ⟨x', y', z'⟩) := by
  obtain ⟨xa, xb⟩ := hin ox (by simp)
  obtain ⟨ya, yb⟩ := hin oy (by simp)
  obtain ⟨za, zb⟩ := hin oz (by simp)
  have ex : ∀ l, m.put3 ox oy oz ⟨l, y, z⟩ = ((m.put oy y).put oz z).put ox l := fun l => by
    unfold Memory.put3
    rw [m.put_comm dxy, Memory.put_comm _ dxz]
  have ey : ∀ l, m.put3 ox oy oz ⟨x', l, z⟩ = ((m.put ox x').put oz z).put oy l := fun l => by
    unfold Memory.put3
    rw [Memory.put_comm _ dyz]
  refine Goes.bind (a := ()) (m1 := m.put3 ox oy oz ⟨x', y, z⟩) ?_ (Goes.bind (a := ()) (m1 := m.put3 ox oy oz ⟨x', y', z⟩) ?_ ?_)
  · rw [ex, ex]
    exact goes_contract ((ha.put ya _).put za _) ((hb.put yb _).put zb _) xa xb ra rb (ro ox (by simp)) (wo ox (by simp)) hx
  · rw [ey, ey]
    exact goes_contract ((ha.put xa _).put za _) ((hb.put xb _).put zb _) ya yb ra rb (ro oy (by simp)) (wo oy (by simp)) hy
  · exact goes_contract ((ha.put xa _).put ya _) ((hb.put xb _).put yb _) za zb ra rb (ro oz (by simp)) (wo oz (by simp)) hz

/-! ## Calls -/

theorem put_self {m : Memory} {o : Nat} {l : List ℝ} (h : ArrayAt m o l) : m.put o l = m := by
  funext ⟨b, i⟩
  by_cases e : b = o
  · subst e
    simp [Memory.put, h i]
  · exact m.put_ne l e

theorem put3_self {m : Memory} {ox oy oz : Nat} {M : LMat} (hx : ArrayAt m ox M.x) (hy : ArrayAt m oy M.y) (hz : ArrayAt m oz M.z) :
    m.put3 ox oy oz M = m := by
  unfold Memory.put3
  rw [put_self hx, put_self hy, put_self hz]

theorem Prog.Runs.mono {α : Type} {R W R' W' : Set Loc} (hR : R ⊆ R') (hW : W ⊆ W') {n : ℕ} {p : Prog α} {m m' : Memory} {o : Outcome α}
    (h : Runs R W n p m o m') : Runs R' W' n p m o m' := by
  induction h with
  | ret => exact .ret _ _
  | load hx hm _ ih => exact .load (hR hx) hm ih
  | store hx hm _ ih => exact .store (hW hx) hm ih

theorem Goes.mono {α : Type} {R W R' W' : Set Loc} (hR : R ⊆ R') (hW : W ⊆ W') {p : Prog α} {m m' : Memory} {o : Outcome α}
    (h : Goes R W p m o m') : Goes R' W' p m o m' := h.imp fun _ h => h.mono hR hW

theorem Call.Gives.goes {G : Type} {m m' : Memory} {c : Call G} (h : c.Gives m m') : Goes (cells (c.ins ∪ c.outs)) (cells c.outs) c.prog m (.ok ()) m' := by
  have sub : ∀ {s t : Set Nat}, s ⊆ t → cells s ⊆ cells t := fun h x hx => h hx
  cases h with
  | @overlap a b o A B l l' ha hb ho oa ob h =>
    have := goes_contract (R := cells (a.set ∪ b.set ∪ {o})) (W := cells {o}) ha hb oa ob (sub fun x hx => Or.inl (Or.inl hx)) (sub fun x hx => Or.inl (Or.inr hx)) (fun i => Or.inr (Set.mem_singleton o)) (fun i => Set.mem_singleton o) h
    rwa [put_self ho] at this
  | @kinetic a b o A B l l' ha hb ho oa ob h =>
    have := goes_contract (R := cells (a.set ∪ b.set ∪ {o})) (W := cells {o}) ha hb oa ob (sub fun x hx => Or.inl (Or.inl hx)) (sub fun x hx => Or.inl (Or.inr hx)) (fun i => Or.inr (Set.mem_singleton o)) (fun i => Set.mem_singleton o) h
    rwa [put_self ho] at this
  | @momentum a b ox oy oz A B x y z x' y' z' ha hb h1 h2 h3 dxy dxz dyz hin hx hy hz =>
    have := goes_momentum (R := cells (a.set ∪ b.set ∪ {ox, oy, oz})) (W := cells {ox, oy, oz}) ha hb dxy dxz dyz hin (sub fun x hx => Or.inl (Or.inl hx)) (sub fun x hx => Or.inl (Or.inr hx))
      (fun o ho i => Or.inr ho) (fun o ho i => ho) hx hy hz
    rwa [put3_self h1 h2 h3] at this
  | @type1 sf init a b c p o A B C U l l' ha hb hc hp ho oa ob oc op h =>
    have := goes_type1 (R := cells (a.set ∪ b.set ∪ ({c} ∪ p.set) ∪ {o})) (W := cells {o}) ha hb hc hp oa ob oc op (sub fun x hx => Or.inl (Or.inl (Or.inl hx)))
      (sub fun x hx => Or.inl (Or.inl (Or.inr hx))) (fun i => Or.inl (Or.inr (Or.inl rfl))) (sub fun x hx => Or.inl (Or.inr (Or.inr hx))) (fun i => Or.inr (Set.mem_singleton o)) (fun i => Set.mem_singleton o) h
    rwa [put_self ho] at this
  | @type2 lib a b c p o A B C U l l' ha hb hc hp ho oa ob oc op h =>
    have := goes_type2 (R := cells (a.set ∪ b.set ∪ ({c} ∪ p.set) ∪ {o})) (W := cells {o}) ha hb hc hp oa ob oc op (sub fun x hx => Or.inl (Or.inl (Or.inl hx)))
      (sub fun x hx => Or.inl (Or.inl (Or.inr hx))) (fun i => Or.inl (Or.inr (Or.inl rfl))) (sub fun x hx => Or.inl (Or.inr (Or.inr hx))) (fun i => Set.mem_singleton o) h
    rwa [put_self ho] at this
  | @spinOrbit lib a b c p ox oy oz A B C U M M' ha hb hc hp h1 h2 h3 dxy dxz dyz hin h =>
    have := goes_spinOrbit (R := cells (a.set ∪ b.set ∪ ({c} ∪ p.set) ∪ {ox, oy, oz})) (W := cells {ox, oy, oz}) ha hb hc hp dxy dxz dyz hin (sub fun x hx => Or.inl (Or.inl (Or.inl hx)))
      (sub fun x hx => Or.inl (Or.inl (Or.inr hx))) (fun i => Or.inl (Or.inr (Or.inl rfl))) (sub fun x hx => Or.inl (Or.inr (Or.inr hx))) (fun o ho i => ho) h
    rwa [put3_self h1 h2 h3] at this

theorem goes_calls {G : Type} {cs : List (Call G)} {m m' : Memory} (h : CallsGive cs m m') :
    Goes (cells (callIns cs ∪ callOuts cs)) (cells (callOuts cs)) (callsProg cs) m (.ok ()) m' := by
  have sub : ∀ {s t : Set Nat}, s ⊆ t → cells s ⊆ cells t := fun h x hx => h hx
  induction h with
  | nil m => exact goes_ret _ _
  | cons c cs m m1 m2 h1 _ ih =>
    have e1 : c.outs ⊆ callOuts (c :: cs) := fun x hx => ⟨c, by simp, hx⟩
    have e2 : c.ins ⊆ callIns (c :: cs) := fun x hx => ⟨c, by simp, hx⟩
    have e3 : callOuts cs ⊆ callOuts (c :: cs) := fun x ⟨d, hd, hx⟩ => ⟨d, by simp [hd], hx⟩
    have e4 : callIns cs ⊆ callIns (c :: cs) := fun x ⟨d, hd, hx⟩ => ⟨d, by simp [hd], hx⟩
    exact (h1.goes.mono (sub (Set.union_subset_union e2 e1)) (sub e1)).bind (ih.mono (sub (Set.union_subset_union e4 e3)) (sub e3))

/-! ## Programs running up to a point -/

theorem Prog.bind_ok {α β : Type} (a : α) (f : α → Prog β) : (Prog.ret (.ok a) >>= f) = f a := rfl

theorem Prog.assoc {α β γ : Type} (p : Prog α) (f : α → Prog β) (g : β → Prog γ) : ((p >>= f) >>= g) = p >>= fun a => f a >>= g := by
  induction p with
  | ret o => cases o <;> rfl
  | load x k ih => exact congrArg (Prog.load x) (funext fun c => ih c)
  | store x c p ih => exact congrArg (Prog.store x c) ih

theorem Prog.loop_left {σ : Type} (n : Nat) (s : σ) (body : Nat → σ → Prog σ) :
    loop (n + 1) s body = body 0 s >>= fun s => loop n s fun i => body (i + 1) := by
  induction n with
  | zero =>
    change (Prog.ret (.ok s) >>= body 0) = _
    rw [Prog.bind_ok]
    have : ∀ p : Prog σ, (p >>= fun s => Prog.ret (.ok s)) = p := fun p => by
      induction p with
      | ret o => cases o <;> rfl
      | load x k ih => exact congrArg (Prog.load x) (funext fun c => ih c)
      | store x c p ih => exact congrArg (Prog.store x c) ih
    exact (this _).symm
  | succ n ih =>
    change (loop (n + 1) s body >>= body (n + 1)) = _
    rw [ih, Prog.assoc]
    rfl

theorem Pool.Exec.trans {ι : Type} [DecidableEq ι] {l l' : List ι} {s t u : Pool ι} (h1 : Pool.Exec l s t) (h2 : Pool.Exec l' t u) : Pool.Exec (l ++ l') s u := by
  induction h2 with
  | nil => simpa using h1
  | snoc l' i t u v _ hs ih => rw [← List.append_assoc]; exact .snoc _ _ _ _ _ (ih h1) hs

theorem Prog.Runs.exec {ι : Type} [DecidableEq ι] {α : Type} {R W : Set Loc} {n : ℕ} {p : Prog α} {a : α} {m m' : Memory} (h : Runs R W n p m (.ok a) m')
    (i : ι) (f : α → Prog Unit) (t : ι → Prog Unit) : ∃ l, Pool.Exec l ⟨m, Function.update t i (p >>= f)⟩ ⟨m', Function.update t i (f a)⟩ := by
  generalize hr : Outcome.ok a = r at h
  induction h with
  | ret => subst hr; exact ⟨[], .nil _⟩
  | @load n x k m m' c o hx hm _ ih =>
    obtain ⟨l, h⟩ := ih hr
    have := Pool.Step.load (i := i) ⟨m, Function.update t i (Prog.load x k >>= f)⟩ x _ c (Function.update_self i _ _) hm
    rw [Function.update_idem] at this
    exact ⟨_, (Pool.Exec.snoc _ i _ _ _ (.nil _) this).trans h⟩
  | @store n x c d p m m' o hx hm _ ih =>
    obtain ⟨l, h⟩ := ih hr
    have := Pool.Step.store (i := i) ⟨m, Function.update t i (Prog.store x c p >>= f)⟩ x c d _ (Function.update_self i _ _) hm
    rw [Function.update_idem] at this
    exact ⟨_, (Pool.Exec.snoc _ i _ _ _ (.nil _) this).trans h⟩

theorem Prog.Runs.alloc {α : Type} {R W : Set Loc} {n : ℕ} {p : Prog α} {m m' : Memory} {o : Outcome α} (h : Runs R W n p m o m') {x : Loc} (hx : m x ≠ none) :
    m' x ≠ none := by
  induction h with
  | ret => exact hx
  | load _ _ _ ih => exact ih hx
  | @store n y c d p m m' o hy hm _ ih =>
    refine ih ?_
    by_cases e : x = y
    · subst e; simp
    · rwa [Function.update_of_ne e]

theorem goes_clear {R W : Set Loc} {m : Memory} {o n : Nat} (hW : ∀ i, (o, i) ∈ W) (h : ∀ j < n, m (o, j) ≠ none) : ∃ m', Goes R W (zero o n) m (.ok ()) m' := by
  induction n with
  | zero => exact ⟨m, goes_ret _ _⟩
  | succ n ih =>
    obtain ⟨m1, h1⟩ := ih fun j hj => h j (by omega)
    have h2 : m1 (o, n) ≠ none := by
      obtain ⟨k, h1⟩ := h1
      exact h1.alloc (h n (by omega))
    obtain ⟨d, hd⟩ := Option.ne_none_iff_exists'.1 h2
    exact ⟨_, h1.bind (goes_set (hW n) hd)⟩

/-- `bindOuterCore` up to its first store to a shell of the GRPP. -/
noncomputable def bindPrefix (a b c shells : Nat) (o : Fin 4 → Nat) : Prog (Nat × ℝ) := do
  let sa ← getInt (a, 1)
  let sb ← getInt (b, 1)
  zero (o 0) (sa.toNat * sb.toNat)
  zero (o 1) (sa.toNat * sb.toNat)
  zero (o 2) (sa.toNat * sb.toNat)
  zero (o 3) (sa.toNat * sb.toNat)
  let s ← getPtr (shells, 0)
  let x ← getNum (c, 0)
  ret (.ok (s, x))

theorem bindOuterCore_prefix (a b c shells num : Nat) (o : Fin 4 → Nat) (rest : Prog Unit) :
    ∃ K : Nat × ℝ → Prog Unit, bindOuterCore true a b c shells (num + 1) o rest =
      bindPrefix a b c shells o >>= fun sx => Prog.store (sx.1, 6) (.num sx.2) (K sx) := by
  refine ⟨fun sx => (do
    let y ← getNum (c, 1)
    setNum (sx.1, 7) y
    let z ← getNum (c, 2)
    setNum (sx.1, 8) z) >>= fun _ => (loop num () fun i _ => do
      let s ← getPtr (shells, i + 1)
      let x ← getNum (c, 0)
      setNum (s, 6) x
      let y ← getNum (c, 1)
      setNum (s, 7) y
      let z ← getNum (c, 2)
      setNum (s, 8) z) >>= fun _ => rest, ?_⟩
  simp only [bindOuterCore, bindPrefix, Prog.loop_left, Prog.assoc]
  rfl

theorem goes_prefix {m : Memory} {a b c shells s : Nat} {o : Fin 4 → Nat} {sa sb : Nat} {x : ℝ} (ha : m (a, 1) = some (.int sa)) (hb : m (b, 1) = some (.int sb))
    (hc : m (c, 0) = some (.num x)) (hs : m (shells, 0) = some (.ptr s)) (hout : ∀ k, ∀ j < sa * sb, m (o k, j) ≠ none)
    (hne : ∀ k, o k ≠ shells ∧ o k ≠ c) : ∃ m', Goes Set.univ (cells (Set.range o)) (bindPrefix a b c shells o) m (.ok (s, x)) m' := by
  have w : ∀ k i, (o k, i) ∈ cells (Set.range o) := fun k i => ⟨k, rfl⟩
  have step : ∀ (k : Fin 4) (m' : Memory), (∀ j < sa * sb, m' (o k, j) ≠ none) → ∃ m'', Goes Set.univ (cells (Set.range o)) (zero (o k) (sa * sb)) m' (.ok ()) m'' :=
    fun k m' h => goes_clear (w k) h
  have keep : ∀ {m' m'' : Memory} {p : Prog Unit}, Goes Set.univ (cells (Set.range o)) p m' (.ok ()) m'' → (∀ k, ∀ j < sa * sb, m' (o k, j) ≠ none) → ∀ k, ∀ j < sa * sb, m'' (o k, j) ≠ none :=
    fun ⟨_, h⟩ hm k j hj => h.alloc (hm k j hj)
  have same : ∀ {m' m'' : Memory} {p : Prog Unit}, Goes Set.univ (cells (Set.range o)) p m' (.ok ()) m'' → ∀ x, x.1 ∉ Set.range o → m'' x = m' x :=
    fun ⟨_, h⟩ x hx => h.frame x hx
  obtain ⟨m1, h1⟩ := step 0 m (hout 0)
  obtain ⟨m2, h2⟩ := step 1 m1 (keep h1 hout 1)
  obtain ⟨m3, h3⟩ := step 2 m2 (keep h2 (keep h1 hout) 2)
  obtain ⟨m4, h4⟩ := step 3 m3 (keep h3 (keep h2 (keep h1 hout)) 3)
  have e : ∀ x : Loc, x.1 ∉ Set.range o → m4 x = m x := fun x hx => by rw [same h4 x hx, same h3 x hx, same h2 x hx, same h1 x hx]
  refine ⟨m4, (goes_int (Set.mem_univ _) ha).bind ((goes_int (Set.mem_univ _) hb).bind (h1.bind (h2.bind (h3.bind (h4.bind ((goes_ptr (Set.mem_univ _) ?_).bind ((goes_num (Set.mem_univ _) ?_).bind (goes_ret _ _))))))))⟩
  · rw [e _ (by rintro ⟨k, hk⟩; exact (hne k).1 hk)]; exact hs
  · rw [e _ (by rintro ⟨k, hk⟩; exact (hne k).2 hk)]; exact hc

end Libgrpp
