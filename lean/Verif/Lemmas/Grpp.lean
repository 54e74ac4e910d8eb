import Verif.Model.Grpp
import Verif.Lemmas.GrppGradient
import Mathlib.Data.List.Nodup
import Mathlib.Data.List.Perm.Basic
import Mathlib.Data.List.Flatten

/-! # Lemmas about ownership in GRPP objects -/

set_option linter.unusedSimpArgs false

namespace Libgrpp

/-! ## Releasing a list of pointers -/

/-- Non-NULL addresses of a list of tagged pointers. -/
def addrs (l : List (ObjKind × Option Addr)) : List Addr := l.filterMap Prod.snd

@[simp] theorem addrs_nil : addrs [] = [] := rfl
@[simp] theorem addrs_append (a b) : addrs (a ++ b) = addrs a ++ addrs b := List.filterMap_append
@[simp] theorem addrs_none (k l) : addrs ((k, none) :: l) = addrs l := rfl
@[simp] theorem addrs_some (k a l) : addrs ((k, some a) :: l) = a :: addrs l := rfl

theorem addrs_cons (k p l) : addrs ((k, p) :: l) = p.toList ++ addrs l := by cases p <;> simp

theorem mem_addrs {l : List (ObjKind × Option Addr)} {a : Addr} : a ∈ addrs l ↔ ∃ k, (k, some a) ∈ l := by
  simp [addrs]

def releaseAll (l : List (ObjKind × Option Addr)) (h : Store) : Outcome Store :=
  l.foldlM (fun h p => h.release p.1 p.2) h

theorem releaseAll_append (a b) (h : Store) : releaseAll (a ++ b) h = releaseAll a h >>= releaseAll b := by
  simp only [releaseAll, List.foldlM_append]; rfl

theorem bind_ok_self {α : Type} (x : Outcome α) : (x >>= Outcome.ok) = x := by cases x <;> rfl

theorem releaseAll_one (k p) (h : Store) : releaseAll [(k, p)] h = h.release k p := by
  simp [releaseAll, List.foldlM, bind_ok_self]

theorem releaseAll_ok (l : List (ObjKind × Option Addr)) : ∀ h : Store, (addrs l).Nodup →
    (∀ k a, (k, some a) ∈ l → ∃ o, h.mem a = some o ∧ o.kind = k) →
    releaseAll l h = .ok ⟨fun a => if a ∈ addrs l then none else h.mem a, h.next, (addrs l).reverse ++ h.freed⟩ := by
  induction l with
  | nil => intro h _ _; simp [releaseAll]
  | cons x l ih =>
    intro h hn hl
    obtain ⟨k, p⟩ := x
    have hs : releaseAll ((k, p) :: l) h = h.release k p >>= releaseAll l := by simp [releaseAll, List.foldlM]; rfl
    rw [hs]
    cases p with
    | none =>
      simp only [Store.release, Outcome.ok_bind]
      rw [ih h (by simpa using hn) fun k a hm => hl k a (List.mem_cons_of_mem _ hm)]
      rfl
    | some a =>
      obtain ⟨o, ho, hk⟩ := hl k a List.mem_cons_self
      simp only [addrs_some, List.nodup_cons] at hn
      simp only [Store.release, ho, hk, if_true, Outcome.ok_bind]
      rw [ih _ hn.2]
      · simp only [addrs_some, List.mem_cons, List.reverse_cons, List.append_assoc, List.singleton_append,
          Outcome.ok.injEq, Store.mk.injEq, true_and, and_true]
        funext b
        by_cases hb : b ∈ addrs l
        · simp [hb]
        · by_cases hba : b = a
          · subst hba; simp [hb]
          · simp [hb, hba, Function.update_of_ne hba]
      · intro k' b hm
        obtain ⟨o', ho', hk'⟩ := hl k' b (List.mem_cons_of_mem _ hm)
        have hba : b ≠ a := fun e => hn.1 (e ▸ mem_addrs.2 ⟨k', hm⟩)
        exact ⟨o', by simpa [Function.update_of_ne hba] using ho', hk'⟩

theorem forRange_congr {σ : Type} (f g : Nat → σ → Outcome σ) : ∀ n, (∀ i < n, ∀ s, f i s = g i s) → ∀ s,
    forRange n s f = forRange n s g := by
  intro n
  induction n with
  | zero => intro _ s; rfl
  | succ n ih =>
    intro h s
    rw [forRange_succ, forRange_succ, ih fun i hi => h i (by omega)]
    congr 1
    funext t
    exact h n (by omega) t

theorem forRange_rd {σ α : Type} (l : List α) (f : α → σ → Outcome σ) : ∀ n, n ≤ l.length → ∀ s,
    (forRange n s fun i s => do let p ← rd l i; f p s) = (l.take n).foldlM (fun s p => f p s) s := by
  intro n
  induction n with
  | zero => intro _ s; simp [forRange]
  | succ n ih =>
    intro hn s
    rw [forRange_succ, ih (by omega)]
    have ht : l.take (n + 1) = l.take n ++ [l[n]] := by simp
    rw [ht, List.foldlM_append]
    congr 1
    funext t
    rw [rd_ok (by omega)]
    simp [List.foldlM, bind_ok_self]

/-! ## The object -/

/-- Pointers in use in an array. -/
def PtrArray.used (k : ObjKind) (n : Nat) (a : PtrArray) : List (ObjKind × Option Addr) := (a.slots.take n).map (k, ·)

def GrppObj.ocList (g : GrppObj) : List (ObjKind × Option Addr) :=
  ((g.oc.slots.zip g.ocShells.slots).take g.nOc).flatMap fun x => [(.pot, x.1), (.shell, x.2)]

/-- The order of releases in `deleteGrpp`. -/
def GrppObj.dels (g : GrppObj) : List (ObjKind × Option Addr) :=
  [(.pot, g.uL)] ++ g.arep.used .pot g.nArep ++ [(.array, g.arep.block)] ++ g.esop.used .pot g.nEsop ++
    [(.array, g.esop.block)] ++ g.ocList ++ [(.array, g.oc.block)] ++ [(.array, g.ocShells.block)] ++ [(.grpp, some g.self)]

/-- Pointers of the caller. -/
def GrppObj.held (g : GrppObj) : List (ObjKind × Option Addr) :=
  [(.pot, g.uL)] ++ g.arep.used .pot g.nArep ++ g.esop.used .pot g.nEsop ++ g.ocList

theorem GrppObj.mem_held (g : GrppObj) (x) : x ∈ g.held ↔ x = (.pot, g.uL) ∨ x ∈ g.arep.used .pot g.nArep ∨
    x ∈ g.esop.used .pot g.nEsop ∨ x ∈ g.ocList := by
  simp only [GrppObj.held, List.mem_append, List.mem_cons, List.not_mem_nil, or_false, or_assoc]

/-- The object's own blocks. -/
def GrppObj.own (g : GrppObj) : List (ObjKind × Option Addr) :=
  [(.array, g.arep.block), (.array, g.esop.block), (.array, g.oc.block), (.array, g.ocShells.block), (.grpp, some g.self)]

theorem dels_perm (g : GrppObj) : g.dels.Perm (g.held ++ g.own) := by
  classical
  rw [List.perm_iff_count]
  intro x
  simp only [GrppObj.dels, GrppObj.held, GrppObj.own, List.count_append, List.count_cons, List.count_nil]
  omega

theorem releaseSlots_eq (k : ObjKind) (n : Nat) (a : PtrArray) (h : Store) (hn : n ≤ a.slots.length) :
    releaseSlots k n a h = releaseAll (a.used k n) h := by
  unfold releaseSlots
  rw [forRange_rd a.slots (fun (p : Option Addr) (h : Store) => h.release k p) n hn]
  simp only [releaseAll, PtrArray.used, List.foldlM_map]

theorem releaseOc_eq (g : GrppObj) (h : Store) (hn : g.nOc ≤ g.oc.slots.length) (hn' : g.nOc ≤ g.ocShells.slots.length) :
    releaseOc g.nOc g.oc g.ocShells h = releaseAll g.ocList h := by
  have hz : g.nOc ≤ (g.oc.slots.zip g.ocShells.slots).length := by simp; omega
  have e1 : releaseOc g.nOc g.oc g.ocShells h = (forRange g.nOc h fun i h => do
      let x ← rd (g.oc.slots.zip g.ocShells.slots) i
      let h ← h.release .pot x.1
      h.release .shell x.2) := by
    unfold releaseOc
    refine forRange_congr _ _ _ (fun i hi h => ?_) h
    have h1 : i < g.oc.slots.length := by omega
    have h2 : i < g.ocShells.slots.length := by omega
    rw [rd_ok h1, rd_ok h2, rd_ok (by omega)]
    simp
  rw [e1, forRange_rd _ (fun (x : Option Addr × Option Addr) (h : Store) => do
      let h ← h.release .pot x.1
      h.release .shell x.2) _ hz]
  unfold GrppObj.ocList
  clear e1 hz
  generalize (g.oc.slots.zip g.ocShells.slots).take g.nOc = l
  induction l generalizing h with
  | nil => rfl
  | cons x l ih =>
    simp only [List.foldlM_cons, List.flatMap_cons, releaseAll_append]
    have : releaseAll [(.pot, x.1), (.shell, x.2)] h = (do
      let h ← h.release .pot x.1
      h.release .shell x.2) := by
      simp [releaseAll, List.foldlM, bind_ok_self]
    rw [this]
    congr 1
    funext h'
    exact ih h'

/-- Array bookkeeping: counts are within the slots. -/
structure GrppObj.Sized (g : GrppObj) : Prop where
  arep : g.nArep ≤ g.arep.slots.length
  esop : g.nEsop ≤ g.esop.slots.length
  oc : g.nOc ≤ g.oc.slots.length
  ocs : g.nOc ≤ g.ocShells.slots.length

theorem deleteGrpp_eq (h : Store) (g : GrppObj) (hg : g.Sized) : deleteGrpp h g = releaseAll g.dels h := by
  unfold deleteGrpp GrppObj.dels
  simp only [releaseAll_append, releaseAll_one, bind_assoc]
  congr 1; funext h
  rw [releaseSlots_eq _ _ _ _ hg.arep]
  congr 1; funext h; congr 1; funext h
  rw [releaseSlots_eq _ _ _ _ hg.esop]
  congr 1; funext h; congr 1; funext h
  rw [releaseOc_eq _ _ hg.oc hg.ocs]
  congr 1; funext h; congr 1; funext h; congr 1; funext h
  rw [releaseAll_one]

/-! ## Specification: what a sequence of calls attaches -/

/-- Pointers a call hands over to the object, with the kind of object they must point to. -/
def GrppCall.args : GrppCall → List (ObjKind × Option Addr)
  | .setLocal p => [(.pot, p)]
  | .addArep p => [(.pot, p)]
  | .addEsop p => [(.pot, p)]
  | .addOc p s => [(.pot, p), (.shell, s)]

/-- Pointers handed over by a sequence of calls. -/
def attached (cs : List GrppCall) : List (ObjKind × Option Addr) := cs.flatMap GrppCall.args

def GrppCall.isArep : GrppCall → Bool
  | .addArep _ => true
  | _ => false

def GrppCall.isEsop : GrppCall → Bool
  | .addEsop _ => true
  | _ => false

def GrppCall.isOc : GrppCall → Bool
  | .addOc _ _ => true
  | _ => false

/-- Arguments of the additions to the semilocal list, in order. -/
def arepArgs (cs : List GrppCall) : List (Option Addr) := cs.filterMap fun
  | .addArep p => some p
  | _ => none

/-- Arguments of the additions to the spin-orbit list, in order. -/
def esopArgs (cs : List GrppCall) : List (Option Addr) := cs.filterMap fun
  | .addEsop p => some p
  | _ => none

/-- Arguments of the additions to the outer-core list, in order. -/
def ocArgs (cs : List GrppCall) : List (Option Addr × Option Addr) := cs.filterMap fun
  | .addOc p s => some (p, s)
  | _ => none

/-- The argument of the last call that set the local potential. -/
def localArg (cs : List GrppCall) : Option Addr := cs.foldl (fun u c => match c with
  | .setLocal p => p
  | _ => u) none

/-- At most 100 potentials are added to each of the three lists. -/
structure Fits (cs : List GrppCall) : Prop where
  arep : cs.countP GrppCall.isArep ≤ 100
  esop : cs.countP GrppCall.isEsop ≤ 100
  oc : cs.countP GrppCall.isOc ≤ 100

/-- Addresses from `next` on are unused. -/
def Store.WF (h : Store) : Prop := ∀ a, h.next ≤ a → h.mem a = none

/-- Every non-NULL pointer handed over points to a live object of the right kind. -/
def LiveArgs (h : Store) (cs : List GrppCall) : Prop :=
  ∀ k a, (k, some a) ∈ attached cs → ∃ o, h.mem a = some o ∧ o.kind = k

/-! ## Memory invariant -/

/-- Relation between the memory `h0` before the object was created and `h` now: `F` released caller's objects, `own` the
object's own blocks. -/
structure MemInv (h0 : Store) (F : List Addr) (own : List (ObjKind × Option Addr)) (h : Store) : Prop where
  freed : h.freed = F ++ h0.freed
  old : ∀ a < h0.next, h.mem a = if a ∈ F then none else h0.mem a
  ownk : ∀ k a, (k, some a) ∈ own → ∃ o, h.mem a = some o ∧ o.kind = k
  others : ∀ a, h0.next ≤ a → a ∉ addrs own → h.mem a = none
  perm : (addrs own).Perm (List.range' h0.next (h.next - h0.next))
  nxt : h0.next ≤ h.next

theorem MemInv.own_lt {h0 h F own} (m : MemInv h0 F own h) {a : Addr} (ha : a ∈ addrs own) :
    h0.next ≤ a ∧ a < h.next := by
  have := m.perm.mem_iff.1 ha
  have hn := m.nxt
  rw [List.mem_range'] at this
  obtain ⟨i, hi, e⟩ := this
  omega

theorem MemInv.alloc {h0 h F own} (m : MemInv h0 F own h) (o : Obj) (own' : List (ObjKind × Option Addr))
    (hp : (addrs own').Perm (h.next :: addrs own))
    (hk : ∀ k a, (k, some a) ∈ own' → (k, some a) ∈ own ∨ (k = o.kind ∧ a = h.next)) :
    MemInv h0 F own' (h.alloc o).2 := by
  have hn := m.nxt
  refine ⟨m.freed, fun a ha => ?_, fun k a hm => ?_, fun a ha hm => ?_, ?_, ?_⟩
  · have : a ≠ h.next := by omega
    simp only [Store.alloc, Function.update_of_ne this]
    exact m.old a ha
  · rcases hk k a hm with h1 | ⟨rfl, rfl⟩
    · obtain ⟨o', ho, hk⟩ := m.ownk k a h1
      have := (m.own_lt (mem_addrs.2 ⟨k, h1⟩)).2
      exact ⟨o', by simpa [Store.alloc, Function.update_of_ne (show a ≠ h.next by omega)] using ho, hk⟩
    · exact ⟨o, by simp [Store.alloc], rfl⟩
  · rw [hp.mem_iff, List.mem_cons, not_or] at hm
    simp only [Store.alloc, Function.update_of_ne hm.1]
    exact m.others a ha hm.2
  · refine hp.trans ?_
    have e : (h.alloc o).2.next - h0.next = (h.next - h0.next) + 1 := by simp only [Store.alloc]; omega
    rw [e, List.range'_concat]
    have e2 : h0.next + 1 * (h.next - h0.next) = h.next := by omega
    rw [e2]
    exact ((m.perm.cons _).trans (List.perm_append_singleton _ _).symm)
  · simp only [Store.alloc]; omega

theorem MemInv.congr {h0 h F own} (m : MemInv h0 F own h) (own' : List (ObjKind × Option Addr)) (hp : own'.Perm own) :
    MemInv h0 F own' h := by
  have ha : (addrs own').Perm (addrs own) := hp.filterMap _
  exact ⟨m.freed, m.old, fun k a hm => m.ownk k a (hp.mem_iff.1 hm), fun a h1 h2 => m.others a h1 fun h3 => h2 (ha.mem_iff.2 h3),
    ha.trans m.perm, m.nxt⟩

theorem MemInv.release {h0 h F own} (m : MemInv h0 F own h) {k : ObjKind} {a : Addr} {o : Obj} (hw : h0.WF)
    (h1 : h0.mem a = some o) (h2 : o.kind = k) (h3 : a ∉ F) :
    ∃ h', h.release k (some a) = .ok h' ∧ MemInv h0 (a :: F) own h' ∧ h'.next = h.next := by
  have ha : a < h0.next := by
    by_contra hc
    rw [hw a (by omega)] at h1
    cases h1
  have hm : h.mem a = some o := by rw [m.old a ha, if_neg h3, h1]
  refine ⟨⟨Function.update h.mem a none, h.next, a :: h.freed⟩, by simp only [Store.release, hm, h2, if_true], ⟨by simp [m.freed], fun b hb => ?_, fun k' b hb => ?_,
    fun b hb hb' => ?_, m.perm, m.nxt⟩, rfl⟩
  · by_cases hba : b = a
    · subst hba; simp
    · simp only [Function.update_of_ne hba, m.old b hb, List.mem_cons, hba, false_or]
  · have := (m.own_lt (mem_addrs.2 ⟨k', hb⟩)).1
    obtain ⟨o', ho, hk⟩ := m.ownk k' b hb
    exact ⟨o', by simpa [Function.update_of_ne (show b ≠ a by omega)] using ho, hk⟩
  · simp only [Function.update_of_ne (show b ≠ a by omega)]
    exact m.others b hb hb'

/-! ## Invariant of the object -/

/-- Bookkeeping of one array. -/
structure ArrInv (n : Nat) (a : PtrArray) : Prop where
  empty : n = 0 → a.block = none
  len : 0 < n → a.slots.length = maxPotentials

structure Tracks (h0 : Store) (cs : List GrppCall) (F : List Addr) (st : Store × GrppObj) : Prop where
  mem : MemInv h0 F st.2.own st.1
  nArep : st.2.nArep = cs.countP GrppCall.isArep
  nEsop : st.2.nEsop = cs.countP GrppCall.isEsop
  nOc : st.2.nOc = cs.countP GrppCall.isOc
  arep : ArrInv st.2.nArep st.2.arep
  esop : ArrInv st.2.nEsop st.2.esop
  oc : ArrInv st.2.nOc st.2.oc
  ocs : ArrInv st.2.nOc st.2.ocShells
  perm : (F ++ addrs st.2.held).Perm (addrs (attached cs))
  kinds : ∀ k a, (k, some a) ∈ st.2.held → (k, some a) ∈ attached cs
  nodupF : F.Nodup
  localL : st.2.uL = localArg cs
  arepL : st.2.arep.slots.take st.2.nArep = arepArgs cs
  esopL : st.2.esop.slots.take st.2.nEsop = esopArgs cs
  ocL : (st.2.oc.slots.zip st.2.ocShells.slots).take st.2.nOc = ocArgs cs

theorem attached_append (a b) : attached (a ++ b) = attached a ++ attached b := by simp [attached]

theorem take_set_next {α : Type} (l : List α) (n : Nat) (x : α) (h : n < l.length) :
    (l.set n x).take (n + 1) = l.take n ++ [x] := by
  rw [List.take_succ_eq_append_getElem (by simpa using h)]
  simp [List.take_set_of_le]

theorem used_set (k : ObjKind) (n : Nat) (a : PtrArray) (p : Option Addr) (h : n < a.slots.length) :
    PtrArray.used k (n + 1) ⟨a.block, a.slots.set n p⟩ = a.used k n ++ [(k, p)] := by
  simp only [PtrArray.used, take_set_next _ _ _ h, List.map_append, List.map_cons, List.map_nil]

theorem used_zero (k : ObjKind) (a : PtrArray) : a.used k 0 = [] := by simp [PtrArray.used]

theorem storePtr_ok (a : PtrArray) (n : Nat) (p : Option Addr) (h : n < a.slots.length) :
    storePtr a n p = .ok ⟨a.block, a.slots.set n p⟩ := by
  unfold storePtr
  rw [wr_ok _ h]
  rfl

theorem storePtr_ub (a : PtrArray) (n : Nat) (p : Option Addr) (h : a.slots.length ≤ n) : storePtr a n p = .ub := by
  unfold storePtr
  rw [wr_ub _ h]
  rfl

/-- Adding to one array: `own'` is the list of own blocks after replacing the array. -/
theorem allocIfFirst_inv {h0 h : Store} {F : List Addr} {n : Nat} {a : PtrArray} (rest : List (ObjKind × Option Addr))
    (m : MemInv h0 F ((.array, a.block) :: rest) h) (ha : ArrInv n a) (hn : n < maxPotentials) :
    let r := allocIfFirst h n a
    MemInv h0 F ((.array, r.2.block) :: rest) r.1 ∧ r.2.slots.length = maxPotentials ∧
      ∀ k, PtrArray.used k n r.2 = a.used k n := by
  unfold allocIfFirst
  by_cases h0' : n = 0
  · subst h0'
    simp only [if_true]
    refine ⟨m.alloc .array _ ?_ ?_, by simp, fun k => by simp [used_zero]⟩
    · simp [ha.empty rfl, Store.alloc]
    · intro k b hb
      simp only [List.mem_cons, Prod.mk.injEq, Option.some.injEq, Store.alloc] at hb ⊢
      rcases hb with ⟨rfl, rfl⟩ | hb
      · exact .inr ⟨rfl, rfl⟩
      · exact .inl (.inr hb)
  · simp only [if_neg h0']
    exact ⟨m, ha.len (by omega), fun k => trivial⟩

theorem used_snoc_addrs (k : ObjKind) (l : List (ObjKind × Option Addr)) (p : Option Addr) :
    addrs (l ++ [(k, p)]) = addrs l ++ p.toList := by
  rw [addrs_append, addrs_cons]; simp

theorem GrppObj.addrs_held (g : GrppObj) : addrs g.held = g.uL.toList ++ (addrs (g.arep.used .pot g.nArep) ++
      (addrs (g.esop.used .pot g.nEsop) ++ addrs g.ocList)) := by
  simp only [GrppObj.held, addrs_append, addrs_cons, addrs_nil, List.append_nil, List.append_assoc]

variable {h0 : Store} {cs : List GrppCall} {F : List Addr} {st : Store × GrppObj}

theorem Tracks.setLocal (t : Tracks h0 cs F st) (hw : h0.WF) (p : Option Addr)
    (haF' : ∀ a, st.2.uL = some a → a ∉ F) (hl : LiveArgs h0 (cs ++ [.setLocal p])) :
    ∃ st' F', setLocal st p = .ok st' ∧ Tracks h0 (cs ++ [.setLocal p]) F' st' := by
  classical
  have hcnt : ∀ f : GrppCall → Bool, f (.setLocal p) = false → (cs ++ [GrppCall.setLocal p]).countP f = cs.countP f := by
    intro f hf; simp [List.countP_append, List.countP_cons, hf]
  have hatt : attached (cs ++ [.setLocal p]) = attached cs ++ [(.pot, p)] := by simp [attached, GrppCall.args]
  have hperm := t.perm
  have hk : ∀ k a, (k, some a) ∈ ({ st.2 with uL := p } : GrppObj).held → (k, some a) ∈ attached (cs ++ [.setLocal p]) := by
    intro k a hm
    rw [hatt, List.mem_append]
    rw [GrppObj.mem_held] at hm
    rcases hm with hm | hm
    · exact .inr (List.mem_singleton.2 hm)
    · exact .inl (t.kinds k a ((GrppObj.mem_held _ _).2 (.inr hm)))
  have hnew : (addrs (attached (cs ++ [.setLocal p]))) = addrs (attached cs) ++ p.toList := by
    rw [hatt, used_snoc_addrs]
  have hcount : ∀ x, (addrs ({ st.2 with uL := p } : GrppObj).held).count x + st.2.uL.toList.count x
      = (addrs st.2.held).count x + p.toList.count x := by
    intro x
    simp only [GrppObj.addrs_held, List.count_append, GrppObj.ocList]
    omega
  have hloc : p = localArg (cs ++ [.setLocal p]) := by simp [localArg]
  have hA : arepArgs cs = arepArgs (cs ++ [.setLocal p]) := by simp [arepArgs]
  have hE : esopArgs cs = esopArgs (cs ++ [.setLocal p]) := by simp [esopArgs]
  have hO : ocArgs cs = ocArgs (cs ++ [.setLocal p]) := by simp [ocArgs]
  cases hu : st.2.uL with
  | none =>
    refine ⟨(st.1, { st.2 with uL := p }), F, ?_, ⟨t.mem, t.nArep.trans (hcnt _ rfl).symm, t.nEsop.trans (hcnt _ rfl).symm,
      t.nOc.trans (hcnt _ rfl).symm, t.arep, t.esop, t.oc, t.ocs, ?_, hk, t.nodupF, hloc, t.arepL.trans hA, t.esopL.trans hE, t.ocL.trans hO⟩⟩
    · unfold Libgrpp.setLocal
      rw [hu]; rfl
    · rw [List.perm_iff_count] at hperm ⊢
      intro x
      have h1 := hperm x
      have h2 := hcount x
      rw [hnew]
      simp only [List.count_append, hu, Option.toList_none, List.count_nil] at h1 h2 ⊢
      omega
  | some a =>
    have hin : (ObjKind.pot, some a) ∈ st.2.held := by
      rw [GrppObj.mem_held, hu]; exact .inl rfl
    obtain ⟨o, ho, hok⟩ := hl .pot a (by rw [hatt]; exact List.mem_append_left _ (t.kinds _ _ hin))
    have haF := haF' a hu
    obtain ⟨h', hr, hm, -⟩ := t.mem.release hw ho hok haF
    refine ⟨(h', { st.2 with uL := p }), a :: F, ?_, ⟨hm, t.nArep.trans (hcnt _ rfl).symm, t.nEsop.trans (hcnt _ rfl).symm,
      t.nOc.trans (hcnt _ rfl).symm, t.arep, t.esop, t.oc, t.ocs, ?_, hk, List.nodup_cons.2 ⟨haF, t.nodupF⟩, hloc, t.arepL.trans hA, t.esopL.trans hE, t.ocL.trans hO⟩⟩
    · unfold Libgrpp.setLocal
      rw [hu, hr]; rfl
    · rw [List.perm_iff_count] at hperm ⊢
      intro x
      have h1 := hperm x
      have h2 := hcount x
      rw [hnew]
      simp only [List.count_append, hu, Option.toList_some, List.count_cons, List.count_nil] at h1 h2 ⊢
      omega

theorem Tracks.addArep (t : Tracks h0 cs F st) (p : Option Addr) (hf : Fits (cs ++ [.addArep p])) :
    ∃ st', addArep st p = .ok st' ∧ Tracks h0 (cs ++ [.addArep p]) F st' := by
  classical
  have hlt : st.2.nArep < maxPotentials := by
    have := hf.arep
    rw [t.nArep]
    simp only [List.countP_append, List.countP_cons, List.countP_nil, GrppCall.isArep, if_true, maxPotentials] at this ⊢
    omega
  have hatt : attached (cs ++ [.addArep p]) = attached cs ++ [(.pot, p)] := by simp [attached, GrppCall.args]
  obtain ⟨hm, hs, hu⟩ := allocIfFirst_inv
    [(.array, st.2.esop.block), (.array, st.2.oc.block), (.array, st.2.ocShells.block), (.grpp, some st.2.self)]
    t.mem t.arep hlt
  generalize hr : allocIfFirst st.1 st.2.nArep st.2.arep = r at hm hs hu
  have hu' : r.2.slots.take st.2.nArep = st.2.arep.slots.take st.2.nArep :=
    (List.map_injective_iff.2 (fun _ _ h => (Prod.mk.inj h).2)) (hu .pot)
  have hst := storePtr_ok r.2 st.2.nArep p (by rw [hs]; exact hlt)
  have husd := used_set .pot st.2.nArep r.2 p (by rw [hs]; exact hlt)
  rw [hu] at husd
  refine ⟨(r.1, { st.2 with arep := ⟨r.2.block, r.2.slots.set st.2.nArep p⟩, nArep := st.2.nArep + 1 }),
    by unfold Libgrpp.addArep; rw [hr]; simp only [hst, Outcome.ok_bind], ⟨hm, ?_, ?_, ?_, ⟨fun h => by simp at h,
    fun _ => by simpa using hs⟩, t.esop, t.oc, t.ocs, ?_, ?_, t.nodupF, ?_, ?_, ?_, ?_⟩⟩
  · simp [List.countP_append, List.countP_cons, GrppCall.isArep, t.nArep]
  · simp [List.countP_append, List.countP_cons, GrppCall.isEsop, t.nEsop]
  · simp [List.countP_append, List.countP_cons, GrppCall.isOc, t.nOc]
  · have hperm := t.perm
    rw [hatt]
    rw [List.perm_iff_count] at hperm ⊢
    intro x
    have := hperm x
    simp only [GrppObj.addrs_held, husd, addrs_append, List.count_append, addrs_cons, addrs_nil, List.count_nil,
      GrppObj.ocList] at this ⊢
    omega
  · intro k a hm
    rw [hatt, List.mem_append]
    rw [GrppObj.mem_held] at hm
    have := t.kinds k a
    rw [GrppObj.mem_held] at this
    simp only [husd, List.mem_append] at hm
    rcases hm with hm | (hm | hm) | hm
    · exact .inl (this (.inl hm))
    · exact .inl (this (.inr (.inl hm)))
    · exact .inr hm
    · exact .inl (this (.inr (.inr hm)))
  · rw [t.localL]; simp [localArg]
  · simp only [take_set_next _ _ _ (show st.2.nArep < r.2.slots.length by rw [hs]; exact hlt), hu', t.arepL]; simp [arepArgs]
  · simp only [t.esopL]; simp [esopArgs]
  · simp only [t.ocL]; simp [ocArgs]

theorem Tracks.addEsop (t : Tracks h0 cs F st) (p : Option Addr) (hf : Fits (cs ++ [.addEsop p])) :
    ∃ st', addEsop st p = .ok st' ∧ Tracks h0 (cs ++ [.addEsop p]) F st' := by
  classical
  have hlt : st.2.nEsop < maxPotentials := by
    have := hf.esop
    rw [t.nEsop]
    simp only [List.countP_append, List.countP_cons, List.countP_nil, GrppCall.isEsop, if_true, maxPotentials] at this ⊢
    omega
  have hatt : attached (cs ++ [.addEsop p]) = attached cs ++ [(.pot, p)] := by simp [attached, GrppCall.args]
  obtain ⟨hm, hs, hu⟩ := allocIfFirst_inv
    [(.array, st.2.arep.block), (.array, st.2.oc.block), (.array, st.2.ocShells.block), (.grpp, some st.2.self)]
    (t.mem.congr _ (List.Perm.swap _ _ _)) t.esop hlt
  generalize hr : allocIfFirst st.1 st.2.nEsop st.2.esop = r at hm hs hu
  have hu' : r.2.slots.take st.2.nEsop = st.2.esop.slots.take st.2.nEsop :=
    (List.map_injective_iff.2 (fun _ _ h => (Prod.mk.inj h).2)) (hu .pot)
  have hst := storePtr_ok r.2 st.2.nEsop p (by rw [hs]; exact hlt)
  have husd := used_set .pot st.2.nEsop r.2 p (by rw [hs]; exact hlt)
  rw [hu] at husd
  refine ⟨(r.1, { st.2 with esop := ⟨r.2.block, r.2.slots.set st.2.nEsop p⟩, nEsop := st.2.nEsop + 1 }),
    by unfold Libgrpp.addEsop; rw [hr]; simp only [hst, Outcome.ok_bind],
    ⟨hm.congr _ (List.Perm.swap _ _ _), ?_, ?_, ?_, t.arep, ⟨fun h => by simp at h,
    fun _ => by simpa using hs⟩, t.oc, t.ocs, ?_, ?_, t.nodupF, ?_, ?_, ?_, ?_⟩⟩
  · simp [List.countP_append, List.countP_cons, GrppCall.isArep, t.nArep]
  · simp [List.countP_append, List.countP_cons, GrppCall.isEsop, t.nEsop]
  · simp [List.countP_append, List.countP_cons, GrppCall.isOc, t.nOc]
  · have hperm := t.perm
    rw [hatt]
    rw [List.perm_iff_count] at hperm ⊢
    intro x
    have := hperm x
    simp only [GrppObj.addrs_held, husd, addrs_append, List.count_append, addrs_cons, addrs_nil, List.count_nil,
      GrppObj.ocList] at this ⊢
    omega
  · intro k a hm
    rw [hatt, List.mem_append]
    rw [GrppObj.mem_held] at hm
    have := t.kinds k a
    rw [GrppObj.mem_held] at this
    simp only [husd, List.mem_append] at hm
    rcases hm with hm | hm | (hm | hm) | hm
    · exact .inl (this (.inl hm))
    · exact .inl (this (.inr (.inl hm)))
    · exact .inl (this (.inr (.inr (.inl hm))))
    · exact .inr hm
    · exact .inl (this (.inr (.inr (.inr hm))))
  · rw [t.localL]; simp [localArg]
  · simp only [t.arepL]; simp [arepArgs]
  · simp only [take_set_next _ _ _ (show st.2.nEsop < r.2.slots.length by rw [hs]; exact hlt), hu', t.esopL]; simp [esopArgs]
  · simp only [t.ocL]; simp [ocArgs]

theorem zip_take {α β : Type} (a : List α) (b : List β) (n : Nat) : (a.zip b).take n = (a.take n).zip (b.take n) := by
  simp [List.zip, List.take_zipWith]

theorem Tracks.addOc (t : Tracks h0 cs F st) (p s : Option Addr) (hf : Fits (cs ++ [.addOc p s])) :
    ∃ st', addOc st p s = .ok st' ∧ Tracks h0 (cs ++ [.addOc p s]) F st' := by
  classical
  have hlt : st.2.nOc < maxPotentials := by
    have := hf.oc
    rw [t.nOc]
    simp only [List.countP_append, List.countP_cons, List.countP_nil, GrppCall.isOc, if_true, maxPotentials] at this ⊢
    omega
  have hatt : attached (cs ++ [.addOc p s]) = attached cs ++ [(.pot, p), (.shell, s)] := by simp [attached, GrppCall.args]
  have hrot : ∀ a b c d e : ObjKind × Option Addr, [c, a, b, d, e].Perm [a, b, c, d, e] := by
    intro a b c d e
    rw [List.perm_iff_count]; intro x
    simp only [List.count_cons]; omega
  have hrot' : ∀ a b c d e : ObjKind × Option Addr, [d, c, a, b, e].Perm [c, a, b, d, e] := by
    intro a b c d e
    rw [List.perm_iff_count]; intro x
    simp only [List.count_cons]; omega
  obtain ⟨hm, hs, hu⟩ := allocIfFirst_inv
    [(.array, st.2.arep.block), (.array, st.2.esop.block), (.array, st.2.ocShells.block), (.grpp, some st.2.self)]
    (t.mem.congr _ (hrot _ _ _ _ _)) t.oc hlt
  generalize hr : allocIfFirst st.1 st.2.nOc st.2.oc = r at hm hs hu
  obtain ⟨hm', hs', hu'⟩ := allocIfFirst_inv
    [(.array, r.2.block), (.array, st.2.arep.block), (.array, st.2.esop.block), (.grpp, some st.2.self)]
    (hm.congr _ (hrot' _ _ _ _ _)) t.ocs hlt
  generalize hr' : allocIfFirst r.1 st.2.nOc st.2.ocShells = r' at hm' hs' hu'
  have hl1 : st.2.nOc < r.2.slots.length := by rw [hs]; exact hlt
  have hl2 : st.2.nOc < r'.2.slots.length := by rw [hs']; exact hlt
  have hst := storePtr_ok r.2 st.2.nOc p hl1
  have hst' := storePtr_ok r'.2 st.2.nOc s hl2
  have e1 : r.2.slots.take st.2.nOc = st.2.oc.slots.take st.2.nOc :=
    (List.map_injective_iff.2 (fun _ _ h => (Prod.mk.inj h).2)) (hu .pot)
  have e2 : r'.2.slots.take st.2.nOc = st.2.ocShells.slots.take st.2.nOc :=
    (List.map_injective_iff.2 (fun _ _ h => (Prod.mk.inj h).2)) (hu' .pot)
  have hlen : (st.2.oc.slots.take st.2.nOc).length = (st.2.ocShells.slots.take st.2.nOc).length := by
    rw [← e1, ← e2]; simp [hs, hs']
  set g' : GrppObj := { st.2 with oc := ⟨r.2.block, r.2.slots.set st.2.nOc p⟩, ocShells := ⟨r'.2.block, r'.2.slots.set st.2.nOc s⟩, nOc := st.2.nOc + 1 } with hg'
  have hoc : g'.ocList = st.2.ocList ++ [(.pot, p), (.shell, s)] := by
    simp only [GrppObj.ocList, zip_take, hg', take_set_next _ _ _ hl1, take_set_next _ _ _ hl2, e1, e2]
    rw [List.zip_append hlen]
    simp
  refine ⟨(r'.1, g'), by unfold Libgrpp.addOc; simp only [hr, hr', hst, hst', Outcome.ok_bind, hg'],
    ⟨hm'.congr _ ((hrot _ _ _ _ _).symm.trans (hrot' _ _ _ _ _).symm), ?_, ?_, ?_, t.arep, t.esop, ⟨fun h => by simp [hg'] at h,
    fun _ => by simpa [hg'] using hs⟩, ⟨fun h => by simp [hg'] at h, fun _ => by simpa [hg'] using hs'⟩, ?_, ?_, t.nodupF, ?_, ?_, ?_, ?_⟩⟩
  · simp [List.countP_append, List.countP_cons, GrppCall.isArep, t.nArep, hg']
  · simp [List.countP_append, List.countP_cons, GrppCall.isEsop, t.nEsop, hg']
  · simp [List.countP_append, List.countP_cons, GrppCall.isOc, t.nOc, hg']
  · have hperm := t.perm
    rw [hatt]
    rw [List.perm_iff_count] at hperm ⊢
    intro x
    have := hperm x
    simp only [GrppObj.addrs_held, hoc, addrs_append, List.count_append, addrs_cons, addrs_nil, List.count_nil] at this ⊢
    simp only [hg']
    omega
  · intro k a hm
    rw [hatt, List.mem_append]
    rw [GrppObj.mem_held] at hm
    have := t.kinds k a
    rw [GrppObj.mem_held] at this
    simp only [hoc, List.mem_append] at hm
    rcases hm with hm | hm | hm | hm | hm
    · exact .inl (this (.inl hm))
    · exact .inl (this (.inr (.inl hm)))
    · exact .inl (this (.inr (.inr (.inl hm))))
    · exact .inl (this (.inr (.inr (.inr hm))))
    · exact .inr hm
  · rw [show g'.uL = st.2.uL from rfl, t.localL]; simp [localArg]
  · rw [show g'.arep.slots.take g'.nArep = st.2.arep.slots.take st.2.nArep from rfl, t.arepL]; simp [arepArgs]
  · rw [show g'.esop.slots.take g'.nEsop = st.2.esop.slots.take st.2.nEsop from rfl, t.esopL]; simp [esopArgs]
  · have hO : (st.2.oc.slots.take st.2.nOc).zip (st.2.ocShells.slots.take st.2.nOc) = ocArgs cs := by rw [← zip_take, t.ocL]
    simp only [zip_take, hg', take_set_next _ _ _ hl1, take_set_next _ _ _ hl2, e1, e2]
    rw [List.zip_append hlen, hO]
    simp [ocArgs]

theorem Fits.left {a b : List GrppCall} (h : Fits (a ++ b)) : Fits a := by
  have h1 := h.arep; have h2 := h.esop; have h3 := h.oc
  simp only [List.countP_append] at h1 h2 h3
  exact ⟨by omega, by omega, by omega⟩

theorem LiveArgs.left {h : Store} {a b : List GrppCall} (hl : LiveArgs h (a ++ b)) : LiveArgs h a := fun k x hm =>
  hl k x (by rw [attached_append]; exact List.mem_append_left _ hm)

theorem tracks_new (h0 : Store) (hw : h0.WF) : Tracks h0 [] [] (newGrpp h0) := by
  have m0 : MemInv h0 [] [] h0 := ⟨rfl, fun a _ => by simp, fun k a h => by simp at h, fun a ha _ => hw a ha, by simp, le_rfl⟩
  refine ⟨?_, rfl, rfl, rfl, ⟨fun _ => rfl, fun h => by simp [newGrpp] at h⟩,
    ⟨fun _ => rfl, fun h => by simp [newGrpp] at h⟩, ⟨fun _ => rfl, fun h => by simp [newGrpp] at h⟩,
    ⟨fun _ => rfl, fun h => by simp [newGrpp] at h⟩, ?_, ?_, List.nodup_nil, rfl, rfl, rfl, rfl⟩
  · refine m0.alloc .grpp _ ?_ ?_
    · simp [newGrpp, GrppObj.own, Store.alloc]
    · intro k a h
      simp [newGrpp, GrppObj.own, Store.alloc] at h
      exact .inr ⟨h.1, h.2⟩
  · simp [newGrpp, GrppObj.held, GrppObj.ocList, PtrArray.used, attached]
  · intro k a h
    simp [newGrpp, GrppObj.held, GrppObj.ocList, PtrArray.used] at h

/-- A sequence of calls on a new object. -/
theorem tracks_runCalls (h0 : Store) (hw : h0.WF) (cs : List GrppCall) :
    (addrs (attached cs)).Nodup → LiveArgs h0 cs → Fits cs →
    ∃ st F, runCalls cs (newGrpp h0) = .ok st ∧ Tracks h0 cs F st := by
  induction cs using List.reverseRecOn with
  | nil =>
    intro _ _ _
    exact ⟨newGrpp h0, [], rfl, tracks_new h0 hw⟩
  | append_singleton cs c ih =>
    intro hn hl hf
    have hn' : (addrs (attached cs)).Nodup := by
      rw [attached_append, addrs_append] at hn
      exact (List.nodup_append.1 hn).1
    obtain ⟨st, F, hr, t⟩ := ih hn' hl.left hf.left
    have hrun : runCalls (cs ++ [c]) (newGrpp h0) = c.run st := by
      unfold runCalls at hr ⊢
      rw [List.foldlM_append, hr]
      simp [List.foldlM, bind_ok_self]
    rw [hrun]
    cases c with
    | setLocal p =>
      refine t.setLocal hw p (fun a ha => ?_) hl
      have hndF : (F ++ addrs st.2.held).Nodup := t.perm.symm.nodup hn'
      exact fun hc => (List.nodup_append.1 hndF).2.2 a hc a
        (mem_addrs.2 ⟨.pot, (GrppObj.mem_held _ _).2 (.inl (by rw [ha]))⟩) rfl
    | addArep p =>
      obtain ⟨st', h1, h2⟩ := t.addArep p hf
      exact ⟨st', F, h1, h2⟩
    | addEsop p =>
      obtain ⟨st', h1, h2⟩ := t.addEsop p hf
      exact ⟨st', F, h1, h2⟩
    | addOc p s =>
      obtain ⟨st', h1, h2⟩ := t.addOc p s hf
      exact ⟨st', F, h1, h2⟩

theorem Tracks.sized (t : Tracks h0 cs F st) (hf : Fits cs) : st.2.Sized := by
  have h1 := hf.arep; have h2 := hf.esop; have h3 := hf.oc
  rw [← t.nArep] at h1; rw [← t.nEsop] at h2; rw [← t.nOc] at h3
  have key : ∀ {n a}, ArrInv n a → n ≤ 100 → n ≤ a.slots.length := by
    intro n a h hn
    rcases Nat.eq_zero_or_pos n with h0 | h0
    · omega
    · rw [h.len h0]; exact hn
  exact ⟨key t.arep h1, key t.esop h2, key t.oc h3, key t.ocs h3⟩

/-- The same for a sequence known to return. -/
theorem tracks_of_runCalls (h0 : Store) (hw : h0.WF) (cs : List GrppCall) :
    LiveArgs h0 cs → Fits cs → ∀ st, runCalls cs (newGrpp h0) = .ok st → ∃ F, Tracks h0 cs F st := by
  induction cs using List.reverseRecOn with
  | nil =>
    intro hl hf st hr
    obtain ⟨st', F, h1, h2⟩ := tracks_runCalls h0 hw [] (by simp [attached]) hl hf
    rw [h1] at hr
    cases hr
    exact ⟨F, h2⟩
  | append_singleton cs c ih =>
    intro hl hf st' hr
    have : ∃ st, runCalls cs (newGrpp h0) = .ok st ∧ c.run st = .ok st' := by
      unfold runCalls at hr ⊢
      rw [List.foldlM_append, Outcome.bind_eq_ok] at hr
      obtain ⟨st, h1, h2⟩ := hr
      refine ⟨st, h1, ?_⟩
      simpa [List.foldlM, bind_ok_self] using h2
    obtain ⟨st, h1, h2⟩ := this
    obtain ⟨F, t⟩ := ih hl.left hf.left st h1
    cases c with
    | setLocal p =>
      have haF : ∀ a, st.2.uL = some a → a ∉ F := by
        intro a ha hc
        have hin : (ObjKind.pot, some a) ∈ st.2.held := (GrppObj.mem_held _ _).2 (.inl (by rw [ha]))
        obtain ⟨o, ho, -⟩ := hl.left .pot a (t.kinds _ _ hin)
        have hlt : a < h0.next := by
          by_contra hc
          rw [hw a (by omega)] at ho
          cases ho
        have hm : st.1.mem a = none := by rw [t.mem.old a hlt, if_pos hc]
        simp only [GrppCall.run, Libgrpp.setLocal, ha, Store.release, hm, Outcome.ub_bind] at h2
        cases h2
      obtain ⟨st2, F', e, t'⟩ := t.setLocal hw p haF hl
      simp only [GrppCall.run] at h2
      rw [e] at h2
      cases h2
      exact ⟨F', t'⟩
    | addArep p =>
      obtain ⟨st2, e, t'⟩ := t.addArep p hf
      simp only [GrppCall.run] at h2
      rw [e] at h2
      cases h2
      exact ⟨F, t'⟩
    | addEsop p =>
      obtain ⟨st2, e, t'⟩ := t.addEsop p hf
      simp only [GrppCall.run] at h2
      rw [e] at h2
      cases h2
      exact ⟨F, t'⟩
    | addOc p s =>
      obtain ⟨st2, e, t'⟩ := t.addOc p s hf
      simp only [GrppCall.run] at h2
      rw [e] at h2
      cases h2
      exact ⟨F, t'⟩

/-- Releasing a list succeeds only if the addresses are distinct and live. -/
theorem releaseAll_inv (l : List (ObjKind × Option Addr)) : ∀ h h' : Store, releaseAll l h = .ok h' →
    (addrs l).Nodup ∧ ∀ a ∈ addrs l, h.mem a ≠ none := by
  induction l with
  | nil => intro h h' _; simp
  | cons x l ih =>
    intro h h' hr
    obtain ⟨k, p⟩ := x
    have hs : releaseAll ((k, p) :: l) h = h.release k p >>= releaseAll l := by simp [releaseAll, List.foldlM]; rfl
    rw [hs, Outcome.bind_eq_ok] at hr
    obtain ⟨h1, e1, e2⟩ := hr
    obtain ⟨i1, i2⟩ := ih h1 h' e2
    cases p with
    | none =>
      simp only [Store.release, Outcome.ok.injEq] at e1
      subst e1
      exact ⟨i1, i2⟩
    | some a =>
      simp only [Store.release] at e1
      split at e1
      · next o ho =>
        split at e1
        · simp only [Outcome.ok.injEq] at e1
          subst e1
          have ha : a ∉ addrs l := fun hc => i2 a hc (by simp)
          refine ⟨by simp [ha, i1], ?_⟩
          intro b hb
          simp only [addrs_some, List.mem_cons] at hb
          rcases hb with rfl | hb
          · rw [ho]; simp
          · have : Function.update h.mem a none b ≠ none := i2 b hb
            rwa [Function.update_of_ne (show b ≠ a from fun e => ha (e ▸ hb))] at this
        · cases e1
      · cases e1

theorem Tracks.live (t : Tracks h0 cs F st) (hw : h0.WF) (hl : LiveArgs h0 cs) {k : ObjKind} {a : Addr}
    (hm : (k, some a) ∈ st.2.held) (hF : a ∉ F) : ∃ o, st.1.mem a = some o ∧ o.kind = k := by
  obtain ⟨o, ho, hk⟩ := hl k a (t.kinds k a hm)
  have hlt : a < h0.next := by
    by_contra hc
    rw [hw a (by omega)] at ho
    cases ho
  exact ⟨o, by rw [t.mem.old a hlt, if_neg hF, ho], hk⟩

theorem addrs_perm {a b : List (ObjKind × Option Addr)} (h : a.Perm b) : (addrs a).Perm (addrs b) := h.filterMap _

theorem Tracks.attached_lt (hw : h0.WF) (hl : LiveArgs h0 cs) {a : Addr} (ha : a ∈ addrs (attached cs)) : a < h0.next := by
  obtain ⟨k, hk⟩ := mem_addrs.1 ha
  obtain ⟨o, ho, -⟩ := hl k a hk
  by_contra hc
  rw [hw a (by omega)] at ho
  cases ho

theorem Tracks.delete (t : Tracks h0 cs F st) (hw : h0.WF) (hn : (addrs (attached cs)).Nodup) (hl : LiveArgs h0 cs)
    (hf : Fits cs) : ∃ h', deleteGrpp st.1 st.2 = .ok h' ∧
      (∀ a, h'.mem a = if a ∈ addrs (attached cs) then none else h0.mem a) ∧
      h'.freed.Perm (addrs (attached cs) ++ List.range' h0.next (h'.next - h0.next) ++ h0.freed) := by
  classical
  have hnd : (F ++ addrs st.2.held).Nodup := t.perm.symm.nodup hn
  have hsplit := List.nodup_append.1 hnd
  have hd : (addrs st.2.dels).Perm (addrs st.2.held ++ addrs st.2.own) := by
    have := addrs_perm (dels_perm st.2)
    rwa [addrs_append] at this
  have hheldlt : ∀ a ∈ addrs st.2.held, a < h0.next := fun a ha =>
    Tracks.attached_lt hw hl (t.perm.mem_iff.1 (List.mem_append_right _ ha))
  have hownd : (addrs st.2.own).Nodup := t.mem.perm.symm.nodup (List.nodup_range')
  have hdn : (addrs st.2.dels).Nodup := by
    refine hd.symm.nodup (List.nodup_append.2 ⟨hsplit.2.1, hownd, ?_⟩)
    intro a ha b hb e
    have h1 := hheldlt a ha
    have h2 := (t.mem.own_lt hb).1
    omega
  have hlive : ∀ k a, (k, some a) ∈ st.2.dels → ∃ o, st.1.mem a = some o ∧ o.kind = k := by
    intro k a hm
    rw [(dels_perm st.2).mem_iff, List.mem_append] at hm
    rcases hm with hm | hm
    · exact t.live hw hl hm fun hc => hsplit.2.2 a hc a (mem_addrs.2 ⟨k, hm⟩) rfl
    · exact t.mem.ownk k a hm
  refine ⟨_, by rw [deleteGrpp_eq _ _ (t.sized hf)]; exact releaseAll_ok _ _ hdn hlive, ?_, ?_⟩
  · intro a
    simp only [hd.mem_iff, List.mem_append]
    have hatt : a ∈ addrs (attached cs) ↔ a ∈ F ∨ a ∈ addrs st.2.held := by rw [← t.perm.mem_iff, List.mem_append]
    rw [if_congr hatt rfl rfl]
    by_cases h1 : a < h0.next
    · have h2 : a ∉ addrs st.2.own := fun hc => by have := (t.mem.own_lt hc).1; omega
      rw [t.mem.old a h1]
      by_cases h3 : a ∈ addrs st.2.held <;> by_cases h4 : a ∈ F <;> simp [h2, h3, h4]
    · have e0 : h0.mem a = none := hw a (by omega)
      by_cases h2 : a ∈ addrs st.2.own
      · simp [h2, e0]
      · rw [t.mem.others a (by omega) h2, e0]; simp
  · simp only [t.mem.freed]
    rw [List.perm_iff_count]
    intro x
    have h1 := List.perm_iff_count.1 hd x
    have h2 := List.perm_iff_count.1 t.perm x
    have h3 := List.perm_iff_count.1 t.mem.perm x
    simp only [List.count_append, List.count_reverse] at h1 h2 ⊢
    omega

theorem Tracks.delete_inv (t : Tracks h0 cs F st) (hw : h0.WF) (hl : LiveArgs h0 cs) (hf : Fits cs) {h' : Store}
    (hr : deleteGrpp st.1 st.2 = .ok h') : (addrs (attached cs)).Nodup := by
  rw [deleteGrpp_eq _ _ (t.sized hf)] at hr
  obtain ⟨h1, h2⟩ := releaseAll_inv _ _ _ hr
  have hd : (addrs st.2.dels).Perm (addrs st.2.held ++ addrs st.2.own) := by
    have := addrs_perm (dels_perm st.2)
    rwa [addrs_append] at this
  refine t.perm.nodup (List.nodup_append.2 ⟨t.nodupF, (List.nodup_append.1 (hd.nodup h1)).1, ?_⟩)
  intro a ha b hb e
  subst e
  have hlt := Tracks.attached_lt hw hl (t.perm.mem_iff.1 (List.mem_append_right _ hb))
  refine h2 a (hd.mem_iff.2 (List.mem_append_left _ hb)) ?_
  rw [t.mem.old a hlt, if_pos ha]

/-! ## Only return or undefined behaviour -/

def OkOrUb {α : Type} (x : Outcome α) : Prop := x = .ub ∨ ∃ a, x = .ok a

theorem OkOrUb.bind {α β : Type} {x : Outcome α} {f : α → Outcome β} (hx : OkOrUb x) (hf : ∀ a, OkOrUb (f a)) :
    OkOrUb (x >>= f) := by
  rcases hx with rfl | ⟨a, rfl⟩
  · exact .inl rfl
  · exact hf a

theorem OkOrUb.ok {α : Type} (a : α) : OkOrUb (.ok a) := .inr ⟨a, rfl⟩

theorem release_okOrUb (k p) (h : Store) : OkOrUb (h.release k p) := by
  unfold Store.release
  split
  · exact .ok _
  · split
    · split
      · exact .ok _
      · exact .inl rfl
    · exact .inl rfl

theorem storePtr_okOrUb (a n p) : OkOrUb (storePtr a n p) := by
  rcases lt_or_ge n a.slots.length with h | h
  · rw [storePtr_ok _ _ _ h]; exact .ok _
  · rw [storePtr_ub _ _ _ h]; exact .inl rfl

theorem run_okOrUb (c : GrppCall) (st) : OkOrUb (c.run st) := by
  cases c with
  | setLocal p => exact (release_okOrUb _ _ _).bind fun _ => .ok _
  | addArep p => exact (storePtr_okOrUb _ _ _).bind fun _ => .ok _
  | addEsop p => exact (storePtr_okOrUb _ _ _).bind fun _ => .ok _
  | addOc p s => exact (storePtr_okOrUb _ _ _).bind fun _ => (storePtr_okOrUb _ _ _).bind fun _ => .ok _

theorem runCalls_okOrUb (cs : List GrppCall) : ∀ st, OkOrUb (runCalls cs st) := by
  induction cs with
  | nil => intro st; exact .ok _
  | cons c cs ih =>
    intro st
    unfold runCalls
    rw [List.foldlM_cons]
    exact (run_okOrUb c st).bind ih

theorem releaseAll_okOrUb (l) : ∀ h, OkOrUb (releaseAll l h) := by
  induction l with
  | nil => intro h; exact .ok _
  | cons x l ih =>
    intro h
    unfold releaseAll
    rw [List.foldlM_cons]
    exact (release_okOrUb _ _ _).bind ih

/-! ## Overflow -/

structure Bounded (cs : List GrppCall) (g : GrppObj) : Prop where
  nA : g.nArep = cs.countP GrppCall.isArep
  nE : g.nEsop = cs.countP GrppCall.isEsop
  nO : g.nOc = cs.countP GrppCall.isOc
  bA : g.nArep ≤ 100
  bE : g.nEsop ≤ 100
  bO : g.nOc ≤ 100
  lA : 0 < g.nArep → g.arep.slots.length = 100
  lE : 0 < g.nEsop → g.esop.slots.length = 100
  lO : 0 < g.nOc → g.oc.slots.length = 100

theorem storePtr_inv {a a' : PtrArray} {n : Nat} {p : Option Addr} (h : storePtr a n p = .ok a') :
    n < a.slots.length ∧ a'.slots.length = a.slots.length := by
  rcases lt_or_ge n a.slots.length with hl | hl
  · rw [storePtr_ok _ _ _ hl] at h
    cases h
    exact ⟨hl, by simp⟩
  · rw [storePtr_ub _ _ _ hl] at h
    cases h

theorem allocIfFirst_len (h : Store) (n : Nat) (a : PtrArray) (ha : 0 < n → a.slots.length = 100) :
    (allocIfFirst h n a).2.slots.length = 100 := by
  unfold allocIfFirst
  split
  · simp [maxPotentials]
  · exact ha (by omega)

theorem bounded_runCalls (h0 : Store) (cs : List GrppCall) :
    ∀ st, runCalls cs (newGrpp h0) = .ok st → Bounded cs st.2 := by
  induction cs using List.reverseRecOn with
  | nil =>
    intro st h
    cases h
    exact ⟨rfl, rfl, rfl, by simp [newGrpp], by simp [newGrpp], by simp [newGrpp], by simp [newGrpp], by simp [newGrpp],
      by simp [newGrpp]⟩
  | append_singleton cs c ih =>
    intro st' hr
    have : ∃ st, runCalls cs (newGrpp h0) = .ok st ∧ c.run st = .ok st' := by
      unfold runCalls at hr ⊢
      rw [List.foldlM_append, Outcome.bind_eq_ok] at hr
      obtain ⟨st, h1, h2⟩ := hr
      refine ⟨st, h1, ?_⟩
      simpa [List.foldlM, bind_ok_self] using h2
    obtain ⟨st, h1, h2⟩ := this
    have b := ih st h1
    obtain ⟨nA, nE, nO, bA, bE, bO, lA, lE, lO⟩ := b
    cases c with
    | setLocal p =>
      simp only [GrppCall.run, Libgrpp.setLocal, Outcome.bind_eq_ok] at h2
      obtain ⟨h, -, e⟩ := h2
      cases e
      exact ⟨by simp [List.countP_append, GrppCall.isArep, nA], by simp [List.countP_append, GrppCall.isEsop, nE],
        by simp [List.countP_append, GrppCall.isOc, nO], bA, bE, bO, lA, lE, lO⟩
    | addArep p =>
      simp only [GrppCall.run, Libgrpp.addArep, Outcome.bind_eq_ok] at h2
      obtain ⟨a, h, e⟩ := h2
      cases e
      have := storePtr_inv h
      have hl := allocIfFirst_len st.1 st.2.nArep st.2.arep lA
      exact ⟨by simp [List.countP_append, GrppCall.isArep, nA], by simp [List.countP_append, GrppCall.isEsop, nE],
        by simp [List.countP_append, GrppCall.isOc, nO], by simp only; omega, bE, bO, fun _ => by simp only; omega, lE, lO⟩
    | addEsop p =>
      simp only [GrppCall.run, Libgrpp.addEsop, Outcome.bind_eq_ok] at h2
      obtain ⟨a, h, e⟩ := h2
      cases e
      have := storePtr_inv h
      have hl := allocIfFirst_len st.1 st.2.nEsop st.2.esop lE
      exact ⟨by simp [List.countP_append, GrppCall.isArep, nA], by simp [List.countP_append, GrppCall.isEsop, nE],
        by simp [List.countP_append, GrppCall.isOc, nO], bA, by simp only; omega, bO, lA, fun _ => by simp only; omega, lO⟩
    | addOc p s =>
      simp only [GrppCall.run, Libgrpp.addOc, Outcome.bind_eq_ok] at h2
      obtain ⟨a, h, b, h', e⟩ := h2
      cases e
      have := storePtr_inv h
      have hl := allocIfFirst_len st.1 st.2.nOc st.2.oc lO
      exact ⟨by simp [List.countP_append, GrppCall.isArep, nA], by simp [List.countP_append, GrppCall.isEsop, nE],
        by simp [List.countP_append, GrppCall.isOc, nO], bA, bE, by simp only; omega, lA, lE, fun _ => by simp only; omega⟩

/-! ## Reading -/

theorem derefPot_old {h0 h : Store} {F own} (m : MemInv h0 F own h) (hw : h0.WF) {a : Addr} {u : Potential}
    (ha : h0.mem a = some (.pot u)) (hF : a ∉ F) : derefPot h (some a) = .ok u := by
  have hlt : a < h0.next := by
    by_contra hc
    rw [hw a (by omega)] at ha
    cases ha
  unfold derefPot
  simp only [m.old a hlt, if_neg hF, ha]

theorem derefShell_old {h0 h : Store} {F own} (m : MemInv h0 F own h) (hw : h0.WF) {a : Addr} {u : Shell}
    (ha : h0.mem a = some (.shell u)) (hF : a ∉ F) : derefShell h (some a) = .ok u := by
  have hlt : a < h0.next := by
    by_contra hc
    rw [hw a (by omega)] at ha
    cases ha
  unfold derefShell
  simp only [m.old a hlt, if_neg hF, ha]

theorem readPots_ok {h : Store} {n : Nat} {a : PtrArray} (hn : n ≤ a.slots.length) {us : List Potential}
    (hu : List.Forall₂ (fun p u => derefPot h p = .ok u) (a.slots.take n) us) : readPots h n a = .ok us := by
  unfold readPots
  rw [forRange_rd a.slots (fun (p : Option Addr) (l : List Potential) => do
    let u ← derefPot h p
    .ok (l ++ [u])) n hn]
  have : ∀ (l : List (Option Addr)) (us acc : List Potential), List.Forall₂ (fun p u => derefPot h p = .ok u) l us →
      l.foldlM (fun (l : List Potential) (p : Option Addr) => do
        let u ← derefPot h p
        Outcome.ok (l ++ [u])) acc = .ok (acc ++ us) := by
    intro l us acc hf
    induction hf generalizing acc with
    | nil => simp
    | cons h1 _ ih => simp [List.foldlM_cons, h1, ih]
  simpa using this _ us [] hu

theorem readOc_ok {h : Store} {n : Nat} {a b : PtrArray} (hn : n ≤ a.slots.length) (hn' : n ≤ b.slots.length)
    {us : List (Potential × Shell)}
    (hu : List.Forall₂ (fun (p : Option Addr × Option Addr) u => derefPot h p.1 = .ok u.1 ∧ derefShell h p.2 = .ok u.2)
      ((a.slots.zip b.slots).take n) us) : readOc h n a b = .ok us := by
  have hz : n ≤ (a.slots.zip b.slots).length := by simp; omega
  have e1 : readOc h n a b = (forRange n [] fun i l => do
      let x ← rd (a.slots.zip b.slots) i
      let u ← derefPot h x.1
      let s ← derefShell h x.2
      .ok (l ++ [(u, s)])) := by
    unfold readOc
    refine forRange_congr _ _ _ (fun i hi l => ?_) []
    have h1 : i < a.slots.length := by omega
    have h2 : i < b.slots.length := by omega
    rw [rd_ok h1, rd_ok h2, rd_ok (by omega)]
    simp
  rw [e1, forRange_rd _ (fun (x : Option Addr × Option Addr) (l : List (Potential × Shell)) => do
      let u ← derefPot h x.1
      let s ← derefShell h x.2
      .ok (l ++ [(u, s)])) _ hz]
  have : ∀ (l : List (Option Addr × Option Addr)) (us acc : List (Potential × Shell)),
      List.Forall₂ (fun (p : Option Addr × Option Addr) u => derefPot h p.1 = .ok u.1 ∧ derefShell h p.2 = .ok u.2) l us →
      l.foldlM (fun (l : List (Potential × Shell)) (x : Option Addr × Option Addr) => do
        let u ← derefPot h x.1
        let s ← derefShell h x.2
        Outcome.ok (l ++ [(u, s)])) acc = .ok (acc ++ us) := by
    intro l us acc hf
    induction hf generalizing acc with
    | nil => simp
    | cons h1 _ ih => simp [List.foldlM_cons, h1, ih]
  simpa using this _ us [] hu

/-- Deleting an object that holds no caller's pointers. -/
theorem delete_own {h0 h : Store} {g : GrppObj} (hw : h0.WF) (m : MemInv h0 [] g.own h) (hs : g.Sized)
    (hh : addrs g.held = []) : ∃ h', deleteGrpp h g = .ok h' ∧ h'.mem = h0.mem ∧
      h'.freed.Perm (List.range' h0.next (h'.next - h0.next) ++ h0.freed) ∧ h0.next ≤ h'.next := by
  have hd : (addrs g.dels).Perm (addrs g.own) := by
    have := addrs_perm (dels_perm g)
    rwa [addrs_append, hh, List.nil_append] at this
  have hownd : (addrs g.own).Nodup := m.perm.symm.nodup (List.nodup_range')
  have hlive : ∀ k a, (k, some a) ∈ g.dels → ∃ o, h.mem a = some o ∧ o.kind = k := by
    intro k a hm
    rw [(dels_perm g).mem_iff, List.mem_append] at hm
    rcases hm with hm | hm
    · have : a ∈ addrs g.held := mem_addrs.2 ⟨k, hm⟩
      rw [hh] at this
      cases this
    · exact m.ownk k a hm
  refine ⟨_, by rw [deleteGrpp_eq _ _ hs]; exact releaseAll_ok _ _ (hd.symm.nodup hownd) hlive, ?_, ?_⟩
  · funext a
    simp only [hd.mem_iff]
    by_cases h1 : a < h0.next
    · have h2 : a ∉ addrs g.own := fun hc => by have := (m.own_lt hc).1; omega
      simp [h2, m.old a h1]
    · have e0 : h0.mem a = none := hw a (by omega)
      by_cases h2 : a ∈ addrs g.own
      · simp [h2, e0]
      · rw [m.others a (by omega) h2, e0]; simp
  · simp only [m.freed, List.nil_append]
    exact ⟨((List.reverse_perm _).trans (hd.trans m.perm)).append_right _, m.nxt⟩

/-! ## Rescaling -/

theorem scaleAt_ok (w : ℝ) (q k : Fin 3) (i : Nat) (G : Grads) (hi : i < (G (q.succ, k)).length) :
    scaleAt w q k i G = .ok (Function.update G (q.succ, k) ((G (q.succ, k)).set i ((G (q.succ, k))[i] * w))) := by
  unfold scaleAt
  rw [rd_ok hi]
  simp only [Outcome.ok_bind]
  rw [wr_ok _ hi]
  rfl

/-- Elements of the spin-orbit arrays selected by `P` have been multiplied by `w`. -/
structure ScaledOn (w : ℝ) (P : Fin 3 → Fin 3 → Nat → Prop) (G G' : Grads) : Prop where
  len : ∀ q, (G' q).length = (G q).length
  scalar : ∀ k, G' (0, k) = G (0, k)
  hit : ∀ (q k : Fin 3) i, P q k i → (G' (q.succ, k))[i]? = (G (q.succ, k))[i]?.map (· * w)
  miss : ∀ (q k : Fin 3) i, ¬ P q k i → (G' (q.succ, k))[i]? = (G (q.succ, k))[i]?

theorem ScaledOn.step {w : ℝ} {P : Fin 3 → Fin 3 → Nat → Prop} {G G' : Grads} (h : ScaledOn w P G G') (q k : Fin 3) (i : Nat)
    (hi : i < (G (q.succ, k)).length) (hP : ¬ P q k i) :
    ∃ G'', scaleAt w q k i G' = .ok G'' ∧ ScaledOn w (fun a b j => P a b j ∨ (a = q ∧ b = k ∧ j = i)) G G'' := by
  have hi' : i < (G' (q.succ, k)).length := by rw [h.len]; exact hi
  refine ⟨_, scaleAt_ok w q k i G' hi', ⟨fun p => ?_, fun b => ?_, fun a b j hj => ?_, fun a b j hj => ?_⟩⟩
  · by_cases hp : p = (q.succ, k)
    · subst hp; simp [h.len]
    · rw [Function.update_of_ne hp, h.len]
  · have : ((0 : Fin 4), b) ≠ (q.succ, k) := fun e => Fin.succ_ne_zero q (Prod.mk.inj e).1.symm
    rw [Function.update_of_ne this, h.scalar]
  · by_cases hp : ((a.succ : Fin 4), b) = (q.succ, k)
    · obtain ⟨e1, rfl⟩ := Prod.mk.inj hp
      obtain rfl : a = q := Fin.succ_injective _ e1
      simp only [Function.update_self]
      by_cases hji : j = i
      · subst hji
        have := h.miss a b j hP
        rw [List.getElem?_set_self hi', ← this, List.getElem?_eq_getElem hi']
        simp
      · rw [List.getElem?_set_ne (fun e => hji e.symm)]
        rcases hj with hj | ⟨-, -, e⟩
        · exact h.hit a b j hj
        · exact absurd e hji
    · rw [Function.update_of_ne hp]
      rcases hj with hj | ⟨rfl, rfl, -⟩
      · exact h.hit a b j hj
      · exact absurd rfl hp
  · rw [not_or] at hj
    by_cases hp : ((a.succ : Fin 4), b) = (q.succ, k)
    · obtain ⟨e1, rfl⟩ := Prod.mk.inj hp
      obtain rfl : a = q := Fin.succ_injective _ e1
      simp only [Function.update_self]
      have hji : j ≠ i := fun e => hj.2 ⟨rfl, rfl, e⟩
      rw [List.getElem?_set_ne (fun e => hji e.symm)]
      exact h.miss a b j hj.1
    · rw [Function.update_of_ne hp]
      exact h.miss a b j hj.1

theorem ScaledOn.congr {w : ℝ} {P Q : Fin 3 → Fin 3 → Nat → Prop} {G G' : Grads} (h : ScaledOn w P G G')
    (hpq : ∀ q k i, P q k i ↔ Q q k i) : ScaledOn w Q G G' :=
  ⟨h.len, h.scalar, fun q k i hq => h.hit q k i ((hpq q k i).2 hq), fun q k i hq => h.miss q k i fun hp => hq ((hpq q k i).1 hp)⟩

theorem ScaledOn.coord {w : ℝ} {P : Fin 3 → Fin 3 → Nat → Prop} {G G' : Grads} (h : ScaledOn w P G G') (k : Fin 3) (i : Nat)
    (hi : ∀ q : Fin 3, i < (G (q.succ, k)).length) (hP : ∀ q, ¬ P q k i) :
    ∃ G'', (forCoord G' fun q G => scaleAt w q k i G) = .ok G'' ∧
      ScaledOn w (fun a b j => P a b j ∨ (b = k ∧ j = i)) G G'' := by
  obtain ⟨G1, e1, h1⟩ := h.step 0 k i (hi 0) (hP 0)
  obtain ⟨G2, e2, h2⟩ := h1.step 1 k i (hi 1) (by simpa using hP 1)
  obtain ⟨G3, e3, h3⟩ := h2.step 2 k i (hi 2) (by simpa using hP 2)
  refine ⟨G3, by unfold forCoord; simp only [e1, e2, e3, Outcome.ok_bind], h3.congr fun a b j => ?_⟩
  constructor
  · rintro (((h | h) | h) | h)
    · exact .inl h
    · exact .inr h.2
    · exact .inr h.2
    · exact .inr h.2
  · rintro (h | h)
    · exact .inl (.inl (.inl h))
    · fin_cases a
      · exact .inl (.inl (.inr ⟨rfl, h⟩))
      · exact .inl (.inr ⟨rfl, h⟩)
      · exact .inr ⟨rfl, h⟩

theorem ScaledOn.row {w : ℝ} {P : Fin 3 → Fin 3 → Nat → Prop} {G G' : Grads} (h : ScaledOn w P G G') (k : Fin 3) (size : Nat)
    (hi : ∀ q : Fin 3, size ≤ (G (q.succ, k)).length) (hP : ∀ q i, ¬ P q k i) :
    ∃ G'', (forRange size G' fun i G => forCoord G fun q G => scaleAt w q k i G) = .ok G'' ∧
      ScaledOn w (fun a b j => P a b j ∨ (b = k ∧ j < size)) G G'' := by
  refine forRange_spec (fun n G'' => ScaledOn w (fun a b j => P a b j ∨ (b = k ∧ j < n)) G G'')
    (h.congr fun a b j => by simp) (fun n G1 hn h1 => ?_) (fun G1 h1 => h1)
  obtain ⟨G2, e2, h2⟩ := h1.coord k n (fun q => lt_of_lt_of_le hn (hi q)) (fun q hc => by
    rcases hc with hc | hc
    · exact hP q n hc
    · exact lt_irrefl _ hc.2)
  refine ⟨G2, e2, h2.congr fun a b j => ?_⟩
  constructor
  · rintro ((h | h) | h)
    · exact .inl h
    · exact .inr ⟨h.1, by omega⟩
    · exact .inr ⟨h.1, by omega⟩
  · rintro (h | h)
    · exact .inl (.inl h)
    · by_cases hj : j = n
      · exact .inr ⟨h.1, hj⟩
      · exact .inl (.inr ⟨h.1, by omega⟩)

theorem rescaleSO_ok (w : ℝ) (size : Nat) (G : Grads) (hi : ∀ q, size ≤ (G q).length) :
    ∃ G', rescaleSO w size G = .ok G' ∧ ScaledOn w (fun _ _ j => j < size) G G' := by
  have h0 : ScaledOn w (fun _ _ _ => False) G G := ⟨fun _ => rfl, fun _ => rfl, fun _ _ _ h => h.elim, fun _ _ _ _ => rfl⟩
  obtain ⟨G1, e1, h1⟩ := h0.row 0 size (fun q => hi _) (fun _ _ h => h)
  obtain ⟨G2, e2, h2⟩ := h1.row 1 size (fun q => hi _) (by simp)
  obtain ⟨G3, e3, h3⟩ := h2.row 2 size (fun q => hi _) (by simp)
  refine ⟨G3, by unfold rescaleSO; unfold forCoord at e1 e2 e3 ⊢; simp only [e1, e2, e3, Outcome.ok_bind], h3.congr fun a b j => ?_⟩
  constructor
  · rintro (((h | h) | h) | h)
    · exact h.elim
    all_goals exact h.2
  · intro h
    fin_cases b
    · exact .inl (.inl (.inr ⟨rfl, h⟩))
    · exact .inl (.inr ⟨rfl, h⟩)
    · exact .inr ⟨rfl, h⟩

end Libgrpp
