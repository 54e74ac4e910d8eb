import Verif.Lemmas.Grpp
import Verif.Props.GrppGradient
import Verif.Props.Full

/-! # C41, C42, C44, C60: ownership and contents of GRPP objects -/

namespace Libgrpp

/-- Create an object, make the calls, delete the object. -/
def grppLife (h0 : Store) (cs : List GrppCall) : Outcome Store := do
  let st ← runCalls cs (newGrpp h0)
  deleteGrpp st.1 st.2

/-- **C41** (partial: needs distinct pointers and at most 100 additions per list; see `grpp_life_returns_iff` for why). Every
object handed over, including local potentials that were replaced, and every block allocated by the calls is released
exactly once; nothing else is released, and every other object is unchanged. -/
theorem grpp_frees_once_partial (h0 : Store) (hw : h0.WF) (cs : List GrppCall) (hl : LiveArgs h0 cs) (hf : Fits cs)
    (hn : (addrs (attached cs)).Nodup) :
    ∃ h', grppLife h0 cs = .ok h' ∧ (∀ a, h'.mem a = if a ∈ addrs (attached cs) then none else h0.mem a) ∧
      h'.freed.Perm (addrs (attached cs) ++ List.range' h0.next (h'.next - h0.next) ++ h0.freed) := by
  obtain ⟨st, F, hr, t⟩ := tracks_runCalls h0 hw cs hn hl hf
  obtain ⟨h', e, h1, h2⟩ := t.delete hw hn hl hf
  exact ⟨h', by unfold grppLife; rw [hr]; exact e, h1, h2⟩

/-- **C41**, exact condition: with live objects and at most 100 additions per list, the life of a GRPP object is free of
undefined behaviour if and only if no object was handed over twice. -/
theorem grpp_life_returns_iff (h0 : Store) (hw : h0.WF) (cs : List GrppCall) (hl : LiveArgs h0 cs) (hf : Fits cs) :
    (∃ h', grppLife h0 cs = .ok h') ↔ (addrs (attached cs)).Nodup := by
  refine ⟨fun ⟨h', h⟩ => ?_, fun hn => ?_⟩
  · unfold grppLife at h
    rw [Outcome.bind_eq_ok] at h
    obtain ⟨st, h1, h2⟩ := h
    obtain ⟨F, t⟩ := tracks_of_runCalls h0 hw cs hl hf st h1
    exact t.delete_inv hw hl hf h2
  · obtain ⟨h', h, -⟩ := grpp_frees_once_partial h0 hw cs hl hf hn
    exact ⟨h', h⟩

/-- **C41** is false without the condition: an object handed over twice (the same local potential set again, or one
potential in two lists) is undefined behaviour, a double free. -/
theorem grpp_double_free (h0 : Store) (hw : h0.WF) (cs : List GrppCall) (hl : LiveArgs h0 cs) (hf : Fits cs)
    (hn : ¬ (addrs (attached cs)).Nodup) : grppLife h0 cs = .ub := by
  have hno : ¬ ∃ h', grppLife h0 cs = .ok h' := fun h => hn ((grpp_life_returns_iff h0 hw cs hl hf).1 h)
  rcases runCalls_okOrUb cs (newGrpp h0) with h | ⟨st, h⟩
  · unfold grppLife; rw [h]; rfl
  · obtain ⟨F, t⟩ := tracks_of_runCalls h0 hw cs hl hf st h
    have hd : grppLife h0 cs = releaseAll st.2.dels st.1 := by
      unfold grppLife; rw [h]; exact deleteGrpp_eq _ _ (t.sized hf)
    rcases releaseAll_okOrUb st.2.dels st.1 with h' | ⟨s, h'⟩
    · rw [hd, h']
    · exact absurd ⟨s, by rw [hd, h']⟩ hno

/-- **C42** (partial: at most 100 per list). Additions stay inside the object's storage. -/
theorem grpp_add_in_bounds_partial (h0 : Store) (hw : h0.WF) (cs : List GrppCall) (hl : LiveArgs h0 cs) (hf : Fits cs)
    (hn : (addrs (attached cs)).Nodup) : ∃ st, runCalls cs (newGrpp h0) = .ok st := by
  obtain ⟨st, -, hr, -⟩ := tracks_runCalls h0 hw cs hn hl hf
  exact ⟨st, hr⟩

/-- **C42** is false: every sequence of calls with more than 100 additions to one of the three lists is undefined behaviour
(a write outside the array). -/
theorem grpp_add_overflow (h0 : Store) (cs : List GrppCall) (hf : ¬ Fits cs) : runCalls cs (newGrpp h0) = .ub := by
  rcases runCalls_okOrUb cs (newGrpp h0) with h | ⟨st, h⟩
  · exact h
  · have b := bounded_runCalls h0 cs st h
    exact absurd ⟨b.nA ▸ b.bA, b.nE ▸ b.bE, b.nO ▸ b.bO⟩ hf

/-! ## C60: contents -/

/-- The data behind the pointers handed over. -/
structure PointsTo (h : Store) (cs : List GrppCall) (d : GrppData) : Prop where
  local_ : (localArg cs = none ∧ d.local_ = none) ∨ ∃ a u, localArg cs = some a ∧ h.mem a = some (.pot u) ∧ d.local_ = some u
  arep : List.Forall₂ (fun p u => ∃ a, p = some a ∧ h.mem a = some (.pot u)) (arepArgs cs) d.arep
  esop : List.Forall₂ (fun p u => ∃ a, p = some a ∧ h.mem a = some (.pot u)) (esopArgs cs) d.esop
  oc : List.Forall₂ (fun (p : Option Addr × Option Addr) u => (∃ a, p.1 = some a ∧ h.mem a = some (.pot u.1)) ∧
    ∃ a, p.2 = some a ∧ h.mem a = some (.shell u.2)) (ocArgs cs) d.oc

theorem Tracks.contents {h0 : Store} {cs : List GrppCall} {F : List Addr} {st : Store × GrppObj} (t : Tracks h0 cs F st)
    (hw : h0.WF) (hf : Fits cs) (hF : ∀ k a, (k, some a) ∈ st.2.held → a ∉ F) (d : GrppData) (hd : PointsTo h0 cs d) :
    readGrpp st.1 st.2 = .ok d := by
  have hs := t.sized hf
  have hpot : ∀ {n a}, (∀ x ∈ PtrArray.used .pot n a, x ∈ st.2.held) → ∀ {us l}, a.slots.take n = l →
      List.Forall₂ (fun p u => ∃ b, p = some b ∧ h0.mem b = some (.pot u)) l us →
      List.Forall₂ (fun p u => derefPot st.1 p = .ok u) (a.slots.take n) us := by
    intro n a hin us l hl hu
    rw [List.forall₂_iff_get] at hu ⊢
    obtain ⟨hlen, hu⟩ := hu
    refine ⟨by rw [hl]; exact hlen, fun i h1 h2 => ?_⟩
    obtain ⟨b, e1, e2⟩ := hu i (hl ▸ h1) h2
    have e : (a.slots.take n).get ⟨i, h1⟩ = some b := by
      rw [← e1]; subst hl; rfl
    have hmem : (ObjKind.pot, some b) ∈ PtrArray.used .pot n a := by
      unfold PtrArray.used
      rw [List.mem_map]
      exact ⟨some b, e ▸ List.get_mem _ _, rfl⟩
    rw [e]
    exact derefPot_old t.mem hw e2 (hF .pot b (hin _ hmem))
  have hA := hpot (fun x hx => (GrppObj.mem_held _ _).2 (.inr (.inl hx))) t.arepL hd.arep
  have hE := hpot (fun x hx => (GrppObj.mem_held _ _).2 (.inr (.inr (.inl hx)))) t.esopL hd.esop
  have hO : List.Forall₂ (fun (p : Option Addr × Option Addr) u => derefPot st.1 p.1 = .ok u.1 ∧ derefShell st.1 p.2 = .ok u.2)
      ((st.2.oc.slots.zip st.2.ocShells.slots).take st.2.nOc) d.oc := by
    have hu := hd.oc
    have hl := t.ocL
    rw [← hl] at hu
    rw [List.forall₂_iff_get] at hu ⊢
    obtain ⟨hlen, hu⟩ := hu
    refine ⟨hlen, fun i h1 h2 => ?_⟩
    obtain ⟨⟨b, e1, e2⟩, ⟨c, e3, e4⟩⟩ := hu i h1 h2
    have hm := List.get_mem _ ⟨i, h1⟩
    have hin : ∀ x, x = (ObjKind.pot, some b) ∨ x = (ObjKind.shell, some c) → x ∈ st.2.held := by
      intro x hx
      refine (GrppObj.mem_held _ _).2 (.inr (.inr (.inr ?_)))
      unfold GrppObj.ocList
      rw [List.mem_flatMap]
      refine ⟨_, hm, ?_⟩
      rw [e1, e3]
      simpa using hx
    rw [e1, e3]
    exact ⟨derefPot_old t.mem hw e2 (hF _ _ (hin _ (.inl rfl))), derefShell_old t.mem hw e4 (hF _ _ (hin _ (.inr rfl)))⟩
  unfold readGrpp
  rw [readPots_ok hs.arep hA, readPots_ok hs.esop hE, readOc_ok hs.oc hs.ocs hO, t.localL]
  rcases hd.local_ with ⟨h1, h2⟩ | ⟨a, u, h1, h2, h3⟩
  · rw [h1]
    simp only [readLocal, Outcome.ok_bind]
    rw [← h2]
  · have hin : (ObjKind.pot, some a) ∈ st.2.held := (GrppObj.mem_held _ _).2 (.inl (by rw [t.localL, h1]))
    have := derefPot_old t.mem hw h2 (hF _ _ hin)
    rw [h1]
    simp only [readLocal, this, Outcome.ok_bind]
    rw [← h3]

/-- **C60.** After any sequence of calls the object presents to the integral routines exactly what was attached: the last
local potential, and the other potentials and shells in the order they were added. -/
theorem grpp_contents (h0 : Store) (hw : h0.WF) (cs : List GrppCall) (hl : LiveArgs h0 cs) (hf : Fits cs)
    (hn : (addrs (attached cs)).Nodup) (d : GrppData) (hd : PointsTo h0 cs d) :
    ∃ st, runCalls cs (newGrpp h0) = .ok st ∧ ∀ K init C, fullObj K init C st.1 st.2 = fun S T M => fullGrpp K init S T d C M := by
  obtain ⟨st, F, hr, t⟩ := tracks_runCalls h0 hw cs hn hl hf
  refine ⟨st, hr, fun K init C => ?_⟩
  have hsplit := List.nodup_append.1 (t.perm.symm.nodup hn)
  have := t.contents hw hf (fun k a hm hc => hsplit.2.2 a hc a (mem_addrs.2 ⟨k, hm⟩) rfl) d hd
  unfold fullObj
  rw [this]
  rfl

end Libgrpp
