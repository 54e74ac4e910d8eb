import Verif.Model.FortranModule
import Verif.Props.Fortran

/-! # Auxiliary lemmas for Props/FortranModule: sequences of calls that restore the memory -/

namespace Libgrpp

theorem Restored.self (h : Store) : Restored h h := ⟨rfl, by simp, le_rfl⟩

theorem Restored.then {h h1 h2 : Store} (r : Restored h h1) (s : Restored h1 h2) : Restored h h2 := by
  obtain ⟨r1, r2, r3⟩ := r
  obtain ⟨s1, s2, s3⟩ := s
  refine ⟨s1.trans r1, ?_, r3.trans s3⟩
  refine s2.trans ((List.Perm.append_left _ r2).trans ?_)
  have e : List.range' h.next (h2.next - h.next) = List.range' h.next (h1.next - h.next) ++ List.range' h1.next (h2.next - h1.next) := by
    have := List.range'_append_1 (s := h.next) (m := h1.next - h.next) (n := h2.next - h1.next)
    rw [show h.next + (h1.next - h.next) = h1.next by omega] at this
    rw [this]
    congr 1
    omega
  rw [e, ← List.append_assoc]
  exact List.Perm.append_right _ List.perm_append_comm

theorem Restored.wf' {h h1 : Store} (r : Restored h h1) (hw : h.WF) : h1.WF := by
  intro a ha
  rw [r.1]
  exact hw a (r.2.2.trans ha)

theorem Forwards.pure' {α : Type} (h : Store) (x : α) : Forwards h (.ok (h, x)) (.ok x) := ⟨h, Restored.self h, rfl⟩

/-- Calls one after the other. -/
theorem Forwards.bind' {α β : Type} {h : Store} {x : Outcome (Store × α)} {y : Outcome α} (f : Forwards h x y)
    {k : Store × α → Outcome (Store × β)} {l : α → Outcome β} (g : ∀ h1 r, Restored h h1 → Forwards h1 (k (h1, r)) (l r)) :
    Forwards h (x >>= k) (y >>= l) := by
  obtain ⟨h1, r1, e⟩ := f
  subst e
  cases y with
  | ok r =>
    obtain ⟨h2, r2, e2⟩ := g h1 r r1
    exact ⟨h2, r1.then r2, e2⟩
  | ub => exact ⟨h, Restored.self h, rfl⟩
  | abort => exact ⟨h, Restored.self h, rfl⟩
  | exit => exact ⟨h, Restored.self h, rfl⟩

/-- A loop of calls. -/
theorem forwards_forRange {α : Type} (n : Nat) {body : Nat → Store × α → Outcome (Store × α)} {spec : Nat → α → Outcome α}
    (hb : ∀ i < n, ∀ (h : Store) (s : α), h.WF → Forwards h (body i (h, s)) (spec i s)) (h : Store) (hw : h.WF) (s : α) :
    Forwards h (forRange n (h, s) body) (forRange n s spec) := by
  induction n with
  | zero => exact Forwards.pure' h s
  | succ n ih =>
    rw [forRange_succ, forRange_succ]
    exact (ih fun i hi => hb i (by omega)).bind' fun h1 r hr => hb n (by omega) h1 r (hr.wf' hw)

/-- The same memory and results as a computation that needs no memory. -/
theorem forwards_pre {α β : Type} {h : Store} {x : Outcome β} {k : β → Outcome (Store × α)} {l : β → Outcome α}
    (f : ∀ b, Forwards h (k b) (l b)) : Forwards h (x >>= k) (x >>= l) := by
  cases x with
  | ok r => exact f r
  | ub => exact ⟨h, Restored.self h, rfl⟩
  | abort => exact ⟨h, Restored.self h, rfl⟩
  | exit => exact ⟨h, Restored.self h, rfl⟩

end Libgrpp
