import Verif.Model.Outcome

/-! # Bounds-checked arrays

A C array of `n` elements is a list of length `n`. Reading or writing outside is undefined behaviour. -/

namespace Libgrpp

variable {α : Type _}

/-- `a[i]` as an rvalue. -/
def rd (a : List α) (i : Nat) : Outcome α :=
  match a[i]? with
  | some v => .ok v
  | none => .ub

/-- `a[i] = v`. -/
def wr (a : List α) (i : Nat) (v : α) : Outcome (List α) :=
  if i < a.length then .ok (a.set i v) else .ub

theorem rd_ok {a : List α} {i : Nat} (h : i < a.length) : rd a i = .ok a[i] := by
  simp [rd, List.getElem?_eq_getElem h]

theorem rd_ub {a : List α} {i : Nat} (h : a.length ≤ i) : rd a i = .ub := by
  simp [rd, List.getElem?_eq_none h]

theorem wr_ok {a : List α} {i : Nat} (v : α) (h : i < a.length) : wr a i v = .ok (a.set i v) := if_pos h

theorem wr_ub {a : List α} {i : Nat} (v : α) (h : a.length ≤ i) : wr a i v = .ub := if_neg (by omega)

/-- `for (int i = 0; i < n; i++) s = body(i, s);` -/
def forRange {σ : Type _} (n : Nat) (s : σ) (body : Nat → σ → Outcome σ) : Outcome σ :=
  (List.range n).foldlM (fun s i => body i s) s

theorem forRange_zero {σ : Type _} (s : σ) (body : Nat → σ → Outcome σ) : forRange 0 s body = .ok s := rfl

theorem forRange_succ {σ : Type _} (n : Nat) (s : σ) (body : Nat → σ → Outcome σ) :
    forRange (n + 1) s body = forRange n s body >>= body n := by
  unfold forRange
  rw [List.range_succ, List.foldlM_append]
  cases h : List.foldlM (fun s i => body i s) s (List.range n) with
  | ok a =>
    simp only [Outcome.ok_bind, List.foldlM_cons, List.foldlM_nil]
    cases body n a <;> rfl
  | ub => rfl
  | abort => rfl
  | exit => rfl

/-- Loop rule: an invariant that every iteration re-establishes holds after the loop. -/
theorem forRange_inv {σ : Type _} {n : Nat} {s : σ} {body : Nat → σ → Outcome σ} (I : Nat → σ → Prop)
    (h0 : I 0 s) (hstep : ∀ i s, i < n → I i s → ∃ s', body i s = .ok s' ∧ I (i + 1) s') :
    ∃ s', forRange n s body = .ok s' ∧ I n s' := by
  induction n with
  | zero => exact ⟨s, rfl, h0⟩
  | succ n ih =>
    obtain ⟨s1, h1, hI1⟩ := ih (fun i s hi => hstep i s (by omega))
    obtain ⟨s2, h2, hI2⟩ := hstep n s1 (by omega) hI1
    exact ⟨s2, by rw [forRange_succ, h1]; exact h2, hI2⟩

/-- Loop rule with a postcondition, shaped for unification against a goal. -/
theorem forRange_spec {σ : Type _} {n : Nat} {s : σ} {body : Nat → σ → Outcome σ} {Q : σ → Prop}
    (I : Nat → σ → Prop) (h0 : I 0 s)
    (hstep : ∀ i s, i < n → I i s → ∃ s', body i s = .ok s' ∧ I (i + 1) s') (hpost : ∀ s, I n s → Q s) :
    ∃ s', forRange n s body = .ok s' ∧ Q s' := by
  obtain ⟨s', h, hI⟩ := forRange_inv I h0 hstep
  exact ⟨s', h, hpost s' hI⟩

/-- Undefined behaviour in iteration `k` makes the whole loop undefined. -/
theorem forRange_ub {σ : Type _} {n k : Nat} {s : σ} {body : Nat → σ → Outcome σ} (I : Nat → σ → Prop)
    (hk : k < n) (h0 : I 0 s)
    (hstep : ∀ i s, i < k → I i s → ∃ s', body i s = .ok s' ∧ I (i + 1) s')
    (hub : ∀ s, I k s → body k s = .ub) : forRange n s body = .ub := by
  obtain ⟨s1, h1, hI1⟩ := forRange_inv (n := k) I h0 hstep
  have : ∀ m, k + 1 ≤ m → forRange m s body = .ub := by
    intro m hm
    induction hm with
    | refl => rw [forRange_succ, h1]; exact hub s1 hI1
    | step _ ih => rw [forRange_succ, ih]; rfl
  exact this n hk

/-- The same for `abort()`. -/
theorem forRange_abort {σ : Type _} {n k : Nat} {s : σ} {body : Nat → σ → Outcome σ} (I : Nat → σ → Prop)
    (hk : k < n) (h0 : I 0 s)
    (hstep : ∀ i s, i < k → I i s → ∃ s', body i s = .ok s' ∧ I (i + 1) s')
    (hab : ∀ s, I k s → body k s = .abort) : forRange n s body = .abort := by
  obtain ⟨s1, h1, hI1⟩ := forRange_inv (n := k) I h0 hstep
  have : ∀ m, k + 1 ≤ m → forRange m s body = .abort := by
    intro m hm
    induction hm with
    | refl => rw [forRange_succ, h1]; exact hab s1 hI1
    | step _ ih => rw [forRange_succ, ih]; rfl
  exact this n hk

end Libgrpp
