/-!
# Outcome of a C function call

`Outcome α` is the result of running a C function: a normal return `ok a`, undefined behaviour `ub`
(out-of-bounds or uninitialised access, use after free, double free, division by zero of integers),
a failed `assert` (`abort`), or a call of `exit` (`exit`).
-/

namespace Libgrpp

inductive Outcome (α : Type _) where
  | ok (a : α)
  | ub
  | abort
  | exit
  deriving DecidableEq, Repr

namespace Outcome

variable {α β γ : Type _}

/-- Sequencing: the first abnormal outcome ends the computation. -/
protected def bind (x : Outcome α) (f : α → Outcome β) : Outcome β :=
  match x with
  | ok a => f a
  | ub => ub
  | abort => abort
  | exit => exit

instance : Monad Outcome where
  pure := ok
  bind := Outcome.bind

@[simp] theorem pure_eq (a : α) : (pure a : Outcome α) = ok a := rfl
@[simp] theorem ok_bind (a : α) (f : α → Outcome β) : (ok a >>= f) = f a := rfl
@[simp] theorem ub_bind (f : α → Outcome β) : ((ub : Outcome α) >>= f) = ub := rfl
@[simp] theorem abort_bind (f : α → Outcome β) : ((abort : Outcome α) >>= f) = abort := rfl
@[simp] theorem exit_bind (f : α → Outcome β) : ((exit : Outcome α) >>= f) = exit := rfl

instance : LawfulMonad Outcome := LawfulMonad.mk'
  (id_map := by intro α x; cases x <;> rfl)
  (pure_bind := by intros; rfl)
  (bind_assoc := by intro α β γ x f g; cases x <;> rfl)

@[simp] theorem map_ok (f : α → β) (a : α) : (f <$> (ok a : Outcome α)) = ok (f a) := rfl

/-- `assert(c)` of C (compiled with assertions enabled, as the library's build does). -/
def assert (c : Prop) [Decidable c] : Outcome Unit := if c then ok () else abort

@[simp] theorem assert_pos {c : Prop} [Decidable c] (h : c) : assert c = ok () := if_pos h
@[simp] theorem assert_neg {c : Prop} [Decidable c] (h : ¬ c) : assert c = abort := if_neg h

/-- A memory access: undefined behaviour unless the index is valid. -/
def valid (c : Prop) [Decidable c] : Outcome Unit := if c then ok () else ub

@[simp] theorem valid_pos {c : Prop} [Decidable c] (h : c) : valid c = ok () := if_pos h
@[simp] theorem valid_neg {c : Prop} [Decidable c] (h : ¬ c) : valid c = ub := if_neg h

theorem bind_eq_ok {x : Outcome α} {f : α → Outcome β} {b : β} :
    (x >>= f) = ok b ↔ ∃ a, x = ok a ∧ f a = ok b := by
  cases x <;> simp

end Outcome
end Libgrpp
