import Verif.Model.Race
import Mathlib.Data.List.Basic

namespace Libgrpp

theorem interleave_append (s s' : List Bool) (t u : Thread) (x : Int) :
    interleave (s ++ s') t u x = let r := interleave s t u x; interleave s' r.1 r.2.1 r.2.2 := by
  induction s generalizing t u x with
  | nil => rfl
  | cons b s ih => cases b <;> simp only [List.cons_append, interleave, ih]

/-- A thread running alone for one body leaves the exponent as it was. -/
theorem run_iter_first (rest : List Access) (reg : Int) (u : Thread) (x : Int) :
    ∃ reg', interleave (List.replicate 11 true) ⟨iterAccesses ++ rest, reg⟩ u x = (⟨rest, reg'⟩, u, x) := by
  refine ⟨x + 1, ?_⟩
  simp [List.replicate, interleave, Thread.step, iterAccesses]
  omega

theorem run_iter_second (rest : List Access) (reg : Int) (t : Thread) (x : Int) :
    ∃ reg', interleave (List.replicate 11 false) t ⟨iterAccesses ++ rest, reg⟩ x = (t, ⟨rest, reg'⟩, x) := by
  refine ⟨x + 1, ?_⟩
  simp [List.replicate, interleave, Thread.step, iterAccesses]
  omega

theorem run_call_first (n : Nat) (reg : Int) (u : Thread) (x : Int) :
    ∃ s reg', interleave s ⟨callAccesses n, reg⟩ u x = (⟨[], reg'⟩, u, x) := by
  induction n generalizing reg with
  | zero => exact ⟨[], reg, rfl⟩
  | succ n ih =>
    obtain ⟨r1, h1⟩ := run_iter_first (callAccesses n) reg u x
    obtain ⟨s, r2, h2⟩ := ih r1
    exact ⟨List.replicate 11 true ++ s, r2, by rw [interleave_append]; simp only [callAccesses, h1, h2]⟩

theorem run_call_second (n : Nat) (reg : Int) (t : Thread) (x : Int) :
    ∃ s reg', interleave s t ⟨callAccesses n, reg⟩ x = (t, ⟨[], reg'⟩, x) := by
  induction n generalizing reg with
  | zero => exact ⟨[], reg, rfl⟩
  | succ n ih =>
    obtain ⟨r1, h1⟩ := run_iter_second (callAccesses n) reg t x
    obtain ⟨s, r2, h2⟩ := ih r1
    exact ⟨List.replicate 11 false ++ s, r2, by rw [interleave_append]; simp only [callAccesses, h1, h2]⟩

end Libgrpp
