import Verif.Model.TestScript
import Verif.Props.MatrixFile
import Verif.Props.Program

/-! # Lemmas for the tests -/

namespace Libgrpp

theorem exceeds_fin (d : Dbl) (t : ℝ) : d.Exceeds (.fin t) ↔ d.AbsGt t := Iff.rfl

open Classical in
/-- The comparison finds the first difference in the order of the rows. -/
theorem compareWith_eq (dim : Nat) (m1 m2 : List Dbl) (t : Dbl) (h1 : dim * dim ≤ m1.length) (h2 : dim * dim ≤ m2.length) :
    ∃ r, compareWith dim m1 m2 t = .ok r ∧
      (r = none → ∀ i < dim, ∀ j < dim, ¬ ((m1.getD (i * dim + j) .nan).sub (m2.getD (i * dim + j) .nan)).Exceeds t) ∧
      (∀ p, r = some p → p.1 < dim ∧ p.2 < dim ∧ ((m1.getD (p.1 * dim + p.2) .nan).sub (m2.getD (p.1 * dim + p.2) .nan)).Exceeds t ∧
        ∀ i < dim, ∀ j < dim, i < p.1 ∨ (i = p.1 ∧ j < p.2) →
          ¬ ((m1.getD (i * dim + j) .nan).sub (m2.getD (i * dim + j) .nan)).Exceeds t) := by
  set D : Nat → Nat → Prop := fun i j => ((m1.getD (i * dim + j) .nan).sub (m2.getD (i * dim + j) .nan)).Exceeds t with hD
  have hget : ∀ (m : List Dbl) (p : Nat), p < m.length → rd m p = .ok (m.getD p .nan) := fun m p hp => by
    rw [rd_ok hp, List.getD_eq_getElem?_getD, List.getElem?_eq_getElem hp]; rfl
  unfold compareWith
  refine forRange_spec (fun n r => (r = none → ∀ i < n, ∀ j < dim, ¬ D i j) ∧
    ∀ p, r = some p → p.1 < n ∧ p.2 < dim ∧ D p.1 p.2 ∧ ∀ i < dim, ∀ j < dim, i < p.1 ∨ (i = p.1 ∧ j < p.2) → ¬ D i j) ?_ ?_ ?_
  · exact ⟨fun _ i hi => absurd hi (by omega), fun p hp => by simp at hp⟩
  · rintro i r hi ⟨hn, hs⟩
    cases r with
    | some p =>
      refine ⟨some p, rfl, by simp, fun q hq => ?_⟩
      obtain ⟨a, b⟩ := hs q hq
      exact ⟨by omega, b⟩
    | none =>
      have hprev := hn rfl
      refine forRange_spec (fun n r => (r = none → ∀ j < n, ¬ D i j) ∧
        ∀ p, r = some p → p.1 = i ∧ p.2 < n ∧ D p.1 p.2 ∧ ∀ j < p.2, ¬ D i j) ?_ ?_ ?_
      · exact ⟨fun _ j hj => absurd hj (by omega), fun p hp => by simp at hp⟩
      · rintro j r hj ⟨hn2, hs2⟩
        cases r with
        | some p =>
          refine ⟨some p, rfl, by simp, fun q hq => ?_⟩
          obtain ⟨a, b, c⟩ := hs2 q hq
          exact ⟨a, by omega, c⟩
        | none =>
          have hlt := lower_index hi hj
          have hp2 := hn2 rfl
          simp only [hget m1 _ (by omega : i * dim + j < m1.length), hget m2 _ (by omega : i * dim + j < m2.length), Outcome.ok_bind]
          refine ⟨_, rfl, ?_, ?_⟩
          · intro h j' hj'
            by_cases hd : D i j
            · rw [if_pos hd] at h; simp at h
            · rcases Nat.lt_succ_iff_lt_or_eq.1 hj' with h' | rfl
              · exact hp2 j' h'
              · exact hd
          · intro p hp
            by_cases hd : D i j
            · rw [if_pos hd] at hp
              rw [← Option.some.inj hp]
              exact ⟨rfl, by omega, hd, hp2⟩
            · rw [if_neg hd] at hp; simp at hp
      · rintro r ⟨a, b⟩
        refine ⟨fun hr i' hi' j hj => ?_, fun p hp => ?_⟩
        · rcases Nat.lt_succ_iff_lt_or_eq.1 hi' with h' | rfl
          · exact hprev i' h' j hj
          · exact a hr j hj
        · obtain ⟨c1, c2, c3, c4⟩ := b p hp
          refine ⟨by omega, c2, c3, fun i' hi' j hj h => ?_⟩
          rcases h with h | ⟨h, h'⟩
          · exact hprev i' (by omega) j hj
          · rw [h, c1]; exact c4 j h'
  · rintro r ⟨a, b⟩
    exact ⟨a, b⟩

theorem readEntries_length (io : DecimalIO) (dim : Int) (M : List Dbl) (text : List Char) (R : List Dbl) (h : readEntries io dim M text = .ok (some R)) :
    R.length = M.length := by
  induction hn : text.length using Nat.strong_induction_on generalizing M text with
  | _ n ih =>
    rw [readEntries] at h
    rcases hs : scanEntry io text with r | _ | _ | _
    · rw [hs, Outcome.ok_bind] at h
      rcases r with _ | ⟨i, j, d, t⟩
      · simp only [Outcome.ok.injEq, Option.some.injEq] at h
        rw [h]
      · simp only at h
        by_cases hc : ¬ (1 ≤ i ∧ i ≤ dim) ∨ ¬ (1 ≤ j ∧ j ≤ dim)
        · rw [if_pos hc] at h; simp at h
        · rw [if_neg hc] at h
          by_cases hw : (dim * (i - 1) + (j - 1)).toNat < M.length
          · rw [wr_ok _ hw, Outcome.ok_bind] at h
            by_cases hl : t.length < text.length
            · rw [dif_pos hl] at h
              rw [ih t.length (by omega) _ t h rfl, List.length_set]
            · rw [dif_neg hl] at h
              simp only [Outcome.ok.injEq, Option.some.injEq] at h
              rw [← h, List.length_set]
          · rw [wr_ub _ (by omega)] at h
            exact absurd h (by simp [bind, Outcome.bind])
    all_goals
      rw [hs] at h
      exact absurd h (by simp [bind, Outcome.bind])

theorem readMatrix_length (io : DecimalIO) (text : List Char) (n : Int) (M : List Dbl) (h : readMatrix io text = .ok (some (n, M))) :
    M.length = (n * n).toNat := by
  unfold readMatrix at h
  rcases hs : scanInt text with r | _ | _ | _
  · rw [hs, Outcome.ok_bind] at h
    rcases r with _ | ⟨dim, t⟩
    · simp at h
    · simp only at h
      by_cases hv : dim * dim ≤ intMax
      · rw [Outcome.valid_pos hv, Outcome.ok_bind] at h
        rcases he : readEntries io dim (List.replicate (dim * dim).toNat (.fin 0)) t with r | _ | _ | _
        · rw [he, Outcome.ok_bind] at h
          rcases r with _ | m
          · simp at h
          · simp only [Outcome.ok.injEq, Option.some.injEq, Prod.mk.injEq] at h
            rw [← h.1, ← h.2, readEntries_length io dim _ t m he, List.length_replicate]
        all_goals
          rw [he] at h
          exact absurd h (by simp [bind, Outcome.bind])
      · rw [Outcome.valid_neg hv] at h
        exact absurd h (by simp [bind, Outcome.bind])
  all_goals
    rw [hs] at h
    exact absurd h (by simp [bind, Outcome.bind])

theorem toNat_sq (n : Int) : n.toNat * n.toNat ≤ (n * n).toNat := by
  rcases le_total 0 n with h | h
  · obtain ⟨k, rfl⟩ := Int.eq_ofNat_of_zero_le h
    rw [Int.toNat_natCast, ← Int.natCast_mul, Int.toNat_natCast]
  · rw [Int.toNat_of_nonpos h]; simp

/-- The comparison of two matrices which have been read. -/
theorem compareFiles_read (io : DecimalIO) (t : Dbl) (d : Dir) (a b : String) (n m : Int) (A B : List Dbl) (ha : readMatrixFile io d a = .ok (some (n, A)))
    (hb : readMatrixFile io d b = .ok (some (m, B))) :
    (compareFiles io t d a b = .ok 0 ∧ n = m ∧ EqualWithin t n.toNat A B) ∨
      (compareFiles io t d a b = .ok 1 ∧ ¬ (n = m ∧ EqualWithin t n.toNat A B)) := by
  have hlen : ∀ (c : String) (k : Int) (M : List Dbl), readMatrixFile io d c = .ok (some (k, M)) → k.toNat * k.toNat ≤ M.length := by
    intro c k M h
    unfold readMatrixFile at h
    cases hc : d c with
    | none => rw [hc] at h; simp at h
    | some t =>
      rw [hc] at h
      rw [readMatrix_length io t k M h]
      exact toNat_sq k
  unfold compareFiles
  rw [ha, Outcome.ok_bind]
  simp only
  rw [hb, Outcome.ok_bind]
  simp only
  by_cases hnm : n = m
  · subst hnm
    simp only [ne_eq, not_true_eq_false, if_false, true_and]
    have hA := hlen a n A ha
    have hB := hlen b n B hb
    obtain ⟨r, hr, h1, h2⟩ := compareWith_eq n.toNat A B t hA hB
    rw [hr, Outcome.ok_bind]
    cases r with
    | none =>
      refine Or.inl ⟨rfl, fun i j hi hj => ?_⟩
      have := lower_index hi hj
      exact ⟨_, _, getD_of_lt (by omega) Dbl.nan, getD_of_lt (by omega) Dbl.nan, h1 rfl i hi j hj⟩
    | some p =>
      obtain ⟨p1, p2, p3, -⟩ := h2 p rfl
      have := lower_index p1 p2
      refine Or.inr ⟨?_, fun h => ?_⟩
      · simp only
        rw [rd_ok (by omega), Outcome.ok_bind, rd_ok (by omega), Outcome.ok_bind]
      · obtain ⟨x, y, e1, e2, e3⟩ := h p.1 p.2 p1 p2
        rw [getD_of_lt (by omega) Dbl.nan, Option.some.injEq] at e1 e2
        exact e3 (e1 ▸ e2 ▸ p3)
  · rw [if_pos hnm]
    exact Or.inr ⟨rfl, fun h => hnm h.1⟩

theorem readMatrixFile_some {io : DecimalIO} {d : Dir} {a : String} {n : Int} {A : List Dbl} (h : readMatrixFile io d a = .ok (some (n, A))) :
    ∃ t, d a = some t ∧ readMatrix io t = .ok (some (n, A)) := by
  unfold readMatrixFile at h
  cases hc : d a with
  | none => rw [hc] at h; simp at h
  | some t => exact ⟨t, rfl, by rw [hc] at h; exact h⟩

theorem readMatrixFile_of {io : DecimalIO} {d : Dir} {a : String} {t : List Char} {n : Int} {A : List Dbl} (ht : d a = some t)
    (h : readMatrix io t = .ok (some (n, A))) : readMatrixFile io d a = .ok (some (n, A)) := by
  unfold readMatrixFile
  rw [ht]
  exact h

/-- A comparison that ends: both matrices have been read, or the status is 1. -/
theorem compareFiles_ok (io : DecimalIO) (t : Dbl) (d : Dir) (a b : String) (s : Nat) (h : compareFiles io t d a b = .ok s) :
    s = 1 ∨ ∃ n A m B, readMatrixFile io d a = .ok (some (n, A)) ∧ readMatrixFile io d b = .ok (some (m, B)) := by
  unfold compareFiles at h
  rcases ha : readMatrixFile io d a with r | _ | _ | _
  · rw [ha, Outcome.ok_bind] at h
    rcases r with _ | ⟨n, A⟩
    · exact Or.inl (Outcome.ok.inj h).symm
    · simp only at h
      rcases hb : readMatrixFile io d b with r | _ | _ | _
      · rw [hb, Outcome.ok_bind] at h
        rcases r with _ | ⟨m, B⟩
        · exact Or.inl (Outcome.ok.inj h).symm
        · exact Or.inr ⟨n, A, m, B, rfl, rfl⟩
      all_goals
        rw [hb] at h
        exact absurd h (by simp [bind, Outcome.bind])
  all_goals
    rw [ha] at h
    exact absurd h (by simp [bind, Outcome.bind])

/-- Two files are equal within a threshold: both are there, can be read, have the same dimension, and the elements agree. -/
theorem compareFiles_zero (io : DecimalIO) (t : Dbl) (d : Dir) (a b : String) :
    compareFiles io t d a b = .ok 0 ↔ ∃ ta tb n A B, d a = some ta ∧ d b = some tb ∧ readMatrix io ta = .ok (some (n, A)) ∧
      readMatrix io tb = .ok (some (n, B)) ∧ EqualWithin t n.toNat A B := by
  constructor
  · intro h
    rcases compareFiles_ok io t d a b 0 h with h0 | ⟨n, A, m, B, ha, hb⟩
    · exact absurd h0 (by norm_num)
    · rcases compareFiles_read io t d a b n m A B ha hb with ⟨-, rfl, he⟩ | ⟨h1, -⟩
      · obtain ⟨ta, a1, a2⟩ := readMatrixFile_some ha
        obtain ⟨tb, b1, b2⟩ := readMatrixFile_some hb
        exact ⟨ta, tb, n, A, B, a1, b1, a2, b2, he⟩
      · rw [h] at h1; simp at h1
  · rintro ⟨ta, tb, n, A, B, a1, b1, a2, b2, he⟩
    rcases compareFiles_read io t d a b n n A B (readMatrixFile_of a1 a2) (readMatrixFile_of b1 b2) with ⟨h, -⟩ | ⟨-, h⟩
    · exact h
    · exact absurd ⟨rfl, he⟩ h

theorem compareFiles_status (io : DecimalIO) (t : Dbl) (d : Dir) (a b : String) (s : Nat) (h : compareFiles io t d a b = .ok s) : s = 0 ∨ s = 1 := by
  rcases compareFiles_ok io t d a b s h with h1 | ⟨n, A, m, B, ha, hb⟩
  · exact Or.inr h1
  · rcases compareFiles_read io t d a b n m A B ha hb with ⟨h0, -⟩ | ⟨h1, -⟩
    · exact Or.inl (Outcome.ok.inj (h.symm.trans h0))
    · exact Or.inr (Outcome.ok.inj (h.symm.trans h1))

theorem runComparisons_zero (io : DecimalIO) (d : Dir) (cmps : List (String × String)) :
    runComparisons io d cmps = .ok 0 ↔ ∀ c ∈ cmps, compareFiles io (.fin (1e-10)) d c.1 c.2 = .ok 0 := by
  induction cmps with
  | nil => simp [runComparisons]
  | cons c cmps ih =>
    obtain ⟨a, b⟩ := c
    rw [List.forall_mem_cons, ← ih, runComparisons]
    rcases hc : compareFiles io (.fin (1e-10)) d a b with s | _ | _ | _
    · have hm : compareMain io d [a, b] = .ok s := hc
      rw [hm, Outcome.ok_bind]
      by_cases hs : s = 0
      · rw [if_neg (by simpa using hs), hs]
        simp
      · rw [if_pos hs]
        simp [hs]
    · have hm : compareMain io d [a, b] = .ub := hc
      rw [hm]; simp
    · have hm : compareMain io d [a, b] = .abort := hc
      rw [hm]; simp [bind, Outcome.bind]
    · have hm : compareMain io d [a, b] = .exit := hc
      rw [hm]; simp [bind, Outcome.bind]

theorem write_not_mem (d : Dir) (fs : List OutFile) (a : String) (h : a ∉ fs.map Prod.fst) : d.write fs a = d a := by
  induction fs generalizing d with
  | nil => rfl
  | cons f fs ih =>
    rw [List.map_cons, List.mem_cons, not_or] at h
    rw [Dir.write, ih _ h.2, Function.update_of_ne h.1]

theorem write_mem (d : Dir) (fs : List OutFile) (hn : (fs.map Prod.fst).Nodup) (f : OutFile) (h : f ∈ fs) : d.write fs f.1 = some f.2 := by
  induction fs generalizing d with
  | nil => simp at h
  | cons g fs ih =>
    rw [List.map_cons, List.nodup_cons] at hn
    rw [Dir.write]
    rcases List.mem_cons.1 h with rfl | h
    · rw [write_not_mem _ _ _ hn.1, Function.update_self]
    · exact ih _ hn.2 h

end Libgrpp
