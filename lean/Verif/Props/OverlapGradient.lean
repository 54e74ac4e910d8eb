import Verif.Lemmas.OverlapGradient
import Verif.Lemmas.Race
import Verif.Props.DiffShell

/-! # C22, C23, C24: the overlap gradient -/

namespace Libgrpp

open MeasureTheory

/-- Main fact, for both reading policies: the arrays contain `f · ∂S/∂A`, `f` from the position of `D`. -/
theorem overlapGradient_value (gen : Nat → List Comp) (hg : DocumentedOrder gen) (junk : Option (Nat → ℝ)) (A B : Shell)
    (hA : A.Made gen) (hB : B.Made gen) (hj : A.L = 0 ∨ junk ≠ none) (hLA : A.L ≤ 8) (hLB : B.L ≤ 9) (D : Point)
    (G : Fin 3 → List ℝ) (hG : ∀ k, A.cart_size * B.cart_size ≤ (G k).length) (hAB : ¬ pointsAreEqual A.origin B.origin) :
    ∃ G', overlapGradient gen junk A B D G = .ok (A.cartInts, G') ∧
      (∀ k m n, m < A.cart_size → n < B.cart_size → (G' k)[m * B.cart_size + n]? = some
        ((if pointsAreEqual A.origin D then overlapDeriv A B k m n else 0) +
          if pointsAreEqual B.origin D then -overlapDeriv A B k m n else 0)) ∧
      (∀ k p, A.cart_size * B.cart_size ≤ p → (G' k)[p]? = (G k)[p]?) := by
  obtain ⟨G0, e0, h0⟩ := memsetGrad_ok (A.cart_size * B.cart_size) G hG
  have hlen0 : ∀ k, A.cart_size * B.cart_size ≤ (G0 k).length := fun k => by rw [(h0 k).2.1]; exact hG k
  unfold overlapGradient
  rw [e0]
  simp only [Outcome.ok_bind, if_neg hAB]
  -- one optional contribution
  have opt : ∀ (q : Prop) [Decidable q] (f : ℝ) (st : OGState), st.1 = A.cartInts →
      (∀ k, A.cart_size * B.cart_size ≤ (st.2 k).length) →
      ∃ st', (if q then ogContribution gen junk A B f st else .ok st) = .ok st' ∧ st'.1 = A.cartInts ∧
        (∀ k, (st'.2 k).length = (st.2 k).length) ∧
        (∀ k m n x, m < A.cart_size → n < B.cart_size → (st.2 k)[m * B.cart_size + n]? = some x →
          (st'.2 k)[m * B.cart_size + n]? = some (x + if q then f * overlapDeriv A B k m n else 0)) ∧
        (∀ k p, A.cart_size * B.cart_size ≤ p → (st'.2 k)[p]? = (st.2 k)[p]?) := by
    intro q _ f st hcl hlen
    by_cases hq : q
    · obtain ⟨st', e, r⟩ := ogContribution_ok hg junk hA hB hj hLA hLB f hcl hlen
      refine ⟨st', by rw [if_pos hq, e], r.1.trans hcl, fun k => (r.2 k).1, fun k m n x hm hn hx => ?_, fun k p hp => ?_⟩
      · rw [(r.2 k).2 _ x hx, if_pos hq]
        rw [sum_single A.cart_size B.cart_size (fun k i j => f * overlapDeriv A B k i j) k m n hm hn]
      · cases hx : (st.2 k)[p]? with
        | none =>
          rw [List.getElem?_eq_none_iff] at hx ⊢
          rw [(r.2 k).1]; exact hx
        | some x =>
          rw [(r.2 k).2 p x hx, sum_single_beyond _ _ _ k p hp, add_zero]
    · refine ⟨st, by rw [if_neg hq], hcl, fun k => rfl, fun k m n x hm hn hx => by rw [hx, if_neg hq, add_zero], fun _ _ _ => rfl⟩
  obtain ⟨s1, e1, c1, l1, g1, b1⟩ := opt (pointsAreEqual A.origin D) 1 (A.cartInts, G0) rfl hlen0
  obtain ⟨s2, e2, c2, l2, g2, b2⟩ := opt (pointsAreEqual B.origin D) (-1) s1 c1 (fun k => by rw [l1 k]; exact hlen0 k)
  refine ⟨s2.2, ?_, fun k m n hm hn => ?_, fun k p hp => ?_⟩
  · have : s2 = (A.cartInts, s2.2) := by rw [← c2]
    rw [← this]
    by_cases q : pointsAreEqual A.origin D
    · rw [if_pos q] at e1
      rw [if_pos q, e1, Outcome.ok_bind]
      exact e2
    · rw [if_neg q] at e1
      injection e1 with e1
      rw [if_neg q, e1]
      exact e2
  · have hz := (h0 k).1 (m * B.cart_size + n) (rowMajor_lt hm hn)
    rw [g2 k m n _ hm hn (g1 k m n 0 hm hn hz)]
    simp
  · rw [b2 k p hp, b1 k p hp, (h0 k).2.2 p hp]

/-- **C22, partial.** Full statement: for shells `A`, `B` (centres apart) the gradient routine returns with
`grad[k][m·N+n]` equal to the derivative of `∫ φ_m χ_n` when the centre at `D` is moved in direction `k`: the bra centre
when `D` is `A`'s centre, the ket centre when `D` is `B`'s, zero when it is neither. Missing: for `L_A > 0` the routine
reads outside a matrix (`overlap_gradient_out_of_bounds`), so the result is proved under the assumption that such a
read returns some number (`junk`), whatever it is; and `L_A ≤ 8`, `L_B ≤ 9` (the sizes the overlap routine supports). -/
theorem overlap_gradient_true_partial (gen : Nat → List Comp) (hg : DocumentedOrder gen) (junk : Nat → ℝ) (A B : Shell)
    (hA : A.Made gen) (hB : B.Made gen) (hLA : A.L ≤ 8) (hLB : B.L ≤ 9) (D : Point)
    (G : Fin 3 → List ℝ) (hG : ∀ k, A.cart_size * B.cart_size ≤ (G k).length) (hAB : ¬ pointsAreEqual A.origin B.origin) :
    ∃ G', overlapGradient gen (some junk) A B D G = .ok (A.cartInts, G') ∧
      (∀ k p, A.cart_size * B.cart_size ≤ p → (G' k)[p]? = (G k)[p]?) ∧
      ∀ k m n, m < A.cart_size → n < B.cart_size → ∃ g, (G' k)[m * B.cart_size + n]? = some g ∧
        (pointsAreEqual A.origin D → ¬ pointsAreEqual B.origin D →
          HasDerivAt (fun t => ∫ r, basisFn (A.moveTo k t) m r * basisFn B n r) g (A.origin k)) ∧
        (¬ pointsAreEqual A.origin D → pointsAreEqual B.origin D →
          HasDerivAt (fun t => ∫ r, basisFn A m r * basisFn (B.moveTo k t) n r) g (B.origin k)) ∧
        (¬ pointsAreEqual A.origin D → ¬ pointsAreEqual B.origin D → g = 0) := by
  obtain ⟨G', e, h, hb⟩ := overlapGradient_value gen hg (some junk) A B hA hB (Or.inr (by simp)) hLA hLB D G hG hAB
  refine ⟨G', e, hb, fun k m n hm hn => ⟨_, h k m n hm hn, fun h1 h2 => ?_, fun h1 h2 => ?_, fun h1 h2 => ?_⟩⟩
  · rw [if_pos h1, if_neg h2, add_zero]
    exact (hasDerivAt_overlap1 A B hA.pos hB.pos m n k).differentiableAt.hasDerivAt
  · rw [if_neg h1, if_pos h2, zero_add]
    exact hasDerivAt_overlap_ket A B hA.pos hB.pos m n k
  · rw [if_neg h1, if_neg h2, add_zero]

/-- **C22** for s-type bra shells, without any assumption on out-of-bounds reads: there are none. -/
theorem overlap_gradient_true_s (gen : Nat → List Comp) (hg : DocumentedOrder gen) (A B : Shell)
    (hA : A.Made gen) (hB : B.Made gen) (hLA : A.L = 0) (hLB : B.L ≤ 9) (D : Point)
    (G : Fin 3 → List ℝ) (hG : ∀ k, A.cart_size * B.cart_size ≤ (G k).length) (hAB : ¬ pointsAreEqual A.origin B.origin) :
    ∃ G', overlapGradient gen none A B D G = .ok (A.cartInts, G') ∧
      ∀ k m n, m < A.cart_size → n < B.cart_size → ∃ g, (G' k)[m * B.cart_size + n]? = some g ∧
        (pointsAreEqual A.origin D → ¬ pointsAreEqual B.origin D →
          HasDerivAt (fun t => ∫ r, basisFn (A.moveTo k t) m r * basisFn B n r) g (A.origin k)) ∧
        (¬ pointsAreEqual A.origin D → pointsAreEqual B.origin D →
          HasDerivAt (fun t => ∫ r, basisFn A m r * basisFn (B.moveTo k t) n r) g (B.origin k)) ∧
        (¬ pointsAreEqual A.origin D → ¬ pointsAreEqual B.origin D → g = 0) := by
  obtain ⟨G', e, h, hb⟩ := overlapGradient_value gen hg none A B hA hB (Or.inl hLA) (by omega) hLB D G hG hAB
  refine ⟨G', e, fun k m n hm hn => ⟨_, h k m n hm hn, fun h1 h2 => ?_, fun h1 h2 => ?_, fun h1 h2 => ?_⟩⟩
  · rw [if_pos h1, if_neg h2, add_zero]
    exact (hasDerivAt_overlap1 A B hA.pos hB.pos m n k).differentiableAt.hasDerivAt
  · rw [if_neg h1, if_pos h2, zero_add]
    exact hasDerivAt_overlap_ket A B hA.pos hB.pos m n k
  · rw [if_neg h1, if_neg h2, add_zero]

/-- **C22** (one centre, and any other point). With both shells on one centre all three arrays are set to zero,
whatever `D`; so they are when `D` is not one of the centres. No bound on `L`, no out-of-bounds read. -/
theorem overlap_gradient_zero (gen : Nat → List Comp) (junk : Option (Nat → ℝ)) (A B : Shell) (D : Point)
    (G : Fin 3 → List ℝ) (hG : ∀ k, A.cart_size * B.cart_size ≤ (G k).length)
    (h : pointsAreEqual A.origin B.origin ∨ ¬ pointsAreEqual A.origin D ∧ ¬ pointsAreEqual B.origin D) :
    ∃ G', overlapGradient gen junk A B D G = .ok (A.cartInts, G') ∧
      ∀ k, (∀ p < A.cart_size * B.cart_size, (G' k)[p]? = some 0) ∧
        ∀ p, A.cart_size * B.cart_size ≤ p → (G' k)[p]? = (G k)[p]? := by
  obtain ⟨G0, e0, h0⟩ := memsetGrad_ok (A.cart_size * B.cart_size) G hG
  refine ⟨G0, ?_, fun k => ⟨(h0 k).1, (h0 k).2.2⟩⟩
  unfold overlapGradient
  rw [e0]
  simp only [Outcome.ok_bind]
  rcases h with h | ⟨h1, h2⟩
  · rw [if_pos h]
  · rw [if_neg h1, if_neg h2]; split <;> rfl

/-- **C24 is false**: whenever the bra has `L > 0` and a contribution is needed at all, the gradient routine reads
outside the matrix of the `L-1` shell, for every pair of such shells. -/
theorem overlap_gradient_out_of_bounds (gen : Nat → List Comp) (hg : DocumentedOrder gen) (A B : Shell)
    (hA : A.Made gen) (hB : B.Made gen) (hL : 0 < A.L) (hLA : A.L ≤ 8) (hLB : B.L ≤ 9) (D : Point)
    (G : Fin 3 → List ℝ) (hG : ∀ k, A.cart_size * B.cart_size ≤ (G k).length) (hAB : ¬ pointsAreEqual A.origin B.origin)
    (hD : pointsAreEqual A.origin D ∨ pointsAreEqual B.origin D) :
    overlapGradient gen none A B D G = .ub := by
  obtain ⟨G0, e0, h0⟩ := memsetGrad_ok (A.cart_size * B.cart_size) G hG
  have hlen0 : ∀ k, A.cart_size * B.cart_size ≤ (G0 k).length := fun k => by rw [(h0 k).2.1]; exact hG k
  unfold overlapGradient
  rw [e0]
  simp only [Outcome.ok_bind, if_neg hAB]
  by_cases h1 : pointsAreEqual A.origin D
  · rw [if_pos h1, ogContribution_ub hg hA hB hL hLA hLB _ rfl hlen0]; rfl
  · rw [if_neg h1, if_pos (hD.resolve_left h1)]
    exact ogContribution_ub hg hA hB hL hLA hLB _ rfl hlen0

/-- **C24, partial.** Full statement: `overlapGradient gen none A B D G ≠ .ub` for all shells with large enough arrays.
False for `L > 0` (previous theorem); true for s-type bra shells. -/
theorem overlap_gradient_in_bounds_partial (gen : Nat → List Comp) (hg : DocumentedOrder gen) (A B : Shell)
    (hA : A.Made gen) (hB : B.Made gen) (hL : A.L = 0) (hLB : B.L ≤ 9) (D : Point)
    (G : Fin 3 → List ℝ) (hG : ∀ k, A.cart_size * B.cart_size ≤ (G k).length) :
    ∃ G', overlapGradient gen none A B D G = .ok (A.cartInts, G') := by
  by_cases hAB : pointsAreEqual A.origin B.origin
  · obtain ⟨G', e, -⟩ := overlap_gradient_zero gen none A B D G hG (Or.inl hAB)
    exact ⟨G', e⟩
  · obtain ⟨G', e, -⟩ := overlapGradient_value gen hg none A B hA hB (Or.inl hL) (by omega) hLB D G hG hAB
    exact ⟨G', e⟩

/-- **C23, partial.** Full statement: at the return the exponents stored in the caller's shells are those before the call
*and* no other thread can see them changed in between. Proved: the first half, for calls that run without interference
(the ket shell is never written by the routine). The second half is false, see `overlap_gradient_race`. -/
theorem overlap_gradient_restores_shell_partial (gen : Nat → List Comp) (hg : DocumentedOrder gen) (junk : Nat → ℝ) (A B : Shell)
    (hA : A.Made gen) (hB : B.Made gen) (hLA : A.L ≤ 8) (hLB : B.L ≤ 9) (D : Point)
    (G : Fin 3 → List ℝ) (hG : ∀ k, A.cart_size * B.cart_size ≤ (G k).length) :
    ∃ r, overlapGradient gen (some junk) A B D G = .ok r ∧ r.1 = A.cartInts := by
  by_cases hAB : pointsAreEqual A.origin B.origin
  · obtain ⟨G', e, -⟩ := overlap_gradient_zero gen (some junk) A B D G hG (Or.inl hAB)
    exact ⟨_, e, rfl⟩
  · obtain ⟨G', e, -⟩ := overlapGradient_value gen hg (some junk) A B hA hB (Or.inr (by simp)) hLA hLB D G hG hAB
    exact ⟨_, e, rfl⟩

/-- **C23 is false under concurrency** (lost update): for two gradient calls sharing a bra shell with `L > 0`, whatever
the exponent `x` and the numbers `n+1`, `m+1` of ket components, there is an interleaving of their memory accesses after
which both have finished and the exponent in the caller's shell is `x + 1` for good. -/
theorem overlap_gradient_race (x : Int) (n m : Nat) (r r' : Int) :
    ∃ (s : List Bool) (t u : Thread), interleave s ⟨callAccesses (n + 1), r⟩ ⟨callAccesses (m + 1), r'⟩ x = (t, u, x + 1) ∧
      t.todo = [] ∧ u.todo = [] := by
  obtain ⟨s1, r1, h1⟩ := run_call_first n (x + 1) ⟨iterAccesses.drop 2 ++ callAccesses m, x⟩ x
  obtain ⟨s2, r2, h2⟩ := run_call_second m (x + 2) ⟨[], r1⟩ (x + 1)
  -- both load, both decrement; the first thread finishes its call, then the second one
  refine ⟨[true, false, true, false] ++ List.replicate 9 true ++ s1 ++ List.replicate 9 false ++ s2,
    ⟨[], r1⟩, ⟨[], r2⟩, ?_, rfl, rfl⟩
  have a1 : interleave ([true, false, true, false] ++ List.replicate 9 true) ⟨callAccesses (n + 1), r⟩
      ⟨callAccesses (m + 1), r'⟩ x = (⟨callAccesses n, x + 1⟩, ⟨iterAccesses.drop 2 ++ callAccesses m, x⟩, x) := by
    simp [callAccesses, iterAccesses, interleave, Thread.step, List.replicate]
  have a2 : interleave (List.replicate 9 false) ⟨[], r1⟩ ⟨iterAccesses.drop 2 ++ callAccesses m, x⟩ x =
      (⟨[], r1⟩, ⟨callAccesses m, x + 2⟩, x + 1) := by
    simp [iterAccesses, interleave, Thread.step, List.replicate, add_assoc]
  rw [interleave_append, interleave_append, interleave_append, a1]
  simp only [h1, a2, h2]

/-- **C23**: another thread can also simply see the exponent changed. -/
theorem overlap_gradient_visible_change (x : Int) (n : Nat) (r : Int) (u : Thread) :
    ∃ s t, interleave s ⟨callAccesses (n + 1), r⟩ u x = (t, u, x - 1) := by
  exact ⟨[true, true], ⟨iterAccesses.drop 2 ++ callAccesses n, x⟩, rfl⟩

/-! ## Non-vacuity -/

theorem exampleShell_made : exampleShell.Made cartesianDirac :=
  ⟨exampleShell_ready.1.wf, by decide, by decide, exampleShell_ready.2⟩

/-- An s-type shell with two primitives at another centre. -/
noncomputable def exampleS : Shell := { exampleShell with L := 0, origin := ![1, 1, 1], cart_size := 1, cartList := [(0, 0, 0)] }

theorem exampleS_made : exampleS.Made cartesianDirac :=
  ⟨exampleShell_ready.1.wf, by decide, by decide, exampleShell_ready.2⟩

theorem example_apart : ¬ pointsAreEqual exampleShell.origin exampleS.origin := by
  unfold pointsAreEqual exampleShell exampleS
  norm_num

theorem example_apart' : ¬ pointsAreEqual exampleS.origin exampleShell.origin := fun h => example_apart (points_equal_symm h)

/-- The hypotheses of `diff_shell_derivative` hold for a p shell. -/
example : ∃ dn up, differentiateShell cartesianDirac exampleShell = .ok (dn, up) := by
  obtain ⟨dn, up, e, -⟩ := diff_shell_derivative _ (Or.inl rfl) exampleShell exampleShell_made.wf exampleShell_made.pos
  exact ⟨dn, up, e⟩

/-- A p shell and an s shell, differentiated at the p shell. -/
example : ∃ G', overlapGradient cartesianDirac (some fun _ => 7) exampleShell exampleS exampleShell.origin
    (fun _ => [5, 6, 7]) = .ok (exampleShell.cartInts, G') := by
  obtain ⟨G', e, -⟩ := overlap_gradient_true_partial _ (Or.inl rfl) (fun _ => 7) exampleShell exampleS exampleShell_made
    exampleS_made (by decide) (by decide) exampleShell.origin (fun _ => [5, 6, 7]) (by decide) example_apart
  exact ⟨G', e⟩

example : overlapGradient cartesianDirac none exampleShell exampleS exampleShell.origin (fun _ => [5, 6, 7]) = .ub :=
  overlap_gradient_out_of_bounds _ (Or.inl rfl) exampleShell exampleS exampleShell_made exampleS_made (by decide)
    (by decide) (by decide) _ _ (by decide) example_apart (Or.inl (points_equal_refl _))

example : ∃ G', overlapGradient cartesianDirac none exampleS exampleShell exampleShell.origin (fun _ => [5, 6, 7]) =
    .ok (exampleS.cartInts, G') := by
  obtain ⟨G', e, -⟩ := overlap_gradient_true_s _ (Or.inl rfl) exampleS exampleShell exampleS_made exampleShell_made rfl
    (by decide) exampleShell.origin (fun _ => [5, 6, 7]) (by decide) example_apart'
  exact ⟨G', e⟩

/-- Two threads, exponent 2, one ket component each. -/
example : ∃ s t u, interleave s ⟨callAccesses 1, 0⟩ ⟨callAccesses 1, 0⟩ 2 = (t, u, 3) ∧ t.todo = [] ∧ u.todo = [] :=
  overlap_gradient_race 2 0 0 0 0

end Libgrpp
