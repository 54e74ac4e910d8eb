import Verif.Model.Shell

/-! Helper lemmas for `shell.c`. -/

namespace Libgrpp

theorem take_set_succ {α : Type _} (l : List α) (k : Nat) (v : α) (h : k < l.length) :
    (l.set k v).take (k + 1) = l.take k ++ [v] := by
  rw [List.take_add_one, List.take_set_of_le (le_refl k), List.getElem?_set_self h]
  rfl

theorem copyPrims_ok (n : Nat) (coeffs alpha : List ℝ) (hc : n ≤ coeffs.length) (ha : n ≤ alpha.length) :
    copyPrims n coeffs alpha = .ok (coeffs.take n, alpha.take n) := by
  have key : ∃ s', copyPrims n coeffs alpha = .ok s' ∧ s' = (coeffs.take n, alpha.take n) := by
    unfold copyPrims
    refine forRange_spec
      (fun k (s : List ℝ × List ℝ) => s.1.length = n ∧ s.2.length = n ∧
        s.1.take k = coeffs.take k ∧ s.2.take k = alpha.take k)
      ⟨by simp, by simp, by simp, by simp⟩ ?_ ?_
    · rintro i ⟨cs, as⟩ hi ⟨h1, h2, h3, h4⟩
      simp only at h1 h2 h3 h4
      refine ⟨(cs.set i coeffs[i], as.set i alpha[i]), ?_, by simp [h1], by simp [h2], ?_, ?_⟩
      · rw [rd_ok (show i < coeffs.length by omega), rd_ok (show i < alpha.length by omega)]
        simp only [Outcome.ok_bind]
        rw [wr_ok _ (show i < cs.length by omega), wr_ok _ (show i < as.length by omega)]
        rfl
      · show (cs.set i _).take (i + 1) = _
        rw [take_set_succ _ _ _ (by omega), h3, List.take_concat_get']
      · show (as.set i _).take (i + 1) = _
        rw [take_set_succ _ _ _ (by omega), h4, List.take_concat_get']
    · rintro ⟨cs, as⟩ ⟨h1, h2, h3, h4⟩
      simp only at h1 h2 h3 h4
      rw [← h3, ← h4, List.take_of_length_le (by omega), List.take_of_length_le (by omega)]
  obtain ⟨s', h, rfl⟩ := key
  exact h

theorem take_zip' {α β : Type _} (a : List α) (b : List β) (n : Nat) :
    (a.zip b).take n = (a.take n).zip (b.take n) := by
  simp [List.zip, List.take_zipWith]

/-- The primitives of a contraction: (coefficient, exponent) pairs actually in use. -/
def Shell.prims (s : Shell) : List (ℝ × ℝ) := (s.coeffs.take s.num).zip (s.alpha.take s.num)

/-- The arrays of a shell hold at least `num` elements. -/
def Shell.WF (s : Shell) : Prop := s.num ≤ s.coeffs.length ∧ s.num ≤ s.alpha.length

open Classical in
theorem shellShrink_ok (s : Shell) (hs : s.WF) :
    ∃ s', shellShrink s = .ok s' ∧ s'.prims = s.prims.filter (fun p => decide (|p.1| > zeroThresh)) ∧
      s'.num = s'.prims.length ∧ s'.WF ∧ s'.L = s.L ∧ s'.origin = s.origin ∧ s'.cart_size = s.cart_size ∧
      s'.cartList = s.cartList ∧ s'.coeffs.length = s.coeffs.length ∧ s'.alpha.length = s.alpha.length := by
  obtain ⟨hc, ha⟩ := hs
  have key : ∃ r, forRange s.num ((0 : Nat), s.coeffs, s.alpha) (fun i (st : Nat × List ℝ × List ℝ) => do
      let c ← rd st.2.1 i
      if |c| > zeroThresh then do
        let cs ← wr st.2.1 st.1 c
        let a ← rd st.2.2 i
        let as ← wr st.2.2 st.1 a
        .ok (st.1 + 1, cs, as)
      else .ok st) = .ok r ∧
      (r.1 ≤ s.num ∧ r.2.1.length = s.coeffs.length ∧ r.2.2.length = s.alpha.length ∧
        (r.2.1.take r.1).zip (r.2.2.take r.1) =
          ((s.coeffs.zip s.alpha).take s.num).filter (fun p => decide (|p.1| > zeroThresh))) := by
    refine forRange_spec
      (fun k (r : Nat × List ℝ × List ℝ) => r.1 ≤ k ∧ r.2.1.length = s.coeffs.length ∧
        r.2.2.length = s.alpha.length ∧ (∀ j, k ≤ j → r.2.1[j]? = s.coeffs[j]?) ∧
        (∀ j, k ≤ j → r.2.2[j]? = s.alpha[j]?) ∧
        (r.2.1.take r.1).zip (r.2.2.take r.1) =
          ((s.coeffs.zip s.alpha).take k).filter (fun p => decide (|p.1| > zeroThresh)))
      ⟨le_rfl, rfl, rfl, fun _ _ => rfl, fun _ _ => rfl, by simp⟩ ?_ ?_
    · rintro i ⟨k, cs, as⟩ hi ⟨h1, h2, h3, h4, h5, h6⟩
      simp only at h1 h2 h3 h4 h5 h6 ⊢
      have hi1 : i < cs.length := by omega
      have hi2 : i < as.length := by omega
      have hi3 : i < s.coeffs.length := by omega
      have hi4 : i < s.alpha.length := by omega
      have e1 : cs[i] = s.coeffs[i] := by
        have := h4 i le_rfl
        rw [List.getElem?_eq_getElem hi1, List.getElem?_eq_getElem hi3] at this
        exact Option.some.inj this
      have e2 : as[i] = s.alpha[i] := by
        have := h5 i le_rfl
        rw [List.getElem?_eq_getElem hi2, List.getElem?_eq_getElem hi4] at this
        exact Option.some.inj this
      have hz : i < (s.coeffs.zip s.alpha).length := by rw [List.length_zip]; omega
      have ez : (s.coeffs.zip s.alpha)[i] = (s.coeffs[i], s.alpha[i]) := List.getElem_zip
      rw [rd_ok hi1]
      simp only [Outcome.ok_bind]
      by_cases hp : |cs[i]| > zeroThresh
      · rw [if_pos hp, wr_ok _ (show k < cs.length by omega), rd_ok hi2]
        simp only [Outcome.ok_bind]
        rw [wr_ok _ (show k < as.length by omega)]
        refine ⟨(k + 1, cs.set k cs[i], as.set k as[i]), rfl, ?_, ?_, ?_, ?_, ?_, ?_⟩
        · show k + 1 ≤ i + 1; omega
        · simpa using h2
        · simpa using h3
        · intro j hj
          show (cs.set k _)[j]? = _
          rw [List.getElem?_set_ne (by omega)]; exact h4 j (by omega)
        · intro j hj
          show (as.set k _)[j]? = _
          rw [List.getElem?_set_ne (by omega)]; exact h5 j (by omega)
        · show ((cs.set k _).take (k + 1)).zip ((as.set k _).take (k + 1)) = _
          rw [take_set_succ _ _ _ (by omega), take_set_succ _ _ _ (by omega),
            List.zip_append (by simp; omega), h6, ← List.take_concat_get' _ i hz, List.filter_append, ez]
          congr 1
          rw [e1] at hp
          rw [e1, e2]
          simp [hp]
      · rw [if_neg hp]
        refine ⟨(k, cs, as), rfl, ?_, h2, h3, fun j hj => h4 j (by omega), fun j hj => h5 j (by omega), ?_⟩
        · show k ≤ i + 1; omega
        · show (cs.take k).zip (as.take k) = _
          rw [h6, ← List.take_concat_get' _ i hz, List.filter_append, ez]
          rw [e1] at hp
          simp [hp]
    · rintro r ⟨h1, h2, h3, -, -, h6⟩
      exact ⟨h1, h2, h3, h6⟩
  obtain ⟨r, hr, h1, h2, h3, h4⟩ := key
  refine ⟨{ s with num := r.1, coeffs := r.2.1, alpha := r.2.2 }, ?_, ?_, ?_, ?_, rfl, rfl, rfl, rfl, h2, h3⟩
  · unfold shellShrink
    rw [hr]
    rfl
  · unfold Shell.prims
    rw [take_zip'] at h4
    exact h4
  · show r.1 = ((r.2.1.take r.1).zip (r.2.2.take r.1)).length
    rw [List.length_zip, List.length_take, List.length_take]
    omega
  · exact ⟨by show r.1 ≤ r.2.1.length; omega, by show r.1 ≤ r.2.2.length; omega⟩

/-! ## Heap -/

theorem hload_ok {h : Heap} {p i : Nat} {b : List ℝ} (hb : h p = some b) (hi : i < b.length) :
    hload h p i = .ok b[i] := by
  simp only [hload, hb]; exact rd_ok hi

theorem hstore_ok {h : Heap} {p i : Nat} {b : List ℝ} (v : ℝ) (hb : h p = some b) (hi : i < b.length) :
    hstore h p i v = .ok (Function.update h p (some (b.set i v))) := by
  simp only [hstore, hb, wr_ok _ hi, Outcome.ok_bind]

theorem hstore_other {h h' : Heap} {p q i : Nat} {v : ℝ} (hs : hstore h p i v = .ok h') (hq : q ≠ p) :
    h' q = h q := by
  unfold hstore at hs
  cases hb : h p with
  | none => simp [hb] at hs
  | some b =>
    simp only [hb, wr] at hs
    split_ifs at hs with hi
    · simp only [Outcome.ok_bind, Outcome.ok.injEq] at hs
      rw [← hs, Function.update_of_ne hq]
    · simp at hs

/-- The heap-level constructor: fresh arrays receive the values, all other blocks are untouched. -/
theorem newShellHeap_ok (gen : Nat → List Comp) (h : Heap) (origin L num coeffs alpha pc pa : Nat)
    (o c a : List ℝ) (ho : h origin = some o) (ho3 : 3 ≤ o.length) (hc : h coeffs = some c)
    (hcl : num ≤ c.length) (ha : h alpha = some a) (hal : num ≤ a.length)
    (fc : h pc = none) (fa : h pa = none) (hpp : pc ≠ pa) :
    ∃ h' s, newShellHeap gen h origin L num coeffs alpha pc pa = .ok (h', s) ∧
      s.L = L ∧ s.origin = ![o[0], o[1], o[2]] ∧ s.cart_size = cartSize L ∧ s.cartList = gen L ∧ s.num = num ∧
      s.coeffs = pc ∧ s.alpha = pa ∧
      h' pc = some (c.take num) ∧ h' pa = some (a.take num) ∧ (∀ q, q ≠ pc → q ≠ pa → h' q = h q) := by
  have hcpc : coeffs ≠ pc := by rintro rfl; rw [hc] at fc; cases fc
  have hcpa : coeffs ≠ pa := by rintro rfl; rw [hc] at fa; cases fa
  have hapc : alpha ≠ pc := by rintro rfl; rw [ha] at fc; cases fc
  have hapa : alpha ≠ pa := by rintro rfl; rw [ha] at fa; cases fa
  have key : ∃ h', forRange num (hcalloc (hcalloc h pc num) pa num) (fun i h => do
      let c ← hload h coeffs i
      let h ← hstore h pc i c
      let a ← hload h alpha i
      hstore h pa i a) = .ok h' ∧
      (h' pc = some (c.take num) ∧ h' pa = some (a.take num) ∧ (∀ q, q ≠ pc → q ≠ pa → h' q = h q)) := by
    refine forRange_spec
      (fun k (g : Heap) => (∃ b1, g pc = some b1 ∧ b1.length = num ∧ b1.take k = c.take k) ∧
        (∃ b2, g pa = some b2 ∧ b2.length = num ∧ b2.take k = a.take k) ∧
        (∀ q, q ≠ pc → q ≠ pa → g q = h q))
      ⟨⟨List.replicate num 0, ?_, by simp, by simp⟩, ⟨List.replicate num 0, ?_, by simp, by simp⟩, ?_⟩ ?_ ?_
    · simp [hcalloc, Function.update_of_ne hpp]
    · simp [hcalloc]
    · intro q h1 h2
      simp [hcalloc, Function.update_of_ne h1, Function.update_of_ne h2]
    · rintro i g hi ⟨⟨b1, e1, l1, t1⟩, ⟨b2, e2, l2, t2⟩, hu⟩
      have hgc : g coeffs = some c := by rw [hu _ hcpc hcpa, hc]
      have hga : g alpha = some a := by rw [hu _ hapc hapa, ha]
      have i1 : i < c.length := by omega
      have i2 : i < a.length := by omega
      let g1 : Heap := Function.update g pc (some (b1.set i c[i]))
      have hg1a : g1 alpha = some a := by simp only [g1, Function.update_of_ne hapc, hga]
      have hg1p : g1 pa = some b2 := by simp only [g1, Function.update_of_ne hpp.symm, e2]
      refine ⟨Function.update g1 pa (some (b2.set i a[i])), ?_, ⟨b1.set i c[i], ?_, by simp [l1], ?_⟩,
        ⟨b2.set i a[i], by simp, by simp [l2], ?_⟩, ?_⟩
      · rw [hload_ok hgc i1]
        simp only [Outcome.ok_bind]
        rw [hstore_ok _ e1 (show i < b1.length by omega)]
        simp only [Outcome.ok_bind]
        rw [hload_ok hg1a i2]
        simp only [Outcome.ok_bind]
        rw [hstore_ok _ hg1p (show i < b2.length by omega)]
      · rw [Function.update_of_ne hpp]
        simp [g1]
      · rw [take_set_succ _ _ _ (by omega), t1, List.take_concat_get']
      · rw [take_set_succ _ _ _ (by omega), t2, List.take_concat_get']
      · intro q h1 h2
        rw [Function.update_of_ne h2]
        simp only [g1, Function.update_of_ne h1, hu q h1 h2]
    · rintro g ⟨⟨b1, e1, l1, t1⟩, ⟨b2, e2, l2, t2⟩, hu⟩
      rw [List.take_of_length_le (by omega)] at t1 t2
      exact ⟨by rw [e1, t1], by rw [e2, t2], hu⟩
  obtain ⟨h', hk, k1, k2, k3⟩ := key
  refine ⟨h', ⟨L, ![o[0], o[1], o[2]], cartSize L, gen L, num, pc, pa⟩, ?_, rfl, rfl, rfl, rfl, rfl, rfl, rfl,
    k1, k2, k3⟩
  unfold newShellHeap
  rw [hload_ok ho (show 0 < o.length by omega), hload_ok ho (show 1 < o.length by omega),
    hload_ok ho (show 2 < o.length by omega)]
  simp only [Outcome.ok_bind]
  rw [hk]
  rfl

end Libgrpp
