import Verif.Lemmas.DawsonAsym
import Verif.Lemmas.OneElectron

/-! # The code of `specfunc_dawson.c` -/

namespace Libgrpp

/-! ## Power series -/

theorem dawPowerLoop_eq (eps x : ℝ) {K : ℕ} (hK : |dawTerm x K| ≤ eps / 2 * |∑ j ∈ Finset.range K, dawTerm x j|) (fuel y : ℕ) (hy : y < K)
    (hf : K ≤ y + fuel) : ∃ N, dawPowerLoop eps x fuel y (∑ j ∈ Finset.range y, dawTerm x j) (dawTerm x y) (oddFac y) ((-2 * x * x) ^ y) =
      .ok (x * ∑ j ∈ Finset.range N, dawTerm x j) ∧ |dawTerm x N| ≤ eps / 2 * |∑ j ∈ Finset.range N, dawTerm x j| := by
  induction fuel generalizing y with
  | zero => omega
  | succ fuel ih =>
    unfold dawPowerLoop
    have e1 : ∑ j ∈ Finset.range y, dawTerm x j + dawTerm x y = ∑ j ∈ Finset.range (y + 1), dawTerm x j := (Finset.sum_range_succ _ _).symm
    have e2 : oddFac y * ((y : ℝ) + 1 + (y + 1) + 1) = oddFac (y + 1) := by rw [oddFac]; ring
    have e3 : (-2 * x * x) ^ y * (-2 * x * x) = (-2 * x * x) ^ (y + 1) := (pow_succ _ _).symm
    have e4 : (-2 * x * x) ^ (y + 1) / oddFac (y + 1) = dawTerm x (y + 1) := rfl
    simp only [e1, e2, e3, e4]
    by_cases h : |dawTerm x (y + 1)| > eps / 2 * |∑ j ∈ Finset.range (y + 1), dawTerm x j|
    · rw [if_pos h]
      refine ih (y + 1) ?_ (by omega)
      rcases Nat.lt_or_ge (y + 1) K with h' | h'
      · exact h'
      · obtain rfl : K = y + 1 := by omega
        exact absurd hK (not_le.2 h)
    · rw [if_neg h]
      exact ⟨y + 1, rfl, not_lt.1 h⟩

theorem dawTerm_le {x : ℝ} (hx : |x| ≤ 1) (j : ℕ) : |dawTerm x j| ≤ (2 / 3) ^ j := by
  induction j with
  | zero => simp [dawTerm, oddFac]
  | succ j ih =>
    rw [dawTerm_succ, mul_div_assoc, abs_mul, pow_succ]
    refine mul_le_mul ih ?_ (abs_nonneg _) (by positivity)
    rw [abs_div, abs_of_pos (show (0 : ℝ) < 2 * j + 3 by positivity), div_le_div_iff₀ (by positivity) (by norm_num)]
    have h1 : |-2 * x * x| ≤ 2 := by
      rw [abs_mul, abs_mul]
      norm_num
      have := mul_le_one₀ hx (abs_nonneg x) hx
      linarith
    have h2 : (0 : ℝ) ≤ j := by positivity
    linarith

theorem dawTerm_neg (x : ℝ) (j : ℕ) : dawTerm (-x) j = dawTerm x j := by
  unfold dawTerm
  rw [show -2 * -x * -x = -2 * x * x by ring]

theorem dawson_power_abs (x : ℝ) (N : ℕ) : |x * ∑ j ∈ Finset.range N, dawTerm x j - dawsonF x| ≤ |x * dawTerm x N| := by
  rcases le_total 0 x with h | h
  · exact dawson_power h N
  · have h1 := dawson_power (neg_nonneg.2 h) N
    simp only [dawTerm_neg, dawsonF_neg] at h1
    rw [show -x * ∑ j ∈ Finset.range N, dawTerm x j - -dawsonF x = -(x * ∑ j ∈ Finset.range N, dawTerm x j - dawsonF x) by ring, abs_neg,
      neg_mul, abs_neg] at h1
    exact h1

theorem dawsonF_lower_abs (x : ℝ) : |x| / (1 + 2 * x ^ 2) ≤ |dawsonF x| := by
  rcases le_total 0 x with h | h
  · rw [abs_of_nonneg h]
    exact (dawsonF_lower h).trans (le_abs_self _)
  · rw [abs_of_nonpos h]
    have := dawsonF_lower (neg_nonneg.2 h)
    rw [dawsonF_neg, neg_pow_two] at this
    exact this.trans (neg_le_abs _)

theorem dawPower_accuracy {eps : ℝ} (he : LdblEps eps) {x : ℝ} (hx : |x| ≤ 1) :
    ∃ v, dawPower eps x = .ok v ∧ |v - dawsonF x| ≤ eps * |dawsonF x| := by
  have he0 : 0 < eps := lt_of_lt_of_le (by positivity) he.1
  have he1 : eps ≤ 1 := he.2.trans (by norm_num)
  unfold dawPower
  by_cases h0 : x = 0
  · subst h0
    exact ⟨0, if_pos rfl, by simp [dawsonF_zero]⟩
  rw [if_neg h0]
  have hpos : 0 < |x| := abs_pos.2 h0
  have hx2 : x ^ 2 ≤ 1 := (sq_le_one_iff_abs_le_one x).2 hx
  have hK : |dawTerm x 200| ≤ eps / 2 * |∑ j ∈ Finset.range 200, dawTerm x j| := by
    have h1 := dawson_power_abs x 200
    have h2 := dawsonF_lower_abs x
    have h3 := dawTerm_le hx 200
    have h4 : |x| / 3 ≤ |x| / (1 + 2 * x ^ 2) := div_le_div_of_nonneg_left hpos.le (by positivity) (by linarith)
    have h5 : |dawsonF x| ≤ |x * ∑ j ∈ Finset.range 200, dawTerm x j - dawsonF x| + |x * ∑ j ∈ Finset.range 200, dawTerm x j| := by
      rw [abs_sub_comm]
      have := abs_sub_le (dawsonF x) (x * ∑ j ∈ Finset.range 200, dawTerm x j) 0
      rwa [sub_zero, sub_zero] at this
    have h6 : |x * dawTerm x 200| ≤ |x| * (2 / 3) ^ 200 := by
      rw [abs_mul]
      exact mul_le_mul_of_nonneg_left h3 hpos.le
    rw [abs_mul x (∑ j ∈ Finset.range 200, dawTerm x j)] at h5
    have h7 : |x| * (1 / 4) ≤ |x| * |∑ j ∈ Finset.range 200, dawTerm x j| := by
      have : |x| * (1 / 4) ≤ |x| * (1 / 3 - (2 / 3) ^ 200) := mul_le_mul_of_nonneg_left (by norm_num) hpos.le
      linarith
    have h8 := le_of_mul_le_mul_left h7 hpos
    refine h3.trans ?_
    have h9 : (1 / 2 ^ 112 : ℝ) / 2 * (1 / 4) ≤ eps / 2 * |∑ j ∈ Finset.range 200, dawTerm x j| :=
      mul_le_mul (by have := he.1; linarith) h8 (by norm_num) (by linarith)
    exact le_trans (by norm_num) h9
  obtain ⟨N, h1, h2⟩ := dawPowerLoop_eq eps x hK (2 ^ 30 - 1) 0 (by norm_num) (by norm_num)
  have e : dawTerm x 0 = 1 := by simp [dawTerm, oddFac]
  rw [Finset.range_zero, Finset.sum_empty, e, pow_zero, oddFac] at h1
  refine ⟨_, h1, ?_⟩
  have h3 := dawson_power_abs x N
  have h4 : |x * dawTerm x N| ≤ eps / 2 * |x * ∑ j ∈ Finset.range N, dawTerm x j| := by
    rw [abs_mul, abs_mul]
    calc |x| * |dawTerm x N| ≤ |x| * (eps / 2 * |∑ j ∈ Finset.range N, dawTerm x j|) := mul_le_mul_of_nonneg_left h2 hpos.le
      _ = _ := by ring
  generalize x * ∑ j ∈ Finset.range N, dawTerm x j = v at h3 h4 ⊢
  have h5 : |v| ≤ |v - dawsonF x| + |dawsonF x| := by
    have := abs_add_le (v - dawsonF x) (dawsonF x)
    rwa [sub_add_cancel] at this
  have h6 := h3.trans h4
  have h7 : eps / 2 * |v| ≤ eps / 2 * (|v - dawsonF x| + |dawsonF x|) := mul_le_mul_of_nonneg_left h5 (by linarith)
  have h8 : eps * |v - dawsonF x| ≤ 1 * |v - dawsonF x| := mul_le_mul_of_nonneg_right he1 (abs_nonneg _)
  linarith

/-! ## Chebyshev expansions -/

theorem dawCheb_eq {i : ℕ} (hi : i < 6) (x : ℝ) : dawCheb i x = .ok (if x > 0 then dawP i |x| else -dawP i |x|) := by
  have hlen : (dawRows.getD i []).length = 21 := by
    have hi' : i < dawRows.length := by rw [dawRows_shape.1]; exact hi
    have := dawRows_shape.2 (dawRows[i]) (List.getElem_mem hi')
    rw [List.getD_eq_getElem?_getD, List.getElem?_eq_getElem hi']
    exact this
  have hc : (dawCoef i).length = 21 := by rw [dawCoef, List.length_map, hlen]
  unfold dawCheb
  simp only []
  rw [hc, show ((21 : ℕ) : ℤ) - 1 = (20 : ℕ) by norm_num, chebSeries_eq _ _ _ (by rw [hc]; norm_num), Outcome.ok_bind]
  have e : ∑ k ∈ Finset.range (20 + 1), (dawCoef i).getD k 0 * chebT k ((|x| - (((dawIntervals.getD i (0, 0)).2 : ℝ) + (dawIntervals.getD i (0, 0)).1) / 2) /
      ((((dawIntervals.getD i (0, 0)).2 : ℝ) - (dawIntervals.getD i (0, 0)).1) / 2)) = dawP i |x| := by
    unfold dawP
    refine Finset.sum_congr rfl fun k hk => ?_
    have hk' : k < 21 := Finset.mem_range.1 hk
    congr 1
    · unfold dawCoef dawQ
      rw [List.getD_eq_getElem?_getD, List.getElem?_map, List.getD_eq_getElem?_getD (l := dawRows.getD i []),
        List.getElem?_eq_getElem (by rw [hlen]; exact hk')]
      simp
    · unfold dawMid dawHalf dawHi dawLo
      push_cast
      rfl
  rw [e]

theorem dawCheb_accuracy {i : ℕ} (hi : i < 6) {x : ℝ} (h1 : (dawLo i : ℝ) ≤ |x|) (h2 : |x| ≤ dawHi i) :
    ∃ v, dawCheb i x = .ok v ∧ |v - dawsonF x| ≤ 25 / 10 ^ 20 * |dawsonF x| := by
  refine ⟨_, dawCheb_eq hi x, ?_⟩
  have hlo : (1 : ℝ) ≤ dawLo i := by exact_mod_cast (dawOrder i hi).1
  have hhi : (dawHi i : ℝ) ≤ 29 / 4 := by
    have : ∀ i < 6, dawHi i ≤ 29 / 4 := by decide +kernel
    have := (Rat.cast_le (K := ℝ)).2 (this i hi)
    push_cast at this
    exact this
  have h3 := dawP_close i hi |x| h1 h2
  have h4 : |(if x > 0 then dawP i |x| else -dawP i |x|) - dawsonF x| = |dawP i |x| - dawsonF (|x|)| := by
    by_cases hx : x > 0
    · rw [if_pos hx, abs_of_pos hx]
    · rw [if_neg hx, abs_of_nonpos (not_lt.1 hx), dawsonF_neg, ← abs_neg]
      congr 1
      ring
  rw [h4]
  have h5 := dawsonF_lower_abs x
  have h6 : (68 / 1000 : ℝ) ≤ |x| / (1 + 2 * x ^ 2) := by
    rw [← sq_abs x, le_div_iff₀ (by positivity)]
    nlinarith
  have h7 : (i : ℝ) ≤ 5 := by exact_mod_cast (by omega : i ≤ 5)
  have h8 : (16 / 10 ^ 21 + i / 10 ^ 22 : ℝ) ≤ 25 / 10 ^ 20 * (68 / 1000) := by linarith
  refine h3.trans (h8.trans ?_)
  exact mul_le_mul_of_nonneg_left (h6.trans h5) (by norm_num)

/-! ## Asymptotic expansion -/

/-- Term `j` as the code computes it. -/
noncomputable def asyT (x : ℝ) (j : ℕ) : ℝ := 2 * x * asyU x j

theorem dawAsymLoop_eq (eps : ℝ) {x : ℝ} (hx : 0 < x) (fuel m : ℕ) (hf : m + 1 + fuel = 51) (term : List (Option ℝ)) (hl : term.length = 51)
    (ht : ∀ j ≤ m, term[j]? = some (some (asyT x j))) :
    ∃ N term', dawAsymLoop eps (x * x + x * x) fuel (m + 1) ((x * x + x * x) ^ m) (2 ^ (m + 1) * asyC m) term = .ok (N, term') ∧
      m + 1 ≤ N ∧ N ≤ 51 ∧ (N ≤ 50 → asyT x N < eps / 2) ∧ ∀ j, j ≤ N → j ≤ 50 → term'[j]? = some (some (asyT x j)) := by
  induction fuel generalizing m term with
  | zero =>
    refine ⟨m + 1, term, rfl, le_rfl, by omega, by omega, fun j h1 h2 => ht j (by omega)⟩
  | succ fuel ih =>
    unfold dawAsymLoop
    have e1 : (x * x + x * x) ^ m * (x * x + x * x) = (x * x + x * x) ^ (m + 1) := (pow_succ _ _).symm
    have e2 : (2 ^ (m + 1) * (asyC m : ℝ)) * (((m + 1 : ℕ) : ℝ) + (m + 1 : ℕ) - 1) = 2 ^ (m + 1 + 1) * asyC (m + 1) := by
      rw [asyC]
      push_cast
      rw [pow_succ _ (m + 1)]
      ring
    have e3 : (2 ^ (m + 1 + 1) * (asyC (m + 1) : ℝ)) / (x * x + x * x) ^ (m + 1) = asyT x (m + 1) := by
      unfold asyT asyU
      rw [show x * x + x * x = 2 * x ^ 2 by ring, mul_pow, ← pow_mul, pow_succ x, pow_succ 2 (m + 1)]
      field_simp
    simp only [e1, e2, e3]
    rw [wr_ok _ (show m + 1 < term.length by omega), Outcome.ok_bind]
    have hl' : (term.set (m + 1) (some (asyT x (m + 1)))).length = 51 := by rw [List.length_set, hl]
    have ht' : ∀ j ≤ m + 1, (term.set (m + 1) (some (asyT x (m + 1))))[j]? = some (some (asyT x j)) := by
      intro j hj
      rw [List.getElem?_set]
      by_cases h : m + 1 = j
      · subst h
        rw [if_pos rfl, if_pos (by omega)]
      · rw [if_neg h, ht j (by omega)]
    by_cases h : asyT x (m + 1) < eps / 2
    · rw [if_pos h]
      exact ⟨m + 1, _, rfl, le_rfl, by omega, fun _ => h, fun j h1 _ => ht' j h1⟩
    · rw [if_neg h]
      obtain ⟨N, term', i1, i2, i3, i4, i5⟩ := ih (m + 1) (by omega) _ hl' ht'
      exact ⟨N, term', i1, by omega, i3, i4, i5⟩

theorem dawAsym_eq (eps : ℝ) {x : ℝ} (hx : x ≠ 0) : ∃ N, 2 ≤ N ∧ N ≤ 50 ∧ (N = 50 ∨ asyT |x| N < eps / 2) ∧
    dawAsym eps x = .ok ((∑ j ∈ Finset.range (N + 1), asyT |x| j) / (x + x)) := by
  have hp : 0 < |x| := abs_pos.2 hx
  have hxx : x * x = |x| * |x| := (abs_mul_abs_self x).symm
  have h0 : asyT |x| 0 = 1 := by
    unfold asyT
    rw [asyU_zero]
    field_simp
  have h1 : asyT |x| 1 = 1 / (|x| * |x| + |x| * |x|) := by
    unfold asyT asyU asyC asyC
    push_cast
    field_simp
    norm_num
  obtain ⟨N, term', i1, i2, i3, i4, i5⟩ := dawAsymLoop_eq eps hp 49 1 rfl
    (((List.replicate 51 none).set 0 (some 1)).set 1 (some (1 / (|x| * |x| + |x| * |x|)))) (by simp) (by
      intro j hj
      interval_cases j
      · simp [h0]
      · simp [h1])
  have hmin : ∃ n, (if N > 50 then 50 else N) = n ∧ 2 ≤ n ∧ n ≤ 50 ∧ n ≤ N ∧ (n = 50 ∨ asyT |x| n < eps / 2) := by
    by_cases h : N > 50
    · exact ⟨50, if_pos h, by norm_num, le_rfl, by omega, Or.inl rfl⟩
    · exact ⟨N, if_neg h, i2, by omega, le_rfl, Or.inr (i4 (by omega))⟩
  obtain ⟨n, n1, n2, n3, n4, n5⟩ := hmin
  refine ⟨n, n2, n3, n5, ?_⟩
  unfold dawAsym
  simp only [hxx]
  rw [wr_ok _ (by simp), Outcome.ok_bind, wr_ok _ (by simp), Outcome.ok_bind]
  rw [pow_one, show (2 : ℝ) ^ (1 + 1) * (asyC 1 : ℝ) = 1 by norm_num [asyC]] at i1
  rw [i1, Outcome.ok_bind]
  simp only [n1]
  obtain ⟨s, s1, s2⟩ := forRange_spec (n := n + 1) (s := (0 : ℝ)) (body := fun k s => do
      let t ← rdInit term' (n - k)
      .ok (s + t)) (Q := fun s => s = ∑ k ∈ Finset.range (n + 1), asyT |x| (n - k))
    (fun i s => s = ∑ k ∈ Finset.range i, asyT |x| (n - k)) (by simp) (fun i s hi hs => by
      refine ⟨s + asyT |x| (n - i), ?_, ?_⟩
      · have : rdInit term' (n - i) = .ok (asyT |x| (n - i)) := by
          unfold rdInit rd
          rw [i5 (n - i) (by omega) (by omega)]
          rfl
        rw [this]
        rfl
      · rw [hs, Finset.sum_range_succ]) (fun s hs => hs)
  rw [s1, Outcome.ok_bind, s2]
  have := Finset.sum_range_reflect (fun j => asyT |x| j) (n + 1)
  simp only [Nat.add_sub_cancel] at this
  rw [this]

theorem dawAsym_accuracy {eps : ℝ} (he : LdblEps eps) {x : ℝ} (hx : 29 / 4 ≤ |x|) :
    ∃ v, dawAsym eps x = .ok v ∧ |v - dawsonF x| ≤ (eps + 4 / 10 ^ 19) * |dawsonF x| := by
  have he0 : 0 < eps := lt_of_lt_of_le (by positivity) he.1
  have hp : 0 < |x| := by linarith
  have hx0 : x ≠ 0 := abs_pos.1 hp
  obtain ⟨N, h2, h50, hN, hv⟩ := dawAsym_eq eps hx0
  refine ⟨_, hv, ?_⟩
  have h := asy_error (δ := eps / 2) h2 h50 hx (hN.imp_right fun h => by unfold asyT at h; exact h.le) (by linarith)
  have e : (∑ j ∈ Finset.range (N + 1), asyT |x| j) = 2 * |x| * ∑ j ∈ Finset.range (N + 1), asyU |x| j := by
    rw [Finset.mul_sum]
    rfl
  have h4 : |(∑ j ∈ Finset.range (N + 1), asyT |x| j) / (x + x) - dawsonF x| = |∑ j ∈ Finset.range (N + 1), asyU |x| j - dawsonF (|x|)| := by
    rw [e]
    rcases lt_or_gt_of_ne hx0 with h' | h'
    · rw [abs_of_neg h', dawsonF_neg, ← abs_neg]
      congr 1
      field_simp
      ring
    · rw [abs_of_pos h']
      congr 1
      field_simp
      ring
  rw [h4]
  refine h.trans ?_
  have h5 := dawsonF_lower_abs x
  have h6 : (99 / 100 : ℝ) * (1 / (2 * |x|)) ≤ |x| / (1 + 2 * x ^ 2) := by
    rw [← sq_abs x, mul_one_div, div_le_div_iff₀ (by positivity) (by positivity)]
    nlinarith
  have h7 := h6.trans h5
  have h8 : 1 / (2 * |x|) ≤ 100 / 99 * |dawsonF x| := by linarith
  refine (mul_le_mul_of_nonneg_left h8 (by linarith)).trans ?_
  have h9 := abs_nonneg (dawsonF x)
  rw [← mul_assoc]
  exact mul_le_mul_of_nonneg_right (by linarith) h9

end Libgrpp
