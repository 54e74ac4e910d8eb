import Verif.Lemmas.SkSound
import Verif.Lemmas.NuclearModels

/-! # The routine `specfunc_fermi_sk` in terms of its table, and bounds of the Fermi potential -/

namespace Libgrpp

open MeasureTheory

theorem skLiteral_chain (i : ℕ) (hi : i < 2000) (m : ℕ) (hm : m < 9) :
    |skLiteral ⟨i, by omega⟩ ⟨9 - m, by omega⟩ - -qChain m (skX i)| ≤ 2e-12 := by
  have h := (skRows_close i hi.le).2 hi m hm
  unfold skLiteral
  have e : -(((skRows.getD i []).getD (9 - m) 0 : ℕ) : ℝ) / 10 ^ 21 - -qChain m (skX i) =
      -((((skRows.getD i []).getD (9 - m) 0 : ℕ) : ℝ) / 10 ^ 21 - qChain m (skX i)) := by ring
  simp only [e, abs_neg]
  exact h

theorem qChain_le_one (j : ℕ) (h4 : 4 ≤ j) (h9 : j ≤ 9) {x : ℝ} (hx : x < 0) : |qChain j x| ≤ 1 := by
  have hE : Real.exp x ≤ 1 := Real.exp_le_one_iff.2 hx.le
  have hy := logi_bounds x
  rcases Nat.lt_or_ge j 6 with h | h
  · obtain ⟨k, hk, hk'⟩ : ∃ k, j = 7 - k ∧ (2 ≤ k ∧ k ≤ 3) := ⟨7 - j, by omega, by omega⟩
    rw [hk, qChain_fermiS hk'.1 (by omega) hx.le, abs_neg]
    have := fermiS_bounds hk'.1 hx.le
    rw [abs_le]
    constructor <;> linarith [Real.exp_pos x]
  · rcases Nat.lt_or_ge j 7 with h7 | h7
    · have : j = 6 := by omega
      subst this
      rw [qChain_one hx, fermiS_one hx, neg_neg]
      have h1 := Real.log_le_sub_one_of_pos (show 0 < 1 + Real.exp x by positivity)
      have h2 := Real.log_nonneg (show 1 ≤ 1 + Real.exp x by linarith [Real.exp_pos x])
      rw [abs_le]
      constructor <;> linarith
    · rw [qChain, if_neg (by omega)]
      obtain ⟨y0, y1⟩ := hy
      generalize logi x = y at *
      interval_cases j
      · simp [lowC, evalL, -abs_mul]
        rw [abs_le]
        constructor <;> linarith
      · simp [lowC, evalL, -abs_mul]
        rw [abs_le]
        constructor <;> nlinarith
      · simp [lowC, evalL, -abs_mul]
        rw [abs_le]
        constructor <;> nlinarith [mul_nonneg y0 (sub_nonneg.2 y1), mul_nonneg y0 y0]

/-- The value computed in the range of the table. -/
theorem fermiSk_table (tab : SkTable) (k : ℕ) (hk : 2 ≤ k ∧ k ≤ 7) {x : ℝ} (h10 : -10 < x) (n : ℕ) (hn : n < 2000)
    (hfl : ⌊(x + 10) * 200⌋ = (n : ℤ)) :
    fermiSk tab (k : Int) x = .ok (tab ⟨n, by omega⟩ ⟨k + 2, by omega⟩ +
      tab ⟨n, by omega⟩ ⟨k + 1, by omega⟩ * (x - skX n) +
      tab ⟨n, by omega⟩ ⟨k, by omega⟩ * ((x - skX n) * (x - skX n)) * 0.5 +
      tab ⟨n, by omega⟩ ⟨k - 1, by omega⟩ * ((x - skX n) * (x - skX n) * (x - skX n)) * (1 / 6)) := by
  unfold fermiSk
  rw [Outcome.assert_pos (by constructor <;> omega), Outcome.ok_bind, if_neg (by linarith), if_neg (by linarith),
    if_neg (by linarith), hfl]
  have hp : (0 : ℝ) ≤ (n : ℝ) + 1e-10 := by
    norm_num
    positivity
  have hfl2 : ⌊((n : ℤ) : ℝ) + 1e-10⌋ = (n : ℤ) := by
    rw [Int.floor_eq_iff]
    constructor
    · norm_num
    · norm_num
  rw [Int.cast_natCast] at hfl2
  simp only [Int.cast_natCast, if_pos hp, hfl2]
  rw [if_neg (by omega)]
  have e : ∀ (j : ℕ) (hj : j < 10) (z : ℤ), z = (j : ℤ) → skEntry tab (n : ℤ) z = .ok (tab ⟨n, by omega⟩ ⟨j, hj⟩) := by
    intro j hj z hz
    subst hz
    unfold skEntry
    rw [dif_pos ⟨by omega, by omega, by omega, by omega⟩]
    simp
  rw [e (k + 2) (by omega) _ (by push_cast; ring), e (k + 1) (by omega) _ (by push_cast; ring), e k (by omega) _ rfl,
    e (k - 1) (by omega) _ (by omega)]
  simp only [Outcome.ok_bind, skX]

/-- The row of an argument. -/
theorem sk_row {x : ℝ} (h10 : -10 < x) (h0 : x < 0) : ∃ n : ℕ, n < 2000 ∧ ⌊(x + 10) * 200⌋ = (n : ℤ) ∧ skX n ≤ x ∧
    x < skX n + 0.005 := by
  have f0 : (0 : Int) ≤ ⌊(x + 10) * 200⌋ := Int.floor_nonneg.2 (by linarith)
  have f1 : ⌊(x + 10) * 200⌋ < 2000 := by
    rw [Int.floor_lt]
    push_cast
    linarith
  obtain ⟨n, hn⟩ := Int.eq_ofNat_of_zero_le f0
  refine ⟨n, by omega, hn, ?_, ?_⟩
  · have := Int.floor_le ((x + 10) * 200)
    rw [hn] at this
    unfold skX
    push_cast at this
    linarith
  · have := Int.lt_floor_add_one ((x + 10) * 200)
    rw [hn] at this
    unfold skX
    push_cast at this
    linarith

theorem fermiDensity_eq (Z : ℝ) {c a : ℝ} (hc : 0 < c) (ha : 0 < a) : fermiDensity Z c a = bubbleRho Z c a 0 := by
  have hN := bubbleN_pos hc ha (le_refl (0 : ℝ))
  have hq := bubble_charge 1 0 hc ha hN.ne'
  have e : bubbleRho 1 c a 0 = fun s => 3 / (4 * Real.pi * (c * c * c) * bubbleN c a 0) * (1 / (1 + Real.exp ((s - c) / a))) := by
    funext s
    unfold bubbleRho
    ring
  rw [e] at hq
  have hq2 : 3 / (4 * Real.pi * (c * c * c) * bubbleN c a 0) * totalCharge (fun s => 1 / (1 + Real.exp ((s - c) / a))) = 1 := by
    refine Eq.trans ?_ hq
    unfold totalCharge
    rw [← integral_const_mul]
    congr 1
    funext s
    ring
  have h0 : totalCharge (fun s => 1 / (1 + Real.exp ((s - c) / a))) ≠ 0 := by
    intro h
    rw [h] at hq2
    norm_num at hq2
  funext r
  unfold fermiDensity bubbleRho
  have : (1 : ℝ) / totalCharge (fun s => 1 / (1 + Real.exp ((s - c) / a))) = 3 / (4 * Real.pi * (c * c * c) * bubbleN c a 0) := by
    rw [div_eq_iff h0, hq2]
  rw [div_eq_mul_one_div Z, this]
  ring

/-- No spherical density of one sign attracts more strongly than its charge put in the centre. -/
theorem fermi_energy_le (Z : ℝ) {c a r : ℝ} (hc : 0 < c) (ha : 0 < a) (hr : 0 < r) :
    |electronEnergy (bubbleRho Z c a 0) r| ≤ |Z| / r := by
  have hN := bubbleN_pos hc ha (le_refl (0 : ℝ))
  have hq := bubble_charge Z 0 hc ha hN.ne'
  obtain ⟨i1, -⟩ := fermiFn_moment c ha 1 hr.le
  obtain ⟨i2, -⟩ := fermiFn_moment c ha 2 hr.le
  obtain ⟨i3, -⟩ := fermiFn_moment c ha 2 (le_refl (0 : ℝ))
  have hW : ∀ s, 0 ≤ fermiFn c a s := fun s => by unfold fermiFn; positivity
  have hρ : ∀ s, bubbleRho Z c a 0 s = 3 * Z / (4 * Real.pi * (c * c * c) * bubbleN c a 0) * fermiFn c a s := by
    intro s
    rw [bubbleRho_eq]
    ring
  obtain ⟨K, hK⟩ : ∃ K, K = 4 * Real.pi * (3 * Z / (4 * Real.pi * (c * c * c) * bubbleN c a 0)) := ⟨_, rfl⟩
  have g2 : ∀ s : ℝ, 4 * Real.pi * s ^ 2 * bubbleRho Z c a 0 s = K * (s ^ 2 * fermiFn c a s) := by
    intro s
    rw [hρ, hK]
    ring
  have g1 : ∀ s : ℝ, 4 * Real.pi * s * bubbleRho Z c a 0 s = K * (s ^ 1 * fermiFn c a s) := by
    intro s
    rw [hρ, hK]
    ring
  unfold totalCharge at hq
  unfold electronEnergy
  simp only [g1, g2] at hq ⊢
  rw [integral_const_mul] at hq ⊢
  rw [intervalIntegral.integral_const_mul]
  have hsplit : (∫ s in Set.Ioi (0 : ℝ), s ^ 2 * fermiFn c a s) =
      (∫ s in (0 : ℝ)..r, s ^ 2 * fermiFn c a s) + ∫ s in Set.Ioi r, s ^ 2 * fermiFn c a s := by
    rw [intervalIntegral.integral_of_le hr.le, ← setIntegral_union (Set.Ioc_disjoint_Ioi le_rfl) measurableSet_Ioi
      (i3.mono_set Set.Ioc_subset_Ioi_self) i2, Set.Ioc_union_Ioi_eq_Ioi hr.le]
  have hA : 0 ≤ ∫ s in (0 : ℝ)..r, s ^ 2 * fermiFn c a s :=
    intervalIntegral.integral_nonneg hr.le fun s _ => mul_nonneg (by positivity) (hW s)
  have hB0 : 0 ≤ ∫ s in Set.Ioi r, s ^ 1 * fermiFn c a s :=
    setIntegral_nonneg measurableSet_Ioi fun s hs => mul_nonneg (by rw [pow_one]; exact (hr.trans hs).le) (hW s)
  have hB : (∫ s in Set.Ioi r, s ^ 1 * fermiFn c a s) ≤ (∫ s in Set.Ioi r, s ^ 2 * fermiFn c a s) / r := by
    rw [div_eq_inv_mul, ← integral_const_mul]
    refine setIntegral_mono_on i1 (i2.const_mul _) measurableSet_Ioi fun s hs => ?_
    have hs' : r < s := hs
    have : s ^ 1 ≤ r⁻¹ * s ^ 2 := by
      rw [← div_eq_inv_mul, le_div_iff₀ hr, pow_one, sq]
      exact mul_le_mul_of_nonneg_left hs'.le (hr.trans hs').le
    calc s ^ 1 * fermiFn c a s ≤ r⁻¹ * s ^ 2 * fermiFn c a s := mul_le_mul_of_nonneg_right this (hW s)
      _ = _ := by ring
  rw [hsplit] at hq
  generalize (∫ s in (0 : ℝ)..r, s ^ 2 * fermiFn c a s) = A at *
  generalize (∫ s in Set.Ioi r, s ^ 1 * fermiFn c a s) = B at *
  generalize (∫ s in Set.Ioi r, s ^ 2 * fermiFn c a s) = C at *
  rw [← hq, abs_neg, abs_mul]
  have e : K * A / r + K * B = K * (A / r + B) := by ring
  have h1 : 0 ≤ A / r + B := by positivity
  have h2 : A / r + B ≤ (A + C) / r := by rw [add_div]; linarith
  have h3 : 0 ≤ A + C := by
    have := h1.trans h2
    rwa [le_div_iff₀ hr, zero_mul] at this
  rw [e, abs_mul, abs_of_nonneg h1, abs_of_nonneg h3, mul_div_assoc]
  exact mul_le_mul_of_nonneg_left h2 (abs_nonneg _)

end Libgrpp
