import Verif.Lemmas.FermiSk
import Verif.Props.NuclearModels

/-! # Accuracy of the Fermi special functions and of the Fermi potential

Theorems for properties C68 and C69. -/

namespace Libgrpp

open MeasureTheory

/-! ## C68: the function `specfunc_fermi_sk` -/

/-- Every number of the table used by the routine is within `2e-12` of the function it stands for. -/
theorem fermi_sk_table_accuracy (i : ℕ) (hi : i ≤ 2000) (k : ℕ) (hk : 2 ≤ k ∧ k ≤ 7) :
    |skLiteral ⟨i, by omega⟩ ⟨k + 2, by omega⟩ - fermiS k (-10 + (i : ℝ) * 0.005)| ≤ 2e-12 := by
  have h := (skRows_close i hi).1 (7 - k) (by omega)
  have hx : skX i ≤ 0 := by
    unfold skX
    have : (i : ℝ) ≤ 2000 := by exact_mod_cast hi
    linarith
  rw [qChain_fermiS hk.1 hk.2 hx, show 9 - (7 - k) = k + 2 by omega] at h
  unfold skLiteral
  have e : -(((skRows.getD i []).getD (k + 2) 0 : ℕ) : ℝ) / 10 ^ 21 - fermiS k (-10 + (i : ℝ) * 0.005) =
      -((((skRows.getD i []).getD (k + 2) 0 : ℕ) : ℝ) / 10 ^ 21 - -fermiS k (skX i)) := by
    unfold skX
    ring
  simp only [e, abs_neg]
  exact h

example : |skLiteral ⟨2000, by omega⟩ ⟨4, by omega⟩ - fermiS 2 0| ≤ 2e-12 := by
  have := fermi_sk_table_accuracy 2000 le_rfl 2 (by norm_num)
  norm_num at this ⊢
  exact this

/-- With the numbers of the source the routine returns `S_k(x)` to within `3e-11`, for every order it accepts and every
nonpositive argument. -/
theorem fermi_sk_accuracy_partial (k : ℕ) (hk : 2 ≤ k ∧ k ≤ 7) {x : ℝ} (hx : x ≤ 0) :
    ∃ v, fermiSk skLiteral (k : Int) x = .ok v ∧ |v - fermiS k x| ≤ 3e-11 := by
  rcases le_or_gt x (-10) with h10 | h10
  · -- truncated series
    have hneg : x < 0 := by linarith
    have hE1 := Real.exp_pos x
    have he : ∀ n : ℕ, Real.exp (((n : ℝ) + 1) * x) = Real.exp x ^ (n + 1) := by
      intro n
      rw [← Real.exp_nat_mul]
      push_cast
      rfl
    have hb1 : Real.exp (-1) ≤ 1 / 2 := by
      rw [Real.exp_neg, ← one_div]
      refine one_div_le_one_div_of_le (by norm_num) ?_
      have := Real.add_one_le_exp (1 : ℝ)
      linarith
    have small : ∀ m : ℕ, x ≤ -(m : ℝ) → Real.exp x ≤ (1 / 2) ^ m := by
      intro m hm
      have : Real.exp x ≤ Real.exp (-1) ^ m := by
        rw [← Real.exp_nat_mul]
        exact Real.exp_le_exp.2 (by linarith)
      exact this.trans (pow_le_pow_left₀ (Real.exp_pos _).le hb1 m)
    have ee : ∀ j : ℕ, Real.exp ((j : ℝ) * x) = Real.exp x ^ j := fun j => Real.exp_nat_mul x j
    have e2 : Real.exp (2 * x) = Real.exp x ^ 2 := by exact_mod_cast ee 2
    have e3 : Real.exp (3 * x) = Real.exp x ^ 3 := by exact_mod_cast ee 3
    unfold fermiSk
    rw [Outcome.assert_pos (by constructor <;> omega), Outcome.ok_bind]
    have zp : ∀ b : ℝ, b ^ (k : ℤ) = b ^ k := fun b => zpow_natCast b k
    split_ifs with h1 h2
    · refine ⟨_, rfl, ?_⟩
      have hp := fermiS_partial k hneg 1
      simp only [he, Finset.sum_range_one] at hp
      norm_num at hp
      have hs := small 30 (by norm_num; exact h1)
      rw [abs_sub_comm]
      have e : fermiS k x - -1 * Real.exp x = fermiS k x + Real.exp x := by ring
      rw [e]
      refine hp.trans ((pow_le_pow_left₀ hE1.le hs 2).trans ?_)
      norm_num
    · refine ⟨_, rfl, ?_⟩
      have hp := fermiS_partial k hneg 2
      simp only [he, Finset.sum_range_succ, Finset.range_zero, Finset.sum_empty] at hp
      norm_num at hp
      have hs := small 14 (by norm_num; exact h2)
      rw [abs_sub_comm, e2, zp]
      have e : fermiS k x - (-1 * Real.exp x + 1 * Real.exp x ^ 2 / 2 ^ k) =
          fermiS k x - (-Real.exp x + Real.exp x ^ 2 / 2 ^ k) := by ring
      rw [e]
      refine hp.trans ((pow_le_pow_left₀ hE1.le hs 3).trans ?_)
      norm_num
    · refine ⟨_, rfl, ?_⟩
      have hp := fermiS_partial k hneg 3
      simp only [he, Finset.sum_range_succ, Finset.range_zero, Finset.sum_empty] at hp
      norm_num at hp
      have hs := small 10 (by norm_num; exact h10)
      rw [abs_sub_comm, e2, e3, zp, zp]
      have e : fermiS k x - (-1 * Real.exp x + 1 * Real.exp x ^ 2 / 2 ^ k + -1 * Real.exp x ^ 3 / 3 ^ k) =
          fermiS k x - (-Real.exp x + Real.exp x ^ 2 / 2 ^ k + -Real.exp x ^ 3 / 3 ^ k) := by ring
      rw [e]
      refine hp.trans ((pow_le_pow_left₀ hE1.le hs 4).trans ?_)
      norm_num
  · rcases lt_or_eq_of_le hx with h0 | h0
    · obtain ⟨n, hn, hfl, hl, hu⟩ := sk_row h10 h0
      refine ⟨_, fermiSk_table skLiteral k hk h10 n hn hfl, ?_⟩
      have hc : ∀ (m : ℕ) (hm : 7 - k + m < 9),
          |skLiteral ⟨n, by omega⟩ ⟨9 - (7 - k + m), by omega⟩ - -qChain (7 - k + m) (skX n)| ≤ 2e-12 :=
        fun m hm => skLiteral_chain n hn (7 - k + m) hm
      have c0 := hc 0 (by omega)
      have c1 := hc 1 (by omega)
      have c2 := hc 2 (by omega)
      have c3 := hc 3 (by omega)
      simp only [show 9 - (7 - k + 0) = k + 2 by omega, show 9 - (7 - k + 1) = k + 1 by omega,
        show 9 - (7 - k + 2) = k by omega, show 9 - (7 - k + 3) = k - 1 by omega] at c0 c1 c2 c3
      have ht := chain_taylor 4 (fun m => qChain (7 - k + m)) (skX n) 1
        (fun m hm t => qChain_hasDerivAt (7 - k + m) (by omega) t) (x - skX n) (by linarith)
        fun t _ h2 => qChain_le_one (7 - k + 4) (by omega) (by omega) (by linarith)
      simp only [Finset.sum_range_succ, Finset.range_zero, Finset.sum_empty] at ht
      norm_num [Nat.factorial] at ht c0
      rw [qChain_fermiS hk.1 hk.2 hx] at ht
      obtain ⟨dx, hdx⟩ : ∃ dx, dx = x - skX n := ⟨_, rfl⟩
      rw [← hdx] at ht ⊢
      have d0 : 0 ≤ dx := by rw [hdx]; linarith
      have d1 : dx ≤ 1 / 200 := by rw [hdx]; norm_num at hu ⊢; linarith
      generalize skLiteral ⟨n, _⟩ ⟨k + 2, _⟩ = t0 at *
      generalize skLiteral ⟨n, _⟩ ⟨k + 1, _⟩ = t1 at *
      generalize skLiteral ⟨n, _⟩ ⟨k, _⟩ = t2 at *
      generalize skLiteral ⟨n, _⟩ ⟨k - 1, _⟩ = t3 at *
      generalize qChain (7 - k) (skX n) = q0 at *
      generalize qChain (7 - k + 1) (skX n) = q1 at *
      generalize qChain (7 - k + 2) (skX n) = q2 at *
      generalize qChain (7 - k + 3) (skX n) = q3 at *
      generalize fermiS k x = F at *
      have b1 : |(t1 + q1) * dx| ≤ 1e-14 := by
        rw [abs_mul, abs_of_nonneg d0]
        rw [sub_neg_eq_add] at c1
        calc |t1 + q1| * dx ≤ 2e-12 * (1 / 200) := mul_le_mul c1 d1 d0 (by norm_num)
          _ = 1e-14 := by norm_num
      have p2 : dx ^ 2 ≤ (1 / 200) ^ 2 := pow_le_pow_left₀ d0 d1 2
      have p3 : dx ^ 3 ≤ (1 / 200) ^ 3 := pow_le_pow_left₀ d0 d1 3
      have p4 : dx ^ 4 ≤ (1 / 200) ^ 4 := pow_le_pow_left₀ d0 d1 4
      have b2 : |(t2 + q2) * (dx ^ 2 / 2)| ≤ 1e-14 := by
        rw [abs_mul, abs_of_nonneg (by positivity : (0 : ℝ) ≤ dx ^ 2 / 2)]
        rw [sub_neg_eq_add] at c2
        calc |t2 + q2| * (dx ^ 2 / 2) ≤ 2e-12 * ((1 / 200) ^ 2 / 2) := mul_le_mul c2 (by linarith) (by positivity) (by norm_num)
          _ ≤ 1e-14 := by norm_num
      have b3 : |(t3 + q3) * (dx ^ 3 / 6)| ≤ 1e-14 := by
        rw [abs_mul, abs_of_nonneg (by positivity : (0 : ℝ) ≤ dx ^ 3 / 6)]
        rw [sub_neg_eq_add] at c3
        calc |t3 + q3| * (dx ^ 3 / 6) ≤ 2e-12 * ((1 / 200) ^ 3 / 6) := mul_le_mul c3 (by linarith) (by positivity) (by norm_num)
          _ ≤ 1e-14 := by norm_num
      have b4 : dx ^ 4 / 24 ≤ 2.7e-11 := by
        have : ((1 : ℝ) / 200) ^ 4 / 24 ≤ 2.7e-11 := by norm_num
        linarith
      have e : t0 + t1 * dx + t2 * (dx * dx) * 0.5 + t3 * (dx * dx * dx) * (1 / 6) - F =
          (t0 + q0) + (t1 + q1) * dx + (t2 + q2) * (dx ^ 2 / 2) + (t3 + q3) * (dx ^ 3 / 6) +
            (-F - (q0 + q1 * dx + q2 * (dx ^ 2 / 2) + q3 * (dx ^ 3 / 6))) := by ring
      rw [e]
      norm_num [-abs_mul] at c0 b1 b2 b3 b4 ⊢
      rw [abs_le] at *
      constructor <;> linarith [ht.1, ht.2, b1.1, b1.2, b2.1, b2.2, b3.1, b3.2, c0.1, c0.2]
    · subst h0
      have hfl : ⌊((0 : ℝ) + 10) * 200⌋ = (2000 : ℤ) := by
        rw [Int.floor_eq_iff]
        norm_num
      have hfl2 : ⌊((2000 : ℤ) : ℝ) + 1e-10⌋ = (2000 : ℤ) := by
        rw [Int.floor_eq_iff]
        norm_num
      refine ⟨skLiteral ⟨2000, by omega⟩ ⟨k + 2, by omega⟩, ?_, ?_⟩
      · unfold fermiSk
        rw [Outcome.assert_pos (by constructor <;> omega), Outcome.ok_bind, if_neg (by norm_num), if_neg (by norm_num),
          if_neg (by norm_num), hfl]
        have hp : (0 : ℝ) ≤ ((2000 : ℤ) : ℝ) + 1e-10 := by norm_num
        simp only [if_pos hp, hfl2, if_true]
        unfold skEntry
        rw [dif_pos ⟨by norm_num, by norm_num, by omega, by omega⟩]
        congr 1
      · have := fermi_sk_table_accuracy 2000 le_rfl k hk
        norm_num at this ⊢
        refine this.trans ?_
        norm_num

/-- The accuracy of `1e-12` promised in the comment of the source (specfunc_fermi_sk.c:19-21) is not reached: at
`x = -0.0051` and `k = 7` the error is more than `1e-11`. -/
theorem fermi_sk_promise_false : ∃ v, fermiSk skLiteral 7 (-0.0051) = .ok v ∧ 1e-11 < |v - fermiS 7 (-0.0051)| := by
  have hfl : ⌊((-0.0051 : ℝ) + 10) * 200⌋ = ((1998 : ℕ) : ℤ) := by
    rw [Int.floor_eq_iff]
    norm_num
  have h := fermiSk_table skLiteral 7 (by norm_num) (x := -0.0051) (by norm_num) 1998 (by norm_num) hfl
  refine ⟨_, h, ?_⟩
  have hx : (-0.0051 : ℝ) - skX 1998 = 49 / 10000 := by
    unfold skX
    norm_num
  have hs : skX 1998 = -1 / 100 := by
    unfold skX
    norm_num
  have c0 := skLiteral_chain 1998 (by norm_num) 0 (by norm_num)
  have c1 := skLiteral_chain 1998 (by norm_num) 1 (by norm_num)
  have c2 := skLiteral_chain 1998 (by norm_num) 2 (by norm_num)
  have c3 := skLiteral_chain 1998 (by norm_num) 3 (by norm_num)
  have ht := chain_taylor 5 (fun m => qChain m) (skX 1998) 1
    (fun m hm t => qChain_hasDerivAt m (by omega) t) (49 / 10000) (by norm_num)
    fun t _ h2 => qChain_le_one 5 (by norm_num) (by norm_num) (by rw [hs] at h2; linarith)
  have hxx : skX 1998 + 49 / 10000 = -0.0051 := by rw [hs]; norm_num
  rw [hxx] at ht
  have hq : qChain 0 (-0.0051) = -fermiS 7 (-0.0051) := qChain_fermiS (k := 7) (by norm_num) le_rfl (by norm_num)
  have hq4 : qChain 4 (skX 1998) = -fermiS 3 (skX 1998) :=
    qChain_fermiS (k := 3) (by norm_num) (by norm_num) (by rw [hs]; norm_num)
  have hS3 : 0.7 ≤ qChain 4 (skX 1998) := by
    rw [hq4, hs]
    have ha := (fermiS_terms_antitone 3 (x := (-1 / 100 : ℝ)) (by norm_num))
    have hb : fermiS 3 (-1 / 100) ≤ -Real.exp (-1 / 100) + Real.exp (2 * (-1 / 100)) / 8 := by
      have hsum := sTerm_summable 3 (x := (-1 / 100 : ℝ)) (by norm_num)
      have ht : Filter.Tendsto (fun N => ∑ n ∈ Finset.range N, (-1 : ℝ) ^ n *
          (Real.exp (((n : ℝ) + 1) * (-1 / 100)) / ((n : ℝ) + 1) ^ 3)) Filter.atTop (nhds (-fermiS 3 (-1 / 100))) := by
        have := hsum.hasSum.tendsto_sum_nat.neg
        refine this.congr fun N => ?_
        rw [← Finset.sum_neg_distrib]
        refine Finset.sum_congr rfl fun n _ => ?_
        unfold sTerm
        rw [pow_succ]
        ring
      have h1 := ha.alternating_series_le_tendsto ht 1
      simp only [Finset.sum_range_succ, Finset.range_zero, Finset.sum_empty, mul_one] at h1
      norm_num at h1 ⊢
      linarith
    have e1 : (0.99 : ℝ) ≤ Real.exp (-1 / 100) := by
      have := Real.add_one_le_exp (-1 / 100 : ℝ)
      linarith
    have e2 : Real.exp (2 * (-1 / 100)) ≤ 1 := Real.exp_le_one_iff.2 (by norm_num)
    linarith
  simp only [Finset.sum_range_succ, Finset.range_zero, Finset.sum_empty] at ht
  norm_num [Nat.factorial] at ht
  norm_num at hq hx c0 c1 c2 c3 hS3 ⊢
  rw [hq] at ht
  rw [hx]
  rw [abs_le] at c0 c1 c2 c3 ht
  rw [lt_abs]
  left
  linarith [c0.1, c0.2, c1.1, c1.2, c2.1, c2.2, c3.1, c3.2, ht.1, ht.2]

example : ∃ v, fermiSk skLiteral (3 : ℕ) (-12) = .ok v ∧ |v - fermiS 3 (-12)| ≤ 3e-11 :=
  fermi_sk_accuracy_partial 3 (by norm_num) (by norm_num)

/-! ## C69: the Fermi potential computed by the library -/

/-- With any routine for `S_k` accurate to `ε`, and the surface thickness parameter not above the half-density radius, the
Fermi potential is accurate to `36 ε |Z| (1/c + 1/r)`. -/
theorem fermi_potential_error {sk : SkFun} {ε : ℝ} (hε : 0 ≤ ε ∧ ε ≤ 1 / 12)
    (h : ∀ (k : ℕ) (x : ℝ), 2 ≤ k → k ≤ 7 → x ≤ 0 → ∃ v, sk (k : Int) x = .ok v ∧ |v - fermiS k x| ≤ ε)
    (Z : ℝ) {c a r : ℝ} (hc : 0 < c) (ha : 0 < a) (hac : a ≤ c) (hr : 0 < r) :
    ∃ v, potFermi sk r Z c a = .ok v ∧
      |v - electronEnergy (fermiDensity Z c a) r| ≤ 36 * ε * |Z| * (1 / c + 1 / r) := by
  have hx : -c / a ≤ 0 := div_nonpos_of_nonpos_of_nonneg (by linarith) ha.le
  rw [fermiDensity_eq Z hc ha]
  have hle := fermi_energy_le Z hc ha hr
  -- the exact potential
  obtain ⟨ρ, hd, -, -, -, hV, -⟩ := fermi_nucleus (sk := skTotal) (fun k x _ _ _ => by simp [skTotal]) Z hc ha
  have hρ : ρ = bubbleRho Z c a 0 := by
    funext s
    have h1 := hd s
    simp only [densFermi, fermiNorm, skTotal, Outcome.ok_bind] at h1
    injection h1 with h1
    rw [← h1]
    unfold bubbleRho bubbleN
    norm_num
    rfl
  rw [hρ] at hV
  have hV := hV r hr
  obtain ⟨y, hy⟩ : ∃ y, y = a / c := ⟨_, rfl⟩
  have y0 : 0 < y := by rw [hy]; positivity
  have y1 : y ≤ 1 := by rw [hy, div_le_one hc]; exact hac
  have y2 : y ^ 2 ≤ 1 := pow_le_one₀ y0.le y1
  have y3 : y ^ 3 ≤ 1 := pow_le_one₀ y0.le y1
  obtain ⟨s, hs, hse⟩ := h 3 (-c / a) (by norm_num) (by norm_num) hx
  have hSb := (fermiS_bounds (k := 3) (by norm_num) hx).2
  norm_num at hs
  have k2 : Int.toNat 2 = 2 := rfl
  have k3 : Int.toNat 3 = 3 := rfl
  -- generic step: two quotients
  have step : ∀ N N' G G' D : ℝ, 1 ≤ N → |N' - N| ≤ 6 * ε → |G' - G| ≤ D → |(-Z / (N * r) * G)| ≤ |Z| / r →
      |(-Z / (N' * r) * G') - (-Z / (N * r) * G)| ≤ |Z| / r * (2 * D + 12 * ε) := by
    intro N N' G G' D hN hN' hG hb
    have hh : 1 / 2 ≤ N' := by
      have := abs_le.1 hN'
      linarith [this.1]
    have e : (-Z / (N' * r) * G') - (-Z / (N * r) * G) =
        -Z / r * ((G' - G) / N') + (-Z / (N * r) * G) * ((N - N') / N') := by
      field_simp
      ring
    rw [e]
    have b1 : |-Z / r * ((G' - G) / N')| ≤ |Z| / r * (2 * D) := by
      rw [abs_mul, abs_div, abs_neg, abs_of_pos hr, abs_div, abs_of_pos (by linarith : 0 < N')]
      refine mul_le_mul_of_nonneg_left ?_ (by positivity)
      rw [div_le_iff₀ (by linarith)]
      have : 0 ≤ D := (abs_nonneg _).trans hG
      nlinarith
    have b2 : |(-Z / (N * r) * G) * ((N - N') / N')| ≤ |Z| / r * (12 * ε) := by
      rw [abs_mul, abs_div, abs_of_pos (by linarith : 0 < N'), abs_sub_comm]
      refine mul_le_mul hb ?_ (by positivity) (by positivity)
      rw [div_le_iff₀ (by linarith)]
      nlinarith [hε.1]
    calc _ ≤ _ := abs_add_le _ _
      _ ≤ |Z| / r * (2 * D) + |Z| / r * (12 * ε) := add_le_add b1 b2
      _ = _ := by ring
  have hN1 : 1 ≤ 1 + Real.pi * Real.pi * (a * a) / (c * c) - 6 * (a * a * a) / (c * c * c) * fermiS 3 (-c / a) := by
    have h1 : 0 ≤ Real.pi * Real.pi * (a * a) / (c * c) := by positivity
    have h2 : 6 * (a * a * a) / (c * c * c) * fermiS 3 (-c / a) ≤ 0 := mul_nonpos_of_nonneg_of_nonpos (by positivity) hSb
    linarith
  have hyy : a * a * a / (c * c * c) = y ^ 3 := by rw [hy]; field_simp
  have hNd : |(1 + Real.pi * Real.pi * (a * a) / (c * c) - 6 * (a * a * a) / (c * c * c) * s) -
      (1 + Real.pi * Real.pi * (a * a) / (c * c) - 6 * (a * a * a) / (c * c * c) * fermiS 3 (-c / a))| ≤ 6 * ε := by
    have e : (1 + Real.pi * Real.pi * (a * a) / (c * c) - 6 * (a * a * a) / (c * c * c) * s) -
      (1 + Real.pi * Real.pi * (a * a) / (c * c) - 6 * (a * a * a) / (c * c * c) * fermiS 3 (-c / a)) =
        6 * (-(y ^ 3 * (s - fermiS 3 (-c / a)))) := by
      rw [← hyy]
      ring
    rw [e, abs_mul, abs_neg, abs_mul, abs_of_nonneg (by positivity : 0 ≤ y ^ 3)]
    norm_num
    nlinarith [abs_nonneg (s - fermiS 3 (-c / a))]
  have fin : ∀ D : ℝ, D ≤ (3 * r / c + 12) * ε → |Z| / r * (2 * D + 12 * ε) ≤ 36 * ε * |Z| * (1 / c + 1 / r) := by
    intro D hD
    calc |Z| / r * (2 * D + 12 * ε) ≤ |Z| / r * (2 * ((3 * r / c + 12) * ε) + 12 * ε) :=
          mul_le_mul_of_nonneg_left (by linarith) (by positivity)
      _ = 6 * (ε * |Z| * (1 / c)) + 36 * (ε * |Z| * (1 / r)) := by
          field_simp
          ring
      _ ≤ _ := by
          have : 0 ≤ ε * |Z| * (1 / c) := mul_nonneg (mul_nonneg hε.1 (abs_nonneg _)) (by positivity)
          linarith
  have t2 : ∀ p q : ℝ, |p - q| ≤ ε → |y ^ 2 * (r / c) * (p - q)| ≤ r / c * ε := by
    intro p q hpq
    rw [abs_mul, abs_of_nonneg (by positivity)]
    have : y ^ 2 * (r / c) ≤ r / c := by
      have : 0 ≤ r / c := by positivity
      nlinarith
    exact mul_le_mul this hpq (abs_nonneg _) (by positivity)
  have t3 : ∀ p q : ℝ, |p - q| ≤ ε → |y ^ 3 * (p - q)| ≤ ε := by
    intro p q hpq
    rw [abs_mul, abs_of_nonneg (by positivity)]
    calc y ^ 3 * |p - q| ≤ 1 * ε := mul_le_mul y3 hpq (abs_nonneg _) (by norm_num)
      _ = ε := one_mul _
  have y2c : a * a * r / (c * c * c) = y ^ 2 * (r / c) := by rw [hy]; field_simp
  rcases lt_or_ge c r with hrc | hrc
  · have hz : (c - r) / a ≤ 0 := div_nonpos_of_nonpos_of_nonneg (by linarith) ha.le
    obtain ⟨p2, hp2, e2⟩ := h 2 ((c - r) / a) (by norm_num) (by norm_num) hz
    obtain ⟨p3, hp3, e3⟩ := h 3 ((c - r) / a) (by norm_num) (by norm_num) hz
    norm_num at hp2 hp3
    simp only [potFermi, fermiNorm, skTotal, Outcome.ok_bind, if_pos hrc, k2, k3] at hV
    injection hV with hV'
    simp only [potFermi, fermiNorm, hs, hp2, hp3, Outcome.ok_bind, if_pos hrc]
    refine ⟨_, rfl, ?_⟩
    rw [← hV'] at hle ⊢
    refine (step _ _ _ _ ((3 * r / c + 12) * ε) hN1 hNd ?_ hle).trans (fin _ le_rfl)
    have u2 := t2 _ _ e2
    have u3 := t3 _ _ e3
    have u4 := t3 _ _ hse
    have e : ∀ M M' : ℝ, M' + 3 * (a * a) * r / (c * c * c) * p2 + 6 * (a * a * a) / (c * c * c) * p3 -
        (M + 3 * (a * a) * r / (c * c * c) * fermiS 2 ((c - r) / a) + 6 * (a * a * a) / (c * c * c) * fermiS 3 ((c - r) / a)) =
        (M' - M) + 3 * (y ^ 2 * (r / c) * (p2 - fermiS 2 ((c - r) / a))) + 6 * (y ^ 3 * (p3 - fermiS 3 ((c - r) / a))) := by
      intro M M'
      rw [← hyy, ← y2c]
      ring
    rw [e]
    have e' : (3 * r / c + 12) * ε = 3 * (r / c * ε) + 12 * ε := by ring
    rw [e']
    rw [abs_le] at u2 u3 hNd ⊢
    constructor <;> linarith [u2.1, u2.2, u3.1, u3.2, hNd.1, hNd.2]
  · have hz : (r - c) / a ≤ 0 := div_nonpos_of_nonpos_of_nonneg (by linarith) ha.le
    obtain ⟨p2, hp2, e2⟩ := h 2 ((r - c) / a) (by norm_num) (by norm_num) hz
    obtain ⟨p3, hp3, e3⟩ := h 3 ((r - c) / a) (by norm_num) (by norm_num) hz
    norm_num at hp2 hp3
    simp only [potFermi, fermiNorm, skTotal, Outcome.ok_bind, if_neg (not_lt.2 hrc), k2, k3] at hV
    injection hV with hV'
    simp only [potFermi, fermiNorm, hs, hp2, hp3, Outcome.ok_bind, if_neg (not_lt.2 hrc)]
    refine ⟨_, rfl, ?_⟩
    rw [← hV'] at hle ⊢
    refine (step _ _ _ _ ((3 * r / c + 12) * ε) hN1 hNd ?_ hle).trans (fin _ le_rfl)
    have u2 := t2 _ _ e2
    have u3 := t3 _ _ e3
    have u4 := t3 _ _ hse
    have e : ∀ M : ℝ, M - 3 * (a * a) * r / (c * c * c) * p2 + 6 * (a * a * a) / (c * c * c) * (p3 - s) -
        (M - 3 * (a * a) * r / (c * c * c) * fermiS 2 ((r - c) / a) + 6 * (a * a * a) / (c * c * c) *
          (fermiS 3 ((r - c) / a) - fermiS 3 (-c / a))) =
        -3 * (y ^ 2 * (r / c) * (p2 - fermiS 2 ((r - c) / a))) + 6 * (y ^ 3 * (p3 - fermiS 3 ((r - c) / a))) -
          6 * (y ^ 3 * (s - fermiS 3 (-c / a))) := by
      intro M
      rw [← hyy, ← y2c]
      ring
    rw [e]
    have e' : (3 * r / c + 12) * ε = 3 * (r / c * ε) + 12 * ε := by ring
    rw [e']
    rw [abs_le] at u2 u3 u4 ⊢
    constructor <;> linarith [u2.1, u2.2, u3.1, u3.2, u4.1, u4.2]

/-- The Fermi potential computed by the library, with its own `S_k` routine and table, is within
`1.1e-9 |Z| (1/c + 1/r)` of the electrostatic energy of an electron in the field of the Fermi density. -/
theorem fermi_potential_accuracy (Z : ℝ) {c a r : ℝ} (hc : 0 < c) (ha : 0 < a) (hac : a ≤ c) (hr : 0 < r) :
    ∃ v, potFermi (fermiSk skLiteral) r Z c a = .ok v ∧
      |v - electronEnergy (fermiDensity Z c a) r| ≤ 1.1e-9 * |Z| * (1 / c + 1 / r) := by
  obtain ⟨v, hv, he⟩ := fermi_potential_error (sk := fermiSk skLiteral) (ε := 3e-11) (by norm_num)
    (fun k x h2 h7 hx => fermi_sk_accuracy_partial k ⟨h2, h7⟩ hx) Z hc ha hac hr
  refine ⟨v, hv, he.trans ?_⟩
  have : 0 ≤ |Z| * (1 / c + 1 / r) := by positivity
  nlinarith

example : ∃ v, potFermi (fermiSk skLiteral) 1 92 6 0.5 = .ok v ∧
    |v - electronEnergy (fermiDensity 92 6 0.5) 1| ≤ 1.1e-9 * |92| * (1 / 6 + 1 / 1) :=
  fermi_potential_accuracy 92 (by norm_num) (by norm_num) (by norm_num) (by norm_num)

end Libgrpp
