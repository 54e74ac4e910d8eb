import Verif.Lemmas.BesselEval

/-! # Properties of the scaled modified spherical Bessel functions (C57, C74)

The function meant is `exp(-x) i_n(x)`, `i_n(x) = Σ_j x^(n+2j)/((2j)!!(2n+2j+1)!!)` (`besselI`, Model/SpecSphere). -/

namespace Libgrpp

/-- C57, the relation: the combination formed by `modified_scaled_bessel_derivative` is the derivative. -/
theorem bessel_derivative_relation (l : ℕ) (x : ℝ) : HasDerivAt (fun x => Real.exp (-x) * besselI l x)
    ((l : ℝ) / (2 * l + 1) * (Real.exp (-x) * besselI (l - 1) x) + ((l : ℝ) + 1) / (2 * l + 1) * (Real.exp (-x) * besselI (l + 1) x) -
      Real.exp (-x) * besselI l x) x := besselK_hasDerivAt l x

/-- C57, the routine: if column `n` of row `ix` holds the `n`-th derivatives at `x` of the orders `lam-1`, `lam`, `lam+1`,
the routine returns the derivative of order `n+1` of order `lam`. -/
theorem bessel_derivative_routine {t : BesselTab} {n lam ix : ℕ} {x : ℝ} (hi : ix < 2000) (hl : lam + 1 < 60) (hn : n < 10)
    (ht : ∀ l, l + 1 = lam ∨ l = lam ∨ l = lam + 1 → t ix l n = iteratedDeriv n (fun x => Real.exp (-x) * besselI l x) x) :
    besselDerivative t (n + 1) lam ix = .ok (iteratedDeriv (n + 1) (fun x => Real.exp (-x) * besselI lam x) x) := by
  have hc : ∀ n l, iteratedDeriv n (fun x => Real.exp (-x) * besselI l x) = besChain n l := by
    intro n
    induction n with
    | zero => intro l; rw [iteratedDeriv_zero]; rfl
    | succ n ih =>
      intro l
      rw [iteratedDeriv_succ, ih]
      funext y
      exact (besChain_hasDerivAt n l y).deriv
  rw [besselDerivative_eq hi hl hn, hc]
  simp only [besChain, besDer]
  rw [ht lam (by simp), ht (lam + 1) (by simp), hc, hc]
  rcases lam with _ | lam
  · simp
  · rw [show lam + 1 - 1 = lam by omega, ht lam (by simp), hc]

/-- C57, look-ups: for an order below 50 every look-up is inside the arrays, whatever the argument and the content of the
table; for `n ≥ 60` and `1e-7 < x ≤ 16`, and for `n ≥ 50` and `x > 16`, it is not. -/
theorem bessel_lookups_in_range (t : BesselTab) (n : ℕ) (x : ℝ) :
    (n < 50 → ∃ v, besselScaled t n x = .ok v) ∧ (60 ≤ n → 1e-7 < x → x ≤ 16 → besselScaled t n x = .ub) ∧
      (50 ≤ n → 16 < x → besselScaled t n x = .ub) := by
  refine ⟨fun hn => ?_, fun hn h1 h2 => ?_, fun hn h => ?_⟩
  · by_cases h1 : x ≤ 1e-7
    · unfold besselScaled
      rw [if_pos h1]
      rcases n with _ | _ | _ | n <;> exact ⟨_, rfl⟩
    · by_cases h2 : x ≤ 16
      · obtain ⟨hi, -⟩ := besIndex (x := x) (by norm_num at h1 ⊢; linarith) h2
        unfold besselScaled
        rw [if_neg h1, if_pos h2]
        generalize (truncInt ((roundC (x * 100) : ℝ) + 1e-5)).toNat = i at *
        have hb : ∀ k < 10, btGet t i n k = .ok (t i n k) := fun k hk => btGet_ok ⟨by omega, by omega, hk⟩
        simp only [hb 0 (by norm_num), hb 1 (by norm_num), hb 2 (by norm_num), hb 3 (by norm_num), hb 4 (by norm_num), Outcome.ok_bind]
        exact ⟨_, rfl⟩
      · obtain ⟨v, e, -⟩ := besselScaled_large t hn (not_le.1 h2)
        exact ⟨v, e⟩
  · unfold besselScaled
    rw [if_neg (not_le.2 h1), if_pos h2]
    have hb : ∀ i k, btGet t i n k = .ub := fun i k => if_neg (by omega)
    simp only [hb]
    rfl
  · unfold besselScaled besselR
    rw [if_neg (by norm_num; linarith), if_neg (not_le.2 h)]
    have : forRange (n + 1) ((0, 1) : ℝ × ℝ) (fun k s => do
        let c ← rfunGet n k
        Outcome.ok (s.1 + c * s.2, s.2 * (1 / -x))) = .ub := by
      refine forRange_ub (k := 0) (fun _ _ => True) (by omega) trivial (fun i s hi _ => by omega) fun s _ => ?_
      simp only [rfunGet, if_neg (show ¬(n < 50 ∧ 0 < 50) by omega)]
      rfl
    simp only [this]
    rfl

/-- C57: building the table never leaves the arrays, whatever the table contained. -/
theorem bessel_pretabulate_in_range (t0 : BesselTab) : ∃ t, pretabulateBessel t0 = .ok t := by
  obtain ⟨t, h, -⟩ := pretabulateBessel_spec t0
  exact ⟨t, h⟩

/-- C74, the numbers of the source: every entry of `bessel_table_0` is the function at `x = 0.01 i` to within `7e-15`, and
relatively to within `2e-12`. -/
theorem bessel_table_accuracy (i l : ℕ) (hi : i ≤ 1600) (hl : l < 60) :
    |besselLiteral i l - Real.exp (-((i : ℝ) * 0.01)) * besselI l ((i : ℝ) * 0.01)| ≤ 7e-15 ∧
      |besselLiteral i l - Real.exp (-((i : ℝ) * 0.01)) * besselI l ((i : ℝ) * 0.01)| ≤
        2e-12 * (Real.exp (-((i : ℝ) * 0.01)) * besselI l ((i : ℝ) * 0.01)) :=
  ⟨(besselLiteral_close i l hi hl).2, (besselLiteral_close i l hi hl).1⟩

example : |besselLiteral 100 0 - (1 - Real.exp (-2)) / 2| ≤ 7e-15 := by
  have h := (bessel_table_accuracy 100 0 (by norm_num) (by norm_num)).1
  have e := besselK_zero_eq (x := ((100 : ℕ) : ℝ) * 0.01) (by norm_num)
  unfold besselK at e
  rw [e] at h
  norm_num at h ⊢
  exact h

/-- C74: once the tables are built, for every order up to 14 and every `x ≥ 0` the returned value is within `4.3e-13` of
the function. -/
theorem bessel_accuracy (t0 : BesselTab) : ∃ t, pretabulateBessel t0 = .ok t ∧ ∀ (n : ℕ) (x : ℝ), n ≤ 14 → 0 ≤ x →
    ∃ v, besselScaled t n x = .ok v ∧ |v - Real.exp (-x) * besselI n x| ≤ 4.3e-13 := by
  obtain ⟨t, h, ht⟩ := pretabulateBessel_spec t0
  refine ⟨t, h, fun n x hn hx => ?_⟩
  by_cases h1 : x ≤ 1e-7
  · obtain ⟨v, e, hv⟩ := besselScaled_small t n hx h1
    exact ⟨v, e, hv.trans (by norm_num)⟩
  · by_cases h2 : x ≤ 16
    · exact besselScaled_mid ht (by omega) (not_le.1 h1) h2
    · obtain ⟨v, e, hv⟩ := besselScaled_large_bound t (n := n) (by omega) (not_le.1 h2) (rBound_sound rBound_14 (n := n) (by omega))
      exact ⟨v, e, hv.trans (by norm_num)⟩

/-- C74: up to order 20 (`LMAX`) the bound is `5e-11`. -/
theorem bessel_accuracy_20 (t0 : BesselTab) : ∃ t, pretabulateBessel t0 = .ok t ∧ ∀ (n : ℕ) (x : ℝ), n ≤ 20 → 0 ≤ x →
    ∃ v, besselScaled t n x = .ok v ∧ |v - Real.exp (-x) * besselI n x| ≤ 5e-11 := by
  obtain ⟨t, h, ht⟩ := pretabulateBessel_spec t0
  refine ⟨t, h, fun n x hn hx => ?_⟩
  by_cases h1 : x ≤ 1e-7
  · obtain ⟨v, e, hv⟩ := besselScaled_small t n hx h1
    exact ⟨v, e, hv.trans (by norm_num)⟩
  · by_cases h2 : x ≤ 16
    · obtain ⟨v, e, hv⟩ := besselScaled_mid ht (n := n) (by omega) (not_le.1 h1) h2
      exact ⟨v, e, hv.trans (by norm_num)⟩
    · obtain ⟨v, e, hv⟩ := besselScaled_large_bound t (n := n) (by omega) (not_le.1 h2) (rBound_sound rBound_20 (n := n) (by omega))
      exact ⟨v, e, hv.trans (by norm_num)⟩

/-- C74, between the limits of the table: every order up to 51 for `0 ≤ x ≤ 16`. -/
theorem bessel_accuracy_table_range (t0 : BesselTab) : ∃ t, pretabulateBessel t0 = .ok t ∧ ∀ (n : ℕ) (x : ℝ), n ≤ 51 → 0 ≤ x → x ≤ 16 →
    ∃ v, besselScaled t n x = .ok v ∧ |v - Real.exp (-x) * besselI n x| ≤ 4.3e-13 := by
  obtain ⟨t, h, ht⟩ := pretabulateBessel_spec t0
  refine ⟨t, h, fun n x hn hx h2 => ?_⟩
  by_cases h1 : x ≤ 1e-7
  · obtain ⟨v, e, hv⟩ := besselScaled_small t n hx h1
    exact ⟨v, e, hv.trans (by norm_num)⟩
  · exact besselScaled_mid ht hn (not_le.1 h1) h2

/-- C74 fails beyond: the routine answers for order 40 (the arrays reach to 49), and for `16 < x ≤ 16.5` the answer is above
5, while the function never exceeds 1. The form for large `x` drops `exp(-2x) R_n(x)/(2x)`, which is not small for high
orders. -/
theorem bessel_high_order_wrong (t : BesselTab) (x : ℝ) (h1 : 16 < x) (h2 : x ≤ 16.5) :
    ∃ v, besselScaled t 40 x = .ok v ∧ 5 < v ∧ Real.exp (-x) * besselI 40 x ≤ 1 := by
  obtain ⟨v, e, h⟩ := besselScaled_40 t h1 h2
  exact ⟨v, e, h, besselK_le_one 40 (by linarith)⟩

example : ∃ x : ℝ, 16 < x ∧ x ≤ 16.5 := ⟨16.25, by norm_num, by norm_num⟩

/-- For `x > 16` the error is that dropped term, up to the rounding of the coefficients in the source. -/
theorem bessel_large_argument_error (t : BesselTab) (n : ℕ) (hn : n < 50) (x : ℝ) (hx : 16 < x) :
    ∃ v, besselScaled t n x = .ok v ∧
      |v - Real.exp (-x) * besselI n x - (-1) ^ n * Real.exp (-(2 * x)) * besR n x / (2 * x)| ≤ 1.4e-16 * (besR n x / (2 * x)) :=
  besselScaled_large t hn hx

/-- At `x = 0`, order 0, the function is 1. -/
example : ∃ t v, pretabulateBessel besselTab0 = .ok t ∧ besselScaled t 0 0 = .ok v ∧ |v - 1| ≤ 4.3e-13 := by
  obtain ⟨t, h, ha⟩ := bessel_accuracy besselTab0
  obtain ⟨v, e, hv⟩ := ha 0 0 (by norm_num) le_rfl
  refine ⟨t, v, h, e, ?_⟩
  have := besselK_zero_arg 0
  unfold besselK at this
  rw [this] at hv
  simpa using hv

end Libgrpp
