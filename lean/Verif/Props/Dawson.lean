import Verif.Lemmas.Dawson
import Verif.Props.Type1
import Verif.Props.SpecFun

/-! # C55, C83, C84: Chebyshev series, Dawson function, `G_n` and the `r⁻²` integrals -/

namespace Libgrpp

open Polynomial

/-! ## C55 -/

/-- **C55.** `xChebyshev_Tn_Series` returns the sum of `a_k T_k(x)`; 0 for a negative degree; and reads outside the array if it is too short. -/
theorem chebyshev_series (x : ℝ) (a : List ℝ) :
    (∀ d : ℕ, d < a.length → chebSeries x a d = .ok (∑ k ∈ Finset.range (d + 1), a.getD k 0 * (Chebyshev.T ℝ k).eval x)) ∧
    (∀ d : ℤ, d < 0 → chebSeries x a d = .ok 0) ∧ (∀ d : ℕ, a.length ≤ d → chebSeries x a d = .ub) := by
  refine ⟨fun d hd => chebSeries_eq x a d hd, fun d hd => if_pos hd, fun d hd => ?_⟩
  unfold chebSeries
  rw [if_neg (by omega), Int.toNat_natCast]
  rcases Nat.eq_zero_or_pos d with h | h
  · subst h
    rw [forRange_zero, Outcome.ok_bind, rd_ub hd]
    rfl
  · rw [forRange_ub (k := 0) (fun i _ => i = 0) h rfl (fun i _ hi => by omega) (fun s _ => by
      rw [Nat.sub_zero, rd_ub hd]
      rfl)]
    rfl

/-- `2 + T_1 - 3 T_2` at `x = 1/2`. -/
example : chebSeries (1 / 2) [2, 1, -3] 2 = .ok 4 := by
  rw [show (2 : ℤ) = ((2 : ℕ) : ℤ) from rfl, (chebyshev_series _ _).1 2 (by norm_num)]
  norm_num [Finset.sum_range_succ, Chebyshev.T_two]

/-! ## C83 -/

/-- **C83.** `Dawsons_Integral` returns a value for every argument, with a relative error of at most `LDBL_EPSILON + 4e-19`. -/
theorem dawson_accuracy {eps : ℝ} (he : LdblEps eps) (x : ℝ) :
    ∃ v, dawsonC eps x = .ok v ∧ |v - Real.exp (-x ^ 2) * ∫ s in (0 : ℝ)..x, Real.exp (s ^ 2)| ≤
      (eps + 4e-19) * |Real.exp (-x ^ 2) * ∫ s in (0 : ℝ)..x, Real.exp (s ^ 2)| := by
  change ∃ v, _ ∧ |v - dawsonF x| ≤ _ * |dawsonF x|
  have he0 : 0 < eps := lt_of_lt_of_le (by positivity) he.1
  have hD := abs_nonneg (dawsonF x)
  have cheb : ∀ i, i < 6 → (dawLo i : ℝ) ≤ |x| → |x| ≤ dawHi i → ∃ v, dawCheb i x = .ok v ∧ |v - dawsonF x| ≤ (eps + 4e-19) * |dawsonF x| := by
    intro i hi h1 h2
    obtain ⟨v, h3, h4⟩ := dawCheb_accuracy hi h1 h2
    exact ⟨v, h3, h4.trans (mul_le_mul_of_nonneg_right (by norm_num; linarith) hD)⟩
  have hlo : ∀ i, ∀ q : ℚ, dawLo i = q → (q : ℝ) ≤ |x| → (dawLo i : ℝ) ≤ |x| := fun i q h h' => by rw [h]; exact h'
  have hhi : ∀ i, ∀ q : ℚ, dawHi i = q → |x| ≤ q → |x| ≤ (dawHi i : ℝ) := fun i q h h' => by rw [h]; exact h'
  unfold dawsonC
  by_cases h0 : |x| ≤ 1
  · rw [if_pos h0]
    obtain ⟨v, h1, h2⟩ := dawPower_accuracy he h0
    exact ⟨v, h1, h2.trans (mul_le_mul_of_nonneg_right (by norm_num) hD)⟩
  rw [if_neg h0]
  by_cases h1 : |x| ≤ 1.75
  · rw [if_pos h1]
    exact cheb 0 (by norm_num) (hlo 0 1 (by decide +kernel) (by push_cast; linarith)) (hhi 0 1.75 (by decide +kernel) (by push_cast; exact h1))
  rw [if_neg h1]
  by_cases h2 : |x| ≤ 2.50
  · rw [if_pos h2]
    exact cheb 1 (by norm_num) (hlo 1 1.75 (by decide +kernel) (by push_cast; linarith)) (hhi 1 2.50 (by decide +kernel) (by push_cast; exact h2))
  rw [if_neg h2]
  by_cases h3 : |x| ≤ 3.25
  · rw [if_pos h3]
    exact cheb 2 (by norm_num) (hlo 2 2.50 (by decide +kernel) (by push_cast; linarith)) (hhi 2 3.25 (by decide +kernel) (by push_cast; exact h3))
  rw [if_neg h3]
  by_cases h4 : |x| ≤ 4.25
  · rw [if_pos h4]
    exact cheb 3 (by norm_num) (hlo 3 3.25 (by decide +kernel) (by push_cast; linarith)) (hhi 3 4.25 (by decide +kernel) (by push_cast; exact h4))
  rw [if_neg h4]
  by_cases h5 : |x| ≤ 5.50
  · rw [if_pos h5]
    exact cheb 4 (by norm_num) (hlo 4 4.25 (by decide +kernel) (by push_cast; linarith)) (hhi 4 5.50 (by decide +kernel) (by push_cast; exact h5))
  rw [if_neg h5]
  by_cases h6 : |x| ≤ 7.25
  · rw [if_pos h6]
    exact cheb 5 (by norm_num) (hlo 5 5.50 (by decide +kernel) (by push_cast; linarith)) (hhi 5 7.25 (by decide +kernel) (by push_cast; exact h6))
  rw [if_neg h6]
  obtain ⟨v, h7, h8⟩ := dawAsym_accuracy he (x := x) (by norm_num at h6 ⊢; linarith)
  exact ⟨v, h7, h8.trans (mul_le_mul_of_nonneg_right (by norm_num) hD)⟩

/-- For the x87 format, at `x = 3`: between `1/7` and `3/19` times the relative error. -/
example : ∃ v, dawsonC (1 / 2 ^ 63) 3 = .ok v ∧ 3 / 19 * (1 - 1e-18) ≤ v := by
  obtain ⟨v, h1, h2⟩ := dawson_accuracy (eps := 1 / 2 ^ 63) ⟨by norm_num, by norm_num⟩ 3
  refine ⟨v, h1, ?_⟩
  change |v - dawsonF 3| ≤ _ * |dawsonF 3| at h2
  have h3 := dawsonF_lower (x := 3) (by norm_num)
  rw [abs_of_pos (a := dawsonF 3) (by norm_num at h3; linarith)] at h2
  have h4 := (abs_le.1 h2).1
  norm_num at h3 h4 ⊢
  nlinarith

/-! ## C84 -/

theorem gUp_error {x : ℝ} (hx : 0 < x) (v : ℝ) (n : ℕ) :
    |gUp x v n - gF n x| = |v - gF 0 x| * ∏ k ∈ Finset.range n, ((2 * (k : ℝ) + 1) / (2 * x)) := by
  induction n with
  | zero => simp [gUp]
  | succ n ih =>
    rw [Finset.prod_range_succ, ← mul_assoc, ← ih]
    have h := gF_rec n x
    have e : gUp x v (n + 1) - gF (n + 1) x = -((gUp x v n - gF n x) * ((2 * (n : ℝ) + 1) / (2 * x))) := by
      rw [gUp]
      field_simp
      linear_combination -h
    rw [e, abs_neg, abs_mul, abs_of_nonneg (show 0 ≤ (2 * (n : ℝ) + 1) / (2 * x) by positivity)]

theorem gF_zero_le_one {x : ℝ} (hx : 0 ≤ x) : gF 0 x ≤ 1 ∧ 0 ≤ gF 0 x := by
  have h := gF_rec 0 x
  have h1 : 0 ≤ gF 1 x := by
    unfold gF
    exact intervalIntegral.integral_nonneg (by norm_num) fun t ht => by
      have := ht.1
      positivity
  have h0 : 0 ≤ gF 0 x := by
    unfold gF
    exact intervalIntegral.integral_nonneg (by norm_num) fun t ht => by
      have := ht.1
      positivity
  norm_num at h
  have := mul_nonneg hx h1
  exact ⟨by linarith, h0⟩

theorem gAmp_up : ∀ n < 33, ∏ k ∈ Finset.range n, ((2 * (k : ℚ) + 1) / 24) ≤ 1 := by decide +kernel

theorem gAmp_down : ∀ n < 13, ∏ k ∈ Finset.Ico n (12 : ℕ), (24 / (2 * (k : ℚ) + 1)) ≤ 116000 := by decide +kernel

/-- **C84.** `gfun_values` with the library's Dawson function, for all orders up to 32. Above `x = 12` the error is at most `LDBL_EPSILON + 4e-19`;
below, at most `1.16e-10`, and at most `1e-15` for the orders from 12 on. -/
theorem gfun_accuracy {eps : ℝ} (he : LdblEps eps) (dawson : ℝ → ℝ) (hd : ∀ y, dawsonC eps y = .ok (dawson y)) {x : ℝ} (hx : 0 ≤ x) {nmax : ℕ}
    (hn : nmax ≤ 32) : ∃ g : Aux, ∃ f : ℕ → ℝ, gfunValues dawson x nmax = .ok g ∧ ∀ n ≤ nmax, g n = some (f n) ∧
      |f n - gF n x| ≤ 1.16e-10 ∧ (12 < x → |f n - gF n x| ≤ eps + 4e-19) ∧ (12 ≤ n → |f n - gF n x| ≤ 1e-15) := by
  have he1 : eps ≤ 1 / 2 ^ 52 := he.2
  by_cases h12 : x ≤ 12
  · obtain ⟨g, f, h1, h2, -, -, h3⟩ := gfun_small_accuracy dawson x hx h12 nmax (by omega)
    have hfac : ∀ (k : ℕ), 2 * x / (2 * (k : ℝ) + 1) ≤ 24 / (2 * (k : ℝ) + 1) := fun k =>
      div_le_div_of_nonneg_right (by linarith) (by positivity)
    have hbig : ∀ n m : ℕ, 12 ≤ n → ∏ j ∈ Finset.Ico n m, (2 * x / (2 * (j : ℝ) + 1)) ≤ 1 := by
      intro n m h
      refine Finset.prod_le_one (fun j _ => by positivity) fun j hj => (hfac j).trans ?_
      have : (12 : ℝ) ≤ j := by exact_mod_cast h.trans (Finset.mem_Ico.1 hj).1
      rw [div_le_one (by positivity)]
      linarith
    have hall : ∀ n m : ℕ, ∏ j ∈ Finset.Ico n m, (2 * x / (2 * (j : ℝ) + 1)) ≤ 116000 := by
      intro n m
      by_cases h : 12 ≤ n
      · exact (hbig n m h).trans (by norm_num)
      have hq : ∀ n' < 13, ∏ j ∈ Finset.Ico n' (12 : ℕ), (24 / (2 * (j : ℝ) + 1)) ≤ 116000 := by
        intro n' hn'
        have := (Rat.cast_le (K := ℝ)).2 (gAmp_down n' hn')
        push_cast at this
        exact this
      by_cases h' : m ≤ 12
      · have h4 : ∏ j ∈ Finset.Ico n m, (2 * x / (2 * (j : ℝ) + 1)) ≤ ∏ j ∈ Finset.Ico n m, (24 / (2 * (j : ℝ) + 1)) :=
          Finset.prod_le_prod (fun j _ => by positivity) fun j _ => hfac j
        have h5 : ∏ j ∈ Finset.Ico n m, (24 / (2 * (j : ℝ) + 1)) ≤ ∏ j ∈ Finset.Ico n 12, (24 / (2 * (j : ℝ) + 1)) := by
          by_cases hnm : n ≤ m
          swap
          · rw [Finset.Ico_eq_empty (by omega), Finset.prod_empty]
            refine (Finset.prod_induction _ (fun y : ℝ => 1 ≤ y) (fun a b ha hb => one_le_mul_of_one_le_of_one_le ha hb) le_rfl fun j hj => ?_)
            have : (j : ℝ) ≤ 11 := by
              have := (Finset.mem_Ico.1 hj).2
              exact_mod_cast (by omega : j ≤ 11)
            rw [one_le_div (by positivity)]
            linarith
          rw [← Finset.prod_Ico_consecutive (fun j : ℕ => 24 / (2 * (j : ℝ) + 1)) hnm h']
          refine le_mul_of_one_le_right (Finset.prod_nonneg fun j _ => by positivity) ?_
          refine (Finset.prod_induction _ (fun y : ℝ => 1 ≤ y) (fun a b ha hb => one_le_mul_of_one_le_of_one_le ha hb) le_rfl fun j hj => ?_)
          have : (j : ℝ) ≤ 11 := by
            have := (Finset.mem_Ico.1 hj).2
            exact_mod_cast (by omega : j ≤ 11)
          rw [one_le_div (by positivity)]
          linarith
        exact h4.trans (h5.trans (hq n (by omega)))
      · rw [← Finset.prod_Ico_consecutive _ (show n ≤ 12 by omega) (show 12 ≤ m by omega)]
        refine (mul_le_of_le_one_right (Finset.prod_nonneg fun j _ => by positivity) (hbig 12 m le_rfl)).trans ?_
        exact (Finset.prod_le_prod (fun j _ => by positivity) fun j _ => hfac j).trans (hq n (by omega))
    refine ⟨g, f, h1, fun n hn' => ⟨h2 n hn', ?_, fun h => absurd h12 (not_le.2 h), fun h => ?_⟩⟩
    · refine (h3 n hn').trans ((mul_le_mul_of_nonneg_left (hall n nmax) (by norm_num)).trans (by norm_num))
    · refine (h3 n hn').trans ((mul_le_mul_of_nonneg_left (hbig n nmax h) (by norm_num)).trans (by norm_num))
  · have h12' : 12 < x := not_le.1 h12
    have hx0 : 0 < x := by linarith
    obtain ⟨g, hg, hv⟩ := gfunValues_up dawson h12' (show nmax < 100 by omega)
    have key : ∀ n ≤ nmax, |gUp x (dawson (Real.sqrt x) / Real.sqrt x) n - gF n x| ≤ eps + 4e-19 := by
      intro n hn'
      rw [gUp_error hx0]
      have h1 : |dawson (Real.sqrt x) / Real.sqrt x - gF 0 x| ≤ eps + 4e-19 := by
        obtain ⟨v, h1, h2⟩ := dawson_accuracy he (Real.sqrt x)
        rw [hd] at h1
        obtain rfl := Outcome.ok.inj h1
        change |_ - dawsonF (Real.sqrt x)| ≤ _ * |dawsonF (Real.sqrt x)| at h2
        have hs := Real.sqrt_pos.2 hx0
        have hz := gF_zero hx0
        obtain ⟨g1, g2⟩ := gF_zero_le_one hx
        rw [hz, ← sub_div, abs_div, abs_of_pos hs, div_le_iff₀ hs]
        refine h2.trans (mul_le_mul_of_nonneg_left ?_ (by have := he.1; norm_num at this ⊢; linarith))
        rw [hz, div_le_one hs] at g1
        rw [abs_of_nonneg]
        · exact g1
        · rw [hz] at g2
          have := mul_nonneg g2 hs.le
          rwa [div_mul_cancel₀ _ hs.ne'] at this
      have h2 : ∏ k ∈ Finset.range n, ((2 * (k : ℝ) + 1) / (2 * x)) ≤ 1 := by
        have h3 := (Rat.cast_le (K := ℝ)).2 (gAmp_up n (by omega))
        push_cast at h3
        refine le_trans (Finset.prod_le_prod (fun k _ => by positivity) fun k _ => ?_) h3
        exact div_le_div_of_nonneg_left (by positivity) (by norm_num) (by linarith)
      exact (mul_le_of_le_one_right (abs_nonneg _) h2).trans h1
    refine ⟨g, _, hg, fun n hn' => ⟨hv n hn', (key n hn').trans ?_, fun _ => key n hn', fun _ => (key n hn').trans ?_⟩⟩
    · exact (add_le_add_left he1 _).trans (by norm_num)
    · exact (add_le_add_left he1 _).trans (by norm_num)

/-- **C84**, consequence for `r⁻²`: with the library's Dawson function, the error of a matrix element is at most `1.16e-10` times the sum of the
absolute weights. -/
theorem local_inverse_square_accuracy {eps : ℝ} (he : LdblEps eps) (sf : SpecFun) (hd : ∀ y, dawsonC eps y = .ok (sf.dawson y)) (A B : Shell)
    (sA : A.Supported) (sB : B.Supported) (C : Point) (c : ℝ) (hc : 0 ≤ c) :
    ∃ W : ℕ → ℕ → ℕ → ℕ → ℕ → ℝ,
      (∀ m n, m < A.cart_size → n < B.cart_size →
        ∫ r, basisFn (dropTiny A) m r * localTerm 0 c C r * basisFn (dropTiny B) n r =
          ∑ i ∈ Finset.range A.num, ∑ j ∈ Finset.range B.num, ∑ k ∈ Finset.range (A.L + B.L + 1),
            W i j m n k * gF k (pairArg A B C c i j)) ∧
      ∀ (out : List ℝ) (_ : A.cart_size * B.cart_size ≤ out.length),
        ∃ out', mmdIntegrals sf A B C c 0 out = .ok out' ∧
          ∀ m n, m < A.cart_size → n < B.cart_size → ∃ v, out'[m * B.cart_size + n]? = some v ∧
            |v - ∫ r, basisFn (dropTiny A) m r * localTerm 0 c C r * basisFn (dropTiny B) n r| ≤
              1.16e-10 * ∑ i ∈ Finset.range A.num, ∑ j ∈ Finset.range B.num, ∑ k ∈ Finset.range (A.L + B.L + 1),
                |W i j m n k| := by
  obtain ⟨W, hW, hcode⟩ := local_term_weights A B sA sB C c hc 0 (Or.inl rfl)
  simp only [show ((0 : ℤ) = 1) = False by simp, if_false] at hW
  have hA := sA.L9
  have hB := sB.L9
  have hacc : ∀ i j, ∃ bv : ℕ → ℝ, i < A.num → j < B.num → (∃ g, gfunValues sf.dawson (pairArg A B C c i j) (A.L + B.L) = .ok g ∧
      ∀ k ≤ A.L + B.L, g k = some (bv k)) ∧ ∀ k ≤ A.L + B.L, |bv k - gF k (pairArg A B C c i j)| ≤ 1.16e-10 := by
    intro i j
    by_cases h : i < A.num ∧ j < B.num
    · have hx : 0 ≤ pairArg A B C c i j := by
        rw [← auxArg_eq]
        exact auxArg_nonneg A B C c i j (by have := sA.pos.at h.1; have := sB.pos.at h.2; linarith)
      obtain ⟨g, f, h1, h2⟩ := gfun_accuracy he sf.dawson hd hx (show A.L + B.L ≤ 32 by omega)
      exact ⟨f, fun _ _ => ⟨⟨g, h1, fun k hk => (h2 k hk).1⟩, fun k hk => (h2 k hk).2.1⟩⟩
    · exact ⟨fun _ => 0, fun h1 h2 => absurd ⟨h1, h2⟩ h⟩
  choose bv hbv using hacc
  refine ⟨W, hW, fun out hlen => ?_⟩
  obtain ⟨out', h3, h4⟩ := hcode sf bv (fun i hi j hj => ⟨fun h => by norm_num at h, fun _ => (hbv i j hi hj).1⟩) out hlen
  refine ⟨out', h3, fun m n hm hn => ⟨_, h4 m n hm hn, ?_⟩⟩
  rw [hW m n hm hn, ← Finset.sum_sub_distrib, Finset.mul_sum]
  refine (Finset.abs_sum_le_sum_abs _ _).trans (Finset.sum_le_sum fun i hi => ?_)
  rw [← Finset.sum_sub_distrib, Finset.mul_sum]
  refine (Finset.abs_sum_le_sum_abs _ _).trans (Finset.sum_le_sum fun j hj => ?_)
  rw [← Finset.sum_sub_distrib, Finset.mul_sum]
  refine (Finset.abs_sum_le_sum_abs _ _).trans (Finset.sum_le_sum fun k hk => ?_)
  rw [Finset.mem_range] at hi hj hk
  rw [← mul_sub, abs_mul, mul_comm]
  exact mul_le_mul_of_nonneg_right ((hbv i j hi hj).2 k (by omega)) (abs_nonneg _)

/-- The library's Dawson function as a total function. -/
theorem dawson_total {eps : ℝ} (he : LdblEps eps) : ∃ dawson : ℝ → ℝ, ∀ y, dawsonC eps y = .ok (dawson y) := by
  have h : ∀ y, ∃ v, dawsonC eps y = .ok v := fun y => by
    obtain ⟨v, h, -⟩ := dawson_accuracy he y
    exact ⟨v, h⟩
  choose d hd using h
  exact ⟨d, hd⟩

/-- `G_3(50)` with `long double` = `double`. -/
example : ∃ dawson g v, (∀ y, dawsonC (1 / 2 ^ 52) y = .ok (dawson y)) ∧ gfunValues dawson 50 4 = .ok g ∧ g 3 = some v ∧ |v - gF 3 50| ≤ 3e-16 := by
  have he : LdblEps (1 / 2 ^ 52) := ⟨by norm_num, le_rfl⟩
  obtain ⟨d, hd⟩ := dawson_total he
  obtain ⟨g, f, h1, h2⟩ := gfun_accuracy he d hd (x := 50) (by norm_num) (nmax := 4) (by norm_num)
  exact ⟨d, g, f 3, hd, h1, (h2 3 (by norm_num)).1, ((h2 3 (by norm_num)).2.2.1 (by norm_num)).trans (by norm_num)⟩

end Libgrpp
