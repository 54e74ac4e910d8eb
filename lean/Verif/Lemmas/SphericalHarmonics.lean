import Verif.Model.SphericalHarmonics
import Verif.Props.Binomial
import Verif.Props.Factorial
import Verif.Lemmas.Cartesian
import Verif.Lemmas.PlaneWave
import Mathlib.Algebra.BigOperators.Group.List.Basic

/-! Helper lemmas for `spherical_harmonics.c`. -/

namespace Libgrpp

open scoped Nat
open Complex (I)

theorem toU64_nat {n : ℕ} (h : n < 2 ^ 64) : toU64 n = n := by
  unfold toU64
  omega

theorem toU64_lt (z : ℤ) : toU64 z < 2 ^ 64 := by
  unfold toU64
  omega

theorem choose_le_pow (n k : ℕ) : n.choose k ≤ 2 ^ n := by
  rcases Nat.lt_or_ge n k with h | h
  · rw [Nat.choose_eq_zero_of_lt h]; positivity
  · rw [← Nat.sum_range_choose]
    exact Finset.single_le_sum (f := fun k => n.choose k) (fun _ _ => Nat.zero_le _) (Finset.mem_range.2 (by omega))

theorem binomial_small {n k : ℕ} (hn : n ≤ 60) (hk : k < 2 ^ 64) : binomial n k = .ok (n.choose k) := by
  obtain ⟨v, h, -, -, h3⟩ := binomial_exact_or_zero n k (by omega) hk
  have := choose_le_pow n k
  have h2 : 2 ^ n ≤ 2 ^ 60 := Nat.pow_le_pow_right (by norm_num) hn
  rw [h, h3 (by omega)]

theorem binomial_ok (n k : ℕ) (hn : n < 2 ^ 64) (hk : k < 2 ^ 64) : ∃ v, binomial n k = .ok v := by
  obtain ⟨v, h, -⟩ := binomial_exact_or_zero n k hn hk
  exact ⟨v, h⟩

/-- A loop that only accumulates. -/
theorem forRange_sum {n : ℕ} {a : ℝ} {body : ℕ → ℝ → Outcome ℝ} (g : ℕ → ℝ) (h : ∀ i < n, ∀ s, body i s = .ok (s + g i)) :
    forRange n a body = .ok (a + ∑ i ∈ Finset.range n, g i) := by
  obtain ⟨s, hs, he⟩ := forRange_inv (n := n) (s := a) (body := body) (fun m s => s = a + ∑ i ∈ Finset.range m, g i) (by simp)
    (by
      rintro i s hi rfl
      exact ⟨_, h i hi _, by rw [Finset.sum_range_succ]; ring⟩)
  rw [hs, he]

theorem u64_small {x : ℕ} (h : x < 2 ^ 64) : u64 x = x := Nat.mod_eq_of_lt h

/-- The integer factor of a term of the inner sum. -/
def innerC (M lx j k : ℕ) : ℕ := j.choose k * if 2 * k ≤ lx then M.choose (lx - 2 * k) else 0

theorem sphInner_eq (M lx j : ℕ) (hj : j ≤ 20) (hM : M ≤ 40) (hx : lx ≤ 40) :
    sphInner M lx j = .ok (∑ k ∈ Finset.range (j + 1), (innerC M lx j k : ℝ) * (-1) ^ (((M : ℤ) - lx + 2 * k).tdiv 2)) := by
  unfold sphInner
  rw [show ((j : ℤ) + 1).toNat = j + 1 by omega]
  rw [forRange_sum (fun k : ℕ => (innerC M lx j k : ℝ) * (-1) ^ (((M : ℤ) - lx + 2 * k).tdiv 2))]
  · rw [zero_add]
  · intro k hk s
    rw [toU64_nat (by omega), toU64_nat (by omega), binomial_small (n := j) (by omega) (by omega), toU64_nat (by omega)]
    simp only [Outcome.ok_bind]
    rw [binomial_small (n := M) (by omega) (toU64_lt _)]
    simp only [Outcome.ok_bind]
    have h2 : M.choose (toU64 ((lx : ℤ) - 2 * k)) = if 2 * k ≤ lx then M.choose (lx - 2 * k) else 0 := by
      split_ifs with h
      · congr 1
        unfold toU64
        omega
      · apply Nat.choose_eq_zero_of_lt
        unfold toU64
        omega
    rw [h2, u64_small]
    · rfl
    · have a := choose_le_pow j k
      have b : (if 2 * k ≤ lx then M.choose (lx - 2 * k) else 0) ≤ 2 ^ M := by
        split_ifs
        · exact choose_le_pow _ _
        · positivity
      have c : 2 ^ j ≤ 2 ^ 20 := Nat.pow_le_pow_right (by norm_num) hj
      have d : 2 ^ M ≤ 2 ^ 40 := Nat.pow_le_pow_right (by norm_num) hM
      calc _ ≤ 2 ^ 20 * 2 ^ 40 := Nat.mul_le_mul (a.trans c) (b.trans d)
        _ < 2 ^ 64 := by norm_num

/-- The factor of the `i`-th term, `C(l,i) C(i,j) (-1)^i (2l-2i)!/(l-M-2i)!`. -/
noncomputable def outerC (l M j i : ℕ) : ℝ :=
  (l.choose i * i.choose j : ℝ) * (-1) ^ i * (((2 * l - 2 * i)! : ℝ) / ((l - M - 2 * i)! : ℝ))

theorem sphOuterStep_eq (l M lx j i : ℕ) (hl : l ≤ 40) (hM : M ≤ l) (hi : 2 * i ≤ l - M) (hj : j ≤ 20) (hx : lx ≤ 40) (u : ℝ) :
    sphOuterStep l M lx j i (u, false) =
      .ok (u + outerC l M j i * ∑ k ∈ Finset.range (j + 1), (innerC M lx j k : ℝ) * (-1) ^ (((M : ℤ) - lx + 2 * k).tdiv 2), false) := by
  unfold sphOuterStep
  rw [if_neg (by simp), if_neg (by omega), if_neg (by omega), toU64_nat (by omega), toU64_nat (by omega), toU64_nat (by omega),
    binomial_small (n := l) (by omega) (by omega), binomial_small (n := i) (by omega) (by omega)]
  simp only [Outcome.ok_bind]
  rw [sphInner_eq M lx j hj (by omega) hx, u64_small]
  · simp only [Outcome.ok_bind]
    rw [show (2 * (l : ℤ) - 2 * i) = ((2 * l - 2 * i : ℕ) : ℤ) by omega, show ((l : ℤ) - M - 2 * i) = ((l - M - 2 * i : ℕ) : ℤ) by omega,
      factorial_ratio_correct, outerC, zpow_natCast, Nat.cast_mul]
  · have a := choose_le_pow l i
    have b := choose_le_pow i j
    have c : 2 ^ l ≤ 2 ^ 40 := Nat.pow_le_pow_right (by norm_num) hl
    have d : 2 ^ i ≤ 2 ^ 20 := Nat.pow_le_pow_right (by norm_num) (by omega)
    calc _ ≤ 2 ^ 40 * 2 ^ 20 := Nat.mul_le_mul (a.trans c) (b.trans d)
      _ < 2 ^ 64 := by norm_num

theorem sphInner_neg (am lx j : ℤ) (hj : j < 0) : sphInner am lx j = .ok 0 := by
  unfold sphInner
  rw [show (j + 1).toNat = 0 by omega]
  rfl

theorem sphOuterStep_neg (l : ℕ) (am lx j i : ℤ) (hj : j < 0) (h1 : ¬ 2 * (l : ℤ) - 2 * i < 0) (h2 : ¬ (l : ℤ) - am - 2 * i < 0) :
    sphOuterStep l am lx j i (0, false) = .ok (0, false) := by
  unfold sphOuterStep
  rw [if_neg (by simp), if_neg h1, if_neg h2]
  obtain ⟨b1, e1⟩ := binomial_ok (toU64 l) (toU64 i) (toU64_lt _) (toU64_lt _)
  obtain ⟨b2, e2⟩ := binomial_ok (toU64 i) (toU64 j) (toU64_lt _) (toU64_lt _)
  simp [e1, e2, sphInner_neg am lx j hj]

/-- Complex coefficient of `x^lx y^(M+2j-lx)` in `(x²+y²)^j (x+iy)^M`. -/
noncomputable def cD (j M lx : ℕ) : ℂ :=
  ∑ k ∈ Finset.range (j + 1), (innerC M lx j k : ℂ) * I ^ (M - (lx - 2 * k))

/-- Coefficient of `(x²+y²)^j z^(l-M-2j)`. -/
noncomputable def cA (l M j : ℕ) : ℝ := 1 / (2 ^ l * (l ! : ℝ)) * ∑ i ∈ Finset.range ((l - M) / 2 + 1), outerC l M j i

/-- Complex coefficient of `x^lx y^ly z^(l-lx-ly)` in the solid harmonic without normalisation. -/
noncomputable def coefC (l M lx ly : ℕ) : ℂ :=
  if M ≤ lx + ly ∧ (lx + ly - M) % 2 = 0 then (cA l M ((lx + ly - M) / 2) : ℂ) * cD ((lx + ly - M) / 2) M lx else 0

theorem I_pow_two_mul (n : ℕ) : I ^ (2 * n) = (((-1) ^ n : ℝ) : ℂ) := by
  rw [pow_mul, Complex.I_sq]
  push_cast
  rfl

theorem cD_re (j M lx : ℕ) : (cD j M lx).re = if (M + lx) % 2 = 0 then
    ∑ k ∈ Finset.range (j + 1), (innerC M lx j k : ℝ) * (-1) ^ (((M : ℤ) - lx + 2 * k).tdiv 2) else 0 := by
  unfold cD
  rw [Complex.re_sum]
  split_ifs with h
  · refine Finset.sum_congr rfl fun k _ => ?_
    rw [← Complex.ofReal_natCast, Complex.re_ofReal_mul]
    by_cases h0 : innerC M lx j k = 0
    · simp [h0]
    congr 1
    unfold innerC at h0
    have h1 : 2 * k ≤ lx := by by_contra hc; simp [hc] at h0
    have h2 : lx - 2 * k ≤ M := by
      by_contra hc
      rw [if_pos h1, Nat.choose_eq_zero_of_lt (show M < lx - 2 * k by omega)] at h0
      simp at h0
    obtain ⟨n, hn⟩ : ∃ n, M - (lx - 2 * k) = 2 * n := ⟨(M - (lx - 2 * k)) / 2, by omega⟩
    rw [hn, I_pow_two_mul, Complex.ofReal_re, show ((M : ℤ) - lx + 2 * k) = ((2 * n : ℕ) : ℤ) by omega,
      show ((2 * n : ℕ) : ℤ).tdiv 2 = (n : ℤ) by
        rw [Int.tdiv_eq_ediv_of_nonneg (by positivity)]; omega, zpow_natCast]
  · refine Finset.sum_eq_zero fun k _ => ?_
    rw [← Complex.ofReal_natCast, Complex.re_ofReal_mul]
    by_cases h0 : innerC M lx j k = 0
    · simp [h0]
    unfold innerC at h0
    have h1 : 2 * k ≤ lx := by by_contra hc; simp [hc] at h0
    have h2 : lx - 2 * k ≤ M := by
      by_contra hc
      rw [if_pos h1, Nat.choose_eq_zero_of_lt (show M < lx - 2 * k by omega)] at h0
      simp at h0
    obtain ⟨n, hn⟩ : ∃ n, M - (lx - 2 * k) = 2 * n + 1 := ⟨(M - (lx - 2 * k)) / 2, by omega⟩
    rw [hn, pow_succ, I_pow_two_mul, Complex.re_ofReal_mul, Complex.I_re]
    ring

theorem cD_im (j M lx : ℕ) : (cD j M lx).im = if (M + lx) % 2 = 0 then 0 else
    ∑ k ∈ Finset.range (j + 1), (innerC M lx j k : ℝ) * (-1) ^ (((M : ℤ) - lx + 2 * k).tdiv 2) := by
  unfold cD
  rw [Complex.im_sum]
  split_ifs with h
  · refine Finset.sum_eq_zero fun k _ => ?_
    rw [← Complex.ofReal_natCast, Complex.im_ofReal_mul]
    by_cases h0 : innerC M lx j k = 0
    · simp [h0]
    unfold innerC at h0
    have h1 : 2 * k ≤ lx := by by_contra hc; simp [hc] at h0
    have h2 : lx - 2 * k ≤ M := by
      by_contra hc
      rw [if_pos h1, Nat.choose_eq_zero_of_lt (show M < lx - 2 * k by omega)] at h0
      simp at h0
    obtain ⟨n, hn⟩ : ∃ n, M - (lx - 2 * k) = 2 * n := ⟨(M - (lx - 2 * k)) / 2, by omega⟩
    rw [hn, I_pow_two_mul, Complex.ofReal_im, mul_zero]
  · refine Finset.sum_congr rfl fun k _ => ?_
    rw [← Complex.ofReal_natCast, Complex.im_ofReal_mul]
    by_cases h0 : innerC M lx j k = 0
    · simp [h0]
    congr 1
    unfold innerC at h0
    have h1 : 2 * k ≤ lx := by by_contra hc; simp [hc] at h0
    have h2 : lx - 2 * k ≤ M := by
      by_contra hc
      rw [if_pos h1, Nat.choose_eq_zero_of_lt (show M < lx - 2 * k by omega)] at h0
      simp at h0
    obtain ⟨n, hn⟩ : ∃ n, M - (lx - 2 * k) = 2 * n + 1 := ⟨(M - (lx - 2 * k)) / 2, by omega⟩
    rw [hn, pow_succ, I_pow_two_mul, Complex.im_ofReal_mul, Complex.I_im, show ((M : ℤ) - lx + 2 * k) = ((2 * n + 1 : ℕ) : ℤ) by omega,
      show ((2 * n + 1 : ℕ) : ℤ).tdiv 2 = (n : ℤ) by
        rw [Int.tdiv_eq_ediv_of_nonneg (by positivity)]; omega, zpow_natCast, mul_one]

theorem tmod_two_eq_zero (z : ℤ) : z.tmod 2 = 0 ↔ z % 2 = 0 := by
  rw [← Int.dvd_iff_tmod_eq_zero, ← Int.dvd_iff_emod_eq_zero]

theorem tdiv_even (j : ℤ) : (2 * j).tdiv 2 = j := by
  rw [mul_comm]
  exact Int.mul_tdiv_cancel j (by norm_num)

/-- The coefficient computed by the code. -/
theorem sphCoef_eq (l : ℕ) (m : ℤ) (lx ly lz : ℕ) (hl : l ≤ 40) (hm : m.natAbs ≤ l) (hs : lx + ly ≤ l) :
    sphCoef l m lx ly lz =
      .ok (rshNorm l m.natAbs * if 0 ≤ m then (coefC l m.natAbs lx ly).re else (coefC l m.natAbs lx ly).im) := by
  unfold sphCoef
  simp only [ne_eq, tmod_two_eq_zero]
  set M := m.natAbs with hMdef
  by_cases hpar : ((lx : ℤ) + ly - M) % 2 = 0
  swap
  · have : coefC l M lx ly = 0 := by rw [coefC, if_neg (by omega)]
    rw [if_pos hpar, this]
    simp
  rw [if_neg (not_not.2 hpar)]
  obtain ⟨j, hj⟩ : ∃ j : ℤ, (lx : ℤ) + ly - M = 2 * j := ⟨((lx : ℤ) + ly - M) / 2, by omega⟩
  rw [hj, tdiv_even]
  by_cases hc : ((m > 0 ∧ ((M : ℤ) - lx) % 2 = 0) ∨ (m = 0 ∧ (lx : ℤ) % 2 = 0) ∨ (m < 0 ∧ ¬ ((M : ℤ) - lx) % 2 = 0))
  swap
  · rw [if_pos hc, coefC]
    split_ifs with h1 h2
    · rw [Complex.re_ofReal_mul, cD_re, if_neg (by omega)]
      simp
    · simp
    · rw [Complex.im_ofReal_mul, cD_im, if_pos (by omega)]
      simp
    · simp
  rw [if_neg (not_not.2 hc), show ((l : ℤ) - M) = ((l - M : ℕ) : ℤ) by omega, show ((l : ℤ) + M) = ((l + M : ℕ) : ℤ) by omega,
    factorial_correct, factorial_correct, factorial_correct]
  simp only [Outcome.ok_bind]
  have hdiv : ((l - M : ℕ) : ℤ).tdiv 2 = (((l - M) / 2 : ℕ) : ℤ) := by
    rw [Int.tdiv_eq_ediv_of_nonneg (by positivity)]
    omega
  rw [hdiv]
  rcases lt_or_ge j 0 with hneg | hpos
  · have : coefC l M lx ly = 0 := by rw [coefC, if_neg (by omega)]
    rw [this]
    obtain ⟨s, hs, he⟩ := forRange_inv (n := ((((l - M) / 2 : ℕ) : ℤ) - j + 1).toNat) (s := ((0 : ℝ), false))
      (body := fun t s => sphOuterStep l M lx j (j + t) s) (fun _ s => s = (0, false)) rfl (by
        rintro t s ht rfl
        exact ⟨_, sphOuterStep_neg l M lx j (j + t) hneg (by omega) (by omega), rfl⟩)
    rw [hs, he]
    simp
  · obtain ⟨J, rfl⟩ : ∃ J : ℕ, j = J := ⟨j.toNat, by omega⟩
    have hJ : J ≤ (l - M) / 2 := by omega
    rw [show ((((l - M) / 2 : ℕ) : ℤ) - J + 1).toNat = (l - M) / 2 - J + 1 by omega]
    set T : ℝ := ∑ k ∈ Finset.range (J + 1), (innerC M lx J k : ℝ) * (-1) ^ (((M : ℤ) - lx + 2 * k).tdiv 2) with hT
    obtain ⟨s, hs', he⟩ := forRange_inv (n := (l - M) / 2 - J + 1) (s := ((0 : ℝ), false))
      (body := fun t s => sphOuterStep l M lx J (J + t) s) (fun n s => s = (∑ t ∈ Finset.range n, outerC l M J (J + t) * T, false)) (by simp) (by
        rintro t s ht rfl
        refine ⟨_, ?_, rfl⟩
        have := sphOuterStep_eq l M lx J (J + t) hl hm (by omega) (by omega) (by omega) (∑ t ∈ Finset.range t, outerC l M J (J + t) * T)
        rw [Nat.cast_add] at this
        rw [this, ← hT, Finset.sum_range_succ _ t])
    rw [hs', he]
    simp only [Outcome.ok_bind]
    have hsum : ∑ i ∈ Finset.range ((l - M) / 2 + 1), outerC l M J i = ∑ t ∈ Finset.range ((l - M) / 2 - J + 1), outerC l M J (J + t) := by
      rw [show (l - M) / 2 + 1 = J + ((l - M) / 2 - J + 1) by omega, Finset.sum_range_add, Finset.sum_eq_zero, zero_add]
      intro i hi
      rw [outerC, Nat.choose_eq_zero_of_lt (Finset.mem_range.1 hi)]
      simp
    have hc1 : coefC l M lx ly = (cA l M J : ℂ) * cD J M lx := by
      rw [coefC, if_pos (by omega), show (lx + ly - M) / 2 = J by omega]
    have hval : (if 0 ≤ m then (coefC l M lx ly).re else (coefC l M lx ly).im) = cA l M J * T := by
      rw [hc1]
      split_ifs with h
      · rw [Complex.re_ofReal_mul, cD_re, if_pos (by omega)]
      · rw [Complex.im_ofReal_mul, cD_im, if_neg (by omega)]
    rw [hval, cA, hsum, ← Finset.sum_mul, rshNorm]
    congr 1
    by_cases h0 : m = 0
    · have hM0 : M = 0 := by omega
      have hlx : (lx : ℤ) % 2 = 0 := by omega
      rw [if_pos ⟨h0, hlx⟩, if_pos hM0]
      rw [mul_div_assoc ((2 * (l : ℝ) + 1) / (2 * Real.pi))]
      ring
    · have hM0 : ¬ M = 0 := by omega
      rw [if_neg (by tauto), if_neg hM0]
      rw [mul_div_assoc ((2 * (l : ℝ) + 1) / (2 * Real.pi))]
      ring

/-! ### The polynomial -/

theorem circle_pow (j M : ℕ) (x y : ℂ) :
    (x ^ 2 + y ^ 2) ^ j * (x + I * y) ^ M = ∑ lx ∈ Finset.range (M + 2 * j + 1), cD j M lx * x ^ lx * y ^ (M + 2 * j - lx) := by
  have hk : ∀ k ∈ Finset.range (j + 1),
      ∑ p ∈ Finset.range (M + 1), ((x ^ 2) ^ k * (y ^ 2) ^ (j - k) * (j.choose k : ℂ)) * (x ^ p * (I * y) ^ (M - p) * (M.choose p : ℂ)) =
      ∑ lx ∈ Finset.range (M + 2 * j + 1), (innerC M lx j k : ℂ) * I ^ (M - (lx - 2 * k)) * x ^ lx * y ^ (M + 2 * j - lx) := by
    intro k hk
    have hk := Finset.mem_range.1 hk
    rw [show M + 2 * j + 1 = 2 * k + (M + 1 + (2 * j - 2 * k)) by omega, Finset.sum_range_add _ (2 * k), Finset.sum_range_add _ (M + 1)]
    have z1 : ∑ lx ∈ Finset.range (2 * k), (innerC M lx j k : ℂ) * I ^ (M - (lx - 2 * k)) * x ^ lx * y ^ (M + 2 * j - lx) = 0 := by
      refine Finset.sum_eq_zero fun lx hlx => ?_
      have := Finset.mem_range.1 hlx
      rw [innerC, if_neg (by omega)]
      simp
    have z2 : ∑ q ∈ Finset.range (2 * j - 2 * k), (innerC M (2 * k + (M + 1 + q)) j k : ℂ) * I ^ (M - (2 * k + (M + 1 + q) - 2 * k)) * x ^ (2 * k + (M + 1 + q)) * y ^ (M + 2 * j - (2 * k + (M + 1 + q))) = 0 := by
      refine Finset.sum_eq_zero fun q _ => ?_
      rw [innerC, if_pos (by omega), Nat.choose_eq_zero_of_lt (show M < 2 * k + (M + 1 + q) - 2 * k by omega)]
      simp
    rw [z1, z2, zero_add, add_zero]
    refine Finset.sum_congr rfl fun p hp => ?_
    have hp := Finset.mem_range.1 hp
    rw [innerC, if_pos (by omega), show 2 * k + p - 2 * k = p by omega, show M + 2 * j - (2 * k + p) = 2 * (j - k) + (M - p) by omega,
      pow_add x, pow_add y, pow_mul, pow_mul, mul_pow]
    push_cast
    ring
  rw [add_pow, add_pow, Finset.sum_mul_sum, Finset.sum_congr rfl hk, Finset.sum_comm]
  refine Finset.sum_congr rfl fun lx _ => ?_
  rw [cD, Finset.sum_mul, Finset.sum_mul]

/-- Sum over the components of degree `l`. -/
noncomputable def cartSum {F : Type*} [AddCommMonoid F] (l : ℕ) (f : ℕ → ℕ → ℕ → F) : F :=
  ∑ a ∈ Finset.range (l + 1), ∑ b ∈ Finset.range (l + 1), if a + b ≤ l then f a b (l - a - b) else 0

theorem coef_poly (l M : ℕ) (hM : M ≤ l) (x y z : ℂ) :
    cartSum l (fun a b c => coefC l M a b * (x ^ a * y ^ b * z ^ c)) =
      (∑ j ∈ Finset.range ((l - M) / 2 + 1), (cA l M j : ℂ) * z ^ (l - M - 2 * j) * (x ^ 2 + y ^ 2) ^ j) * (x + I * y) ^ M := by
  rw [Finset.sum_mul]
  have h1 : ∀ j ∈ Finset.range ((l - M) / 2 + 1), (cA l M j : ℂ) * z ^ (l - M - 2 * j) * (x ^ 2 + y ^ 2) ^ j * (x + I * y) ^ M =
      ∑ a ∈ Finset.range (l + 1), if a ≤ M + 2 * j then (cA l M j : ℂ) * z ^ (l - M - 2 * j) * (cD j M a * x ^ a * y ^ (M + 2 * j - a)) else 0 := by
    intro j hj
    have hj := Finset.mem_range.1 hj
    rw [mul_assoc _ ((x ^ 2 + y ^ 2) ^ j), circle_pow, Finset.mul_sum, ← Finset.sum_filter]
    apply Finset.sum_congr _ fun _ _ => rfl
    ext a
    simp only [Finset.mem_range, Finset.mem_filter]
    omega
  rw [Finset.sum_congr rfl h1, Finset.sum_comm, cartSum]
  refine Finset.sum_congr rfl fun a ha => ?_
  have ha := Finset.mem_range.1 ha
  have h2 : ∀ b ∈ Finset.range (l + 1), (if a + b ≤ l then coefC l M a b * (x ^ a * y ^ b * z ^ (l - a - b)) else 0) =
      if a + b ≤ l ∧ M ≤ a + b ∧ (a + b - M) % 2 = 0 then
        (cA l M ((a + b - M) / 2) : ℂ) * cD ((a + b - M) / 2) M a * (x ^ a * y ^ b * z ^ (l - a - b)) else 0 := by
    intro b _
    unfold coefC
    by_cases q1 : a + b ≤ l <;> by_cases q2 : M ≤ a + b ∧ (a + b - M) % 2 = 0
    · rw [if_pos q1, if_pos q2, if_pos ⟨q1, q2⟩]
    · rw [if_pos q1, if_neg q2, if_neg (by tauto), zero_mul]
    · rw [if_neg q1, if_neg (by tauto)]
    · rw [if_neg q1, if_neg (by tauto)]
  rw [Finset.sum_congr rfl h2, ← Finset.sum_filter, ← Finset.sum_filter]
  refine Finset.sum_nbij' (fun b => (a + b - M) / 2) (fun j => M + 2 * j - a) ?_ ?_ ?_ ?_ ?_
  · intro b
    simp only [Finset.mem_filter, Finset.mem_range]
    omega
  · intro j
    simp only [Finset.mem_filter, Finset.mem_range]
    omega
  · intro b
    simp only [Finset.mem_filter, Finset.mem_range]
    omega
  · intro j
    simp only [Finset.mem_filter, Finset.mem_range]
    omega
  · intro b hb
    simp only [Finset.mem_filter, Finset.mem_range] at hb
    rw [show M + 2 * ((a + b - M) / 2) - a = b by omega, show l - M - 2 * ((a + b - M) / 2) = l - a - b by omega]
    ring

theorem cartSum_re (l : ℕ) (f : ℕ → ℕ → ℕ → ℂ) : (cartSum l f).re = cartSum l fun a b c => (f a b c).re := by
  unfold cartSum
  rw [Complex.re_sum]
  refine Finset.sum_congr rfl fun a _ => ?_
  rw [Complex.re_sum]
  refine Finset.sum_congr rfl fun b _ => ?_
  split_ifs <;> simp

theorem cartSum_im (l : ℕ) (f : ℕ → ℕ → ℕ → ℂ) : (cartSum l f).im = cartSum l fun a b c => (f a b c).im := by
  unfold cartSum
  rw [Complex.im_sum]
  refine Finset.sum_congr rfl fun a _ => ?_
  rw [Complex.im_sum]
  refine Finset.sum_congr rfl fun b _ => ?_
  split_ifs <;> simp

theorem cartSum_congr {F : Type*} [AddCommMonoid F] (l : ℕ) {f g : ℕ → ℕ → ℕ → F} (h : ∀ a b c, a + b + c = l → f a b c = g a b c) :
    cartSum l f = cartSum l g := by
  unfold cartSum
  refine Finset.sum_congr rfl fun a _ => Finset.sum_congr rfl fun b _ => ?_
  split_ifs with q
  · exact h a b _ (by omega)
  · rfl

theorem cartSum_mul_left (l : ℕ) (c : ℝ) (f : ℕ → ℕ → ℕ → ℝ) : cartSum l (fun x y z => c * f x y z) = c * cartSum l f := by
  unfold cartSum
  rw [Finset.mul_sum]
  refine Finset.sum_congr rfl fun a _ => ?_
  rw [Finset.mul_sum]
  refine Finset.sum_congr rfl fun b _ => ?_
  split_ifs <;> simp

/-- On the unit sphere the sum over `j` is the derivative of the Legendre polynomial. -/
theorem cA_sum (l M : ℕ) (hM : M ≤ l) (s z : ℝ) (h : s + z ^ 2 = 1) :
    ∑ j ∈ Finset.range ((l - M) / 2 + 1), cA l M j * z ^ (l - M - 2 * j) * s ^ j = (legendreDeriv l M).eval z := by
  rw [legendreDeriv_eval l M hM]
  have h1 : ∀ j ∈ Finset.range ((l - M) / 2 + 1), cA l M j * z ^ (l - M - 2 * j) * s ^ j =
      ∑ i ∈ Finset.range ((l - M) / 2 + 1), 1 / (2 ^ l * (l ! : ℝ)) * (outerC l M j i * z ^ (l - M - 2 * j) * s ^ j) := by
    intro j _
    rw [cA, ← Finset.mul_sum, mul_assoc, mul_assoc, Finset.sum_mul]
    congr 1
    exact Finset.sum_congr rfl fun i _ => by ring
  rw [Finset.sum_congr rfl h1, Finset.sum_comm]
  refine Finset.sum_congr rfl fun i hi => ?_
  have hi := Finset.mem_range.1 hi
  rw [← Finset.mul_sum]
  congr 1
  have h2 : (1 : ℝ) = ∑ j ∈ Finset.range (i + 1), s ^ j * (z ^ 2) ^ (i - j) * (i.choose j : ℝ) := by
    rw [← add_pow, h, one_pow]
  rw [show (l - M) / 2 + 1 = (i + 1) + ((l - M) / 2 - i) by omega, Finset.sum_range_add]
  have z2 : ∑ q ∈ Finset.range ((l - M) / 2 - i), outerC l M (i + 1 + q) i * z ^ (l - M - 2 * (i + 1 + q)) * s ^ (i + 1 + q) = 0 := by
    refine Finset.sum_eq_zero fun q _ => ?_
    rw [outerC, Nat.choose_eq_zero_of_lt (show i < i + 1 + q by omega)]
    simp
  rw [z2, add_zero]
  have h3 : ∀ w : ℝ, w = ∑ j ∈ Finset.range (i + 1), w * (s ^ j * (z ^ 2) ^ (i - j) * (i.choose j : ℝ)) := fun w => by
    rw [← Finset.mul_sum, ← h2, mul_one]
  rw [h3 (_ * z ^ (l - M - 2 * i))]
  refine Finset.sum_congr rfl fun j hj => ?_
  have hj := Finset.mem_range.1 hj
  rw [show l - M - 2 * j = (l - M - 2 * i) + 2 * (i - j) by omega, pow_add, pow_mul, outerC]
  ring

/-- The coefficients returned by the code, as a function. -/
noncomputable def sphVal (l : ℕ) (m : ℤ) (lx ly : ℕ) : ℝ :=
  rshNorm l m.natAbs * if 0 ≤ m then (coefC l m.natAbs lx ly).re else (coefC l m.natAbs lx ly).im

theorem sphVal_sum (l : ℕ) (m : ℤ) (hm : m.natAbs ≤ l) (ω : Point) (hω : ∑ k, ω k ^ 2 = 1) :
    cartSum l (fun a b c => sphVal l m a b * (ω 0 ^ a * ω 1 ^ b * ω 2 ^ c)) = rsh l m ω := by
  have h := coef_poly l m.natAbs hm (ω 0 : ℂ) (ω 1) (ω 2)
  have hs : (ω 0 ^ 2 + ω 1 ^ 2) + ω 2 ^ 2 = 1 := by
    rw [← hω, Fin.sum_univ_three]
  have e1 : (∑ j ∈ Finset.range ((l - m.natAbs) / 2 + 1), (cA l m.natAbs j : ℂ) * (ω 2 : ℂ) ^ (l - m.natAbs - 2 * j) * ((ω 0 : ℂ) ^ 2 + (ω 1 : ℂ) ^ 2) ^ j) =
      (((legendreDeriv l m.natAbs).eval (ω 2) : ℝ) : ℂ) := by
    rw [← cA_sum l m.natAbs hm _ _ hs]
    push_cast
    rfl
  have e2 : ((ω 0 : ℂ) + I * (ω 1 : ℂ)) = (⟨ω 0, ω 1⟩ : ℂ) := by
    apply Complex.ext <;> simp
  rw [e1, e2] at h
  have e3 : ∀ a b c : ℕ, coefC l m.natAbs a b * ((ω 0 : ℂ) ^ a * (ω 1 : ℂ) ^ b * (ω 2 : ℂ) ^ c) = coefC l m.natAbs a b * ((ω 0 ^ a * ω 1 ^ b * ω 2 ^ c : ℝ) : ℂ) := by
    intro a b c
    push_cast
    rfl
  simp only [e3] at h
  unfold rsh sphVal
  split_ifs with q
  · have := congrArg Complex.re h
    rw [cartSum_re, Complex.re_ofReal_mul] at this
    simp only [Complex.re_mul_ofReal] at this
    rw [mul_assoc, ← this, ← cartSum_mul_left]
    exact cartSum_congr l fun a b c _ => by ring
  · have := congrArg Complex.im h
    rw [cartSum_im, Complex.im_ofReal_mul] at this
    simp only [Complex.im_mul_ofReal] at this
    rw [mul_assoc, ← this, ← cartSum_mul_left]
    exact cartSum_congr l fun a b c _ => by ring

/-! ### The tables -/

theorem mem_cartesianAsc {L a b c : ℕ} : (a, b, c) ∈ cartesianAsc L ↔ a + b + c = L := by
  simp only [cartesianAsc, List.mem_flatMap, List.mem_range]
  constructor
  · rintro ⟨i, _, j, _, k, _, h⟩
    split_ifs at h with q
    · simp only [List.mem_singleton, Prod.mk.injEq] at h
      omega
    · simp at h
  · intro h
    exact ⟨a, by omega, b, by omega, c, by omega, by simp [h]⟩

theorem nodup_cartesianAsc (L : ℕ) : (cartesianAsc L).Nodup := by
  unfold cartesianAsc
  rw [List.nodup_flatMap]
  constructor
  · intro i _
    rw [List.nodup_flatMap]
    constructor
    · intro j _
      rw [List.nodup_flatMap]
      constructor
      · intro k _
        split_ifs <;> simp
      · refine List.nodup_range.imp fun {k k'} hk => ?_
        simp only [Function.onFun, List.disjoint_left]
        intro q h1 h2
        split_ifs at h1 <;> split_ifs at h2 <;> simp_all
    · refine List.nodup_range.imp fun {j j'} hj => ?_
      simp only [Function.onFun, List.disjoint_left, List.mem_flatMap]
      rintro q ⟨k, _, h1⟩ ⟨k', _, h2⟩
      split_ifs at h1 <;> split_ifs at h2 <;> simp_all
  · refine List.nodup_range.imp fun {i i'} hi => ?_
    simp only [Function.onFun, List.disjoint_left, List.mem_flatMap]
    rintro q ⟨j, _, k, _, h1⟩ ⟨j', _, k', _, h2⟩
    split_ifs at h1 <;> split_ifs at h2 <;> simp_all

theorem cartesianAsc_perm (L : ℕ) : (cartesianAsc L).Perm (cartesianTurbomole L) := by
  rw [List.perm_ext_iff_of_nodup (nodup_cartesianAsc L) (nodup_turbomole L)]
  rintro ⟨a, b, c⟩
  rw [mem_cartesianAsc, mem_turbomole]

theorem length_cartesianAsc (L : ℕ) : (cartesianAsc L).length = cartSize L := by
  rw [(cartesianAsc_perm L).length_eq, length_turbomole]

theorem sum_range_list {α : Type} (l : List α) (d : α) (f : α → ℝ) : ∑ i ∈ Finset.range l.length, f (l.getD i d) = (l.map f).sum := by
  induction l with
  | nil => simp
  | cons a l ih =>
    rw [List.length_cons, Finset.sum_range_succ', List.map_cons, List.sum_cons, ← ih]
    simp [add_comm]

theorem sum_flatMap_range {α : Type} (n : ℕ) (g : ℕ → List α) (f : α → ℝ) :
    (((List.range n).flatMap g).map f).sum = ∑ i ∈ Finset.range n, ((g i).map f).sum := by
  induction n with
  | zero => simp
  | succ n ih => rw [List.range_succ, List.flatMap_append, List.map_append, List.sum_append, ih, Finset.sum_range_succ]; simp

theorem cartesianAsc_sum (L : ℕ) (f : Comp → ℝ) : ((cartesianAsc L).map f).sum = cartSum L fun a b c => f (a, b, c) := by
  unfold cartesianAsc cartSum
  rw [sum_flatMap_range]
  refine Finset.sum_congr rfl fun a _ => ?_
  rw [sum_flatMap_range]
  refine Finset.sum_congr rfl fun b _ => ?_
  rw [sum_flatMap_range]
  split_ifs with h
  · rw [Finset.sum_eq_single (L - a - b)]
    · rw [if_pos (by omega)]
      simp
    · intro k _ hk
      rw [if_neg (by omega)]
      simp
    · intro hk
      simp only [Finset.mem_range] at hk
      omega
  · refine Finset.sum_eq_zero fun k _ => ?_
    rw [if_neg (by omega)]
    simp

/-- Component number `i` of the table. -/
def ascComp (L i : ℕ) : Comp := (cartesianAsc L).getD i (0, 0, 0)

theorem ascComp_sum {L i : ℕ} (h : i < cartSize L) : (ascComp L i).1 + (ascComp L i).2.1 + (ascComp L i).2.2 = L := by
  rw [← length_cartesianAsc] at h
  have : ascComp L i ∈ cartesianAsc L := by
    rw [ascComp, List.getD_eq_getElem _ _ h]
    exact List.getElem_mem h
  exact mem_cartesianAsc.1 this

theorem rd_ascComp {L i : ℕ} (h : i < cartSize L) : rd (cartesianAsc L) i = .ok (ascComp L i) := by
  rw [← length_cartesianAsc] at h
  rw [rd_ok h, ascComp, List.getD_eq_getElem _ _ h]

theorem asc_sum (L : ℕ) (f : Comp → ℝ) : ∑ i ∈ Finset.range (cartSize L), f (ascComp L i) = cartSum L fun a b c => f (a, b, c) := by
  rw [← cartesianAsc_sum, ← length_cartesianAsc]
  exact sum_range_list _ _ _

/-- What the table of angular momentum `L` contains. -/
structure RshTable.Is (t : RshTable) (L : ℕ) : Prop where
  ncart : t.n_cart_comb = cartSize L
  comb : t.comb = cartesianAsc L
  len : t.coeffs.length = (2 * L + 1) * cartSize L
  val : ∀ mi < 2 * L + 1, ∀ i < cartSize L, t.coeffs[mi * cartSize L + i]? =
    some (sphVal L ((mi : ℤ) - L) (ascComp L i).1 (ascComp L i).2.1)

theorem rshTabulate_ok (L : ℕ) (hL : L ≤ 40) : ∃ t, rshTabulate L = .ok t ∧ t.Is L := by
  unfold rshTabulate
  set n := cartSize L with hn
  obtain ⟨c, hc, h1, h2⟩ := forRange_inv (n := 2 * L + 1) (s := List.replicate ((2 * L + 1) * n) (0 : ℝ))
    (body := fun mi c => forRange n c fun icomb c => do
      let q ← rd (cartesianAsc L) icomb
      let v ← sphCoef L ((mi : ℤ) - L) q.1 q.2.1 q.2.2
      wr c (mi * n + icomb) v)
    (fun k c => c.length = (2 * L + 1) * n ∧ ∀ mi < k, ∀ i < n, c[mi * n + i]? =
      some (sphVal L ((mi : ℤ) - L) (ascComp L i).1 (ascComp L i).2.1))
    ⟨by simp, by simp⟩ (by
      rintro mi c hmi ⟨h1, h2⟩
      refine forRange_spec (fun k c => c.length = (2 * L + 1) * n ∧ (∀ mj < mi, ∀ i < n, c[mj * n + i]? =
        some (sphVal L ((mj : ℤ) - L) (ascComp L i).1 (ascComp L i).2.1)) ∧ ∀ i < k, c[mi * n + i]? =
          some (sphVal L ((mi : ℤ) - L) (ascComp L i).1 (ascComp L i).2.1)) ⟨h1, h2, by simp⟩ ?_ ?_
      · rintro k c hk ⟨g1, g2, g3⟩
        have hlt : mi * n + k < c.length := by rw [g1]; exact rowMajor_lt hmi hk
        refine ⟨c.set (mi * n + k) (sphVal L ((mi : ℤ) - L) (ascComp L k).1 (ascComp L k).2.1), ?_, ?_⟩
        · rw [rd_ascComp (hn ▸ hk)]
          simp only [Outcome.ok_bind]
          have := ascComp_sum (L := L) (i := k) (hn ▸ hk)
          rw [sphCoef_eq L _ _ _ _ hL (by omega) (by omega)]
          simp only [Outcome.ok_bind]
          exact wr_ok _ hlt
        · refine ⟨by simp [g1], ?_, ?_⟩
          · intro mj hmj i hi
            rw [List.getElem?_set_ne]
            · exact g2 mj hmj i hi
            · intro h
              have := rowMajor_inj hk hi h
              omega
          · intro i hi
            by_cases e : i = k
            · subst e
              rw [List.getElem?_set_self hlt]
            · rw [List.getElem?_set_ne (by omega)]
              exact g3 i (by omega)
      · rintro c ⟨g1, g2, g3⟩
        refine ⟨g1, ?_⟩
        intro mj hmj i hi
        rcases Nat.lt_succ_iff_lt_or_eq.1 hmj with h | rfl
        · exact g2 mj h i hi
        · exact g3 i hi)
  refine ⟨⟨n, cartesianAsc L, c⟩, ?_, ⟨rfl, rfl, h1, h2⟩⟩
  simp only [hc, Outcome.ok_bind]

theorem rshTable_ok (L : ℕ) (hL : L ≤ 40) : ∃ t, rshTable L = .ok t ∧ t.Is L := by
  unfold rshTable rshTablesLmax
  rw [if_neg (by omega)]
  exact rshTabulate_ok L hL

theorem rshPowers_ok (l : ℕ) (hl : l < 200) (x : ℝ) : ∃ p, rshPowers l x = .ok p ∧ ∀ i ≤ l, rdInit p i = .ok (x ^ i) := by
  unfold rshPowers
  rw [wr_ok _ (by rw [List.length_replicate]; omega)]
  simp only [Outcome.ok_bind]
  refine forRange_spec (fun k p => p.length = 200 ∧ ∀ i ≤ k, p[i]? = some (some (x ^ i))) ?_ ?_ ?_
  · refine ⟨by rw [List.length_set, List.length_replicate], ?_⟩
    intro i hi
    obtain rfl : i = 0 := by omega
    rw [List.getElem?_set_self (by rw [List.length_replicate]; omega), pow_zero]
  · rintro k p hk ⟨h1, h2⟩
    refine ⟨p.set (k + 1) (some (x ^ k * x)), ?_, by simp [h1], ?_⟩
    · have : rdInit p k = .ok (x ^ k) := by
        unfold rdInit rd
        rw [h2 k le_rfl]
        rfl
      rw [this]
      simp only [Outcome.ok_bind]
      exact wr_ok _ (by omega)
    · intro i hi
      by_cases e : i = k + 1
      · subst e
        rw [List.getElem?_set_self (by omega), pow_succ]
      · rw [List.getElem?_set_ne (by omega)]
        exact h2 i (by omega)
  · rintro p ⟨_, h2⟩ i hi
    unfold rdInit rd
    rw [h2 i hi]
    rfl

theorem RshTable.Is.rd_coef {t : RshTable} {L : ℕ} (h : t.Is L) {mi i : ℕ} (hm : mi < 2 * L + 1) (hi : i < cartSize L) :
    rd t.coeffs (mi * cartSize L + i) = .ok (sphVal L ((mi : ℤ) - L) (ascComp L i).1 (ascComp L i).2.1) := by
  unfold rd
  rw [h.val mi hm i hi]

theorem RshTable.Is.rdInt_coef {t : RshTable} {L : ℕ} (h : t.Is L) {m : ℤ} {i : ℕ} (hm : m.natAbs ≤ L) (hi : i < cartSize L) :
    rdInt t.coeffs ((m + L) * (cartSize L : ℕ) + (i : ℕ)) = .ok (sphVal L m (ascComp L i).1 (ascComp L i).2.1) := by
  obtain ⟨mi, rfl⟩ : ∃ mi : ℕ, m = (mi : ℤ) - L := ⟨(m + L).toNat, by omega⟩
  have e : ((mi : ℤ) - L + L) * (cartSize L : ℕ) + (i : ℕ) = ((mi * cartSize L + i : ℕ) : ℤ) := by
    push_cast
    ring
  unfold rdInt
  rw [e, if_neg (by omega), Int.toNat_natCast, h.rd_coef (by omega) hi]

/-- Value computed by `evaluate_real_spherical_harmonic`: the polynomial at the (possibly zero) unit vector. -/
theorem evalRsh_eq (l : ℕ) (m : ℤ) (k : Point) (hl : l ≤ 40) (hm : m.natAbs ≤ l) :
    evalRsh l m k = .ok (cartSum l fun a b c => sphVal l m a b * (rshUnit k 0 ^ a * rshUnit k 1 ^ b * rshUnit k 2 ^ c)) := by
  unfold evalRsh
  obtain ⟨t, ht, hI⟩ := rshTable_ok l hl
  obtain ⟨px, e1, p1⟩ := rshPowers_ok l (by omega) (rshUnit k 0)
  obtain ⟨py, e2, p2⟩ := rshPowers_ok l (by omega) (rshUnit k 1)
  obtain ⟨pz, e3, p3⟩ := rshPowers_ok l (by omega) (rshUnit k 2)
  simp only [ht, e1, e2, e3, Outcome.ok_bind, hI.ncart, hI.comb]
  rw [forRange_sum (fun i => (fun q : Comp => sphVal l m q.1 q.2.1 * (rshUnit k 0 ^ q.1 * rshUnit k 1 ^ q.2.1 * rshUnit k 2 ^ q.2.2)) (ascComp l i)), zero_add,
    asc_sum l (fun q : Comp => sphVal l m q.1 q.2.1 * (rshUnit k 0 ^ q.1 * rshUnit k 1 ^ q.2.1 * rshUnit k 2 ^ q.2.2))]
  intro i hi s
  have := ascComp_sum hi
  rw [rd_ascComp hi]
  simp only [Outcome.ok_bind]
  rw [hI.rdInt_coef hm hi, p1 _ (by omega), p2 _ (by omega), p3 _ (by omega)]
  simp only [Outcome.ok_bind, mul_assoc]

theorem rshUnit_sphere (k : Point) (h : Real.sqrt (∑ i, k i ^ 2) > zeroThresh) :
    rshUnit k = (fun i => k i / Real.sqrt (∑ i, k i ^ 2)) ∧ ∑ i, rshUnit k i ^ 2 = 1 := by
  have e : k 0 * k 0 + k 1 * k 1 + k 2 * k 2 = ∑ i, k i ^ 2 := by
    rw [Fin.sum_univ_three]
    ring
  have h1 : rshUnit k = fun i => k i / Real.sqrt (∑ i, k i ^ 2) := by
    unfold rshUnit
    simp only [e]
    rw [if_pos h]
  refine ⟨h1, ?_⟩
  have hpos : 0 < Real.sqrt (∑ i, k i ^ 2) := lt_trans (by norm_num [zeroThresh]) h
  have hne : (∑ i, k i ^ 2) ≠ 0 := fun h0 => by rw [h0, Real.sqrt_zero] at hpos; exact lt_irrefl _ hpos
  rw [h1]
  simp only [div_pow]
  rw [← Finset.sum_div, Real.sq_sqrt (Finset.sum_nonneg fun i _ => sq_nonneg _), div_self hne]

/-- Contents of the array filled by `evaluate_real_spherical_harmonics_array`. -/
theorem evalRshArray_eq (l : ℕ) (k : Point) (arr : List ℝ) (hl : l ≤ 40) (ha : 2 * l + 1 ≤ arr.length) :
    ∃ arr', evalRshArray l k arr = .ok arr' ∧ arr'.length = arr.length ∧
      (∀ mi < 2 * l + 1, arr'[mi]? = some (cartSum l fun a b c => sphVal l ((mi : ℤ) - l) a b *
        (rshUnit k 0 ^ a * rshUnit k 1 ^ b * rshUnit k 2 ^ c))) ∧ ∀ i, 2 * l + 1 ≤ i → arr'[i]? = arr[i]? := by
  unfold evalRshArray
  obtain ⟨t, ht, hI⟩ := rshTable_ok l hl
  obtain ⟨px, e1, p1⟩ := rshPowers_ok l (by omega) (rshUnit k 0)
  obtain ⟨py, e2, p2⟩ := rshPowers_ok l (by omega) (rshUnit k 1)
  obtain ⟨pz, e3, p3⟩ := rshPowers_ok l (by omega) (rshUnit k 2)
  simp only [ht, e1, e2, e3, Outcome.ok_bind, hI.ncart, hI.comb]
  obtain ⟨a0, h0, g1, g2, g3⟩ := forRange_inv (n := 2 * l + 1) (s := arr) (body := fun i a => wr a i 0)
    (fun n a => a.length = arr.length ∧ (∀ i < n, a[i]? = some 0) ∧ ∀ i, n ≤ i → a[i]? = arr[i]?) ⟨rfl, by simp, by simp⟩ (by
      rintro i a hi ⟨g1, g2, g3⟩
      refine ⟨_, wr_ok _ (by omega), by simp [g1], ?_, ?_⟩
      · intro j hj
        by_cases e : j = i
        · subst e
          rw [List.getElem?_set_self (by omega)]
        · rw [List.getElem?_set_ne (by omega)]
          exact g2 j (by omega)
      · intro j hj
        rw [List.getElem?_set_ne (by omega)]
        exact g3 j (by omega))
  simp only [h0, Outcome.ok_bind]
  set f : ℕ → Comp → ℝ := fun mi q => sphVal l ((mi : ℤ) - l) q.1 q.2.1 * (rshUnit k 0 ^ q.1 * rshUnit k 1 ^ q.2.1 * rshUnit k 2 ^ q.2.2) with hf
  refine forRange_spec (fun n a => a.length = arr.length ∧ (∀ mi < 2 * l + 1, a[mi]? = some (∑ i ∈ Finset.range n, f mi (ascComp l i))) ∧
    ∀ i, 2 * l + 1 ≤ i → a[i]? = arr[i]?) ⟨g1, by simpa using g2, g3⟩ ?_ ?_
  · rintro i a hi ⟨b1, b2, b3⟩
    have := ascComp_sum hi
    rw [rd_ascComp hi]
    simp only [Outcome.ok_bind]
    rw [p1 _ (by omega), p2 _ (by omega), p3 _ (by omega)]
    simp only [Outcome.ok_bind]
    refine forRange_spec (fun n a => a.length = arr.length ∧ (∀ mi < 2 * l + 1, a[mi]? =
      some (∑ i ∈ Finset.range (if mi < n then i + 1 else i), f mi (ascComp l i))) ∧ ∀ i, 2 * l + 1 ≤ i → a[i]? = arr[i]?) ⟨b1, by simpa using b2, b3⟩ ?_ ?_
    · rintro mi a hmi ⟨c1, c2, c3⟩
      refine ⟨a.set mi (∑ i ∈ Finset.range (i + 1), f mi (ascComp l i)), ?_, by simp [c1], ?_, ?_⟩
      · rw [hI.rd_coef hmi hi]
        simp only [Outcome.ok_bind]
        have : rd a mi = .ok (∑ i ∈ Finset.range i, f mi (ascComp l i)) := by
          unfold rd
          rw [c2 mi hmi, if_neg (by omega)]
        rw [this]
        simp only [Outcome.ok_bind]
        rw [wr_ok _ (by omega), Finset.sum_range_succ]
      · intro mj hmj
        by_cases e : mj = mi
        · subst e
          rw [List.getElem?_set_self (by omega), if_pos (by omega)]
        · rw [List.getElem?_set_ne (by omega), c2 mj hmj]
          have : (mj < mi + 1) = (mj < mi) := by
            apply propext
            omega
          simp only [this]
      · intro j hj
        rw [List.getElem?_set_ne (by omega)]
        exact c3 j hj
    · rintro a ⟨c1, c2, c3⟩
      refine ⟨c1, ?_, c3⟩
      intro mi hmi
      rw [c2 mi hmi, if_pos hmi]
  · rintro a ⟨b1, b2, b3⟩
    refine ⟨b1, ?_, b3⟩
    intro mi hmi
    rw [b2 mi hmi, asc_sum l (f mi)]

end Libgrpp
