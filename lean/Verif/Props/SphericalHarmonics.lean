import Verif.Lemmas.PlaneWaveSum

/-! # C70-C72: real spherical harmonics: coefficients, values, orthonormality -/

namespace Libgrpp

open scoped Nat

/-- **C70.** For every `l ≤ 40` and `|m| ≤ l` the routine for the expansion coefficients returns for every component of degree `l`,
and the polynomial with these coefficients is the real spherical harmonic `S_lm` at every point of the unit sphere. -/
theorem rsh_coefficients_correct (l : ℕ) (m : ℤ) (hl : l ≤ 40) (hm : m.natAbs ≤ l) :
    ∃ coef : ℕ → ℕ → ℕ → ℝ, (∀ a b c, a + b + c = l → sphCoef l m a b c = .ok (coef a b c)) ∧
      ∀ ω : Point, ∑ k, ω k ^ 2 = 1 →
        ∑ a ∈ Finset.range (l + 1), ∑ b ∈ Finset.range (l + 1), ∑ c ∈ Finset.range (l + 1),
          (if a + b + c = l then coef a b c * (ω 0 ^ a * ω 1 ^ b * ω 2 ^ c) else 0) = rsh l m ω := by
  refine ⟨fun a b _ => sphVal l m a b, ?_, ?_⟩
  · intro a b c h
    exact sphCoef_eq l m a b c hl hm (by omega)
  · intro ω hω
    rw [cartSum_triple l fun a b c => sphVal l m a b * (ω 0 ^ a * ω 1 ^ b * ω 2 ^ c), sphVal_sum l m hm ω hω]

/-- **C70.** The tables built at initialisation have one row for every `m = -L .. L`; row `m + L` holds the coefficients of `S_Lm`
for all components of degree `L`, each component once. -/
theorem rsh_table_correct (L : ℕ) (hL : L ≤ 40) : ∃ t : RshTable, rshTable L = .ok t ∧
    t.n_cart_comb = t.comb.length ∧ t.comb.Nodup ∧ (∀ a b c, (a, b, c) ∈ t.comb ↔ a + b + c = L) ∧
    ∀ (m : ℤ), m.natAbs ≤ L → ∀ i (hi : i < t.comb.length),
      rdInt t.coeffs ((m + L) * t.n_cart_comb + i) = sphCoef L m t.comb[i].1 t.comb[i].2.1 t.comb[i].2.2 := by
  obtain ⟨t, ht, hI⟩ := rshTable_ok L hL
  refine ⟨t, ht, by rw [hI.ncart, hI.comb, length_cartesianAsc], by rw [hI.comb]; exact nodup_cartesianAsc L, ?_, ?_⟩
  · intro a b c
    rw [hI.comb, mem_cartesianAsc]
  · intro m hm i hi
    have hi' : i < cartSize L := by rw [hI.comb, length_cartesianAsc] at hi; exact hi
    have e : t.comb[i] = ascComp L i := by
      simp only [hI.comb, ascComp]
      rw [List.getD_eq_getElem]
    have := ascComp_sum hi'
    rw [hI.ncart, hI.rdInt_coef hm hi', e, sphCoef_eq L m _ _ _ hL hm (by omega)]
    rfl

/-- **C70**, beyond the tables: asking for the values of a harmonic with `l > 40` dereferences a null pointer. -/
theorem rsh_table_missing (l : ℕ) (hl : 40 < l) (m : ℤ) (k : Point) (arr : List ℝ) :
    evalRsh l m k = .ub ∧ evalRshArray l k arr = .ub := by
  have : rshTable l = .ub := by
    unfold rshTable rshTablesLmax
    rw [if_pos (by omega)]
  constructor
  · rw [evalRsh, this]; rfl
  · rw [evalRshArray, this]; rfl

/-- **C70.** No non-zero coefficient of any table is smaller than the threshold below which the integral routines skip it. -/
theorem rsh_coefficients_not_tiny (l : ℕ) (m : ℤ) (hl : l ≤ 40) (hm : m.natAbs ≤ l) (a b c : ℕ) (h : a + b + c = l) (v : ℝ)
    (hv : sphCoef l m a b c = .ok v) (h0 : v ≠ 0) : 1e-14 ≤ |v| := by
  rw [sphCoef_eq l m a b c hl hm (by omega)] at hv
  obtain rfl : sphVal l m a b = v := by injection hv
  have := sphVal_large l m a b hl hm h0
  rw [zeroThresh] at this
  exact not_lt.1 this

/-- **C71.** For a vector longer than `1e-14` the routine returns the value of `S_lm` at the point `k/|k|` of the unit sphere. -/
theorem evaluate_rsh_correct (l : ℕ) (m : ℤ) (hl : l ≤ 40) (hm : m.natAbs ≤ l) (k : Point) (hk : Real.sqrt (∑ i, k i ^ 2) > 1e-14) :
    evalRsh l m k = .ok (rsh l m fun i => k i / Real.sqrt (∑ i, k i ^ 2)) := by
  obtain ⟨h1, h2⟩ := rshUnit_sphere k hk
  rw [evalRsh_eq l m k hl hm, sphVal_sum l m hm _ h2, h1]

/-- **C71.** For a vector of length at most `1e-14` the value is that of the constant `S_00` for `l = 0`, and zero for `l > 0`. -/
theorem evaluate_rsh_zero_vector (l : ℕ) (m : ℤ) (hl : l ≤ 40) (hm : m.natAbs ≤ l) (k : Point) (hk : ¬ Real.sqrt (∑ i, k i ^ 2) > 1e-14) :
    evalRsh l m k = .ok (if l = 0 then Real.sqrt (1 / (4 * Real.pi)) else 0) := by
  have h0 : rshUnit k = fun _ => 0 := by
    unfold rshUnit
    have e : k 0 * k 0 + k 1 * k 1 + k 2 * k 2 = ∑ i, k i ^ 2 := by
      rw [Fin.sum_univ_three]
      ring
    simp only [e]
    exact if_neg hk
  rw [evalRsh_eq l m k hl hm, h0]
  split_ifs with q
  · subst q
    have hm0 : m = 0 := by omega
    subst hm0
    have hω : ∑ i, (fun i => if i = 0 then 1 else 0 : Point) i ^ 2 = 1 := by simp
    have := sphVal_sum 0 0 (by simp) _ hω
    have e1 : (cartSum 0 fun a b c => sphVal 0 0 a b * ((0 : ℝ) ^ a * 0 ^ b * 0 ^ c)) =
        cartSum 0 fun a b c => sphVal 0 0 a b * ((if (0 : Fin 3) = 0 then 1 else 0 : ℝ) ^ a * (if (1 : Fin 3) = 0 then 1 else 0) ^ b * (if (2 : Fin 3) = 0 then 1 else 0) ^ c) := by
      refine cartSum_congr 0 fun a b c h => ?_
      obtain ⟨rfl, rfl, rfl⟩ : a = 0 ∧ b = 0 ∧ c = 0 := by omega
      simp
    rw [e1, this]
    congr 1
    have hn : rshNorm 0 0 = Real.sqrt (1 / (4 * Real.pi)) := by
      rw [rshNorm, if_pos rfl, mul_one_div, ← Real.sqrt_div' _ (by norm_num)]
      congr 1
      simp only [Nat.factorial_zero, Nat.cast_one, Nat.cast_zero]
      ring
    simp [rsh, hn, legendreDeriv]
  · congr 1
    have : ∀ a b c : ℕ, a + b + c = l → sphVal l m a b * ((0 : ℝ) ^ a * 0 ^ b * 0 ^ c) = 0 := by
      intro a b c h
      rcases (by omega : a ≠ 0 ∨ b ≠ 0 ∨ c ≠ 0) with h | h | h <;> simp [h]
    rw [cartSum_congr l this]
    simp [cartSum]

/-- **C71.** The array routine stores the values for `m = -l .. l` in this order and leaves the rest of the array as it was. -/
theorem evaluate_rsh_array_correct (l : ℕ) (hl : l ≤ 40) (k : Point) (arr : List ℝ) (ha : 2 * l + 1 ≤ arr.length) :
    ∃ arr', evalRshArray l k arr = .ok arr' ∧ arr'.length = arr.length ∧
      (∀ m : ℤ, m.natAbs ≤ l → ∃ v, arr'[(m + l).toNat]? = some v ∧ evalRsh l m k = .ok v) ∧ ∀ i, 2 * l + 1 ≤ i → arr'[i]? = arr[i]? := by
  obtain ⟨arr', h1, h2, h3, h4⟩ := evalRshArray_eq l k arr hl ha
  refine ⟨arr', h1, h2, ?_, h4⟩
  intro m hm
  refine ⟨_, h3 (m + l).toNat (by omega), ?_⟩
  rw [evalRsh_eq l m k hl hm, show (((m + l).toNat : ℕ) : ℤ) - l = m by omega]

/-- **C72.** The real spherical harmonics the coefficients stand for are orthonormal on the unit sphere. -/
theorem rsh_orthonormal (l l' : ℕ) (m m' : ℤ) (hm : m.natAbs ≤ l) (hm' : m'.natAbs ≤ l') :
    sphInt (fun ω => rsh l m ω * rsh l' m' ω) = if l = l' ∧ m = m' then 1 else 0 := rsh_orthonormal' l l' m m' hm hm'

/-- **C72.** Every function `x^a y^b z^c` on the unit sphere is the sum of its projections on the harmonics with `l ≤ a+b+c`. -/
theorem rsh_complete (a b c : ℕ) (ω : Point) (hω : ∑ k, ω k ^ 2 = 1) :
    ω 0 ^ a * ω 1 ^ b * ω 2 ^ c = ∑ l ∈ Finset.range (a + b + c + 1), ∑ mi ∈ Finset.range (2 * l + 1),
      sphInt (fun ν => ν 0 ^ a * ν 1 ^ b * ν 2 ^ c * rsh l ((mi : ℤ) - l) ν) * rsh l ((mi : ℤ) - l) ω :=
  (rspanned_monomial a b c).expand ω hω

/-- **C72.** `∫ S_lm(ω) exp(κ n·ω) dω = 4π i_l(κ) S_lm(n)`: the expansion of a plane wave with imaginary wave vector. -/
theorem rsh_plane_wave (l : ℕ) (m : ℤ) (hm : m.natAbs ≤ l) (κ : ℝ) (n : Point) (hn : ∑ k, n k ^ 2 = 1) :
    sphInt (fun ω => rsh l m ω * Real.exp (κ * ∑ k, n k * ω k)) = 4 * Real.pi * besselI l κ * rsh l m n := rsh_exp l m hm κ n hn

-- non-vacuity
example : ∑ k, (![0, 0, 1] : Point) k ^ 2 = 1 := by simp [Fin.sum_univ_three]
example : Real.sqrt (∑ i, (![3, 0, 4] : Point) i ^ 2) > 1e-14 := by
  rw [show ∑ i, (![3, 0, 4] : Point) i ^ 2 = 5 ^ 2 by simp [Fin.sum_univ_three]; norm_num, Real.sqrt_sq (by norm_num)]
  norm_num
-- `S_10 = sqrt(3/4π) z`
example (ω : Point) : rsh 1 0 ω = Real.sqrt (3 / (4 * Real.pi)) * ω 2 := by
  have h : (legendreDeriv 1 0).eval (ω 2) = ω 2 := by simp [legendreDeriv, Polynomial.derivative_pow]
  simp only [rsh, Int.natAbs_zero, h, rshNorm, pow_zero, if_true, le_refl, Complex.one_re]
  rw [mul_one, mul_div_assoc', mul_one, ← Real.sqrt_div' _ (by norm_num)]
  congr 2
  norm_num
  ring

end Libgrpp
