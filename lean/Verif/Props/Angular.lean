import Verif.Lemmas.PlaneWaveSum

/-! # C46, C47, C73: angular integrals -/

namespace Libgrpp

open scoped Nat

/-- **C46.** The angular kernel never has undefined behaviour. It returns the surface integral of `x^i y^j z^k` over the unit sphere,
except that it aborts when all three exponents are even and `i + j + k ≥ 30`. -/
theorem sphere_monomial_exact (i j k : ℕ) :
    uspInt i j k = if (Even i ∧ Even j ∧ Even k) ∧ 30 ≤ i + j + k then .abort
      else .ok (sphInt fun ω => ω 0 ^ i * ω 1 ^ j * ω 2 ^ k) := by
  simp only [Nat.even_iff]
  split_ifs with h
  · exact (uspInt_abort_iff i j k).2 h
  · exact (uspInt_cases i j k).resolve_right fun hc => h ((uspInt_abort_iff i j k).1 hc)

/-- **C46.** The documented formula. -/
theorem sphere_monomial_formula (i j k : ℕ) (h : i + j + k ≤ 29) :
    uspInt i j k = .ok (if Even i ∧ Even j ∧ Even k then
      4 * Real.pi * ((i - 1)‼ : ℝ) * ((j - 1)‼ : ℝ) * ((k - 1)‼ : ℝ) / ((i + j + k + 1)‼ : ℝ) else 0) := by
  rw [uspInt_eq i j k (Or.inl h), monoInt_eq]
  simp only [Nat.even_iff]

/-- **C46.** Invariance under permutations of the coordinates. -/
theorem sphere_monomial_symmetric (i j k : ℕ) (h : i + j + k ≤ 29) : uspInt i j k = uspInt j i k ∧ uspInt i j k = uspInt i k j := by
  simp only [uspInt_eq i j k (Or.inl h), uspInt_eq j i k (Or.inl (by omega)), uspInt_eq i k j (Or.inl (by omega)), monoInt_eq]
  constructor
  · congr 1
    refine if_congr (by tauto) ?_ rfl
    rw [show j + i + k + 1 = i + j + k + 1 by omega]
    ring
  · congr 1
    refine if_congr (by tauto) ?_ rfl
    rw [show i + k + j + 1 = i + j + k + 1 by omega]
    ring

/-- **C46.** Consistency with `x² + y² + z² = 1`. -/
theorem sphere_monomial_unit (i j k : ℕ) (h : i + j + k ≤ 27) : ∃ x y z w : ℝ,
    uspInt (i + 2) j k = .ok x ∧ uspInt i (j + 2) k = .ok y ∧ uspInt i j (k + 2) = .ok z ∧ uspInt i j k = .ok w ∧ x + y + z = w := by
  refine ⟨_, _, _, _, uspInt_eq _ _ _ (by omega), uspInt_eq _ _ _ (by omega), uspInt_eq _ _ _ (by omega), uspInt_eq _ _ _ (by omega), ?_⟩
  unfold monoInt
  rw [← sphInt_add (f := fun ω => ω 0 ^ (i + 2) * ω 1 ^ j * ω 2 ^ k) (g := fun ω => ω 0 ^ i * ω 1 ^ (j + 2) * ω 2 ^ k) (continuous_mono _ _ _) (continuous_mono _ _ _),
    ← sphInt_add (f := fun ω => ω 0 ^ (i + 2) * ω 1 ^ j * ω 2 ^ k + ω 0 ^ i * ω 1 ^ (j + 2) * ω 2 ^ k) (g := fun ω => ω 0 ^ i * ω 1 ^ j * ω 2 ^ (k + 2))
      ((continuous_mono _ _ _).add (continuous_mono _ _ _)) (continuous_mono _ _ _)]
  apply sphInt_congr
  intro ω hω
  rw [Fin.sum_univ_three] at hω
  linear_combination (ω 0 ^ i * ω 1 ^ j * ω 2 ^ k) * hω

/-- **C73.** The type-1 angular integral: the sum over `μ` of the projection of `x^I y^J z^K` on `S_λμ` times the value of `S_λμ` in the
direction of `k`, whenever `I + J + K + λ ≤ 29` or this sum is odd. -/
theorem angular_type1_correct (lam I J K : ℕ) (k : Point) (hlam : lam ≤ 40) (hk : Real.sqrt (∑ i, k i ^ 2) > 1e-14)
    (h : I + J + K + lam ≤ 29 ∨ (I + J + K + lam) % 2 = 1) :
    angType1 lam I J K k = .ok (∑ mi ∈ Finset.range (2 * lam + 1),
      sphInt (fun ω => rsh lam ((mi : ℤ) - lam) ω * (ω 0 ^ I * ω 1 ^ J * ω 2 ^ K)) *
        rsh lam ((mi : ℤ) - lam) fun i => k i / Real.sqrt (∑ i, k i ^ 2)) := by
  unfold angType1
  obtain ⟨h1, h2⟩ := rshUnit_sphere k hk
  rw [forRange_sum (fun mi => sphInt (fun ω => rsh lam ((mi : ℤ) - lam) ω * (ω 0 ^ I * ω 1 ^ J * ω 2 ^ K)) *
    rsh lam ((mi : ℤ) - lam) fun i => k i / Real.sqrt (∑ i, k i ^ 2)), zero_add]
  intro mi hmi s
  simp only []
  have hm : ((mi : ℤ) - lam).natAbs ≤ lam := by omega
  rw [angType1_inner lam I J K _ hlam hm h, evalRsh_eq lam _ k hlam hm, sphVal_sum lam _ hm _ h2, h1]
  rfl

/-- **C73.** Applied with the modified spherical Bessel functions the type-1 angular integrals give the integral of a monomial with a
plane wave: `∫ x^I y^J z^K exp(k·ω) dω = 4π Σ_λ i_λ(|k|) Ω_λ(I,J,K;k)`. -/
theorem angular_type1_plane_wave (I J K : ℕ) (k : Point) (hk : Real.sqrt (∑ i, k i ^ 2) > 1e-14) (h : 2 * (I + J + K) ≤ 29) :
    ∃ Om : ℕ → ℝ, (∀ lam ≤ I + J + K, angType1 lam I J K k = .ok (Om lam)) ∧
      sphInt (fun ω => ω 0 ^ I * ω 1 ^ J * ω 2 ^ K * Real.exp (∑ i, k i * ω i)) =
        4 * Real.pi * ∑ lam ∈ Finset.range (I + J + K + 1), besselI lam (Real.sqrt (∑ i, k i ^ 2)) * Om lam := by
  refine ⟨_, fun lam hlam => angular_type1_correct lam I J K k (by omega) hk (by omega), ?_⟩
  obtain ⟨h1, h2⟩ := rshUnit_sphere k hk
  set κ := Real.sqrt (∑ i, k i ^ 2)
  have hκ : κ ≠ 0 := (lt_trans (by norm_num) hk).ne'
  have e := (rspanned_monomial I J K).exp κ (rshUnit k) h2
  have e2 : ∀ ω : Point, κ * rdot (rshUnit k) ω = ∑ i, k i * ω i := by
    intro ω
    rw [h1, rdot, Finset.mul_sum]
    refine Finset.sum_congr rfl fun i _ => ?_
    field_simp
  simp only [e2] at e
  rw [e, Finset.mul_sum]
  refine Finset.sum_congr rfl fun lam _ => ?_
  rw [Finset.mul_sum, Finset.mul_sum]
  refine Finset.sum_congr rfl fun mi _ => ?_
  rw [h1]
  simp only [mul_comm (rsh lam _ _)]
  ring

/-- **C73.** The type-2 angular integral, given the values of the harmonics in some direction: the sum over `μ` of the integral of
`x^a y^b z^c S_λμ S_Lm` times the value of `S_λμ`; values below `1e-14` count as zero. -/
theorem angular_type2_correct (lam L : ℕ) (m : ℤ) (a b c : ℕ) (vals : List ℝ) (hlam : lam ≤ 40) (hL : L ≤ 40) (hm : m.natAbs ≤ L)
    (hv : vals.length = 2 * lam + 1) (h : a + b + c + lam + L ≤ 29 ∨ (a + b + c + lam + L) % 2 = 1) :
    angType2 lam L m a b c vals = .ok (∑ mi : Fin (2 * lam + 1),
      sphInt (fun ω => ω 0 ^ a * ω 1 ^ b * ω 2 ^ c * rsh lam ((mi : ℤ) - lam) ω * rsh L m ω) *
        if |vals[mi]| < 1e-14 then 0 else vals[mi]) := by
  rw [angType2_eq lam L m a b c vals hlam hL hm (by omega) h, Finset.sum_range]
  congr 1
  refine Finset.sum_congr rfl fun mi _ => ?_
  have e : vals.getD mi 0 = vals[mi] := by
    rw [List.getD_eq_getElem _ _ (by omega)]
    rfl
  rw [dropSmall, e, zeroThresh]
  congr 2
  funext ω
  ring

/-- **C47**, where the angular part aborts: exactly when some harmonic value is not skipped and the expansions of `S_Lm` and `S_λμ`
contain monomials whose product with `x^a y^b z^c` has even exponents with sum at least 30. -/
theorem angular_type2_abort_iff (lam L : ℕ) (m : ℤ) (a b c : ℕ) (vals : List ℝ) (hlam : lam ≤ 40) (hL : L ≤ 40) (hm : m.natAbs ≤ L)
    (hv : vals.length = 2 * lam + 1) : angType2 lam L m a b c vals = .abort ↔
    ∃ (mi : Fin (2 * lam + 1)), 1e-14 ≤ |vals[mi]| ∧
      ∃ u v w r s t : ℕ, ∃ y z : ℝ, u + v + w = L ∧ r + s + t = lam ∧ sphCoef L m u v w = .ok y ∧ y ≠ 0 ∧
        sphCoef lam ((mi : ℤ) - lam) r s t = .ok z ∧ z ≠ 0 ∧
        (Even (a + r + u) ∧ Even (b + s + v) ∧ Even (c + t + w)) ∧ 30 ≤ a + b + c + lam + L := by
  have e : ∀ mi : Fin (2 * lam + 1), vals.getD mi 0 = vals[mi] := by
    intro mi
    rw [List.getD_eq_getElem _ _ (by omega)]
    rfl
  constructor
  · intro hab
    by_contra hc
    rw [angType2_eq' lam L m a b c vals hlam hL hm (by omega)] at hab
    · exact absurd hab (by simp)
    · intro mi hmi hbig u v w huvw hy r s t hrst hz hu
      refine hc ⟨⟨mi, hmi⟩, ?_, u, v, w, r, s, t, _, _, huvw, hrst, sphCoef_eq L m u v w hL hm (by omega), hy,
        sphCoef_eq lam _ r s t hlam (by simp only; omega) (by omega), hz, ?_⟩
      · rw [← e]
        exact not_lt.1 hbig
      · have := (uspInt_abort_iff _ _ _).1 hu
        simp only [Nat.even_iff]
        omega
  · rintro ⟨mi, hbig, u, v, w, r, s, t, y, z, huvw, hrst, hy, hy0, hz, hz0, hev, h30⟩
    have hmi := mi.2
    rw [sphCoef_eq L m u v w hL hm (by omega)] at hy
    obtain rfl : sphVal L m u v = y := by injection hy
    rw [sphCoef_eq lam _ r s t hlam (by omega) (by omega)] at hz
    obtain rfl : sphVal lam ((mi : ℤ) - lam) r s = z := by injection hz
    refine angType2_abort lam L m a b c vals hlam hL hm (by omega) mi hmi ?_ u v w huvw hy0 r s t hrst hz0 ((uspInt_abort_iff _ _ _).2 ?_)
    · rw [e]
      exact not_lt.2 hbig
    · simp only [Nat.even_iff] at hev
      omega

/-- **C47_partial.** The angular part does not abort when `a + b + c + λ + L ≤ 29`; with `λ ≤ L + L_A`, as in the semilocal and
spin-orbit routines, this holds for all components of a shell when `L_A + L ≤ 14`. Missing: the claim for all `L_A, L ≤ 10`, which is
false, see `angular_abort_documented_range`. -/
theorem angular_no_abort_partial (lam L LA : ℕ) (m : ℤ) (a b c : ℕ) (vals : List ℝ) (hLA : LA + L ≤ 14) (habc : a + b + c ≤ LA)
    (hlam : lam ≤ L + LA) (hm : m.natAbs ≤ L) (hv : vals.length = 2 * lam + 1) : ∃ v, angType2 lam L m a b c vals = .ok v :=
  ⟨_, angType2_eq lam L m a b c vals (by omega) (by omega) hm (by omega) (by omega)⟩

/-- Finding (negation of **C47**): the angular momenta `L_A = 10` of the basis function and `L = 5` of the projector are within the documented
limit of 10. For the component `x^10` and the intermediate `λ = 15 = L + L_A` the angular integral aborts. -/
theorem angular_abort_documented_range (vals : List ℝ) (hv : vals.length = 31) (h1 : (1e-14 : ℝ) ≤ |vals[30]|) :
    angType2 15 5 5 10 0 0 vals = .abort :=
  (angular_type2_abort_iff 15 5 5 10 0 0 vals (by norm_num) (by norm_num) (by norm_num) hv).2
    ⟨⟨30, by norm_num⟩, h1, 5, 0, 0, 15, 0, 0, _, _, rfl, rfl, sphCoef_eq 5 5 5 0 0 (by norm_num) (by norm_num) (by norm_num), sphVal_top 5,
      sphCoef_eq 15 _ 15 0 0 (by norm_num) (by norm_num) (by norm_num), sphVal_top 15, by decide, by norm_num⟩

-- non-vacuity
example : uspInt 2 4 6 = .ok (4 * Real.pi * 1 * 3 * 15 / 135135) := by
  rw [sphere_monomial_formula 2 4 6 (by norm_num), if_pos (by decide)]
  norm_num [Nat.doubleFactorial]
example : uspInt 10 10 10 = .abort := by
  rw [sphere_monomial_exact, if_pos (by decide)]
example : ∃ vals : List ℝ, ∃ hv : vals.length = 31, (1e-14 : ℝ) ≤ |vals[30]| := ⟨List.replicate 31 1, by simp, by norm_num⟩

end Libgrpp
