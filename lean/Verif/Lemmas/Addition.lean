import Verif.Lemmas.Rotation
import Verif.Lemmas.PlaneWaveDir
import Mathlib.Analysis.Calculus.MeanValue
import Mathlib.Algebra.Order.BigOperators.Ring.Finset

/-! The addition theorem of the real spherical harmonics for equal arguments, and bounds of angular integrals. -/

namespace Libgrpp

open MeasureTheory Set

/-- `Σ_m S_lm(ω)²` -/
noncomputable def rshSq (l : ℕ) (ω : Point) : ℝ := ∑ j : Fin (2 * l + 1), rsh l (mOf l j) ω ^ 2

theorem rshSq_range (l : ℕ) (ω : Point) : rshSq l ω = ∑ mi ∈ Finset.range (2 * l + 1), rsh l ((mi : ℤ) - l) ω ^ 2 := by
  unfold rshSq mOf
  rw [Finset.sum_range fun mi : ℕ => rsh l ((mi : ℤ) - l) ω ^ 2]

theorem sq_rate {n : ℕ} (f : Fin n → ℝ → ℝ) (R : Matrix (Fin n) (Fin n) ℝ) (hR : R.transpose = -R) (t : ℝ)
    (h : ∀ j, HasDerivAt (f j) (-∑ k, R k j * f k t) t) : HasDerivAt (fun s => ∑ j, f j s ^ 2) 0 t := by
  have h1 : HasDerivAt (fun s => ∑ j, f j s ^ 2) (∑ j, 2 * f j t * (-∑ k, R k j * f k t)) t := by
    refine HasDerivAt.fun_sum fun j _ => ?_
    have := (h j).fun_pow 2
    simpa using this
  refine h1.congr_deriv ?_
  have e : ∀ j k, R k j = -R j k := fun j k => congrFun (congrFun hR j) k
  have s1 : ∑ j, 2 * f j t * (-∑ k, R k j * f k t) = -2 * ∑ j, ∑ k, R k j * (f j t * f k t) := by
    rw [Finset.mul_sum]
    refine Finset.sum_congr rfl fun j _ => ?_
    rw [mul_neg, Finset.mul_sum, Finset.mul_sum, ← Finset.sum_neg_distrib]
    exact Finset.sum_congr rfl fun k _ => by ring
  have s2 : ∑ j, ∑ k, R k j * (f j t * f k t) = -∑ j, ∑ k, R k j * (f j t * f k t) := by
    conv_lhs => rw [Finset.sum_comm]
    rw [← Finset.sum_neg_distrib]
    refine Finset.sum_congr rfl fun j _ => ?_
    rw [← Finset.sum_neg_distrib]
    refine Finset.sum_congr rfl fun k _ => ?_
    rw [e]
    ring
  rw [s1]
  linarith

theorem rshSq_turn_y (l : ℕ) (ω : Point) (hω : ∑ k, ω k ^ 2 = 1) (t : ℝ) : rshSq l (turn 1 t ω) = rshSq l (turn 1 0 ω) :=
  is_const_of_deriv_eq_zero (f := fun s => rshSq l (turn 1 s ω))
    (fun s => (sq_rate (fun j s => rsh l (mOf l j) (turn 1 s ω)) (rY l) (rsh_antisymm l).2.1 s (rsh_turn_y l ω hω s)).differentiableAt)
    (fun s => (sq_rate (fun j s => rsh l (mOf l j) (turn 1 s ω)) (rY l) (rsh_antisymm l).2.1 s (rsh_turn_y l ω hω s)).deriv) t 0

theorem rshSq_turn_z (l : ℕ) (ω : Point) (t : ℝ) : rshSq l (turn 2 t ω) = rshSq l (turn 2 0 ω) :=
  is_const_of_deriv_eq_zero (f := fun s => rshSq l (turn 2 s ω))
    (fun s => (sq_rate (fun j s => rsh l (mOf l j) (turn 2 s ω)) (rZ l) (rsh_antisymm l).2.2 s (rsh_turn_z l ω s)).differentiableAt)
    (fun s => (sq_rate (fun j s => rsh l (mOf l j) (turn 2 s ω)) (rZ l) (rsh_antisymm l).2.2 s (rsh_turn_z l ω s)).deriv) t 0

theorem turn_y_zero (ω : Point) : turn 1 0 ω = ω := by
  funext i
  fin_cases i <;> simp [turn]

theorem turn_z_zero (ω : Point) : turn 2 0 ω = ω := by
  funext i
  fin_cases i <;> simp [turn]

theorem exists_angle {c s : ℝ} (h : c ^ 2 + s ^ 2 = 1) : ∃ t, Real.cos t = c ∧ Real.sin t = s := by
  have h1 : ‖(⟨c, s⟩ : ℂ)‖ = 1 := by
    rw [Complex.norm_eq_sqrt_sq_add_sq, h, Real.sqrt_one]
  have h0 : (⟨c, s⟩ : ℂ) ≠ 0 := fun e => by rw [e, norm_zero] at h1; exact zero_ne_one h1
  refine ⟨Complex.arg ⟨c, s⟩, ?_, ?_⟩
  · rw [Complex.cos_arg h0, h1, div_one]
  · rw [Complex.sin_arg, h1, div_one]

/-- The sum is the same everywhere on the sphere. -/
theorem rshSq_pole (l : ℕ) (ω : Point) (hω : ∑ k, ω k ^ 2 = 1) : rshSq l ω = rshSq l ![0, 0, 1] := by
  have h3 : ω 0 ^ 2 + ω 1 ^ 2 + ω 2 ^ 2 = 1 := by rw [← hω, Fin.sum_univ_three]
  obtain ⟨ρ, hρ⟩ : ∃ ρ, ρ = Real.sqrt (ω 0 ^ 2 + ω 1 ^ 2) := ⟨_, rfl⟩
  have hρ2 : ρ ^ 2 = ω 0 ^ 2 + ω 1 ^ 2 := by rw [hρ, Real.sq_sqrt (by positivity)]
  obtain ⟨t, e⟩ : ∃ t, turn 2 t ω = ![ρ, 0, ω 2] := by
    by_cases h0 : ρ = 0
    · have hx : ω 0 = 0 := by nlinarith [sq_nonneg (ω 0), sq_nonneg (ω 1)]
      have hy : ω 1 = 0 := by nlinarith [sq_nonneg (ω 0), sq_nonneg (ω 1)]
      refine ⟨0, ?_⟩
      funext i
      fin_cases i <;> simp [turn, hx, hy, h0]
    · obtain ⟨t, hc, hs⟩ := exists_angle (c := ω 0 / ρ) (s := -ω 1 / ρ) (by
        field_simp
        linarith)
      refine ⟨t, ?_⟩
      funext i
      fin_cases i
      · simp only [turn, hc, hs]
        simp
        field_simp
        linarith
      · simp only [turn, hc, hs]
        simp
        field_simp
        ring
      · simp [turn]
  obtain ⟨s, hc, hs⟩ := exists_angle (c := ω 2) (s := -ρ) (by linarith)
  have e2 : turn 1 s ![ρ, 0, ω 2] = ![0, 0, 1] := by
    funext i
    fin_cases i
    · simp [turn, hc, hs]
      ring
    · simp [turn]
    · simp [turn, hc, hs]
      nlinarith
  rw [← e2, rshSq_turn_y l _ (by simp [Fin.sum_univ_three]; linarith), turn_y_zero, ← e, rshSq_turn_z, turn_z_zero]

theorem sphInt_const_val (c : ℝ) : sphInt (fun _ => c) = 4 * Real.pi * c := by
  have h := rsh_orthonormal' 0 0 0 0 (by simp) (by simp)
  simp only [and_self, if_true] at h
  have e : sphInt (fun ω : Point => rsh 0 0 ω * rsh 0 0 ω) = sphInt (fun _ : Point => 1 / (4 * Real.pi)) := by
    refine sphInt_congr fun ω _ => ?_
    rw [rsh_zero_zero, Real.mul_self_sqrt (by positivity)]
  have e1 : sphInt (fun _ : Point => 1 / (4 * Real.pi)) = 1 / (4 * Real.pi) * sphInt (fun _ : Point => (1 : ℝ)) := by
    rw [← sphInt_const_mul_real]
    simp
  have e2 : sphInt (fun _ : Point => c) = c * sphInt (fun _ : Point => (1 : ℝ)) := by
    rw [← sphInt_const_mul_real]
    simp
  have hp := Real.pi_pos
  rw [e, e1] at h
  rw [e2]
  field_simp at h
  rw [h]
  ring

/-- **Addition theorem** for equal arguments. -/
theorem rsh_addition (l : ℕ) (ω : Point) (hω : ∑ k, ω k ^ 2 = 1) :
    ∑ mi ∈ Finset.range (2 * l + 1), rsh l ((mi : ℤ) - l) ω ^ 2 = (2 * l + 1) / (4 * Real.pi) := by
  rw [← rshSq_range]
  have h1 : sphInt (rshSq l) = 2 * l + 1 := by
    have : sphInt (rshSq l) = ∑ j : Fin (2 * l + 1), sphInt fun ω => rsh l (mOf l j) ω ^ 2 :=
      sphInt_sum Finset.univ fun j _ => (continuous_rsh l (mOf l j)).pow 2
    rw [this]
    have e : ∀ j : Fin (2 * l + 1), (sphInt fun ω => rsh l (mOf l j) ω ^ 2) = 1 := by
      intro j
      simp only [sq]
      rw [rsh_orthonormal' l l _ _ (mOf_abs j.2) (mOf_abs j.2), if_pos ⟨rfl, rfl⟩]
    simp [e]
  have h2 : sphInt (rshSq l) = 4 * Real.pi * rshSq l ![0, 0, 1] := by
    rw [← sphInt_const_val]
    exact sphInt_congr fun ω hω => rshSq_pole l ω hω
  rw [rshSq_pole l ω hω]
  have hp := Real.pi_pos
  rw [h1] at h2
  rw [eq_div_iff (by positivity), h2]
  ring

theorem rshDir_sq_le (l : ℕ) (k : Point) :
    ∑ mi ∈ Finset.range (2 * l + 1), rshDir l ((mi : ℤ) - l) k ^ 2 ≤ (2 * l + 1) / (4 * Real.pi) := by
  have hp := Real.pi_pos
  unfold rshDir
  by_cases hk : 1e-14 < vnorm k
  · obtain ⟨h1, h2⟩ := rshUnit_sphere k hk
    simp only [if_pos hk]
    rw [← rsh_addition l _ h2, h1]
    exact le_of_eq rfl
  · simp only [if_neg hk]
    rcases Nat.eq_zero_or_pos l with rfl | hl
    · simp only [Nat.mul_zero, Nat.zero_add, Finset.sum_range_one, if_true]
      rw [Real.sq_sqrt (by positivity)]
      norm_num
    · rw [Finset.sum_eq_zero]
      · positivity
      · intro mi _
        rw [if_neg (by omega)]
        ring

theorem sphInt_nonneg {f : Point → ℝ} (h : ∀ ω : Point, ∑ k, ω k ^ 2 = 1 → 0 ≤ f ω) : 0 ≤ sphInt f :=
  integral_nonneg fun ω => h _ (sphere_norm ω)

theorem sphInt_mono' {f g : Point → ℝ} (hf : Continuous f) (hg : Continuous g) (h : ∀ ω : Point, ∑ k, ω k ^ 2 = 1 → f ω ≤ g ω) :
    sphInt f ≤ sphInt g := by
  have := sphInt_nonneg (f := fun ω => g ω - f ω) fun ω hω => sub_nonneg.2 (h ω hω)
  rw [sphInt_sub hg hf] at this
  linarith

theorem sphInt_square {g S : Point → ℝ} (hg : Continuous g) (hs : Continuous S) : (sphInt fun ω => (g ω - S ω) ^ 2) =
    (sphInt fun ω => g ω ^ 2) - 2 * sphInt (fun ω => g ω * S ω) + sphInt (fun ω => S ω * S ω) := by
  have h1 : Continuous fun ω => g ω ^ 2 := hg.pow 2
  have h2 : Continuous fun ω => 2 * (g ω * S ω) := continuous_const.mul (hg.mul hs)
  have h3 : Continuous fun ω => S ω * S ω := hs.mul hs
  have h4 : Continuous fun ω => g ω ^ 2 - 2 * (g ω * S ω) := h1.sub h2
  rw [← sphInt_const_mul_real, ← sphInt_sub h1 h2, ← sphInt_add h4 h3]
  congr 1
  funext ω
  ring

/-- Bessel's inequality. -/
theorem bessel_inequality (l : ℕ) (g : Point → ℝ) (hg : Continuous g) :
    ∑ mi ∈ Finset.range (2 * l + 1), sphInt (fun ω => g ω * rsh l ((mi : ℤ) - l) ω) ^ 2 ≤ sphInt fun ω => g ω ^ 2 := by
  set c : ℕ → ℝ := fun mi => sphInt (fun ω => g ω * rsh l ((mi : ℤ) - l) ω) with hc
  have hcont : ∀ mi : ℕ, Continuous fun ω => rsh l ((mi : ℤ) - l) ω := fun mi => continuous_rsh l _
  have hs : Continuous fun ω => ∑ mi ∈ Finset.range (2 * l + 1), c mi * rsh l ((mi : ℤ) - l) ω :=
    continuous_finsetSum _ fun mi _ => continuous_const.mul (hcont mi)
  have e1 : sphInt (fun ω => g ω * ∑ mi ∈ Finset.range (2 * l + 1), c mi * rsh l ((mi : ℤ) - l) ω) =
      ∑ mi ∈ Finset.range (2 * l + 1), c mi ^ 2 := by
    simp only [Finset.mul_sum]
    rw [sphInt_sum (f := fun mi ω => g ω * (c mi * rsh l ((mi : ℤ) - l) ω)) _ fun mi _ => hg.mul (continuous_const.mul (hcont mi))]
    refine Finset.sum_congr rfl fun mi _ => ?_
    rw [sq]
    conv_rhs => rw [hc]
    rw [← sphInt_const_mul_real]
    congr 1
    funext ω
    simp only [hc]
    ring
  have e2 : sphInt (fun ω => (∑ mi ∈ Finset.range (2 * l + 1), c mi * rsh l ((mi : ℤ) - l) ω) *
      ∑ mi ∈ Finset.range (2 * l + 1), c mi * rsh l ((mi : ℤ) - l) ω) = ∑ mi ∈ Finset.range (2 * l + 1), c mi ^ 2 := by
    simp only [Finset.sum_mul_sum]
    rw [sphInt_sum (f := fun mi ω => ∑ mj ∈ Finset.range (2 * l + 1), c mi * rsh l ((mi : ℤ) - l) ω * (c mj * rsh l ((mj : ℤ) - l) ω)) _
      fun mi _ => continuous_finsetSum _ fun mj _ => (continuous_const.mul (hcont mi)).mul (continuous_const.mul (hcont mj))]
    refine Finset.sum_congr rfl fun mi hmi => ?_
    rw [sphInt_sum (f := fun mj ω => c mi * rsh l ((mi : ℤ) - l) ω * (c mj * rsh l ((mj : ℤ) - l) ω)) _
      fun mj _ => (continuous_const.mul (hcont mi)).mul (continuous_const.mul (hcont mj))]
    rw [Finset.sum_eq_single mi]
    · have : (fun ω => c mi * rsh l ((mi : ℤ) - l) ω * (c mi * rsh l ((mi : ℤ) - l) ω)) =
          fun ω => c mi ^ 2 * (rsh l ((mi : ℤ) - l) ω * rsh l ((mi : ℤ) - l) ω) := by funext ω; ring
      rw [Finset.mem_range] at hmi
      rw [this, sphInt_const_mul_real, rsh_orthonormal' l l _ _ (by omega) (by omega), if_pos ⟨rfl, rfl⟩, mul_one]
    · intro mj hmj hne
      have : (fun ω => c mi * rsh l ((mi : ℤ) - l) ω * (c mj * rsh l ((mj : ℤ) - l) ω)) =
          fun ω => c mi * c mj * (rsh l ((mi : ℤ) - l) ω * rsh l ((mj : ℤ) - l) ω) := by funext ω; ring
      rw [Finset.mem_range] at hmi hmj
      rw [this, sphInt_const_mul_real, rsh_orthonormal' l l _ _ (by omega) (by omega), if_neg (by omega), mul_zero]
    · intro h
      exact absurd hmi h
  have h0 : 0 ≤ sphInt fun ω => (g ω - ∑ mi ∈ Finset.range (2 * l + 1), c mi * rsh l ((mi : ℤ) - l) ω) ^ 2 :=
    sphInt_nonneg fun ω _ => sq_nonneg _
  have e3 : (sphInt fun ω => (g ω - ∑ mi ∈ Finset.range (2 * l + 1), c mi * rsh l ((mi : ℤ) - l) ω) ^ 2) =
      (sphInt fun ω => g ω ^ 2) - 2 * (∑ mi ∈ Finset.range (2 * l + 1), c mi ^ 2) + ∑ mi ∈ Finset.range (2 * l + 1), c mi ^ 2 := by
    have e4 : (sphInt fun ω => g ω ^ 2) - 2 * (∑ mi ∈ Finset.range (2 * l + 1), c mi ^ 2) + ∑ mi ∈ Finset.range (2 * l + 1), c mi ^ 2 =
        (sphInt fun ω => g ω ^ 2) - 2 * sphInt (fun ω => g ω * ∑ mi ∈ Finset.range (2 * l + 1), c mi * rsh l ((mi : ℤ) - l) ω) +
        sphInt (fun ω => (∑ mi ∈ Finset.range (2 * l + 1), c mi * rsh l ((mi : ℤ) - l) ω) *
          ∑ mi ∈ Finset.range (2 * l + 1), c mi * rsh l ((mi : ℤ) - l) ω) := by rw [e1, e2]
    rw [e4]
    exact sphInt_square hg hs
  rw [e3] at h0
  linarith

/-- The integrals of a product of two harmonics and a monomial. -/
noncomputable def gaunt (L : ℕ) (m : ℤ) (lam : ℕ) (p : Comp) (mi : ℕ) : ℝ :=
  sphInt fun ω => rsh L m ω * (rsh lam ((mi : ℤ) - lam) ω * monoAt p ω)

theorem monoAt_sphere (p : Comp) (ω : Point) (hω : ∑ k, ω k ^ 2 = 1) : |monoAt p ω| ≤ 1 := by
  have h3 : ω 0 ^ 2 + ω 1 ^ 2 + ω 2 ^ 2 = 1 := by rw [← hω, Fin.sum_univ_three]
  have h : ∀ i, |ω i| ≤ 1 := by
    intro i
    rw [abs_le_one_iff_mul_self_le_one]
    fin_cases i <;> simp <;> nlinarith [sq_nonneg (ω 0), sq_nonneg (ω 1), sq_nonneg (ω 2)]
  unfold monoAt
  rw [abs_mul, abs_mul, abs_pow, abs_pow, abs_pow]
  exact mul_le_one₀ (mul_le_one₀ (pow_le_one₀ (abs_nonneg _) (h 0)) (by positivity) (pow_le_one₀ (abs_nonneg _) (h 1))) (by positivity)
    (pow_le_one₀ (abs_nonneg _) (h 2))

theorem gaunt_sq_le (L : ℕ) (m : ℤ) (hm : m.natAbs ≤ L) (lam : ℕ) (p : Comp) :
    ∑ mi ∈ Finset.range (2 * lam + 1), gaunt L m lam p mi ^ 2 ≤ 1 := by
  have hc : Continuous fun ω : Point => rsh L m ω * monoAt p ω := (continuous_rsh L m).mul (by unfold monoAt; fun_prop)
  have h := bessel_inequality lam _ hc
  have e : ∀ mi : ℕ, sphInt (fun ω => rsh L m ω * monoAt p ω * rsh lam ((mi : ℤ) - lam) ω) = gaunt L m lam p mi := by
    intro mi
    unfold gaunt
    congr 1
    funext ω
    ring
  simp only [e] at h
  refine h.trans ?_
  have h1 : sphInt (fun ω => rsh L m ω * rsh L m ω) = 1 := by
    rw [rsh_orthonormal' L L m m hm hm, if_pos ⟨rfl, rfl⟩]
  rw [← h1]
  refine sphInt_mono' (hc.pow 2) ((continuous_rsh L m).mul (continuous_rsh L m)) fun ω hω => ?_
  have h2 : monoAt p ω ^ 2 ≤ 1 := by
    rw [sq_le_one_iff_abs_le_one]
    exact monoAt_sphere p ω hω
  rw [mul_pow]
  nlinarith [sq_nonneg (rsh L m ω)]

/-- Cauchy-Schwarz with `gaunt`. -/
theorem gaunt_sum_le (L : ℕ) (m : ℤ) (hm : m.natAbs ≤ L) (lam : ℕ) (p : Comp) (d : ℕ → ℝ) (D : ℝ) (hD : 0 ≤ D)
    (hd : ∑ mi ∈ Finset.range (2 * lam + 1), d mi ^ 2 ≤ D ^ 2) :
    |∑ mi ∈ Finset.range (2 * lam + 1), gaunt L m lam p mi * d mi| ≤ D := by
  have h := Finset.sum_mul_sq_le_sq_mul_sq (Finset.range (2 * lam + 1)) (gaunt L m lam p) d
  have h1 := gaunt_sq_le L m hm lam p
  refine abs_le_of_sq_le_sq (h.trans ?_) hD
  calc _ ≤ 1 * D ^ 2 := mul_le_mul h1 hd (Finset.sum_nonneg fun _ _ => sq_nonneg _) zero_le_one
    _ = D ^ 2 := one_mul _

/-- The type-2 angular integral for the direction of `k`. -/
noncomputable def angOmega2 (L : ℕ) (m : ℤ) (lam : ℕ) (p : Comp) (k : Point) : ℝ :=
  ∑ mi ∈ Finset.range (2 * lam + 1), gaunt L m lam p mi * rshDir lam ((mi : ℤ) - lam) k

/-- The same without the values of harmonics that are below the threshold, as the code computes it. -/
noncomputable def angOmega2Code (L : ℕ) (m : ℤ) (lam : ℕ) (p : Comp) (k : Point) : ℝ :=
  ∑ mi ∈ Finset.range (2 * lam + 1), gaunt L m lam p mi * dropSmall (rshDir lam ((mi : ℤ) - lam) k)

theorem dropSmall_sq (x : ℝ) : dropSmall x ^ 2 ≤ x ^ 2 := by
  unfold dropSmall
  split_ifs
  · simpa using sq_nonneg x
  · exact le_rfl

theorem dropSmall_diff (x : ℝ) : (dropSmall x - x) ^ 2 ≤ (1e-14 : ℝ) ^ 2 := by
  unfold dropSmall
  split_ifs with h
  · rw [zero_sub, neg_sq]
    have h2 : |x| < 1e-14 := by
      unfold zeroThresh at h
      exact h
    exact sq_le_sq' (by linarith [abs_lt.1 h2]) (abs_lt.1 h2).2.le
  · norm_num

theorem lam_const {lam : ℕ} (hlam : lam ≤ 14) : (2 * (lam : ℝ) + 1) / (4 * Real.pi) ≤ 1.52 ^ 2 := by
  have hp := Real.pi_gt_d2
  have h : (lam : ℝ) ≤ 14 := by exact_mod_cast hlam
  rw [div_le_iff₀ (by linarith)]
  nlinarith

theorem angOmega2_le (L : ℕ) (m : ℤ) (hm : m.natAbs ≤ L) {lam : ℕ} (hlam : lam ≤ 14) (p : Comp) (k : Point) :
    |angOmega2 L m lam p k| ≤ 1.52 :=
  gaunt_sum_le L m hm lam p _ _ (by norm_num) ((rshDir_sq_le lam k).trans (lam_const hlam))

theorem angOmega2Code_le (L : ℕ) (m : ℤ) (hm : m.natAbs ≤ L) {lam : ℕ} (hlam : lam ≤ 14) (p : Comp) (k : Point) :
    |angOmega2Code L m lam p k| ≤ 1.52 :=
  gaunt_sum_le L m hm lam p _ _ (by norm_num)
    ((Finset.sum_le_sum fun mi _ => dropSmall_sq _).trans ((rshDir_sq_le lam k).trans (lam_const hlam)))

theorem angOmega2_diff (L : ℕ) (m : ℤ) (hm : m.natAbs ≤ L) {lam : ℕ} (hlam : lam ≤ 14) (p : Comp) (k : Point) :
    |angOmega2Code L m lam p k - angOmega2 L m lam p k| ≤ 5.4e-14 := by
  unfold angOmega2Code angOmega2
  rw [← Finset.sum_sub_distrib]
  simp only [← mul_sub]
  refine gaunt_sum_le L m hm lam p _ _ (by norm_num) ?_
  refine (Finset.sum_le_sum fun mi _ => dropSmall_diff _).trans ?_
  rw [Finset.sum_const, Finset.card_range, nsmul_eq_mul]
  have h : (lam : ℝ) ≤ 14 := by exact_mod_cast hlam
  push_cast
  nlinarith

/-- The angular integral vanishes unless the triangle and parity conditions hold. -/
theorem gaunt_zero (L : ℕ) (m : ℤ) (hm : m.natAbs ≤ L) (lam : ℕ) (p : Comp) (mi : ℕ) (hmi : mi < 2 * lam + 1)
    (h : lam + (p.1 + p.2.1 + p.2.2) < L ∨ (L + (p.1 + p.2.1 + p.2.2) + lam) % 2 = 1) : gaunt L m lam p mi = 0 := by
  rcases h with h | h
  · have hs : RSpanned (lam + (p.1 + p.2.1 + p.2.2)) fun ω => rsh lam ((mi : ℤ) - lam) ω * monoAt p ω :=
      rspanned_rsh_monomial lam _ (by omega) _ _ _
    obtain ⟨c, hc⟩ := hs
    have := Spanned.coeff hc L m hm
    rw [if_neg (by omega)] at this
    unfold gaunt
    have e : ((sphInt fun ω => rsh L m ω * (rsh lam ((mi : ℤ) - lam) ω * monoAt p ω) : ℝ) : ℂ) = 0 := by
      rw [← sphInt_ofReal, ← this]
      congr 1
      funext ω
      push_cast
      ring
    exact_mod_cast e
  · have e := cartSum_double lam L ((mi : ℤ) - lam) m (by omega) hm p.1 p.2.1 p.2.2
    unfold gaunt monoAt
    refine e.symm.trans ?_
    rw [cartSum_congr L (g := fun _ _ _ => 0) fun u v w huvw => ?_]
    · simp [cartSum]
    · rw [cartSum_congr lam (g := fun _ _ _ => 0) fun r s t hrst => ?_]
      · simp [cartSum]
      · rw [monoInt_eq, if_neg (by omega), mul_zero]

end Libgrpp
