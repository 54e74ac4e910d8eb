import Verif.Lemmas.Harmonic

/-! Real spherical harmonics: relation with the generating function, orthonormality. -/

namespace Libgrpp

open MeasureTheory Set Polynomial
open scoped Nat ComplexConjugate

theorem legendreDeriv_eval (l m : ℕ) (hm : m ≤ l) (z : ℝ) : (legendreDeriv l m).eval z =
    ∑ i ∈ Finset.range ((l - m) / 2 + 1), 1 / (2 ^ l * (l ! : ℝ)) * ((-1) ^ i * (l.choose i : ℝ) *
      (((2 * l - 2 * i)! : ℝ) / ((l - m - 2 * i)! : ℝ)) * z ^ (l - m - 2 * i)) := by
  have h1 : (X ^ 2 - 1 : ℝ[X]) ^ l = ∑ i ∈ Finset.range (l + 1), C ((-1) ^ i * (l.choose i : ℝ)) * X ^ (2 * l - 2 * i) := by
    rw [sub_eq_add_neg, add_comm, add_pow]
    refine Finset.sum_congr rfl fun i hi => ?_
    rw [← pow_mul, Nat.mul_sub]
    simp only [map_mul, map_pow, map_neg, map_one, map_natCast]
    ring
  rw [legendreDeriv, h1, iterate_derivative_sum, eval_mul, eval_C, eval_finsetSum, Finset.mul_sum]
  symm
  have hs : ∀ i, i < (l - m) / 2 + 1 → (derivative^[l + m] (C ((-1) ^ i * (l.choose i : ℝ)) * X ^ (2 * l - 2 * i))).eval z =
      (-1) ^ i * (l.choose i : ℝ) * (((2 * l - 2 * i)! : ℝ) / ((l - m - 2 * i)! : ℝ)) * z ^ (l - m - 2 * i) := by
    intro i hi
    rw [iterate_derivative_C_mul, iterate_derivative_X_pow_eq_natCast_mul]
    simp only [eval_mul, eval_C, eval_pow, eval_X, eval_natCast]
    rw [show 2 * l - 2 * i - (l + m) = l - m - 2 * i by omega]
    have := Nat.factorial_mul_descFactorial (n := 2 * l - 2 * i) (k := l + m) (by omega)
    rw [show 2 * l - 2 * i - (l + m) = l - m - 2 * i by omega] at this
    have h0 : ((l - m - 2 * i)! : ℝ) ≠ 0 := by exact_mod_cast (Nat.factorial_pos _).ne'
    have h2 : ((2 * l - 2 * i).descFactorial (l + m) : ℝ) = ((2 * l - 2 * i)! : ℝ) / ((l - m - 2 * i)! : ℝ) := by
      rw [eq_div_iff h0, mul_comm]
      exact_mod_cast this
    rw [h2]
    ring
  refine Eq.trans (Finset.sum_congr rfl fun i hi => ?_) (Finset.sum_subset (s₂ := Finset.range (l + 1)) ?_ ?_)
  · rw [hs i (Finset.mem_range.1 hi)]
  · intro i hi
    simp only [Finset.mem_range] at hi ⊢
    omega
  · intro i hi' hi
    simp only [Finset.mem_range] at hi hi'
    rw [iterate_derivative_C_mul, iterate_derivative_X_pow_eq_natCast_mul, Nat.descFactorial_eq_zero_iff_lt.2 (by omega)]
    simp

/-- `harm` at a complex vector. -/
noncomputable def harmV (l j : ℕ) (k : Fin 3 → ℂ) : ℂ := harm l j (k 0 + Complex.I * k 1) (k 0 - Complex.I * k 1) (k 2)

/-- `harm` at the conjugate. -/
noncomputable def harmW (l j : ℕ) (k : Fin 3 → ℂ) : ℂ := harm l j (k 0 - Complex.I * k 1) (k 0 + Complex.I * k 1) (k 2)

/-- The null vector `(1-t², i(1+t²), 2t)`. -/
noncomputable def nullV (t : ℂ) : Fin 3 → ℂ := ![1 - t ^ 2, Complex.I * (1 + t ^ 2), 2 * t]

/-- The null vector `(1-t², -i(1+t²), 2t)`. -/
noncomputable def nullW (t : ℂ) : Fin 3 → ℂ := ![1 - t ^ 2, -(Complex.I * (1 + t ^ 2)), 2 * t]

theorem cdot_nullV (t : ℂ) (k : Fin 3 → ℂ) : cdot (nullV t) k = (k 0 + Complex.I * k 1) + 2 * k 2 * t - (k 0 - Complex.I * k 1) * t ^ 2 := by
  simp [cdot, nullV, Fin.sum_univ_three]
  ring

theorem cdot_nullW (t : ℂ) (k : Fin 3 → ℂ) : cdot (nullW t) k = (k 0 - Complex.I * k 1) + 2 * k 2 * t - (k 0 + Complex.I * k 1) * t ^ 2 := by
  simp [cdot, nullW, Fin.sum_univ_three]
  ring

theorem cdot_nullV_nullV (t s : ℂ) : cdot (nullV t) (nullV s) = -2 * (t - s) ^ 2 := by
  rw [cdot_nullV]
  simp only [nullV, Matrix.cons_val_zero, Matrix.cons_val_one, Matrix.cons_val]
  linear_combination (1 + t ^ 2) * (1 + s ^ 2) * Complex.I_sq

theorem cdot_nullV_nullW (t s : ℂ) : cdot (nullV t) (nullW s) = 2 * (1 + t * s) ^ 2 := by
  rw [cdot_nullV]
  simp only [nullW, Matrix.cons_val_zero, Matrix.cons_val_one, Matrix.cons_val]
  linear_combination -(1 + t ^ 2) * (1 + s ^ 2) * Complex.I_sq

theorem cdot_nullW_nullW (t s : ℂ) : cdot (nullW t) (nullW s) = -2 * (t - s) ^ 2 := by
  rw [cdot_nullW]
  simp only [nullW, Matrix.cons_val_zero, Matrix.cons_val_one, Matrix.cons_val]
  linear_combination (1 + t ^ 2) * (1 + s ^ 2) * Complex.I_sq

theorem nullV_null (t : ℂ) : cdot (nullV t) (nullV t) = 0 := by rw [cdot_nullV_nullV]; ring
theorem nullW_null (t : ℂ) : cdot (nullW t) (nullW t) = 0 := by rw [cdot_nullW_nullW]; ring

theorem harmV_sum (l : ℕ) (t : ℂ) (k : Fin 3 → ℂ) : cdot (nullV t) k ^ l = ∑ j ∈ Finset.range (2 * l + 1), harmV l j k * t ^ j := by
  rw [cdot_nullV, harm_sum]
  rfl

theorem harmW_sum (l : ℕ) (t : ℂ) (k : Fin 3 → ℂ) : cdot (nullW t) k ^ l = ∑ j ∈ Finset.range (2 * l + 1), harmW l j k * t ^ j := by
  rw [cdot_nullW, harm_sum]
  rfl

theorem continuous_harm (l j : ℕ) {u v z : Point → ℂ} (hu : Continuous u) (hv : Continuous v) (hz : Continuous z) :
    Continuous fun ω => harm l j (u ω) (v ω) (z ω) := by
  unfold harm
  induction l generalizing j with
  | zero => simp only [pow_zero]; exact continuous_const
  | succ l ih =>
    simp only [pow_succ, coeff_mul]
    refine continuous_finsetSum _ fun x _ => (ih x.1).mul ?_
    unfold genPoly
    simp only [coeff_sub, coeff_add, coeff_C_mul, coeff_C, coeff_X, coeff_X_pow]
    split_ifs <;> fun_prop

theorem continuous_harmV (l j : ℕ) : Continuous fun ω : Point => harmV l j fun i => (ω i : ℂ) :=
  continuous_harm l j (by fun_prop) (by fun_prop) (by fun_prop)

theorem continuous_harmW (l j : ℕ) : Continuous fun ω : Point => harmW l j fun i => (ω i : ℂ) :=
  continuous_harm l j (by fun_prop) (by fun_prop) (by fun_prop)

/-- From an identity for all null vectors of the family to its coefficients. -/
theorem harmV_integral (l : ℕ) (g : Point → ℂ) (hg : Continuous g) (c : ℕ → ℂ)
    (h : ∀ t : ℂ, sphInt (fun ω : Point => cdot (nullV t) (fun i => ω i) ^ l * g ω) = ∑ j ∈ Finset.range (2 * l + 1), c j * t ^ j) :
    ∀ j ≤ 2 * l, sphInt (fun ω : Point => harmV l j (fun i => ω i) * g ω) = c j := by
  intro j hj
  refine poly_coeff_ext (N := 2 * l + 1) (f := fun j => sphInt (fun ω : Point => harmV l j (fun i => ω i) * g ω)) (g := c) ?_ j (by omega)
  intro t
  rw [← h t]
  have e : ∀ ω : Point, cdot (nullV t) (fun i => ω i) ^ l * g ω =
      ∑ j ∈ Finset.range (2 * l + 1), t ^ j * (harmV l j (fun i => ω i) * g ω) := by
    intro ω
    rw [harmV_sum, Finset.sum_mul]
    exact Finset.sum_congr rfl fun j _ => by ring
  simp only [e]
  rw [sphInt_sum (f := fun j (ω : Point) => t ^ j * (harmV l j (fun i => ω i) * g ω)) _
    fun j _ => continuous_const.mul ((continuous_harmV l j).mul hg)]
  refine Finset.sum_congr rfl fun j _ => ?_
  rw [sphInt_const_mul]
  ring

theorem harmW_integral (l : ℕ) (g : Point → ℂ) (hg : Continuous g) (c : ℕ → ℂ)
    (h : ∀ t : ℂ, sphInt (fun ω : Point => cdot (nullW t) (fun i => ω i) ^ l * g ω) = ∑ j ∈ Finset.range (2 * l + 1), c j * t ^ j) :
    ∀ j ≤ 2 * l, sphInt (fun ω : Point => harmW l j (fun i => ω i) * g ω) = c j := by
  intro j hj
  refine poly_coeff_ext (N := 2 * l + 1) (f := fun j => sphInt (fun ω : Point => harmW l j (fun i => ω i) * g ω)) (g := c) ?_ j (by omega)
  intro t
  rw [← h t]
  have e : ∀ ω : Point, cdot (nullW t) (fun i => ω i) ^ l * g ω =
      ∑ j ∈ Finset.range (2 * l + 1), t ^ j * (harmW l j (fun i => ω i) * g ω) := by
    intro ω
    rw [harmW_sum, Finset.sum_mul]
    exact Finset.sum_congr rfl fun j _ => by ring
  simp only [e]
  rw [sphInt_sum (f := fun j (ω : Point) => t ^ j * (harmW l j (fun i => ω i) * g ω)) _
    fun j _ => continuous_const.mul ((continuous_harmW l j).mul hg)]
  refine Finset.sum_congr rfl fun j _ => ?_
  rw [sphInt_const_mul]
  ring

theorem continuous_cdot (k : Fin 3 → ℂ) : Continuous fun ω : Point => cdot k fun i => (ω i : ℂ) := by
  unfold cdot
  fun_prop

/-- Integral of a solid harmonic times a power of a linear form. -/
theorem harmV_moment (l i : ℕ) (k : Fin 3 → ℂ) (j : ℕ) (hj : j ≤ 2 * l) :
    sphInt (fun ω : Point => harmV l j (fun i => ω i) * (cdot k fun i => ω i) ^ (l + 2 * i)) = nullC l i * harmV l j k * cdot k k ^ i := by
  refine harmV_integral l (fun ω => (cdot k fun i => ω i) ^ (l + 2 * i)) ((continuous_cdot k).pow _)
    (fun j => nullC l i * harmV l j k * cdot k k ^ i) ?_ j hj
  intro t
  rw [sph_null_even _ _ (nullV_null t), harmV_sum, Finset.mul_sum, Finset.sum_mul]
  exact Finset.sum_congr rfl fun j _ => by ring

theorem harmV_moment_zero (l n : ℕ) (h : ¬ Even (n + l) ∨ n < l) (k : Fin 3 → ℂ) (j : ℕ) (hj : j ≤ 2 * l) :
    sphInt (fun ω : Point => harmV l j (fun i => ω i) * (cdot k fun i => ω i) ^ n) = 0 := by
  refine harmV_integral l (fun ω => (cdot k fun i => ω i) ^ n) ((continuous_cdot k).pow _) (fun _ => 0) ?_ j hj
  intro t
  rcases h with h | h
  · rw [sph_null_odd _ _ (nullV_null t) _ _ h]
    simp
  · rw [sph_null_lt _ _ (nullV_null t) _ _ h]
    simp

theorem sph_null_ne (a b : Fin 3 → ℂ) (ha : cdot a a = 0) (hb : cdot b b = 0) (l n : ℕ) (h : l ≠ n) :
    sphInt (fun ω : Point => (cdot a fun i => ω i) ^ l * (cdot b fun i => ω i) ^ n) = 0 := by
  by_cases hev : Even (n + l)
  · rcases Nat.lt_or_gt_of_ne h with h' | h'
    · obtain ⟨j, hj⟩ : ∃ j, n = l + 2 * (j + 1) := by
        obtain ⟨r, hr⟩ := hev
        exact ⟨r - l - 1, by omega⟩
      rw [hj, sph_null_even a b ha, hb]
      simp
    · exact sph_null_lt a b ha l n h'
  · exact sph_null_odd a b ha l n hev

theorem harmVV_ne (l n : ℕ) (h : l ≠ n) (j j' : ℕ) (hj : j ≤ 2 * l) (hj' : j' ≤ 2 * n) :
    sphInt (fun ω : Point => harmV l j (fun i => ω i) * harmV n j' (fun i => ω i)) = 0 := by
  refine harmV_integral l (fun ω => harmV n j' (fun i => ω i)) (continuous_harmV n j') (fun _ => 0) (fun t => ?_) j hj
  simp only [zero_mul, Finset.sum_const_zero]
  have := harmV_integral n (fun ω => cdot (nullV t) (fun i => ω i) ^ l) ((continuous_cdot _).pow _) (fun _ => 0) (fun s => ?_) j' hj'
  · rw [← this]
    congr 1
    funext ω
    ring
  · rw [sph_null_ne _ _ (nullV_null s) (nullV_null t) _ _ h.symm]
    simp

theorem harmVW_ne (l n : ℕ) (h : l ≠ n) (j j' : ℕ) (hj : j ≤ 2 * l) (hj' : j' ≤ 2 * n) :
    sphInt (fun ω : Point => harmV l j (fun i => ω i) * harmW n j' (fun i => ω i)) = 0 := by
  refine harmV_integral l (fun ω => harmW n j' (fun i => ω i)) (continuous_harmW n j') (fun _ => 0) (fun t => ?_) j hj
  simp only [zero_mul, Finset.sum_const_zero]
  have := harmW_integral n (fun ω => cdot (nullV t) (fun i => ω i) ^ l) ((continuous_cdot _).pow _) (fun _ => 0) (fun s => ?_) j' hj'
  · rw [← this]
    congr 1
    funext ω
    ring
  · rw [sph_null_ne _ _ (nullW_null s) (nullV_null t) _ _ h.symm]
    simp

theorem cdot_comm (a b : Fin 3 → ℂ) : cdot a b = cdot b a := Finset.sum_congr rfl fun _ _ => mul_comm _ _

theorem harmVV (l j j' : ℕ) (hj : j ≤ 2 * l) (hj' : j' ≤ 2 * l) :
    sphInt (fun ω : Point => harmV l j (fun i => ω i) * harmV l j' (fun i => ω i)) =
      if j + j' = 2 * l then nullC l 0 * (-2) ^ l * (-1) ^ j' * ((2 * l).choose j) else 0 := by
  refine harmV_integral l (fun ω => harmV l j' (fun i => ω i)) (continuous_harmV l j')
    (fun j => if j + j' = 2 * l then nullC l 0 * (-2) ^ l * (-1) ^ j' * ((2 * l).choose j) else 0) (fun t => ?_) j hj
  have h2 := harmV_integral l (fun ω => cdot (nullV t) (fun i => ω i) ^ l) ((continuous_cdot _).pow _)
    (fun j' => nullC l 0 * (-2) ^ l * ((-1) ^ j' * t ^ (2 * l - j') * ((2 * l).choose j'))) (fun s => ?_) j' hj'
  · have e : (fun ω : Point => cdot (nullV t) (fun i => ω i) ^ l * harmV l j' (fun i => ω i)) =
        fun ω : Point => harmV l j' (fun i => ω i) * cdot (nullV t) (fun i => ω i) ^ l := by
      funext ω
      ring
    rw [e, h2, Finset.sum_eq_single (2 * l - j')]
    · rw [if_pos (by omega), Nat.choose_symm hj']
      ring
    · intro i _ hi
      rw [if_neg (by omega), zero_mul]
    · intro hi
      simp only [Finset.mem_range] at hi
      omega
  · have := sph_null_even (nullV s) (nullV t) (nullV_null s) l 0
    simp only [mul_zero, add_zero, pow_zero, mul_one] at this
    rw [this, cdot_nullV_nullV, mul_pow, ← pow_mul, sub_eq_add_neg, add_pow, Finset.mul_sum, Finset.mul_sum]
    refine Finset.sum_congr rfl fun i hi => ?_
    simp only [Finset.mem_range] at hi
    have hsgn : (-1 : ℂ) ^ (2 * l - i) = (-1) ^ i := by
      rcases Nat.even_or_odd i with h | h
      · rw [h.neg_one_pow, Even.neg_one_pow]
        obtain ⟨r, hr⟩ := h
        exact ⟨l - r, by omega⟩
      · rw [h.neg_one_pow, Odd.neg_one_pow]
        obtain ⟨r, hr⟩ := h
        exact ⟨l - r - 1, by omega⟩
    rw [neg_pow t, hsgn]
    ring

theorem harmVW (l j j' : ℕ) (hj : j ≤ 2 * l) (hj' : j' ≤ 2 * l) :
    sphInt (fun ω : Point => harmV l j (fun i => ω i) * harmW l j' (fun i => ω i)) =
      if j = j' then nullC l 0 * 2 ^ l * ((2 * l).choose j) else 0 := by
  refine harmV_integral l (fun ω => harmW l j' (fun i => ω i)) (continuous_harmW l j')
    (fun j => if j = j' then nullC l 0 * 2 ^ l * ((2 * l).choose j) else 0) (fun t => ?_) j hj
  have h2 := harmW_integral l (fun ω => cdot (nullV t) (fun i => ω i) ^ l) ((continuous_cdot _).pow _)
    (fun j' => nullC l 0 * 2 ^ l * (t ^ j' * ((2 * l).choose j'))) (fun s => ?_) j' hj'
  · have e : (fun ω : Point => cdot (nullV t) (fun i => ω i) ^ l * harmW l j' (fun i => ω i)) =
        fun ω : Point => harmW l j' (fun i => ω i) * cdot (nullV t) (fun i => ω i) ^ l := by
      funext ω
      ring
    rw [e, h2, Finset.sum_eq_single j']
    · rw [if_pos rfl]
      ring
    · intro i _ hi
      rw [if_neg hi, zero_mul]
    · intro hi
      simp only [Finset.mem_range] at hi
      omega
  · have := sph_null_even (nullW s) (nullV t) (nullW_null s) l 0
    simp only [mul_zero, add_zero, pow_zero, mul_one] at this
    rw [this, cdot_comm, cdot_nullV_nullW, mul_pow, ← pow_mul, add_comm (1 : ℂ), add_pow, Finset.mul_sum, Finset.mul_sum]
    refine Finset.sum_congr rfl fun i hi => ?_
    rw [one_pow, mul_pow]
    ring

/-- `(x + iy)` -/
noncomputable def uC (ω : Point) : ℂ := ⟨ω 0, ω 1⟩

theorem uC_eq (ω : Point) : uC ω = ω 0 + Complex.I * ω 1 := by
  apply Complex.ext <;> simp [uC]

theorem conj_uC (ω : Point) : conj (uC ω) = ω 0 - Complex.I * ω 1 := by
  apply Complex.ext <;> simp [uC]

/-- The complex function with real part `S_lm` and imaginary part `S_l,-m`. -/
noncomputable def rshC (l m : ℕ) (ω : Point) : ℂ := (rshNorm l m * (legendreDeriv l m).eval (ω 2) : ℝ) * uC ω ^ m

/-- `2^l l! / (l+m)!` -/
noncomputable def kap (l m : ℕ) : ℝ := 2 ^ l * (l ! : ℝ) / ((l + m)! : ℝ)

theorem kap_pos (l m : ℕ) : 0 < kap l m := by
  unfold kap
  positivity

theorem conj_harm (l j : ℕ) (u v z : ℂ) : conj (harm l j u v z) = harm l j (conj u) (conj v) (conj z) :=
  harm_map (starRingEnd ℂ) l j u v z

theorem harmW_eq_conj (l j : ℕ) (ω : Point) : harmW l j (fun i => ω i) = conj (harmV l j fun i => ω i) := by
  rw [harmV, harmW, conj_harm]
  simp [sub_eq_add_neg]

theorem harmV_eq (l m : ℕ) (hm : m ≤ l) (ω : Point) (hω : ∑ k, ω k ^ 2 = 1) :
    harmV l (l - m) (fun i => ω i) = (kap l m : ℂ) * ((legendreDeriv l m).eval (ω 2) : ℝ) * uC ω ^ m := by
  have h1 : (ω 0 + Complex.I * ω 1 : ℂ) * (ω 0 - Complex.I * ω 1) + (ω 2 : ℂ) ^ 2 = 1 := by
    rw [Fin.sum_univ_three] at hω
    have : ((ω 0 : ℂ) ^ 2 + (ω 1 : ℂ) ^ 2 + (ω 2 : ℂ) ^ 2) = 1 := by exact_mod_cast hω
    linear_combination this - (ω 1 : ℂ) ^ 2 * Complex.I_sq
  rw [harmV, harm_eq_solid _ _ _ _ _ hm, solid, legendreDeriv_eval l m hm]
  simp only [h1, one_pow, mul_one]
  rw [uC_eq, mul_comm (_ ^ m)]
  congr 1
  rw [Complex.ofReal_sum, Finset.mul_sum]
  refine Finset.sum_congr rfl fun i hi => ?_
  simp only [Finset.mem_range] at hi
  have hc := Nat.choose_eq_factorial_div_factorial (n := 2 * l - 2 * i) (k := l - m - 2 * i) (by omega)
  have hc' := Nat.choose_mul_factorial_mul_factorial (n := 2 * l - 2 * i) (k := l - m - 2 * i) (by omega)
  rw [show 2 * l - 2 * i - (l - m - 2 * i) = l + m by omega] at hc'
  have hc'' : ((2 * l - 2 * i).choose (l - m - 2 * i) : ℂ) * ((l - m - 2 * i)! : ℂ) * ((l + m)! : ℂ) = ((2 * l - 2 * i)! : ℂ) := by
    exact_mod_cast hc'
  have n1 : ((l - m - 2 * i)! : ℂ) ≠ 0 := by exact_mod_cast (Nat.factorial_pos _).ne'
  have n2 : ((l + m)! : ℂ) ≠ 0 := by exact_mod_cast (Nat.factorial_pos _).ne'
  have n3 : (l ! : ℂ) ≠ 0 := by exact_mod_cast (Nat.factorial_pos _).ne'
  unfold kap
  push_cast
  rw [← hc'']
  field_simp

theorem rshC_eq (l m : ℕ) (hm : m ≤ l) (ω : Point) (hω : ∑ k, ω k ^ 2 = 1) :
    rshC l m ω = ((rshNorm l m / kap l m : ℝ) : ℂ) * harmV l (l - m) (fun i => ω i) := by
  have hk : (kap l m : ℂ) ≠ 0 := by exact_mod_cast (kap_pos l m).ne'
  rw [harmV_eq l m hm ω hω, rshC]
  push_cast
  field_simp

theorem conj_rshC_eq (l m : ℕ) (hm : m ≤ l) (ω : Point) (hω : ∑ k, ω k ^ 2 = 1) :
    conj (rshC l m ω) = ((rshNorm l m / kap l m : ℝ) : ℂ) * harmW l (l - m) (fun i => ω i) := by
  rw [rshC_eq l m hm ω hω, map_mul, Complex.conj_ofReal, harmW_eq_conj]

theorem continuous_uC : Continuous uC := by
  have : uC = fun ω : Point => (ω 0 + Complex.I * ω 1 : ℂ) := funext uC_eq
  rw [this]
  fun_prop

theorem continuous_rshC (l m : ℕ) : Continuous (rshC l m) := by
  unfold rshC
  have h1 := continuous_uC
  have h2 : Continuous fun ω : Point => (legendreDeriv l m).eval (ω 2) := (legendreDeriv l m).continuous.comp (continuous_apply 2)
  fun_prop

theorem rshC_re (l m : ℕ) (ω : Point) : (rshC l m ω).re = rsh l m ω := by
  simp [rshC, rsh, uC]

theorem rshC_im (l m : ℕ) (hm : 0 < m) (ω : Point) : (rshC l m ω).im = rsh l (-(m : ℤ)) ω := by
  rw [rsh, if_neg (by omega)]
  simp [rshC, uC]

theorem rshNorm_sq (l m : ℕ) (hm : m ≤ l) : (rshNorm l m / kap l m) ^ 2 *
    (4 * Real.pi / (2 * l + 1) * 2 ^ l / ((2 * l).choose l : ℝ) * 2 ^ l * ((2 * l).choose (l - m) : ℝ)) = if m = 0 then 1 else 2 := by
  have n1 : ((l - m)! : ℝ) ≠ 0 := by exact_mod_cast (Nat.factorial_pos _).ne'
  have n2 : ((l + m)! : ℝ) ≠ 0 := by exact_mod_cast (Nat.factorial_pos _).ne'
  have n3 : (l ! : ℝ) ≠ 0 := by exact_mod_cast (Nat.factorial_pos _).ne'
  have n4 : ((2 * l)! : ℝ) ≠ 0 := by exact_mod_cast (Nat.factorial_pos _).ne'
  have n5 : ((2 * l).choose l : ℝ) ≠ 0 := by exact_mod_cast (Nat.choose_pos (by omega)).ne'
  have hpi := Real.pi_ne_zero
  have c1 : ((2 * l).choose l : ℝ) * (l ! : ℝ) * (l ! : ℝ) = ((2 * l)! : ℝ) := by
    have := Nat.choose_mul_factorial_mul_factorial (n := 2 * l) (k := l) (by omega)
    rw [show 2 * l - l = l by omega] at this
    exact_mod_cast this
  have c2 : ((2 * l).choose (l - m) : ℝ) * ((l - m)! : ℝ) * ((l + m)! : ℝ) = ((2 * l)! : ℝ) := by
    have := Nat.choose_mul_factorial_mul_factorial (n := 2 * l) (k := l - m) (by omega)
    rw [show 2 * l - (l - m) = l + m by omega] at this
    exact_mod_cast this
  have e1 : ((2 * l).choose l : ℝ) = ((2 * l)! : ℝ) / ((l ! : ℝ) * (l ! : ℝ)) := by
    rw [eq_div_iff (by positivity)]
    linarith
  have e2 : ((2 * l).choose (l - m) : ℝ) = ((2 * l)! : ℝ) / (((l - m)! : ℝ) * ((l + m)! : ℝ)) := by
    rw [eq_div_iff (by positivity)]
    linarith
  have hs : Real.sqrt ((2 * l + 1) / (2 * Real.pi) * (((l - m)! : ℝ) / ((l + m)! : ℝ))) ^ 2 =
      (2 * l + 1) / (2 * Real.pi) * (((l - m)! : ℝ) / ((l + m)! : ℝ)) := Real.sq_sqrt (by positivity)
  rw [rshNorm, div_pow, mul_pow, hs, e1, e2, kap]
  split_ifs with h
  · subst h
    have h2 : Real.sqrt 2 ^ 2 = 2 := Real.sq_sqrt (by norm_num)
    rw [div_pow, h2]
    simp only [Nat.sub_zero, add_zero]
    field_simp
    ring
  · field_simp
    ring

theorem nullC_zero (l : ℕ) : nullC l 0 = ((4 * Real.pi / (2 * l + 1) * 2 ^ l / ((2 * l).choose l : ℝ) : ℝ) : ℂ) := by
  unfold nullC
  push_cast
  simp

theorem rshC_int (l m l' m' : ℕ) (hm : m ≤ l) (hm' : m' ≤ l') :
    sphInt (fun ω => rshC l m ω * rshC l' m' ω) = if l = l' ∧ m = 0 ∧ m' = 0 then 1 else 0 := by
  have h : sphInt (fun ω => rshC l m ω * rshC l' m' ω) = ((rshNorm l m / kap l m : ℝ) * (rshNorm l' m' / kap l' m' : ℝ) : ℂ) *
      sphInt (fun ω : Point => harmV l (l - m) (fun i => ω i) * harmV l' (l' - m') (fun i => ω i)) := by
    rw [← sphInt_const_mul]
    apply sphInt_congr
    intro ω hω
    rw [rshC_eq l m hm ω hω, rshC_eq l' m' hm' ω hω]
    ring
  rw [h]
  by_cases hl : l = l'
  · subst hl
    rw [harmVV l _ _ (by omega) (by omega)]
    by_cases h0 : m = 0 ∧ m' = 0
    · obtain ⟨rfl, rfl⟩ := h0
      rw [if_pos (by omega), if_pos (by simp)]
      have hn := rshNorm_sq l 0 (by omega)
      rw [if_pos rfl] at hn
      have hsg : ((-2 : ℂ)) ^ l * (-1) ^ (l - 0) = 2 ^ l := by
        rw [Nat.sub_zero, ← mul_pow]
        norm_num
      have hn' := congrArg (fun x : ℝ => (x : ℂ)) hn
      rw [nullC_zero]
      push_cast at hn' ⊢
      linear_combination hn' + ((rshNorm l 0 : ℂ) / (kap l 0 : ℂ)) ^ 2 * (4 * (Real.pi : ℂ) / (2 * l + 1) * 2 ^ l / ((2 * l).choose l : ℂ)) *
        ((2 * l).choose (l - 0) : ℂ) * hsg
    · rw [if_neg (by omega), if_neg (by tauto), mul_zero]
  · rw [harmVV_ne l l' hl _ _ (by omega) (by omega), if_neg (by tauto), mul_zero]

theorem rshC_conj_int (l m l' m' : ℕ) (hm : m ≤ l) (hm' : m' ≤ l') :
    sphInt (fun ω => rshC l m ω * conj (rshC l' m' ω)) = if l = l' ∧ m = m' then (if m = 0 then 1 else 2) else 0 := by
  have h : sphInt (fun ω => rshC l m ω * conj (rshC l' m' ω)) = ((rshNorm l m / kap l m : ℝ) * (rshNorm l' m' / kap l' m' : ℝ) : ℂ) *
      sphInt (fun ω : Point => harmV l (l - m) (fun i => ω i) * harmW l' (l' - m') (fun i => ω i)) := by
    rw [← sphInt_const_mul]
    apply sphInt_congr
    intro ω hω
    rw [rshC_eq l m hm ω hω, conj_rshC_eq l' m' hm' ω hω]
    ring
  rw [h]
  by_cases hl : l = l'
  · subst hl
    rw [harmVW l _ _ (by omega) (by omega)]
    by_cases h0 : m = m'
    · subst h0
      rw [if_pos rfl, if_pos ⟨rfl, rfl⟩]
      have hn := rshNorm_sq l m hm
      have hn' := congrArg (fun x : ℝ => (x : ℂ)) hn
      rw [nullC_zero]
      simp only [apply_ite Complex.ofReal] at hn'
      push_cast at hn' ⊢
      rw [← hn']
      ring
    · rw [if_neg (by omega), if_neg (by tauto), mul_zero]
  · rw [harmVW_ne l l' hl _ _ (by omega) (by omega), if_neg (by tauto), mul_zero]

theorem sphInt_re {f : Point → ℂ} (hf : Continuous f) : (sphInt f).re = sphInt fun ω => (f ω).re := by
  unfold sphInt
  exact (integral_re (sphInt_integrable hf)).symm

theorem sphInt_im {f : Point → ℂ} (hf : Continuous f) : (sphInt f).im = sphInt fun ω => (f ω).im := by
  unfold sphInt
  exact (integral_im (sphInt_integrable hf)).symm

/-- The real spherical harmonics are orthonormal. -/
theorem rsh_orthonormal_aux (l m l' m' : ℕ) (hm : m ≤ l) (hm' : m' ≤ l') :
    (sphInt (fun ω => (rshC l m ω).re * (rshC l' m' ω).re) = if l = l' ∧ m = m' then 1 else 0) ∧
    (sphInt (fun ω => (rshC l m ω).im * (rshC l' m' ω).im) = if l = l' ∧ m = m' ∧ m ≠ 0 then 1 else 0) ∧
    (sphInt (fun ω => (rshC l m ω).re * (rshC l' m' ω).im) = 0) := by
  have c1 := continuous_rshC l m
  have c2 := continuous_rshC l' m'
  have r1 : Continuous fun ω => (rshC l m ω).re := Complex.continuous_re.comp c1
  have r2 : Continuous fun ω => (rshC l' m' ω).re := Complex.continuous_re.comp c2
  have i1 : Continuous fun ω => (rshC l m ω).im := Complex.continuous_im.comp c1
  have i2 : Continuous fun ω => (rshC l' m' ω).im := Complex.continuous_im.comp c2
  have h1 := rshC_int l m l' m' hm hm'
  have h2 := rshC_conj_int l m l' m' hm hm'
  have e1 : sphInt (fun ω => (rshC l m ω).re * (rshC l' m' ω).re - (rshC l m ω).im * (rshC l' m' ω).im) =
      (sphInt (fun ω => rshC l m ω * rshC l' m' ω)).re := (sphInt_re (f := fun ω => rshC l m ω * rshC l' m' ω) (c1.mul c2)).symm
  have e2 : sphInt (fun ω => (rshC l m ω).re * (rshC l' m' ω).im + (rshC l m ω).im * (rshC l' m' ω).re) =
      (sphInt (fun ω => rshC l m ω * rshC l' m' ω)).im := (sphInt_im (f := fun ω => rshC l m ω * rshC l' m' ω) (c1.mul c2)).symm
  have e3 : sphInt (fun ω => (rshC l m ω).re * (rshC l' m' ω).re + (rshC l m ω).im * (rshC l' m' ω).im) =
      (sphInt (fun ω => rshC l m ω * conj (rshC l' m' ω))).re := by
    rw [sphInt_re (f := fun ω => rshC l m ω * conj (rshC l' m' ω)) (c1.mul (Complex.continuous_conj.comp c2))]
    simp
  have e4 : sphInt (fun ω => (rshC l m ω).im * (rshC l' m' ω).re - (rshC l m ω).re * (rshC l' m' ω).im) =
      (sphInt (fun ω => rshC l m ω * conj (rshC l' m' ω))).im := by
    rw [sphInt_im (f := fun ω => rshC l m ω * conj (rshC l' m' ω)) (c1.mul (Complex.continuous_conj.comp c2))]
    congr 1
    funext ω
    simp
    ring
  rw [h1, sphInt_sub (f := fun ω => (rshC l m ω).re * (rshC l' m' ω).re) (g := fun ω => (rshC l m ω).im * (rshC l' m' ω).im)
    (r1.mul r2) (i1.mul i2)] at e1
  rw [h1, sphInt_add (f := fun ω => (rshC l m ω).re * (rshC l' m' ω).im) (g := fun ω => (rshC l m ω).im * (rshC l' m' ω).re)
    (r1.mul i2) (i1.mul r2)] at e2
  rw [h2, sphInt_add (f := fun ω => (rshC l m ω).re * (rshC l' m' ω).re) (g := fun ω => (rshC l m ω).im * (rshC l' m' ω).im)
    (r1.mul r2) (i1.mul i2)] at e3
  rw [h2, sphInt_sub (f := fun ω => (rshC l m ω).im * (rshC l' m' ω).re) (g := fun ω => (rshC l m ω).re * (rshC l' m' ω).im)
    (i1.mul r2) (r1.mul i2)] at e4
  by_cases hl : l = l' <;> by_cases hmm : m = m' <;> by_cases h0 : m = 0 <;> by_cases h0' : m' = 0 <;>
    simp [hl, hmm, h0, h0', @eq_comm ℕ 0 m'] at e1 e2 e3 e4 ⊢ <;> first | omega | (refine ⟨?_, ?_, ?_⟩ <;> linarith)

end Libgrpp
