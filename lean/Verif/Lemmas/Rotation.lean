import Verif.Lemmas.LMatrix
import Verif.Model.SpecRotation
import Mathlib.Analysis.Calculus.Deriv.Polynomial
import Mathlib.Analysis.Calculus.Deriv.Pow
import Mathlib.Analysis.Calculus.Deriv.Star

/-! Complex spherical harmonics and their derivatives along rotations. -/

namespace Libgrpp

open Polynomial Matrix
open scoped Nat

/-! ## Legendre functions -/

theorem legendre_ode (l n : ℕ) : (X ^ 2 - 1 : ℝ[X]) * derivative^[n + 2] ((X ^ 2 - 1 : ℝ[X]) ^ l) +
    C (2 * ((n : ℝ) + 1 - l)) * X * derivative^[n + 1] ((X ^ 2 - 1 : ℝ[X]) ^ l) +
    C (((n : ℝ) + 1) * (n - 2 * l)) * derivative^[n] ((X ^ 2 - 1 : ℝ[X]) ^ l) = 0 := by
  set u : ℝ[X] := (X ^ 2 - 1 : ℝ[X]) ^ l with hu
  have h0 : (X ^ 2 - 1 : ℝ[X]) * derivative u = C (2 * (l : ℝ)) * X * u := by
    rw [hu, derivative_pow]
    rcases Nat.eq_zero_or_pos l with h | h
    · subst h
      simp
    · have : (X ^ 2 - 1 : ℝ[X]) ^ l = (X ^ 2 - 1 : ℝ[X]) ^ (l - 1) * (X ^ 2 - 1) := by rw [← pow_succ]; congr 1; omega
      rw [this]
      simp only [derivative_sub, derivative_X_pow, derivative_one, C_mul, map_natCast]
      simp only [map_ofNat, Nat.cast_ofNat]
      ring
  induction n with
  | zero =>
    have := congrArg derivative h0
    simp only [derivative_mul, derivative_sub, derivative_X_pow, derivative_one, derivative_C, derivative_X] at this
    simp only [Function.iterate_succ, Function.iterate_zero, Function.comp_apply, id]
    simp only [C_mul, C_sub, C_add, map_natCast, map_ofNat, map_one, Nat.cast_zero, map_zero, Nat.cast_ofNat] at this ⊢
    linear_combination this
  | succ n ih =>
    have := congrArg derivative ih
    simp only [derivative_mul, derivative_add, derivative_sub, derivative_X_pow, derivative_one, derivative_C, derivative_X, derivative_zero,
      ← Function.iterate_succ_apply' (f := fun p : ℝ[X] => derivative p)] at this
    push_cast
    simp only [C_mul, C_sub, C_add, map_natCast, map_ofNat, map_one, Nat.cast_ofNat] at this ⊢
    linear_combination this

theorem legendreDeriv_derivative (l m : ℕ) : derivative (legendreDeriv l m) = legendreDeriv l (m + 1) := by
  unfold legendreDeriv
  rw [derivative_C_mul, ← Function.iterate_succ_apply' (f := fun p : ℝ[X] => derivative p)]
  rfl

theorem legendreDeriv_rec (l m : ℕ) (z : ℝ) : (1 - z ^ 2) * (legendreDeriv l (m + 2)).eval z - 2 * (m + 1) * z * (legendreDeriv l (m + 1)).eval z =
    -(((l : ℝ) + m + 1) * (l - m)) * (legendreDeriv l m).eval z := by
  have h := congrArg (eval z) (legendre_ode l (l + m))
  unfold legendreDeriv
  simp only [eval_add, eval_mul, eval_sub, eval_pow, eval_X, eval_one, eval_C, eval_zero] at h ⊢
  push_cast at h
  rw [show l + (m + 2) = l + m + 2 by ring, show l + (m + 1) = l + m + 1 by ring]
  linear_combination -(1 / (2 ^ l * (l ! : ℝ))) * h

theorem legendreDeriv_top (l m : ℕ) (h : l < m) : legendreDeriv l m = 0 := by
  unfold legendreDeriv
  rw [iterate_derivative_eq_zero, mul_zero]
  calc ((X ^ 2 - 1 : ℝ[X]) ^ l).natDegree ≤ l * 2 := by
        refine natDegree_pow_le.trans (Nat.mul_le_mul_left l ?_)
        have : (X ^ 2 - 1 : ℝ[X]) = X ^ 2 - C 1 := by simp
        rw [this, natDegree_X_pow_sub_C]
    _ < l + m := by omega

/-! ## Complex harmonics -/

/-- The normalisation of the complex harmonics. -/
noncomputable def cshN (l m : ℕ) : ℝ := Real.sqrt ((2 * l + 1) / (4 * Real.pi) * (((l - m)! : ℝ) / ((l + m)! : ℝ)))

/-- The complex harmonic as a function of `z` and `w = x + i y`. -/
noncomputable def csh (l : ℕ) (m : ℤ) (z : ℝ) (w : ℂ) : ℂ :=
  ((cshN l m.natAbs * (legendreDeriv l m.natAbs).eval z : ℝ) : ℂ) * if 0 ≤ m then (-1) ^ m.natAbs * w ^ m.natAbs else (starRingEnd ℂ) w ^ m.natAbs

theorem csh_neg (l m : ℕ) (z : ℝ) (w : ℂ) : csh l (-(m : ℤ)) z w = (-1) ^ m * (starRingEnd ℂ) (csh l m z w) := by
  unfold csh
  rw [Int.natAbs_neg, Int.natAbs_natCast, if_pos (Int.natCast_nonneg m)]
  have h1 : ((-1 : ℂ) ^ m) * (-1) ^ m = 1 := by rw [← mul_pow]; norm_num
  simp only [map_mul, Complex.conj_ofReal, map_pow, map_neg, map_one]
  rcases Nat.eq_zero_or_pos m with h | h
  · subst h
    simp
  · rw [if_neg (by omega)]
    linear_combination -((cshN l m * (legendreDeriv l m).eval z : ℝ) : ℂ) * (starRingEnd ℂ) w ^ m * h1

theorem csh_nat (l m : ℕ) (z : ℝ) (w : ℂ) : csh l m z w = ((cshN l m * (legendreDeriv l m).eval z : ℝ) : ℂ) * ((-1) ^ m * w ^ m) := by
  unfold csh
  rw [Int.natAbs_natCast, if_pos (Int.natCast_nonneg m)]

theorem cshN_succ (l m : ℕ) (h : m < l) : Real.sqrt (((l : ℝ) - m) * (l + m + 1)) * cshN l (m + 1) = cshN l m := by
  unfold cshN
  have hl : (m : ℝ) + 1 ≤ l := by exact_mod_cast h
  rw [← Real.sqrt_mul (mul_nonneg (by linarith) (by positivity))]
  congr 1
  have e1 : l - m = (l - (m + 1)) + 1 := by omega
  have e2 : (((l - m)! : ℕ) : ℝ) = ((l : ℝ) - m) * ((l - (m + 1))! : ℕ) := by
    rw [e1, Nat.factorial_succ]
    push_cast
    rw [Nat.cast_sub (by omega)]
    push_cast
    ring
  have e3 : (((l + (m + 1))! : ℕ) : ℝ) = ((l : ℝ) + m + 1) * ((l + m)! : ℕ) := by
    rw [show l + (m + 1) = (l + m) + 1 by ring, Nat.factorial_succ]
    push_cast
    ring
  rw [e2, e3]
  have : ((l : ℝ) + m + 1) ≠ 0 := by positivity
  have : (((l + m)! : ℕ) : ℝ) ≠ 0 := by positivity
  have := Real.pi_ne_zero
  field_simp

/-- The coefficient of `L₊`. -/
noncomputable def upC (L : ℕ) (m : ℤ) : ℝ := Real.sqrt ((((L : ℤ) - m) * (L + m + 1) : ℤ) : ℝ)

/-- The coefficient of `L₋`. -/
noncomputable def downC (L : ℕ) (m : ℤ) : ℝ := Real.sqrt ((((L : ℤ) + m) * (L - m + 1) : ℤ) : ℝ)

theorem upC_nat (L m : ℕ) : upC L m = Real.sqrt (((L : ℝ) - m) * (L + m + 1)) := by unfold upC; push_cast; rfl

theorem upC_neg (L : ℕ) (m : ℤ) : upC L (-m) = downC L m := by
  unfold upC downC
  congr 2
  ring

theorem downC_neg (L : ℕ) (m : ℤ) : downC L (-m) = upC L m := by rw [← upC_neg, neg_neg]

theorem downC_succ (L m : ℕ) : downC L ((m : ℤ) + 1) = upC L m := by
  unfold upC downC
  congr 2
  ring

/-- `L₊ Y_m`, for `m ≥ 0`. -/
theorem up_csh (l m : ℕ) (hm : m ≤ l) (z : ℝ) (w : ℂ) : (upC l m : ℂ) * csh l ((m : ℤ) + 1) z w =
    -((-1) ^ m * (cshN l m : ℂ) * (((legendreDeriv l (m + 1)).eval z : ℝ) : ℂ) * w ^ (m + 1)) := by
  have e : csh l ((m : ℤ) + 1) z w = _ := csh_nat l (m + 1) z w
  rw [e]
  rcases Nat.lt_or_ge m l with h | h
  · have := cshN_succ l m h
    rw [← upC_nat] at this
    rw [← this]
    push_cast
    ring
  · rw [legendreDeriv_top l (m + 1) (by omega)]
    simp

/-- `L₋ Y_m`, for `m > 0`, on the unit sphere. -/
theorem down_csh (l m : ℕ) (hm : m + 1 ≤ l) (z : ℝ) (w : ℂ) (hw : w * (starRingEnd ℂ) w = 1 - (z : ℂ) ^ 2) :
    (downC l ((m : ℤ) + 1) : ℂ) * csh l m z w = (-1) ^ (m + 1) * (cshN l (m + 1) : ℂ) * w ^ m *
      (w * (starRingEnd ℂ) w * (((legendreDeriv l (m + 2)).eval z : ℝ) : ℂ) - 2 * (m + 1) * z * (((legendreDeriv l (m + 1)).eval z : ℝ) : ℂ)) := by
  rw [downC_succ, csh_nat, hw]
  have h1 := cshN_succ l m (by omega)
  have h2 : ((1 : ℂ) - (z : ℂ) ^ 2) * (((legendreDeriv l (m + 2)).eval z : ℝ) : ℂ) - 2 * (m + 1) * z * (((legendreDeriv l (m + 1)).eval z : ℝ) : ℂ) =
      ((-(((l : ℝ) + m + 1) * (l - m)) * (legendreDeriv l m).eval z : ℝ) : ℂ) := by
    rw [← legendreDeriv_rec]
    push_cast
    ring
  have h3 : upC l m * upC l m = ((l : ℝ) - m) * (l + m + 1) := by
    rw [upC_nat, Real.mul_self_sqrt]
    have hl : (m : ℝ) + 1 ≤ l := by exact_mod_cast hm
    exact mul_nonneg (by linarith) (by positivity)
  rw [← upC_nat] at h1
  rw [h2, ← h1]
  have h3 := congrArg (fun x : ℝ => (x : ℂ)) h3
  push_cast at h3 ⊢
  linear_combination (cshN l (m + 1) : ℂ) * (((legendreDeriv l m).eval z : ℝ) : ℂ) * (-1) ^ m * w ^ m * h3

/-- The derivative of a complex harmonic along a path on which `z` changes at the rate `z'` and `w` at the rate `w'`. -/
theorem csh_hasDerivAt (l m : ℕ) (z : ℝ → ℝ) (w : ℝ → ℂ) (t z' : ℝ) (w' : ℂ) (hz : HasDerivAt z z' t) (hw : HasDerivAt w w' t) :
    HasDerivAt (fun s => csh l m (z s) (w s)) ((-1) ^ m * (cshN l m : ℂ) * ((((legendreDeriv l (m + 1)).eval (z t) : ℝ) : ℂ) * z' * w t ^ m +
      (((legendreDeriv l m).eval (z t) : ℝ) : ℂ) * (m * w t ^ (m - 1) * w'))) t := by
  have h1 : HasDerivAt (fun s => (((legendreDeriv l m).eval (z s) : ℝ) : ℂ)) (((legendreDeriv l (m + 1)).eval (z t) * z' : ℝ) : ℂ) t := by
    have := ((legendreDeriv l m).hasDerivAt (z t)).comp t hz
    rw [legendreDeriv_derivative] at this
    exact this.ofReal_comp
  have h2 := (h1.mul (hw.pow m)).const_mul ((-1) ^ m * (cshN l m : ℂ))
  refine (h2.congr_of_eventuallyEq (Filter.Eventually.of_forall fun s => ?_)).congr_deriv ?_
  · simp only [csh_nat, Pi.mul_apply, Pi.pow_apply]
    push_cast
    ring
  · push_cast
    simp only [Pi.pow_apply]

/-! ## Derivatives along rotations about the axes -/

/-- Rates of `z` and `w` along a rotation about the `x`, `y` or `z` axis. -/
theorem conj_eq (w : ℂ) : (starRingEnd ℂ) w = w - 2 * (w.im : ℂ) * Complex.I := by
  apply Complex.ext <;> simp
  ring

theorem conj_eq' (w : ℂ) : (starRingEnd ℂ) w = 2 * (w.re : ℂ) - w := by
  apply Complex.ext <;> simp
  ring

/-- `(D_x Y_m)` for `m ≥ 0`. -/
theorem dx_nat (l m : ℕ) (hm : m ≤ l) (z : ℝ) (w : ℂ) (hw : w * (starRingEnd ℂ) w = 1 - (z : ℂ) ^ 2) :
    (-1) ^ m * (cshN l m : ℂ) * ((((legendreDeriv l (m + 1)).eval z : ℝ) : ℂ) * (w.im : ℂ) * w ^ m +
      (((legendreDeriv l m).eval z : ℝ) : ℂ) * (m * w ^ (m - 1) * (-Complex.I * z))) =
    Complex.I / 2 * ((upC l m : ℂ) * csh l ((m : ℤ) + 1) z w + (downC l m : ℂ) * csh l ((m : ℤ) - 1) z w) := by
  rw [up_csh l m hm]
  rcases m with _ | m
  · have e : (downC l ((0 : ℕ) : ℤ) : ℂ) * csh l (((0 : ℕ) : ℤ) - 1) z w = -(starRingEnd ℂ) ((upC l (0 : ℕ) : ℂ) * csh l (((0 : ℕ) : ℤ) + 1) z w) := by
      have := csh_neg l 1 z w
      rw [show (((0 : ℕ) : ℤ) - 1) = -((1 : ℕ) : ℤ) by norm_num, this, map_mul, Complex.conj_ofReal]
      have : downC l ((0 : ℕ) : ℤ) = upC l (0 : ℕ) := by
        unfold upC downC
        simp
      rw [this]
      simp
    rw [e, up_csh l 0 hm]
    simp only [map_neg, map_mul, map_pow, map_one, Complex.conj_ofReal, conj_eq]
    simp
    linear_combination (cshN l 0 : ℂ) * (((legendreDeriv l 1).eval z : ℝ) : ℂ) * (w.im : ℂ) * Complex.I_sq
  · have := down_csh l m (by omega) z w hw
    push_cast
    rw [add_sub_cancel_right, this, conj_eq]
    simp only [Nat.add_sub_cancel, pow_succ]
    push_cast
    linear_combination (-1) ^ m * (cshN l (m + 1) : ℂ) * (((legendreDeriv l (m + 2)).eval z : ℝ) : ℂ) * (w.im : ℂ) * w ^ (m + 1) * (-1) * Complex.I_sq

/-- `(D_y Y_m)` for `m ≥ 0`. -/
theorem dy_nat (l m : ℕ) (hm : m ≤ l) (z : ℝ) (w : ℂ) (hw : w * (starRingEnd ℂ) w = 1 - (z : ℂ) ^ 2) :
    (-1) ^ m * (cshN l m : ℂ) * ((((legendreDeriv l (m + 1)).eval z : ℝ) : ℂ) * (-(w.re : ℝ) : ℝ) * w ^ m +
      (((legendreDeriv l m).eval z : ℝ) : ℂ) * (m * w ^ (m - 1) * z)) =
    1 / 2 * ((upC l m : ℂ) * csh l ((m : ℤ) + 1) z w - (downC l m : ℂ) * csh l ((m : ℤ) - 1) z w) := by
  rw [up_csh l m hm]
  rcases m with _ | m
  · have e : (downC l ((0 : ℕ) : ℤ) : ℂ) * csh l (((0 : ℕ) : ℤ) - 1) z w = -(starRingEnd ℂ) ((upC l (0 : ℕ) : ℂ) * csh l (((0 : ℕ) : ℤ) + 1) z w) := by
      have := csh_neg l 1 z w
      rw [show (((0 : ℕ) : ℤ) - 1) = -((1 : ℕ) : ℤ) by norm_num, this, map_mul, Complex.conj_ofReal]
      have : downC l ((0 : ℕ) : ℤ) = upC l (0 : ℕ) := by
        unfold upC downC
        simp
      rw [this]
      simp
    rw [e, up_csh l 0 hm]
    simp only [map_neg, map_mul, map_pow, map_one, Complex.conj_ofReal, conj_eq']
    simp
    ring
  · have := down_csh l m (by omega) z w hw
    push_cast
    rw [add_sub_cancel_right, this, conj_eq']
    simp only [Nat.add_sub_cancel, pow_succ]
    push_cast
    ring

theorem csh_neg_deriv (l n : ℕ) (z : ℝ → ℝ) (w : ℝ → ℂ) (t : ℝ) (d : ℂ) (h : HasDerivAt (fun s => csh l n (z s) (w s)) d t) :
    HasDerivAt (fun s => csh l (-(n : ℤ)) (z s) (w s)) ((-1) ^ n * (starRingEnd ℂ) d) t := by
  simp only [csh_neg]
  exact (h.star).const_mul _

theorem neg_pow_conj_up (l n : ℕ) (z : ℝ) (w : ℂ) :
    (-1) ^ n * (starRingEnd ℂ) ((upC l n : ℂ) * csh l ((n : ℤ) + 1) z w) = -((downC l (-(n : ℤ)) : ℂ) * csh l (-(n : ℤ) - 1) z w) := by
  have h : csh l (-(n : ℤ) - 1) z w = (-1) ^ (n + 1) * (starRingEnd ℂ) (csh l ((n : ℤ) + 1) z w) := by
    have := csh_neg l (n + 1) z w
    push_cast at this
    rw [← this]
    congr 1
    ring
  rw [h, downC_neg, map_mul, Complex.conj_ofReal, pow_succ]
  ring

theorem neg_pow_conj_down (l n : ℕ) (z : ℝ) (w : ℂ) :
    (-1) ^ (n + 1) * (starRingEnd ℂ) ((downC l ((n + 1 : ℕ) : ℤ) : ℂ) * csh l (((n + 1 : ℕ) : ℤ) - 1) z w) =
      -((upC l (-((n + 1 : ℕ) : ℤ)) : ℂ) * csh l (-((n + 1 : ℕ) : ℤ) + 1) z w) := by
  have h := csh_neg l n z w
  rw [upC_neg, show -((n + 1 : ℕ) : ℤ) + 1 = -(n : ℤ) by push_cast; ring, h, map_mul, Complex.conj_ofReal, pow_succ,
    show (((n + 1 : ℕ) : ℤ) - 1) = (n : ℤ) by push_cast; ring]
  ring

theorem csh_dx (l : ℕ) (m : ℤ) (hm : m.natAbs ≤ l) (z : ℝ → ℝ) (w : ℝ → ℂ) (t : ℝ) (hz : HasDerivAt z (w t).im t)
    (hw : HasDerivAt w (-Complex.I * z t) t) (hs : w t * (starRingEnd ℂ) (w t) = 1 - (z t : ℂ) ^ 2) :
    HasDerivAt (fun s => csh l m (z s) (w s))
      (Complex.I / 2 * ((upC l m : ℂ) * csh l (m + 1) (z t) (w t) + (downC l m : ℂ) * csh l (m - 1) (z t) (w t))) t := by
  have pos : ∀ n : ℕ, n ≤ l → HasDerivAt (fun s => csh l n (z s) (w s))
      (Complex.I / 2 * ((upC l n : ℂ) * csh l ((n : ℤ) + 1) (z t) (w t) + (downC l n : ℂ) * csh l ((n : ℤ) - 1) (z t) (w t))) t := by
    intro n hn
    rw [← dx_nat l n hn _ _ hs]
    exact csh_hasDerivAt l n z w t _ _ hz hw
  rcases lt_or_ge m 0 with h | h
  · obtain ⟨n, hn⟩ : ∃ n : ℕ, m = -((n + 1 : ℕ) : ℤ) := ⟨m.natAbs - 1, by omega⟩
    subst hn
    refine (csh_neg_deriv l (n + 1) z w t _ (pos (n + 1) (by omega))).congr_deriv ?_
    have h1 := neg_pow_conj_up l (n + 1) (z t) (w t)
    have h2 := neg_pow_conj_down l n (z t) (w t)
    have h3 : (starRingEnd ℂ) (Complex.I / 2) = -Complex.I / 2 := by rw [map_div₀, Complex.conj_I, Complex.conj_ofNat]
    rw [map_mul, map_add, mul_left_comm, mul_add, h1, h2, h3]
    ring
  · obtain ⟨n, rfl⟩ := Int.eq_ofNat_of_zero_le h
    exact pos n (by omega)

theorem csh_dy (l : ℕ) (m : ℤ) (hm : m.natAbs ≤ l) (z : ℝ → ℝ) (w : ℝ → ℂ) (t : ℝ) (hz : HasDerivAt z (-(w t).re) t)
    (hw : HasDerivAt w (z t) t) (hs : w t * (starRingEnd ℂ) (w t) = 1 - (z t : ℂ) ^ 2) :
    HasDerivAt (fun s => csh l m (z s) (w s))
      (1 / 2 * ((upC l m : ℂ) * csh l (m + 1) (z t) (w t) - (downC l m : ℂ) * csh l (m - 1) (z t) (w t))) t := by
  have pos : ∀ n : ℕ, n ≤ l → HasDerivAt (fun s => csh l n (z s) (w s))
      (1 / 2 * ((upC l n : ℂ) * csh l ((n : ℤ) + 1) (z t) (w t) - (downC l n : ℂ) * csh l ((n : ℤ) - 1) (z t) (w t))) t := by
    intro n hn
    rw [← dy_nat l n hn _ _ hs]
    exact csh_hasDerivAt l n z w t _ _ hz hw
  rcases lt_or_ge m 0 with h | h
  · obtain ⟨n, hn⟩ : ∃ n : ℕ, m = -((n + 1 : ℕ) : ℤ) := ⟨m.natAbs - 1, by omega⟩
    subst hn
    refine (csh_neg_deriv l (n + 1) z w t _ (pos (n + 1) (by omega))).congr_deriv ?_
    have h1 := neg_pow_conj_up l (n + 1) (z t) (w t)
    have h2 := neg_pow_conj_down l n (z t) (w t)
    have h3 : (starRingEnd ℂ) (1 / 2) = 1 / 2 := by rw [map_div₀, map_one, Complex.conj_ofNat]
    rw [map_mul, map_sub, mul_left_comm, mul_sub, h1, h2, h3]
    ring
  · obtain ⟨n, rfl⟩ := Int.eq_ofNat_of_zero_le h
    exact pos n (by omega)

theorem csh_dz (l : ℕ) (m : ℤ) (z : ℝ → ℝ) (w : ℝ → ℂ) (t : ℝ) (hz : HasDerivAt z 0 t) (hw : HasDerivAt w (Complex.I * w t) t) :
    HasDerivAt (fun s => csh l m (z s) (w s)) (Complex.I * (m : ℂ) * csh l m (z t) (w t)) t := by
  have pos : ∀ n : ℕ, HasDerivAt (fun s => csh l n (z s) (w s)) (Complex.I * (n : ℂ) * csh l n (z t) (w t)) t := by
    intro n
    refine (csh_hasDerivAt l n z w t _ _ hz hw).congr_deriv ?_
    rw [csh_nat]
    rcases n with _ | n
    · simp
    · simp only [Nat.add_sub_cancel, pow_succ]
      push_cast
      ring
  rcases lt_or_ge m 0 with h | h
  · obtain ⟨n, hn⟩ : ∃ n : ℕ, m = -((n : ℕ) : ℤ) := ⟨m.natAbs, by omega⟩
    subst hn
    refine (csh_neg_deriv l n z w t _ (pos n)).congr_deriv ?_
    rw [csh_neg]
    simp
    ring
  · obtain ⟨n, rfl⟩ := Int.eq_ofNat_of_zero_le h
    exact pos n

/-! ## The vector of complex harmonics, and the real harmonics -/

/-- The complex harmonics at a point, as a row. -/
noncomputable def cshRow (L : ℕ) (z : ℝ) (w : ℂ) : Fin (2 * L + 1) → ℂ := fun i => csh L (mOf L i) z w

theorem row_x (L : ℕ) (z : ℝ) (w : ℂ) (k : Fin (2 * L + 1)) : (cshRow L z w ᵥ* (Complex.I • gMat L (cX L))) k =
    Complex.I / 2 * ((upC L (mOf L k) : ℂ) * csh L (mOf L k + 1) z w + (downC L (mOf L k) : ℂ) * csh L (mOf L k - 1) z w) := by
  have h1 := sum_lp L k fun m => csh L m z w
  have h2 := sum_lm L k fun m => csh L m z w
  rw [xMat_eq, Matrix.vecMul_smul, Matrix.vecMul_smul, Matrix.vecMul_add]
  simp only [Pi.smul_apply, Pi.add_apply, smul_eq_mul, Matrix.vecMul, dotProduct, cshRow, gMat]
  rw [h1, h2]
  unfold upC downC
  ring

theorem row_y (L : ℕ) (z : ℝ) (w : ℂ) (k : Fin (2 * L + 1)) : (cshRow L z w ᵥ* gMat L (cY L)) k =
    1 / 2 * ((upC L (mOf L k) : ℂ) * csh L (mOf L k + 1) z w - (downC L (mOf L k) : ℂ) * csh L (mOf L k - 1) z w) := by
  have h1 := sum_lp L k fun m => csh L m z w
  have h2 := sum_lm L k fun m => csh L m z w
  rw [yMat_eq, Matrix.vecMul_smul, Matrix.vecMul_sub]
  simp only [Pi.smul_apply, Pi.sub_apply, smul_eq_mul, Matrix.vecMul, dotProduct, cshRow, gMat]
  rw [h1, h2]
  unfold upC downC
  ring

theorem row_z (L : ℕ) (z : ℝ) (w : ℂ) (k : Fin (2 * L + 1)) : (cshRow L z w ᵥ* (Complex.I • gMat L (cZ L))) k =
    Complex.I * (mOf L k : ℂ) * csh L (mOf L k) z w := by
  have h1 := sum_lz L k fun m => csh L m z w
  rw [Matrix.vecMul_smul]
  simp only [Pi.smul_apply, smul_eq_mul, Matrix.vecMul, dotProduct, cshRow, gMat]
  rw [h1]
  push_cast
  ring

theorem rshNorm_csh (l m : ℕ) (h : m ≠ 0) : rshNorm l m = Real.sqrt 2 * cshN l m := by
  unfold rshNorm cshN
  rw [if_neg h, mul_one, ← Real.sqrt_mul (by norm_num)]
  congr 1
  have := Real.pi_ne_zero
  field_simp
  ring

theorem rshNorm_csh_zero (l : ℕ) : rshNorm l 0 = cshN l 0 := by
  unfold rshNorm cshN
  rw [if_pos rfl, one_div, ← Real.sqrt_inv, ← Real.sqrt_mul' _ (by norm_num)]
  congr 1
  have := Real.pi_ne_zero
  field_simp
  ring

/-- The real harmonics in terms of the complex ones. -/
theorem rsh_eq_csh (L : ℕ) (ω : Point) (j : Fin (2 * L + 1)) :
    ((rsh L (mOf L j) ω : ℝ) : ℂ) = (cshRow L (ω 2) ⟨ω 0, ω 1⟩ ᵥ* uMat L) j := by
  have h := sum_uMat L j fun m => csh L m (ω 2) ⟨ω 0, ω 1⟩
  simp only [Matrix.vecMul, dotProduct, cshRow]
  rw [h, csh_neg]
  generalize mOf L j = m
  set w : ℂ := ⟨ω 0, ω 1⟩ with hw
  rw [csh_nat]
  unfold rsh
  rw [← hw]
  have h2 : ((Real.sqrt 2 : ℝ) : ℂ) * (Real.sqrt 2 : ℝ) = 2 := by
    rw [← Complex.ofReal_mul, Real.mul_self_sqrt (by norm_num)]
    norm_num
  have h2n : ((Real.sqrt 2 : ℝ) : ℂ) ≠ 0 := by
    intro h0
    rw [h0] at h2
    norm_num at h2
  have hp : ((-1 : ℂ) ^ m.natAbs) * (-1) ^ m.natAbs = 1 := by rw [← mul_pow]; norm_num
  have hre : ((w ^ m.natAbs).re : ℂ) = (w ^ m.natAbs + (starRingEnd ℂ) (w ^ m.natAbs)) / 2 := Complex.re_eq_add_conj _
  have him : ((w ^ m.natAbs).im : ℂ) = (w ^ m.natAbs - (starRingEnd ℂ) (w ^ m.natAbs)) / (2 * Complex.I) := Complex.im_eq_sub_conj _
  simp only [map_mul, map_pow, map_neg, map_one, Complex.conj_ofReal]
  unfold cshToRsh
  rcases lt_trichotomy m 0 with h0 | h0 | h0
  · rw [if_neg (by omega), if_neg (by omega), if_pos h0, rshNorm_csh L _ (by omega)]
    push_cast
    rw [him, map_pow]
    have hq : Complex.I / (Real.sqrt 2 : ℝ) = Complex.I * (Real.sqrt 2 : ℝ) / 2 := by
      rw [← h2]
      field_simp
    have hi : ∀ x : ℂ, x / (2 * Complex.I) = -Complex.I / 2 * x := by
      intro x
      rw [div_eq_iff (by simp)]
      linear_combination x * Complex.I_sq
    rw [neg_one_mul, one_mul, neg_div, hq, hi]
    linear_combination (Real.sqrt 2 : ℝ) * (cshN L m.natAbs : ℂ) * (((legendreDeriv L m.natAbs).eval (ω 2) : ℝ) : ℂ) *
      (w ^ m.natAbs - (starRingEnd ℂ) w ^ m.natAbs) * Complex.I / 2 * hp
  · subst h0
    rw [if_pos le_rfl, if_pos rfl, Int.natAbs_zero, rshNorm_csh_zero]
    simp
    ring
  · rw [if_pos (by omega), if_neg (by omega), if_neg (by omega), rshNorm_csh L _ (by omega)]
    push_cast
    rw [hre, map_pow]
    have hq : (1 : ℂ) / (Real.sqrt 2 : ℝ) = (Real.sqrt 2 : ℝ) / 2 := by
      rw [← h2]
      field_simp
    rw [hq]
    linear_combination -((Real.sqrt 2 : ℝ) * (cshN L m.natAbs : ℂ) * (((legendreDeriv L m.natAbs).eval (ω 2) : ℝ) : ℂ) *
      (w ^ m.natAbs + (starRingEnd ℂ) w ^ m.natAbs) / 2) * hp

/-- From a rate of change of the complex harmonics to one of the real harmonics. -/
theorem rsh_rate (L : ℕ) (p : ℝ → Point) (t : ℝ) (G : Matrix (Fin (2 * L + 1)) (Fin (2 * L + 1)) ℂ) (R : Matrix (Fin (2 * L + 1)) (Fin (2 * L + 1)) ℝ)
    (hG : (uMat L)ᴴ * G * uMat L = -R.map Complex.ofReal)
    (h : ∀ k : Fin (2 * L + 1), HasDerivAt (fun s => csh L (mOf L k) (p s 2) ⟨p s 0, p s 1⟩) ((cshRow L (p t 2) ⟨p t 0, p t 1⟩ ᵥ* G) k) t)
    (j : Fin (2 * L + 1)) :
    HasDerivAt (fun s => rsh L (mOf L j) (p s)) (-∑ k : Fin (2 * L + 1), R k j * rsh L (mOf L k) (p t)) t := by
  have h1 : HasDerivAt (fun s => ((rsh L (mOf L j) (p s) : ℝ) : ℂ)) ((-∑ k : Fin (2 * L + 1), R k j * rsh L (mOf L k) (p t) : ℝ) : ℂ) t := by
    simp only [rsh_eq_csh]
    have h2 : HasDerivAt (fun s => (cshRow L (p s 2) ⟨p s 0, p s 1⟩ ᵥ* uMat L) j)
        ((cshRow L (p t 2) ⟨p t 0, p t 1⟩ ᵥ* G ᵥ* uMat L) j) t := by
      simp only [Matrix.vecMul, dotProduct] at h ⊢
      exact HasDerivAt.fun_sum fun k _ => (h k).mul_const _
    refine h2.congr_deriv ?_
    have e : G * uMat L = -(uMat L * R.map Complex.ofReal) := by
      rw [← Matrix.mul_neg, ← hG, ← Matrix.mul_assoc, ← Matrix.mul_assoc, uMat_unitary', Matrix.one_mul]
    rw [Matrix.vecMul_vecMul, e, Matrix.vecMul_neg, ← Matrix.vecMul_vecMul, Pi.neg_apply]
    push_cast
    congr 1
    simp only [rsh_eq_csh]
    rw [Matrix.vecMul, dotProduct]
    exact Finset.sum_congr rfl fun k _ => mul_comm _ _
  have h3 := Complex.reCLM.hasFDerivAt.comp_hasDerivAt t h1
  refine (h3.congr_of_eventuallyEq (Filter.Eventually.of_forall fun s => ?_)).congr_deriv ?_
  · exact (Complex.ofReal_re _).symm
  · exact Complex.ofReal_re _

theorem hasDerivAt_comb (a b t : ℝ) : HasDerivAt (fun s => Real.cos s * a - Real.sin s * b) (-(Real.sin t * a + Real.cos t * b)) t := by
  refine (((Real.hasDerivAt_cos t).mul_const a).sub ((Real.hasDerivAt_sin t).mul_const b)).congr_deriv ?_
  ring

theorem hasDerivAt_comb' (a b t : ℝ) : HasDerivAt (fun s => Real.sin s * a + Real.cos s * b) (Real.cos t * a - Real.sin t * b) t := by
  refine (((Real.hasDerivAt_sin t).mul_const a).add ((Real.hasDerivAt_cos t).mul_const b)).congr_deriv ?_
  ring

theorem hasDerivAt_mk {x y : ℝ → ℝ} {x' y' t : ℝ} (hx : HasDerivAt x x' t) (hy : HasDerivAt y y' t) :
    HasDerivAt (fun s => (⟨x s, y s⟩ : ℂ)) ⟨x', y'⟩ t := by
  have h := hx.ofReal_comp.add (hy.ofReal_comp.mul_const Complex.I)
  have e : ∀ a b : ℝ, (⟨a, b⟩ : ℂ) = (a : ℂ) + (b : ℂ) * Complex.I := fun a b => Complex.mk_eq_add_mul_I a b
  simp only [e]
  exact h

theorem sphere_w (ω : Point) (h : ∑ k, ω k ^ 2 = 1) : (⟨ω 0, ω 1⟩ : ℂ) * (starRingEnd ℂ) ⟨ω 0, ω 1⟩ = 1 - (ω 2 : ℂ) ^ 2 := by
  rw [Fin.sum_univ_three] at h
  rw [Complex.mul_conj, Complex.normSq_mk]
  have : ω 0 * ω 0 + ω 1 * ω 1 = 1 - ω 2 ^ 2 := by linarith
  rw [this]
  push_cast
  ring

theorem turn_sphere (axis : Fin 3) (t : ℝ) (ω : Point) : ∑ k, turn axis t ω k ^ 2 = ∑ k, ω k ^ 2 := by
  have h := Real.sin_sq_add_cos_sq t
  fin_cases axis <;> simp only [turn, Fin.sum_univ_three, Matrix.cons_val_zero, Matrix.cons_val_one, Matrix.cons_val_two, Matrix.cons_val,
    Matrix.head_cons, Matrix.tail_cons]
  · linear_combination (ω 1 ^ 2 + ω 2 ^ 2) * h
  · linear_combination (ω 0 ^ 2 + ω 2 ^ 2) * h
  · linear_combination (ω 0 ^ 2 + ω 1 ^ 2) * h

theorem rsh_turn_x (L : ℕ) (ω : Point) (hω : ∑ k, ω k ^ 2 = 1) (t : ℝ) (j : Fin (2 * L + 1)) :
    HasDerivAt (fun s => rsh L (mOf L j) (turn 0 s ω)) (-∑ k : Fin (2 * L + 1), rX L k j * rsh L (mOf L k) (turn 0 t ω)) t := by
  refine rsh_rate L (fun s => turn 0 s ω) t (Complex.I • gMat L (cX L)) (rX L) ?_ (fun k => ?_) j
  · rw [Matrix.mul_smul, Matrix.smul_mul, rX_eq, smul_smul, Complex.I_mul_I]
    simp
  · rw [row_x]
    have hs := sphere_w (turn 0 t ω) ((turn_sphere 0 t ω).trans hω)
    refine csh_dx L (mOf L k) (mOf_abs k.2) (fun s => turn 0 s ω 2) (fun s => ⟨turn 0 s ω 0, turn 0 s ω 1⟩) t ?_ ?_ hs
    · exact hasDerivAt_comb' (ω 1) (ω 2) t
    · refine (hasDerivAt_mk (hasDerivAt_const t (ω 0)) (hasDerivAt_comb (ω 1) (ω 2) t)).congr_deriv ?_
      apply Complex.ext <;> simp [turn, -Complex.ofReal_cos, -Complex.ofReal_sin]

theorem rsh_turn_y (L : ℕ) (ω : Point) (hω : ∑ k, ω k ^ 2 = 1) (t : ℝ) (j : Fin (2 * L + 1)) :
    HasDerivAt (fun s => rsh L (mOf L j) (turn 1 s ω)) (-∑ k : Fin (2 * L + 1), rY L k j * rsh L (mOf L k) (turn 1 t ω)) t := by
  refine rsh_rate L (fun s => turn 1 s ω) t (gMat L (cY L)) (rY L) (rY_eq L) (fun k => ?_) j
  rw [row_y]
  have hs := sphere_w (turn 1 t ω) ((turn_sphere 1 t ω).trans hω)
  refine csh_dy L (mOf L k) (mOf_abs k.2) (fun s => turn 1 s ω 2) (fun s => ⟨turn 1 s ω 0, turn 1 s ω 1⟩) t ?_ ?_ hs
  · refine (hasDerivAt_comb (ω 2) (ω 0) t).congr_deriv ?_
    simp [turn]
    ring
  · have h := hasDerivAt_mk (hasDerivAt_comb' (ω 2) (ω 0) t) (hasDerivAt_const t (ω 1))
    refine (h.congr_of_eventuallyEq (Filter.Eventually.of_forall fun s => ?_)).congr_deriv ?_
    · apply Complex.ext <;> simp [turn]
      ring
    · apply Complex.ext <;> simp [turn, -Complex.ofReal_cos, -Complex.ofReal_sin]

theorem rsh_turn_z (L : ℕ) (ω : Point) (t : ℝ) (j : Fin (2 * L + 1)) :
    HasDerivAt (fun s => rsh L (mOf L j) (turn 2 s ω)) (-∑ k : Fin (2 * L + 1), rZ L k j * rsh L (mOf L k) (turn 2 t ω)) t := by
  refine rsh_rate L (fun s => turn 2 s ω) t (Complex.I • gMat L (cZ L)) (rZ L) ?_ (fun k => ?_) j
  · rw [Matrix.mul_smul, Matrix.smul_mul, rZ_eq, smul_smul, Complex.I_mul_I]
    simp
  · rw [row_z]
    refine csh_dz L (mOf L k) (fun s => turn 2 s ω 2) (fun s => ⟨turn 2 s ω 0, turn 2 s ω 1⟩) t ?_ ?_
    · exact hasDerivAt_const t (ω 2)
    · refine (hasDerivAt_mk (hasDerivAt_comb (ω 0) (ω 1) t) (hasDerivAt_comb' (ω 0) (ω 1) t)).congr_deriv ?_
      apply Complex.ext <;> simp [turn]

end Libgrpp
