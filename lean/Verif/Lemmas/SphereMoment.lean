import Verif.Lemmas.Sphere
import Verif.Lemmas.GaussMoment
import Verif.Lemmas.GaussianIntegral
import Verif.Lemmas.Basis
import Mathlib.MeasureTheory.Integral.IntegralEqImproper
import Mathlib.Data.Nat.Choose.Multinomial

namespace Libgrpp

open MeasureTheory Set
open scoped Nat Polynomial

theorem integrable_line_moment (n : ℕ) : Integrable fun x : ℝ => x ^ n * Real.exp (-1 * x ^ 2) := by
  have h := integrable_poly_gauss (Polynomial.X ^ n) (p := 1) one_pos
  simpa using h

theorem line_moment_even (k : ℕ) : ∫ x : ℝ, x ^ (2 * k) * Real.exp (-1 * x ^ 2) = ((2 * k - 1)‼ : ℝ) / 2 ^ k * Real.sqrt Real.pi := by
  have h := integral_comp_abs (f := fun x : ℝ => x ^ (2 * k) * Real.exp (-1 * x ^ 2))
  simp only [sq_abs, pow_mul] at h
  simp only [pow_mul]
  rw [h]
  have h2 := moment_even k (a := 1) one_pos
  simp only [pow_mul] at h2
  rw [h2]
  rw [pow_succ]
  simp
  field_simp

theorem line_moment_odd (k : ℕ) : ∫ x : ℝ, x ^ (2 * k + 1) * Real.exp (-1 * x ^ 2) = 0 := by
  have h := integral_neg_eq_self (fun x : ℝ => x ^ (2 * k + 1) * Real.exp (-1 * x ^ 2)) volume
  have e : ∀ x : ℝ, (-x) ^ (2 * k + 1) * Real.exp (-1 * (-x) ^ 2) = -(x ^ (2 * k + 1) * Real.exp (-1 * x ^ 2)) := by
    intro x
    rw [Odd.neg_pow ⟨k, rfl⟩, neg_sq]
    ring
  simp only [e] at h
  rw [integral_neg] at h
  linarith

theorem line_moment (n : ℕ) : ∫ x : ℝ, x ^ n * Real.exp (-1 * x ^ 2) =
    if Even n then ((n - 1)‼ : ℝ) / 2 ^ (n / 2) * Real.sqrt Real.pi else 0 := by
  rcases Nat.even_or_odd' n with ⟨k, rfl | rfl⟩
  · rw [line_moment_even, if_pos (by simp)]
    simp
  · rw [line_moment_odd, if_neg (by simp)]

/-- Integral of a monomial over the unit sphere. -/
theorem sph_moment (e : Fin 3 → ℕ) : sphInt (fun ω : Point => ∏ k, ω k ^ e k) =
    if ∀ k, Even (e k) then 4 * Real.pi * (∏ k, ((e k - 1)‼ : ℝ)) / ((∑ k, e k) + 1)‼ else 0 := by
  set n := ∑ k, e k with hn
  have hint : Integrable fun x : Point => ∏ k, (x k ^ e k * Real.exp (-1 * x k ^ 2)) :=
    Integrable.fintype_prod_dep fun k => integrable_line_moment (e k)
  have hval : ∫ x : Point, ∏ k, (x k ^ e k * Real.exp (-1 * x k ^ 2)) =
      ∏ k, (if Even (e k) then ((e k - 1)‼ : ℝ) / 2 ^ (e k / 2) * Real.sqrt Real.pi else 0) := by
    rw [integral_fintype_prod_volume_eq_prod (fun k (x : ℝ) => x ^ e k * Real.exp (-1 * x ^ 2))]
    exact Finset.prod_congr rfl fun k _ => line_moment (e k)
  have hpol := integral_polar _ hint
  have hsph : ∀ r : ℝ, sphInt (fun ω : Point => ∏ k, ((r * ω k) ^ e k * Real.exp (-1 * (r * ω k) ^ 2))) =
      r ^ n * Real.exp (-1 * r ^ 2) * sphInt (fun ω : Point => ∏ k, ω k ^ e k) := by
    intro r
    rw [← sphInt_const_mul_real]
    apply sphInt_congr
    intro ω hω
    rw [Finset.prod_mul_distrib, ← Real.exp_sum]
    have : ∑ k, -1 * (r * ω k) ^ 2 = -1 * r ^ 2 := by
      rw [← Finset.mul_sum]
      simp only [mul_pow]
      rw [← Finset.mul_sum, hω, mul_one]
    rw [this]
    simp only [mul_pow]
    rw [Finset.prod_mul_distrib, Finset.prod_pow_eq_pow_sum]
    ring
  simp only [hsph, smul_eq_mul] at hpol
  have hR : ∀ r : ℝ, r ^ 2 * (r ^ n * Real.exp (-1 * r ^ 2) * sphInt (fun ω : Point => ∏ k, ω k ^ e k)) =
      r ^ (n + 2) * Real.exp (-1 * r ^ 2) * sphInt (fun ω : Point => ∏ k, ω k ^ e k) := fun r => by ring
  simp only [hR] at hpol
  rw [integral_mul_const, hval] at hpol
  have hne : (∫ r in Ioi (0:ℝ), r ^ (n + 2) * Real.exp (-1 * r ^ 2)) ≠ 0 := by
    rw [moment_gamma (n + 2) one_pos]
    have : 0 < Real.Gamma ((((n + 2 : ℕ) : ℝ) + 1) / 2) := Real.Gamma_pos_of_pos (by positivity)
    rw [Real.one_rpow]
    positivity
  split_ifs with hev
  · have hev' : ∏ k, (if Even (e k) then ((e k - 1)‼ : ℝ) / 2 ^ (e k / 2) * Real.sqrt Real.pi else 0) =
        (∏ k, ((e k - 1)‼ : ℝ)) / 2 ^ (n / 2) * Real.sqrt Real.pi ^ 3 := by
      rw [Finset.prod_congr rfl fun k _ => if_pos (hev k), Finset.prod_mul_distrib, Finset.prod_div_distrib,
        Finset.prod_pow_eq_pow_sum]
      have : ∑ k, e k / 2 = n / 2 := by
        obtain ⟨a, ha⟩ := hev 0
        obtain ⟨b, hb⟩ := hev 1
        obtain ⟨c, hc⟩ := hev 2
        rw [hn]
        simp only [Fin.sum_univ_three]
        omega
      rw [this]
      simp
    obtain ⟨k, hk⟩ : Even n := by
      rw [hn]
      exact Finset.even_sum _ fun k _ => hev k
    rw [hev'] at hpol
    have h2 : n + 2 = 2 * (k + 1) := by omega
    have h3 : n / 2 = k := by omega
    rw [h2, moment_even (k + 1) one_pos, h3] at hpol
    have h4 : 2 * (k + 1) - 1 = n + 1 := by omega
    rw [h4] at hpol
    have hdf : ((n + 1)‼ : ℝ) ≠ 0 := by
      have := Nat.doubleFactorial_pos (n + 1)
      positivity
    have hs : Real.sqrt Real.pi * Real.sqrt Real.pi = Real.pi := Real.mul_self_sqrt Real.pi_pos.le
    have hs0 : Real.sqrt Real.pi ≠ 0 := (Real.sqrt_pos.2 Real.pi_pos).ne'
    simp only [one_pow, mul_one, div_one] at hpol
    rw [eq_div_iff hdf, ← hs]
    rw [pow_succ 2 (k+1), pow_succ 2 k] at hpol
    field_simp at hpol
    linear_combination -hpol
  · obtain ⟨k, hk⟩ := not_forall.1 hev
    have h0 : ∏ k, (if Even (e k) then ((e k - 1)‼ : ℝ) / 2 ^ (e k / 2) * Real.sqrt Real.pi else 0) = 0 :=
      Finset.prod_eq_zero (Finset.mem_univ k) (if_neg hk)
    rw [h0] at hpol
    exact (mul_eq_zero.1 hpol.symm).resolve_left hne

theorem factorial_two_mul (k : ℕ) : ((2 * k)! : ℂ) = 2 ^ k * (k ! : ℂ) * ((2 * k - 1)‼ : ℂ) := by
  rcases k with _ | k
  · simp
  have h1 := Nat.factorial_eq_mul_doubleFactorial (2 * k + 1)
  have h2 := Nat.doubleFactorial_two_mul (k + 1)
  rw [show 2 * k + 1 + 1 = 2 * (k + 1) by ring, h2] at h1
  rw [show 2 * (k + 1) - 1 = 2 * k + 1 by omega, h1]
  push_cast
  ring

/-- Integral over the unit sphere of a power of a (complex) linear form. -/
theorem sph_power (b : Fin 3 → ℂ) (N : ℕ) : sphInt (fun ω : Point => (∑ k, b k * (ω k : ℂ)) ^ N) =
    if Even N then 4 * (Real.pi : ℂ) * (∑ k, b k ^ 2) ^ (N / 2) / (N + 1) else 0 := by
  have h1 : ∀ ω : Point, (∑ k, b k * (ω k : ℂ)) ^ N = ∑ q ∈ Finset.piAntidiag Finset.univ N,
      ((Nat.multinomial Finset.univ q : ℂ) * ∏ k, b k ^ q k) * ((∏ k, ω k ^ q k : ℝ) : ℂ) := by
    intro ω
    rw [Finset.sum_pow_eq_sum_piAntidiag]
    refine Finset.sum_congr rfl fun q _ => ?_
    push_cast
    simp only [mul_pow, Finset.prod_mul_distrib]
    ring
  simp only [h1]
  rw [sphInt_sum _ (fun q _ => by fun_prop)]
  have h2 : ∀ q : Fin 3 → ℕ, sphInt (fun ω : Point => ((Nat.multinomial Finset.univ q : ℂ) * ∏ k, b k ^ q k) *
      ((∏ k, ω k ^ q k : ℝ) : ℂ)) = ((Nat.multinomial Finset.univ q : ℂ) * ∏ k, b k ^ q k) *
        (if ∀ k, Even (q k) then 4 * (Real.pi : ℂ) * (∏ k, ((q k - 1)‼ : ℂ)) / ((∑ k, q k) + 1)‼ else 0) := by
    intro q
    rw [sphInt_const_mul, sphInt_ofReal, sph_moment]
    split_ifs
    · push_cast
      rfl
    · simp
  rw [Finset.sum_congr rfl fun q _ => h2 q]
  split_ifs with hN
  · obtain ⟨n, rfl⟩ : ∃ n, N = 2 * n := by
      obtain ⟨n, hn⟩ := hN
      exact ⟨n, by omega⟩
    rw [show 2 * n / 2 = n by omega, Finset.sum_pow_eq_sum_piAntidiag, Finset.mul_sum, Finset.sum_div]
    symm
    apply Finset.sum_of_injOn (fun q k => 2 * q k)
    · intro q _ q' _ h
      funext k
      have := congrFun h k
      simp only at this
      omega
    · intro q hq
      simp only [Finset.mem_coe, Finset.mem_piAntidiag] at hq ⊢
      refine ⟨?_, fun i _ => Finset.mem_univ i⟩
      rw [← hq.1, Finset.mul_sum]
    · intro q hq hq'
      have : ¬ ∀ k, Even (q k) := by
        intro hev
        apply hq'
        refine ⟨fun k => q k / 2, ?_, ?_⟩
        · simp only [Finset.mem_coe, Finset.mem_piAntidiag] at hq ⊢
          refine ⟨?_, fun i _ => Finset.mem_univ i⟩
          have h := hq.1
          obtain ⟨a, ha⟩ := hev 0
          obtain ⟨b, hb⟩ := hev 1
          obtain ⟨c, hc⟩ := hev 2
          simp only [Fin.sum_univ_three] at h ⊢
          omega
        · funext k
          obtain ⟨a, ha⟩ := hev k
          simp only
          omega
      rw [if_neg this, mul_zero]
    · intro q hq
      have hq1 : ∑ k, q k = n := (Finset.mem_piAntidiag.1 hq).1
      rw [if_pos fun k => even_two_mul (q k)]
      have hs : ∑ k, 2 * q k = 2 * n := by rw [← Finset.mul_sum, hq1]
      rw [hs]
      have hm : (Nat.multinomial Finset.univ (fun k => 2 * q k) : ℂ) * ∏ k, ((2 * q k - 1)‼ : ℂ) =
          ((2 * n - 1)‼ : ℂ) * Nat.multinomial Finset.univ q := by
        have e1 := Nat.multinomial_spec Finset.univ (fun k => 2 * q k)
        have e2 := Nat.multinomial_spec Finset.univ q
        rw [hs] at e1
        rw [hq1] at e2
        have e1' : (∏ k, ((2 * q k)! : ℂ)) * (Nat.multinomial Finset.univ (fun k => 2 * q k) : ℂ) = ((2 * n)! : ℂ) := by
          exact_mod_cast e1
        have e2' : (∏ k, ((q k)! : ℂ)) * (Nat.multinomial Finset.univ q : ℂ) = (n ! : ℂ) := by
          exact_mod_cast e2
        rw [factorial_two_mul, ← e2'] at e1'
        rw [Finset.prod_congr rfl fun k _ => factorial_two_mul (q k), Finset.prod_mul_distrib, Finset.prod_mul_distrib,
          Finset.prod_pow_eq_pow_sum, hq1] at e1'
        have h0 : ((2:ℂ) ^ n * ∏ k, ((q k)! : ℂ)) ≠ 0 := by
          refine mul_ne_zero (by norm_num) (Finset.prod_ne_zero_iff.2 fun k _ => ?_)
          exact_mod_cast (Nat.factorial_pos (q k)).ne'
        apply mul_left_cancel₀ h0
        linear_combination e1'
      have hd : ((2 * n + 1)‼ : ℂ) = (2 * n + 1) * ((2 * n - 1)‼ : ℂ) := by
        rcases n with _ | n
        · simp
        · rw [show 2 * (n + 1) + 1 = (2 * n + 1) + 2 by ring, Nat.doubleFactorial_add_two,
            show 2 * (n + 1) - 1 = 2 * n + 1 by omega]
          push_cast
          ring
      have hd0 : ((2 * n - 1)‼ : ℂ) ≠ 0 := by exact_mod_cast (Nat.doubleFactorial_pos _).ne'
      have hn0 : (2 * (n:ℂ) + 1) ≠ 0 := by exact_mod_cast Nat.succ_ne_zero (2 * n)
      have hn0' : ((2 * n : ℕ) : ℂ) + 1 ≠ 0 := by exact_mod_cast Nat.succ_ne_zero (2 * n)
      rw [hd, div_eq_iff hn0']
      simp only [pow_mul]
      push_cast
      field_simp
      linear_combination (-(∏ k, (b k ^ 2) ^ q k)) * hm
  · refine Finset.sum_eq_zero fun q hq => ?_
    have : ¬ ∀ k, Even (q k) := by
      intro hev
      apply hN
      rw [← (Finset.mem_piAntidiag.1 hq).1]
      exact Finset.even_sum _ fun k _ => hev k
    rw [if_neg this, mul_zero]

end Libgrpp
