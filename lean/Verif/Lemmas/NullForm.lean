import Verif.Lemmas.SphereMoment
import Mathlib.Algebra.Polynomial.Roots
import Mathlib.Algebra.Polynomial.Coeff

/-! Integrals over the unit sphere of `(a·ω)^l (k·ω)^n` for a null vector `a` (`a·a = 0`). -/

namespace Libgrpp

open MeasureTheory Set
open scoped Nat Polynomial

/-- `Σ a_k b_k` -/
noncomputable def cdot (a b : Fin 3 → ℂ) : ℂ := ∑ k, a k * b k

theorem poly_coeff_ext {N : ℕ} {f g : ℕ → ℂ} (h : ∀ s : ℂ, ∑ i ∈ Finset.range N, f i * s ^ i = ∑ i ∈ Finset.range N, g i * s ^ i) :
    ∀ i < N, f i = g i := by
  intro i hi
  have hp : (∑ i ∈ Finset.range N, Polynomial.C (f i) * Polynomial.X ^ i) = ∑ i ∈ Finset.range N, Polynomial.C (g i) * Polynomial.X ^ i := by
    apply Polynomial.funext
    intro s
    simp only [Polynomial.eval_finsetSum, Polynomial.eval_mul, Polynomial.eval_C, Polynomial.eval_pow, Polynomial.eval_X]
    exact h s
  have := congrArg (fun p => Polynomial.coeff p i) hp
  simpa [Polynomial.finsetSum_coeff, Polynomial.coeff_X_pow, hi] using this

/-- The factor in `∫ (a·ω)^l (k·ω)^(l+2j) dω`. -/
noncomputable def nullC (l j : ℕ) : ℂ :=
  4 * (Real.pi : ℂ) / (2 * l + 2 * j + 1) * (l + j).choose l * 2 ^ l / (2 * l + 2 * j).choose l

theorem sph_null_aux (a k : Fin 3 → ℂ) (ha : cdot a a = 0) (N l : ℕ) (hl : l ≤ N) :
    (N.choose l : ℂ) * sphInt (fun ω : Point => (cdot a fun i => ω i) ^ l * (cdot k fun i => ω i) ^ (N - l)) =
      if Even N then 4 * (Real.pi : ℂ) / (N + 1) * ((N / 2).choose l * 2 ^ l * cdot a k ^ l * cdot k k ^ (N / 2 - l)) else 0 := by
  have key := fun s : ℂ => sph_power (fun i => s * a i + k i) N
  have h1 : ∀ s : ℂ, sphInt (fun ω : Point => (∑ i, (s * a i + k i) * (ω i : ℂ)) ^ N) =
      ∑ i ∈ Finset.range (N + 1), ((N.choose i : ℂ) *
        sphInt (fun ω : Point => (cdot a fun i => ω i) ^ i * (cdot k fun i => ω i) ^ (N - i))) * s ^ i := by
    intro s
    have e : ∀ ω : Point, (∑ i, (s * a i + k i) * (ω i : ℂ)) ^ N = ∑ i ∈ Finset.range (N + 1),
        ((N.choose i : ℂ) * s ^ i) * ((cdot a fun i => ω i) ^ i * (cdot k fun i => ω i) ^ (N - i)) := by
      intro ω
      have : ∑ i, (s * a i + k i) * (ω i : ℂ) = s * (cdot a fun i => ω i) + (cdot k fun i => ω i) := by
        unfold cdot
        rw [Finset.mul_sum, ← Finset.sum_add_distrib]
        exact Finset.sum_congr rfl fun i _ => by ring
      rw [this, add_pow]
      refine Finset.sum_congr rfl fun i _ => ?_
      rw [mul_pow]
      ring
    simp only [e]
    rw [sphInt_sum _ fun i _ => by unfold cdot; fun_prop]
    refine Finset.sum_congr rfl fun i _ => ?_
    rw [sphInt_const_mul]
    ring
  have h2 : ∀ s : ℂ, ∑ i, (s * a i + k i) ^ 2 = 2 * s * cdot a k + cdot k k := by
    intro s
    have : ∑ i, (s * a i + k i) ^ 2 = s ^ 2 * cdot a a + 2 * s * cdot a k + cdot k k := by
      unfold cdot
      simp only [Finset.mul_sum, ← Finset.sum_add_distrib]
      exact Finset.sum_congr rfl fun i _ => by ring
    rw [this, ha]
    ring
  simp only [h1, h2] at key
  have key2 : ∀ s : ℂ, ∑ i ∈ Finset.range (N + 1), ((N.choose i : ℂ) *
        sphInt (fun ω : Point => (cdot a fun i => ω i) ^ i * (cdot k fun i => ω i) ^ (N - i))) * s ^ i =
      ∑ i ∈ Finset.range (N + 1), (if Even N then 4 * (Real.pi : ℂ) / (N + 1) *
        ((N / 2).choose i * 2 ^ i * cdot a k ^ i * cdot k k ^ (N / 2 - i)) else 0) * s ^ i := by
    intro s
    rw [key s]
    split_ifs with hN
    · rw [add_pow]
      have : ∑ i ∈ Finset.range (N + 1), 4 * (Real.pi : ℂ) / (N + 1) *
          ((N / 2).choose i * 2 ^ i * cdot a k ^ i * cdot k k ^ (N / 2 - i)) * s ^ i =
          ∑ i ∈ Finset.range (N / 2 + 1), 4 * (Real.pi : ℂ) / (N + 1) *
          ((N / 2).choose i * 2 ^ i * cdot a k ^ i * cdot k k ^ (N / 2 - i)) * s ^ i := by
        symm
        apply Finset.sum_subset
        · intro i hi
          simp only [Finset.mem_range] at hi ⊢
          omega
        · intro i _ hi
          simp only [Finset.mem_range] at hi
          rw [Nat.choose_eq_zero_of_lt (by omega)]
          simp
      rw [this, Finset.mul_sum, Finset.sum_div]
      refine Finset.sum_congr rfl fun i _ => ?_
      rw [mul_pow, mul_pow]
      ring
    · simp
  exact poly_coeff_ext key2 l (by omega)

theorem sph_null_even (a k : Fin 3 → ℂ) (ha : cdot a a = 0) (l j : ℕ) :
    sphInt (fun ω : Point => (cdot a fun i => ω i) ^ l * (cdot k fun i => ω i) ^ (l + 2 * j)) =
      nullC l j * cdot a k ^ l * cdot k k ^ j := by
  have h := sph_null_aux a k ha (2 * l + 2 * j) l (by omega)
  rw [if_pos (by exact ⟨l + j, by ring⟩), show (2 * l + 2 * j) / 2 = l + j by omega, show 2 * l + 2 * j - l = l + 2 * j by omega,
    show l + j - l = j by omega] at h
  have hc : ((2 * l + 2 * j).choose l : ℂ) ≠ 0 := by
    exact_mod_cast (Nat.choose_pos (by omega)).ne'
  rw [nullC, div_mul_eq_mul_div, div_mul_eq_mul_div, eq_div_iff hc, mul_comm, h]
  push_cast
  ring

theorem sph_null_odd (a k : Fin 3 → ℂ) (ha : cdot a a = 0) (l n : ℕ) (h : ¬ Even (n + l)) :
    sphInt (fun ω : Point => (cdot a fun i => ω i) ^ l * (cdot k fun i => ω i) ^ n) = 0 := by
  have h' := sph_null_aux a k ha (n + l) l (by omega)
  rw [if_neg h, Nat.add_sub_cancel] at h'
  have hc : ((n + l).choose l : ℂ) ≠ 0 := by exact_mod_cast (Nat.choose_pos (by omega)).ne'
  exact (mul_eq_zero.1 h').resolve_left hc

theorem sph_null_lt (a k : Fin 3 → ℂ) (ha : cdot a a = 0) (l n : ℕ) (h : n < l) :
    sphInt (fun ω : Point => (cdot a fun i => ω i) ^ l * (cdot k fun i => ω i) ^ n) = 0 := by
  have h' := sph_null_aux a k ha (n + l) l (by omega)
  rw [Nat.add_sub_cancel, Nat.choose_eq_zero_of_lt (show (n + l) / 2 < l by omega)] at h'
  have hc : ((n + l).choose l : ℂ) ≠ 0 := by exact_mod_cast (Nat.choose_pos (by omega)).ne'
  refine (mul_eq_zero.1 (h'.trans ?_)).resolve_left hc
  simp

end Libgrpp
