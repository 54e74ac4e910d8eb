import Verif.Lemmas.NullForm
import Mathlib.Algebra.Polynomial.Eval.Coeff
import Mathlib.RingTheory.Polynomial.Basic
import Mathlib.Topology.Algebra.Polynomial

/-! The generating function `(u + 2 z t - v t²)^l` of the solid harmonics of degree `l`. -/

namespace Libgrpp

open MeasureTheory Set Polynomial
open scoped Nat

section algebra

variable {R : Type*} [CommRing R]

/-- `u + 2 z t - v t²` as a polynomial in `t`. -/
noncomputable def genPoly (u v z : R) : R[X] := C u + C (2 * z) * X - C v * X ^ 2

/-- Coefficient of `t^j` in `(u + 2 z t - v t²)^l`. -/
noncomputable def harm (l j : ℕ) (u v z : R) : R := ((genPoly u v z) ^ l).coeff j

theorem harm_map {S : Type*} [CommRing S] (ph : R →+* S) (l j : ℕ) (u v z : R) : ph (harm l j u v z) = harm l j (ph u) (ph v) (ph z) := by
  unfold harm genPoly
  rw [← Polynomial.coeff_map]
  have h2 : ph 2 = 2 := map_ofNat ph 2
  simp [Polynomial.map_pow, h2]

theorem genPoly_natDegree (u v z : R) (l : ℕ) : ((genPoly u v z) ^ l).natDegree ≤ 2 * l := by
  have h : (genPoly u v z).natDegree ≤ 2 := by
    unfold genPoly
    compute_degree
  calc ((genPoly u v z) ^ l).natDegree ≤ l * (genPoly u v z).natDegree := natDegree_pow_le
    _ ≤ 2 * l := by nlinarith

theorem harm_sum (l : ℕ) (u v z t : R) : (u + 2 * z * t - v * t ^ 2) ^ l = ∑ j ∈ Finset.range (2 * l + 1), harm l j u v z * t ^ j := by
  have h : (u + 2 * z * t - v * t ^ 2) ^ l = ((genPoly u v z) ^ l).eval t := by
    simp [genPoly]
  rw [h, Polynomial.eval_eq_sum_range' (n := 2 * l + 1)]
  · rfl
  · have := genPoly_natDegree u v z l
    omega

/-- The explicit solid harmonic of degree `l` and order `m ≥ 0` (up to a factor). -/
def solid (l m : ℕ) (u v z : R) : R :=
  u ^ m * ∑ i ∈ Finset.range ((l - m) / 2 + 1), (-1) ^ i * (l.choose i : R) * ((2 * l - 2 * i).choose (l - m - 2 * i) : R) *
    z ^ (l - m - 2 * i) * (u * v + z ^ 2) ^ i

theorem solid_map {S : Type*} [CommRing S] (ph : R →+* S) (l m : ℕ) (u v z : R) : ph (solid l m u v z) = solid l m (ph u) (ph v) (ph z) := by
  unfold solid
  simp

theorem coeff_linear_pow (u z : R) (n k : ℕ) : ((C u + C z * X) ^ n).coeff k = if k ≤ n then (n.choose k : R) * z ^ k * u ^ (n - k) else 0 := by
  have h : (C u + C z * X : R[X]) ^ n = ∑ i ∈ Finset.range (n + 1), C ((n.choose i : R) * z ^ i * u ^ (n - i)) * X ^ i := by
    rw [add_comm, add_pow]
    refine Finset.sum_congr rfl fun i _ => ?_
    rw [mul_pow]
    simp only [map_mul, map_pow, map_natCast]
    ring
  rw [h, finsetSum_coeff]
  simp only [coeff_C_mul, coeff_X_pow]
  split_ifs with hk
  · rw [Finset.sum_eq_single k]
    · simp
    · intro i _ hi
      simp [hi.symm]
    · intro hk'
      simp only [Finset.mem_range] at hk'
      omega
  · refine Finset.sum_eq_zero fun i hi => ?_
    simp only [Finset.mem_range] at hi
    rw [if_neg (by omega), mul_zero]

theorem mul_genPoly (u v z : R) (l : ℕ) : C u ^ l * genPoly u v z ^ l =
    ∑ i ∈ Finset.range (l + 1), C ((-1) ^ i * (l.choose i : R) * (u * v + z ^ 2) ^ i) * ((C u + C z * X) ^ (2 * l - 2 * i) * X ^ (2 * i)) := by
  have h : C u * genPoly u v z = -(C (u * v + z ^ 2) * X ^ 2) + (C u + C z * X) ^ 2 := by
    unfold genPoly
    simp only [map_mul, map_add, map_pow, map_ofNat]
    ring
  rw [← mul_pow, h, add_pow]
  refine Finset.sum_congr rfl fun i hi => ?_
  have : i ≤ l := by
    simp only [Finset.mem_range] at hi
    omega
  rw [← pow_mul, Nat.mul_sub, neg_pow, mul_pow, ← pow_mul]
  simp only [map_mul, map_pow, map_neg, map_one, map_natCast]
  ring

theorem pow_mul_harm (u v z : R) (l m : ℕ) (hm : m ≤ l) : u ^ l * harm l (l - m) u v z = u ^ l * solid l m u v z := by
  have h : u ^ l * harm l (l - m) u v z = (C u ^ l * genPoly u v z ^ l).coeff (l - m) := by
    rw [← C_pow, coeff_C_mul]
    rfl
  rw [h, mul_genPoly, finsetSum_coeff]
  have hsub : ∑ i ∈ Finset.range (l + 1), (C ((-1) ^ i * (l.choose i : R) * (u * v + z ^ 2) ^ i) *
      ((C u + C z * X) ^ (2 * l - 2 * i) * X ^ (2 * i))).coeff (l - m) =
      ∑ i ∈ Finset.range ((l - m) / 2 + 1), (C ((-1) ^ i * (l.choose i : R) * (u * v + z ^ 2) ^ i) *
      ((C u + C z * X) ^ (2 * l - 2 * i) * X ^ (2 * i))).coeff (l - m) := by
    symm
    apply Finset.sum_subset
    · intro i hi
      simp only [Finset.mem_range] at hi ⊢
      omega
    · intro i _ hi
      simp only [Finset.mem_range] at hi
      rw [coeff_C_mul, coeff_mul_X_pow', if_neg (by omega), mul_zero]
  rw [hsub, solid, Finset.mul_sum, Finset.mul_sum]
  refine Finset.sum_congr rfl fun i hi => ?_
  simp only [Finset.mem_range] at hi
  rw [coeff_C_mul, coeff_mul_X_pow', if_pos (by omega), coeff_linear_pow, if_pos (by omega),
    show 2 * l - 2 * i - (l - m - 2 * i) = l + m by omega, pow_add]
  ring

end algebra

/-- The coefficients of the generating function are the explicit solid harmonics. -/
theorem harm_eq_solid (u v z : ℂ) (l m : ℕ) (hm : m ≤ l) : harm l (l - m) u v z = solid l m u v z := by
  have h := pow_mul_harm (R := ℂ[X]) X (C v) (C z) l m hm
  have h' := mul_left_cancel₀ (pow_ne_zero l X_ne_zero) h
  have := congrArg (evalRingHom u) h'
  rw [harm_map, solid_map] at this
  simpa using this

end Libgrpp
