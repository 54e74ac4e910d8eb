import Verif.Lemmas.PlaneWaveSum
import Verif.Lemmas.BesselSound
import Verif.Props.SphericalHarmonics
import Verif.Lemmas.Mono

/-! Plane-wave expansion in terms of the harmonics evaluated by the code, including the null vector. -/

namespace Libgrpp

/-- `|k|` -/
noncomputable def vnorm (k : Point) : ℝ := Real.sqrt (∑ i, k i ^ 2)

/-- `S_lm` in the direction of `k`, with the values used for the null vector. -/
noncomputable def rshDir (l : ℕ) (m : ℤ) (k : Point) : ℝ :=
  if 1e-14 < vnorm k then rsh l m fun i => k i / vnorm k else if l = 0 then Real.sqrt (1 / (4 * Real.pi)) else 0

theorem evalRsh_dir (l : ℕ) (m : ℤ) (hl : l ≤ 40) (hm : m.natAbs ≤ l) (k : Point) : evalRsh l m k = .ok (rshDir l m k) := by
  unfold rshDir
  split_ifs with h h'
  · exact evaluate_rsh_correct l m hl hm k h
  · rw [evaluate_rsh_zero_vector l m hl hm k h, if_pos h']
  · rw [evaluate_rsh_zero_vector l m hl hm k h, if_neg h']

/-- A vector the code recognises as what it is: null or not shorter than the threshold. -/
def VecOk (k : Point) : Prop := vnorm k = 0 ∨ 1e-14 < vnorm k

theorem vnorm_nonneg (k : Point) : 0 ≤ vnorm k := Real.sqrt_nonneg _

theorem vnorm_eq_zero {k : Point} (h : vnorm k = 0) (i : Fin 3) : k i = 0 := by
  unfold vnorm at h
  have h2 := (Real.sqrt_eq_zero (Finset.sum_nonneg fun i _ => sq_nonneg (k i))).1 h
  have := (Finset.sum_eq_zero_iff_of_nonneg (fun i _ => sq_nonneg (k i))).1 h2 i (Finset.mem_univ i)
  exact pow_eq_zero_iff (two_ne_zero) |>.1 this

theorem rsh_zero_zero (ω : Point) : rsh 0 0 ω = Real.sqrt (1 / (4 * Real.pi)) := by
  have hn : rshNorm 0 0 = Real.sqrt (1 / (4 * Real.pi)) := by
    rw [rshNorm, if_pos rfl, mul_one_div, ← Real.sqrt_div' _ (by norm_num)]
    congr 1
    simp only [Nat.factorial_zero, Nat.cast_one, Nat.cast_zero]
    ring
  simp [rsh, hn, legendreDeriv]

theorem besselI_zero_arg (l : ℕ) : besselI l 0 = if l = 0 then 1 else 0 := by
  have := besselK_zero_arg l
  rwa [besselK, neg_zero, Real.exp_zero, one_mul] at this

/-- The plane-wave expansion against a polynomial on the sphere. -/
theorem RSpanned.exp_dir {D : ℕ} {f : Point → ℝ} (hf : RSpanned D f) (r : ℝ) (k : Point) (hk : VecOk k) :
    sphInt (fun ω => f ω * Real.exp (r * ∑ i, k i * ω i)) = ∑ l ∈ Finset.range (D + 1), ∑ mi ∈ Finset.range (2 * l + 1),
      sphInt (fun ν => f ν * rsh l ((mi : ℤ) - l) ν) * (4 * Real.pi * besselI l (r * vnorm k) * rshDir l ((mi : ℤ) - l) k) := by
  rcases hk with h0 | hk
  · have e := hf.exp 0 (fun i => if i = 0 then 1 else 0) (by simp)
    have e1 : ∀ ω : Point, r * ∑ i, k i * ω i = 0 * rdot (fun i => if i = 0 then 1 else 0) ω := by
      intro ω
      simp [vnorm_eq_zero h0]
    simp only [e1]
    rw [e]
    refine Finset.sum_congr rfl fun l _ => Finset.sum_congr rfl fun mi hmi => ?_
    rw [h0, mul_zero, besselI_zero_arg]
    rcases Nat.eq_zero_or_pos l with rfl | hl
    · have : mi = 0 := by simpa using hmi
      subst this
      have hd : rshDir 0 0 k = Real.sqrt (1 / (4 * Real.pi)) := by
        unfold rshDir
        rw [if_neg (by rw [h0]; norm_num), if_pos rfl]
      norm_num [rsh_zero_zero, hd]
    · rw [if_neg (by omega)]
      ring
  · obtain ⟨h1, h2⟩ := rshUnit_sphere k hk
    have hκ : vnorm k ≠ 0 := (lt_trans (by norm_num) hk).ne'
    have e := hf.exp (r * vnorm k) (rshUnit k) h2
    have e2 : ∀ ω : Point, r * vnorm k * rdot (rshUnit k) ω = r * ∑ i, k i * ω i := by
      intro ω
      rw [h1, rdot, mul_assoc, Finset.mul_sum]
      congr 1
      refine Finset.sum_congr rfl fun i _ => ?_
      change vnorm k * (k i / vnorm k * ω i) = _
      field_simp
    simp only [e2] at e
    rw [e]
    refine Finset.sum_congr rfl fun l _ => Finset.sum_congr rfl fun mi _ => ?_
    unfold rshDir
    rw [if_pos hk, h1]
    rfl

/-- The type-1 angular integral. -/
noncomputable def angOmega (lam : ℕ) (p : Comp) (k : Point) : ℝ :=
  ∑ mi ∈ Finset.range (2 * lam + 1), sphInt (fun ω => monoAt p ω * rsh lam ((mi : ℤ) - lam) ω) * rshDir lam ((mi : ℤ) - lam) k

theorem angType1_dir (lam : ℕ) (p : Comp) (k : Point) (hlam : lam ≤ 40)
    (h : p.1 + p.2.1 + p.2.2 + lam ≤ 29 ∨ (p.1 + p.2.1 + p.2.2 + lam) % 2 = 1) :
    angType1 lam p.1 p.2.1 p.2.2 k = .ok (angOmega lam p k) := by
  unfold angType1 angOmega
  rw [forRange_sum (fun mi => sphInt (fun ω => monoAt p ω * rsh lam ((mi : ℤ) - lam) ω) * rshDir lam ((mi : ℤ) - lam) k), zero_add]
  intro mi hmi s
  simp only []
  have hm : ((mi : ℤ) - lam).natAbs ≤ lam := by omega
  rw [angType1_inner lam _ _ _ _ hlam hm h, evalRsh_dir lam _ hlam hm]
  simp only [Outcome.ok_bind]
  congr 4
  funext ω
  unfold monoAt
  ring

theorem rspanned_monoAt (p : Comp) : RSpanned (p.1 + p.2.1 + p.2.2) (monoAt p) := rspanned_monomial _ _ _

/-- `∫ ω^p exp(r k·ω) dω` -/
theorem sphInt_mono_exp (p : Comp) {D : ℕ} (hD : p.1 + p.2.1 + p.2.2 ≤ D) (r : ℝ) (k : Point) (hk : VecOk k) :
    sphInt (fun ω => monoAt p ω * Real.exp (r * ∑ i, k i * ω i)) =
      4 * Real.pi * ∑ l ∈ Finset.range (D + 1), besselI l (r * vnorm k) * angOmega l p k := by
  rw [((rspanned_monoAt p).mono hD).exp_dir r k hk, Finset.mul_sum]
  refine Finset.sum_congr rfl fun l _ => ?_
  unfold angOmega
  rw [Finset.mul_sum, Finset.mul_sum]
  refine Finset.sum_congr rfl fun mi _ => ?_
  ring

end Libgrpp
