import Verif.Lemmas.Angular

/-! Expansion of polynomials times exponentials on the unit sphere in real spherical harmonics. -/

namespace Libgrpp

theorem lm_sum {F : Type*} [AddCommMonoid F] (D : ℕ) (f : ℕ → ℤ → F) :
    ∑ p ∈ lmSet D, f p.1 p.2 = ∑ l ∈ Finset.range (D + 1), ∑ mi ∈ Finset.range (2 * l + 1), f l ((mi : ℤ) - l) := by
  unfold lmSet
  rw [Finset.sum_sigma]
  refine Finset.sum_congr rfl fun l _ => ?_
  refine Finset.sum_nbij' (fun m => (m + l).toNat) (fun i => (i : ℤ) - l) ?_ ?_ ?_ ?_ ?_
  · intro m hm
    simp only [Finset.mem_Icc, Finset.mem_range] at hm ⊢
    omega
  · intro i hi
    simp only [Finset.mem_Icc, Finset.mem_range] at hi ⊢
    omega
  · intro m hm
    simp only [Finset.mem_Icc] at hm
    omega
  · intro i _
    omega
  · intro m hm
    simp only [Finset.mem_Icc] at hm
    rw [show (((m + l).toNat : ℕ) : ℤ) - l = m by omega]

/-- A real function on the sphere spanned by harmonics of degree at most `D`. -/
def RSpanned (D : ℕ) (f : Point → ℝ) : Prop := Spanned D fun ω => (f ω : ℂ)

theorem RSpanned.mono {D D' : ℕ} (h : D ≤ D') {f : Point → ℝ} (hf : RSpanned D f) : RSpanned D' f := Spanned.mono h hf

theorem rspanned_monomial (a b c : ℕ) : RSpanned (a + b + c) fun ω => ω 0 ^ a * ω 1 ^ b * ω 2 ^ c :=
  (Spanned.monomial a b c).congr fun ω _ => by push_cast; ring

theorem spanned_cartSum (D l : ℕ) (f : ℕ → ℕ → ℕ → Point → ℂ) (hf : ∀ a b c, a + b + c = l → Spanned D (f a b c)) :
    Spanned D fun ω => cartSum l fun a b c => f a b c ω := by
  unfold cartSum
  refine Spanned.sum _ fun a _ => Spanned.sum _ fun b _ => ?_
  by_cases q : a + b ≤ l
  · simpa only [if_pos q] using hf a b _ (by omega)
  · simpa only [if_neg q] using Spanned.zero

theorem ofReal_cartSum (l : ℕ) (f : ℕ → ℕ → ℕ → ℝ) : ((cartSum l f : ℝ) : ℂ) = cartSum l fun a b c => (f a b c : ℂ) := by
  unfold cartSum
  push_cast
  refine Finset.sum_congr rfl fun a _ => Finset.sum_congr rfl fun b _ => ?_
  split_ifs <;> rfl

/-- A harmonic times a monomial. -/
theorem rspanned_rsh_monomial (l : ℕ) (m : ℤ) (hm : m.natAbs ≤ l) (a b c : ℕ) :
    RSpanned (l + (a + b + c)) fun ω => rsh l m ω * (ω 0 ^ a * ω 1 ^ b * ω 2 ^ c) := by
  have h := spanned_cartSum (l + (a + b + c)) l (fun p q r ω => (sphVal l m p q : ℂ) * ((ω 0 : ℂ) ^ (a + p) * (ω 1 : ℂ) ^ (b + q) * (ω 2 : ℂ) ^ (c + r)))
    (fun p q r hpqr => (((Spanned.monomial (a + p) (b + q) (c + r)).congr fun ω _ => by ring).mono (by omega)).smul _)
  refine h.congr fun ω hω => ?_
  beta_reduce
  rw [← sphVal_sum l m hm ω hω, mul_comm, ← cartSum_mul_left, ofReal_cartSum]
  refine cartSum_congr l fun p q r _ => ?_
  push_cast
  ring

theorem RSpanned.expand {D : ℕ} {f : Point → ℝ} (hf : RSpanned D f) (ω : Point) (hω : ∑ k, ω k ^ 2 = 1) :
    f ω = ∑ l ∈ Finset.range (D + 1), ∑ mi ∈ Finset.range (2 * l + 1),
      sphInt (fun ν => f ν * rsh l ((mi : ℤ) - l) ν) * rsh l ((mi : ℤ) - l) ω := by
  obtain ⟨c, hc⟩ := hf
  have h : (f ω : ℂ) = ∑ p ∈ lmSet D, ((sphInt (fun ν => f ν * rsh p.1 p.2 ν) * rsh p.1 p.2 ω : ℝ) : ℂ) := by
    refine (hc ω hω).trans ?_
    refine Finset.sum_congr rfl fun p hp => ?_
    have hp := mem_lmSet.1 hp
    have := Spanned.coeff hc p.1 p.2 hp.2
    rw [if_pos hp.1] at this
    push_cast
    rw [← sphInt_ofReal]
    push_cast
    rw [this]
  rw [← lm_sum D fun l m => sphInt (fun ν => f ν * rsh l m ν) * rsh l m ω]
  exact_mod_cast h

/-- Integral of a spanned function with an exponential. -/
theorem RSpanned.exp {D : ℕ} {f : Point → ℝ} (hf : RSpanned D f) (κ : ℝ) (n : Point) (hn : ∑ k, n k ^ 2 = 1) :
    sphInt (fun ω => f ω * Real.exp (κ * rdot n ω)) = ∑ l ∈ Finset.range (D + 1), ∑ mi ∈ Finset.range (2 * l + 1),
      sphInt (fun ν => f ν * rsh l ((mi : ℤ) - l) ν) * (4 * Real.pi * besselI l κ * rsh l ((mi : ℤ) - l) n) := by
  have hc : Continuous fun ω : Point => Real.exp (κ * rdot n ω) := Real.continuous_exp.comp (continuous_const.mul (continuous_rdot n))
  have h := Spanned.integral_mul hf (g := fun ω => (Real.exp (κ * rdot n ω) : ℂ)) (Complex.continuous_ofReal.comp hc)
  have h' : ((sphInt (fun ω => f ω * Real.exp (κ * rdot n ω)) : ℝ) : ℂ) =
      ∑ p ∈ lmSet D, ((sphInt (fun ν => f ν * rsh p.1 p.2 ν) * (4 * Real.pi * besselI p.1 κ * rsh p.1 p.2 n) : ℝ) : ℂ) := by
    rw [← sphInt_ofReal]
    simp only [Complex.ofReal_mul _ (Real.exp _)]
    rw [h]
    refine Finset.sum_congr rfl fun p hp => ?_
    have hp := mem_lmSet.1 hp
    have e := rsh_exp p.1 p.2 hp.2 κ n hn
    have e' : sphInt (fun ω => (rsh p.1 p.2 ω : ℂ) * (Real.exp (κ * rdot n ω) : ℂ)) = ((4 * Real.pi * besselI p.1 κ * rsh p.1 p.2 n : ℝ) : ℂ) := by
      rw [← e, ← sphInt_ofReal]
      simp only [Complex.ofReal_mul _ (Real.exp _)]
    rw [e', Complex.ofReal_mul (sphInt _), ← sphInt_ofReal]
    congr 2
    funext ω
    rw [Complex.ofReal_mul]
  rw [← lm_sum D fun l m => sphInt (fun ν => f ν * rsh l m ν) * (4 * Real.pi * besselI l κ * rsh l m n)]
  exact_mod_cast h'

end Libgrpp
