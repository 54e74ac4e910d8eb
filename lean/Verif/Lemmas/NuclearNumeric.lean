import Verif.Lemmas.NuclearAttraction
import Verif.Props.NuclearModels
import Verif.Props.FermiSk
import Verif.Props.Bessel

/-! Nuclear potentials in the numerical routine: bounds, regrouping of the partial-wave sum by radial integrals. -/

namespace Libgrpp

open MeasureTheory Set Filter Topology

theorem coulombic_point (Z : ℝ) : Coulombic fun r => -Z / r := by
  refine coulombic_of_bound (M := |Z|) ?_ (abs_nonneg Z) fun r hr => ?_
  · exact continuousOn_const.div continuousOn_id fun r hr => (ne_of_gt hr)
  · rw [abs_div, abs_neg, abs_of_pos hr]

theorem pairScreened_point (A B : Shell) (C : Point) (Z : ℝ) (m n : Nat) : pairScreened A B C (fun r => -Z / r) m n =
    -Z * ∑ i ∈ Finset.range A.num, ∑ j ∈ Finset.range B.num, pairCoef A B i j *
      ∫ r, primFn A.L A.origin (A.comp m) (A.alphaAt i) r * (radius C r)⁻¹ * primFn B.L B.origin (B.comp n) (B.alphaAt j) r := by
  rw [pairScreened_eq, Finset.mul_sum]
  refine Finset.sum_congr rfl fun i _ => ?_
  rw [Finset.mul_sum]
  refine Finset.sum_congr rfl fun j _ => ?_
  have e : ∀ r, primFn A.L A.origin (A.comp m) (A.alphaAt i) r * (-Z / radius C r) * primFn B.L B.origin (B.comp n) (B.alphaAt j) r =
      -Z * (primFn A.L A.origin (A.comp m) (A.alphaAt i) r * (radius C r)⁻¹ * primFn B.L B.origin (B.comp n) (B.alphaAt j) r) := by
    intro r
    rw [div_eq_mul_inv]
    ring
  simp only [e]
  rw [integral_const_mul]
  ring

/-- The partial-wave sum collected by radial integrals. -/
theorem regroup (x y : Comp) (lmax D : ℕ) (hD : x.1 + x.2.1 + x.2.2 + y.1 + y.2.1 + y.2.2 ≤ D) (w : ℕ → Comp → Comp → ℝ) (Q : ℕ → ℕ → ℝ) :
    ∑ p ∈ box x, ∑ q ∈ box y, ∑ lam ∈ Finset.range (lmax + 1), w lam p q * Q lam (p.1 + p.2.1 + p.2.2 + q.1 + q.2.1 + q.2.2) =
      ∑ lam ∈ Finset.range (lmax + 1), ∑ N ∈ Finset.range (D + 1),
        (∑ p ∈ box x, ∑ q ∈ box y, if p.1 + p.2.1 + p.2.2 + q.1 + q.2.1 + q.2.2 = N then w lam p q else 0) * Q lam N := by
  have e : ∀ p ∈ box x, ∀ q ∈ box y, ∀ lam, w lam p q * Q lam (p.1 + p.2.1 + p.2.2 + q.1 + q.2.1 + q.2.2) =
      ∑ N ∈ Finset.range (D + 1), (if p.1 + p.2.1 + p.2.2 + q.1 + q.2.1 + q.2.2 = N then w lam p q else 0) * Q lam N := by
    intro p hp q hq lam
    rw [mem_box] at hp hq
    rw [Finset.sum_eq_single_of_mem (p.1 + p.2.1 + p.2.2 + q.1 + q.2.1 + q.2.2) (Finset.mem_range.2 (by omega)), if_pos rfl]
    intro b _ hb
    rw [if_neg (Ne.symm hb), zero_mul]
  calc _ = ∑ p ∈ box x, ∑ q ∈ box y, ∑ lam ∈ Finset.range (lmax + 1), ∑ N ∈ Finset.range (D + 1),
        (if p.1 + p.2.1 + p.2.2 + q.1 + q.2.1 + q.2.2 = N then w lam p q else 0) * Q lam N :=
        Finset.sum_congr rfl fun p hp => Finset.sum_congr rfl fun q hq => Finset.sum_congr rfl fun lam _ => e p hp q hq lam
    _ = ∑ lam ∈ Finset.range (lmax + 1), ∑ N ∈ Finset.range (D + 1), ∑ p ∈ box x, ∑ q ∈ box y,
        (if p.1 + p.2.1 + p.2.2 + q.1 + q.2.1 + q.2.2 = N then w lam p q else 0) * Q lam N := by
        have h1 : ∀ p ∈ box x, ∑ q ∈ box y, ∑ lam ∈ Finset.range (lmax + 1), ∑ N ∈ Finset.range (D + 1),
            (if p.1 + p.2.1 + p.2.2 + q.1 + q.2.1 + q.2.2 = N then w lam p q else 0) * Q lam N =
            ∑ lam ∈ Finset.range (lmax + 1), ∑ N ∈ Finset.range (D + 1), ∑ q ∈ box y,
              (if p.1 + p.2.1 + p.2.2 + q.1 + q.2.1 + q.2.2 = N then w lam p q else 0) * Q lam N := by
          intro p _
          rw [Finset.sum_comm]
          exact Finset.sum_congr rfl fun lam _ => Finset.sum_comm
        rw [Finset.sum_congr rfl h1, Finset.sum_comm]
        exact Finset.sum_congr rfl fun lam _ => Finset.sum_comm
    _ = _ := by
        refine Finset.sum_congr rfl fun lam _ => Finset.sum_congr rfl fun N _ => ?_
        rw [Finset.sum_mul]
        exact Finset.sum_congr rfl fun p _ => by rw [Finset.sum_mul]

theorem coulombic_of_nucleus {ρ : ℝ → ℝ} {Z : ℝ} (hQ : totalCharge ρ = Z) (hc : ContinuousOn (electronEnergy ρ) (Ioi 0))
    (h0 : Z = 0 → ∀ r, 0 < r → electronEnergy ρ r = 0) : Coulombic (electronEnergy ρ) := by
  by_cases hZ : Z = 0
  · exact coulombic_of_bound hc le_rfl fun r hr => by rw [h0 hZ r hr, abs_zero, zero_div]
  · refine coulombic_energy hc ?_
    by_contra hn
    exact hZ (hQ.symm.trans (integral_undef hn))

theorem Coulombic.congr {V V' : ℝ → ℝ} (h : Coulombic V) (e : ∀ r, 0 < r → V r = V' r) : Coulombic V' := by
  obtain ⟨h1, K, h2⟩ := h
  exact ⟨h1.congr fun r hr => (e r hr).symm, K, fun r hr => by rw [← e r hr]; exact h2 r hr⟩

theorem coulombic_ball (Z : ℝ) {R : ℝ} (hR : 0 < R) : Coulombic (electronEnergy fun s => densBall s Z R) := by
  obtain ⟨h1, -, h2, h3, -⟩ := ball_nucleus Z hR
  refine coulombic_of_nucleus h1 (h3.congr fun r hr => (h2 r hr).symm) fun hZ r hr => ?_
  rw [← h2 r hr, hZ]
  simp [potBall]

theorem coulombic_gauss (Z : ℝ) {R : ℝ} (hR : 0 < R) : Coulombic (electronEnergy fun s => densGauss s Z R) := by
  obtain ⟨h1, -, h2, h3⟩ := gauss_nucleus Z hR
  have hc : ContinuousOn (fun r => potGauss r Z R) (Ioi 0) := by
    simp only [h3]
    have he : Continuous erfC := by
      unfold erfC
      refine continuous_const.mul ?_
      exact intervalIntegral.continuous_primitive (fun a b => (by fun_prop : Continuous fun t : ℝ => Real.exp (-t ^ 2)).intervalIntegrable a b) 0
    refine ContinuousOn.div ?_ continuousOn_id fun r hr => ne_of_gt hr
    exact (continuous_const.mul (he.comp (continuous_const.mul continuous_id))).continuousOn
  refine coulombic_of_nucleus h1 (hc.congr fun r hr => (h2 r hr).symm) fun hZ r hr => ?_
  rw [← h2 r hr, h3, hZ]
  simp

theorem coulombic_bubble {sk : SkFun} (h : ExactSk sk) (Z k : ℝ) {c a : ℝ} (hc : 0 < c) (ha : 0 < a)
    (hN : bubbleNorm sk c a k ≠ .ok 0) :
    ∃ ρ : ℝ → ℝ, (∀ r, densBubble sk r Z c a k = .ok (ρ r)) ∧ totalCharge ρ = Z ∧
      (∀ r, 0 < r → potBubble sk r Z c a k = .ok (electronEnergy ρ r)) ∧ Coulombic (electronEnergy ρ) := by
  obtain ⟨ρ, h1, h2, -, h3, h4⟩ := bubble_nucleus h Z k hc ha hN
  refine ⟨ρ, h1, h2, h3, coulombic_of_nucleus h2 h4 fun hZ r hr => ?_⟩
  have e : ∀ s, ρ s = 0 := by
    intro s
    have h5 := h1 s
    rw [densBubble, bubbleNorm_exact h hc ha k, Outcome.ok_bind, hZ] at h5
    simp at h5
    exact h5.symm
  simp [electronEnergy, e]

theorem coulombic_fermi (Z : ℝ) {c a : ℝ} (hc : 0 < c) (ha : 0 < a) : Coulombic (electronEnergy (fermiDensity Z c a)) := by
  have hN := bubbleN_pos hc ha (le_refl (0 : ℝ))
  obtain ⟨sk, hsk⟩ := exactSk_exists
  have hN' : bubbleNorm sk c a 0 ≠ .ok 0 := by
    rw [bubbleNorm_exact hsk hc ha 0]
    intro h
    exact hN.ne' (Outcome.ok.inj h)
  obtain ⟨ρ, h1, -, -, h4⟩ := coulombic_bubble hsk Z 0 hc ha hN'
  have hρ : ρ = fermiDensity Z c a := by
    rw [fermiDensity_eq Z hc ha]
    funext s
    have h := h1 s
    rw [densBubble, bubbleNorm_exact hsk hc ha 0, Outcome.ok_bind] at h
    exact (Outcome.ok.inj h).symm
  rwa [hρ] at h4

end Libgrpp
