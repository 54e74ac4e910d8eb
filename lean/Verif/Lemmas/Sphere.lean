import Verif.Model.SpecSphere
import Mathlib.MeasureTheory.Integral.Prod
import Mathlib.MeasureTheory.Integral.Bochner.Set

namespace Libgrpp

open MeasureTheory Set

local notation "E3" => EuclideanSpace ℝ (Fin 3)

variable {F : Type*} [NormedAddCommGroup F] [NormedSpace ℝ F]

theorem sphere_norm (ω : Metric.sphere (0 : E3) 1) : ∑ k, ((ω : E3) k) ^ 2 = 1 := by
  have h : ‖(ω : E3)‖ = 1 := by simp
  have h2 := EuclideanSpace.norm_sq_eq (ω : E3)
  rw [h] at h2
  simpa using h2.symm

/-- Integral over space as an iterated integral over the sphere and the radius. -/
theorem polar_prod (f : Point → F) (hf : Integrable f) :
    Integrable (fun p : Metric.sphere (0 : E3) 1 × Ioi (0:ℝ) => f (fun k => (p.2 : ℝ) * (p.1 : E3) k))
      ((volume : Measure E3).toSphere.prod (Measure.volumeIoiPow 2)) ∧
    ∫ x, f x = ∫ p : Metric.sphere (0 : E3) 1 × Ioi (0:ℝ), f (fun k => (p.2 : ℝ) * (p.1 : E3) k)
      ∂((volume : Measure E3).toSphere.prod (Measure.volumeIoiPow 2)) := by
  have hd : Module.finrank ℝ E3 - 1 = 2 := by simp
  have hmp := (EuclideanSpace.volume_preserving_symm_measurableEquiv_toLp (Fin 3))
  have h1 : ∫ x, f x = ∫ x : E3, f (fun k => x k) :=
    (hmp.integral_comp (MeasurableEquiv.measurableEmbedding _) f).symm
  have h1i : Integrable (fun x : E3 => f (fun k => x k)) :=
    (hmp.integrable_comp_emb (MeasurableEquiv.measurableEmbedding _)).2 hf
  have h2 := (volume : Measure E3).measurePreserving_homeomorphUnitSphereProd
  rw [hd] at h2
  set g : Metric.sphere (0 : E3) 1 × Ioi (0:ℝ) → F := fun p => f (fun k => (p.2 : ℝ) * (p.1 : E3) k) with hg
  have e : ∀ x : ({(0 : E3)}ᶜ : Set E3), g (homeomorphUnitSphereProd E3 x) = f (fun k => (x : E3) k) := by
    intro x
    have hx : (‖(x : E3)‖ : ℝ) ≠ 0 := by
      have h0 : (x : E3) ≠ 0 := x.2
      exact norm_ne_zero_iff.2 h0
    simp only [hg]
    congr 1
    funext k
    simp [homeomorphUnitSphereProd_apply_snd_coe, homeomorphUnitSphereProd_apply_fst_coe]
    field_simp
  have hcomp : (g ∘ homeomorphUnitSphereProd E3) = fun x : ({(0 : E3)}ᶜ : Set E3) => f (fun k => (x : E3) k) := funext e
  refine ⟨?_, ?_⟩
  · rw [← h2.integrable_comp_emb (Homeomorph.measurableEmbedding _), hcomp]
    have := (integrableOn_iff_comap_subtypeVal (μ := (volume : Measure E3)) (s := ({(0 : E3)}ᶜ : Set E3))
      (f := fun x : E3 => f (fun k => x k)) (measurableSet_singleton _).compl)
    exact this.1 h1i.integrableOn
  · rw [h1, ← h2.integral_comp (Homeomorph.measurableEmbedding _) g]
    have : ∀ x, g (homeomorphUnitSphereProd E3 x) = f (fun k => (x : E3) k) := e
    simp only [this]
    rw [integral_subtype_comap (measurableSet_singleton _).compl fun x : E3 => f (fun k => x k), restrict_compl_singleton]

theorem integral_volumeIoiPow (n : ℕ) (f : ℝ → F) :
    ∫ x : Ioi (0:ℝ), f x ∂(Measure.volumeIoiPow n) = ∫ r in Ioi (0:ℝ), r ^ n • f r := by
  simp only [Measure.volumeIoiPow, ENNReal.ofReal]
  rw [integral_withDensity_eq_integral_smul,
    integral_subtype_comap measurableSet_Ioi fun a ↦ Real.toNNReal (a ^ n) • f a,
    setIntegral_congr_fun measurableSet_Ioi fun x hx ↦ ?_]
  · rw [NNReal.smul_def, Real.coe_toNNReal _ (pow_nonneg hx.out.le _)]
  · exact (measurable_subtype_coe.pow_const _).real_toNNReal

/-- Spherical coordinates. -/
theorem integral_polar (f : Point → F) (hf : Integrable f) :
    ∫ x, f x = ∫ r in Ioi (0:ℝ), r ^ 2 • sphInt fun ω => f fun k => r * ω k := by
  obtain ⟨h1, h2⟩ := polar_prod f hf
  rw [h2, integral_prod_symm _ h1]
  exact integral_volumeIoiPow 2 fun r => sphInt fun ω => f fun k => r * ω k

theorem sphInt_const_mul (c : ℂ) (f : Point → ℂ) : sphInt (fun ω => c * f ω) = c * sphInt f :=
  integral_const_mul _ _

theorem sphInt_const_mul_real (c : ℝ) (f : Point → ℝ) : sphInt (fun ω => c * f ω) = c * sphInt f :=
  integral_const_mul _ _

theorem continuous_sph : Continuous fun ω : Metric.sphere (0 : E3) 1 => (fun k => (ω : E3) k : Point) := by
  fun_prop

omit [NormedSpace ℝ F] in
theorem sphInt_integrable {f : Point → F} (hf : Continuous f) :
    Integrable (fun ω : Metric.sphere (0 : E3) 1 => f (fun k => (ω : E3) k)) ((volume : Measure E3).toSphere) := by
  have : Continuous fun ω : Metric.sphere (0 : E3) 1 => f (fun k => (ω : E3) k) := hf.comp continuous_sph
  exact this.integrable_of_hasCompactSupport (HasCompactSupport.of_compactSpace _)

theorem sphInt_add {f g : Point → F} (hf : Continuous f) (hg : Continuous g) :
    sphInt (fun ω => f ω + g ω) = sphInt f + sphInt g :=
  integral_add (sphInt_integrable hf) (sphInt_integrable hg)

theorem sphInt_sub {f g : Point → F} (hf : Continuous f) (hg : Continuous g) :
    sphInt (fun ω => f ω - g ω) = sphInt f - sphInt g :=
  integral_sub (sphInt_integrable hf) (sphInt_integrable hg)

theorem sphInt_sum {ι : Type*} (s : Finset ι) {f : ι → Point → F} (hf : ∀ i ∈ s, Continuous (f i)) :
    sphInt (fun ω => ∑ i ∈ s, f i ω) = ∑ i ∈ s, sphInt (f i) :=
  integral_finsetSum s fun i hi => sphInt_integrable (hf i hi)

theorem sphInt_congr {f g : Point → F} (h : ∀ ω : Point, ∑ k, ω k ^ 2 = 1 → f ω = g ω) : sphInt f = sphInt g := by
  unfold sphInt
  congr 1
  funext ω
  exact h _ (sphere_norm ω)

theorem sphInt_ofReal (f : Point → ℝ) : sphInt (fun ω => (f ω : ℂ)) = ((sphInt f : ℝ) : ℂ) := integral_ofReal

end Libgrpp
