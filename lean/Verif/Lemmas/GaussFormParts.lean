import Verif.Lemmas.GaussForm
import Verif.Lemmas.FullLib
import Mathlib.Analysis.Calculus.ParametricIntegral

/-! The matrix elements of a pseudopotential as bounded forms on decaying functions. -/

namespace Libgrpp

open MeasureTheory Set

/-! ## Functionals and forms -/

/-- A linear functional on decaying functions, bounded for each rate of decay. -/
structure GLin (C : Point) (ℓ : (Point → ℝ) → ℝ) : Prop where
  bound : ∀ β, 0 < β → ∃ K, 0 ≤ K ∧ ∀ a f, Decays C β a f → |ℓ f| ≤ K * a
  lin : ∀ β, 0 < β → ∀ a b f g (c : ℝ), Decays C β a f → Decays C β b g → ℓ (fun r => f r + c * g r) = ℓ f + c * ℓ g

/-- A bilinear form on decaying functions, bounded for each rate of decay. -/
structure GForm (C : Point) (W : (Point → ℝ) → (Point → ℝ) → ℝ) : Prop where
  bound : ∀ β, 0 < β → ∃ K, 0 ≤ K ∧ ∀ a b f g, Decays C β a f → Decays C β b g → |W f g| ≤ K * (a * b)
  left : ∀ β, 0 < β → ∀ a b d f f' g (c : ℝ), Decays C β a f → Decays C β b f' → Decays C β d g →
    W (fun r => f r + c * f' r) g = W f g + c * W f' g
  right : ∀ β, 0 < β → ∀ a b d f g g' (c : ℝ), Decays C β a f → Decays C β b g → Decays C β d g' →
    W f (fun r => g r + c * g' r) = W f g + c * W f g'

theorem GLin.mul {C : Point} {ℓ ℓ' : (Point → ℝ) → ℝ} (h : GLin C ℓ) (h' : GLin C ℓ') : GForm C fun f g => ℓ f * ℓ' g := by
  refine ⟨fun β hβ => ?_, fun β hβ a b d f f' g c hf hf' hg => ?_, fun β hβ a b d f g g' c hf hg hg' => ?_⟩
  · obtain ⟨K, hK, b⟩ := h.bound β hβ
    obtain ⟨K', hK', b'⟩ := h'.bound β hβ
    refine ⟨K * K', mul_nonneg hK hK', fun a d f g hf hg => ?_⟩
    rw [abs_mul]
    refine (mul_le_mul (b a f hf) (b' d g hg) (abs_nonneg _) (mul_nonneg hK hf.nonneg)).trans (le_of_eq (by ring))
  · beta_reduce
    rw [h.lin β hβ a b f f' c hf hf']; ring
  · beta_reduce
    rw [h'.lin β hβ b d g g' c hg hg']; ring

theorem GForm.zero (C : Point) : GForm C fun _ _ => 0 :=
  ⟨fun _ _ => ⟨0, le_rfl, by simp⟩, by simp, by simp⟩

theorem GForm.add {C : Point} {W W' : (Point → ℝ) → (Point → ℝ) → ℝ} (h : GForm C W) (h' : GForm C W') :
    GForm C fun f g => W f g + W' f g := by
  refine ⟨fun β hβ => ?_, fun β hβ a b d f f' g c hf hf' hg => ?_, fun β hβ a b d f g g' c hf hg hg' => ?_⟩
  · obtain ⟨K, hK, b⟩ := h.bound β hβ
    obtain ⟨K', hK', b'⟩ := h'.bound β hβ
    refine ⟨K + K', add_nonneg hK hK', fun a d f g hf hg => (abs_add_le _ _).trans ?_⟩
    rw [add_mul]
    exact add_le_add (b a d f g hf hg) (b' a d f g hf hg)
  · beta_reduce
    rw [h.left β hβ a b d f f' g c hf hf' hg, h'.left β hβ a b d f f' g c hf hf' hg]; ring
  · beta_reduce
    rw [h.right β hβ a b d f g g' c hf hg hg', h'.right β hβ a b d f g g' c hf hg hg']; ring

theorem GForm.const_mul {C : Point} {W : (Point → ℝ) → (Point → ℝ) → ℝ} (h : GForm C W) (w : ℝ) : GForm C fun f g => w * W f g := by
  refine ⟨fun β hβ => ?_, fun β hβ a b d f f' g c hf hf' hg => ?_, fun β hβ a b d f g g' c hf hg hg' => ?_⟩
  · obtain ⟨K, hK, b⟩ := h.bound β hβ
    refine ⟨|w| * K, by positivity, fun a d f g hf hg => ?_⟩
    rw [abs_mul, mul_assoc]
    exact mul_le_mul_of_nonneg_left (b a d f g hf hg) (abs_nonneg w)
  · beta_reduce
    rw [h.left β hβ a b d f f' g c hf hf' hg]; ring
  · beta_reduce
    rw [h.right β hβ a b d f g g' c hf hg hg']; ring

theorem GForm.sub {C : Point} {W W' : (Point → ℝ) → (Point → ℝ) → ℝ} (h : GForm C W) (h' : GForm C W') :
    GForm C fun f g => W f g - W' f g := by
  have := h.add (h'.const_mul (-1))
  simpa only [neg_mul, one_mul, ← sub_eq_add_neg] using this

theorem GForm.sum {C : Point} {ι : Type*} (I : Finset ι) {W : ι → (Point → ℝ) → (Point → ℝ) → ℝ} (h : ∀ i ∈ I, GForm C (W i)) :
    GForm C fun f g => ∑ i ∈ I, W i f g := by
  classical
  induction I using Finset.induction_on with
  | empty => simpa using GForm.zero C
  | insert a I ha ih =>
    simp only [Finset.sum_insert ha]
    exact (h a (Finset.mem_insert_self a I)).add (ih fun i hi => h i (Finset.mem_insert_of_mem hi))

theorem GForm.listSum {C : Point} {ι : Type*} (l : List ι) {W : ι → (Point → ℝ) → (Point → ℝ) → ℝ} (h : ∀ i ∈ l, GForm C (W i)) :
    GForm C fun f g => (l.map fun i => W i f g).sum := by
  induction l with
  | nil => simpa using GForm.zero C
  | cons a l ih =>
    simp only [List.map_cons, List.sum_cons]
    exact (h a (by simp)).add (ih fun i hi => h i (by simp [hi]))

/-- Bounded forms along curves of functions can be differentiated. -/
theorem GForm.hasFDerivAt {C : Point} {W : (Point → ℝ) → (Point → ℝ) → ℝ} (hW : GForm C W) {f g : ℝ → Point → ℝ} {f' g' : Point → ℝ}
    {s u : ℝ} (hf : GCurve C f f' s) (hg : GCurve C g g' u) :
    HasFDerivAt (fun p : ℝ × ℝ => W (f p.1) (g p.2))
      (W f' (g u) • ContinuousLinearMap.fst ℝ ℝ ℝ + W (f s) g' • ContinuousLinearMap.snd ℝ ℝ ℝ) (s, u) := by
  obtain ⟨β1, K1, hβ1, c1, d1, d1', T1⟩ := hf
  obtain ⟨β2, K2, hβ2, c2, d2, d2', T2⟩ := hg
  set β := min β1 β2
  set K := max K1 K2
  have hβ : 0 < β := lt_min hβ1 hβ2
  have e1 : β ≤ β1 := min_le_left _ _
  have e2 : β ≤ β2 := min_le_right _ _
  have k1 : K1 ≤ K := le_max_left _ _
  have k2 : K2 ≤ K := le_max_right _ _
  have F := d1.weaken e1 k1
  have F' := d1'.weaken e1 k1
  have G := d2.weaken e2 k2
  have G' := d2'.weaken e2 k2
  have hK : 0 ≤ K := F.nonneg
  have R1 : ∀ t, |t - s| ≤ 1 → Decays C β (K * (t - s) ^ 2) fun r => f t r - f s r - (t - s) * f' r := fun t ht =>
    ⟨((c1 t).sub (c1 s)).sub (continuous_const.mul d1'.cont), fun r => (T1 t ht r).trans (by
      have := gw_mono C e1 r
      have := (gw_pos C β1 r).le
      gcongr)⟩
  have R2 : ∀ t, |t - u| ≤ 1 → Decays C β (K * (t - u) ^ 2) fun r => g t r - g u r - (t - u) * g' r := fun t ht =>
    ⟨((c2 t).sub (c2 u)).sub (continuous_const.mul d2'.cont), fun r => (T2 t ht r).trans (by
      have := gw_mono C e2 r
      have := (gw_pos C β2 r).le
      gcongr)⟩
  obtain ⟨M, hM, hb⟩ := hW.bound β hβ
  rw [hasFDerivAt_iff_isLittleO]
  refine Asymptotics.IsBigO.trans_isLittleO (g := fun p : ℝ × ℝ => ‖p - (s, u)‖ ^ 2) ?_ (Asymptotics.isLittleO_pow_sub_sub (s, u) one_lt_two)
  refine Asymptotics.IsBigO.of_bound (6 * (M * (K * K))) ?_
  filter_upwards [Metric.closedBall_mem_nhds ((s, u) : ℝ × ℝ) one_pos] with p hp
  rw [Metric.mem_closedBall, dist_eq_norm] at hp
  set N := ‖p - (s, u)‖
  have hN : 0 ≤ N := norm_nonneg _
  have hx : |p.1 - s| ≤ N := norm_fst_le (p - (s, u))
  have hy : |p.2 - u| ≤ N := norm_snd_le (p - (s, u))
  have hx1 := hx.trans hp
  have hy1 := hy.trans hp
  set x := p.1 - s with hxd
  set y := p.2 - u with hyd
  have hx2 : x ^ 2 ≤ N ^ 2 := by rw [← sq_abs]; exact pow_le_pow_left₀ (abs_nonneg _) hx 2
  have hy2 : y ^ 2 ≤ N ^ 2 := by rw [← sq_abs]; exact pow_le_pow_left₀ (abs_nonneg _) hy 2
  have ρ := R1 p.1 hx1
  have σ := R2 p.2 hy1
  rw [← hxd] at ρ
  rw [← hyd] at σ
  set ρf : Point → ℝ := fun r => f p.1 r - f s r - x * f' r with hρ
  set σf : Point → ℝ := fun r => g p.2 r - g u r - y * g' r with hσ
  have ef : f p.1 = fun r => (f s r + x * f' r) + 1 * ρf r := by funext r; simp only [hρ]; ring
  have eg : g p.2 = fun r => (g u r + y * g' r) + 1 * σf r := by funext r; simp only [hσ]; ring
  have Dg1 := G.add (G'.const_mul y)
  have Dgv : Decays C β (3 * K) (g p.2) := by
    have := (G.add (G'.const_mul y)).add (σ.const_mul 1)
    rw [eg]
    refine this.weaken le_rfl ?_
    have : y ^ 2 ≤ 1 := by rw [← sq_abs]; exact pow_le_one₀ (abs_nonneg _) hy1
    rw [abs_one, one_mul]
    nlinarith
  have Df1 := F.add (F'.const_mul x)
  have expL : W (f p.1) (g p.2) = W (f s) (g p.2) + x * W f' (g p.2) + 1 * W ρf (g p.2) := by
    conv_lhs => rw [ef]
    rw [hW.left β hβ _ _ _ _ _ _ 1 Df1 ρ Dgv, hW.left β hβ _ _ _ _ _ _ x F F' Dgv]
  have expR : ∀ {a : ℝ} {h : Point → ℝ}, Decays C β a h → W h (g p.2) = W h (g u) + y * W h g' + 1 * W h σf := by
    intro a h hh
    conv_lhs => rw [eg]
    rw [hW.right β hβ _ _ _ _ _ _ 1 hh Dg1 σ, hW.right β hβ _ _ _ _ _ _ y hh G G']
  have b1 := hb _ _ _ _ F σ
  have b2 := hb _ _ _ _ F' G'
  have b3 := hb _ _ _ _ F' σ
  have b4 := hb _ _ _ _ ρ Dgv
  have key : W (f p.1) (g p.2) - W (f s) (g u) - (W f' (g u) * x + W (f s) g' * y) =
      W (f s) σf + x * (y * W f' g') + x * W f' σf + W ρf (g p.2) := by
    rw [expL, expR F, expR F']
    ring
  rw [Real.norm_eq_abs, norm_pow, norm_norm]
  show |W (f p.1) (g p.2) - W (f s) (g u) - _| ≤ _
  simp only [ContinuousLinearMap.add_apply, ContinuousLinearMap.smul_apply, ContinuousLinearMap.coe_fst', ContinuousLinearMap.coe_snd',
    smul_eq_mul, Prod.fst_sub, Prod.snd_sub]
  rw [← hxd, ← hyd, key]
  have hMK : 0 ≤ M * (K * K) := by positivity
  have a1 : |W (f s) σf| ≤ M * (K * K) * N ^ 2 := b1.trans (by nlinarith)
  have hxy : |x| * |y| ≤ N ^ 2 := by rw [pow_two]; exact mul_le_mul hx hy (abs_nonneg _) hN
  have a2 : |x * (y * W f' g')| ≤ M * (K * K) * N ^ 2 := by
    rw [abs_mul, abs_mul, ← mul_assoc, mul_comm]
    exact mul_le_mul b2 hxy (by positivity) hMK
  have a3 : |x * W f' σf| ≤ M * (K * K) * N ^ 2 := by
    rw [abs_mul]
    calc |x| * |W f' σf| ≤ 1 * (M * (K * (K * y ^ 2))) := mul_le_mul hx1 b3 (abs_nonneg _) zero_le_one
      _ = M * (K * K) * y ^ 2 := by ring
      _ ≤ _ := mul_le_mul_of_nonneg_left hy2 hMK
  have a4 : |W ρf (g p.2)| ≤ 3 * (M * (K * K) * N ^ 2) := by
    refine b4.trans ?_
    have := mul_le_mul_of_nonneg_left hx2 hMK
    nlinarith
  have t1 := abs_add_le (W (f s) σf + x * (y * W f' g') + x * W f' σf) (W ρf (g p.2))
  have t2 := abs_add_le (W (f s) σf + x * (y * W f' g')) (x * W f' σf)
  have t3 := abs_add_le (W (f s) σf) (x * (y * W f' g'))
  linarith

/-! ## Integrals -/

theorem continuous_gw (C : Point) (β : ℝ) : Continuous (gw C β) := by
  unfold gw
  fun_prop

theorem gw_mul (C : Point) (β : ℝ) (r : Point) : gw C β r * gw C β r = gw C (2 * β) r := by
  unfold gw
  rw [← Real.exp_add]
  congr 1
  ring

theorem Decays.mul {C : Point} {β a b : ℝ} {f g : Point → ℝ} (hf : Decays C β a f) (hg : Decays C β b g) :
    Decays C (2 * β) (a * b) fun r => f r * g r := by
  refine ⟨hf.cont.mul hg.cont, fun r => ?_⟩
  rw [abs_mul, ← gw_mul]
  refine (mul_le_mul (hf.le r) (hg.le r) (abs_nonneg _) (mul_nonneg hf.nonneg (gw_pos C β r).le)).trans (le_of_eq (by ring))

/-- `u` is integrable with every Gaussian weight. -/
def Weighted (C : Point) (u : Point → ℝ) : Prop := ∀ β, 0 < β → Integrable fun r => u r * gw C β r

theorem Weighted.integrable {C : Point} {u : Point → ℝ} (hu : Weighted C u) {β a : ℝ} (hβ : 0 < β) {f : Point → ℝ} (hf : Decays C β a f) :
    Integrable fun r => f r * u r := by
  have e : (fun r => f r * u r) = fun r => (f r * (gw C β r)⁻¹) * (u r * gw C β r) := by
    funext r
    have := (gw_pos C β r).ne'
    field_simp
  rw [e]
  refine (hu β hβ).bdd_mul (c := a) ?_ ?_
  · exact (hf.cont.mul ((continuous_gw C β).inv₀ fun r => (gw_pos C β r).ne')).aestronglyMeasurable
  · refine Filter.Eventually.of_forall fun r => ?_
    rw [Real.norm_eq_abs, abs_mul, abs_inv, abs_of_pos (gw_pos C β r), ← div_eq_mul_inv, div_le_iff₀ (gw_pos C β r)]
    exact hf.le r

theorem GLin.integral {C : Point} {u : Point → ℝ} (hu : Weighted C u) : GLin C fun f => ∫ r, f r * u r := by
  refine ⟨fun β hβ => ⟨∫ r, |u r * gw C β r|, integral_nonneg fun r => abs_nonneg _, fun a f hf => ?_⟩, fun β hβ a b f g c hf hg => ?_⟩
  · rw [mul_comm, ← integral_const_mul]
    refine (abs_integral_le_integral_abs).trans (integral_mono (hu.integrable hβ hf).abs ((hu β hβ).abs.const_mul a) fun r => ?_)
    show |f r * u r| ≤ a * |u r * gw C β r|
    rw [abs_mul, abs_mul, abs_of_pos (gw_pos C β r)]
    have := mul_le_mul_of_nonneg_right (hf.le r) (abs_nonneg (u r))
    linarith
  · beta_reduce
    rw [← integral_const_mul, ← integral_add (hu.integrable hβ hf) ((hu.integrable hβ hg).const_mul c)]
    exact integral_congr_ae (.of_forall fun r => by simp only []; ring)

theorem Weighted.mul {C : Point} {u f : Point → ℝ} (hu : Weighted C u) {β a : ℝ} (hβ : 0 < β) (hf : Decays C β a f) :
    Weighted C fun r => u r * f r := by
  intro γ hγ
  have : Decays C γ (a * 1) fun r => f r * gw C γ r := by
    refine ⟨hf.cont.mul (continuous_gw C γ), fun r => ?_⟩
    rw [abs_mul, abs_of_pos (gw_pos C γ r), mul_one]
    refine mul_le_mul_of_nonneg_right ((hf.le r).trans ?_) (gw_pos C γ r).le
    refine mul_le_of_le_one_right hf.nonneg ?_
    unfold gw
    rw [Real.exp_le_one_iff]
    have : 0 ≤ ∑ k, (r k - C k) ^ 2 := Finset.sum_nonneg fun _ _ => sq_nonneg _
    nlinarith
  refine (hu.integrable hγ this).congr (.of_forall fun r => ?_)
  simp only []
  ring

theorem weighted_of_decays {C : Point} {β a : ℝ} (hβ : 0 < β) {f : Point → ℝ} (hf : Decays C β a f)
    (h1 : Weighted C fun _ => 1) : Weighted C f := by
  have := h1.mul hβ hf
  simpa using this

theorem GForm.local {C : Point} {U : Point → ℝ} (hU : Weighted C U) : GForm C fun f g => ∫ r, f r * U r * g r := by
  have h := GLin.integral hU
  have e : ∀ f g : Point → ℝ, ∫ r, f r * U r * g r = ∫ r, (fun r => f r * g r) r * U r := fun f g =>
    integral_congr_ae (.of_forall fun r => by simp only []; ring)
  simp only [e]
  refine ⟨fun β hβ => ?_, fun β hβ a b d f f' g c hf hf' hg => ?_, fun β hβ a b d f g g' c hf hg hg' => ?_⟩
  · obtain ⟨K, hK, hb⟩ := h.bound (2 * β) (by linarith)
    exact ⟨K, hK, fun a b f g hf hg => hb _ _ (hf.mul hg)⟩
  · have := h.lin (2 * β) (by linarith) _ _ _ _ c (hf.mul hg) (hf'.mul hg)
    rw [← this]
    exact integral_congr_ae (.of_forall fun r => by simp only []; ring)
  · have := h.lin (2 * β) (by linarith) _ _ _ _ c (hf.mul hg) (hf.mul hg')
    rw [← this]
    exact integral_congr_ae (.of_forall fun r => by simp only []; ring)

/-! ## Potentials -/

theorem tame_weighted {V : ℝ → ℝ} (hV : Tame V) (C : Point) : Weighted C fun r => V (radius C r) := by
  intro β hβ
  have h := (tame_integrable hV (0, 0, 0) hβ 0).comp_add_right (-C)
  refine h.congr (.of_forall fun r => ?_)
  have e : vnorm (r + -C) = radius C r := by unfold vnorm radius; simp [sub_eq_add_neg]
  simp only []
  rw [e]
  unfold monoAt gw
  simp [sub_eq_add_neg, mul_comm]

theorem tame_of_terms {p : Potential} (hp : p.Terms) : Tame (potentialRadial p) := by
  refine ⟨?_, ∑ k ∈ Finset.range p.num, |p.coeffs.getD k 0|, fun r hr => ?_⟩
  · unfold potentialRadial
    refine continuousOn_finset_sum _ fun k _ => continuousOn_const.mul (ContinuousOn.mul ?_ (by fun_prop))
    exact continuousOn_id.zpow₀ _ fun r hr => Or.inl (ne_of_gt hr)
  · unfold potentialRadial
    rw [Finset.sum_mul]
    refine (Finset.abs_sum_le_sum_abs _ _).trans (Finset.sum_le_sum fun k hk => ?_)
    obtain ⟨h1, h2⟩ := hp k (Finset.mem_range.1 hk)
    have he : Real.exp (-p.alpha.getD k 0 * r ^ 2) ≤ 1 := by
      rw [Real.exp_le_one_iff]
      nlinarith [sq_nonneg r]
    rw [abs_mul, abs_mul, Real.abs_exp, abs_of_pos (zpow_pos hr _)]
    refine mul_le_mul_of_nonneg_left ((mul_le_of_le_one_right (zpow_pos hr _).le he).trans ?_) (abs_nonneg _)
    have i1 : 0 < r⁻¹ := inv_pos.2 hr
    have i2 : 0 < (r ^ 2)⁻¹ := inv_pos.2 (pow_pos hr 2)
    rcases h1 with h | h | h <;> rw [h]
    · rw [show (0 - 2 : ℤ) = -(2 : ℕ) by norm_num, zpow_neg, zpow_natCast]; linarith
    · rw [show (1 - 2 : ℤ) = -1 by norm_num, zpow_neg_one]; linarith
    · norm_num; linarith

theorem potential_weighted {p : Potential} (hp : p.Terms) (C : Point) : Weighted C (potentialFn p C) :=
  tame_weighted (tame_of_terms hp) C

theorem one_weighted (C : Point) : Weighted C fun _ => 1 := by
  have : Tame fun _ => (1 : ℝ) := ⟨continuousOn_const, 1, fun r hr => by
    have i1 : 0 < r⁻¹ := inv_pos.2 hr
    have i2 : 0 < (r ^ 2)⁻¹ := inv_pos.2 (pow_pos hr 2)
    rw [abs_one]; linarith⟩
  exact tame_weighted this C

/-! ## Semilocal potentials -/

theorem project_decays (L : ℕ) (m : ℤ) (C : Point) : ∃ S, 0 ≤ S ∧ ∀ {β a : ℝ} {f : Point → ℝ}, Decays C β a f →
    Continuous (project L m C f) ∧ ∀ r, |project L m C f r| ≤ S * a * Real.exp (-β * r ^ 2) := by
  have hr := continuous_rsh L m
  refine ⟨sphInt fun ω => |rsh L m ω|, integral_nonneg fun _ => abs_nonneg _, fun {β a f} hf => ⟨?_, fun r => ?_⟩⟩
  · unfold project sphInt
    refine continuous_parametric_integral_of_continuous (s := univ) ?_ isCompact_univ |>.congr fun r => by rw [setIntegral_univ]
    have hf := hf.cont
    have hs := continuous_sph
    refine Continuous.mul (hr.comp (hs.comp continuous_snd)) (hf.comp ?_)
    refine continuous_pi fun i => continuous_const.add (continuous_fst.mul ?_)
    exact (continuous_apply i).comp (hs.comp continuous_snd)
  · have hc : Continuous fun ω : Point => rsh L m ω * f fun i => C i + r * ω i := hr.mul (hf.cont.comp (by fun_prop))
    unfold project
    have h1 : |sphInt fun ω => rsh L m ω * f fun i => C i + r * ω i| ≤ sphInt fun ω => |rsh L m ω * f fun i => C i + r * ω i| :=
      abs_integral_le_integral_abs
    refine h1.trans ?_
    rw [mul_assoc, mul_comm, ← sphInt_const_mul_real]
    refine sphInt_mono' hc.abs (continuous_const.mul hr.abs) fun ω hω => ?_
    rw [abs_mul, mul_comm]
    refine mul_le_mul_of_nonneg_right ((hf.le _).trans (le_of_eq ?_)) (abs_nonneg _)
    unfold gw
    congr 3
    simp only [add_sub_cancel_left, mul_pow]
    rw [← Finset.mul_sum, hω, mul_one]

theorem project_add {C : Point} {f g : Point → ℝ} (hf : Continuous f) (hg : Continuous g) (L : ℕ) (m : ℤ) (c r : ℝ) :
    project L m C (fun x => f x + c * g x) r = project L m C f r + c * project L m C g r := by
  have hr := continuous_rsh L m
  unfold project
  have h1 : Continuous fun ω : Point => rsh L m ω * f fun i => C i + r * ω i := hr.mul (hf.comp (by fun_prop))
  have h2 : Continuous fun ω : Point => c * (rsh L m ω * g fun i => C i + r * ω i) := continuous_const.mul (hr.mul (hg.comp (by fun_prop)))
  rw [← sphInt_const_mul_real, ← sphInt_add h1 h2]
  congr 1
  funext ω
  ring

/-- Radial integrals with a mild potential of functions that decay. -/
theorem mild_bounded {U : ℝ → ℝ} (hU : Mild U) {γ : ℝ} (hγ : 0 < γ) : ∃ K, 0 ≤ K ∧ ∀ (h : ℝ → ℝ) (k : ℝ), Continuous h → 0 ≤ k →
    (∀ r, |h r| ≤ k * Real.exp (-γ * r ^ 2)) →
    IntegrableOn (fun r => r ^ 2 * (U r * h r)) (Ioi 0) ∧ |∫ r in Ioi (0:ℝ), r ^ 2 * (U r * h r)| ≤ K * k := by
  obtain ⟨hm, K, M, hK⟩ := hU
  have base : ∀ m : ℕ, IntegrableOn (fun r : ℝ => r ^ m * Real.exp (-γ * r ^ 2)) (Ioi 0) := fun m => semiIntegral_monomial_integrable m hγ
  have hmaj : IntegrableOn (fun r : ℝ => |K| * (r ^ 0 * Real.exp (-γ * r ^ 2) + r ^ M * Real.exp (-γ * r ^ 2))) (Ioi 0) :=
    ((base 0).add (base M)).const_mul _
  refine ⟨∫ r in Ioi (0:ℝ), |K| * (r ^ 0 * Real.exp (-γ * r ^ 2) + r ^ M * Real.exp (-γ * r ^ 2)), ?_, fun h k hc hk hb => ?_⟩
  · refine setIntegral_nonneg measurableSet_Ioi fun r hr => ?_
    have : (0:ℝ) < r := hr
    positivity
  have hle : ∀ r ∈ Ioi (0:ℝ), ‖r ^ 2 * (U r * h r)‖ ≤ k * (|K| * (r ^ 0 * Real.exp (-γ * r ^ 2) + r ^ M * Real.exp (-γ * r ^ 2))) := by
    intro r hr
    have hr : 0 < r := hr
    have h3 : |U r| ≤ |K| * ((r ^ 2)⁻¹ * (1 + r ^ M)) := (hK r hr).trans (mul_le_mul_of_nonneg_right (le_abs_self K) (by positivity))
    rw [Real.norm_eq_abs, abs_mul, abs_mul, abs_of_pos (pow_pos hr 2)]
    calc r ^ 2 * (|U r| * |h r|) ≤ r ^ 2 * ((|K| * ((r ^ 2)⁻¹ * (1 + r ^ M))) * (k * Real.exp (-γ * r ^ 2))) := by
          have := hb r
          gcongr
      _ = _ := by field_simp
  have hi : IntegrableOn (fun r => r ^ 2 * (U r * h r)) (Ioi 0) := by
    refine (hmaj.const_mul k).mono' ?_ ((ae_restrict_iff' measurableSet_Ioi).2 (.of_forall hle))
    refine ContinuousOn.aestronglyMeasurable ?_ measurableSet_Ioi
    exact (by fun_prop : ContinuousOn (fun r : ℝ => r ^ 2) (Ioi 0)).mul (hm.mul hc.continuousOn)
  refine ⟨hi, ?_⟩
  rw [mul_comm, ← integral_const_mul]
  refine abs_integral_le_integral_abs.trans (setIntegral_mono_on hi.abs (hmaj.const_mul k) measurableSet_Ioi hle)

theorem GForm.semilocal {U : ℝ → ℝ} (hU : Mild U) (L : ℕ) (W : ℕ → ℕ → ℝ) (C : Point) : GForm C (semilocal L W C U) := by
  choose S hS hp using fun m => project_decays L m C
  set Z : (Point → ℝ) → (Point → ℝ) → ℝ → ℝ := fun f g r => ∑ i ∈ Finset.range (2 * L + 1), ∑ j ∈ Finset.range (2 * L + 1),
    W i j * (project L ((i : ℤ) - L) C f r * project L ((j : ℤ) - L) C g r) with hZ
  set T := ∑ i ∈ Finset.range (2 * L + 1), ∑ j ∈ Finset.range (2 * L + 1), |W i j| * (S ((i : ℤ) - L) * S ((j : ℤ) - L)) with hT
  have hT0 : 0 ≤ T := Finset.sum_nonneg fun i _ => Finset.sum_nonneg fun j _ => mul_nonneg (abs_nonneg _) (mul_nonneg (hS _) (hS _))
  have cz : ∀ {β a b : ℝ} {f g : Point → ℝ}, Decays C β a f → Decays C β b g → Continuous (Z f g) ∧
      ∀ r, |Z f g r| ≤ T * (a * b) * Real.exp (-(2 * β) * r ^ 2) := by
    intro β a b f g hf hg
    refine ⟨continuous_finset_sum _ fun i _ => continuous_finset_sum _ fun j _ => continuous_const.mul ((hp _ hf).1.mul (hp _ hg).1), fun r => ?_⟩
    rw [hT, Finset.sum_mul, Finset.sum_mul]
    refine (Finset.abs_sum_le_sum_abs _ _).trans (Finset.sum_le_sum fun i _ => ?_)
    rw [Finset.sum_mul, Finset.sum_mul]
    refine (Finset.abs_sum_le_sum_abs _ _).trans (Finset.sum_le_sum fun j _ => ?_)
    rw [abs_mul, abs_mul, show ∀ w s t e : ℝ, w * (s * t) * (a * b) * e = w * (s * a * (t * b) * e) by intros; ring]
    refine mul_le_mul_of_nonneg_left ?_ (abs_nonneg _)
    have e : Real.exp (-(2 * β) * r ^ 2) = Real.exp (-β * r ^ 2) * Real.exp (-β * r ^ 2) := by rw [← Real.exp_add]; congr 1; ring
    have h1 := (hp ((i : ℤ) - L) hf).2 r
    have h2 := (hp ((j : ℤ) - L) hg).2 r
    refine (mul_le_mul h1 h2 (abs_nonneg _) ((abs_nonneg _).trans h1)).trans (le_of_eq ?_)
    rw [e]
    ring
  have lz : ∀ {f f' g : Point → ℝ} (c : ℝ), Continuous f → Continuous f' → ∀ r, Z (fun x => f x + c * f' x) g r = Z f g r + c * Z f' g r := by
    intro f f' g c hf hf' r
    simp only [hZ, Finset.mul_sum, ← Finset.sum_add_distrib, project_add hf hf']
    exact Finset.sum_congr rfl fun i _ => Finset.sum_congr rfl fun j _ => by ring
  have rz : ∀ {f g g' : Point → ℝ} (c : ℝ), Continuous g → Continuous g' → ∀ r, Z f (fun x => g x + c * g' x) r = Z f g r + c * Z f g' r := by
    intro f g g' c hg hg' r
    simp only [hZ, Finset.mul_sum, ← Finset.sum_add_distrib, project_add hg hg']
    exact Finset.sum_congr rfl fun i _ => Finset.sum_congr rfl fun j _ => by ring
  have es : ∀ f g, Libgrpp.semilocal L W C U f g = ∫ r in Ioi (0:ℝ), r ^ 2 * (U r * Z f g r) := fun f g => rfl
  refine ⟨fun β hβ => ?_, fun β hβ a b d f f' g c hf hf' hg => ?_, fun β hβ a b d f g g' c hf hg hg' => ?_⟩
  · obtain ⟨K, hK, hb⟩ := mild_bounded hU (γ := 2 * β) (by linarith)
    refine ⟨K * T, mul_nonneg hK hT0, fun a b f g hf hg => ?_⟩
    rw [es]
    have := (hb (Z f g) _ (cz hf hg).1 (mul_nonneg hT0 (mul_nonneg hf.nonneg hg.nonneg)) (cz hf hg).2).2
    rwa [← mul_assoc] at this
  · obtain ⟨K, hK, hb⟩ := mild_bounded hU (γ := 2 * β) (by linarith)
    have i1 := (hb (Z f g) _ (cz hf hg).1 (mul_nonneg hT0 (mul_nonneg hf.nonneg hg.nonneg)) (cz hf hg).2).1
    have i2 := (hb (Z f' g) _ (cz hf' hg).1 (mul_nonneg hT0 (mul_nonneg hf'.nonneg hg.nonneg)) (cz hf' hg).2).1
    rw [es, es, es, ← integral_const_mul, ← integral_add i1 (i2.const_mul c)]
    refine integral_congr_ae (.of_forall fun r => ?_)
    simp only [lz c hf.cont hf'.cont]
    ring
  · obtain ⟨K, hK, hb⟩ := mild_bounded hU (γ := 2 * β) (by linarith)
    have i1 := (hb (Z f g) _ (cz hf hg).1 (mul_nonneg hT0 (mul_nonneg hf.nonneg hg.nonneg)) (cz hf hg).2).1
    have i2 := (hb (Z f g') _ (cz hf hg').1 (mul_nonneg hT0 (mul_nonneg hf.nonneg hg'.nonneg)) (cz hf hg').2).1
    rw [es, es, es, ← integral_const_mul, ← integral_add i1 (i2.const_mul c)]
    refine integral_congr_ae (.of_forall fun r => ?_)
    simp only [rz c hg.cont hg'.cont]
    ring

/-! ## Outer-core functions -/

theorem basis_decays (C : Point) {s : Shell} (hs : s.Pos) (m : ℕ) : ∃ β a, 0 < β ∧ Decays C β a (basisFn s m) := by
  obtain ⟨f', h⟩ := basis_curve C hs 0 m
  have := h.decays
  rwa [moveTo_self] at this

theorem Decays.sum {C : Point} {ι : Type*} (I : Finset ι) {f : ι → Point → ℝ} (h : ∀ i ∈ I, ∃ β a, 0 < β ∧ Decays C β a (f i)) :
    ∃ β a, 0 < β ∧ Decays C β a fun r => ∑ i ∈ I, f i r := by
  classical
  induction I using Finset.induction_on with
  | empty => exact ⟨1, 0, one_pos, by simpa using continuous_const, by simp⟩
  | insert x I hx ih =>
    simp only [Finset.sum_insert hx]
    obtain ⟨β, a, hβ, d⟩ := h x (Finset.mem_insert_self x I)
    obtain ⟨γ, b, hγ, e⟩ := ih fun i hi => h i (Finset.mem_insert_of_mem hi)
    exact ⟨min β γ, a + b, lt_min hβ hγ, (d.weaken (min_le_left _ _) le_rfl).add (e.weaken (min_le_right _ _) le_rfl)⟩

theorem ocFn_decays {s : Shell} (h : Complete s) (hp : s.Pos) (C : Point) {mi : ℕ} (hmi : mi < 2 * s.L + 1) :
    ∃ β a, 0 < β ∧ Decays C β a (ocFn s C mi) := by
  have e : ocFn s C mi = fun x => ∑ ic ∈ Finset.range s.cart_size, slm s.L s mi ic * basisFn (bindOrigin C s) ic x :=
    funext fun x => (sum_slm_basis h hp C hmi x).symm
  rw [e]
  refine Decays.sum _ fun ic _ => ?_
  obtain ⟨β, a, hβ, d⟩ := basis_decays C (s := bindOrigin C s) hp ic
  exact ⟨β, _, hβ, d.const_mul _⟩

theorem GLin.overlap {s : Shell} (h : Complete s) (hp : s.Pos) (C : Point) {mi : ℕ} (hmi : mi < 2 * s.L + 1) :
    GLin C fun f => ∫ x, f x * ocFn s C mi x := by
  obtain ⟨β, a, hβ, d⟩ := ocFn_decays h hp C hmi
  exact GLin.integral (weighted_of_decays hβ d (one_weighted C))

theorem GLin.potential {p : Potential} (ht : p.Terms) {s : Shell} (h : Complete s) (hp : s.Pos) (C : Point) {mi : ℕ} (hmi : mi < 2 * s.L + 1) :
    GLin C fun f => ∫ x, f x * potentialFn p C x * ocFn s C mi x := by
  obtain ⟨β, a, hβ, d⟩ := ocFn_decays h hp C hmi
  have := GLin.integral ((potential_weighted ht C).mul hβ d)
  simpa only [← mul_assoc] using this

theorem GForm.sandwich {C : Point} (d : ℕ) (W : ℕ → ℕ → ℝ) {ℓ ℓ' : (Point → ℝ) → ℕ → ℝ} (h : ∀ k < d, GLin C fun f => ℓ f k)
    (h' : ∀ k < d, GLin C fun f => ℓ' f k) : GForm C fun f g => sandwich d W (ℓ f) (ℓ' g) := by
  unfold Libgrpp.sandwich
  exact GForm.sum _ fun k hk => GForm.sum _ fun l hl => ((h k (Finset.mem_range.1 hk)).mul (h' l (Finset.mem_range.1 hl))).const_mul _

end Libgrpp
