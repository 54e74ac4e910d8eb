import Verif.Lemmas.Screening

/-! # Lemmas for the failure of the radial quadrature on sharp functions -/

namespace Libgrpp

open MeasureTheory Set Filter Topology

/-- An `s` function of exponent `(π/2) s⁴` at distance `d`. -/
noncomputable def sharpShell (d s : ℝ) : Shell :=
  { L := 0, origin := ![0, 0, d], cart_size := 1, cartList := [(0, 0, 0)], num := 1, coeffs := [1], alpha := [Real.pi / 2 * s ^ 4] }

/-- The potential `c exp(-r²)` for `L = 0`. -/
noncomputable def sharpPotential (c : ℝ) : Potential := { L := 0, J := 0, num := 1, powers := [2], coeffs := [c], alpha := [1] }

theorem sharpShell_homog (d : ℝ) {s : ℝ} (hs : 0 < s) : (sharpShell d s).Homog := by
  refine ⟨⟨by simp [sharpShell], by simp [sharpShell]⟩, ⟨by simp [sharpShell], by simp [sharpShell]⟩, by simp [sharpShell], by simp [sharpShell], ?_⟩
  intro i hi
  have : i = 0 := by simp only [sharpShell] at hi; omega
  subst this
  simp [sharpShell]
  have := Real.pi_pos
  positivity

theorem sharpPotential_ok (c : ℝ) : (sharpPotential c).WF ∧ (sharpPotential c).Regular := by
  refine ⟨by simp [Potential.WF, sharpPotential], fun k hk => ?_⟩
  have : k = 0 := by simp only [sharpPotential] at hk; omega
  subst this
  simp [sharpPotential]

theorem sharp_keep (d s : ℝ) : keepLarge (sharpShell d s) = sharpShell d s := by
  unfold keepLarge sharpShell zeroThresh
  norm_num

theorem sharp_keepTerms {c : ℝ} (hc : 1 ≤ c) : keepLargeTerms (sharpPotential c) = sharpPotential c := by
  unfold keepLargeTerms sharpPotential
  have : |c| > zeroThresh := by
    rw [abs_of_pos (by linarith)]
    unfold zeroThresh
    norm_num
    linarith
  simp [this]

theorem sharp_potential (c r : ℝ) : potentialRadial (sharpPotential c) r = c * Real.exp (-r ^ 2) := by
  unfold potentialRadial sharpPotential
  simp

theorem sharp_toC {d : ℝ} (hd : 0 ≤ d) (s : ℝ) : (∑ i, toC (sharpShell d s) (fun _ => 0) i ^ 2) = d ^ 2 ∧ vnorm (toC (sharpShell d s) fun _ => 0) = d := by
  have h2 : (∑ i, toC (sharpShell d s) (fun _ => 0) i ^ 2) = d ^ 2 := by
    rw [Fin.sum_univ_three]
    simp [toC, sharpShell]
  refine ⟨h2, ?_⟩
  unfold vnorm
  rw [h2, Real.sqrt_sq hd]

theorem sharp_vecOk {d s : ℝ} (hd : 1 / 2 ≤ d) (hs : 1 ≤ s) : VecOk (kDir (sharpShell d s) fun _ => 0) := by
  have e : kDir (sharpShell d s) (fun _ => 0) = fun i => -(Real.pi * s ^ 4) * toC (sharpShell d s) (fun _ => 0) i := by
    funext i
    unfold kDir
    rw [show (sharpShell d s).alphaAt 0 = Real.pi / 2 * s ^ 4 from rfl]
    ring
  refine Or.inr ?_
  rw [e, vnorm_smul (by have := Real.pi_pos; positivity), (sharp_toC (by linarith) s).2]
  have h1 : 1 ≤ s ^ 4 := one_le_pow₀ hs
  have h2 := Real.pi_gt_three
  have h3 : 3 * 1 ≤ Real.pi * s ^ 4 := mul_le_mul h2.le h1 (by norm_num) (by positivity)
  have h4 : 3 * (1 / 2) ≤ Real.pi * s ^ 4 * d := mul_le_mul (by linarith) hd (by norm_num) (by positivity)
  norm_num at *
  linarith

theorem sharp_weight (d : ℝ) {s : ℝ} (hs : 0 < s) : (sharpShell d s).weight 0 = s ^ 3 := by
  have h1 : (sharpShell d s).weight 0 = 1 * gaussianNormFactor 0 0 0 (Real.pi / 2 * s ^ 4) := rfl
  rw [h1, one_mul]
  unfold gaussianNormFactor
  have e : 2 * (Real.pi / 2 * s ^ 4) / Real.pi = s ^ 4 := by
    have := Real.pi_ne_zero
    field_simp
  rw [e, show (0.5 * (((0:ℕ):ℝ) + (0:ℕ) + (0:ℕ))) = 0 by norm_num, Real.rpow_zero, mul_one, ← Real.rpow_natCast, ← Real.rpow_mul hs.le,
    show (((4:ℕ):ℝ) * 0.75) = ((3:ℕ):ℝ) by norm_num, Real.rpow_natCast]

theorem sharp_env {d s : ℝ} (hd : 0 ≤ d) (hs : 0 < s) (r : ℝ) :
    radEnv (sharpShell d s) (fun _ => 0) r = s ^ 3 * Real.exp (-(Real.pi / 2 * s ^ 4) * (r - d) ^ 2) := by
  unfold radEnv
  rw [show (sharpShell d s).num = 1 from rfl, Finset.sum_range_one, sharp_weight d hs, (sharp_toC hd s).2,
    show (sharpShell d s).alphaAt 0 = Real.pi / 2 * s ^ 4 from rfl, abs_of_pos (by positivity)]

theorem sharp_radF {d s : ℝ} (hd : 0 ≤ d) (hs : 0 < s) (r : ℝ) : radF (sharpShell d s) (fun _ => 0) 0 r =
    s ^ 3 * (Real.exp (-(Real.pi / 2 * s ^ 4) * (r ^ 2 + d ^ 2)) * besselI 0 (r * (2 * (Real.pi / 2 * s ^ 4) * d))) := by
  unfold radF
  rw [show (sharpShell d s).num = 1 from rfl, Finset.sum_range_one, sharp_weight d hs, (sharp_toC hd s).1, (sharp_toC hd s).2,
    show (sharpShell d s).alphaAt 0 = Real.pi / 2 * s ^ 4 from rfl]

/-- `i₀(x) ≥ eˣ / (4x)` for `x ≥ 1`. -/
theorem besselI_zero_ge {x : ℝ} (hx : 1 ≤ x) : Real.exp x / (4 * x) ≤ besselI 0 x := by
  rw [besselI_zero_eq (by linarith), Real.sinh_eq, div_div, div_le_div_iff₀ (by positivity) (by positivity)]
  have h1 : Real.exp (-x) ≤ Real.exp x / 2 := by
    have h2 : Real.exp (-x) ≤ 1 := Real.exp_le_one_iff.2 (by linarith)
    have h3 : x + 1 ≤ Real.exp x := Real.add_one_le_exp x
    linarith
  nlinarith

theorem sharp_lower {d s : ℝ} (hd : 1 / 2 ≤ d) (hd1 : d ≤ 1) (hs2 : 2 ≤ s) {r : ℝ} (h1 : d ≤ r) (h2 : r ≤ d + 1 / s ^ 2) :
    Real.exp (-2) / (32 * s) ≤ radF (sharpShell d s) (fun _ => 0) 0 r := by
  have hs : 1 ≤ s := by linarith
  have s4 : 1 ≤ s ^ 4 := one_le_pow₀ hs
  have s16 : 2 ^ 4 ≤ s ^ 4 := pow_le_pow_left₀ (by norm_num) hs2 4
  have s2 : 1 ≤ s ^ 2 := one_le_pow₀ hs
  have hr2 : r ≤ 2 := by
    have : 1 / s ^ 2 ≤ 1 := by rw [div_le_one (by positivity)]; exact s2
    linarith
  have hp := Real.pi_gt_three
  have hp4 := Real.pi_le_four
  set a := Real.pi / 2 * s ^ 4 with ha
  have a1 : 1 ≤ a := by nlinarith
  have a2 : a ≤ 2 * s ^ 4 := by rw [ha]; exact mul_le_mul_of_nonneg_right (by linarith) (by positivity)
  have a8 : 24 ≤ a := by nlinarith
  set x := r * (2 * a * d) with hx
  have rd : 1 / 4 ≤ r * d := by nlinarith
  have rd2 : r * d ≤ 2 := by nlinarith
  have ex : x = 2 * a * (r * d) := by rw [hx]; ring
  have x4 : x ≤ 8 * s ^ 4 := by rw [ex]; nlinarith
  rw [sharp_radF (by linarith) (by linarith)]
  rcases le_total 1 x with x1 | x1
  · have hb := besselI_zero_ge x1
    have hq : a * (r - d) ^ 2 ≤ 2 := by
      have h3 : (r - d) ^ 2 ≤ (1 / s ^ 2) ^ 2 := pow_le_pow_left₀ (by linarith) (by linarith) 2
      have h4 : (1 / s ^ 2) ^ 2 = 1 / s ^ 4 := by rw [div_pow, one_pow, ← pow_mul]
      rw [h4] at h3
      calc a * (r - d) ^ 2 ≤ 2 * s ^ 4 * (1 / s ^ 4) := mul_le_mul a2 h3 (sq_nonneg _) (by positivity)
        _ = 2 := by field_simp
    have he : Real.exp (-2) ≤ Real.exp (-a * (r ^ 2 + d ^ 2)) * Real.exp x := by
      rw [← Real.exp_add]
      refine Real.exp_le_exp.2 ?_
      rw [ex]
      nlinarith
    calc Real.exp (-2) / (32 * s) = s ^ 3 * (Real.exp (-2) / (32 * s ^ 4)) := by field_simp
      _ ≤ s ^ 3 * (Real.exp (-a * (r ^ 2 + d ^ 2)) * (Real.exp x / (4 * x))) := by
          refine mul_le_mul_of_nonneg_left ?_ (by positivity)
          rw [← mul_div_assoc]
          exact div_le_div₀ (by positivity) he (by positivity) (by linarith)
      _ ≤ _ := by
          refine mul_le_mul_of_nonneg_left (mul_le_mul_of_nonneg_left hb (Real.exp_pos _).le) (by positivity)
  · exfalso
    rw [ex] at x1
    nlinarith

theorem sharp_exact {d s : ℝ} (hd : 1 / 2 ≤ d) (hd1 : d ≤ 1) (hs : 2 ≤ s) :
    s ^ 4 * (Real.exp (-8) / 4096) ≤ semiExact (potentialRadial (sharpPotential (s ^ 8))) (sharpShell d s) (sharpShell d s) (fun _ => 0) 0 0 0 := by
  have hsp : 0 < s := by linarith
  have hpos := (sharpShell_homog d hsp).pos
  have hint := semiExact_integrable (radialPot_of_regular (sharpPotential_ok (s ^ 8)).2).mild (sharpShell d s) (sharpShell d s) hpos hpos (fun _ => 0) 0 0 0
  have s2 : 1 ≤ s ^ 2 := one_le_pow₀ (by linarith)
  have hsub : Ioc d (d + 1 / s ^ 2) ⊆ Ioi 0 := fun r hr => lt_of_le_of_lt (by linarith) hr.1
  unfold semiExact
  have h1 : (∫ r in Ioc d (d + 1 / s ^ 2), s ^ 6 * (Real.exp (-8) / 4096)) ≤ ∫ r in Ioc d (d + 1 / s ^ 2),
      r ^ 2 * (potentialRadial (sharpPotential (s ^ 8)) r *
        (r ^ 0 * (radF (sharpShell d s) (fun _ => 0) 0 r * radF (sharpShell d s) (fun _ => 0) 0 r))) := by
    refine setIntegral_mono_on (integrableOn_const (by simp)) (hint.mono_set hsub) measurableSet_Ioc fun r hr => ?_
    have hl := sharp_lower hd hd1 hs hr.1.le hr.2
    have hr2 : r ≤ 2 := by
      have : 1 / s ^ 2 ≤ 1 := by rw [div_le_one (by positivity)]; exact s2
      linarith [hr.2]
    have hr1 : 1 / 2 ≤ r := by linarith [hr.1]
    rw [sharp_potential, pow_zero, one_mul]
    have e1 : Real.exp (-4) ≤ Real.exp (-r ^ 2) := Real.exp_le_exp.2 (by nlinarith)
    have e2 : (Real.exp (-2) / (32 * s)) * (Real.exp (-2) / (32 * s)) ≤
        radF (sharpShell d s) (fun _ => 0) 0 r * radF (sharpShell d s) (fun _ => 0) 0 r :=
      mul_le_mul hl hl (by positivity) (le_trans (by positivity) hl)
    have e3 : (1 / 4 : ℝ) ≤ r ^ 2 := by nlinarith
    calc s ^ 6 * (Real.exp (-8) / 4096) = 1 / 4 * (s ^ 8 * Real.exp (-4) * ((Real.exp (-2) / (32 * s)) * (Real.exp (-2) / (32 * s)))) := by
          rw [show (-8 : ℝ) = -4 + (-2 + -2) by norm_num, Real.exp_add, Real.exp_add]
          field_simp
          norm_num
      _ ≤ _ := by
          refine mul_le_mul e3 (mul_le_mul (mul_le_mul_of_nonneg_left e1 (by positivity)) e2 (by positivity) (by positivity)) (by positivity) (by positivity)
  rw [setIntegral_const] at h1
  have h2 : (volume : Measure ℝ).real (Ioc d (d + 1 / s ^ 2)) = 1 / s ^ 2 := by
    rw [Real.volume_real_Ioc_of_le (by have : 0 ≤ 1 / s ^ 2 := by positivity
                                       linarith)]
    ring
  rw [h2, smul_eq_mul] at h1
  have h3 : 1 / s ^ 2 * (s ^ 6 * (Real.exp (-8) / 4096)) = s ^ 4 * (Real.exp (-8) / 4096) := by field_simp
  rw [h3] at h1
  refine h1.trans (setIntegral_mono_set hint ?_ (HasSubset.Subset.eventuallyLE hsub))
  refine (ae_restrict_iff' measurableSet_Ioi).2 (ae_of_all _ fun r hr => ?_)
  show 0 ≤ _
  beta_reduce
  rw [sharp_potential]
  have hr : 0 < r := hr
  have hF : 0 ≤ radF (sharpShell d s) (fun _ => 0) 0 r := by
    rw [sharp_radF (by linarith) hsp]
    refine mul_nonneg (by positivity) (mul_nonneg (Real.exp_pos _).le (besselI_nonneg 0 ?_))
    have := Real.pi_pos
    have : 0 ≤ d := by linarith
    positivity
  positivity

/-- A distance that is not a node of any of the nine grids. -/
theorem grid_miss : ∃ d : ℝ, 1 / 2 ≤ d ∧ d ≤ 1 ∧ ∃ δ > 0, ∀ k ≤ 8, ∀ i < levelSize 31 k, δ ≤ |gridR (levelSize 31 k) (i + 1) - d| := by
  classical
  set S : Finset ℝ := (Finset.range 9).biUnion fun k => (Finset.range (levelSize 31 k)).image fun i => gridR (levelSize 31 k) (i + 1) with hS
  obtain ⟨d, hd, hdS⟩ := (Ioo_infinite (show (1 / 2 : ℝ) < 1 by norm_num)).exists_notMem_finset S
  obtain ⟨δ, hδ, hb⟩ := Metric.isOpen_iff.1 S.finite_toSet.isClosed.isOpen_compl d (by simpa using hdS)
  refine ⟨d, hd.1.le, hd.2.le, δ, hδ, fun k hk i hi => ?_⟩
  by_contra hlt
  have := hb (show gridR (levelSize 31 k) (i + 1) ∈ Metric.ball d δ by rw [Metric.mem_ball, Real.dist_eq]; exact not_le.1 hlt)
  refine this ?_
  rw [Finset.mem_coe, hS, Finset.mem_biUnion]
  exact ⟨k, Finset.mem_range.2 (by omega), Finset.mem_image.2 ⟨i, Finset.mem_range.2 hi, rfl⟩⟩

/-- The sum of the weights of all grids. -/
noncomputable def gridTotal : ℝ := ∑ k ∈ Finset.range 9, ∑ i ∈ Finset.range (levelSize 31 k), |gridW (levelSize 31 k) (i + 1)|

theorem fullQuad_le {F : ℝ → ℝ} {K : ℝ} (hK : 0 ≤ K) {k : ℕ} (hk : k ≤ 8) (h : ∀ i < levelSize 31 k, |F (gridR (levelSize 31 k) (i + 1))| ≤ K) :
    |fullQuad F (levelSize 31 k)| ≤ gridTotal * K := by
  unfold fullQuad
  refine (Finset.abs_sum_le_sum_abs _ _).trans ?_
  have h1 : ∑ i ∈ Finset.range (levelSize 31 k), |gridW (levelSize 31 k) (i + 1)| ≤ gridTotal :=
    Finset.single_le_sum (f := fun k => ∑ i ∈ Finset.range (levelSize 31 k), |gridW (levelSize 31 k) (i + 1)|)
      (fun k _ => Finset.sum_nonneg fun i _ => abs_nonneg _) (Finset.mem_range.2 (by omega : k < 9))
  refine le_trans ?_ (mul_le_mul_of_nonneg_right h1 hK)
  rw [Finset.sum_mul]
  refine Finset.sum_le_sum fun i hi => ?_
  rw [abs_mul]
  exact mul_le_mul_of_nonneg_left (h i (Finset.mem_range.1 hi)) (abs_nonneg _)

/-- The value stored for a radial integral, when it is not an estimate. -/
theorem sharp_entry {d δ s : ℝ} (hd : 1 / 2 ≤ d) (hs : 1 ≤ s) (hδ : 0 < δ)
    (hm : ∀ k ≤ 8, ∀ i < levelSize 31 k, δ ≤ |gridR (levelSize 31 k) (i + 1) - d|) {scr : Option ℝ} {v : ℝ}
    (h : RadialEntry scr (sharpPotential (s ^ 8)) (sharpShell d s) (sharpShell d s) (fun _ => 0) 0 0 0 v) (hv : 1e-16 ≤ |v|) :
    |v| ≤ 2 * gridTotal * (s ^ 14 * Real.exp (-δ ^ 2 * s ^ 4)) := by
  have hsp : 0 < s := by linarith
  have hpos := (sharpShell_homog d hsp).pos
  rcases h with ⟨x, -, hx, rfl⟩ | ⟨k, hk, hq⟩
  · exact absurd hx (not_lt.2 hv)
  rw [sharp_keep, sharp_keepTerms (one_le_pow₀ hs)] at hq
  have key : ∀ i < levelSize 31 k, potentialRadial (sharpPotential (s ^ 8)) (gridR (levelSize 31 k) (i + 1)) *
      (radEnv (sharpShell d s) (fun _ => 0) (gridR (levelSize 31 k) (i + 1)) * radEnv (sharpShell d s) (fun _ => 0) (gridR (levelSize 31 k) (i + 1))) ≤
        s ^ 14 * Real.exp (-δ ^ 2 * s ^ 4) := by
    intro i hi
    have h1 := hm k hk i hi
    set r := gridR (levelSize 31 k) (i + 1)
    rw [sharp_potential, sharp_env (by linarith) hsp]
    have h2 : δ ^ 2 ≤ (r - d) ^ 2 := by rw [← sq_abs (r - d)]; exact pow_le_pow_left₀ hδ.le h1 2
    have h3 := Real.pi_gt_three
    have e1 : Real.exp (-r ^ 2) ≤ 1 := Real.exp_le_one_iff.2 (by nlinarith)
    have e2 : Real.exp (-(Real.pi / 2 * s ^ 4) * (r - d) ^ 2) * Real.exp (-(Real.pi / 2 * s ^ 4) * (r - d) ^ 2) ≤ Real.exp (-δ ^ 2 * s ^ 4) := by
      rw [← Real.exp_add]
      refine Real.exp_le_exp.2 ?_
      have s4 : 0 < s ^ 4 := by positivity
      have : δ ^ 2 * s ^ 4 ≤ (r - d) ^ 2 * s ^ 4 := mul_le_mul_of_nonneg_right h2 s4.le
      nlinarith [mul_nonneg (sq_nonneg (r - d)) s4.le]
    calc _ = s ^ 14 * (Real.exp (-r ^ 2) * (Real.exp (-(Real.pi / 2 * s ^ 4) * (r - d) ^ 2) * Real.exp (-(Real.pi / 2 * s ^ 4) * (r - d) ^ 2))) := by ring
      _ ≤ s ^ 14 * (1 * Real.exp (-δ ^ 2 * s ^ 4)) := by
          refine mul_le_mul_of_nonneg_left (mul_le_mul e1 e2 (by positivity) zero_le_one) (by positivity)
      _ = _ := by rw [one_mul]
  have pU : ∀ r, 0 ≤ potentialRadial (sharpPotential (s ^ 8)) r := fun r => by rw [sharp_potential]; positivity
  have hK : 0 ≤ s ^ 14 * Real.exp (-δ ^ 2 * s ^ 4) := by positivity
  have b1 := fullQuad_le (F := semiIntegrand (potentialRadial (sharpPotential (s ^ 8))) (sharpShell d s) (sharpShell d s) (fun _ => 0) 0 0 0) hK hk
    (fun i hi => by
      refine le_trans ?_ (key i hi)
      unfold semiIntegrand
      have hr : 0 ≤ gridR (levelSize 31 k) (i + 1) := (gridR_pos (by omega) (by omega)).le
      have hF := radF_le (sharpShell d s) hpos (fun _ => 0) 0 hr
      rw [abs_mul, abs_of_nonneg (pU _), pow_zero, one_mul, abs_mul]
      exact mul_le_mul_of_nonneg_left (mul_le_mul hF hF (abs_nonneg _) (radEnv_nonneg _ _ _)) (pU _))
  have b2 := fullQuad_le (F := fun r => 8.7e-13 * (|potentialRadial (sharpPotential (s ^ 8)) r| * (radEnv (sharpShell d s) (fun _ => 0) r *
      radEnv (sharpShell d s) (fun _ => 0) r) * r ^ 0)) hK hk
    (fun i hi => by
      refine le_trans ?_ (key i hi)
      have hE := mul_nonneg (pU (gridR (levelSize 31 k) (i + 1))) (mul_nonneg (radEnv_nonneg (sharpShell d s) (fun _ => 0) (gridR (levelSize 31 k) (i + 1)))
        (radEnv_nonneg (sharpShell d s) (fun _ => 0) (gridR (levelSize 31 k) (i + 1))))
      rw [pow_zero, mul_one, abs_of_nonneg (pU _), abs_of_nonneg (by positivity)]
      nlinarith)
  have t := abs_sub_abs_le_abs_sub v (fullQuad (semiIntegrand (potentialRadial (sharpPotential (s ^ 8))) (sharpShell d s) (sharpShell d s) (fun _ => 0) 0 0 0)
    (levelSize 31 k))
  have b3 := (le_abs_self _).trans b2
  linarith

/-- The sum of the code for two `s` functions and `L = 0`. -/
theorem semiSumCode_s (CA CB : Point) (Q : ℕ → ℕ → ℕ → ℝ) (g : ℕ → Comp → ℕ → Comp → ℝ) :
    semiSumCode 1e-13 1e-16 0 CA CB Q g (0, 0, 0) (0, 0, 0) = if |Q 0 0 0| < 1e-16 then 0 else Q 0 0 0 • g 0 (0, 0, 0) 0 (0, 0, 0) := by
  have hb : box (0, 0, 0) = {(0, 0, 0)} := by decide
  have hc : ∀ C : Point, boxCoef (0, 0, 0) C (0, 0, 0) = 1 := fun C => by simp [boxCoef]
  unfold semiSumCode
  rw [hb, Finset.sum_singleton, Finset.sum_singleton, hc, hc, if_neg (by norm_num)]
  simp [cdeg, orderUsed]

end Libgrpp
