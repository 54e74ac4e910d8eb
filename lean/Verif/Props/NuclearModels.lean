import Verif.Lemmas.NuclearModels

/-! # Nuclear charge distributions and their potentials

Theorems for properties C36, C37, C38, C56, C66 and C67. -/

namespace Libgrpp

open MeasureTheory Filter Topology

/-! ## C36: charged ball -/

/-- The ball density integrates to `Z` and has the requested rms radius; the potential is the electrostatic potential of
the density, continuous for all positive radii, equals `-Z/r` outside, and satisfies Poisson's equation inside. -/
theorem ball_nucleus (Z : ℝ) {R : ℝ} (hR : 0 < R) :
    totalCharge (fun s => densBall s Z R) = Z ∧
    secondMoment (fun s => densBall s Z R) = Z * R ^ 2 ∧
    (∀ r, 0 < r → potBall r Z R = electronEnergy (fun s => densBall s Z R) r) ∧
    ContinuousOn (fun r => potBall r Z R) (Set.Ioi 0) ∧
    (∀ r, Real.sqrt (5 / 3) * R ≤ r → potBall r Z R = -Z / r) ∧
    (∀ r, 0 < r → r < Real.sqrt (5 / 3) * R →
      deriv (deriv fun s => s * potBall s Z R) r = 4 * Real.pi * r * densBall r Z R) := by
  have h53 : Real.sqrt (5 / 3) ^ 2 = 5 / 3 := Real.sq_sqrt (by norm_num)
  have hq : 0 < Real.sqrt (5 / 3) * R := by positivity
  have hout : ∀ r, Real.sqrt (5 / 3) * R ≤ r → potBall r Z R = -Z / r := by
    intro r hr
    simp only [potBall]
    split_ifs with h
    · have : r = Real.sqrt (5 / 3) * R := le_antisymm h hr
      rw [← this]
      have hr0 : r ≠ 0 := by rw [this]; exact hq.ne'
      field_simp
      ring
    · rfl
  have hin : ∀ r, r ≤ Real.sqrt (5 / 3) * R → potBall r Z R =
      -Z / (2 * (Real.sqrt (5 / 3) * R)) * (3 - r * r / ((Real.sqrt (5 / 3) * R) * (Real.sqrt (5 / 3) * R))) := by
    intro r hr
    unfold potBall
    rw [if_pos hr]
  refine ⟨?_, ?_, ?_, ?_, hout, ?_⟩
  · unfold totalCharge
    rw [ball_tail Z R 2 hq.le]
    norm_num
    field_simp
  · unfold secondMoment
    rw [ball_tail Z R 4 hq.le]
    have : (Real.sqrt (5 / 3) * R) ^ 5 = (Real.sqrt (5 / 3) * R) ^ 3 * (5 / 3 * R ^ 2) := by
      linear_combination (Real.sqrt (5 / 3) ^ 3 * R ^ 5) * h53
    generalize Real.sqrt (5 / 3) * R = q at *
    norm_num [this]
    field_simp
  · intro r hr
    unfold electronEnergy
    rw [ball_within Z hR hr.le]
    have e1 : (∫ s in Set.Ioi r, 4 * Real.pi * s * densBall s Z R) =
        ∫ s in Set.Ioi r, 4 * Real.pi * s ^ 1 * densBall s Z R := by simp only [pow_one]
    rw [e1]
    split_ifs with h
    · rw [hin r h, ball_tail Z R 1 h]
      generalize Real.sqrt (5 / 3) * R = q at *
      norm_num
      field_simp
      ring
    · push Not at h
      rw [hout r h.le, ball_above Z R 1 h.le]
      ring
  · intro r hr
    have hr0 : (0 : ℝ) < r := hr
    refine ContinuousAt.continuousWithinAt ?_
    have c1 : ContinuousAt (fun r : ℝ => -Z / (2 * (Real.sqrt (5 / 3) * R)) *
        (3 - r * r / ((Real.sqrt (5 / 3) * R) * (Real.sqrt (5 / 3) * R)))) r := by fun_prop
    have c2 : ContinuousAt (fun r : ℝ => -Z / r) r := continuousAt_const.div continuousAt_id hr0.ne'
    rcases lt_trichotomy r (Real.sqrt (5 / 3) * R) with h | h | h
    · refine c1.congr ?_
      filter_upwards [Iio_mem_nhds h] with s hs
      exact (hin s (le_of_lt hs)).symm
    · rw [continuousAt_iff_continuous_left_right]
      constructor
      · refine c1.continuousWithinAt.congr (fun s hs => hin s ?_) (hin r h.le)
        rw [← h]; exact hs
      · refine c2.continuousWithinAt.congr (fun s hs => hout s ?_) (hout r h.ge)
        rw [← h]; exact hs
    · refine c2.congr ?_
      filter_upwards [Ioi_mem_nhds h] with s hs
      exact (hout s (le_of_lt hs)).symm
  · intro r hr hrq
    set q := Real.sqrt (5 / 3) * R with hqd
    have e : (fun s => s * potBall s Z R) =ᶠ[𝓝 r] fun s => s * (-Z / (2 * q) * (3 - s * s / (q * q))) := by
      filter_upwards [Iio_mem_nhds hrq] with s hs
      rw [hin s (le_of_lt hs)]
    have d1 : ∀ s : ℝ, HasDerivAt (fun s => s * (-Z / (2 * q) * (3 - s * s / (q * q)))) (-Z / (2 * q) * (3 - 3 * s ^ 2 / (q * q))) s := by
      intro s
      have h3 := (((hasDerivAt_id s).const_mul 3).sub ((hasDerivAt_pow 3 s).div_const (q * q))).const_mul (-Z / (2 * q))
      have ef : (fun s => s * (-Z / (2 * q) * (3 - s * s / (q * q)))) = fun s => -Z / (2 * q) * (3 * id s - s ^ 3 / (q * q)) := by
        funext s
        simp only [id]
        ring
      rw [ef]
      have ed : -Z / (2 * q) * (3 - 3 * s ^ 2 / (q * q)) = -Z / (2 * q) * (3 * 1 - ((3 : ℕ) : ℝ) * s ^ (3 - 1) / (q * q)) := by
        norm_num
      rw [ed]
      exact h3
    have e2 : deriv (fun s => s * potBall s Z R) =ᶠ[𝓝 r] fun s => -Z / (2 * q) * (3 - 3 * s ^ 2 / (q * q)) := by
      refine e.deriv.trans ?_
      filter_upwards with s
      exact (d1 s).deriv
    rw [e2.deriv_eq]
    have d2 : HasDerivAt (fun s : ℝ => -Z / (2 * q) * (3 - 3 * s ^ 2 / (q * q))) (-Z / (2 * q) * (-(3 * (2 * r) / (q * q)))) r := by
      have h2 := ((((hasDerivAt_pow 2 r).const_mul 3).div_const (q * q)).const_sub 3).const_mul (-Z / (2 * q))
      have ed : -Z / (2 * q) * (-(3 * (2 * r) / (q * q))) = -Z / (2 * q) * (-(3 * (((2 : ℕ) : ℝ) * r ^ (2 - 1)) / (q * q))) := by
        norm_num
      rw [ed]
      exact h2
    rw [d2.deriv]
    unfold densBall
    simp only [← hqd, if_pos hrq.le]
    have := Real.pi_pos
    field_simp

example : totalCharge (fun s => densBall s 92 5) = 92 ∧ potBall 100 92 5 = -92 / 100 := by
  have h := ball_nucleus 92 (R := 5) (by norm_num)
  refine ⟨h.1, h.2.2.2.2.1 100 ?_⟩
  have : Real.sqrt (5 / 3) ≤ 2 := by
    rw [Real.sqrt_le_left (by norm_num)]
    norm_num
  linarith

/-! ## C37: Gaussian distribution -/

/-- The Gaussian density integrates to `Z` and has the requested rms radius; the potential is the electrostatic potential
of the density. -/
theorem gauss_nucleus (Z : ℝ) {R : ℝ} (hR : 0 < R) :
    totalCharge (fun s => densGauss s Z R) = Z ∧
    secondMoment (fun s => densGauss s Z R) = Z * R ^ 2 ∧
    (∀ r, 0 < r → potGauss r Z R = electronEnergy (fun s => densGauss s Z R) r) ∧
    (∀ r, potGauss r Z R = -Z * erfC (Real.sqrt (3 / (2 * R ^ 2)) * r) / r) := by
  refine ⟨?_, ?_, fun r hr => (gauss_energy Z hR hr).symm, ?_⟩
  · unfold totalCharge
    have h := gauss_moment Z hR 1
    norm_num [Nat.doubleFactorial] at h
    rw [h]
    field_simp
  · unfold secondMoment
    have h := gauss_moment Z hR 2
    norm_num [Nat.doubleFactorial] at h
    rw [h]
    field_simp
    ring
  · intro r
    unfold potGauss
    rw [show 2 * R * R = 2 * R ^ 2 by ring]
    ring

example : totalCharge (fun s => densGauss s 92 5) = 92 := (gauss_nucleus 92 (by norm_num)).1

/-- Near the centre the Gaussian potential tends to `-2 Z √(ξ/π)`, `ξ = 3/(2R²)`. -/
theorem gauss_limit_partial (Z : ℝ) {R : ℝ} (_hR : 0 < R) :
    Tendsto (fun r => potGauss r Z R) (𝓝[≠] 0) (𝓝 (-Z * (2 * Real.sqrt (3 / (2 * R ^ 2)) / Real.sqrt Real.pi))) := by
  refine ((erfC_div_tendsto (Real.sqrt (3 / (2 * R ^ 2)))).const_mul (-Z)).congr fun r => ?_
  unfold potGauss
  rw [show 2 * R * R = 2 * R ^ 2 by ring]
  ring

/-- At `r = 0` the value is not the limit: the formula is evaluated as it stands, dividing by zero (a NaN in the program;
with `x/0 = 0` as in this model, zero). -/
theorem gauss_origin (Z : ℝ) {R : ℝ} (hR : 0 < R) (hZ : Z ≠ 0) :
    ¬Tendsto (fun r => potGauss r Z R) (𝓝[≠] 0) (𝓝 (potGauss 0 Z R)) := by
  intro h
  have h2 := tendsto_nhds_unique h (gauss_limit_partial Z hR)
  have h0 : potGauss 0 Z R = 0 := by simp [potGauss]
  rw [h0] at h2
  have h3 : 0 < Real.sqrt (3 / (2 * R ^ 2)) := Real.sqrt_pos.2 (by positivity)
  have h4 : 0 < Real.sqrt Real.pi := Real.sqrt_pos.2 Real.pi_pos
  have h5 : (2 * Real.sqrt (3 / (2 * R ^ 2)) / Real.sqrt Real.pi) ≠ 0 := by positivity
  exact (mul_ne_zero (neg_ne_zero.2 hZ) h5) h2.symm

example : ¬Tendsto (fun r => potGauss r 92 5) (𝓝[≠] 0) (𝓝 (potGauss 0 92 5)) :=
  gauss_origin 92 (by norm_num) (by norm_num)

/-! ## C38, C66: Fermi distributions -/

/-- A routine which computes `S_k(x)` exactly for `2 ≤ k ≤ 7` and `x ≤ 0`. -/
def ExactSk (sk : SkFun) : Prop := ∀ (k : ℕ) (x : ℝ), 2 ≤ k → k ≤ 7 → x ≤ 0 → sk (k : Int) x = .ok (fermiS k x)

/-- There is such a routine. -/
theorem exactSk_exists : ∃ sk : SkFun, ExactSk sk :=
  ⟨fun k x => .ok (fermiS k.toNat x), fun k x _ _ _ => by simp⟩

theorem bubbleNorm_exact {sk : SkFun} (h : ExactSk sk) {c a : ℝ} (hc : 0 < c) (ha : 0 < a) (k : ℝ) :
    bubbleNorm sk c a k = .ok (bubbleN c a k) := by
  have hx : -c / a ≤ 0 := div_nonpos_of_nonpos_of_nonneg (by linarith) ha.le
  have h3 := h 3 (-c / a) (by norm_num) (by norm_num) hx
  have h5 := h 5 (-c / a) (by norm_num) (by norm_num) hx
  norm_num at h3 h5
  simp only [bubbleNorm, fermiNorm, h3, h5, Outcome.ok_bind]
  rfl

/-- C66: with exact `S_k` the bubble density integrates to `Z`; the routine for the rms radius gives the rms radius of the
density; the potential is the electrostatic potential of the density, in both of its branches, and it is continuous. The
normalisation factor must not vanish (it is positive for `k ≥ 0`). -/
theorem bubble_nucleus {sk : SkFun} (h : ExactSk sk) (Z k : ℝ) {c a : ℝ} (hc : 0 < c) (ha : 0 < a)
    (hN : bubbleNorm sk c a k ≠ .ok 0) :
    ∃ ρ : ℝ → ℝ, (∀ r, densBubble sk r Z c a k = .ok (ρ r)) ∧
      totalCharge ρ = Z ∧
      (∀ z : Int, z ≠ 0 → Z = z → rmsBubble sk z c a k = .ok (Real.sqrt (secondMoment ρ / Z))) ∧
      (∀ r, 0 < r → potBubble sk r Z c a k = .ok (electronEnergy ρ r)) ∧
      ContinuousOn (electronEnergy ρ) (Set.Ioi 0) := by
  have hx : -c / a ≤ 0 := div_nonpos_of_nonpos_of_nonneg (by linarith) ha.le
  have hB := bubbleNorm_exact h hc ha k
  have hN' : bubbleN c a k ≠ 0 := fun h0 => hN (by rw [hB, h0])
  have h3 := h 3 (-c / a) (by norm_num) (by norm_num) hx
  have h5 := h 5 (-c / a) (by norm_num) (by norm_num) hx
  have h7 := h 7 (-c / a) (by norm_num) (by norm_num) hx
  norm_num at h3 h5 h7
  have hp := Real.pi_pos
  refine ⟨bubbleRho Z c a k, ?_, bubble_charge Z k hc ha hN', ?_, ?_, ?_⟩
  · intro r
    simp only [densBubble, hB, Outcome.ok_bind]
    rfl
  · intro z hz hZ
    simp only [rmsBubble, hB, h5, h7, Outcome.ok_bind]
    congr 2
    have hz' : (z : ℝ) ≠ 0 := by exact_mod_cast hz
    rw [bubble_second Z k hc ha, momB4_zero hc ha, momB6_zero hc ha, hZ]
    field_simp
    ring
  · intro r hr
    rw [bubble_energy Z k hc ha hr, momB2_zero hc ha, momB4_zero hc ha]
    by_cases hrc : r < c
    · have hy : (r - c) / a ≤ 0 := div_nonpos_of_nonpos_of_nonneg (by linarith) ha.le
      have g2 := h 2 ((r - c) / a) (by norm_num) (by norm_num) hy
      have g3 := h 3 ((r - c) / a) (by norm_num) (by norm_num) hy
      have g4 := h 4 ((r - c) / a) (by norm_num) (by norm_num) hy
      have g5 := h 5 ((r - c) / a) (by norm_num) (by norm_num) hy
      norm_num at g2 g3 g4 g5
      simp only [potBubble, hB, if_pos hrc, g2, g3, g4, g5, h3, h5, Outcome.ok_bind]
      congr 1
      rw [fermiT_nonpos (by norm_num) hy, fermiT_nonpos (by norm_num) hy, fermiT_nonpos (by norm_num) hy,
        fermiT_nonpos (by norm_num) hy, tPoly_two, tPoly_three, tPoly_four, tPoly_five]
      generalize fermiS 2 _ = f2
      generalize fermiS 3 ((r - c) / a) = f3
      generalize fermiS 4 _ = f4
      generalize fermiS 5 ((r - c) / a) = f5
      generalize fermiS 3 _ = e3
      generalize fermiS 5 _ = e5
      generalize bubbleN c a k = N at *
      field_simp
      ring
    · have hy : 0 ≤ (r - c) / a := div_nonneg (by linarith) ha.le
      have hy' : (c - r) / a ≤ 0 := div_nonpos_of_nonpos_of_nonneg (by linarith) ha.le
      have g2 := h 2 ((c - r) / a) (by norm_num) (by norm_num) hy'
      have g3 := h 3 ((c - r) / a) (by norm_num) (by norm_num) hy'
      have g4 := h 4 ((c - r) / a) (by norm_num) (by norm_num) hy'
      have g5 := h 5 ((c - r) / a) (by norm_num) (by norm_num) hy'
      norm_num at g2 g3 g4 g5
      have hneg : -((r - c) / a) = (c - r) / a := by ring
      simp only [potBubble, hB, if_neg hrc, g2, g3, g4, g5, h3, h5, Outcome.ok_bind]
      congr 1
      rw [fermiT_nonneg (by norm_num) hy, fermiT_nonneg (by norm_num) hy, fermiT_nonneg (by norm_num) hy,
        fermiT_nonneg (by norm_num) hy, hneg]
      generalize fermiS 2 _ = f2
      generalize fermiS 3 ((c - r) / a) = f3
      generalize fermiS 4 _ = f4
      generalize fermiS 5 ((c - r) / a) = f5
      generalize fermiS 3 _ = e3
      generalize fermiS 5 _ = e5
      generalize bubbleN c a k = N at *
      field_simp
      ring
  · have hT : ∀ j : ℕ, 2 ≤ j → Continuous fun r : ℝ => fermiT j ((r - c) / a) := fun j hj =>
      (fermiT_continuous hj).comp (by fun_prop)
    have t2 := hT 2 le_rfl
    have t3 := hT 3 (by norm_num)
    have t4 := hT 4 (by norm_num)
    have t5 := hT 5 (by norm_num)
    refine ContinuousOn.congr ?_ fun r hr => bubble_energy Z k hc ha hr
    refine ContinuousOn.mul (ContinuousOn.mul continuousOn_const ?_) (Continuous.continuousOn (by fun_prop))
    exact continuousOn_const.div continuousOn_id fun r hr => ne_of_gt hr

/-- The Fermi model: for the bubble model with `k = 0` every routine gives what the Fermi routine gives. Only the potential
at `r = c`, where the one routine takes its inner and the other its outer branch, needs `S_2(0) = -π²/12` and equal values
of the two occurrences of `S_3(0)`. -/
theorem bubble_zero {sk : SkFun} (hok : ∀ k x, 2 ≤ k → k ≤ 7 → ∃ v, sk k x = .ok v) (Z : ℝ) {c : ℝ} (hc : 0 < c) (a : ℝ) :
    (∀ r, densBubble sk r Z c a 0 = densFermi sk r Z c a) ∧
    (∀ z : Int, rmsBubble sk z c a 0 = rmsFermi sk z c a) ∧
    (∀ r, r ≠ c → potBubble sk r Z c a 0 = potFermi sk r Z c a) ∧
    (sk 2 0 = .ok (-(Real.pi ^ 2 / 12)) → potBubble sk c Z c a 0 = potFermi sk c Z c a) := by
  obtain ⟨s3, h3⟩ := hok 3 (-c / a) (by norm_num) (by norm_num)
  obtain ⟨s5, h5⟩ := hok 5 (-c / a) (by norm_num) (by norm_num)
  obtain ⟨s7, h7⟩ := hok 7 (-c / a) (by norm_num) (by norm_num)
  have hB : bubbleNorm sk c a 0 = fermiNorm sk c a := by
    simp only [bubbleNorm, fermiNorm, h3, h5, Outcome.ok_bind]
    congr 1
    ring
  have hF : fermiNorm sk c a = .ok (1 + Real.pi * Real.pi * (a * a) / (c * c) - 6 * (a * a * a) / (c * c * c) * s3) := by
    simp only [fermiNorm, h3, Outcome.ok_bind]
  refine ⟨?_, ?_, ?_, ?_⟩
  · intro r
    simp only [densBubble, densFermi, hB, hF, Outcome.ok_bind]
    congr 1
    ring
  · intro z
    simp only [rmsBubble, rmsFermi, hB, hF, h5, h7, Outcome.ok_bind]
    congr 2
    ring
  · intro r hr
    simp only [potBubble, potFermi, hB, hF, Outcome.ok_bind]
    generalize hNN : (1 + Real.pi * Real.pi * (a * a) / (c * c) - 6 * (a * a * a) / (c * c * c) * s3 : ℝ) = N
    by_cases hrc : r < c
    · obtain ⟨f2, g2⟩ := hok 2 ((r - c) / a) (by norm_num) (by norm_num)
      obtain ⟨f3, g3⟩ := hok 3 ((r - c) / a) (by norm_num) (by norm_num)
      obtain ⟨f4, g4⟩ := hok 4 ((r - c) / a) (by norm_num) (by norm_num)
      obtain ⟨f5, g5⟩ := hok 5 ((r - c) / a) (by norm_num) (by norm_num)
      have hrc' : ¬r > c := by linarith
      simp only [if_pos hrc, if_neg hrc', g2, g3, g4, g5, h3, h5, Outcome.ok_bind]
      congr 1
      rcases eq_or_ne (N * r) 0 with hz | hz
      · simp [hz]
      · field_simp
        ring
    · obtain ⟨f2, g2⟩ := hok 2 ((c - r) / a) (by norm_num) (by norm_num)
      obtain ⟨f3, g3⟩ := hok 3 ((c - r) / a) (by norm_num) (by norm_num)
      obtain ⟨f4, g4⟩ := hok 4 ((c - r) / a) (by norm_num) (by norm_num)
      obtain ⟨f5, g5⟩ := hok 5 ((c - r) / a) (by norm_num) (by norm_num)
      have hrc' : r > c := lt_of_le_of_ne (not_lt.1 hrc) hr.symm
      simp only [if_neg hrc, if_pos hrc', g2, g3, g4, g5, h3, h5, Outcome.ok_bind]
      congr 1
      rw [← hNN]
      generalize hD : (1 + Real.pi * Real.pi * (a * a) / (c * c) - 6 * (a * a * a) / (c * c * c) * s3 : ℝ) * r = D
      rcases eq_or_ne D 0 with hz | hz
      · simp [hz]
      · field_simp
        ring
  · intro h2
    simp only [potBubble, potFermi, hB, hF, Outcome.ok_bind, lt_irrefl, if_false, sub_self, zero_div]
    obtain ⟨f3, g3⟩ := hok 3 0 (by norm_num) (by norm_num)
    obtain ⟨f4, g4⟩ := hok 4 0 (by norm_num) (by norm_num)
    obtain ⟨f5, g5⟩ := hok 5 0 (by norm_num) (by norm_num)
    simp only [h2, g3, g4, g5, h3, h5, Outcome.ok_bind]
    congr 1
    generalize (1 + Real.pi * Real.pi * (a * a) / (c * c) - 6 * (a * a * a) / (c * c * c) * s3 : ℝ) * c = D
    rcases eq_or_ne D 0 with hz | hz
    · simp [hz]
    · field_simp
      ring

/-- The exact routine extended to all arguments. -/
noncomputable def skTotal : SkFun := fun k x => .ok (fermiS k.toNat x)

example (z : Int) : rmsBubble skTotal z 6 0.5 0 = rmsFermi skTotal z 6 0.5 :=
  (bubble_zero (sk := skTotal) (fun _ _ _ _ => ⟨_, rfl⟩) 92 (by norm_num) 0.5).2.1 z

/-- C38, C66: with exact `S_k` the Fermi density is positive and decreasing for `Z > 0`, integrates to `Z`, and has the rms
radius given by the library; the potential is its electrostatic potential and is continuous, in particular where its two
branches meet. -/
theorem fermi_nucleus {sk : SkFun} (h : ExactSk sk) (Z : ℝ) {c a : ℝ} (hc : 0 < c) (ha : 0 < a) :
    ∃ ρ : ℝ → ℝ, (∀ r, densFermi sk r Z c a = .ok (ρ r)) ∧
      (0 < Z → (∀ r, 0 < ρ r) ∧ StrictAnti ρ) ∧
      totalCharge ρ = Z ∧
      (∀ z : Int, z ≠ 0 → Z = z → rmsFermi sk z c a = .ok (Real.sqrt (secondMoment ρ / Z))) ∧
      (∀ r, 0 < r → potFermi sk r Z c a = .ok (electronEnergy ρ r)) ∧
      ContinuousOn (electronEnergy ρ) (Set.Ioi 0) := by
  have hx : -c / a ≤ 0 := div_nonpos_of_nonpos_of_nonneg (by linarith) ha.le
  have hNpos := bubbleN_pos hc ha (le_refl (0 : ℝ))
  -- the exact routine on nonpositive arguments decides everything
  have key : ∀ r, 0 < r → potBubble sk r Z c a 0 = potFermi sk r Z c a := by
    intro r hr
    have hsk : ∀ k : Int, 2 ≤ k → k ≤ 7 → ∀ x, x ≤ 0 → sk k x = skTotal k x := by
      intro k h1 h2 x hx'
      lift k to ℕ using by omega
      rw [h k x (by omega) (by omega) hx']
      simp [skTotal]
    have e := bubble_zero (sk := skTotal) (fun _ _ _ _ => ⟨_, rfl⟩) Z hc a
    have e3 : potBubble skTotal r Z c a 0 = potFermi skTotal r Z c a := by
      rcases eq_or_ne r c with rfl | hne
      · exact e.2.2.2 (by simp [skTotal, fermiS_two_zero])
      · exact e.2.2.1 r hne
    have n1 : fermiNorm sk c a = fermiNorm skTotal c a := by
      simp only [fermiNorm, hsk 3 (by norm_num) (by norm_num) _ hx]
    have n2 : bubbleNorm sk c a 0 = bubbleNorm skTotal c a 0 := by
      simp only [bubbleNorm, n1, hsk 5 (by norm_num) (by norm_num) _ hx]
    have e1 : potBubble sk r Z c a 0 = potBubble skTotal r Z c a 0 := by
      by_cases hrc : r < c
      · have hy : (r - c) / a ≤ 0 := div_nonpos_of_nonpos_of_nonneg (by linarith) ha.le
        simp only [potBubble, n2, if_pos hrc, hsk 2 (by norm_num) (by norm_num) _ hy, hsk 3 (by norm_num) (by norm_num) _ hy,
          hsk 4 (by norm_num) (by norm_num) _ hy, hsk 5 (by norm_num) (by norm_num) _ hy,
          hsk 3 (by norm_num) (by norm_num) _ hx, hsk 5 (by norm_num) (by norm_num) _ hx]
      · have hy : (c - r) / a ≤ 0 := div_nonpos_of_nonpos_of_nonneg (by linarith) ha.le
        simp only [potBubble, n2, if_neg hrc, hsk 2 (by norm_num) (by norm_num) _ hy, hsk 3 (by norm_num) (by norm_num) _ hy,
          hsk 4 (by norm_num) (by norm_num) _ hy, hsk 5 (by norm_num) (by norm_num) _ hy,
          hsk 3 (by norm_num) (by norm_num) _ hx, hsk 5 (by norm_num) (by norm_num) _ hx]
    have e2 : potFermi sk r Z c a = potFermi skTotal r Z c a := by
      by_cases hrc : r > c
      · have hy : (c - r) / a ≤ 0 := div_nonpos_of_nonpos_of_nonneg (by linarith) ha.le
        simp only [potFermi, n1, if_pos hrc, hsk 2 (by norm_num) (by norm_num) _ hy, hsk 3 (by norm_num) (by norm_num) _ hy]
      · have hy : (r - c) / a ≤ 0 := div_nonpos_of_nonpos_of_nonneg (by linarith) ha.le
        simp only [potFermi, n1, if_neg hrc, hsk 2 (by norm_num) (by norm_num) _ hy, hsk 3 (by norm_num) (by norm_num) _ hy,
          hsk 3 (by norm_num) (by norm_num) _ hx]
    rw [e1, e2, e3]
  have h3 := h 3 (-c / a) (by norm_num) (by norm_num) hx
  have h5 := h 5 (-c / a) (by norm_num) (by norm_num) hx
  have h7 := h 7 (-c / a) (by norm_num) (by norm_num) hx
  norm_num at h3 h5 h7
  have hB : bubbleNorm sk c a 0 = fermiNorm sk c a := by
    simp only [bubbleNorm, fermiNorm, h3, h5, Outcome.ok_bind]
    congr 1
    ring
  have hBN := bubbleNorm_exact h hc ha 0
  obtain ⟨ρ, d, q, s, p, ct⟩ := bubble_nucleus h Z 0 hc ha (by rw [hBN]; simp [hNpos.ne'])
  have hd : ∀ r, densFermi sk r Z c a = .ok (ρ r) := by
    intro r
    rw [← d r]
    simp only [densBubble, densFermi, hB, h3, fermiNorm, Outcome.ok_bind]
    congr 1
    ring
  refine ⟨ρ, hd, ?_, q, ?_, ?_, ct⟩
  · intro hZ
    have e : ∀ r, ρ r = 3 * Z / (4 * Real.pi * (c * c * c) * bubbleN c a 0) / (1 + Real.exp ((r - c) / a)) := by
      intro r
      have := hd r
      rw [densFermi, ← hB, hBN] at this
      simp only [Outcome.ok_bind, Outcome.ok.injEq] at this
      exact this.symm
    have hp := Real.pi_pos
    constructor
    · intro r
      rw [e r]
      positivity
    · intro r r' hrr
      rw [e r, e r']
      refine div_lt_div_of_pos_left (by positivity) (by positivity) ?_
      have : Real.exp ((r - c) / a) < Real.exp ((r' - c) / a) := by
        rw [Real.exp_lt_exp]
        exact div_lt_div_of_pos_right (by linarith) ha
      linarith
  · intro z hz hZ
    rw [← s z hz hZ]
    simp only [rmsBubble, rmsFermi, hB, h3, h5, h7, fermiNorm, Outcome.ok_bind]
    congr 2
    ring
  · intro r hr
    rw [← key r hr]
    exact p r hr

example : ∃ ρ : ℝ → ℝ, (∀ r, densFermi skTotal r 92 6 0.5 = .ok (ρ r)) ∧ (∀ r, 0 < ρ r) ∧ totalCharge ρ = 92 := by
  obtain ⟨ρ, d, p, q, _⟩ := fermi_nucleus (sk := skTotal) (fun k x _ _ _ => by simp [skTotal]) 92 (c := 6) (a := 0.5)
    (by norm_num) (by norm_num)
  exact ⟨ρ, d, (p (by norm_num)).1, q⟩

/-- The normalisation factor of the bubble model is positive for `k ≥ 0`. -/
theorem bubble_norm_pos {sk : SkFun} (h : ExactSk sk) {c a k : ℝ} (hc : 0 < c) (ha : 0 < a) (hk : 0 ≤ k) :
    ∃ N, bubbleNorm sk c a k = .ok N ∧ 0 < N := ⟨_, bubbleNorm_exact h hc ha k, bubbleN_pos hc ha hk⟩

/-! ## C56: the table of the Fermi special functions -/

/-- For nonpositive arguments the routine stays inside its table and returns a value. -/
theorem fermi_sk_in_table (tab : SkTable) (k : Int) (hk : 2 ≤ k ∧ k ≤ 7) {x : ℝ} (hx : x ≤ 0) :
    ∃ v, fermiSk tab k x = .ok v := by
  unfold fermiSk
  rw [Outcome.assert_pos (by exact hk), Outcome.ok_bind]
  split_ifs with h1 h2 h3
  · exact ⟨_, rfl⟩
  · exact ⟨_, rfl⟩
  · exact ⟨_, rfl⟩
  · push Not at h3
    have f0 : (0 : Int) ≤ ⌊(x + 10) * 200⌋ := Int.floor_nonneg.2 (by linarith)
    have f1 : ⌊(x + 10) * 200⌋ ≤ 2000 := by
      rw [← Int.floor_intCast (R := ℝ) 2000]
      refine Int.floor_le_floor ?_
      push_cast
      linarith
    generalize ⌊(x + 10) * 200⌋ = n at *
    have hn : (0 : ℝ) ≤ (n : ℝ) + 1e-10 := by
      have : (0 : ℝ) ≤ n := by exact_mod_cast f0
      norm_num
      linarith
    have hfl : ⌊(n : ℝ) + 1e-10⌋ = n := by
      rw [Int.floor_eq_iff]
      constructor
      · norm_num
      · norm_num
    simp only [if_pos hn, hfl]
    have g : ∀ j : Int, 0 ≤ j → j < 10 → ∃ v, skEntry tab n j = .ok v := by
      intro j j0 j1
      unfold skEntry
      rw [dif_pos ⟨f0, by omega, j0, j1⟩]
      exact ⟨_, rfl⟩
    obtain ⟨v0, e0⟩ := g (k + 2) (by omega) (by omega)
    obtain ⟨v1, e1⟩ := g (k + 1) (by omega) (by omega)
    obtain ⟨v2, e2⟩ := g k (by omega) (by omega)
    obtain ⟨v3, e3⟩ := g (k - 1) (by omega) (by omega)
    split_ifs
    · exact ⟨_, e0⟩
    · simp only [e0, e1, e2, e3, Outcome.ok_bind]
      exact ⟨_, rfl⟩

/-- For an argument of at least 0.005 the routine reads outside the table. -/
theorem fermi_sk_overflow (tab : SkTable) (k : Int) (hk : 2 ≤ k ∧ k ≤ 7) {x : ℝ} (hx : 0.005 ≤ x) : fermiSk tab k x = .ub := by
  unfold fermiSk
  rw [Outcome.assert_pos (by exact hk), Outcome.ok_bind]
  have a1 : ¬x ≤ -30 := by linarith
  have a2 : ¬x ≤ -14 := by linarith
  have a3 : ¬x ≤ -10 := by linarith
  rw [if_neg a1, if_neg a2, if_neg a3]
  have f1 : 2001 ≤ ⌊(x + 10) * 200⌋ := by
    rw [Int.le_floor]
    push_cast
    linarith
  generalize ⌊(x + 10) * 200⌋ = n at *
  have hn : (0 : ℝ) ≤ (n : ℝ) + 1e-10 := by
    have : (2001 : ℝ) ≤ n := by exact_mod_cast f1
    norm_num
    linarith
  have hfl : ⌊(n : ℝ) + 1e-10⌋ = n := by
    rw [Int.floor_eq_iff]
    constructor
    · norm_num
    · norm_num
  simp only [if_pos hn, hfl]
  rw [if_neg (by omega)]
  have : skEntry tab n (k + 2) = .ub := by
    unfold skEntry
    rw [dif_neg (by omega)]
  rw [this]
  rfl

/-- Other orders abort. -/
theorem fermi_sk_order (tab : SkTable) (k : Int) (hk : k < 2 ∨ 7 < k) (x : ℝ) : fermiSk tab k x = .abort := by
  unfold fermiSk
  rw [Outcome.assert_neg (by omega)]
  rfl

example (tab : SkTable) : ∃ v, fermiSk tab 7 (-12) = .ok v := fermi_sk_in_table tab 7 (by norm_num) (by norm_num)

/-- The potentials of the Fermi models ask for `S_k` at nonpositive arguments only, so that they return a value for every
radius if `a > 0`, `c ≥ 0`. -/
theorem fermi_potential_in_table (tab : SkTable) (r Z k : ℝ) {c a : ℝ} (hc : 0 ≤ c) (ha : 0 < a) :
    (∃ v, potFermi (fermiSk tab) r Z c a = .ok v) ∧ (∃ v, potBubble (fermiSk tab) r Z c a k = .ok v) ∧
    (∃ v, densFermi (fermiSk tab) r Z c a = .ok v) ∧ (∃ v, densBubble (fermiSk tab) r Z c a k = .ok v) ∧
    (∀ z : Int, (∃ v, rmsFermi (fermiSk tab) z c a = .ok v) ∧ ∃ v, rmsBubble (fermiSk tab) z c a k = .ok v) := by
  have hx : -c / a ≤ 0 := div_nonpos_of_nonpos_of_nonneg (by linarith) ha.le
  have hsk : ∀ k : Int, 2 ≤ k ∧ k ≤ 7 → ∀ x, x ≤ 0 → ∃ v, fermiSk tab k x = .ok v := fun k hk x hx =>
    fermi_sk_in_table tab k hk hx
  generalize fermiSk tab = sk at *
  obtain ⟨s3, h3⟩ := hsk 3 (by norm_num) (-c / a) hx
  obtain ⟨s5, h5⟩ := hsk 5 (by norm_num) (-c / a) hx
  obtain ⟨s7, h7⟩ := hsk 7 (by norm_num) (-c / a) hx
  have hF : ∃ N, fermiNorm sk c a = .ok N := by
    simp only [fermiNorm, h3, Outcome.ok_bind]
    exact ⟨_, rfl⟩
  obtain ⟨N, hF⟩ := hF
  have hB : ∃ N, bubbleNorm sk c a k = .ok N := by
    simp only [bubbleNorm, hF, h5, Outcome.ok_bind]
    exact ⟨_, rfl⟩
  obtain ⟨M, hB⟩ := hB
  refine ⟨?_, ?_, ?_, ?_, fun z => ⟨?_, ?_⟩⟩
  · by_cases hr : r > c
    · have hy : (c - r) / a ≤ 0 := div_nonpos_of_nonpos_of_nonneg (by linarith) ha.le
      obtain ⟨g2, e2⟩ := hsk 2 (by norm_num) _ hy
      obtain ⟨g3, e3⟩ := hsk 3 (by norm_num) _ hy
      simp only [potFermi, hF, if_pos hr, e2, e3, Outcome.ok_bind]
      exact ⟨_, rfl⟩
    · have hy : (r - c) / a ≤ 0 := div_nonpos_of_nonpos_of_nonneg (by linarith) ha.le
      obtain ⟨g2, e2⟩ := hsk 2 (by norm_num) _ hy
      obtain ⟨g3, e3⟩ := hsk 3 (by norm_num) _ hy
      simp only [potFermi, hF, if_neg hr, e2, e3, h3, Outcome.ok_bind]
      exact ⟨_, rfl⟩
  · by_cases hr : r < c
    · have hy : (r - c) / a ≤ 0 := div_nonpos_of_nonpos_of_nonneg (by linarith) ha.le
      obtain ⟨g2, e2⟩ := hsk 2 (by norm_num) _ hy
      obtain ⟨g3, e3⟩ := hsk 3 (by norm_num) _ hy
      obtain ⟨g4, e4⟩ := hsk 4 (by norm_num) _ hy
      obtain ⟨g5, e5⟩ := hsk 5 (by norm_num) _ hy
      simp only [potBubble, hB, if_pos hr, e2, e3, e4, e5, h3, h5, Outcome.ok_bind]
      exact ⟨_, rfl⟩
    · have hy : (c - r) / a ≤ 0 := div_nonpos_of_nonpos_of_nonneg (by linarith) ha.le
      obtain ⟨g2, e2⟩ := hsk 2 (by norm_num) _ hy
      obtain ⟨g3, e3⟩ := hsk 3 (by norm_num) _ hy
      obtain ⟨g4, e4⟩ := hsk 4 (by norm_num) _ hy
      obtain ⟨g5, e5⟩ := hsk 5 (by norm_num) _ hy
      simp only [potBubble, hB, if_neg hr, e2, e3, e4, e5, h3, h5, Outcome.ok_bind]
      exact ⟨_, rfl⟩
  · simp only [densFermi, hF, Outcome.ok_bind]
    exact ⟨_, rfl⟩
  · simp only [densBubble, hB, Outcome.ok_bind]
    exact ⟨_, rfl⟩
  · simp only [rmsFermi, hF, h5, Outcome.ok_bind]
    exact ⟨_, rfl⟩
  · simp only [rmsBubble, hB, h5, h7, Outcome.ok_bind]
    exact ⟨_, rfl⟩

example (tab : SkTable) : ∃ v, potFermi (fermiSk tab) 0.1 92 6 0.5 = .ok v :=
  (fermi_potential_in_table tab 0.1 92 0 (by norm_num) (by norm_num)).1

/-! ## C67: estimate of the parameters of the Fermi model -/

/-- The estimate fails (returns -1, leaving `c` as it was) exactly if `5 R² < 7 π² a²`; `a` is the skin thickness 2.3 fm
divided by `4 ln 3`. If it succeeds, the Fermi model with these parameters has the requested rms radius up to terms of order
`exp(-c/a)`. -/
theorem estimate_fermi {sk : SkFun} (h : ExactSk sk) (R c0 : ℝ) :
    ∃ (ret : Int) (c a : ℝ), estimateFermi R c0 = (ret, c, a) ∧ a = 2.3 / (4 * Real.log 3) ∧
      (ret = 1 ∨ ret = -1) ∧ (ret = -1 ↔ 5 * R ^ 2 < 7 * Real.pi ^ 2 * a ^ 2) ∧ (ret = -1 → c = c0) ∧
      (ret = 1 → 0 ≤ c ∧ 3 / 5 * c ^ 2 + 7 / 5 * Real.pi ^ 2 * a ^ 2 = R ^ 2) ∧
      (ret = 1 → 0 < c → ∀ z : Int, z ≠ 0 → ∃ q, rmsFermi sk z c a = .ok q ∧
        |q ^ 2 - R ^ 2| ≤ (72 * a ^ 2 + 6 * R ^ 2) * (a / c) ^ 3 * Real.exp (-c / a)) := by
  have hlog : 0 < Real.log 3 := Real.log_pos (by norm_num)
  have ha : (0 : ℝ) < 2.3 / (4 * Real.log 3) := by positivity
  have hp := Real.pi_pos
  unfold estimateFermi
  simp only
  generalize (2.3 / (4 * Real.log 3) : ℝ) = a at *
  have hc2 : 5 / 3 * R * R - 7 / 3 * Real.pi * Real.pi * a * a = (5 * R ^ 2 - 7 * Real.pi ^ 2 * a ^ 2) / 3 := by ring
  rw [hc2]
  split_ifs with hneg
  · refine ⟨-1, c0, a, rfl, rfl, Or.inr rfl, ?_, fun _ => rfl, fun h => absurd h (by norm_num), fun h => absurd h (by norm_num)⟩
    constructor
    · intro _; linarith
    · intro _; rfl
  · push Not at hneg
    have hsq : Real.sqrt ((5 * R ^ 2 - 7 * Real.pi ^ 2 * a ^ 2) / 3) ^ 2 = (5 * R ^ 2 - 7 * Real.pi ^ 2 * a ^ 2) / 3 :=
      Real.sq_sqrt hneg
    have hs0 := Real.sqrt_nonneg ((5 * R ^ 2 - 7 * Real.pi ^ 2 * a ^ 2) / 3)
    generalize Real.sqrt ((5 * R ^ 2 - 7 * Real.pi ^ 2 * a ^ 2) / 3) = c at *
    have hR : 3 / 5 * c ^ 2 + 7 / 5 * Real.pi ^ 2 * a ^ 2 = R ^ 2 := by rw [hsq]; ring
    refine ⟨1, c, a, rfl, rfl, Or.inl rfl, ?_, fun h => absurd h (by norm_num), fun _ => ⟨hs0, hR⟩, ?_⟩
    · constructor
      · intro h; exact absurd h (by norm_num)
      · intro h; linarith
    · intro _ hc z hz
      have hx : -c / a ≤ 0 := div_nonpos_of_nonpos_of_nonneg (by linarith) ha.le
      have h3 := h 3 (-c / a) (by norm_num) (by norm_num) hx
      have h5 := h 5 (-c / a) (by norm_num) (by norm_num) hx
      norm_num at h3 h5
      have b3 := fermiS_bounds (k := 3) (by norm_num) hx
      have b5 := fermiS_bounds (k := 5) (by norm_num) hx
      simp only [rmsFermi, fermiNorm, h3, h5, Outcome.ok_bind]
      refine ⟨_, rfl, ?_⟩
      have hz' : (z : ℝ) ≠ 0 := by exact_mod_cast hz
      generalize fermiS 3 (-c / a) = s3 at *
      generalize fermiS 5 (-c / a) = s5 at *
      generalize Real.exp (-c / a) = E at *
      obtain ⟨y, hy⟩ : ∃ y, y = a / c := ⟨_, rfl⟩
      have hy0 : 0 < y := by rw [hy]; positivity
      have hay : a = y * c := by rw [hy]; field_simp
      obtain ⟨N, hN⟩ : ∃ N, N = 1 + Real.pi ^ 2 * y ^ 2 - 6 * y ^ 3 * s3 := ⟨_, rfl⟩
      have hNB : 1 + Real.pi ^ 2 * y ^ 2 ≤ N := by
        rw [hN]
        have : 0 ≤ 6 * y ^ 3 * (-s3) := by
          have := b3.2
          have : 0 ≤ -s3 := by linarith
          positivity
        linarith
      have hN1 : 1 ≤ N := by
        have : 0 ≤ Real.pi ^ 2 * y ^ 2 := by positivity
        linarith
      have eN : 1 + Real.pi * Real.pi * (a * a) / (c * c) - 6 * (a * a * a) / (c * c * c) * s3 = N := by
        rw [hN, hay]
        field_simp
      rw [eN]
      have er : 4 * Real.pi * (3 * (z : ℝ) / (4 * Real.pi * (c * c * c) * N)) / z * c ^ 5 / 5 *
          (1 + 10 / 3 * a * a * Real.pi * Real.pi / (c * c) + 7 / 3 * Real.pi ^ 4 * a ^ 4 / c ^ 4 - 120 * a ^ 5 / c ^ 5 * s5) =
          3 / 5 * c ^ 2 * ((1 + Real.pi ^ 2 * y ^ 2) * (1 + 7 / 3 * Real.pi ^ 2 * y ^ 2) - 120 * y ^ 5 * s5) / N := by
        have hN0 : N ≠ 0 := by linarith
        rw [hay]
        field_simp
        ring
      rw [er]
      have hnn : 0 ≤ 3 / 5 * c ^ 2 * ((1 + Real.pi ^ 2 * y ^ 2) * (1 + 7 / 3 * Real.pi ^ 2 * y ^ 2) - 120 * y ^ 5 * s5) / N := by
        have : 0 ≤ -s5 := by have := b5.2; linarith
        have h1 : 0 ≤ 120 * y ^ 5 * -s5 := by positivity
        have h2 : 0 ≤ (1 + Real.pi ^ 2 * y ^ 2) * (1 + 7 / 3 * Real.pi ^ 2 * y ^ 2) - 120 * y ^ 5 * s5 := by
          have : 0 ≤ (1 + Real.pi ^ 2 * y ^ 2) * (1 + 7 / 3 * Real.pi ^ 2 * y ^ 2) := by positivity
          linarith
        have : 0 ≤ N := by linarith
        positivity
      rw [Real.sq_sqrt hnn]
      have hRy : R ^ 2 = 3 / 5 * c ^ 2 * (1 + 7 / 3 * Real.pi ^ 2 * y ^ 2) := by rw [← hR, hay]; ring
      have ed : 3 / 5 * c ^ 2 * ((1 + Real.pi ^ 2 * y ^ 2) * (1 + 7 / 3 * Real.pi ^ 2 * y ^ 2) - 120 * y ^ 5 * s5) / N - R ^ 2 =
          (72 * (c * y) ^ 2 * y ^ 3 * (-s5) - 6 * R ^ 2 * y ^ 3 * (-s3)) / N := by
        have hN0 : N ≠ 0 := by linarith
        rw [eq_div_iff hN0, sub_mul, div_mul_cancel₀ _ hN0, hRy, hN]
        ring
      rw [ed, abs_div, abs_of_pos (by linarith : (0 : ℝ) < N)]
      have hac : a / c = y := hy.symm
      rw [hac, show a ^ 2 = (c * y) ^ 2 by rw [hay]; ring]
      refine (div_le_self (abs_nonneg _) hN1).trans ?_
      have s5' : 0 ≤ -s5 := by have := b5.2; linarith
      have s3' : 0 ≤ -s3 := by have := b3.2; linarith
      have s5E : -s5 ≤ E := by have := b5.1; linarith
      have s3E : -s3 ≤ E := by have := b3.1; linarith
      have hE : 0 ≤ E := by linarith
      have p1 : 0 ≤ 72 * (c * y) ^ 2 * y ^ 3 * (-s5) := by positivity
      have p2 : 0 ≤ 6 * R ^ 2 * y ^ 3 * (-s3) := by positivity
      have q1 : 72 * (c * y) ^ 2 * y ^ 3 * (-s5) ≤ 72 * (c * y) ^ 2 * y ^ 3 * E := by
        refine mul_le_mul_of_nonneg_left s5E (by positivity)
      have q2 : 6 * R ^ 2 * y ^ 3 * (-s3) ≤ 6 * R ^ 2 * y ^ 3 * E := by
        refine mul_le_mul_of_nonneg_left s3E (by positivity)
      have q3 : (72 * (c * y) ^ 2 + 6 * R ^ 2) * y ^ 3 * E = 72 * (c * y) ^ 2 * y ^ 3 * E + 6 * R ^ 2 * y ^ 3 * E := by ring
      rw [q3, abs_le]
      constructor <;> linarith

example : (estimateFermi 0 7).1 = -1 ∧ (estimateFermi 0 7).2.1 = 7 := by
  obtain ⟨ret, c, a, e, ea, _, hiff, hk, _⟩ := estimate_fermi (sk := skTotal) (fun k x _ _ _ => by simp [skTotal]) 0 7
  have hlog : 0 < Real.log 3 := Real.log_pos (by norm_num)
  have ha : (0 : ℝ) < a := by rw [ea]; positivity
  have : ret = -1 := hiff.2 (by have := Real.pi_pos; norm_num; positivity)
  rw [e]
  exact ⟨this, hk this⟩

end Libgrpp
