import Verif.Lemmas.NuclearNumeric
import Verif.Props.Type1

/-! Two s functions at a uniformly charged ball, used for the witness against C34; shells for the examples. -/

namespace Libgrpp

open MeasureTheory Set Filter Topology

theorem exampleShell_supported : exampleShell.Supported :=
  ⟨exampleShell_ready.1.wf, exampleShell_ready.1.listed, by simp [Shell.SumLe, exampleShell], exampleShell_ready.2, by simp [exampleShell]⟩

theorem exampleShell_homog : exampleShell.Homog :=
  ⟨exampleShell_ready.1.wf, exampleShell_ready.1.listed, by simp [exampleShell], by simp [exampleShell], exampleShell_ready.2⟩

theorem sShell_homog : sShell.Homog :=
  ⟨sShell_supported.wf, sShell_supported.listed, by simp [sShell], by simp [sShell], sShell_supported.pos⟩

theorem sShell_ball {G : Type} (env : NucEnv G) (hi : env.init = true) (R : ℝ) :
    ∃ Q w, w ≠ 0 ∧ (∃ k ≤ 2, Q = fullQuad (fun r => potBall r 1 R * gaussEnvelope sShell sShell (fun _ => 0) 1 1 0 r) (levelSize 2047 k)) ∧
      ∀ x, nuclearAttraction env sShell sShell (fun _ => 0) 1 modelBall [R] [x] = .ok [if |Q| < 1e-16 then 0 else w * Q] := by
  have hkv : kVec sShell sShell (fun _ => 0) 1 1 = fun _ => 0 := by
    funext i
    simp [kVec, toC, sShell]
  have hv : vnorm (fun _ : Fin 3 => (0 : ℝ)) = 0 := by simp [vnorm]
  have hcoef : pairCoef sShell sShell 0 0 = 1 := by norm_num [pairCoef, sShell]
  obtain ⟨k, hk, e⟩ := radialValue_level (codeIntegrand env.bt (fun r => potBall r 1 R) sShell sShell (fun _ => 0) 1 1) env.prm.radial (0, 0)
  refine ⟨radialCode env.prm.radial env.bt (fun r => potBall r 1 R) sShell sShell (fun _ => 0) 1 1 0 0, angOmega 0 (0, 0, 0) fun _ => 0, ?_,
    ⟨k, hk, ?_⟩, ?_⟩
  · have h0 : sphInt (fun ω => rsh 0 0 ω * rsh 0 0 ω) = 1 := by
      have := rsh_orthonormal 0 0 0 0 (by simp) (by simp)
      rwa [if_pos ⟨rfl, rfl⟩] at this
    have e1 : angOmega 0 (0, 0, 0) (fun _ => 0) = sphInt (fun ω => rsh 0 0 ω * rsh 0 0 ω) := by
      unfold angOmega
      rw [show 2 * 0 + 1 = 1 from rfl, Finset.sum_range_one]
      have e2 : rshDir 0 (((0 : ℕ) : ℤ) - ((0 : ℕ) : ℤ)) (fun _ => 0) = Real.sqrt (1 / (4 * Real.pi)) := by
        unfold rshDir
        rw [hv]
        norm_num
      rw [e2, mul_comm, ← sphInt_const_mul_real]
      refine congrArg sphInt (funext fun ω => ?_)
      norm_num [monoAt, rsh_zero_zero]
    rw [e1, h0]
    norm_num
  · unfold radialCode
    rw [e, fullQuad_congr (F' := fun r => potBall r 1 R * gaussEnvelope sShell sShell (fun _ => 0) 1 1 0 r)]
    intro r hr
    have hb : besselScaled env.bt 0 (r * vnorm (kVec sShell sShell (fun _ => 0) 1 1)) = .ok 1 := by
      rw [hkv, hv, mul_zero]
      norm_num [besselScaled]
    rw [codeIntegrand_scaled env.bt _ sShell sShell (fun _ => 0) 1 1 0 0 r hb, mul_one]
  · intro x
    obtain ⟨out', h1, h2, h3, h4⟩ := nuclearAttraction_spec env hi sShell sShell sShell_supported.wf sShell_supported.wf (fun _ => 0) 1
      modelBall [R] _ (fun i j buf _ _ _ hb => nucPrim_numeric env sShell sShell sShell_homog sShell_homog (by simp [sShell]) (fun _ => 0) 1
        modelBall (Or.inl rfl) [R] _ _ rfl (fun r _ => rfl) (sShell.alphaAt i) (sShell.alphaAt j) buf hb) [x] (by simp [sShell])
    rw [h1]
    have h5 := h2 0 0 (by simp [sShell]) (by simp [sShell])
    have hl : out'.length = 1 := by rw [h3]; rfl
    match out', hl with
    | [y], _ =>
      suffices hy : y = if |radialCode env.prm.radial env.bt (fun r => potBall r 1 R) sShell sShell (fun _ => 0) 1 1 0 0| < 1e-16 then 0 else
          (angOmega 0 (0, 0, 0) fun _ => 0) * radialCode env.prm.radial env.bt (fun r => potBall r 1 R) sShell sShell (fun _ => 0) 1 1 0 0 by
        rw [hy]
      have e0 : (List.cons y [])[0 * sShell.cart_size + 0]? = some y := by simp
      rw [e0] at h5
      have h5 := Option.some.inj h5
      rw [h5]
      beta_reduce
      rw [show sShell.num = 1 from rfl, Int.cast_one, Finset.sum_range_one, Finset.sum_range_one, hcoef, one_mul]
      have ec : sShell.comp 0 = (0, 0, 0) := by simp [Shell.comp, sShell]
      have ea : sShell.alphaAt 0 = 1 := by simp [Shell.alphaAt, sShell]
      rw [ec, ea, hkv]
      have eb : box (0, 0, 0) = {(0, 0, 0)} := by decide
      unfold localSum
      rw [eb, Finset.sum_singleton, Finset.sum_singleton, show sShell.L = 0 from rfl, show (0 : ℕ) + 0 + 1 = 1 from rfl, Finset.sum_range_one]
      have ef : ∀ t, boxCoef (0, 0, 0) t (0, 0, 0) = 1 := by intro t; simp [boxCoef]
      rw [ef, one_mul, one_mul, abs_one, if_neg (by norm_num)]
      rfl

theorem ball_small {R r : ℝ} (hR : 0 < R) (hr : 0 < r) : |potBall r 1 R| ≤ 3 / (2 * R) := by
  have h53 : 1 ≤ Real.sqrt (5 / 3) := Real.le_sqrt_of_sq_le (by norm_num)
  have hq : R ≤ Real.sqrt (5 / 3) * R := by nlinarith
  unfold potBall
  simp only []
  generalize Real.sqrt (5 / 3) * R = q at *
  have hq0 : 0 < q := by linarith
  have h1 : 3 / (2 * q) ≤ 3 / (2 * R) := div_le_div_of_nonneg_left (by norm_num) (by linarith) (by linarith)
  refine le_trans ?_ h1
  split_ifs with h
  · have e1 : r * r / (q * q) ≤ 1 := by
      rw [div_le_one (by positivity)]
      nlinarith
    have e2 : 0 ≤ r * r / (q * q) := by positivity
    rw [abs_mul, abs_div, abs_neg, abs_one, abs_of_pos (by linarith : 0 < 2 * q), abs_of_nonneg (by linarith)]
    rw [div_mul_eq_mul_div, one_mul]
    exact div_le_div_of_nonneg_right (by linarith) (by linarith)
  · rw [abs_div, abs_neg, abs_one, abs_of_pos hr, div_le_div_iff₀ hr (by linarith)]
    linarith

theorem ball_one_neg {r : ℝ} (hr : 0 < r) : potBall r 1 1 ≤ 0 := by
  unfold potBall
  simp only []
  have h53 : 1 ≤ Real.sqrt (5 / 3) := Real.le_sqrt_of_sq_le (by norm_num)
  generalize Real.sqrt (5 / 3) = q at *
  rw [mul_one]
  split_ifs with h
  · have e1 : r * r / (q * q) ≤ 1 := by
      rw [div_le_one (by positivity)]
      nlinarith
    have : 0 ≤ 1 / (2 * q) * (3 - r * r / (q * q)) := mul_nonneg (by positivity) (by linarith)
    rw [neg_div, neg_mul]
    linarith
  · rw [neg_div, neg_nonpos]
    positivity

/-- The quadrature sum for a ball of rms radius 1 is far from zero. -/
theorem ball_one_large (k : ℕ) (hk : k ≤ 2) :
    1e-16 < |fullQuad (fun r => potBall r 1 1 * gaussEnvelope sShell sShell (fun _ => 0) 1 1 0 r) (levelSize 2047 k)| := by
  set N := levelSize 2047 k with hN
  have hN1 : N + 1 = 2 ^ k * 2048 := by
    rw [hN]
    unfold levelSize
    have : 0 < 2 ^ k := by positivity
    omega
  clear_value N
  have hkv : kVec sShell sShell (fun _ => 0) 1 1 = fun _ => 0 := by
    funext i
    simp [kVec, toC, sShell]
  have hv : vnorm (fun _ : Fin 3 => (0 : ℝ)) = 0 := by simp [vnorm]
  set E := gaussEnvelope sShell sShell (fun _ => 0) 1 1 0 with hE
  have hE0 : ∀ r, 0 < r → 0 ≤ E r := fun r hr => gaussEnvelope_nonneg _ _ _ one_pos one_pos 0 hr
  -- the node with xi = 1/2
  set i := 2 ^ k * 1024 with hi
  have hi1 : 2 * i = N + 1 := by rw [hN1, hi]; ring
  have hi0 : 0 < i := by rw [hi]; positivity
  have hiN : i ≤ N := by omega
  have hxi : gridXi N i = 1 / 2 := by
    unfold gridXi
    have h : 2 * (i : ℝ) = (N : ℝ) + 1 := by exact_mod_cast hi1
    have : (0 : ℝ) < i := by exact_mod_cast hi0
    rw [← h]
    field_simp
  have hln : gridLn N i = Real.log (7 / 8) := by
    unfold gridLn
    rw [hxi]
    norm_num
  have l1 : Real.log (7 / 8) ≤ -(1 / 8) := (Real.log_le_sub_one_of_pos (by norm_num)).trans (by norm_num)
  have l2 : -(1 / 7) ≤ Real.log (7 / 8) := le_trans (by norm_num) (Real.one_sub_inv_le_log_of_pos (by norm_num : (0 : ℝ) < 7 / 8))
  have hr : gridR N i = -5 * Real.log (7 / 8) := by unfold gridR; rw [hln]
  have hw : 2e-5 ≤ gridW N i := by
    unfold gridW
    rw [hxi, hln]
    have hb : (N : ℝ) + 1 ≤ 8192 := by
      have : N + 1 ≤ 8192 := by
        rw [hN1]
        have : 2 ^ k ≤ 4 := Nat.pow_le_pow_right (n := 2) (by norm_num) hk
        exact (Nat.mul_le_mul_right 2048 this).trans (by norm_num)
      exact_mod_cast this
    have hp : (0 : ℝ) < (N : ℝ) + 1 := by positivity
    rw [le_div_iff₀ (by norm_num; exact hp)]
    have : 1 / 64 ≤ Real.log (7 / 8) * Real.log (7 / 8) := by nlinarith
    nlinarith
  have hr0 : 0 < gridR N i := gridR_pos hi0 hiN
  have hr1 : gridR N i ≤ 1 := by rw [hr]; linarith
  have hV : potBall (gridR N i) 1 1 ≤ -(1 / 2) := by
    unfold potBall
    simp only []
    have h53 : 1 ≤ Real.sqrt (5 / 3) := Real.le_sqrt_of_sq_le (by norm_num)
    have h54 : Real.sqrt (5 / 3) ≤ 2 := Real.sqrt_le_iff.2 ⟨by norm_num, by norm_num⟩
    generalize Real.sqrt (5 / 3) = q at *
    rw [mul_one, if_pos (by linarith)]
    have e1 : gridR N i * gridR N i / (q * q) ≤ 1 := by
      rw [div_le_one (by positivity)]
      nlinarith
    have e2 : 1 / 4 ≤ 1 / (2 * q) := by
      rw [div_le_div_iff₀ (by norm_num) (by positivity)]
      linarith
    have e3 : 1 / 4 * 2 ≤ 1 / (2 * q) * (3 - gridR N i * gridR N i / (q * q)) :=
      mul_le_mul e2 (by linarith) (by norm_num) (by positivity)
    rw [neg_div, neg_mul]
    linarith
  have hEl : 1e-2 ≤ E (gridR N i) := by
    rw [hE]
    unfold gaussEnvelope
    rw [hkv, hv]
    have e1 : Real.exp (-2) ≤ Real.exp (0 * gridR N i - (1 + 1) * gridR N i * gridR N i - 1 * ∑ j, toC sShell (fun _ => 0) j ^ 2 -
        1 * ∑ j, toC sShell (fun _ => 0) j ^ 2) := by
      rw [Real.exp_le_exp]
      simp only [toC, sShell, sub_zero]
      norm_num
      nlinarith
    have e2 : (1 / 8 : ℝ) ≤ Real.exp (-2) := by
      rw [Real.exp_neg, show (2 : ℝ) = 1 + 1 by norm_num, Real.exp_add]
      have := Real.exp_one_lt_d9
      have h0 := Real.exp_pos 1
      rw [one_div, inv_le_inv₀ (by norm_num) (by positivity)]
      nlinarith
    have e3 : 4 * Real.pi * gaussianNormFactor sShell.L 0 0 1 * gaussianNormFactor sShell.L 0 0 1 ≥ 1 := by
      have hg : gaussianNormFactor sShell.L 0 0 1 * gaussianNormFactor sShell.L 0 0 1 = (2 / Real.pi) ^ (3 / 2 : ℝ) := by
        unfold gaussianNormFactor
        have hp := Real.pi_pos
        norm_num [sShell]
        rw [← Real.rpow_add (by positivity)]
        norm_num
      have hp := Real.pi_gt_three
      have hp4 := Real.pi_lt_d2
      have h0 : 0 < 2 / Real.pi := by positivity
      have h1 : 2 / Real.pi ≤ 1 := by rw [div_le_one (by positivity)]; linarith
      have h2 : (2 / Real.pi) ^ (2 : ℝ) ≤ (2 / Real.pi) ^ (3 / 2 : ℝ) := Real.rpow_le_rpow_of_exponent_ge h0 h1 (by norm_num)
      have h3 : 1 / 4 ≤ (2 / Real.pi) ^ (2 : ℝ) := by
        rw [Real.rpow_two]
        have : 1 / 2 ≤ 2 / Real.pi := by rw [div_le_div_iff₀ (by norm_num) (by positivity)]; linarith
        nlinarith
      rw [mul_assoc, hg]
      nlinarith
    rw [pow_zero, mul_one]
    have := mul_le_mul e3 (e2.trans e1) (by norm_num) (by linarith)
    linarith
  have hterm : gridW N i * -(potBall (gridR N i) 1 1 * E (gridR N i)) ≤
      fullQuad (fun r => -(potBall r 1 1 * E r)) N := by
    unfold fullQuad
    have := Finset.single_le_sum (f := fun i => gridW N (i + 1) * -(potBall (gridR N (i + 1)) 1 1 * E (gridR N (i + 1))))
      (s := Finset.range N) (fun j hj => ?_) (Finset.mem_range.2 (by omega : i - 1 < N))
    · beta_reduce at this
      rwa [show i - 1 + 1 = i by omega] at this
    · have hj := Finset.mem_range.1 hj
      have h0 := gridR_pos (N := N) (i := j + 1) (by omega) (by omega)
      refine mul_nonneg (gridW_pos (by omega) (by omega)).le ?_
      rw [← neg_mul]
      exact mul_nonneg (by linarith [ball_one_neg h0]) (hE0 _ h0)
  have hneg : fullQuad (fun r => -(potBall r 1 1 * E r)) N = -fullQuad (fun r => potBall r 1 1 * E r) N := by
    have := fullQuad_smul (-1) (fun r => potBall r 1 1 * E r) N
    simp only [neg_mul, one_mul] at this
    exact this
  rw [hneg] at hterm
  have h1 : 1 / 2 * 1e-2 ≤ -potBall (gridR N i) 1 1 * E (gridR N i) := mul_le_mul (by linarith) hEl (by norm_num) (by linarith)
  have h2 := mul_le_mul hw h1 (by norm_num) (le_trans (by norm_num) hw)
  rw [neg_mul] at h2
  have h3 := neg_le_abs (fullQuad (fun r => potBall r 1 1 * E r) N)
  refine lt_of_lt_of_le ?_ (h2.trans (hterm.trans h3))
  norm_num

end Libgrpp
