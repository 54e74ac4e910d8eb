import Verif.Model.Screening
import Verif.Lemmas.Type2Main
import Verif.Lemmas.NuclearEntry

/-! # Lemmas for the screening of radial integrals -/

namespace Libgrpp

open MeasureTheory Set

theorem optRange_sum {n : ℕ} {body : ℕ → ℝ → Option ℝ} (v : ℕ → ℝ) (h : ∀ i < n, ∀ s, body i s = some (s + v i)) (s : ℝ) :
    optRange n s body = some (s + ∑ i ∈ Finset.range n, v i) := by
  induction n with
  | zero => simp [optRange]
  | succ n ih =>
    have h1 := ih fun i hi s => h i (by omega) s
    unfold optRange at *
    rw [List.range_succ, List.foldlM_append, h1]
    simp only [Option.bind_eq_bind, Option.bind_some, List.foldlM_cons, List.foldlM_nil]
    rw [h n (by omega), Finset.sum_range_succ, Option.bind_some]
    simp [add_assoc]

/-- The estimate when none of its parts fails. -/
theorem screenType2_sum (bt : BesselTab) (bra ket : Shell) (pot : Potential) (CA2 CB2 : ℝ) (key : ℕ × ℕ × ℕ) (e : ℝ → ℝ → ℤ → ℝ → ℝ)
    (h : ∀ i < bra.num, ∀ j < ket.num, ∀ k < pot.num, screenPrimitive bt key.2.1 key.2.2 ((key.1 : ℤ) + pot.powers.getD k 0) CA2 CB2
      (bra.alphaAt i) (ket.alphaAt j) (2 * bra.alphaAt i * Real.sqrt CA2) (2 * ket.alphaAt j * Real.sqrt CB2) (pot.alpha.getD k 0) =
        some (e (bra.alphaAt i) (ket.alphaAt j) ((key.1 : ℤ) + pot.powers.getD k 0) (pot.alpha.getD k 0))) :
    screenType2 bt bra ket pot CA2 CB2 key = some (∑ i ∈ Finset.range bra.num, ∑ j ∈ Finset.range ket.num, ∑ k ∈ Finset.range pot.num,
      bra.coeffAt i * ket.coeffAt j * pot.coeffs.getD k 0 *
        e (bra.alphaAt i) (ket.alphaAt j) ((key.1 : ℤ) + pot.powers.getD k 0) (pot.alpha.getD k 0)) := by
  unfold screenType2
  rw [optRange_sum (fun i => ∑ j ∈ Finset.range ket.num, ∑ k ∈ Finset.range pot.num,
      bra.coeffAt i * ket.coeffAt j * pot.coeffs.getD k 0 *
        e (bra.alphaAt i) (ket.alphaAt j) ((key.1 : ℤ) + pot.powers.getD k 0) (pot.alpha.getD k 0)), zero_add]
  intro i hi s
  dsimp only
  rw [optRange_sum (fun j => ∑ k ∈ Finset.range pot.num, bra.coeffAt i * ket.coeffAt j * pot.coeffs.getD k 0 *
        e (bra.alphaAt i) (ket.alphaAt j) ((key.1 : ℤ) + pot.powers.getD k 0) (pot.alpha.getD k 0))]
  intro j hj s
  rw [optRange_sum (fun k => bra.coeffAt i * ket.coeffAt j * pot.coeffs.getD k 0 *
        e (bra.alphaAt i) (ket.alphaAt j) ((key.1 : ℤ) + pot.powers.getD k 0) (pot.alpha.getD k 0))]
  intro k hk s
  have := h i hi j hj k hk
  unfold Shell.alphaAt Shell.coeffAt at *
  simp only [this, Option.bind_eq_bind, Option.bind_some]

/-- An estimate below the tolerance is taken for the integral. -/
theorem radialValue_screened {κ : Type} (f : κ → ℝ → ℝ) (m : ℕ) (hm : m ≤ maxGrid) (tol x : ℝ) (hx : |x| < tol) (key : κ) :
    radialValue f m tol (some x) key = x := by
  obtain ⟨g, eg, -⟩ := createGrid_ok f m hm
  unfold radialValue
  rw [eg]
  dsimp only
  unfold calcRadial
  simp only [if_pos hx]

/-- The table of radial integrals, in terms of the estimates. -/
theorem radialType2_table {G : Type} (lib : Lib G) (CA2 CB2 : ℝ) (hfar : ¬ (CA2 < 1e-14 ∧ CB2 < 1e-14)) (A B : Shell) (pot : Potential) {A' B' : Shell}
    {pot' : Potential} (hA : preparedShell lib.gen A = .ok A') (hB : preparedShell lib.gen B = .ok B') (hp : shrinkPotential pot = .ok pot')
    (l1max l2max nmax : ℕ) (h1 : l1max ≤ 14) (h2 : l2max ≤ 14) : ∃ t, radialType2 lib l1max l2max nmax CA2 CB2 pot A B = .ok t ∧
      ∀ l1 l2 n, l1 ≤ l1max → l2 ≤ l2max → n ≤ nmax → getType2 l2max nmax t l1 l2 n =
        .ok (radialValue (type2Integrand lib.bt pot' (Real.sqrt CA2) (Real.sqrt CB2) A' B') 31 1e-16 (lib.screen A' B' pot' CA2 CB2 (n, l1, l2))
          (n, l1, l2)) := by
  obtain ⟨t, ht, hv⟩ := tabulateType2_ok lib.prm (type2Integrand lib.bt pot' (Real.sqrt CA2) (Real.sqrt CB2) A' B') (lib.screen A' B' pot' CA2 CB2)
    l1max l2max nmax
  refine ⟨t, ?_, fun l1 l2 n a1 a2 a3 => ?_⟩
  · unfold radialType2
    rw [if_neg hfar, hp, Outcome.ok_bind, hA, Outcome.ok_bind, hB, Outcome.ok_bind, Outcome.valid_pos (by omega), Outcome.ok_bind]
    exact ht
  · unfold getType2
    exact rd_some (hv l1 l2 n a1 a2 a3)

/-! ## s functions in a weak field of the second centre -/

theorem besselScaled_small0 (bt : BesselTab) {x : ℝ} (hx : x ≤ 1e-7) : besselScaled bt 0 x = .ok (1 - x) := by
  unfold besselScaled
  rw [if_pos hx]
  rfl

theorem besselScaled_small1 (bt : BesselTab) {x : ℝ} (hx : x ≤ 1e-7) : besselScaled bt 1 x = .ok ((1 - x) * x * (1 / 3)) := by
  unfold besselScaled
  rw [if_pos hx]
  rfl

theorem screenRatio_small (bt : BesselTab) {x : ℝ} (hx : x ≤ 1e-7) : screenRatio bt 0 x = some (x / 3) := by
  have h : 1 - x ≠ 0 := by
    have : (1e-7 : ℝ) < 1 := by norm_num
    intro h
    linarith
  unfold screenRatio quotC
  rw [if_pos rfl, besselScaled_small0 bt hx, besselScaled_small1 bt hx]
  show (if (1 - x) = 0 then none else some ((1 - x) * x * (1 / 3) / (1 - x))) = _
  rw [if_neg h]
  congr 1
  field_simp

theorem screenNext_small (bt : BesselTab) (n : ℕ) {p k r : ℝ} (hp : 0 < p) (hx : k * r ≤ 1e-7) :
    screenNext bt n 0 0 p 0 k r = some (Real.sqrt (((k * r) ^ 2 / 3 + n) / (2 * p))) := by
  unfold screenNext
  rw [show (0 : ℝ) * r = 0 from zero_mul r, screenRatio_small bt (x := 0) (by norm_num), screenRatio_small bt hx]
  simp only [Option.bind_eq_bind, Option.bind_some, lt_irrefl, if_false]
  unfold rootC
  have e : 0 / 3 * 0 + k * r / 3 * (k * r) + ((n : ℤ) : ℝ) = (k * r) ^ 2 / 3 + n := by
    push_cast
    ring
  rw [e, if_neg (not_lt.2 (by positivity))]

theorem erfC_le {y : ℝ} (hy : 0 ≤ y) : erfC y ≤ 2 / Real.sqrt Real.pi * y := by
  unfold erfC
  refine mul_le_mul_of_nonneg_left ?_ (by positivity)
  have h : ∫ t in (0:ℝ)..y, Real.exp (-t ^ 2) ≤ ∫ _ in (0:ℝ)..y, (1:ℝ) := by
    refine intervalIntegral.integral_mono_on hy (by fun_prop |> fun h => Continuous.intervalIntegrable h _ _) (by simp) fun t _ => ?_
    exact Real.exp_le_one_iff.2 (by nlinarith [sq_nonneg t])
  simpa using h

theorem erfC_nonneg {y : ℝ} (hy : 0 ≤ y) : 0 ≤ erfC y := by
  unfold erfC
  exact mul_nonneg (by positivity) (intervalIntegral.integral_nonneg hy fun t _ => (Real.exp_pos _).le)

theorem erfC_ge {y : ℝ} (hy : 1 ≤ y) : 3 / 4 ≤ erfC y := by
  have cont : Continuous fun t : ℝ => Real.exp (-t ^ 2) := by fun_prop
  have h1 : (2:ℝ) / 3 ≤ ∫ t in (0:ℝ)..1, Real.exp (-t ^ 2) := by
    have h : ∫ t in (0:ℝ)..1, (1 - t ^ 2) ≤ ∫ t in (0:ℝ)..1, Real.exp (-t ^ 2) := by
      refine intervalIntegral.integral_mono_on (by norm_num) (Continuous.intervalIntegrable (by fun_prop) _ _) (cont.intervalIntegrable _ _) fun t _ => ?_
      have := Real.add_one_le_exp (-t ^ 2)
      linarith
    have e : ∫ t in (0:ℝ)..1, (1 - t ^ 2) = 2 / 3 := by
      rw [intervalIntegral.integral_sub (by simp) (Continuous.intervalIntegrable (by fun_prop) _ _), integral_pow]
      norm_num
    linarith
  have h2 : 0 ≤ ∫ t in (1:ℝ)..y, Real.exp (-t ^ 2) := intervalIntegral.integral_nonneg hy fun t _ => (Real.exp_pos _).le
  have h3 := intervalIntegral.integral_add_adjacent_intervals (cont.intervalIntegrable (μ := volume) 0 1) (cont.intervalIntegrable (μ := volume) 1 y)
  have h4 : Real.sqrt Real.pi ≤ 1.7725 := by
    rw [Real.sqrt_le_left (by norm_num)]
    have := Real.pi_lt_d4
    norm_num
    linarith
  have h5 : 0 < Real.sqrt Real.pi := Real.sqrt_pos.2 Real.pi_pos
  unfold erfC
  rw [← h3]
  have h6 : (1.128 : ℝ) ≤ 2 / Real.sqrt Real.pi := by
    rw [le_div_iff₀ h5]
    nlinarith
  nlinarith

/-- The distance of the second shell, and the exponents. -/
theorem weak_roots : Real.sqrt 0 = 0 ∧ Real.sqrt (1e-6 : ℝ) = 1e-3 := by
  refine ⟨Real.sqrt_zero, ?_⟩
  rw [show (1e-6 : ℝ) = 1e-3 ^ 2 by norm_num, Real.sqrt_sq (by norm_num)]

/-- The loop, when the first or the second step suffices. -/
theorem screenLoop_one {next : ℝ → Option ℝ} {r0 r1 : ℝ} (h : next r0 = some r1) (hd : |r1 - r0| ≤ 1e-2) (m : ℕ) :
    screenLoop next (m + 1) r0 = some r1 := by
  unfold screenLoop
  rw [h]
  simp only [Option.bind_eq_bind, Option.bind_some]
  rw [if_neg (not_lt.2 hd)]

theorem screenLoop_step {next : ℝ → Option ℝ} {r0 r1 : ℝ} (h : next r0 = some r1) (hd : 1e-2 < |r1 - r0|) (m : ℕ) :
    screenLoop next (m + 1) r0 = screenLoop next m r1 := by
  conv_lhs => unfold screenLoop
  rw [h]
  simp only [Option.bind_eq_bind, Option.bind_some]
  rw [if_pos hd]

theorem weak_prim (bt : BesselTab) (n : ℕ) {r0 : ℝ}
    (h : screenLoop (screenNext bt n 0 0 2.00001 0 2e-8) 4 (1e-8 / 2.00001) = some r0) (hr : 2e-8 * r0 ≤ 1e-7) :
    screenPrimitive bt 0 0 n 0 1e-6 1 1e-5 (2 * 1 * Real.sqrt 0) (2 * 1e-5 * Real.sqrt 1e-6) 1 =
      some (Real.sqrt (Real.pi / 2.00001) * r0 ^ n * (1 - 2e-8 * r0) * Real.exp (-r0 ^ 2 - r0 ^ 2 - 1e-5 * (r0 - 1e-3) ^ 2) * 0.5 *
        (1 + erfC (Real.sqrt 2.00001 * r0))) := by
  obtain ⟨w0, w1⟩ := weak_roots
  unfold screenPrimitive
  rw [w0, w1, if_neg (by norm_num), if_neg (by norm_num)]
  dsimp only
  rw [if_neg (by unfold zeroThresh; norm_num), if_neg (by norm_num)]
  rw [show (1 : ℝ) + 1e-5 + 1 = 2.00001 by norm_num, show ((1 : ℝ) * 0 + 1e-5 * 1e-3) / 2.00001 = 1e-8 / 2.00001 by norm_num,
    show (2 : ℝ) * 1 * 0 = 0 by norm_num, show (2 : ℝ) * 1e-5 * 1e-3 = 2e-8 by norm_num, h]
  simp only [Option.bind_eq_bind, Option.bind_some]
  unfold screenValue
  rw [zero_mul, besselScaled_small0 bt (x := 0) (by norm_num), besselScaled_small0 bt hr]
  show some (Real.sqrt (Real.pi / 2.00001) * r0 ^ (n : ℤ) * (1 - 0) * (1 - 2e-8 * r0) * _ * 0.5 * _) = _
  rw [zpow_natCast, sub_zero, mul_one]
  congr 5
  congr 1 <;> ring

theorem weak_zero : ∃ E, (∀ bt, screenPrimitive bt 0 0 0 0 1e-6 1 1e-5 (2 * 1 * Real.sqrt 0) (2 * 1e-5 * Real.sqrt 1e-6) 1 = some E) ∧ 0 < E ∧
    E ≤ 0.50001 * Real.sqrt (Real.pi / 2.00001) := by
  set r1 := Real.sqrt (((2e-8 * (1e-8 / 2.00001 : ℝ)) ^ 2 / 3 + (0:ℕ)) / (2 * 2.00001)) with hr1
  have h0 : 0 ≤ r1 := Real.sqrt_nonneg _
  have h1 : r1 ≤ 1e-6 := by
    rw [hr1, Real.sqrt_le_left (by norm_num)]
    norm_num
  refine ⟨_, fun bt => weak_prim bt 0 (r0 := r1) ?_ (by linarith), ?_, ?_⟩
  · refine screenLoop_one (r1 := r1) ?_ ?_ 3
    · rw [screenNext_small bt 0 (by norm_num) (by norm_num)]
    · rw [abs_le]
      norm_num
      constructor <;> linarith
  · have h2 := erfC_nonneg (y := Real.sqrt 2.00001 * r1) (by positivity)
    have h3 : (0:ℝ) < Real.sqrt (Real.pi / 2.00001) := Real.sqrt_pos.2 (div_pos Real.pi_pos (by norm_num))
    have h4 : (0:ℝ) < 1 - 2e-8 * r1 := by linarith
    rw [pow_zero]
    positivity
  · have h3 : (0:ℝ) < Real.sqrt (Real.pi / 2.00001) := Real.sqrt_pos.2 (div_pos Real.pi_pos (by norm_num))
    have h4 : (0:ℝ) < 1 - 2e-8 * r1 := by linarith
    have h5 : Real.exp (-r1 ^ 2 - r1 ^ 2 - 1e-5 * (r1 - 1e-3) ^ 2) ≤ 1 := Real.exp_le_one_iff.2 (by nlinarith [sq_nonneg r1, sq_nonneg (r1 - 1e-3)])
    have h6 := erfC_nonneg (y := Real.sqrt 2.00001 * r1) (by positivity)
    have h7 := erfC_le (y := Real.sqrt 2.00001 * r1) (by positivity)
    have h8 : Real.sqrt 2.00001 ≤ 2 := by
      rw [Real.sqrt_le_left (by norm_num)]
      norm_num
    have h9 : 1 ≤ Real.sqrt Real.pi := Real.one_le_sqrt.2 (by linarith [Real.pi_gt_three])
    have h10 : 2 / Real.sqrt Real.pi ≤ 2 := div_le_self (by norm_num) h9
    have h11 : erfC (Real.sqrt 2.00001 * r1) ≤ 1e-5 := by
      refine h7.trans ?_
      have a1 : Real.sqrt 2.00001 * r1 ≤ 2 * 1e-6 := mul_le_mul h8 h1 h0 (by norm_num)
      have a2 : 2 / Real.sqrt Real.pi * (Real.sqrt 2.00001 * r1) ≤ 2 * (2 * 1e-6) := mul_le_mul h10 a1 (by positivity) (by norm_num)
      linarith
    rw [pow_zero, mul_one]
    have b1 : Real.sqrt (Real.pi / 2.00001) * (1 - 2e-8 * r1) ≤ Real.sqrt (Real.pi / 2.00001) := mul_le_of_le_one_right h3.le (by linarith)
    have b2 : Real.sqrt (Real.pi / 2.00001) * (1 - 2e-8 * r1) * Real.exp (-r1 ^ 2 - r1 ^ 2 - 1e-5 * (r1 - 1e-3) ^ 2) ≤
        Real.sqrt (Real.pi / 2.00001) := (mul_le_of_le_one_right (by positivity) h5).trans b1
    have b3 := mul_le_mul b2 (show 1 + erfC (Real.sqrt 2.00001 * r1) ≤ 1.00001 by linarith) (by linarith) h3.le
    nlinarith

theorem weak_two : ∃ E, (∀ bt, screenPrimitive bt 0 0 2 0 1e-6 1 1e-5 (2 * 1 * Real.sqrt 0) (2 * 1e-5 * Real.sqrt 1e-6) 1 = some E) ∧
    0.1605 * Real.sqrt (Real.pi / 2.00001) ≤ E := by
  set r1 := Real.sqrt (((2e-8 * (1e-8 / 2.00001 : ℝ)) ^ 2 / 3 + (2:ℕ)) / (2 * 2.00001)) with hr1
  have a0 : 0.7 ≤ r1 := by
    rw [hr1]
    refine Real.le_sqrt_of_sq_le ?_
    norm_num
  have a1 : r1 ≤ 0.7072 := by
    rw [hr1, Real.sqrt_le_left (by norm_num)]
    norm_num
  set r2 := Real.sqrt (((2e-8 * r1) ^ 2 / 3 + (2:ℕ)) / (2 * 2.00001)) with hr2
  have sq2 : r2 ^ 2 = ((2e-8 * r1) ^ 2 / 3 + (2:ℕ)) / (2 * 2.00001) := Real.sq_sqrt (by positivity)
  have b00 : 0 ≤ r2 := Real.sqrt_nonneg _
  have c0 : (2e-8 * r1) ^ 2 ≤ 1e-15 := by nlinarith
  have c1 : 0 ≤ (2e-8 * r1) ^ 2 := sq_nonneg _
  have d0 : 0.499997 ≤ r2 ^ 2 := by
    rw [sq2, le_div_iff₀ (by norm_num)]
    push_cast
    linarith
  have d1 : 1 / 2.00001 ≤ r2 ^ 2 := by
    rw [sq2, div_le_div_iff₀ (by norm_num) (by norm_num)]
    push_cast
    linarith
  have d2 : r2 ^ 2 ≤ 0.5 := by
    rw [sq2, div_le_iff₀ (by norm_num)]
    push_cast
    linarith
  have b0 : 0.7 ≤ r2 := by nlinarith
  have b1 : r2 ≤ 0.7072 := by nlinarith
  refine ⟨_, fun bt => weak_prim bt 2 (r0 := r2) ?_ (by linarith), ?_⟩
  · rw [screenLoop_step (r1 := r1) (m := 3)]
    · refine screenLoop_one (r1 := r2) ?_ ?_ 2
      · rw [screenNext_small bt 2 (by norm_num) (by linarith)]
      · rw [abs_le]
        constructor <;> linarith
    · rw [screenNext_small bt 2 (by norm_num) (by norm_num)]
    · rw [lt_abs]
      left
      norm_num at *
      linarith
  · have h3 : (0:ℝ) < Real.sqrt (Real.pi / 2.00001) := Real.sqrt_pos.2 (div_pos Real.pi_pos (by norm_num))
    have h4 : (0.9999 : ℝ) ≤ 1 - 2e-8 * r2 := by linarith
    have h5 : (0.3677 : ℝ) ≤ Real.exp (-r2 ^ 2 - r2 ^ 2 - 1e-5 * (r2 - 1e-3) ^ 2) := by
      have e1 : (-1 - 1e-5 : ℝ) ≤ -r2 ^ 2 - r2 ^ 2 - 1e-5 * (r2 - 1e-3) ^ 2 := by nlinarith
      refine le_trans ?_ (Real.exp_le_exp.2 e1)
      rw [sub_eq_add_neg, Real.exp_add]
      have e2 : (0.36786 : ℝ) ≤ Real.exp (-1) := by
        rw [Real.exp_neg, le_inv_comm₀ (by norm_num) (Real.exp_pos 1)]
        have := Real.exp_one_lt_d9
        norm_num
        linarith
      have e3 := Real.add_one_le_exp (-1e-5 : ℝ)
      nlinarith
    have h6 : 3 / 4 ≤ erfC (Real.sqrt 2.00001 * r2) := by
      refine erfC_ge ?_
      rw [← Real.sqrt_sq b00, ← Real.sqrt_mul (by norm_num)]
      refine Real.one_le_sqrt.2 ?_
      have := mul_le_mul_of_nonneg_left d1 (show (0:ℝ) ≤ 2.00001 by norm_num)
      norm_num at this ⊢
      linarith
    set S := Real.sqrt (Real.pi / 2.00001)
    have f1 : S * 0.499997 ≤ S * r2 ^ 2 := mul_le_mul_of_nonneg_left d0 h3.le
    have f2 : S * 0.499997 * 0.9999 ≤ S * r2 ^ 2 * (1 - 2e-8 * r2) := mul_le_mul f1 h4 (by norm_num) (by positivity)
    have f3 : S * 0.499997 * 0.9999 * 0.3677 ≤ S * r2 ^ 2 * (1 - 2e-8 * r2) * Real.exp (-r2 ^ 2 - r2 ^ 2 - 1e-5 * (r2 - 1e-3) ^ 2) :=
      mul_le_mul f2 h5 (by norm_num) (le_trans (by positivity) f2)
    have f4 : S * 0.499997 * 0.9999 * 0.3677 * 0.5 ≤ S * r2 ^ 2 * (1 - 2e-8 * r2) * Real.exp (-r2 ^ 2 - r2 ^ 2 - 1e-5 * (r2 - 1e-3) ^ 2) * 0.5 := by
      linarith
    have f5 := mul_le_mul f4 (show (1.75 : ℝ) ≤ 1 + erfC (Real.sqrt 2.00001 * r2) by linarith) (by norm_num) (le_trans (by positivity) f4)
    refine le_trans ?_ f5
    nlinarith

/-! ## Copies of small shells and potentials -/

theorem prims_single {s : Shell} (w : s.WF) {c a : ℝ} (h : s.prims = [(c, a)]) : s.num = 1 ∧ s.coeffAt 0 = c ∧ s.alphaAt 0 = a := by
  obtain ⟨w1, w2⟩ := w
  have hn : s.num = 1 := by
    have := congrArg List.length h
    simp only [Shell.prims, List.length_zip, List.length_take, List.length_singleton] at this
    omega
  unfold Shell.prims at h
  unfold Shell.coeffAt Shell.alphaAt
  rw [hn] at w1 w2 h
  match hc : s.coeffs, ha : s.alpha, w1, w2 with
  | x :: xs, y :: ys, _, _ =>
    rw [hc, ha] at h
    simp at h
    exact ⟨hn, by simp [h.1], by simp [h.2]⟩

theorem terms_pair {q : Potential} (w : q.WF) {t u : ℤ × ℝ × ℝ} (h : q.terms = [t, u]) : q.num = 2 ∧
    q.powers.getD 0 0 = t.1 ∧ q.coeffs.getD 0 0 = t.2.1 ∧ q.alpha.getD 0 0 = t.2.2 ∧
    q.powers.getD 1 0 = u.1 ∧ q.coeffs.getD 1 0 = u.2.1 ∧ q.alpha.getD 1 0 = u.2.2 := by
  obtain ⟨w1, w2, w3⟩ := w
  have hn : q.num = 2 := by
    have := congrArg List.length h
    simp only [Potential.terms, termsOf, List.length_zip, List.length_take, List.length_cons, List.length_nil] at this
    omega
  unfold Potential.terms termsOf at h
  rw [hn] at w1 w2 w3 h
  match hp : q.powers, hc : q.coeffs, ha : q.alpha, w1, w2, w3 with
  | p0 :: p1 :: ps, c0 :: c1 :: cs, a0 :: a1 :: as, _, _, _ =>
    rw [hp, hc, ha] at h
    simp at h
    obtain ⟨h1, h2⟩ := h
    rw [← h1, ← h2]
    exact ⟨hn, rfl, rfl, rfl, rfl, rfl, rfl⟩

theorem preparedShell_single (gen : ℕ → List Comp) {s : Shell} (hs : s.WF) (hn : s.num = 1) (hc : zeroThresh < |s.coeffAt 0|) :
    ∃ s', preparedShell gen s = .ok s' ∧ s'.num = 1 ∧ s'.coeffAt 0 = s.weight 0 ∧ s'.alphaAt 0 = s.alphaAt 0 := by
  classical
  obtain ⟨s1, e1, l1, o1, n1, p1, w1, -⟩ := deep_copy_equal gen s hs
  obtain ⟨s2, e2, p2, -, w2, l2, o2, -⟩ := shellShrink_ok s1 w1
  have hp : s.prims = [(s.coeffAt 0, s.alphaAt 0)] := by
    obtain ⟨h1, h2⟩ := hs
    rw [hn] at h1 h2
    unfold Shell.prims Shell.coeffAt Shell.alphaAt
    rw [hn]
    match hx : s.coeffs, hy : s.alpha, h1, h2 with
    | x :: xs, y :: ys, _, _ => simp
  rw [p1, hp, List.filter_cons_of_pos (by simpa using hc), List.filter_nil] at p2
  obtain ⟨m1, m2, m3⟩ := prims_single w2 p2
  have i1 : 0 < s2.coeffs.length := by have := w2.1; omega
  have i2 : 0 < s2.alpha.length := by have := w2.2; omega
  refine ⟨{ s2 with coeffs := s2.coeffs.set 0 (s2.coeffAt 0 * gaussianNormFactor s2.L 0 0 (s2.alphaAt 0)) }, ?_, m1, ?_, m3⟩
  · unfold preparedShell shellMultNormcoef
    rw [e1, Outcome.ok_bind, e2, Outcome.ok_bind, m1, forRange_succ, forRange_zero]
    simp only [Outcome.ok_bind]
    rw [rd_getD i2, Outcome.ok_bind, rd_getD i1, Outcome.ok_bind, wr_ok _ i1, Outcome.ok_bind]
    rfl
  · show (s2.coeffs.set 0 _).getD 0 0 = _
    rw [List.getD_eq_getElem?_getD, List.getElem?_set_self i1, Option.getD_some, m2, m3, l2, l1]
    rfl

/-! ## The exact integrals -/

/-- The exact radial integral of two `s` functions, one of them weakly displaced, with `r^n`. -/
noncomputable def weakInt (n : ℕ) : ℝ :=
  ∫ r in Ioi (0:ℝ), r ^ n * (Real.exp (-2.00001 * r ^ 2) * besselI 0 (r * 2e-8))

theorem mild_inv_sq : Mild fun r => (r ^ 2)⁻¹ := by
  refine ⟨fun r hr => ?_, 1, 0, fun r hr => ?_⟩
  · have : r ≠ 0 := ne_of_gt hr
    exact ContinuousAt.continuousWithinAt (by fun_prop (disch := positivity))
  · rw [abs_of_nonneg (by positivity), pow_zero, one_mul]
    have : 0 ≤ (r ^ 2)⁻¹ := by positivity
    linarith

theorem weakInt_integrable (n : ℕ) : IntegrableOn (fun r : ℝ => r ^ n * (Real.exp (-2.00001 * r ^ 2) * besselI 0 (r * 2e-8))) (Ioi 0) := by
  have h := mild_integrable mild_inv_sq n 0 0 (β := 2.00001) (by norm_num) (κ := 2e-8) (κ' := 0) (by norm_num) le_rfl
  refine h.congr_fun (fun r hr => ?_) measurableSet_Ioi
  have : r ≠ 0 := ne_of_gt hr
  beta_reduce
  rw [mul_zero, besselI_zero_arg, if_pos rfl, mul_one, ← mul_assoc, mul_inv_cancel₀ (pow_ne_zero 2 this), one_mul]

theorem one_le_besselI_zero {x : ℝ} (hx : 0 ≤ x) : 1 ≤ besselI 0 x := by
  rcases hx.eq_or_lt with rfl | hx
  · rw [besselI_zero_arg, if_pos rfl]
  · rw [besselI_zero_eq hx.ne', le_div_iff₀ hx, one_mul]
    exact Real.self_le_sinh_iff.2 hx.le

theorem weakInt_zero : 0.5 * Real.sqrt (Real.pi / 2.00001) ≤ weakInt 0 := by
  have h := integral_gaussian_Ioi (2.00001 : ℝ)
  have e : 0.5 * Real.sqrt (Real.pi / 2.00001) = ∫ r in Ioi (0:ℝ), Real.exp (-2.00001 * r ^ 2) := by
    rw [h]
    ring
  rw [e]
  unfold weakInt
  refine setIntegral_mono_on ?_ (weakInt_integrable 0) measurableSet_Ioi fun r hr => ?_
  · exact (integrable_exp_neg_mul_sq (by norm_num)).integrableOn
  · rw [pow_zero, one_mul]
    exact le_mul_of_one_le_right (Real.exp_pos _).le (one_le_besselI_zero (mul_nonneg (le_of_lt hr) (by norm_num)))

theorem weakInt_two : weakInt 2 ≤ 0.12501 * Real.sqrt (Real.pi / 2) := by
  have h := gaussMoment_ok (n := 2) (by norm_num) (a := 2) (by norm_num)
  have h2 : gaussMoment ((2 : ℕ) : ℤ) 2 = .ok (1 / 8 * Real.sqrt (Real.pi / 2)) := by
    unfold gaussMoment
    rw [if_pos (by decide), show Int.tdiv ((2:ℕ) : ℤ) 2 = 1 from rfl]
    have hd : doubleFactorialC (2 * 1 - 1) = .ok 1 := by
      norm_num [doubleFactorialC, doubleFactorialTable]
    dsimp only
    rw [hd]
    show Outcome.ok (1 / ((2:ℝ) ^ ((1:ℤ) + 1) * 2 ^ (1:ℤ)) * Real.sqrt (Real.pi / 2)) = _
    norm_num
  rw [h2] at h
  have h3 : (1 / 8 * Real.sqrt (Real.pi / 2)) = ∫ r in Ioi (0:ℝ), r ^ 2 * Real.exp (-2 * r ^ 2) := by
    injection h
  have h4 : weakInt 2 ≤ ∫ r in Ioi (0:ℝ), Real.exp 2e-8 * (r ^ 2 * Real.exp (-2 * r ^ 2)) := by
    unfold weakInt
    refine setIntegral_mono_on (weakInt_integrable 2) ((semiIntegral_monomial_integrable 2 (by norm_num)).const_mul _) measurableSet_Ioi fun r hr => ?_
    have hr0 : 0 ≤ r := le_of_lt hr
    have e1 : Real.exp (-2.00001 * r ^ 2) * besselI 0 (r * 2e-8) ≤ Real.exp 2e-8 * Real.exp (-2 * r ^ 2) := by
      refine (mul_le_mul_of_nonneg_left (besselI_le_exp 0 (x := r * 2e-8) (by positivity)) (Real.exp_pos _).le).trans ?_
      rw [← Real.exp_add, ← Real.exp_add]
      refine Real.exp_le_exp.2 ?_
      nlinarith [sq_nonneg (r - 1)]
    calc r ^ 2 * (Real.exp (-2.00001 * r ^ 2) * besselI 0 (r * 2e-8)) ≤ r ^ 2 * (Real.exp 2e-8 * Real.exp (-2 * r ^ 2)) :=
          mul_le_mul_of_nonneg_left e1 (sq_nonneg r)
      _ = _ := by ring
  rw [integral_const_mul, ← h3] at h4
  have h5 : Real.exp (2e-8) ≤ 1.00001 := by
    have := Real.exp_bound_div_one_sub_of_interval (x := 2e-8) (by norm_num) (by norm_num)
    refine this.trans ?_
    norm_num
  have h6 : 0 ≤ Real.sqrt (Real.pi / 2) := Real.sqrt_nonneg _
  nlinarith

/-- The estimates and the integrals are not proportional to one another. -/
theorem weak_gap {E0 E2 : ℝ} (h0 : 0 < E0) (h1 : E0 ≤ 0.50001 * Real.sqrt (Real.pi / 2.00001)) (h2 : 0.1605 * Real.sqrt (Real.pi / 2.00001) ≤ E2) :
    0 < E2 * weakInt 0 - E0 * weakInt 2 := by
  have g0 := weakInt_zero
  have g2 := weakInt_two
  set S := Real.sqrt (Real.pi / 2.00001) with hS
  have hSp : 0 < S := Real.sqrt_pos.2 (div_pos Real.pi_pos (by norm_num))
  have hT : Real.sqrt (Real.pi / 2) ≤ 1.01 * S := by
    rw [Real.sqrt_le_left (by positivity), mul_pow, hS, Real.sq_sqrt (by positivity)]
    have := Real.pi_pos
    rw [div_le_iff₀ (by norm_num)]
    have e : 1.01 ^ 2 * (Real.pi / 2.00001) * 2 = Real.pi * (1.01 ^ 2 * 2 / 2.00001) := by ring
    rw [e]
    exact le_mul_of_one_le_right this.le (by norm_num)
  have a1 : E0 * weakInt 2 ≤ E0 * (0.12501 * (1.01 * S)) := mul_le_mul_of_nonneg_left (by linarith) h0.le
  have a2 : E0 * (0.12501 * (1.01 * S)) ≤ 0.50001 * S * (0.12501 * (1.01 * S)) := mul_le_mul_of_nonneg_right h1 (by positivity)
  have a3 : 0.1605 * S * (0.5 * S) ≤ E2 * weakInt 0 := mul_le_mul h2 g0 (by positivity) (le_trans (by positivity) h2)
  nlinarith [mul_pos hSp hSp]

/-! ## The matrix element -/

theorem angOmega2_s (k : Point) : angOmega2 0 0 0 (0, 0, 0) k = Real.sqrt (1 / (4 * Real.pi)) := by
  have h0 : gaunt 0 0 0 (0, 0, 0) 0 = 1 := by
    have := rsh_orthonormal' 0 0 0 0 (by simp) (by simp)
    rw [if_pos ⟨rfl, rfl⟩] at this
    unfold gaunt
    rw [← this]
    refine congrArg sphInt (funext fun ω => ?_)
    simp [monoAt]
  have h1 : rshDir 0 (((0 : ℕ) : ℤ) - ((0 : ℕ) : ℤ)) k = Real.sqrt (1 / (4 * Real.pi)) := by
    unfold rshDir
    split_ifs
    · exact rsh_zero_zero _
    · rfl
    · exact absurd rfl ‹_›
  unfold angOmega2
  rw [show 2 * 0 + 1 = 1 from rfl, Finset.sum_range_one, h0, h1, one_mul]

/-- The matrix element of a potential with `L = 0` between two `s` functions. -/
theorem semilocal_s {U : ℝ → ℝ} (hU : Mild U) (A B : Shell) (hA : A.Pos) (hB : B.Pos) (hA0 : 0 < A.num) (hB0 : 0 < B.num) (C : Point)
    (hkA : VecOk (kDir A C)) (hkB : VecOk (kDir B C)) (m n : ℕ) (cA : A.comp m = (0, 0, 0)) (cB : B.comp n = (0, 0, 0)) :
    semilocal 0 projector C U (basisFn A m) (basisFn B n) = 4 * Real.pi * semiExact U A B C 0 0 0 := by
  rw [semilocal_exact hU 0 projector A B hA hB hA0 hB0 C hkA hkB m n, cA, cB]
  have hg : angSum 0 projector (kDir A C) (kDir B C) 0 (0, 0, 0) 0 (0, 0, 0) = 1 / (4 * Real.pi) := by
    unfold angSum
    rw [show 2 * 0 + 1 = 1 from rfl, Finset.sum_range_one, Finset.sum_range_one]
    show projector 0 0 * (angOmega2 0 0 0 (0, 0, 0) _ * angOmega2 0 0 0 (0, 0, 0) _) = _
    rw [angOmega2_s, angOmega2_s, Real.mul_self_sqrt (by positivity)]
    simp [projector]
  have hs : semiSum 0 (toC A C) (toC B C) (semiExact U A B C) (angSum 0 projector (kDir A C) (kDir B C)) (0, 0, 0) (0, 0, 0) =
      semiExact U A B C 0 0 0 * (1 / (4 * Real.pi)) := by
    rw [← hg]
    simp [semiSum, box, boxCoef, cdeg]
  rw [hs]
  have := Real.pi_ne_zero
  field_simp
  ring

/-- An `s` function of exponent `1e-5` at distance `1e-3`. -/
noncomputable def weakShell : Shell :=
  { L := 0, origin := ![0, 0, 1e-3], cart_size := 1, cartList := [(0, 0, 0)], num := 1, coeffs := [1], alpha := [1e-5] }

/-- The potential `c₀ r⁻² exp(-r²) + c₂ exp(-r²)` for `L = 0`. -/
noncomputable def weakPotential (c0 c2 : ℝ) : Potential := { L := 0, J := 0, num := 2, powers := [0, 2], coeffs := [c0, c2], alpha := [1, 1] }

theorem weakShell_homog : weakShell.Homog := by
  refine ⟨⟨by simp [weakShell], by simp [weakShell]⟩, ⟨by simp [weakShell], by simp [weakShell]⟩, by simp [weakShell], by simp [weakShell], ?_⟩
  intro i hi
  have : i = 0 := by simp only [weakShell] at hi; omega
  subst this
  simp [weakShell]
  norm_num

theorem weakPotential_ok (c0 c2 : ℝ) : (weakPotential c0 c2).WF ∧ (weakPotential c0 c2).Regular := by
  refine ⟨by simp [Potential.WF, weakPotential], fun k hk => ?_⟩
  have : k = 0 ∨ k = 1 := by simp only [weakPotential] at hk; omega
  rcases this with rfl | rfl <;> simp [weakPotential]

theorem weak_toC : toC sShell (fun _ => 0) = (fun _ => 0) ∧ (∑ i, toC sShell (fun _ => 0) i ^ 2) = 0 ∧
    (∑ i, toC weakShell (fun _ => 0) i ^ 2) = 1e-6 ∧ vnorm (toC weakShell fun _ => 0) = 1e-3 ∧ VecOk (kDir sShell fun _ => 0) ∧
    VecOk (kDir weakShell fun _ => 0) := by
  have h1 : toC sShell (fun _ => 0) = (fun _ => 0) := by funext i; simp [toC, sShell]
  have h2 : (∑ i, toC weakShell (fun _ => 0) i ^ 2) = 1e-6 := by
    rw [Fin.sum_univ_three]
    simp [toC, weakShell]
    norm_num
  have h3 : vnorm (toC weakShell fun _ => 0) = 1e-3 := by
    unfold vnorm
    rw [h2]
    exact weak_roots.2
  refine ⟨h1, by rw [h1]; simp, h2, h3, Or.inl ?_, Or.inr ?_⟩
  · unfold kDir
    rw [h1]
    simp [vnorm]
  · have e : kDir weakShell (fun _ => 0) = fun i => -(2e-5) * toC weakShell (fun _ => 0) i := by
      funext i
      unfold kDir
      rw [show weakShell.alphaAt 0 = 1e-5 from rfl]
      ring
    rw [e, vnorm_smul (by norm_num), h3]
    norm_num

theorem weak_exact (c0 c2 : ℝ) : semiExact (potentialRadial (weakPotential c0 c2)) sShell weakShell (fun _ => 0) 0 0 0 =
    sShell.weight 0 * weakShell.weight 0 * Real.exp (-1e-11) * (c0 * weakInt 0 + c2 * weakInt 2) := by
  obtain ⟨h1, -, h2, h3, -⟩ := weak_toC
  unfold semiExact weakInt
  rw [← integral_const_mul, ← integral_const_mul, ← integral_add ((weakInt_integrable 0).const_mul c0) ((weakInt_integrable 2).const_mul c2),
    ← integral_const_mul]
  refine setIntegral_congr_fun measurableSet_Ioi fun r hr => ?_
  have hr0 : r ≠ 0 := ne_of_gt hr
  beta_reduce
  have e1 : radF sShell (fun _ => 0) 0 r = sShell.weight 0 * Real.exp (-r ^ 2) := by
    rw [radF_centre sShell _ h1, if_pos rfl, show sShell.num = 1 from rfl, Finset.sum_range_one, show sShell.alphaAt 0 = 1 from rfl, neg_one_mul]
  have e2 : radF weakShell (fun _ => 0) 0 r = weakShell.weight 0 * (Real.exp (-1e-5 * (r ^ 2 + 1e-6)) * besselI 0 (r * 2e-8)) := by
    unfold radF
    rw [show weakShell.num = 1 from rfl, Finset.sum_range_one, show weakShell.alphaAt 0 = 1e-5 from rfl, h2, h3]
    norm_num
  have e3 : potentialRadial (weakPotential c0 c2) r = c0 * ((r ^ 2)⁻¹ * Real.exp (-r ^ 2)) + c2 * Real.exp (-r ^ 2) := by
    unfold potentialRadial weakPotential
    rw [Finset.sum_range_succ, Finset.sum_range_one]
    simp
  rw [e1, e2, e3]
  have e4 : Real.exp (-1e-5 * (r ^ 2 + 1e-6)) = Real.exp (-1e-11) * Real.exp (-1e-5 * r ^ 2) := by
    rw [← Real.exp_add]
    congr 1
    ring
  have e5 : Real.exp (-2.00001 * r ^ 2) = Real.exp (-r ^ 2) * Real.exp (-r ^ 2) * Real.exp (-1e-5 * r ^ 2) := by
    rw [← Real.exp_add, ← Real.exp_add]
    congr 1
    ring
  rw [e4, e5]
  field_simp

theorem weak_weights : 0 < sShell.weight 0 ∧ 0 < weakShell.weight 0 := by
  have h1 : sShell.weight 0 = 1 * gaussianNormFactor 0 0 0 1 := rfl
  have h2 : weakShell.weight 0 = 1 * gaussianNormFactor 0 0 0 1e-5 := rfl
  rw [h1, h2]
  exact ⟨by rw [one_mul]; exact gaussianNormFactor_pos (by norm_num) 0 0 0, by rw [one_mul]; exact gaussianNormFactor_pos (by norm_num) 0 0 0⟩

/-- The estimate for the two terms, from those of its parts. -/
theorem weak_estimate (bt : BesselTab) {E0 E2 : ℝ}
    (hE0 : screenPrimitive bt 0 0 0 0 1e-6 1 1e-5 (2 * 1 * Real.sqrt 0) (2 * 1e-5 * Real.sqrt 1e-6) 1 = some E0)
    (hE2 : screenPrimitive bt 0 0 2 0 1e-6 1 1e-5 (2 * 1 * Real.sqrt 0) (2 * 1e-5 * Real.sqrt 1e-6) 1 = some E2)
    {A' B' : Shell} {q : Potential} (nA : A'.num = 1) (aA : A'.alphaAt 0 = 1) (nB : B'.num = 1) (aB : B'.alphaAt 0 = 1e-5) (wq : q.WF) {c0 c2 : ℝ}
    (ht : q.terms = [(0, c0, 1), (2, c2, 1)]) :
    screenType2 bt A' B' q 0 1e-6 (0, 0, 0) = some (A'.coeffAt 0 * B'.coeffAt 0 * (c0 * E0 + c2 * E2)) := by
  obtain ⟨m0, m1, m2, m3, m4, m5, m6⟩ := terms_pair wq ht
  rw [screenType2_sum bt A' B' q 0 1e-6 (0, 0, 0) (fun _ _ n _ => if n = 0 then E0 else E2)]
  · rw [nA, nB, m0, Finset.sum_range_one, Finset.sum_range_one, Finset.sum_range_succ, Finset.sum_range_one, m1, m2, m4, m5]
    congr 1
    norm_num
    ring
  · intro i hi j hj k hk
    have hi : i = 0 := by omega
    have hj : j = 0 := by omega
    have hk : k = 0 ∨ k = 1 := by omega
    subst hi hj
    rw [aA, aB]
    rcases hk with rfl | rfl
    · rw [m1, m3]
      exact hE0
    · rw [m4, m6]
      exact hE2

end Libgrpp
