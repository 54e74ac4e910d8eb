import Verif.Lemmas.QuadMiss
import Verif.Lemmas.QuadError
import Verif.Props.Type2

/-! # Accuracy of the radial quadrature: C89

Radial integrals are computed on grids of at most 8191 nodes; each grid contains the nodes of the previous one. The routine that refines the grid
reports whether the values have settled, but the type-2 routines ignore the report. -/

namespace Libgrpp

open MeasureTheory Set Filter Topology

/-- **C89, refuted.** For every `M` and every `ε > 0` there are an `s` function with one primitive and a potential with one term for which the routine
writes a number below `ε` in absolute value, although the matrix element exceeds `M`; this holds for every screening. The function is so narrow that
it is negligible at every node. -/
theorem quadrature_misses_large (M ε : ℝ) (hε : 0 < ε) : ∃ (A : Shell) (C : Point) (pot : Potential), A.Homog ∧ pot.WF ∧ pot.Regular ∧
    A.num = 1 ∧ pot.num = 1 ∧ pot.L = 0 ∧
    M < semilocal 0 projector C (potentialRadial pot) (basisFn A 0) (basisFn A 0) ∧
    ∀ {G : Type} (lib : Lib G), lib.init = true → BesselOk lib.bt → ∀ out : List ℝ, 0 < out.length →
      ∃ out' v, type2Integrals lib A A C pot out = .ok out' ∧ out'[0]? = some v ∧ |v| < ε := by
  classical
  obtain ⟨d, hd, hd1, δ, hδ, hm⟩ := grid_miss
  have hlim : Tendsto (fun s : ℝ => s ^ 14 * Real.exp (-δ ^ 2 * s ^ 4)) atTop (𝓝 0) := by
    have h1 := (tendsto_rpow_mul_exp_neg_mul_atTop_nhds_zero (7 / 2) (δ ^ 2) (by positivity)).comp (tendsto_pow_atTop (α := ℝ) (n := 4) (by norm_num))
    refine h1.congr' ?_
    filter_upwards [eventually_ge_atTop (0:ℝ)] with s hs
    show (s ^ 4) ^ ((7 / 2 : ℝ)) * _ = _
    rw [← Real.rpow_natCast s 4, ← Real.rpow_mul hs, show (((4:ℕ):ℝ) * (7 / 2)) = ((14:ℕ):ℝ) by norm_num, Real.rpow_natCast, Real.rpow_natCast]
  have hlim2 := hlim.const_mul (16 * Real.pi * Real.pi * (1.52 * 1.52) * (2 * gridTotal))
  rw [mul_zero] at hlim2
  obtain ⟨s, hsm, hs2, hsM⟩ := ((hlim2.eventually_lt_const hε).and ((eventually_ge_atTop (2:ℝ)).and
    ((tendsto_pow_atTop (α := ℝ) (n := 4) (by norm_num)).eventually_gt_atTop (M / (4 * Real.pi * (Real.exp (-8) / 4096)))))).exists
  have hsp : 0 < s := by linarith
  have hp := Real.pi_pos
  have hA := sharpShell_homog d hsp
  obtain ⟨wf, reg⟩ := sharpPotential_ok (s ^ 8)
  obtain ⟨c2, c3⟩ := sharp_toC (d := d) (by linarith) s
  refine ⟨sharpShell d s, fun _ => 0, sharpPotential (s ^ 8), hA, wf, reg, rfl, rfl, rfl, ?_, ?_⟩
  · rw [semilocal_s (radialPot_of_regular reg).mild _ _ hA.pos hA.pos (by simp [sharpShell]) (by simp [sharpShell]) _
      (sharp_vecOk hd (by linarith)) (sharp_vecOk hd (by linarith)) 0 0 rfl rfl]
    have h := sharp_exact hd hd1 hs2
    rw [div_lt_iff₀ (by positivity)] at hsM
    refine lt_of_lt_of_le hsM ?_
    have := mul_le_mul_of_nonneg_left h (show 0 ≤ 4 * Real.pi by positivity)
    linarith
  · intro G lib hi hbt out hlen
    obtain ⟨tab, Q, A', B', pot', -, -, -, htab, hget, hent⟩ := radialType2_numeric lib hbt (sharpShell d s) (sharpShell d s) hA.wf hA.wf hA.pos hA.pos
      (fun _ => 0) (sharpPotential (s ^ 8)) wf (by rw [c2]; intro h; have := h.1; norm_num at this; nlinarith) 0 0 0 (by norm_num) (by norm_num)
    obtain ⟨out', o1, o2, -⟩ := type2Integrals_spec lib hi (sharpShell d s) (sharpShell d s) hA hA (by simp [sharpShell]) (by simp [sharpShell])
      (fun _ => 0) (sharpPotential (s ^ 8)) (by simp [sharpShell, sharpPotential]) (by simp [sharpShell, sharpPotential]) tab Q htab hget out
      (by show 1 * 1 ≤ out.length; omega)
    have h0 := o2 0 0 (by simp [sharpShell]) (by simp [sharpShell])
    rw [show 0 * (sharpShell d s).cart_size + 0 = 0 by simp] at h0
    refine ⟨out', _, o1, h0, ?_⟩
    have hcode : |semiSumCode 1e-13 1e-16 0 (toC (sharpShell d s) fun _ => 0) (toC (sharpShell d s) fun _ => 0) Q
        (angSumT2 0 (kDir (sharpShell d s) fun _ => 0) (kDir (sharpShell d s) fun _ => 0)) (0, 0, 0) (0, 0, 0)| ≤
          (1.52 * 1.52) * (2 * gridTotal * (s ^ 14 * Real.exp (-δ ^ 2 * s ^ 4))) := by
      have hb : 0 ≤ (1.52 * 1.52 : ℝ) * (2 * gridTotal * (s ^ 14 * Real.exp (-δ ^ 2 * s ^ 4))) := by
        have : 0 ≤ gridTotal := Finset.sum_nonneg fun _ _ => Finset.sum_nonneg fun _ _ => abs_nonneg _
        positivity
      rw [semiSumCode_s]
      split_ifs with hq
      · rw [abs_zero]
        exact hb
      · rw [smul_eq_mul, abs_mul, mul_comm]
        have h1 := sharp_entry hd (by linarith : (1:ℝ) ≤ s) hδ hm (hent 0 0 0 le_rfl le_rfl le_rfl) (not_lt.1 hq)
        have h2 := angSumT2_le 0 (kDir (sharpShell d s) fun _ => 0) (kDir (sharpShell d s) fun _ => 0) (l1 := 0) (l2 := 0) (by norm_num) (by norm_num)
          (0, 0, 0) (0, 0, 0)
        rw [show ((1.52 * 1.52 : ℝ) * (2 * ((0:ℕ):ℝ) + 1)) = 1.52 * 1.52 by norm_num] at h2
        exact mul_le_mul h2 h1 (abs_nonneg _) (by norm_num)
    have hcomp : (sharpShell d s).comp 0 = (0, 0, 0) := rfl
    have hL : (sharpPotential (s ^ 8)).L.toNat = 0 := rfl
    beta_reduce
    rw [hcomp, hL, abs_mul, abs_of_pos (show 0 < 16 * Real.pi * Real.pi by positivity)]
    refine lt_of_le_of_lt (mul_le_mul_of_nonneg_right hcode (by positivity)) (lt_of_eq_of_lt ?_ hsm)
    ring

/-- **C89, partial.** An a-priori bound for every stored radial integral that is not a screening estimate. `M0` bounds `r²` times the integrand times
`exp(2r/5)`, `M1` its derivative likewise, both in terms of the absolute values of the coefficients. Missing: a bound of the order of the tolerance. -/
theorem radial_entry_error_partial (scr : Option ℝ) (pot : Potential) (hr : pot.Regular) (A B : Shell) (hA : A.Pos) (hB : B.Pos) (C : Point) (l1 l2 n : ℕ)
    (v : ℝ) (h : RadialEntry scr pot A B C l1 l2 n v) (hscr : ∀ x, scr = some x → 1e-16 ≤ |x|) (M0 M1 : ℝ)
    (b0 : ∀ r, 0 < r → semiEnv (keepLargeTerms pot) (keepLarge A) (keepLarge B) C n r * Real.exp (2 * r / 5) ≤ M0)
    (b1 : ∀ r, 0 < r → semiSlope (keepLargeTerms pot) (keepLarge A) (keepLarge B) C n r * Real.exp (2 * r / 5) ≤ M1) :
    |v - semiExact (potentialRadial (keepLargeTerms pot)) (keepLarge A) (keepLarge B) C l1 l2 n| ≤ (225 * M1 + 75 * M0) / 64 + 1.4e-11 * M0 := by
  rcases h with ⟨x, e1, e2, -⟩ | ⟨k, -, hq⟩
  · exact absurd e2 (not_lt.2 (hscr x e1))
  have n0 : ∀ r, 0 < r → 0 ≤ semiEnv (keepLargeTerms pot) (keepLarge A) (keepLarge B) C n r := fun r hr' =>
    mul_nonneg (potEnv_nonneg _ hr'.le) (mul_nonneg (pow_nonneg hr'.le _) (mul_nonneg (radEnv_nonneg _ _ _) (radEnv_nonneg _ _ _)))
  have m0 : 0 ≤ M0 := le_trans (mul_nonneg (n0 1 one_pos) (Real.exp_pos _).le) (b0 1 one_pos)
  have m1 : 0 ≤ 225 * M1 + 75 * M0 := by
    have h := (abs_nonneg _).trans (semi_quad_error hr.keep (keepLarge A) (keepLarge B) (keepLarge_pos hA) (keepLarge_pos hB) C l1 l2 n b0 b1 0)
    norm_num at h
    linarith
  have t1 := semi_quad_error hr.keep (keepLarge A) (keepLarge B) (keepLarge_pos hA) (keepLarge_pos hB) C l1 l2 n b0 b1 (levelSize 31 k)
  have t2 := (le_abs_self _).trans (fullQuad_sup (F := fun r => 8.7e-13 * (|potentialRadial (keepLargeTerms pot) r| *
      (radEnv (keepLarge A) C r * radEnv (keepLarge B) C r) * r ^ n)) (M := 8.7e-13 * M0) (fun r hr' => by
    have e := potNumer_eq hr.keep hr'
    have hN := potNumer_le (keepLargeTerms pot) hr'.le
    have nA := radEnv_nonneg (keepLarge A) C r
    have nB := radEnv_nonneg (keepLarge B) C r
    have hb := b0 r hr'
    unfold semiEnv at hb
    rw [abs_of_nonneg (by positivity), e, abs_div, abs_of_pos (pow_pos hr' 2)]
    have h1 : |potNumer (keepLargeTerms pot) r| * (r ^ n * (radEnv (keepLarge A) C r * radEnv (keepLarge B) C r)) * Real.exp (2 * r / 5) ≤ M0 :=
      le_trans (mul_le_mul_of_nonneg_right (mul_le_mul_of_nonneg_right hN (by positivity)) (Real.exp_pos _).le) hb
    calc _ = 8.7e-13 * (|potNumer (keepLargeTerms pot) r| * (r ^ n * (radEnv (keepLarge A) C r * radEnv (keepLarge B) C r)) *
          Real.exp (2 * r / 5)) := by field_simp
      _ ≤ _ := mul_le_mul_of_nonneg_left h1 (by norm_num)) (levelSize 31 k))
  have t3 : (225 * M1 + 75 * M0) / (2 * ((levelSize 31 k : ℕ) + 1)) ≤ (225 * M1 + 75 * M0) / 64 := by
    refine div_le_div_of_nonneg_left m1 (by norm_num) ?_
    have h31 : 31 ≤ levelSize 31 k := by
      unfold levelSize
      have := Nat.one_le_two_pow (n := k)
      omega
    have : (31:ℝ) ≤ (levelSize 31 k : ℕ) := by exact_mod_cast h31
    linarith
  have t4 := abs_sub_le v (fullQuad (semiIntegrand (potentialRadial (keepLargeTerms pot)) (keepLarge A) (keepLarge B) C l1 l2 n) (levelSize 31 k))
    (semiExact (potentialRadial (keepLargeTerms pot)) (keepLarge A) (keepLarge B) C l1 l2 n)
  linarith

/-- **C89, partial.** The error of the matrix elements, a priori: in the bound of `type2_correct` the computed radial integrals no longer occur.
Precondition on the screening: it discards nothing for these shells. -/
theorem type2_error_apriori_partial {G : Type} (lib : Lib G) (hi : lib.init = true) (hbt : BesselOk lib.bt) (A B : Shell) (hA : A.Homog) (hB : B.Homog)
    (nA : 0 < A.num) (nB : 0 < B.num) (C : Point) (pot : Potential) (hp : pot.WF) (hr : pot.Regular) (hLA : pot.L.toNat + A.L ≤ 14)
    (hLB : pot.L.toNat + B.L ≤ 14) (hkA : VecOk (kDir A C)) (hkB : VecOk (kDir B C))
    (hfar : ¬ ((∑ i, toC A C i ^ 2) < 1e-14 ∧ (∑ i, toC B C i ^ 2) < 1e-14))
    (hscr : ∀ A' B' pot', preparedShell lib.gen A = .ok A' → preparedShell lib.gen B = .ok B' → shrinkPotential pot = .ok pot' →
      ∀ key x, lib.screen A' B' pot' (∑ i, toC A C i ^ 2) (∑ i, toC B C i ^ 2) key = some x → 1e-16 ≤ |x|)
    (M0 M1 : ℕ → ℝ)
    (b0 : ∀ n ≤ A.L + B.L, ∀ r, 0 < r → semiEnv (keepLargeTerms pot) (keepLarge A) (keepLarge B) C n r * Real.exp (2 * r / 5) ≤ M0 n)
    (b1 : ∀ n ≤ A.L + B.L, ∀ r, 0 < r → semiSlope (keepLargeTerms pot) (keepLarge A) (keepLarge B) C n r * Real.exp (2 * r / 5) ≤ M1 n)
    (out : List ℝ) (hlen : A.cart_size * B.cart_size ≤ out.length) :
    ∃ out', type2Integrals lib A B C pot out = .ok out' ∧
      ∀ m n, m < A.cart_size → n < B.cart_size → ∃ v, out'[m * B.cart_size + n]? = some v ∧
        |v - semilocal pot.L.toNat projector C (potentialRadial (keepLargeTerms pot)) (basisFn (keepLarge A) m) (basisFn (keepLarge B) n)| ≤
          16 * Real.pi ^ 2 * semiBound 1e-13 1e-16 (1.52 * 1.52 * (2 * pot.L.toNat + 1)) (1.65e-13 * (2 * pot.L.toNat + 1)) pot.L.toNat
            (toC A C) (toC B C)
            (fun l1 l2 n => semiExact (potentialRadial (keepLargeTerms pot)) (keepLarge A) (keepLarge B) C l1 l2 n +
              ((225 * M1 n + 75 * M0 n) / 64 + 1.4e-11 * M0 n))
            (semiExact (potentialRadial (keepLargeTerms pot)) (keepLarge A) (keepLarge B) C) (A.comp m) (B.comp n) := by
  obtain ⟨out', Q, A', B', pot', h1, -, h3, ⟨e1, e2, e3⟩, hQ⟩ := type2_correct lib hi hbt A B hA hB nA nB C pot hp hr hLA hLB hkA hkB hfar out hlen
  refine ⟨out', h1, fun m n hm hn => ?_⟩
  obtain ⟨v, hv, hb⟩ := h3 m n hm hn
  refine ⟨v, hv, hb.trans (mul_le_mul_of_nonneg_left ?_ (by positivity))⟩
  refine semiBound_mono _ _ _ _ (by positivity) _ _ _ A.L B.L _ _ _ (fun l1 l2 k a1 a2 a3 => ?_) _ _ (hA.comp_deg hm) (hB.comp_deg hn)
  rw [add_sub_cancel_left]
  refine le_trans ?_ (le_abs_self _)
  exact radial_entry_error_partial _ pot hr A B hA.pos hB.pos C l1 l2 k _ (hQ l1 l2 k a1 a2 a3) (hscr A' B' pot' e1 e2 e3 _) _ _ (b0 k a3) (b1 k a3)

/-- **C89, partial.** Such bounds exist for all shells and potentials. -/
theorem quadrature_bounds_exist {p : Potential} (hp : p.Regular) (A B : Shell) (hA : A.Pos) (hB : B.Pos) (C : Point) :
    ∃ M0 M1 : ℕ → ℝ, ∀ n, (∀ r, 0 < r → semiEnv p A B C n r * Real.exp (2 * r / 5) ≤ M0 n) ∧
      ∀ r, 0 < r → semiSlope p A B C n r * Real.exp (2 * r / 5) ≤ M1 n := by
  choose M0 M1 h using fun n => semiEnv_bounded hp A B hA hB C n
  exact ⟨M0, M1, h⟩

/-- **C89, partial.** With `N` nodes and exact Bessel functions the error of the quadrature is at most of the order `1/N`. -/
theorem quadrature_rate {p : Potential} (hp : p.Regular) (A B : Shell) (hA : A.Pos) (hB : B.Pos) (C : Point) (l1 l2 n : ℕ) {M0 M1 : ℝ}
    (b0 : ∀ r, 0 < r → semiEnv p A B C n r * Real.exp (2 * r / 5) ≤ M0) (b1 : ∀ r, 0 < r → semiSlope p A B C n r * Real.exp (2 * r / 5) ≤ M1) (N : ℕ) :
    |fullQuad (semiIntegrand (potentialRadial p) A B C l1 l2 n) N -
      ∫ r in Ioi (0:ℝ), r ^ 2 * (potentialRadial p r * (r ^ n * (radF A C l1 r * radF B C l2 r)))| ≤ (225 * M1 + 75 * M0) / (2 * (N + 1)) :=
  semi_quad_error hp A B hA hB C l1 l2 n b0 b1 N

/-- A `p` and an `s` function, with a screening that discards nothing. -/
example (bt : BesselTab) (hbt : BesselOk bt) : ∃ (out' : List ℝ) (M0 M1 : ℕ → ℝ), type2Integrals (⟨true, ⟨1e-16, 1e-14, 1e-12, ()⟩, bt, cartesianTurbomole,
      fun _ _ _ _ _ _ => none⟩ : Lib Unit) exampleShell sShell (fun _ => 0) pPotential [0, 0, 0] = .ok out' ∧
    ∃ v, out'[1]? = some v ∧
      |v - semilocal 1 projector (fun _ => 0) (potentialRadial (keepLargeTerms pPotential)) (basisFn (keepLarge exampleShell) 1) (basisFn (keepLarge sShell) 0)| ≤
        16 * Real.pi ^ 2 * semiBound 1e-13 1e-16 (1.52 * 1.52 * (2 * (1:ℕ) + 1)) (1.65e-13 * (2 * (1:ℕ) + 1)) 1
            (toC exampleShell fun _ => 0) (toC sShell fun _ => 0)
            (fun l1 l2 n => semiExact (potentialRadial (keepLargeTerms pPotential)) (keepLarge exampleShell) (keepLarge sShell) (fun _ => 0) l1 l2 n +
              ((225 * M1 n + 75 * M0 n) / 64 + 1.4e-11 * M0 n))
            (semiExact (potentialRadial (keepLargeTerms pPotential)) (keepLarge exampleShell) (keepLarge sShell) fun _ => 0)
            (exampleShell.comp 1) (sShell.comp 0) := by
  obtain ⟨M0, M1, h⟩ := quadrature_bounds_exist (p := keepLargeTerms pPotential) pPotential_ok.2.keep (keepLarge exampleShell) (keepLarge sShell)
    (keepLarge_pos exampleShell_homog.pos) (keepLarge_pos sShell_homog.pos) (fun _ => 0)
  obtain ⟨f1, f2, f3⟩ := exampleFar
  obtain ⟨out', h1, h2⟩ := type2_error_apriori_partial (⟨true, ⟨1e-16, 1e-14, 1e-12, ()⟩, bt, cartesianTurbomole,
      fun _ _ _ _ _ _ => none⟩ : Lib Unit) rfl hbt exampleShell sShell exampleShell_homog sShell_homog (by simp [exampleShell]) (by simp [sShell])
      (fun _ => 0) pPotential pPotential_ok.1 pPotential_ok.2 (by simp [pPotential, exampleShell]) (by simp [pPotential, sShell]) f1 f2 f3
      (fun _ _ _ _ _ _ _ _ hx => by simp at hx) M0 M1 (fun n _ => (h n).1) (fun n _ => (h n).2) [0, 0, 0] (by simp [exampleShell, sShell])
  exact ⟨out', M0, M1, h1, h2 1 0 (by simp [exampleShell]) (by simp [sShell])⟩

end Libgrpp
