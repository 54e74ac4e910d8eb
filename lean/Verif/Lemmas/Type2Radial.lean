import Verif.Lemmas.Type2
import Verif.Lemmas.OneElectronList
import Verif.Lemmas.Potential
import Verif.Lemmas.NuclearAttraction
import Verif.Props.Shell
import Verif.Props.GaussMoment
import Verif.Props.Bessel

/-! Type-2 radial integrals: what the table contains. -/

namespace Libgrpp

open MeasureTheory Set Filter Topology

theorem sum_map_filter (l : List (ℝ × ℝ)) (P : ℝ × ℝ → Prop) [DecidablePred P] (f : ℝ × ℝ → ℝ) :
    ((l.filter fun p => decide (P p)).map f).sum = (l.map fun p => if P p then f p else 0).sum := by
  induction l with
  | nil => rfl
  | cons a l ih =>
    by_cases h : P a
    · simp [h, ih]
    · simp [h, ih]

theorem keepLarge_coeffAt (s : Shell) (hs : s.WF) {i : ℕ} (hi : i < s.num) :
    (keepLarge s).coeffAt i = if |s.coeffAt i| > zeroThresh then s.coeffAt i else 0 := by
  have h : i < s.coeffs.length := lt_of_lt_of_le hi hs.1
  unfold keepLarge Shell.coeffAt
  simp only [List.getD_eq_getElem?_getD, List.getElem?_map, List.getElem?_eq_getElem h, Option.map_some, Option.getD_some]

theorem keepLarge_wf {s : Shell} (hs : s.WF) : (keepLarge s).WF := ⟨by unfold keepLarge; simpa using hs.1, hs.2⟩

theorem keepLarge_pos {s : Shell} (hs : s.Pos) : (keepLarge s).Pos := hs

/-- The copy of a shell on which the radial integrals are computed. -/
theorem preparedShell_ok (gen : ℕ → List Comp) (s : Shell) (hs : s.WF) : ∃ s', preparedShell gen s = .ok s' ∧ s'.WF ∧ (s.Pos → s'.Pos) ∧
    ∀ f : ℝ → ℝ → ℝ, (∀ a, f 0 a = 0) →
      ∑ i ∈ Finset.range s'.num, f (s'.coeffAt i) (s'.alphaAt i) = ∑ i ∈ Finset.range s.num, f ((keepLarge s).weight i) (s.alphaAt i) := by
  classical
  obtain ⟨s1, e1, l1, o1, n1, p1, w1, -⟩ := deep_copy_equal gen s hs
  obtain ⟨s2, e2, p2, -, w2, l2, o2, -⟩ := shellShrink_ok s1 w1
  obtain ⟨cs, e3, c1, c2, c3⟩ := forRange_inv (n := s2.num) (s := s2.coeffs) (body := fun i cs => do
      let a ← rd s2.alpha i
      let c ← rd cs i
      wr cs i (c * gaussianNormFactor s2.L 0 0 a))
    (fun k cs => cs.length = s2.coeffs.length ∧ (∀ i < k, cs.getD i 0 = s2.coeffAt i * gaussianNormFactor s2.L 0 0 (s2.alphaAt i)) ∧
      ∀ i, k ≤ i → cs.getD i 0 = s2.coeffAt i) ⟨rfl, by intro i h; omega, fun i _ => rfl⟩ (by
      rintro i cs hi ⟨a1, a2, a3⟩
      have hc : i < cs.length := by have := w2.1; omega
      rw [rd_getD (lt_of_lt_of_le hi w2.2), Outcome.ok_bind, rd_getD hc, Outcome.ok_bind, wr_ok _ hc]
      refine ⟨_, rfl, by simp [a1], fun j hj => ?_, fun j hj => ?_⟩
      · by_cases hji : j = i
        · subst hji
          rw [List.getD_eq_getElem?_getD, List.getElem?_set_self hc, Option.getD_some, a3 j le_rfl]
          rfl
        · rw [List.getD_eq_getElem?_getD, List.getElem?_set_ne (by omega), ← List.getD_eq_getElem?_getD]
          exact a2 j (by omega)
      · rw [List.getD_eq_getElem?_getD, List.getElem?_set_ne (by omega), ← List.getD_eq_getElem?_getD]
        exact a3 j (by omega))
  have base : ∀ f : ℝ → ℝ → ℝ, ∑ i ∈ Finset.range s2.num, f (s2.coeffAt i) (s2.alphaAt i) =
      ∑ i ∈ Finset.range s.num, if |s.coeffAt i| > zeroThresh then f (s.coeffAt i) (s.alphaAt i) else 0 := by
    intro f
    rw [sum_range_prims s2 w2 f, p2, p1, sum_map_filter s.prims (fun p => |p.1| > zeroThresh),
      ← sum_range_prims s hs fun c a => if |c| > zeroThresh then f c a else 0]
  refine ⟨{ s2 with coeffs := cs }, ?_, ⟨by rw [c1]; exact w2.1, w2.2⟩, fun hp i hi => ?_, fun f hf => ?_⟩
  · unfold preparedShell shellMultNormcoef
    rw [e1, Outcome.ok_bind, e2, Outcome.ok_bind, e3, Outcome.ok_bind]
  · have h1 := base fun _ a => if a ≤ 0 then 1 else 0
    rw [Finset.sum_eq_zero (s := Finset.range s.num) fun j hj => by
      rw [if_neg (not_le.2 (hp.at (Finset.mem_range.1 hj)))]
      simp] at h1
    have h3 := (Finset.sum_eq_zero_iff_of_nonneg (s := Finset.range s2.num)
      (f := fun i => if s2.alphaAt i ≤ 0 then (1:ℝ) else 0) fun j _ => by split_ifs <;> norm_num).1 h1 i (Finset.mem_range.2 hi)
    show 0 < s2.alphaAt i
    by_contra hneg
    rw [if_pos (not_lt.1 hneg)] at h3
    norm_num at h3
  · have t1 : ∑ i ∈ Finset.range s2.num, f (({ s2 with coeffs := cs } : Shell).coeffAt i) (({ s2 with coeffs := cs } : Shell).alphaAt i) =
        ∑ i ∈ Finset.range s2.num, f (s2.coeffAt i * gaussianNormFactor s.L 0 0 (s2.alphaAt i)) (s2.alphaAt i) := by
      refine Finset.sum_congr rfl fun i hi => ?_
      have := c2 i (Finset.mem_range.1 hi)
      unfold Shell.coeffAt Shell.alphaAt at *
      rw [this, l2, l1]
    refine t1.trans ((base fun c a => f (c * gaussianNormFactor s.L 0 0 a) a).trans ?_)
    refine Finset.sum_congr rfl fun i hi => ?_
    have hk := keepLarge_coeffAt s hs (Finset.mem_range.1 hi)
    unfold Shell.weight
    rw [hk]
    have hL : (keepLarge s).L = s.L := rfl
    have ha : (keepLarge s).alphaAt i = s.alphaAt i := rfl
    rw [hL, ha]
    split_ifs
    · rfl
    · rw [zero_mul, hf]

/-- The potential on which the radial integrals are computed. -/
theorem shrunkPotential_ok (pot : Potential) (hp : pot.WF) : ∃ pot', shrinkPotential pot = .ok pot' ∧
    ∀ r, potentialValue pot' r = .ok (potentialRadial (keepLargeTerms pot) r) := by
  classical
  obtain ⟨q, e, -, -, w, ht⟩ := shrinkPotential_ok pot hp
  refine ⟨q, e, fun r => ?_⟩
  rw [potentialValue_ok q w r, ht]
  congr 1
  have gen : ∀ n, n ≤ pot.num → (((termsOf n pot.powers pot.coeffs pot.alpha).filter fun t => decide (|t.2.1| > zeroThresh)).map
      fun t => t.2.1 * r ^ (t.1 - 2) * Real.exp (-t.2.2 * (r * r))).sum =
      ∑ k ∈ Finset.range n, (keepLargeTerms pot).coeffs.getD k 0 * (r ^ (pot.powers.getD k 0 - 2) * Real.exp (-pot.alpha.getD k 0 * r ^ 2)) := by
    intro n
    induction n with
    | zero => intro _; simp [termsOf]
    | succ n ih =>
      intro hn
      have i1 : n < pot.powers.length := lt_of_lt_of_le hn hp.1
      have i2 : n < pot.coeffs.length := lt_of_lt_of_le hn hp.2.1
      have i3 : n < pot.alpha.length := lt_of_lt_of_le hn hp.2.2
      rw [termsOf_succ n _ _ _ i1 i2 i3, List.filter_append, List.map_append, List.sum_append, ih (by omega), Finset.sum_range_succ]
      congr 1
      have hc : (keepLargeTerms pot).coeffs.getD n 0 = if |pot.coeffs[n]| > zeroThresh then pot.coeffs[n] else 0 := by
        unfold keepLargeTerms
        simp only [List.getD_eq_getElem?_getD, List.getElem?_map, List.getElem?_eq_getElem i2, Option.map_some, Option.getD_some]
      rw [hc, List.getD_eq_getElem _ _ i1, List.getD_eq_getElem _ _ i3]
      by_cases h : |pot.coeffs[n]| > zeroThresh
      · rw [List.filter_cons_of_pos (by simpa using h), if_pos h]
        simp
        ring_nf
      · rw [List.filter_cons_of_neg (by simpa using h), if_neg h]
        simp
  exact gen pot.num le_rfl

/-- The accuracy of the Bessel routine that the theorems below need. -/
def BesselOk (bt : BesselTab) : Prop := ∀ (n : ℕ) (x : ℝ), n ≤ 14 → 0 ≤ x →
  ∃ v, besselScaled bt n x = .ok v ∧ |v - Real.exp (-x) * besselI n x| ≤ 4.3e-13

/-- The sum of the absolute values of the Gaussians of a shell along the ray through its centre. -/
noncomputable def radEnv (s : Shell) (C : Point) (r : ℝ) : ℝ :=
  ∑ i ∈ Finset.range s.num, |s.weight i| * Real.exp (-s.alphaAt i * (r - vnorm (toC s C)) ^ 2)

theorem radEnv_nonneg (s : Shell) (C : Point) (r : ℝ) : 0 ≤ radEnv s C r :=
  Finset.sum_nonneg fun _ _ => mul_nonneg (abs_nonneg _) (Real.exp_pos _).le

theorem vnorm_sq (k : Point) : vnorm k ^ 2 = ∑ i, k i ^ 2 := Real.sq_sqrt (Finset.sum_nonneg fun i _ => sq_nonneg _)

theorem radF_scaled (s : Shell) (C : Point) (lam : ℕ) (r : ℝ) : radF s C lam r = ∑ i ∈ Finset.range s.num, s.weight i *
    (Real.exp (-s.alphaAt i * (r - vnorm (toC s C)) ^ 2) * (Real.exp (-(2 * s.alphaAt i * vnorm (toC s C) * r)) *
      besselI lam (2 * s.alphaAt i * vnorm (toC s C) * r))) := by
  unfold radF
  refine Finset.sum_congr rfl fun i _ => ?_
  rw [← mul_assoc (Real.exp _) (Real.exp _), ← Real.exp_add, ← vnorm_sq, mul_comm r]
  congr 3
  congr 1
  ring

theorem scaled_bessel_mem (l : ℕ) {x : ℝ} (hx : 0 ≤ x) : 0 ≤ Real.exp (-x) * besselI l x ∧ Real.exp (-x) * besselI l x ≤ 1 := by
  refine ⟨mul_nonneg (Real.exp_pos _).le (besselI_nonneg l hx), ?_⟩
  have := mul_le_mul_of_nonneg_left (besselI_le_exp l hx) (Real.exp_pos (-x)).le
  rwa [← Real.exp_add, neg_add_cancel, Real.exp_zero] at this

theorem radF_le (s : Shell) (hs : s.Pos) (C : Point) (lam : ℕ) {r : ℝ} (hr : 0 ≤ r) : |radF s C lam r| ≤ radEnv s C r := by
  rw [radF_scaled]
  unfold radEnv
  refine (Finset.abs_sum_le_sum_abs _ _).trans (Finset.sum_le_sum fun i hi => ?_)
  have ha := hs.at (Finset.mem_range.1 hi)
  have hx : 0 ≤ 2 * s.alphaAt i * vnorm (toC s C) * r := mul_nonneg (mul_nonneg (by linarith) (vnorm_nonneg _)) hr
  obtain ⟨h0, h1⟩ := scaled_bessel_mem lam hx
  rw [abs_mul, abs_mul, Real.abs_exp, abs_of_nonneg h0]
  exact mul_le_mul_of_nonneg_left (mul_le_of_le_one_right (Real.exp_pos _).le h1) (abs_nonneg _)

/-- The radial function of the code. -/
theorem type2F_close {bt : BesselTab} (hbt : BesselOk bt) (gen : ℕ → List Comp) (s : Shell) (hs : s.WF) (hp : s.Pos) (C : Point) :
    ∃ s', preparedShell gen s = .ok s' ∧ ∀ lam ≤ 14, ∀ r, 0 < r → ∃ F, type2F bt lam (vnorm (toC s C)) s' r = .ok F ∧
      |F - radF (keepLarge s) C lam r| ≤ 4.3e-13 * radEnv (keepLarge s) C r := by
  obtain ⟨s', e, w, hpos, hsum⟩ := preparedShell_ok gen s hs
  refine ⟨s', e, fun lam hlam r hr => ?_⟩
  set c := vnorm (toC s C) with hc
  have hc0 : 0 ≤ c := vnorm_nonneg _
  have hx : ∀ a : ℝ, 0 < a → 0 ≤ 2 * a * c * r := fun a ha => by positivity
  refine ⟨∑ i ∈ Finset.range s'.num, s'.coeffAt i * Real.exp (-s'.alphaAt i * ((r - c) * (r - c))) *
    (besselScaled bt lam (2 * s'.alphaAt i * c * r)).getD 0, ?_, ?_⟩
  · unfold type2F
    rw [forRange_sum (fun i => s'.coeffAt i * Real.exp (-s'.alphaAt i * ((r - c) * (r - c))) *
      (besselScaled bt lam (2 * s'.alphaAt i * c * r)).getD 0), zero_add]
    intro i hi F
    obtain ⟨v, hv, -⟩ := hbt lam _ hlam (hx _ ((hpos hp).at hi))
    rw [rd_getD (lt_of_lt_of_le hi w.2), Outcome.ok_bind, rd_getD (lt_of_lt_of_le hi w.1), Outcome.ok_bind]
    unfold Shell.alphaAt at *
    rw [hv, Outcome.ok_bind]
    rfl
  · rw [hsum (fun c' a => c' * Real.exp (-a * ((r - c) * (r - c))) * (besselScaled bt lam (2 * a * c * r)).getD 0) (fun a => by ring),
      radF_scaled]
    unfold radEnv
    rw [show (keepLarge s).num = s.num from rfl, ← Finset.sum_sub_distrib, Finset.mul_sum]
    refine (Finset.abs_sum_le_sum_abs _ _).trans (Finset.sum_le_sum fun i hi => ?_)
    rw [show (keepLarge s).alphaAt i = s.alphaAt i from rfl, show toC (keepLarge s) C = toC s C from rfl, ← hc]
    obtain ⟨v, hv, hve⟩ := hbt lam _ hlam (hx _ (hp.at (Finset.mem_range.1 hi)))
    rw [hv, show (Outcome.ok v).getD 0 = v from rfl, ← sq]
    rw [show ∀ w E v b : ℝ, w * E * v - w * (E * b) = w * E * (v - b) from fun w E v b => by ring, abs_mul, abs_mul, Real.abs_exp,
      mul_comm (4.3e-13 : ℝ)]
    exact mul_le_mul_of_nonneg_left hve (by positivity)

/-- The exact integrand, without the volume element. -/
noncomputable def semiIntegrand (U : ℝ → ℝ) (A B : Shell) (C : Point) (l1 l2 n : ℕ) (r : ℝ) : ℝ :=
  U r * (r ^ n * (radF A C l1 r * radF B C l2 r))

/-- The integrand of the code. -/
theorem type2Integrand_close {bt : BesselTab} (hbt : BesselOk bt) (gen : ℕ → List Comp) (A B : Shell) (wA : A.WF) (wB : B.WF) (pA : A.Pos)
    (pB : B.Pos) (C : Point) (pot : Potential) (hp : pot.WF) : ∃ pot' A' B', shrinkPotential pot = .ok pot' ∧ preparedShell gen A = .ok A' ∧
      preparedShell gen B = .ok B' ∧ ∀ l1 l2 n, l1 ≤ 14 → l2 ≤ 14 → ∀ r, 0 < r →
        |type2Integrand bt pot' (vnorm (toC A C)) (vnorm (toC B C)) A' B' (n, l1, l2) r -
          semiIntegrand (potentialRadial (keepLargeTerms pot)) (keepLarge A) (keepLarge B) C l1 l2 n r| ≤
        8.7e-13 * (|potentialRadial (keepLargeTerms pot) r| * (radEnv (keepLarge A) C r * radEnv (keepLarge B) C r) * r ^ n) := by
  obtain ⟨pot', e1, v1⟩ := shrunkPotential_ok pot hp
  obtain ⟨A', e2, v2⟩ := type2F_close hbt gen A wA pA C
  obtain ⟨B', e3, v3⟩ := type2F_close hbt gen B wB pB C
  refine ⟨pot', A', B', e1, e2, e3, fun l1 l2 n h1 h2 r hr => ?_⟩
  obtain ⟨F, hF, dF⟩ := v2 l1 h1 r hr
  obtain ⟨G, hG, dG⟩ := v3 l2 h2 r hr
  have bF := radF_le (keepLarge A) (keepLarge_pos pA) C l1 hr.le
  have bG := radF_le (keepLarge B) (keepLarge_pos pB) C l2 hr.le
  have nA := radEnv_nonneg (keepLarge A) C r
  have nB := radEnv_nonneg (keepLarge B) C r
  unfold type2Integrand semiIntegrand
  simp only [v1, hF, hG, Outcome.getD]
  generalize radF (keepLarge A) C l1 r = f at *
  generalize radF (keepLarge B) C l2 r = g at *
  generalize radEnv (keepLarge A) C r = EA at *
  generalize radEnv (keepLarge B) C r = EB at *
  generalize potentialRadial (keepLargeTerms pot) r = u at *
  have e : u * F * G * r ^ n - u * (r ^ n * (f * g)) = u * r ^ n * ((F - f) * g + (F - f) * (G - g) + f * (G - g)) := by ring
  rw [e, abs_mul, abs_mul, abs_of_pos (pow_pos hr n)]
  have key : |(F - f) * g + (F - f) * (G - g) + f * (G - g)| ≤ 8.7e-13 * (EA * EB) := by
    refine (abs_add_le _ _).trans ((add_le_add (abs_add_le _ _) le_rfl).trans ?_)
    rw [abs_mul, abs_mul, abs_mul]
    have k1 := mul_le_mul dF bG (abs_nonneg _) (by positivity)
    have k2 := mul_le_mul dF dG (abs_nonneg _) (by positivity)
    have k3 := mul_le_mul bF dG (abs_nonneg _) nA
    have : 0 ≤ EA * EB := mul_nonneg nA nB
    nlinarith
  have := mul_le_mul_of_nonneg_left key (by positivity : 0 ≤ |u| * r ^ n)
  refine this.trans (le_of_eq ?_)
  ring

end Libgrpp
