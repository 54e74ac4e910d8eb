import Verif.Lemmas.Type2Radial

/-! Type-2 radial integrals: convergence of the quadrature sums; the branch for one centre. -/

namespace Libgrpp

open MeasureTheory Set Filter Topology

/-- A radial potential `V(r)/r²` with a continuous `V` that grows at most like a power. -/
def RadialPot (U : ℝ → ℝ) : Prop := ∃ V : ℝ → ℝ, Continuous V ∧ (∀ r, 0 < r → U r = V r / r ^ 2) ∧
  ∃ (K : ℝ) (M : ℕ), ∀ r, 0 < r → |V r| ≤ K * (1 + r ^ M)

theorem RadialPot.mild {U : ℝ → ℝ} (h : RadialPot U) : Mild U := by
  obtain ⟨V, hV, hU, K, M, hK⟩ := h
  refine ⟨?_, K, M, fun r hr => ?_⟩
  · refine ContinuousOn.congr (f := fun r => V r / r ^ 2) ?_ fun r hr => hU r hr
    exact hV.continuousOn.div (by fun_prop) fun r hr => pow_ne_zero 2 (ne_of_gt hr)
  · rw [hU r hr, abs_div, abs_of_pos (pow_pos hr 2), div_eq_inv_mul, mul_left_comm]
    exact mul_le_mul_of_nonneg_left (hK r hr) (by positivity)

/-- Potentials with powers and exponents that are not negative. -/
def Potential.Regular (p : Potential) : Prop := ∀ k < p.num, 0 ≤ p.powers.getD k 0 ∧ 0 ≤ p.alpha.getD k 0

theorem pow_le_one_add {r : ℝ} (hr : 0 ≤ r) {n M : ℕ} (h : n ≤ M) : r ^ n ≤ 1 + r ^ M := by
  rcases le_total r 1 with h1 | h1
  · have := pow_le_one₀ (n := n) hr h1
    have := pow_nonneg hr M
    linarith
  · have := pow_le_pow_right₀ h1 h
    linarith

theorem radialPot_of_regular {p : Potential} (h : p.Regular) : RadialPot (potentialRadial p) := by
  refine ⟨fun r => ∑ k ∈ Finset.range p.num, p.coeffs.getD k 0 * (r ^ (p.powers.getD k 0).toNat * Real.exp (-p.alpha.getD k 0 * r ^ 2)),
    by fun_prop, fun r hr => ?_, ∑ k ∈ Finset.range p.num, |p.coeffs.getD k 0|, ∑ k ∈ Finset.range p.num, (p.powers.getD k 0).toNat,
    fun r hr => ?_⟩
  · unfold potentialRadial
    rw [Finset.sum_div]
    refine Finset.sum_congr rfl fun k hk => ?_
    obtain ⟨h1, -⟩ := h k (Finset.mem_range.1 hk)
    have e : r ^ (p.powers.getD k 0 - 2) = r ^ (p.powers.getD k 0).toNat / r ^ 2 := by
      rw [zpow_sub₀ hr.ne']
      congr 1
      · conv_lhs => rw [← Int.toNat_of_nonneg h1]
        rw [zpow_natCast]
    rw [e]
    ring
  · rw [Finset.sum_mul]
    refine (Finset.abs_sum_le_sum_abs _ _).trans (Finset.sum_le_sum fun k hk => ?_)
    obtain ⟨-, h2⟩ := h k (Finset.mem_range.1 hk)
    have hM : (p.powers.getD k 0).toNat ≤ ∑ k ∈ Finset.range p.num, (p.powers.getD k 0).toNat :=
      Finset.single_le_sum (f := fun k => (p.powers.getD k 0).toNat) (fun _ _ => Nat.zero_le _) hk
    have he : Real.exp (-p.alpha.getD k 0 * r ^ 2) ≤ 1 := by
      rw [Real.exp_le_one_iff]
      nlinarith [sq_nonneg r]
    rw [abs_mul, abs_mul, Real.abs_exp, abs_of_pos (pow_pos hr _)]
    refine mul_le_mul_of_nonneg_left ?_ (abs_nonneg _)
    exact (mul_le_of_le_one_right (pow_nonneg hr.le _) he).trans (pow_le_one_add hr.le hM)

theorem Potential.Regular.keep {p : Potential} (h : p.Regular) : (keepLargeTerms p).Regular := h

theorem continuous_radF (s : Shell) (C : Point) (l : ℕ) : Continuous (radF s C l) := by
  unfold radF
  refine continuous_finsetSum _ fun i _ => ?_
  have hb : Continuous fun r : ℝ => besselI l (r * (2 * s.alphaAt i * vnorm (toC s C))) := (continuous_besselI l).comp (by fun_prop)
  fun_prop

theorem radEnv_decay (s : Shell) (hs : s.Pos) (C : Point) : Tendsto (fun r => radEnv s C r * Real.exp (2 * r)) atTop (𝓝 0) := by
  unfold radEnv
  have e : (fun r => (∑ i ∈ Finset.range s.num, |s.weight i| * Real.exp (-s.alphaAt i * (r - vnorm (toC s C)) ^ 2)) * Real.exp (2 * r)) =
      fun r => ∑ i ∈ Finset.range s.num, |s.weight i| * Real.exp (-s.alphaAt i * (r - vnorm (toC s C)) ^ 2 + 2 * r) := by
    funext r
    rw [Finset.sum_mul]
    refine Finset.sum_congr rfl fun i _ => ?_
    rw [mul_assoc, ← Real.exp_add]
  rw [e]
  have : (0:ℝ) = ∑ i ∈ Finset.range s.num, |s.weight i| * 0 := by simp
  rw [this]
  refine tendsto_finsetSum _ fun i hi => Tendsto.const_mul _ ?_
  have ha := hs.at (Finset.mem_range.1 hi)
  have hc := vnorm_nonneg (toC s C)
  refine squeeze_zero' (g := fun r => Real.exp (-r)) (Eventually.of_forall fun r => (Real.exp_pos _).le) ?_
    (Real.tendsto_exp_atBot.comp tendsto_neg_atTop_atBot)
  filter_upwards [eventually_ge_atTop (2 * vnorm (toC s C)), eventually_ge_atTop (12 / s.alphaAt i), eventually_ge_atTop 0] with r h1 h2 h3
  rw [Real.exp_le_exp]
  rw [div_le_iff₀ ha] at h2
  have h4 : (r / 2) ^ 2 ≤ (r - vnorm (toC s C)) ^ 2 := pow_le_pow_left₀ (by linarith) (by linarith) 2
  have h5 := mul_le_mul_of_nonneg_left h4 ha.le
  nlinarith

theorem radEnv_bounded (s : Shell) (hs : s.Pos) (C : Point) (r : ℝ) : radEnv s C r ≤ ∑ i ∈ Finset.range s.num, |s.weight i| := by
  unfold radEnv
  refine Finset.sum_le_sum fun i hi => ?_
  refine mul_le_of_le_one_right (abs_nonneg _) ?_
  rw [Real.exp_le_one_iff]
  have := mul_nonneg (hs.at (Finset.mem_range.1 hi)).le (sq_nonneg (r - vnorm (toC s C)))
  linarith

/-- The quadrature sums of the exact integrand converge to the radial integral. -/
theorem semiIntegrand_tendsto {U : ℝ → ℝ} (hU : RadialPot U) (A B : Shell) (hA : A.Pos) (hB : B.Pos) (C : Point) (l1 l2 n : ℕ) :
    Tendsto (fullQuad (semiIntegrand U A B C l1 l2 n)) atTop (𝓝 (semiExact U A B C l1 l2 n)) := by
  obtain ⟨V, hV, hUV, K, M, hK⟩ := hU
  have hcA := continuous_radF A C l1
  have hcB := continuous_radF B C l2
  have e : ∀ r, 0 < r → r ^ 2 * semiIntegrand U A B C l1 l2 n r = V r * (r ^ n * (radF A C l1 r * radF B C l2 r)) := by
    intro r hr
    unfold semiIntegrand
    rw [hUV r hr]
    field_simp
  have hcont : Continuous fun r => V r * (r ^ n * (radF A C l1 r * radF B C l2 r)) := by fun_prop
  refine quad_tendsto (a := V 0 * (0 ^ n * (radF A C l1 0 * radF B C l2 0))) ?_ ?_ ?_
  · exact hcont.continuousOn.congr fun r hr => e r hr
  · have h1 := (hcont.tendsto 0).mono_left (nhdsWithin_le_nhds (s := Ioi (0:ℝ)))
    refine h1.congr' ?_
    filter_upwards [self_mem_nhdsWithin] with r hr using (e r hr).symm
  · have d1 := radEnv_decay A hA C
    set D := ∑ i ∈ Finset.range B.num, |B.weight i| with hD
    have hlim : Tendsto (fun r : ℝ => (|K| * D) * ((r ^ n * Real.exp (-r) + r ^ (n + M) * Real.exp (-r)) * (radEnv A C r * Real.exp (2 * r))))
        atTop (𝓝 0) := by
      have h1 := Real.tendsto_pow_mul_exp_neg_atTop_nhds_zero n
      have h2 := Real.tendsto_pow_mul_exp_neg_atTop_nhds_zero (n + M)
      simpa using ((h1.add h2).mul d1).const_mul (|K| * D)
    refine squeeze_zero_norm' ?_ hlim
    filter_upwards [eventually_gt_atTop 0] with r hr
    rw [e r hr, norm_mul, Real.norm_eq_abs, Real.norm_eq_abs, Real.abs_exp, abs_mul, abs_mul, abs_mul, abs_of_pos (pow_pos hr n)]
    have b1 := radF_le A hA C l1 hr.le
    have b2 := (radF_le B hB C l2 hr.le).trans (radEnv_bounded B hB C r)
    have b3 : |V r| ≤ |K| * (1 + r ^ M) := (hK r hr).trans (mul_le_mul_of_nonneg_right (le_abs_self K) (by positivity))
    have hD0 : 0 ≤ D := Finset.sum_nonneg fun i _ => abs_nonneg _
    have nA := radEnv_nonneg A C r
    have b4 : Real.exp (r / 5) ≤ Real.exp (-r) * Real.exp (2 * r) := by
      rw [← Real.exp_add, Real.exp_le_exp]
      linarith
    calc |V r| * (r ^ n * (|radF A C l1 r| * |radF B C l2 r|)) * Real.exp (r / 5)
        ≤ (|K| * (1 + r ^ M)) * (r ^ n * (radEnv A C r * D)) * (Real.exp (-r) * Real.exp (2 * r)) := by
          gcongr
      _ = _ := by
          rw [pow_add]
          ring

theorem levelSize31 {k : ℕ} (h : levelSize 31 k ≤ maxGrid) : k ≤ 8 := by
  by_contra hk
  have h3 : 2 ^ 9 ≤ 2 ^ k := Nat.pow_le_pow_right (by norm_num) (by omega)
  unfold levelSize maxGrid at h
  omega

/-- What is known about an entry of the table when the numerical branch is taken. -/
def RadialEntry (scr : Option ℝ) (pot : Potential) (A B : Shell) (C : Point) (l1 l2 n : ℕ) (v : ℝ) : Prop :=
  (∃ x, scr = some x ∧ |x| < 1e-16 ∧ v = x) ∨
  ∃ k ≤ 8, |v - fullQuad (semiIntegrand (potentialRadial (keepLargeTerms pot)) (keepLarge A) (keepLarge B) C l1 l2 n) (levelSize 31 k)| ≤
    fullQuad (fun r => 8.7e-13 * (|potentialRadial (keepLargeTerms pot) r| * (radEnv (keepLarge A) C r * radEnv (keepLarge B) C r) * r ^ n))
      (levelSize 31 k)

theorem radialType2_numeric {G : Type} (lib : Lib G) (hbt : BesselOk lib.bt) (A B : Shell) (wA : A.WF) (wB : B.WF) (pA : A.Pos) (pB : B.Pos)
    (C : Point) (pot : Potential) (hp : pot.WF) (hfar : ¬ ((∑ i, toC A C i ^ 2) < 1e-14 ∧ (∑ i, toC B C i ^ 2) < 1e-14))
    (l1max l2max nmax : ℕ) (h1 : l1max ≤ 14) (h2 : l2max ≤ 14) :
    ∃ (t : List ℝ) (Q : ℕ → ℕ → ℕ → ℝ) (A' B' : Shell) (pot' : Potential),
      preparedShell lib.gen A = .ok A' ∧ preparedShell lib.gen B = .ok B' ∧ shrinkPotential pot = .ok pot' ∧
      radialType2 lib l1max l2max nmax (∑ i, toC A C i ^ 2) (∑ i, toC B C i ^ 2) pot A B = .ok t ∧
      (∀ l1 l2 n, l1 ≤ l1max → l2 ≤ l2max → n ≤ nmax → getType2 l2max nmax t l1 l2 n = .ok (Q l1 l2 n)) ∧
      ∀ l1 l2 n, l1 ≤ l1max → l2 ≤ l2max → n ≤ nmax →
        RadialEntry (lib.screen A' B' pot' (∑ i, toC A C i ^ 2) (∑ i, toC B C i ^ 2) (n, l1, l2)) pot A B C l1 l2 n (Q l1 l2 n) := by
  obtain ⟨pot', A', B', e1, e2, e3, hclose⟩ := type2Integrand_close hbt lib.gen A B wA wB pA pB C pot hp
  set f := type2Integrand lib.bt pot' (vnorm (toC A C)) (vnorm (toC B C)) A' B' with hf
  set scr := lib.screen A' B' pot' (∑ i, toC A C i ^ 2) (∑ i, toC B C i ^ 2) with hscr
  obtain ⟨t, ht, hv⟩ := tabulateType2_ok lib.prm f scr l1max l2max nmax
  refine ⟨t, fun l1 l2 n => radialValue f 31 1e-16 (scr (n, l1, l2)) (n, l1, l2), A', B', pot', e2, e3, e1, ?_, fun l1 l2 n a1 a2 a3 => ?_,
    fun l1 l2 n a1 a2 a3 => ?_⟩
  · unfold radialType2
    rw [if_neg hfar, e1, Outcome.ok_bind, e2, Outcome.ok_bind, e3, Outcome.ok_bind, Outcome.valid_pos (by omega), Outcome.ok_bind]
    exact ht
  · unfold getType2
    exact rd_some (hv l1 l2 n a1 a2 a3)
  · obtain ⟨c, hc⟩ := radialValue_result f 31 (by norm_num [maxGrid]) 1e-16 (scr (n, l1, l2)) (n, l1, l2)
    rcases hc.cases with ⟨x, hx, hx2, hx3, _⟩ | ⟨_, k, hk, hl, _⟩
    · exact Or.inl ⟨x, hx, hx2, hx3⟩
    · refine Or.inr ⟨k, levelSize31 hl, ?_⟩
      beta_reduce
      rw [hk, fullQuad_sub]
      exact fullQuad_abs_le (fun r hr => hclose l1 l2 n (by omega) (by omega) r hr) _

/-! ## One centre -/

theorem gaussMoment_ok {n : ℕ} (hn : n % 2 = 1 ∨ n ≤ 30) {a : ℝ} (ha : 0 < a) :
    gaussMoment (n : ℤ) a = .ok (∫ r in Ioi (0:ℝ), r ^ n * Real.exp (-a * r ^ 2)) := by
  rcases Nat.even_or_odd' n with ⟨k, hk | hk⟩
  · have := gauss_moment_even_partial k (by omega) ha
    subst hk
    exact_mod_cast this
  · have := gauss_moment_odd k ha
    subst hk
    exact_mod_cast this

theorem semiIntegral_monomial_integrable (n : ℕ) {p : ℝ} (hp : 0 < p) : IntegrableOn (fun r : ℝ => r ^ n * Real.exp (-p * r ^ 2)) (Ioi 0) := by
  have := integrableOn_rpow_mul_exp_neg_mul_sq (b := p) hp (s := (n : ℝ)) (by
    have : (0 : ℝ) ≤ n := Nat.cast_nonneg n
    linarith)
  refine this.congr_fun (fun r _ => ?_) measurableSet_Ioi
  simp only [Real.rpow_natCast]

theorem radF_centre (s : Shell) (C : Point) (h : toC s C = 0) (l : ℕ) (r : ℝ) : radF s C l r =
    if l = 0 then ∑ i ∈ Finset.range s.num, s.weight i * Real.exp (-s.alphaAt i * r ^ 2) else 0 := by
  unfold radF
  have hv : vnorm (toC s C) = 0 := by
    rw [h]
    simp [vnorm]
  simp only [hv, mul_zero, besselI_zero_arg]
  rw [h]
  split_ifs <;> simp

/-- The entry for one centre. -/
noncomputable def oneCentreValue (pot : Potential) (A B : Shell) (n : ℕ) : ℝ :=
  ∑ i ∈ Finset.range A.num, ∑ j ∈ Finset.range B.num, ∑ k ∈ Finset.range pot.num,
    A.weight i * B.weight j * pot.coeffs.getD k 0 *
      ∫ r in Ioi (0:ℝ), r ^ ((pot.powers.getD k 0).toNat + n) * Real.exp (-(A.alphaAt i + B.alphaAt j + pot.alpha.getD k 0) * r ^ 2)

theorem semiExact_centre (pot : Potential) (hr : pot.Regular) (A B : Shell) (pA : A.Pos) (pB : B.Pos) (C : Point) (hA : toC A C = 0) (hB : toC B C = 0) (l1 l2 n : ℕ) :
    semiExact (potentialRadial pot) A B C l1 l2 n = if l1 = 0 ∧ l2 = 0 then oneCentreValue pot A B n else 0 := by
  unfold semiExact
  simp only [radF_centre A C hA, radF_centre B C hB]
  by_cases h1 : l1 = 0
  · by_cases h2 : l2 = 0
    · simp only [h1, h2, and_self, if_true]
      have e : ∀ r ∈ Ioi (0:ℝ), r ^ 2 * (potentialRadial pot r * (r ^ n * ((∑ i ∈ Finset.range A.num, A.weight i * Real.exp (-A.alphaAt i * r ^ 2)) *
          ∑ i ∈ Finset.range B.num, B.weight i * Real.exp (-B.alphaAt i * r ^ 2)))) =
          ∑ i ∈ Finset.range A.num, ∑ j ∈ Finset.range B.num, ∑ k ∈ Finset.range pot.num, A.weight i * B.weight j * pot.coeffs.getD k 0 *
            (r ^ ((pot.powers.getD k 0).toNat + n) * Real.exp (-(A.alphaAt i + B.alphaAt j + pot.alpha.getD k 0) * r ^ 2)) := by
        intro r hr0
        have hr0 : 0 < r := hr0
        rw [Finset.sum_mul_sum]
        simp only [Finset.mul_sum]
        refine Finset.sum_congr rfl fun i _ => Finset.sum_congr rfl fun j _ => ?_
        unfold potentialRadial
        rw [Finset.sum_mul, Finset.mul_sum]
        refine Finset.sum_congr rfl fun k hk => ?_
        obtain ⟨h1, -⟩ := hr k (Finset.mem_range.1 hk)
        have e : r ^ (pot.powers.getD k 0 - 2) = r ^ (pot.powers.getD k 0).toNat / r ^ 2 := by
          rw [zpow_sub₀ hr0.ne']
          congr 1
          · conv_lhs => rw [← Int.toNat_of_nonneg h1]
            rw [zpow_natCast]
        have e2 : Real.exp (-(A.alphaAt i + B.alphaAt j + pot.alpha.getD k 0) * r ^ 2) =
            Real.exp (-A.alphaAt i * r ^ 2) * Real.exp (-B.alphaAt j * r ^ 2) * Real.exp (-pot.alpha.getD k 0 * r ^ 2) := by
          rw [← Real.exp_add, ← Real.exp_add]
          congr 1
          ring
        rw [e, e2, pow_add]
        field_simp
      rw [setIntegral_congr_fun measurableSet_Ioi e]
      have int : ∀ i ∈ Finset.range A.num, ∀ j ∈ Finset.range B.num, ∀ k ∈ Finset.range pot.num, IntegrableOn (fun r : ℝ =>
          A.weight i * B.weight j * pot.coeffs.getD k 0 *
            (r ^ ((pot.powers.getD k 0).toNat + n) * Real.exp (-(A.alphaAt i + B.alphaAt j + pot.alpha.getD k 0) * r ^ 2))) (Ioi 0) := by
        intro i hi j hj k hk
        have := pA.at (Finset.mem_range.1 hi)
        have := pB.at (Finset.mem_range.1 hj)
        have := (hr k (Finset.mem_range.1 hk)).2
        exact (semiIntegral_monomial_integrable _ (by linarith)).const_mul _
      unfold oneCentreValue
      rw [integral_finsetSum _ fun i hi => integrable_finsetSum _ fun j hj => integrable_finsetSum _ fun k hk => int i hi j hj k hk]
      refine Finset.sum_congr rfl fun i hi => ?_
      rw [integral_finsetSum _ fun j hj => integrable_finsetSum _ fun k hk => int i hi j hj k hk]
      refine Finset.sum_congr rfl fun j hj => ?_
      rw [integral_finsetSum _ fun k hk => int i hi j hj k hk]
      refine Finset.sum_congr rfl fun k hk => ?_
      rw [integral_const_mul]
    · simp [h2]
  · simp [h1]

/-- A loop over the first elements of an array that adds to each of them. -/
theorem forRange_bump {N : ℕ} (w : ℕ → ℝ) (n : ℕ) (hn : n ≤ N) (body : ℕ → List ℝ → Outcome (List ℝ))
    (hb : ∀ i < n, ∀ t : List ℝ, t.length = N → body i t = wr t i (t.getD i 0 + w i)) (t : List ℝ) (ht : t.length = N) :
    ∃ t', forRange n t body = .ok t' ∧ t'.length = N ∧ ∀ i, t'.getD i 0 = t.getD i 0 + if i < n then w i else 0 := by
  obtain ⟨t', h1, h2, h3⟩ := forRange_inv (n := n) (s := t) (body := body)
    (fun k t' => t'.length = N ∧ ∀ i, t'.getD i 0 = t.getD i 0 + if i < k then w i else 0) ⟨ht, by simp⟩ (by
      rintro i t' hi ⟨a1, a2⟩
      rw [hb i hi t' a1, wr_ok _ (by omega)]
      refine ⟨_, rfl, by simp [a1], fun j => ?_⟩
      by_cases hji : j = i
      · subst hji
        rw [List.getD_eq_getElem?_getD, List.getElem?_set_self (by omega), Option.getD_some, a2 j, if_neg (lt_irrefl j), if_pos (by omega), add_zero]
      · rw [List.getD_eq_getElem?_getD, List.getElem?_set_ne (by omega), ← List.getD_eq_getElem?_getD, a2 j]
        congr 1
        have : (j < i) = (j < i + 1) := by
          apply propext
          omega
        simp only [this])
  exact ⟨t', h1, h2, h3⟩

/-- Nested loops that add to the first elements of an array. -/
theorem forRange_bumps {N n : ℕ} (m : ℕ) (w : ℕ → ℕ → ℝ) (body : ℕ → List ℝ → Outcome (List ℝ))
    (hb : ∀ i < m, ∀ t : List ℝ, t.length = N → ∃ t', body i t = .ok t' ∧ t'.length = N ∧
      ∀ a, t'.getD a 0 = t.getD a 0 + if a < n then w i a else 0) (t : List ℝ) (ht : t.length = N) :
    ∃ t', forRange m t body = .ok t' ∧ t'.length = N ∧ ∀ a, t'.getD a 0 = t.getD a 0 + if a < n then ∑ i ∈ Finset.range m, w i a else 0 := by
  obtain ⟨t', h1, h2, h3⟩ := forRange_inv (n := m) (s := t) (body := body)
    (fun k t' => t'.length = N ∧ ∀ a, t'.getD a 0 = t.getD a 0 + if a < n then ∑ i ∈ Finset.range k, w i a else 0) ⟨ht, by simp⟩ (by
      rintro i t' hi ⟨a1, a2⟩
      obtain ⟨t'', b1, b2, b3⟩ := hb i hi t' a1
      refine ⟨t'', b1, b2, fun a => ?_⟩
      rw [b3, a2, Finset.sum_range_succ]
      split_ifs <;> ring)
  exact ⟨t', h1, h2, h3⟩

/-- The powers do not lead to double factorials beyond the table of the code. -/
def MomentsOk (pot : Potential) (nmax : ℕ) : Prop := ∀ k < pot.num, ∀ n ≤ nmax,
  ((pot.powers.getD k 0).toNat + n) % 2 = 1 ∨ (pot.powers.getD k 0).toNat + n ≤ 30

theorem oneCentre_ok (nmax : ℕ) (pot : Potential) (hp : pot.WF) (hr : pot.Regular) (hm : MomentsOk pot nmax) (A B : Shell) (wA : A.WF)
    (wB : B.WF) (pA : A.Pos) (pB : B.Pos) (t : List ℝ) (ht : nmax + 1 ≤ t.length) :
    ∃ t', oneCentre nmax pot A B t = .ok t' ∧ t'.length = t.length ∧
      ∀ a, t'.getD a 0 = t.getD a 0 + if a < nmax + 1 then oneCentreValue pot A B a else 0 := by
  unfold oneCentre oneCentreValue
  refine forRange_bumps A.num (fun i a => ∑ j ∈ Finset.range B.num, ∑ k ∈ Finset.range pot.num,
    A.weight i * B.weight j * pot.coeffs.getD k 0 * ∫ r in Ioi (0:ℝ), r ^ ((pot.powers.getD k 0).toNat + a) *
      Real.exp (-(A.alphaAt i + B.alphaAt j + pot.alpha.getD k 0) * r ^ 2)) _ (fun i hi t1 ht1 => ?_) t rfl
  rw [rd_getD (lt_of_lt_of_le hi wA.2), Outcome.ok_bind, rd_getD (lt_of_lt_of_le hi wA.1), Outcome.ok_bind]
  refine forRange_bumps B.num (fun j a => ∑ k ∈ Finset.range pot.num,
    A.weight i * B.weight j * pot.coeffs.getD k 0 * ∫ r in Ioi (0:ℝ), r ^ ((pot.powers.getD k 0).toNat + a) *
      Real.exp (-(A.alphaAt i + B.alphaAt j + pot.alpha.getD k 0) * r ^ 2)) _ (fun j hj t2 ht2 => ?_) t1 ht1
  rw [rd_getD (lt_of_lt_of_le hj wB.2), Outcome.ok_bind, rd_getD (lt_of_lt_of_le hj wB.1), Outcome.ok_bind]
  refine forRange_bumps pot.num (fun k a => A.weight i * B.weight j * pot.coeffs.getD k 0 * ∫ r in Ioi (0:ℝ), r ^ ((pot.powers.getD k 0).toNat + a) *
      Real.exp (-(A.alphaAt i + B.alphaAt j + pot.alpha.getD k 0) * r ^ 2)) _ (fun k hk t3 ht3 => ?_) t2 ht2
  have k1 : rd pot.powers k = .ok (pot.powers.getD k 0) := by
    have h : k < pot.powers.length := lt_of_lt_of_le hk hp.1
    rw [rd_ok h, List.getD_eq_getElem]
  rw [rd_getD (lt_of_lt_of_le hk hp.2.2), Outcome.ok_bind, k1, Outcome.ok_bind, rd_getD (lt_of_lt_of_le hk hp.2.1), Outcome.ok_bind]
  refine forRange_bump (fun a => A.weight i * B.weight j * pot.coeffs.getD k 0 * ∫ r in Ioi (0:ℝ), r ^ ((pot.powers.getD k 0).toNat + a) *
      Real.exp (-(A.alphaAt i + B.alphaAt j + pot.alpha.getD k 0) * r ^ 2)) (nmax + 1) ht _ (fun a ha t4 ht4 => ?_) t3 ht3
  have g1 := pA.at hi
  have g2 := pB.at hj
  obtain ⟨g3, g4⟩ := hr k hk
  have hmom : gaussMoment (pot.powers.getD k 0 + (a : ℤ)) (A.alpha.getD i 0 + B.alpha.getD j 0 + pot.alpha.getD k 0) =
      .ok (∫ r in Ioi (0:ℝ), r ^ ((pot.powers.getD k 0).toNat + a) * Real.exp (-(A.alphaAt i + B.alphaAt j + pot.alpha.getD k 0) * r ^ 2)) := by
    have e : pot.powers.getD k 0 + (a : ℤ) = (((pot.powers.getD k 0).toNat + a : ℕ) : ℤ) := by
      push_cast
      rw [Int.toNat_of_nonneg g3]
    rw [e]
    exact gaussMoment_ok (hm k hk a (by omega)) (by unfold Shell.alphaAt at *; linarith)
  simp only [hmom, Outcome.ok_bind]
  rw [rd_getD (by omega), Outcome.ok_bind]
  rfl

theorem radialType2_centre {G : Type} (lib : Lib G) (A B : Shell) (wA : A.WF) (wB : B.WF) (pA : A.Pos) (pB : B.Pos)
    (C : Point) (hA : toC A C = 0) (hB : toC B C = 0) (pot : Potential) (hp : pot.WF) (hr : pot.Regular)
    (l1max l2max nmax : ℕ) (hm : MomentsOk pot nmax) :
    ∃ (t : List ℝ), radialType2 lib l1max l2max nmax (∑ i, toC A C i ^ 2) (∑ i, toC B C i ^ 2) pot A B = .ok t ∧
      ∀ l1 l2 n, l1 ≤ l1max → l2 ≤ l2max → n ≤ nmax → getType2 l2max nmax t l1 l2 n = .ok (semiExact (potentialRadial pot) A B C l1 l2 n) := by
  have hN : nmax + 1 ≤ (l1max + 1) * (l2max + 1) * (nmax + 1) := Nat.le_mul_of_pos_left _ (by positivity)
  obtain ⟨t, e, hl, hv⟩ := oneCentre_ok nmax pot hp hr hm A B wA wB pA pB (List.replicate ((l1max + 1) * (l2max + 1) * (nmax + 1)) 0)
    (by rw [List.length_replicate]; exact hN)
  rw [List.length_replicate] at hl
  refine ⟨t, ?_, fun l1 l2 n a1 a2 a3 => ?_⟩
  · unfold radialType2
    rw [if_pos (by rw [hA, hB]; norm_num), e]
  · unfold getType2
    have hidx : (l2max + 1) * (nmax + 1) * l1 + (nmax + 1) * l2 + n < t.length := by
      rw [hl]
      have : (l2max + 1) * (nmax + 1) * l1 + (l2max + 1) * (nmax + 1) ≤ (l1max + 1) * (l2max + 1) * (nmax + 1) := by
        calc _ = (l1 + 1) * ((l2max + 1) * (nmax + 1)) := by ring
          _ ≤ (l1max + 1) * ((l2max + 1) * (nmax + 1)) := Nat.mul_le_mul_right _ (by omega)
          _ = _ := by ring
      have : (nmax + 1) * l2 + (nmax + 1) ≤ (l2max + 1) * (nmax + 1) := by
        calc _ = (l2 + 1) * (nmax + 1) := by ring
          _ ≤ _ := Nat.mul_le_mul_right _ (by omega)
      omega
    rw [rd_getD hidx, hv, semiExact_centre pot hr A B pA pB C hA hB]
    congr 1
    rw [show (List.replicate ((l1max + 1) * (l2max + 1) * (nmax + 1)) (0:ℝ)).getD ((l2max + 1) * (nmax + 1) * l1 + (nmax + 1) * l2 + n) 0 = 0 by
      rw [List.getD_eq_getElem?_getD, List.getElem?_replicate]
      split_ifs <;> rfl, zero_add]
    by_cases h1 : l1 = 0
    · by_cases h2 : l2 = 0
      · subst h1 h2
        simp only [mul_zero, zero_add, and_self, if_true]
        rw [if_pos (by omega)]
      · rw [if_neg, if_neg (by simp [h2])]
        have : (nmax + 1) * 1 ≤ (nmax + 1) * l2 := Nat.mul_le_mul_left _ (by omega)
        omega
    · rw [if_neg, if_neg (by simp [h1])]
      have h3 : (l2max + 1) * (nmax + 1) * 1 ≤ (l2max + 1) * (nmax + 1) * l1 := Nat.mul_le_mul_left _ (by omega)
      have h4 : nmax + 1 ≤ (l2max + 1) * (nmax + 1) := Nat.le_mul_of_pos_left _ (by positivity)
      omega

end Libgrpp
