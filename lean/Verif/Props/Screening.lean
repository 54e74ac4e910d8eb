import Verif.Lemmas.Screening
import Verif.Props.Bessel

/-! # Screening of radial integrals: C88

The type-2 routines tabulate radial integrals with an absolute tolerance of `1e-16`. Before each quadrature they estimate the integral; an estimate
below the tolerance is stored in place of the integral. -/

namespace Libgrpp

open MeasureTheory Set

/-- **C88, refuted.** The estimates of the terms are added with the signs of their coefficients, so that they can cancel when the integrals do not.
For every bound `M` there are two uncontracted `s` functions and a potential with two terms for which the routine writes `0`, although the matrix
element exceeds `M`. -/
theorem screening_discards_large (M : ℝ) : ∃ (A B : Shell) (C : Point) (pot : Potential), A.Homog ∧ B.Homog ∧ pot.WF ∧ pot.Regular ∧
    A.num = 1 ∧ B.num = 1 ∧ pot.num = 2 ∧ pot.L = 0 ∧
    M < semilocal 0 projector C (potentialRadial pot) (basisFn A 0) (basisFn B 0) ∧
    ∀ {G : Type} (lib : Lib G), lib.init = true → lib.screen = screenType2 lib.bt → ∀ out : List ℝ, 0 < out.length →
      ∃ out', type2Integrals lib A B C pot out = .ok out' ∧ out'[0]? = some 0 := by
  classical
  obtain ⟨E0, hE0, p0, u0⟩ := weak_zero
  obtain ⟨E2, hE2, u2⟩ := weak_two
  have hS : (0:ℝ) < Real.sqrt (Real.pi / 2.00001) := Real.sqrt_pos.2 (div_pos Real.pi_pos (by norm_num))
  have p2 : 0 < E2 := lt_of_lt_of_le (by positivity) u2
  have hgap := weak_gap p0 u0 u2
  set D := E2 * weakInt 0 - E0 * weakInt 2 with hD
  obtain ⟨wA, wB⟩ := weak_weights
  set K := 4 * Real.pi * (sShell.weight 0 * weakShell.weight 0 * Real.exp (-1e-11)) with hK
  have pK : 0 < K := by have := Real.pi_pos; positivity
  obtain ⟨t, t1, t2, t3⟩ : ∃ t : ℝ, M / (K * D) < t ∧ 1 / E0 < t ∧ 1 / E2 < t :=
    ⟨max (M / (K * D)) (max (1 / E0) (1 / E2)) + 1, lt_of_le_of_lt (le_max_left _ _) (lt_add_one _),
      lt_of_le_of_lt ((le_max_left _ _).trans (le_max_right _ _)) (lt_add_one _),
      lt_of_le_of_lt ((le_max_right _ _).trans (le_max_right _ _)) (lt_add_one _)⟩
  rw [div_lt_iff₀ (by positivity)] at t1
  rw [div_lt_iff₀ p0] at t2
  rw [div_lt_iff₀ p2] at t3
  obtain ⟨wf, reg⟩ := weakPotential_ok (t * E2) (-(t * E0))
  obtain ⟨c1, c2, c3, c4, c5, c6⟩ := weak_toC
  refine ⟨sShell, weakShell, fun _ => 0, weakPotential (t * E2) (-(t * E0)), sShell_homog, weakShell_homog, wf, reg, rfl, rfl, rfl, rfl, ?_, ?_⟩
  · rw [semilocal_s (radialPot_of_regular reg).mild sShell weakShell sShell_homog.pos weakShell_homog.pos (by simp [sShell]) (by simp [weakShell]) _
      c5 c6 0 0 rfl rfl, weak_exact]
    have e : 4 * Real.pi * (sShell.weight 0 * weakShell.weight 0 * Real.exp (-1e-11) * (t * E2 * weakInt 0 + -(t * E0) * weakInt 2)) = t * (K * D) := by
      rw [hK, hD]
      ring
    rw [e]
    exact t1
  · intro G lib hi hscr out hlen
    have z1 : zeroThresh < |(1:ℝ)| := by unfold zeroThresh; norm_num
    obtain ⟨A', eA, nA, cA, aA⟩ := preparedShell_single lib.gen sShell_homog.wf rfl z1
    obtain ⟨B', eB, nB, cB, aB⟩ := preparedShell_single lib.gen weakShell_homog.wf rfl z1
    obtain ⟨q, eq, -, -, wq, hq⟩ := shrinkPotential_ok (weakPotential (t * E2) (-(t * E0))) wf
    have z2 : zeroThresh < |t * E2| := by rw [abs_of_pos (by linarith)]; unfold zeroThresh; norm_num; linarith
    have z3 : zeroThresh < |-(t * E0)| := by rw [abs_neg, abs_of_pos (by linarith)]; unfold zeroThresh; norm_num; linarith
    have ht : q.terms = [(0, t * E2, 1), (2, -(t * E0), 1)] := by
      rw [hq]
      show List.filter _ [((0:ℤ), t * E2, (1:ℝ)), (2, -(t * E0), 1)] = _
      rw [List.filter_cons_of_pos (by simpa using z2), List.filter_cons_of_pos (by simpa using z3), List.filter_nil]
    have hest : lib.screen A' B' q 0 1e-6 (0, 0, 0) = some 0 := by
      rw [hscr, weak_estimate lib.bt (hE0 lib.bt) (hE2 lib.bt) nA aA nB aB wq ht]
      congr 1
      ring
    obtain ⟨tab, htab, hget⟩ := radialType2_table lib (∑ i, toC sShell (fun _ => 0) i ^ 2) (∑ i, toC weakShell (fun _ => 0) i ^ 2)
      (by rw [c2, c3]; norm_num) sShell weakShell (weakPotential (t * E2) (-(t * E0))) eA eB eq 0 0 0 (by norm_num) (by norm_num)
    obtain ⟨out', o1, o2, -⟩ := type2Integrals_spec lib hi sShell weakShell sShell_homog weakShell_homog (by simp [sShell]) (by simp [weakShell])
      (fun _ => 0) (weakPotential (t * E2) (-(t * E0))) (by simp [sShell, weakPotential]) (by simp [weakShell, weakPotential]) tab (fun _ _ _ => 0) htab
      (fun l1 l2 n a1 a2 a3 => by
        have e1 : l1 = 0 := by simpa [sShell, weakPotential] using a1
        have e2 : l2 = 0 := by simpa [weakShell, weakPotential] using a2
        have e3 : n = 0 := by simpa [sShell, weakShell] using a3
        subst e1 e2 e3
        have := hget 0 0 0 le_rfl le_rfl le_rfl
        rw [c2, c3, hest, radialValue_screened _ 31 (by norm_num [maxGrid]) 1e-16 0 (by norm_num)] at this
        exact this) out (by show 1 * 1 ≤ out.length; omega)
    refine ⟨out', o1, ?_⟩
    have := o2 0 0 (by simp [sShell]) (by simp [weakShell])
    rw [show 0 * weakShell.cart_size + 0 = 0 by simp] at this
    rw [this]
    congr 1
    simp [semiSumCode]

/-- **C88, partial.** When a shell is at the centre of the potential, its partial waves of order `≥ 1` vanish; the estimate is `0` then, whatever
the copies `A'`, `B'`, `pot'` contain, and so is the integral. -/
theorem screening_exact_on_centre_partial (bt : BesselTab) (A B A' B' : Shell) (C : Point) (pot pot' : Potential) (l1 l2 n : ℕ)
    (h : A.origin = C ∧ 1 ≤ l1 ∨ B.origin = C ∧ 1 ≤ l2) :
    screenType2 bt A' B' pot' (∑ i, toC A C i ^ 2) (∑ i, toC B C i ^ 2) (n, l1, l2) = some 0 ∧
      semiExact (potentialRadial (keepLargeTerms pot)) (keepLarge A) (keepLarge B) C l1 l2 n = 0 := by
  have z : |(0:ℝ)| ≤ zeroThresh := by unfold zeroThresh; norm_num
  have tz : ∀ s : Shell, s.origin = C → toC s C = fun _ => 0 := by
    intro s hs
    funext i
    simp [toC, hs]
  refine ⟨?_, ?_⟩
  · rw [screenType2_sum bt A' B' pot' _ _ (n, l1, l2) (fun _ _ _ _ => 0)]
    · simp
    · intro i _ j _ k _
      rcases h with ⟨h, hl⟩ | ⟨h, hl⟩
      · have e : (∑ i, toC A C i ^ 2) = 0 := by rw [tz A h]; simp
        unfold screenPrimitive
        rw [if_pos]
        rw [e, Real.sqrt_zero, mul_zero]
        exact ⟨hl, z⟩
      · have e : (∑ i, toC B C i ^ 2) = 0 := by rw [tz B h]; simp
        unfold screenPrimitive
        by_cases h1 : 1 ≤ l1 ∧ |2 * A'.alphaAt i * Real.sqrt (∑ i, toC A C i ^ 2)| ≤ zeroThresh
        · rw [if_pos h1]
        · rw [if_neg h1, if_pos]
          rw [e, Real.sqrt_zero, mul_zero]
          exact ⟨hl, z⟩
  · unfold semiExact
    rcases h with ⟨h, hl⟩ | ⟨h, hl⟩
    · have : ∀ r, radF (keepLarge A) C l1 r = 0 := fun r => by
        rw [radF_centre _ _ (tz (keepLarge A) h), if_neg (by omega)]
      simp [this]
    · have : ∀ r, radF (keepLarge B) C l2 r = 0 := fun r => by
        rw [radF_centre _ _ (tz (keepLarge B) h), if_neg (by omega)]
      simp [this]

/-- **C88, partial.** For one pair of primitives and one term of the potential, with orders zero and both centres at `C`, the estimate is the integral. -/
theorem screening_exact_one_centre_partial (bt : BesselTab) (n : ℕ) (hn : n % 2 = 1 ∨ n ≤ 30) (a b eta : ℝ) (ha : 0 < a) (hb : 0 < b) (he : 0 ≤ eta) :
    screenPrimitive bt 0 0 n 0 0 a b 0 0 eta = some (∫ r in Ioi (0:ℝ), r ^ n * Real.exp (-(a + b + eta) * r ^ 2)) := by
  unfold screenPrimitive
  rw [if_neg (by norm_num), if_neg (by norm_num)]
  dsimp only
  rw [if_pos ⟨⟨rfl, rfl⟩, by unfold zeroThresh; norm_num, by unfold zeroThresh; norm_num⟩, gaussMoment_ok hn (by linarith)]
  simp only [Real.sqrt_zero, mul_zero, sub_zero, Real.exp_zero, one_mul]
  rfl

/-- The tables built at initialisation and the screening of the library make up a library for which the counterexample applies. -/
example : ∃ lib : Lib Unit, lib.init = true ∧ lib.screen = screenType2 lib.bt ∧ BesselOk lib.bt := by
  obtain ⟨t, -, h⟩ := bessel_accuracy besselTab0
  exact ⟨⟨true, ⟨1e-16, 1e-14, 1e-12, ()⟩, t, cartesianTurbomole, screenType2 t⟩, rfl, rfl, h⟩

example : screenPrimitive besselTab0 0 0 (2 : ℕ) 0 0 1 1 0 0 0 = some (∫ r in Ioi (0:ℝ), r ^ 2 * Real.exp (-(1 + 1 + 0) * r ^ 2)) :=
  screening_exact_one_centre_partial besselTab0 2 (by norm_num) 1 1 0 (by norm_num) (by norm_num) le_rfl

end Libgrpp
