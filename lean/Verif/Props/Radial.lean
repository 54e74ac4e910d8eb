import Mathlib.Analysis.SpecialFunctions.Exp
import Verif.Lemmas.RadialTable
import Verif.Lemmas.RadialLimit
import Verif.Model.Parameters

/-! # C40, C48, C49, C61, C62: library parameters and radial integration -/

namespace Libgrpp

open Filter Topology MeasureTheory Set

/-! ## C48, C49: nested grids and adaptive refinement -/

/-- A request for one radial integral: which one, tolerance, outcome of the screening. -/
structure RadialRequest (κ : Type) where
  key : κ
  tol : ℝ
  screened : Option ℝ

/-- Requests served one after the other on one shared, lazily expanded grid. -/
noncomputable def serve {κ : Type} (f : κ → ℝ → ℝ) (m : Nat) (reqs : List (RadialRequest κ)) :
    Outcome (List (ℝ × Bool) × RGrid κ) := do
  let g ← createGrid f m
  reqs.foldlM (fun st q => do
    let r ← calcRadial f m q.key q.tol q.screened st.2
    Outcome.ok (st.1 ++ [(r.1, r.2.1)], r.2.2)) ([], g)

theorem serve_ok {κ : Type} (f : κ → ℝ → ℝ) (m : Nat) (hm : m ≤ maxGrid) (reqs : List (RadialRequest κ)) :
    ∃ answers g k, serve f m reqs = .ok (answers, g) ∧ GridOk f m k g ∧
      List.Forall₂ (fun (q : RadialRequest κ) (a : ℝ × Bool) => RadialResult (f q.key) m q.tol q.screened a.1 a.2)
        reqs answers := by
  obtain ⟨g, eg, hg⟩ := createGrid_ok f m hm
  unfold serve
  rw [eg, Outcome.ok_bind]
  have gen : ∀ (reqs done : List (RadialRequest κ)) (as : List (ℝ × Bool)) (g : RGrid κ) (k : Nat), GridOk f m k g →
      List.Forall₂ (fun (q : RadialRequest κ) (a : ℝ × Bool) => RadialResult (f q.key) m q.tol q.screened a.1 a.2) done as →
      ∃ answers g' k', reqs.foldlM (fun (st : List (ℝ × Bool) × RGrid κ) q => do
        let r ← calcRadial f m q.key q.tol q.screened st.2
        Outcome.ok (st.1 ++ [(r.1, r.2.1)], r.2.2)) (as, g) = .ok (answers, g') ∧ GridOk f m k' g' ∧
        List.Forall₂ (fun (q : RadialRequest κ) (a : ℝ × Bool) => RadialResult (f q.key) m q.tol q.screened a.1 a.2)
          (done ++ reqs) answers := by
    intro reqs
    induction reqs with
    | nil => intro done as g k hg hd; exact ⟨as, g, k, rfl, hg, by simpa using hd⟩
    | cons q reqs ih =>
      intro done as g k hg hd
      obtain ⟨v, c, g', k', e, hg', hr⟩ := calcRadial_ok f m q.key q.tol q.screened k g hg
      obtain ⟨answers, g'', k'', e', hg'', hf⟩ := ih (done ++ [q]) (as ++ [(v, c)]) g' k' hg'
        (List.rel_append (R := fun (q : RadialRequest κ) (a : ℝ × Bool) => RadialResult (f q.key) m q.tol q.screened a.1 a.2)
          hd (List.Forall₂.cons hr List.Forall₂.nil))
      refine ⟨answers, g'', k'', ?_, hg'', ?_⟩
      · rw [List.foldlM_cons]
        dsimp only
        rw [e]
        exact e'
      · rw [List.append_assoc] at hf; exact hf
  obtain ⟨answers, g', k', e, hg', hf⟩ := gen reqs [] [] g 0 hg List.Forall₂.nil
  exact ⟨answers, g', k', e, hg', hf⟩

theorem serve_one {κ : Type} {f : κ → ℝ → ℝ} {m : Nat} {q : RadialRequest κ} {g0 g : RGrid κ} {v : ℝ} {c : Bool}
    (eg : createGrid f m = .ok g0) (ec : calcRadial f m q.key q.tol q.screened g0 = .ok (v, c, g)) :
    serve f m [q] = .ok ([] ++ [(v, c)], g) := by
  unfold serve
  rw [eg, Outcome.ok_bind, List.foldlM_cons]
  dsimp only
  rw [ec]; rfl

/-- C48. Any sequence of requests on one shared grid is served without an access outside the arrays; every answer that is
not the screened value is the full quadrature sum on a grid with `2^k (m+1) - 1` points, which fits into the arrays; and the
grid never holds more points than the arrays have room for. -/
theorem radial_answers_are_full_quadratures {κ : Type} (f : κ → ℝ → ℝ) (m : Nat) (hm : m ≤ maxGrid)
    (reqs : List (RadialRequest κ)) :
    ∃ answers g, serve f m reqs = .ok (answers, g) ∧ answers.length = reqs.length ∧ g.nr ≤ maxGrid ∧
      ∀ (i : Nat) (q : RadialRequest κ) (v : ℝ) (c : Bool), reqs[i]? = some q → answers[i]? = some (v, c) →
        (∃ x, q.screened = some x ∧ |x| < q.tol ∧ v = x) ∨
        ∃ k, 2 ^ k * (m + 1) - 1 ≤ maxGrid ∧
          v = ∑ j ∈ Finset.range (2 ^ k * (m + 1) - 1),
            gridW (2 ^ k * (m + 1) - 1) (j + 1) * f q.key (gridR (2 ^ k * (m + 1) - 1) (j + 1)) := by
  obtain ⟨answers, g, k, e, hg, hf⟩ := serve_ok f m hm reqs
  refine ⟨answers, g, e, hf.length_eq.symm, by rw [hg.1]; exact hg.2.1, ?_⟩
  intro i q v c hq ha
  have hlen := hf.length_eq
  have hi : i < reqs.length := by
    by_contra hc
    rw [List.getElem?_eq_none (by omega)] at hq; cases hq
  have hr := (List.forall₂_iff_get.1 hf).2 i hi (hlen ▸ hi)
  have e1 : reqs.get ⟨i, hi⟩ = q := by
    rw [List.getElem?_eq_getElem hi] at hq; exact Option.some.inj hq
  have e2 : answers.get ⟨i, hlen ▸ hi⟩ = (v, c) := by
    rw [List.getElem?_eq_getElem (hlen ▸ hi)] at ha; exact Option.some.inj ha
  rw [e1, e2] at hr
  rcases hr.cases with ⟨x, h1, h2, h3, _⟩ | ⟨_, k', h1, h2, _⟩
  · exact Or.inl ⟨x, h1, h2, h3⟩
  · exact Or.inr ⟨k', h2, h1⟩

/-- C48. The answer to a request does not depend on which requests were served before on the same grid. -/
theorem radial_answer_history_independent {κ : Type} (f : κ → ℝ → ℝ) (m : Nat) (hm : m ≤ maxGrid)
    (before before' : List (RadialRequest κ)) (q : RadialRequest κ) :
    ∃ as as' a g g', serve f m (before ++ [q]) = .ok (as ++ [a], g) ∧ serve f m (before' ++ [q]) = .ok (as' ++ [a], g') := by
  have key : ∀ b : List (RadialRequest κ), ∃ as a g, serve f m (b ++ [q]) = .ok (as ++ [a], g) ∧
      RadialResult (f q.key) m q.tol q.screened a.1 a.2 := by
    intro b
    obtain ⟨answers, g, k, e, hg, hf⟩ := serve_ok f m hm (b ++ [q])
    have hlen := hf.length_eq
    rcases List.eq_nil_or_concat answers with rfl | ⟨as, a, rfl⟩
    · simp at hlen
    · rw [List.concat_eq_append] at *
      refine ⟨as, a, g, e, ?_⟩
      have hlen' : b.length = as.length := by simpa using hlen
      have := (List.forall₂_iff_get.1 hf).2 b.length (by simp) (by simp [hlen'])
      simpa [hlen'] using this
  obtain ⟨as, a, g, e, hr⟩ := key before
  obtain ⟨as', a', g', e', hr'⟩ := key before'
  have := hr.unique hr'
  have : a = a' := Prod.ext this.1 this.2
  subst this
  exact ⟨as, as', a, g, g', e, e'⟩

/-- C49. The adaptive integration returns for every integrand, tolerance and state of the grid. It reports convergence only
if the screening estimate is below the tolerance (then it returns this estimate), or if the last two refinements differ
by at most the tolerance and the last one is not below a thousandth of the screening estimate; otherwise it reports failure
and returns the sum on the finest grid that fits. -/
theorem radial_terminates_with_verdict {κ : Type} (f : κ → ℝ → ℝ) (m : Nat) (hm : m ≤ maxGrid)
    (before : List (RadialRequest κ)) (q : RadialRequest κ) :
    ∃ as v c g, serve f m (before ++ [q]) = .ok (as ++ [(v, c)], g) ∧
      (c = true → (∃ x, q.screened = some x ∧ |x| < q.tol ∧ v = x) ∨
        ∃ k, 0 < k ∧ v = fullQuad (f q.key) (levelSize m k) ∧ levelSize m k ≤ maxGrid ∧
          |fullQuad (f q.key) (levelSize m k) - fullQuad (f q.key) (levelSize m (k - 1))| ≤ q.tol ∧
          ∀ x, q.screened = some x → 0.001 ≤ |v| / |x|) ∧
      (c = false → ∃ k, v = fullQuad (f q.key) (levelSize m k) ∧ levelSize m k ≤ maxGrid ∧ maxGrid < levelSize m (k + 1)) := by
  obtain ⟨answers, g, k, e, hg, hf⟩ := serve_ok f m hm (before ++ [q])
  have hlen := hf.length_eq
  rcases List.eq_nil_or_concat answers with rfl | ⟨as, ⟨v, c⟩, rfl⟩
  · simp at hlen
  · rw [List.concat_eq_append] at *
    have hlen' : before.length = as.length := by simpa using hlen
    have hr := (List.forall₂_iff_get.1 hf).2 before.length (by simp) (by simp [hlen'])
    simp [hlen'] at hr
    refine ⟨as, v, c, g, e, fun hc => ?_, fun hc => ?_⟩
    · rcases hr.cases with ⟨x, h1, h2, h3, _⟩ | ⟨_, k', h1, h2, _, h4, _⟩
      · exact Or.inl ⟨x, h1, h2, h3⟩
      · refine Or.inr ⟨k', (h4 hc).1, h1, h2, (h4 hc).2.2, fun x hx => ?_⟩
        have := (h4 hc).2.1 x hx
        rw [h1]; exact not_lt.1 this
    · rcases hr.cases with ⟨x, h1, h2, h3, h4⟩ | ⟨_, k', h1, h2, _, _, h5⟩
      · rw [h4] at hc; exact Bool.noConfusion hc
      · exact ⟨k', h1, h2, (h5 hc).1⟩

/-- The finest grids: type 1 refines 2047 points twice, type 2 refines 31 points eight times; both end at 8191 points. -/
theorem radial_finest_grid : levelSize 2047 2 = 8191 ∧ levelSize 31 8 = 8191 ∧
    maxGrid < levelSize 2047 3 ∧ maxGrid < levelSize 31 9 := by
  norm_num [levelSize, maxGrid]

/-- Two requests on one grid; the second one finds the grid already expanded by the first. -/
example (f : Bool → ℝ → ℝ) : ∃ as a g, serve f 31 [⟨true, -1, none⟩, ⟨false, 1e-16, none⟩] = .ok (as ++ [a], g) ∧
    ∃ as' g', serve f 31 [⟨false, 1e-16, none⟩] = .ok (as' ++ [a], g') := by
  obtain ⟨as, as', a, g, g', h, h'⟩ := radial_answer_history_independent f 31 (by norm_num [maxGrid])
    [⟨true, -1, none⟩] [] ⟨false, 1e-16, none⟩
  exact ⟨as, a, g, h, as', g', h'⟩

/-! ## C62: the quadrature is consistent -/

/-- C62. The quadrature sums converge to the radial integral as the grid is refined, in particular along the refinements
`2^k (m+1) - 1`. -/
theorem radial_quadrature_converges {F : ℝ → ℝ} {a : ℝ} (h1 : ContinuousOn (fun r => r ^ 2 * F r) (Ioi 0))
    (h2 : Tendsto (fun r => r ^ 2 * F r) (𝓝[>] 0) (𝓝 a))
    (h3 : Tendsto (fun r => r ^ 2 * F r * Real.exp (r / 5)) atTop (𝓝 0)) (m : Nat) :
    Tendsto (fun N => ∑ i ∈ Finset.range N, gridW N (i + 1) * F (gridR N (i + 1))) atTop
        (𝓝 (∫ r in Ioi (0:ℝ), r ^ 2 * F r)) ∧
    Tendsto (fun k => ∑ i ∈ Finset.range (levelSize m k), gridW (levelSize m k) (i + 1) * F (gridR (levelSize m k) (i + 1)))
      atTop (𝓝 (∫ r in Ioi (0:ℝ), r ^ 2 * F r)) := by
  refine ⟨quad_tendsto h1 h2 h3, (quad_tendsto h1 h2 h3).comp ?_⟩
  refine tendsto_atTop_mono (f := fun k => k) (fun k => ?_) tendsto_id
  induction k with
  | zero => exact Nat.zero_le _
  | succ k ih => show k + 1 ≤ _; rw [levelSize_succ]; have : k ≤ levelSize m k := ih; omega

/-- The hypotheses hold for a Gaussian times the singular potential `r^-2`. -/
example : Tendsto (fun N => ∑ i ∈ Finset.range N, gridW N (i + 1) * ((gridR N (i + 1)) ^ (-2 : ℤ) *
    Real.exp (-(gridR N (i + 1)) ^ 2))) atTop
    (𝓝 (∫ r in Ioi (0:ℝ), r ^ 2 * (r ^ (-2 : ℤ) * Real.exp (-r ^ 2)))) := by
  have hpos : ∀ r : ℝ, 0 < r → r ^ 2 * (r ^ (-2 : ℤ) * Real.exp (-r ^ 2)) = Real.exp (-r ^ 2) := by
    intro r hr
    rw [zpow_neg]
    have : r ^ 2 ≠ 0 := by positivity
    rw [show r ^ (2:ℤ) = r ^ 2 by norm_cast, ← mul_assoc, mul_inv_cancel₀ this, one_mul]
  refine (radial_quadrature_converges (F := fun r => r ^ (-2 : ℤ) * Real.exp (-r ^ 2)) (a := 1) ?_ ?_ ?_ 31).1
  · refine ContinuousOn.congr (f := fun r => Real.exp (-r ^ 2)) (by fun_prop) ?_
    intro r hr; exact hpos r hr
  · have : Tendsto (fun r : ℝ => Real.exp (-r ^ 2)) (𝓝[>] 0) (𝓝 1) := by
      have hc : Continuous (fun r : ℝ => Real.exp (-r ^ 2)) := by fun_prop
      have := hc.tendsto 0
      norm_num at this
      exact this.mono_left nhdsWithin_le_nhds
    refine this.congr' ?_
    filter_upwards [self_mem_nhdsWithin] with r hr using (hpos r hr).symm
  · have : Tendsto (fun r : ℝ => Real.exp (-r)) atTop (𝓝 0) := Real.tendsto_exp_neg_atTop_nhds_zero
    refine squeeze_zero' ?_ ?_ this
    · filter_upwards [eventually_gt_atTop 0] with r hr
      rw [hpos r hr]; positivity
    · filter_upwards [eventually_gt_atTop 2] with r hr
      rw [hpos r (by linarith), ← Real.exp_add]
      exact Real.exp_le_exp.2 (by nlinarith)

/-! ## C61: radial tables -/

/-- C61, type 2: every look-up in range returns the adaptive integral for its own indices. -/
theorem radial_type2_table {G : Type} (p : LibParams G) (f : Nat × Nat × Nat → ℝ → ℝ)
    (screen : Nat × Nat × Nat → Option ℝ) (l1max l2max nmax : Nat) :
    ∃ t, tabulateType2 p f screen l1max l2max nmax = .ok t ∧
      ∀ l1 l2 n, l1 ≤ l1max → l2 ≤ l2max → n ≤ nmax →
        ∃ g as v c, serve f 31 [⟨(n, l1, l2), 1e-16, screen (n, l1, l2)⟩] = .ok (as ++ [(v, c)], g) ∧
          getType2 l2max nmax t l1 l2 n = .ok v := by
  have hm : 31 ≤ maxGrid := by norm_num [maxGrid]
  obtain ⟨t, e, h⟩ := tabulateType2_ok p f screen l1max l2max nmax
  refine ⟨t, e, fun l1 l2 n h1 h2 h3 => ?_⟩
  obtain ⟨g0, eg, hg⟩ := createGrid_ok f 31 hm
  obtain ⟨c, g', k', ec, _, _⟩ := calcRadial_value f 31 hm (n, l1, l2) 1e-16 (screen (n, l1, l2)) 0 g0 hg
  refine ⟨g', [], radialValue f 31 1e-16 (screen (n, l1, l2)) (n, l1, l2), c, ?_, ?_⟩
  · exact serve_one eg ec
  · unfold getType2 rd
    rw [h l1 l2 n h1 h2 h3]

/-- C61, type 1, for equal limits `lambda_max = n_max` (the only call, type1_integrals.c:182-193). -/
theorem radial_type1_table_partial {G : Type} (p : LibParams G) (f : Nat × Nat → ℝ → ℝ) (lmax : Nat) :
    ∃ t, tabulateType1 p f lmax lmax = .ok t ∧
      ∀ lam n, lam ≤ lmax → n ≤ lmax →
        ∃ g as v c, serve f 2047 [⟨(n, lam), p.radial, none⟩] = .ok (as ++ [(v, c)], g) ∧
          getType1 lmax t lam n = .ok v := by
  have hm : 2047 ≤ maxGrid := by norm_num [maxGrid]
  obtain ⟨t, e, _, h⟩ := tabulateType1_ok p f lmax
  refine ⟨t, e, fun lam n h1 h2 => ?_⟩
  obtain ⟨g0, eg, hg⟩ := createGrid_ok f 2047 hm
  obtain ⟨c, g', k', ec, _, _⟩ := calcRadial_value f 2047 hm (n, lam) p.radial none 0 g0 hg
  refine ⟨g', [], radialValue f 2047 p.radial none (n, lam), c, ?_, ?_⟩
  · exact serve_one eg ec
  · unfold getType1 rd
    rw [h lam n h1 h2]

/-- C61 is false for type 1 in general: with `lambda_max = 1`, `n_max = 2` the entry for `lambda = 0`, `N = 2` is
overwritten by the integral for `lambda = 1`, `N = 0`, whatever the integrands. -/
theorem radial_type1_table_collision {G : Type} (p : LibParams G) (f : Nat × Nat → ℝ → ℝ) :
    ∃ t, tabulateType1 p f 1 2 = .ok t ∧ getType1 1 t 0 2 = getType1 1 t 1 0 ∧
      ∃ g as v c, serve f 2047 [⟨(0, 1), p.radial, none⟩] = .ok (as ++ [(v, c)], g) ∧ getType1 1 t 0 2 = .ok v := by
  have hm : 2047 ≤ maxGrid := by norm_num [maxGrid]
  obtain ⟨g0, eg, hg⟩ := createGrid_ok f 2047 hm
  obtain ⟨t1, g1, k1, e1, a1, a2, a3, a4⟩ := store_row f 2047 hm p.radial (fun _ => none) (fun n => (n, 0)) 0 3
    (List.replicate 6 (0:ℝ)) 0 g0 hg (by simp)
  have hl1 : t1.length = 6 := by rw [a2]; simp
  obtain ⟨t2, g2, k2, e2, b1, b2, b3, b4⟩ := store_row f 2047 hm p.radial (fun _ => none) (fun n => (n, 1)) 2 3
    t1 k1 g1 a1 (by omega)
  have ht : tabulateType1 p f 1 2 = .ok t2 := by
    unfold tabulateType1
    rw [eg, Outcome.ok_bind]
    have : ∀ (body : Nat → List ℝ × RGrid (Nat × Nat) → Outcome (List ℝ × RGrid (Nat × Nat))) s,
        forRange (1 + 1) s body = (body 0 s >>= body 1) := by
      intro body s
      rw [forRange_succ, show (1:Nat) = 0 + 1 from rfl, forRange_succ, forRange_zero]; rfl
    rw [this]
    have e1' := e1
    have e2' := e2
    simp only [Nat.zero_mul, Nat.one_mul] at *
    rw [e1', Outcome.ok_bind]
    rw [show (1 + 1 : Nat) = 2 from rfl, e2']; rfl
  refine ⟨t2, ht, rfl, ?_⟩
  obtain ⟨c, g', k', ec, _, _⟩ := calcRadial_value f 2047 hm (0, 1) p.radial none 0 g0 hg
  refine ⟨g', [], radialValue f 2047 p.radial none (0, 1), c, ?_, ?_⟩
  · exact serve_one eg ec
  · unfold getType1 rd
    have := b3 0 (by omega)
    simp only [Nat.add_zero] at this
    simp only [Nat.zero_mul, Nat.zero_add]
    rw [this]

/-- C61 is false for type 1 in general: with `n_max < lambda_max` the last row is stored outside the table. -/
theorem radial_type1_table_overflow {G : Type} (p : LibParams G) (f : Nat × Nat → ℝ → ℝ) :
    tabulateType1 p f 1 0 = .ub := by
  have hm : 2047 ≤ maxGrid := by norm_num [maxGrid]
  obtain ⟨g0, eg, hg⟩ := createGrid_ok f 2047 hm
  unfold tabulateType1
  rw [eg, Outcome.ok_bind]
  obtain ⟨c, g1, k1, e1, h1, _⟩ := calcRadial_value f 2047 hm (0, 0) p.radial none 0 g0 hg
  obtain ⟨c', g2, k2, e2, h2, _⟩ := calcRadial_value f 2047 hm (0, 1) p.radial none k1 g1 h1
  simp only [forRange_succ, forRange_zero, Outcome.ok_bind]
  rw [e1, Outcome.ok_bind, wr_ok _ (by simp), Outcome.ok_bind, Outcome.ok_bind]
  rw [e2, Outcome.ok_bind, wr_ub _ (by simp)]
  rfl

/-! ## C40: parameters -/

/-- What a setter call sets the radial tolerance to. -/
noncomputable def ParamCall.radialEffect : ParamCall → Option ℝ
  | .setDefault => some 1e-16
  | .radial x => some x
  | _ => none

/-- What a setter call sets the angular screening tolerance to. -/
noncomputable def ParamCall.angularEffect : ParamCall → Option ℝ
  | .setDefault => some 1e-16
  | .angular x => some x
  | _ => none

/-- What a setter call sets the Bessel tolerance to. -/
noncomputable def ParamCall.besselEffect : ParamCall → Option ℝ
  | .setDefault => some 1e-16
  | .bessel x => some x
  | _ => none

/-- What a setter call sets the generator to. -/
noncomputable def ParamCall.generatorEffect : ParamCall → Option (Nat → List Comp)
  | .setDefault => some cartesianDirac
  | .order o => some (if o = 0 then cartesianDirac else cartesianTurbomole)
  | .generator g => some g
  | _ => none

/-- C40. After any sequence of setter calls (with documented order codes) every parameter has the value of the last call
that sets it, or its initial value. -/
theorem params_last_write_wins (p : Params) (cs : List ParamCall) (hcs : ∀ o, .order o ∈ cs → o = 0 ∨ o = 1) :
    ∃ q, runParams p cs = .ok q ∧
      q.radial = ((cs.filterMap ParamCall.radialEffect).getLast?).getD p.radial ∧
      q.angular = ((cs.filterMap ParamCall.angularEffect).getLast?).getD p.angular ∧
      q.bessel = ((cs.filterMap ParamCall.besselEffect).getLast?).getD p.bessel ∧
      q.generator = ((cs.filterMap ParamCall.generatorEffect).getLast?).getD p.generator := by
  induction cs generalizing p with
  | nil => exact ⟨p, rfl, rfl, rfl, rfl, rfl⟩
  | cons c cs ih =>
    have hstep : ∃ p', applyParam p c = .ok p' ∧ p'.radial = (c.radialEffect).getD p.radial ∧
        p'.angular = (c.angularEffect).getD p.angular ∧ p'.bessel = (c.besselEffect).getD p.bessel ∧
        p'.generator = (c.generatorEffect).getD p.generator := by
      cases c with
      | order o =>
        have ho := hcs o List.mem_cons_self
        simp only [applyParam]
        rw [Outcome.assert_pos ho, Outcome.ok_bind]
        rcases ho with rfl | rfl
        · exact ⟨_, rfl, rfl, rfl, rfl, rfl⟩
        · exact ⟨_, rfl, rfl, rfl, rfl, rfl⟩
      | _ => exact ⟨_, rfl, rfl, rfl, rfl, rfl⟩
    obtain ⟨p', e, h1, h2, h3, h4⟩ := hstep
    obtain ⟨q, eq, q1, q2, q3, q4⟩ := ih p' (fun o ho => hcs o (List.mem_cons_of_mem _ ho))
    have last : ∀ {α : Type} (eff : ParamCall → Option α) (d : α),
        (((c :: cs).filterMap eff).getLast?).getD d = ((cs.filterMap eff).getLast?).getD ((eff c).getD d) := by
      intro α eff d
      rw [List.filterMap_cons]
      cases eff c with
      | none => rfl
      | some x =>
        dsimp only
        rw [List.getLast?_cons]
        cases (cs.filterMap eff).getLast? <;> rfl
    refine ⟨q, ?_, ?_, ?_, ?_, ?_⟩
    · unfold runParams
      rw [List.foldlM_cons, e, Outcome.ok_bind]
      exact eq
    · rw [last, q1, h1]
    · rw [last, q2, h2]
    · rw [last, q3, h3]
    · rw [last, q4, h4]

/-- C40. An undocumented order code aborts. -/
theorem params_bad_order_aborts (p : Params) (cs rest : List ParamCall) (hcs : ∀ o, .order o ∈ cs → o = 0 ∨ o = 1)
    (o : Int) (h0 : o ≠ 0) (h1 : o ≠ 1) : runParams p (cs ++ .order o :: rest) = .abort := by
  obtain ⟨q, e, _⟩ := params_last_write_wins p cs hcs
  unfold runParams at *
  rw [List.foldlM_append, e, Outcome.ok_bind, List.foldlM_cons]
  simp only [applyParam]
  rw [Outcome.assert_neg (by omega)]; rfl

/-- C40. Shells made after `libgrpp_set_cartesian_order` use the chosen order. -/
theorem params_order_used_by_new_shells (p : Params) (cs : List ParamCall)
    (hcs : ∀ o, .order o ∈ cs → o = 0 ∨ o = 1) (o : Int) (ho : o = 0 ∨ o = 1) (origin : Point) (L num : Nat)
    (coeffs alpha : List ℝ) (hc : num ≤ coeffs.length) (ha : num ≤ alpha.length) :
    ∃ q s, runParams p (cs ++ [.order o]) = .ok q ∧ newShellP q origin L num coeffs alpha = .ok s ∧
      s.cartList = if o = 0 then cartesianDirac L else cartesianTurbomole L := by
  obtain ⟨q, e, _, _, _, hg⟩ := params_last_write_wins p (cs ++ [.order o]) (by
    intro o' h
    rcases List.mem_append.1 h with h | h
    · exact hcs o' h
    · simp at h; rw [h]; exact ho)
  simp only [List.filterMap_append] at hg
  have hg' : q.generator = if o = 0 then cartesianDirac else cartesianTurbomole := by
    rw [hg]; simp [ParamCall.generatorEffect]
  obtain ⟨st, hst⟩ : ∃ st, copyPrims num coeffs alpha = .ok st := by
    unfold copyPrims
    obtain ⟨st, e, _⟩ := forRange_inv (n := num) (s := (List.replicate num (0:ℝ), List.replicate num (0:ℝ)))
      (body := fun i (s : List ℝ × List ℝ) => do
        let c ← rd coeffs i
        let cs ← wr s.1 i c
        let a ← rd alpha i
        let as ← wr s.2 i a
        Outcome.ok (cs, as))
      (fun _ s => s.1.length = num ∧ s.2.length = num) (by simp) (by
        rintro i ⟨x, y⟩ hi ⟨hx, hy⟩
        have hx : x.length = num := hx
        have hy : y.length = num := hy
        refine ⟨(x.set i coeffs[i], y.set i alpha[i]), ?_, by simp [hx], by simp [hy]⟩
        dsimp only
        rw [rd_ok (by omega), Outcome.ok_bind, wr_ok _ (by omega), Outcome.ok_bind, rd_ok (by omega), Outcome.ok_bind,
          wr_ok _ (by omega), Outcome.ok_bind])
    exact ⟨st, e⟩
  obtain ⟨s, es⟩ : ∃ s, newShellP q origin L num coeffs alpha = .ok s ∧ s.cartList = q.generator L := by
    unfold newShellP newShell
    rw [hst]; exact ⟨_, rfl, rfl⟩
  refine ⟨q, s, e, es.1, ?_⟩
  rw [es.2, hg']; split <;> rfl

/-- C40 is false: the tabulated radial integrals of type 2 (semilocal and spin-orbit integrals) are the same whatever
the radial tolerance, indeed whatever the parameters, are. -/
theorem type2_ignores_radial_tolerance (p q : Params) (f : Nat × Nat × Nat → ℝ → ℝ)
    (screen : Nat × Nat × Nat → Option ℝ) (l1max l2max nmax : Nat) :
    tabulateType2 p f screen l1max l2max nmax = tabulateType2 q f screen l1max l2max nmax := rfl

theorem gridR_ne {N i j : Nat} (hi : 0 < i) (hiN : i ≤ N) (hj : 0 < j) (hjN : j ≤ N) (h : i ≠ j) :
    gridR N i ≠ gridR N j := by
  have mem : ∀ k : Nat, 0 < k → k ≤ N → (k : ℝ) / (N + 1) ∈ Ioo (0:ℝ) 1 := by
    intro k hk hkN
    have hk' : (0:ℝ) < k := by exact_mod_cast hk
    have hN : (k : ℝ) < N + 1 := by exact_mod_cast Nat.lt_succ_of_le hkN
    exact ⟨by positivity, (div_lt_one (by positivity)).2 hN⟩
  have hr : ∀ k : Nat, gridR N k = phiMap ((k : ℝ) / (N + 1)) := by
    intro k
    simp only [gridR, gridLn, gridXi, phiMap]
    congr 3; ring
  rw [hr, hr]
  intro e
  have := phiMap_inj (mem i hi hiN) (mem j hj hjN) e
  have hn1 : (N : ℝ) + 1 ≠ 0 := by positivity
  rw [div_left_inj' hn1] at this
  exact h (by exact_mod_cast this)

theorem pulled_sq_pos {x : ℝ} (hx : x ∈ Ioo (0:ℝ) 1) : 0 < pulled (fun r => r ^ 2 * 1) x := by
  rw [pulled, if_pos hx]
  have hp := phiMap_pos hx
  have h3 : x ^ 3 < 1 := pow_lt_one₀ hx.1.le hx.2 (by norm_num)
  have : 0 < 1 - x ^ 3 := by linarith
  have := hx.1
  positivity

/-- C40. The radial tolerance does affect type 1: for some integrand the result with tolerance -1 differs from the one with
tolerance 1e9. -/
theorem type1_uses_radial_tolerance : ∃ (f : Nat × Nat → ℝ → ℝ) (p q : Params) (t t' : List ℝ),
    p.angular = q.angular ∧ p.bessel = q.bessel ∧ p.generator = q.generator ∧
    tabulateType1 p f 0 0 = .ok t ∧ tabulateType1 q f 0 0 = .ok t' ∧ t ≠ t' := by
  classical
  let F : ℝ → ℝ := fun r => if r = gridR 8191 1 then 1 else 0
  have hl0 : levelSize 2047 0 = 2047 := by norm_num [levelSize]
  have hl1 : levelSize 2047 1 = 4095 := by norm_num [levelSize]
  have hl2 : levelSize 2047 2 = 8191 := by norm_num [levelSize]
  have hl3 : levelSize 2047 3 = 16383 := by norm_num [levelSize]
  have q1 : fullQuad F 4095 = 0 := by
    refine Finset.sum_eq_zero fun i hi => ?_
    have hi' := Finset.mem_range.1 hi
    have : gridR 4095 (i + 1) = gridR 8191 (2 * (i + 1)) := (gridR_double 4095 (i + 1)).symm
    rw [this]
    have hne : gridR 8191 (2 * (i + 1)) ≠ gridR 8191 1 := gridR_ne (by omega) (by omega) (by omega) (by omega) (by omega)
    simp only [F, if_neg hne, mul_zero]
  have q0 : fullQuad F 2047 = 0 := by
    refine Finset.sum_eq_zero fun i hi => ?_
    have hi' := Finset.mem_range.1 hi
    have : gridR 2047 (i + 1) = gridR 8191 (2 * (2 * (i + 1))) := by
      rw [show (8191 : Nat) = 2 * 4095 + 1 from rfl, gridR_double, show (4095 : Nat) = 2 * 2047 + 1 from rfl, gridR_double]
    rw [this]
    have hne : gridR 8191 (2 * (2 * (i + 1))) ≠ gridR 8191 1 :=
      gridR_ne (by omega) (by omega) (by omega) (by omega) (by omega)
    simp only [F, if_neg hne, mul_zero]
  have q2 : fullQuad F 8191 ≠ 0 := by
    have : fullQuad F 8191 = gridW 8191 1 := by
      unfold fullQuad
      rw [Finset.sum_eq_single 0]
      · simp [F]
      · intro i hi hne
        have hi' := Finset.mem_range.1 hi
        have : gridR 8191 (i + 1) ≠ gridR 8191 1 := gridR_ne (by omega) (by omega) (by omega) (by omega) (by omega)
        simp only [F, if_neg this, mul_zero]
      · intro h; exact absurd (Finset.mem_range.2 (by omega)) h
    rw [this]
    have e := gridW_term (fun _ => 1) 8191 1 (by omega) (by omega)
    rw [mul_one] at e
    rw [e]
    have hx : ((1 : ℕ) : ℝ) / (((8191 : ℕ) : ℝ) + 1) ∈ Ioo (0:ℝ) 1 := by constructor <;> norm_num
    exact div_ne_zero (pulled_sq_pos hx).ne' (by norm_num)
  -- the two results
  have hm : 2047 ≤ maxGrid := by norm_num [maxGrid]
  have val : ∀ tol : ℝ, radialValue (fun _ : Nat × Nat => F) 2047 tol none (0, 0) =
      if |fullQuad F 4095 - fullQuad F 2047| ≤ tol then fullQuad F 4095 else fullQuad F 8191 := by
    intro tol
    obtain ⟨c, hr⟩ := radialValue_result (fun _ : Nat × Nat => F) 2047 hm tol none (0, 0)
    have acc1 : Accepts F 2047 tol none 1 ↔ |fullQuad F 4095 - fullQuad F 2047| ≤ tol := by
      unfold Accepts; rw [hl1, show 1 - 1 = 0 from rfl, hl0]
      exact ⟨fun h => h.2, fun h => ⟨fun x hx => (by cases hx), h⟩⟩
    rcases hr.cases with ⟨x, h, _⟩ | ⟨_, k, h1, h2, h3, h4, h5⟩
    · cases h
    · have hk : k ≤ 2 := by
        by_contra hc
        have := levelSize_mono 2047 (show 3 ≤ k by omega)
        rw [hl3] at this; simp only [maxGrid] at h2; omega
      rw [h1]
      have hmx : maxGrid = 10000 := rfl
      by_cases ha : |fullQuad F 4095 - fullQuad F 2047| ≤ tol
      · rw [if_pos ha]
        have : k = 1 := by
          rcases Nat.lt_or_ge 1 k with hlt | hge
          · exact absurd (acc1.2 ha) (h3 1 (by omega) hlt)
          · have : k = 0 ∨ k = 1 := by omega
            rcases this with rfl | rfl
            · cases c with
              | true => exact absurd (h4 rfl).1 (by omega)
              | false => have := (h5 rfl).1; rw [show 0 + 1 = 1 from rfl, hl1] at this; omega
            · rfl
        rw [this, hl1]
      · rw [if_neg ha]
        have : k = 2 := by
          have : k = 0 ∨ k = 1 ∨ k = 2 := by omega
          rcases this with rfl | rfl | rfl
          · cases c with
            | true => exact absurd (h4 rfl).1 (by omega)
            | false => have := (h5 rfl).1; rw [show 0 + 1 = 1 from rfl, hl1] at this; omega
          · cases c with
            | true => exact absurd (acc1.1 (h4 rfl).2) ha
            | false => have := (h5 rfl).1; rw [show 1 + 1 = 2 from rfl, hl2] at this; omega
          · rfl
        rw [this, hl2]
  obtain ⟨t, e, hlen, ht⟩ := tabulateType1_ok (⟨-1, 0, 0, cartesianDirac⟩ : Params) (fun _ => F) 0
  obtain ⟨t', e', hlen', ht'⟩ := tabulateType1_ok (⟨1e9, 0, 0, cartesianDirac⟩ : Params) (fun _ => F) 0
  refine ⟨fun _ => F, ⟨-1, 0, 0, cartesianDirac⟩, ⟨1e9, 0, 0, cartesianDirac⟩, t, t', rfl, rfl, rfl, e, e', ?_⟩
  intro heq
  have a := ht 0 0 le_rfl le_rfl
  have b := ht' 0 0 le_rfl le_rfl
  rw [heq, b] at a
  have := Option.some.inj a
  simp only [val, q1, q0] at this
  norm_num at this
  exact q2 this.symm

/-- **C40.** The parameters before the first call, and after `libgrpp_set_default_parameters` in any state: all tolerances `1e-16`, the
order of DIRAC. -/
theorem params_defaults (p : Params) : applyParam p .setDefault = .ok initialParams ∧ initialParams.radial = 1e-16 ∧
    initialParams.angular = 1e-16 ∧ initialParams.bessel = 1e-16 ∧ initialParams.generator = cartesianDirac :=
  ⟨rfl, rfl, rfl, rfl, rfl⟩

/-- Order 1, then a tolerance twice: the last values are in force. -/
example : ∃ q, runParams initialParams [.radial 1e-3, .order 1, .radial 1e-5] = .ok q ∧ q.radial = 1e-5 ∧
    q.generator = cartesianTurbomole ∧ q.bessel = 1e-16 := by
  obtain ⟨q, e, h1, h2, h3, h4⟩ := params_last_write_wins initialParams [.radial 1e-3, .order 1, .radial 1e-5]
    (by intro o ho; simp at ho; exact Or.inr ho)
  refine ⟨q, e, ?_, ?_, ?_⟩
  · exact h1
  · exact h4
  · exact h3

end Libgrpp
