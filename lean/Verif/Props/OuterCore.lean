import Verif.Lemmas.OuterCoreSpin
import Verif.Props.OverlapGradient

/-! # C51, C52, C81, C82: outer-core integrals -/

namespace Libgrpp

open MeasureTheory Set

theorem bindOrigin_eq (C : Point) (s : Shell) : bindOrigin C s = { s with origin := C } := by
  have : (![C 0, C 1, C 2] : Point) = C := by
    funext k
    fin_cases k <;> rfl
  unfold bindOrigin
  rw [this]

/-- **C81.** The outer-core integrals. There are numbers `κ_L`, which do not depend on the call and are within `3e-15` of `1`, such that for all
shells, centres and lists of outer-core potentials with their shells, of all `L ≤ 9` and `J = L ± 1/2`, the call succeeds and each element of the
scalar matrix and of the three spin-orbit matrices is the sum over the list of `U P + P U` minus the sum over all pairs of entries of
`κ_L P (U + U')/2 P'`. Nothing is left of what the matrices contained before, and nothing beyond the `A × B` elements is written.
The shells of the list are left with `C` as their centre. -/
theorem outer_core_correct : ∃ κ : ℕ → ℝ, (∀ L < 20, |κ L - 1| ≤ 3e-15) ∧ ∀ (gen : Nat → List Comp), DocumentedOrder gen →
    ∀ (sf : SpecFun) (A B : Shell), A.Supported → B.Supported → ∀ (C : Point) (oc : List (Potential × Shell)),
    (∀ e ∈ oc, OcReady gen sf A B C e.1 e.2) → ∀ (out : Fin 4 → List ℝ), (∀ q, A.cart_size * B.cart_size ≤ (out q).length) →
    ∃ out', outerCore sf true A B C oc out = .ok (oc.map fun e => (e.1, { e.2 with origin := C }), out') ∧
      ∀ q, SameBeyond (A.cart_size * B.cart_size) (out' q) (out q) ∧ ∀ i j, i < A.cart_size → j < B.cart_size →
        (out' q)[i * B.cart_size + j]? = some (
          ∑ a : Fin oc.length, ocOne A B (dropTiny A) (dropTiny B) C oc[a].1 oc[a].2 (dropTiny oc[a].2) q i j -
          ∑ a : Fin oc.length, ∑ b : Fin oc.length, κ oc[a].2.L * ocTwo A B C oc[a].1 oc[a].2 oc[b].1 oc[b].2 q i j) := by
  refine ⟨gtoErr, fun L hL => gtoErr_bound hL, fun gen hg sf A B sA sB C oc hoc out hout => ?_⟩
  obtain ⟨out', h1, h2⟩ := outerCore_run hg sf A B sA sB C oc hoc out hout
  simp only [bindOrigin_eq] at h1
  exact ⟨out', h1, fun q => ⟨(h2 q).1, (h2 q).2.val⟩⟩

/-- No coefficient is between `0` and `1e-14` in absolute value. -/
def Shell.NoTiny (s : Shell) : Prop := ∀ i < s.num, |s.coeffs.getD i 0| < 1e-14 → s.coeffs.getD i 0 = 0

theorem ocFn_dropTiny {s : Shell} (h : s.NoTiny) (C : Point) (mi : ℕ) : ocFn (dropTiny s) C mi = ocFn s C mi := by
  have e : ocRadial (dropTiny s) = ocRadial s := by
    funext r
    unfold ocRadial
    refine Finset.sum_congr rfl fun i hi => ?_
    have e : (dropTiny s).coeffs.getD i 0 = s.coeffs.getD i 0 := by
      have := dropTiny_coeffAt s i
      unfold Shell.coeffAt at this
      rw [this]
      split_ifs with h'
      · exact (h i (Finset.mem_range.1 hi) h').symm
      · rfl
    rw [e]
    rfl
  funext x
  unfold ocFn
  rw [e]
  rfl

/-- **C81.** Without tiny contraction coefficients the potentials are taken between the functions of the shells as given. -/
theorem outer_core_nothing_dropped (A B : Shell) (C : Point) (p : Potential) (s : Shell) (hA : A.NoTiny) (hB : B.NoTiny) (hs : s.NoTiny) (q : Fin 4)
    (i j : ℕ) : ocOne A B (dropTiny A) (dropTiny B) C p s (dropTiny s) q i j = ocOne A B A B C p s s q i j := by
  have e : ∀ {S : Shell}, S.NoTiny → ocPotential (dropTiny S) C p (dropTiny s) = ocPotential S C p s := by
    intro S hS
    funext m mi
    unfold ocPotential
    rw [dropTiny_same S hS, ocFn_dropTiny hs]
  unfold ocOne
  rw [e hA, e hB]

/-- **C81.** The four matrices combined with spin: the matrix elements of `Σ (U P_nlj + P_nlj U) - Σ P_nlj (U + U')/2 P_n'lj` with projectors on the
spinors with total angular momentum `j` (see `outer_core_projectors`), up to the factors `κ_L`. -/
theorem outer_core_spinor : ∃ κ : ℕ → ℝ, (∀ L < 20, |κ L - 1| ≤ 3e-15) ∧ ∀ (gen : Nat → List Comp), DocumentedOrder gen →
    ∀ (sf : SpecFun) (A B : Shell), A.Supported → B.Supported → A.NoTiny → B.NoTiny → ∀ (C : Point) (oc : List (Potential × Shell)),
    (∀ e ∈ oc, OcReady gen sf A B C e.1 e.2 ∧ e.2.NoTiny) → ∀ (out : Fin 4 → List ℝ), (∀ q, A.cart_size * B.cart_size ≤ (out q).length) →
    ∃ oc' out', outerCore sf true A B C oc out = .ok (oc', out') ∧ ∀ i j, i < A.cart_size → j < B.cart_size → ∀ σ τ : Fin 2,
      withSpin (fun q => (out' q).getD (i * B.cart_size + j) 0) σ τ =
        ∑ a : Fin oc.length, (spinSandwich oc[a].2.L oc[a].1.J (ocPotential A C oc[a].1 oc[a].2 i) (ocOverlap B C oc[a].2 j) σ τ +
          spinSandwich oc[a].2.L oc[a].1.J (ocOverlap A C oc[a].2 i) (ocPotential B C oc[a].1 oc[a].2 j) σ τ) -
        ∑ a : Fin oc.length, ∑ b : Fin oc.length, if oc[a].1.L = oc[b].1.L ∧ oc[a].1.J = oc[b].1.J then
          (κ oc[a].2.L * ocDelta oc[a].1 oc[a].2 oc[b].1 oc[b].2 : ℝ) *
            spinSandwich oc[a].2.L oc[a].1.J (ocOverlap A C oc[a].2 i) (ocOverlap B C oc[b].2 j) σ τ else 0 := by
  obtain ⟨κ, hκ, H⟩ := outer_core_correct
  refine ⟨κ, hκ, fun gen hg sf A B sA sB nA nB C oc hoc out hout => ?_⟩
  obtain ⟨out', h1, h2⟩ := H gen hg sf A B sA sB C oc (fun e he => (hoc e he).1) out hout
  refine ⟨_, out', h1, fun i j hi hj σ τ => ?_⟩
  have add : ∀ v w : Fin 4 → ℝ, withSpin (fun q => v q + w q) σ τ = withSpin v σ τ + withSpin w σ τ := by
    intro v w
    unfold withSpin
    rw [Fin.sum_univ_three, Fin.sum_univ_three, Fin.sum_univ_three]
    by_cases h : σ = τ <;> simp only [h, if_true, if_false] <;> push_cast <;> ring
  have sm : ∀ (x : ℝ) (v : Fin 4 → ℝ), withSpin (fun q => x * v q) σ τ = x * withSpin v σ τ := by
    intro x v
    unfold withSpin
    rw [Fin.sum_univ_three, Fin.sum_univ_three]
    by_cases h : σ = τ <;> simp only [h, if_true, if_false] <;> push_cast <;> ring
  have zero : withSpin (fun _ => 0) σ τ = 0 := by unfold withSpin; simp
  have sum : ∀ (f : Fin oc.length → Fin 4 → ℝ), withSpin (fun q => ∑ a, f a q) σ τ = ∑ a, withSpin (f a) σ τ := by
    intro f
    induction (Finset.univ : Finset (Fin oc.length)) using Finset.induction_on with
    | empty => simpa using zero
    | insert a s ha ih =>
      rw [Finset.sum_insert ha, ← ih, ← add]
      congr 1
      funext q
      rw [Finset.sum_insert ha]
  have e : (fun q => (out' q).getD (i * B.cart_size + j) 0) = fun q =>
      ∑ a : Fin oc.length, ocOne A B A B C oc[a].1 oc[a].2 oc[a].2 q i j +
      (-1) * ∑ a : Fin oc.length, ∑ b : Fin oc.length, κ oc[a].2.L * ocTwo A B C oc[a].1 oc[a].2 oc[b].1 oc[b].2 q i j := by
    funext q
    rw [List.getD_eq_getElem?_getD, (h2 q).2 i j hi hj, Option.getD_some, sub_eq_add_neg, neg_one_mul]
    congr 1
    refine Finset.sum_congr rfl fun a _ => ?_
    exact outer_core_nothing_dropped A B C _ _ nA nB (hoc _ (List.getElem_mem a.2)).2 q i j
  rw [e, add, sum, sm, sum, sub_eq_add_neg, Complex.ofReal_neg, Complex.ofReal_one, neg_one_mul]
  congr 1
  · refine Finset.sum_congr rfl fun a _ => ?_
    unfold ocOne
    simp only [mul_add]
    rw [add, withSpin_sandwich, withSpin_sandwich]
  · congr 1
    refine Finset.sum_congr rfl fun a _ => ?_
    rw [sum]
    refine Finset.sum_congr rfl fun b _ => ?_
    unfold ocTwo
    by_cases h : oc[a].1.L = oc[b].1.L ∧ oc[a].1.J = oc[b].1.J
    · simp only [if_pos h, mul_assoc]
      rw [← withSpin_sandwich, sm, sm]
      push_cast
      ring
    · simp only [if_neg h, mul_zero]
      exact zero

/-- **C51.** With the weights used for `J = L ∓ 1/2`, the scalar and spin-orbit parts make up the Hermitian projectors on the spinors with total
angular momentum `j = J2/2`, and the two projectors for each `L` add up to one: the scalar weights add to one, the spin-orbit weights cancel. -/
theorem outer_core_projectors (L : ℕ) :
    (∀ J2 : ℤ, J2 = 2 * L - 1 ∨ J2 = 2 * L + 1 →
      arepFactor L J2 = spinorWeight L J2 0 ∧ (∀ c : Fin 3, esopFactor L J2 = spinorWeight L J2 c.succ) ∧
      (spinorProjector L J2).conjTranspose = spinorProjector L J2 ∧ spinorProjector L J2 * spinorProjector L J2 = spinorProjector L J2 ∧
      (totalJ L 0 * totalJ L 0 + totalJ L 1 * totalJ L 1 + totalJ L 2 * totalJ L 2) * spinorProjector L J2 =
        ((J2 : ℂ) / 2 * (J2 / 2 + 1)) • spinorProjector L J2) ∧
    spinorProjector L (2 * L - 1) + spinorProjector L (2 * L + 1) = 1 ∧
    arepFactor L (2 * L - 1) + arepFactor L (2 * L + 1) = 1 ∧ esopFactor L (2 * L - 1) + esopFactor L (2 * L + 1) = 0 := by
  have hw : ∀ J2 : ℤ, J2 = 2 * L - 1 ∨ J2 = 2 * L + 1 → arepFactor L J2 = spinorWeight L J2 0 ∧ ∀ c : Fin 3, esopFactor L J2 = spinorWeight L J2 c.succ :=
    fun J2 h => ⟨ocFactor_eq h 0, fun c => ocFactor_eq h c.succ⟩
  have hp : (2 * (L:ℝ) + 1) ≠ 0 := by positivity
  refine ⟨fun J2 h => ⟨(hw J2 h).1, (hw J2 h).2, spinorProjector_algebra L h⟩, spinorProjector_add L, ?_, ?_⟩
  · rw [(hw _ (Or.inl rfl)).1, (hw _ (Or.inr rfl)).1]
    unfold spinorWeight
    rw [if_pos rfl, if_pos rfl]
    push_cast
    field_simp
    ring
  · rw [(hw _ (Or.inl rfl)).2 0, (hw _ (Or.inr rfl)).2 0]
    unfold spinorWeight
    rw [if_neg (Fin.succ_ne_zero 0), if_neg (Fin.succ_ne_zero 0)]
    push_cast
    field_simp
    ring

/-- **C51.** Entries with different `L` or different `J` give no cross term, whatever the potentials and shells. -/
theorem outer_core_cross_terms (A B : Shell) (C : Point) (p1 : Potential) (s1 : Shell) (p2 : Potential) (s2 : Shell) (h : p1.L ≠ p2.L ∨ p1.J ≠ p2.J)
    (out : Fin 4 → List ℝ) : ocPart2 A B C p1 s1 p2 s2 out = .ok out ∧ deltaIntegral p1 s1 p2 s2 = .ok 0 := by
  refine ⟨?_, by unfold deltaIntegral; rw [if_pos h]⟩
  unfold ocPart2
  by_cases e : p1.L = p2.L
  · rw [if_neg (by simpa using e), if_pos (h.resolve_left (by simpa using e))]
  · rw [if_pos e]

/-- **C51.** Exchanging the two shells transposes the scalar matrix, and transposes the spin-orbit matrices and changes their sign. -/
theorem outer_core_symmetric (gen : Nat → List Comp) (hg : DocumentedOrder gen) (sf : SpecFun) (A B : Shell) (sA : A.Supported) (sB : B.Supported)
    (C : Point) (oc : List (Potential × Shell)) (hoc : ∀ e ∈ oc, OcReady gen sf A B C e.1 e.2 ∧ OcReady gen sf B A C e.1 e.2) (out out' : Fin 4 → List ℝ)
    (hout : ∀ q, A.cart_size * B.cart_size ≤ (out q).length) (hout' : ∀ q, B.cart_size * A.cart_size ≤ (out' q).length) :
    ∃ oc' r r', outerCore sf true A B C oc out = .ok (oc', r) ∧ outerCore sf true B A C oc out' = .ok (oc', r') ∧
      ∀ i j, i < A.cart_size → j < B.cart_size → ∃ v : Fin 4 → ℝ, ∀ q, (r q)[i * B.cart_size + j]? = some (v q) ∧
        (r' q)[j * A.cart_size + i]? = some (if q = 0 then v q else -v q) := by
  obtain ⟨r, h1, h2⟩ := outerCore_run hg sf A B sA sB C oc (fun e he => (hoc e he).1) out hout
  obtain ⟨r', h3, h4⟩ := outerCore_run hg sf B A sB sA C oc (fun e he => (hoc e he).2) out' hout'
  refine ⟨_, r, r', h1, h3, fun i j hi hj => ⟨_, fun q => ⟨(h2 q).2.val i j hi hj, ?_⟩⟩⟩
  rw [(h4 q).2.val j i hj hi]
  refine congrArg some ?_
  beta_reduce
  have e : ∀ x : ℝ, (if q = 0 then x else -x) = ocSign q * x := by
    intro x
    unfold ocSign
    split_ifs <;> ring
  rw [e, mul_sub, Finset.mul_sum, Finset.mul_sum]
  congr 1
  · exact Finset.sum_congr rfl fun a _ => ocOne_swap A B (dropTiny A) (dropTiny B) C _ _ _ q i j
  · rw [Finset.sum_comm]
    refine Finset.sum_congr rfl fun a _ => ?_
    rw [Finset.mul_sum]
    refine Finset.sum_congr rfl fun b _ => ?_
    have ha := (hoc _ (List.getElem_mem a.2)).1.sameL
    have hb := (hoc _ (List.getElem_mem b.2)).1.sameL
    by_cases h : oc[a].1.L = oc[b].1.L ∧ oc[a].1.J = oc[b].1.J
    · have eL : oc[b].2.L = oc[a].2.L := by
        have h := h.1
        simp only [Fin.getElem_fin] at h ⊢
        omega
      have := ocTwo_swap A B C oc[a].1 oc[a].2 oc[b].1 oc[b].2 ha hb q i j
      rw [this, eL]; ring
    · unfold ocTwo
      rw [if_neg h, if_neg (fun h' => h ⟨h'.1.symm, h'.2.symm⟩)]; ring

/-- **C81.** Without initialisation the process is stopped. -/
theorem outer_core_needs_init (sf : SpecFun) (A B : Shell) (C : Point) (oc : List (Potential × Shell)) (out : Fin 4 → List ℝ) :
    outerCore sf false A B C oc out = .abort := by
  unfold outerCore
  rw [Outcome.assert_neg (by simp)]
  rfl

/-- **C52 is false.** Every call of `libgrpp_outercore_potential_integrals` which succeeds has moved all outer-core shells to the centre `C`. In
particular no call for another centre leaves the shells as they were. -/
theorem outer_core_moves_shells (sf : SpecFun) (init : Bool) (A B : Shell) (C : Point) (oc : List (Potential × Shell)) (out : Fin 4 → List ℝ)
    {oc' : List (Potential × Shell)} {out' : Fin 4 → List ℝ} (h : outerCore sf init A B C oc out = .ok (oc', out')) :
    oc' = oc.map (fun e => (e.1, { e.2 with origin := C })) ∧ ((∃ e ∈ oc, e.2.origin ≠ C) → oc' ≠ oc) := by
  have e : oc' = oc.map fun e => (e.1, { e.2 with origin := C }) := by
    unfold outerCore at h
    obtain ⟨_, _, h⟩ := Outcome.bind_eq_ok.1 h
    obtain ⟨_, _, h⟩ := Outcome.bind_eq_ok.1 h
    obtain ⟨_, _, h⟩ := Outcome.bind_eq_ok.1 h
    obtain ⟨_, _, h⟩ := Outcome.bind_eq_ok.1 h
    obtain ⟨_, _, h⟩ := Outcome.bind_eq_ok.1 h
    obtain ⟨_, _, h⟩ := Outcome.bind_eq_ok.1 h
    obtain ⟨_, _, h⟩ := Outcome.bind_eq_ok.1 h
    have h := (congrArg Prod.fst (Outcome.ok.inj h)).symm
    simp only [bindOrigin_eq] at h
    exact h
  refine ⟨e, ?_⟩
  rintro ⟨x, hx, hne⟩ heq
  obtain ⟨k, hk, rfl⟩ := List.mem_iff_getElem.1 hx
  have h1 : oc'[k]? = some oc[k] := by rw [heq, List.getElem?_eq_getElem hk]
  rw [e, List.getElem?_map, List.getElem?_eq_getElem hk, Option.map_some] at h1
  exact hne (congrArg (fun e : Potential × Shell => e.2.origin) (Option.some.inj h1)).symm

/-- **C52, sequential use.** The result does not depend on the centres which earlier calls left in the shells, and the shells are otherwise unchanged:
calls one after the other for several atoms are not affected. -/
theorem outer_core_sequential_partial (sf : SpecFun) (init : Bool) (A B : Shell) (C : Point) (oc oc₂ : List (Potential × Shell)) (out : Fin 4 → List ℝ)
    (h : oc.map (fun e => (e.1, { e.2 with origin := C })) = oc₂.map (fun e => (e.1, { e.2 with origin := C }))) :
    outerCore sf init A B C oc out = outerCore sf init A B C oc₂ out := by
  have h' : oc.map (fun e => (e.1, bindOrigin C e.2)) = oc₂.map (fun e => (e.1, bindOrigin C e.2)) := by
    simp only [bindOrigin_eq]
    exact h
  unfold outerCore
  rw [h']

/-- **C82.** For every `L = 0, …, 19` and all exponents the tabulated normalisation of radial Gaussians is accurate to `3e-15`. -/
theorem radial_norm_accuracy {L : ℕ} (hL : L < 20) {α : ℝ} (hα : 0 < α) :
    ∃ v, radialGtoNorm L α = .ok v ∧ |v / radialNorm L α - 1| ≤ 3e-15 := by
  refine ⟨_, radialGtoNorm_eq hL α, ?_⟩
  have h1 := radialNorm_one_pos L
  have h2 : 0 < α ^ (0.75 + (L : ℝ) / 2) := Real.rpow_pos_of_pos hα _
  rw [radialNorm_scale L hα, mul_div_mul_right _ _ h2.ne']
  have hb := gtoErr_bound hL
  have h0 : 0 ≤ gtoF L / radialNorm L 1 := by
    unfold gtoF
    positivity
  unfold gtoErr at hb
  generalize gtoF L / radialNorm L 1 = x at hb h0
  have : |x - 1| * 1 ≤ |x - 1| * |x + 1| := mul_le_mul_of_nonneg_left (by rw [abs_of_nonneg (by linarith)]; linarith) (abs_nonneg _)
  rw [← abs_mul, mul_one, show (x - 1) * (x + 1) = x ^ 2 - 1 by ring] at this
  exact this.trans hb

/-- **C82.** For other `L` the table is read outside its bounds. -/
theorem radial_norm_out_of_range {L : ℤ} (hL : L < 0 ∨ 20 ≤ L) (α : ℝ) : radialGtoNorm L α = .ub := by
  unfold radialGtoNorm rdInt
  by_cases h : L < 0
  · rw [if_pos h]; rfl
  · rw [if_neg h, rd_ub (by show 20 ≤ L.toNat; omega)]; rfl

/-- A potential for `L = 1`, `j = 3/2`. -/
noncomputable def pOuterCore : Potential := { L := 1, J := 3, num := 2, powers := [2, 2], coeffs := [3, -1], alpha := [1, 4] }

/-- Two outer-core shells with `L = 1`, one at the centre of the molecule and one elsewhere, with equal `J`: the requirements are met. -/
theorem pOuterCore_ready (sf : SpecFun) (A B : Shell) (C : Point) : OcReady cartesianDirac sf A B C pOuterCore exampleShell := by
  have hk : ∀ k < pOuterCore.num, pOuterCore.powers.getD k 0 = 2 ∧ 0 ≤ pOuterCore.alpha.getD k 0 := by
    intro k hk
    have : k = 0 ∨ k = 1 := by simp only [pOuterCore] at hk; omega
    rcases this with rfl | rfl <;> simp [pOuterCore]
  have hx : ∀ (S T : Shell), ∀ k < pOuterCore.num, ExactAux sf S T C (pOuterCore.powers.getD k 0) (pOuterCore.alpha.getD k 0) := by
    intro S T k h i _ j _
    rw [(hk k h).1]
    exact ⟨fun h => by norm_num at h, fun h => by norm_num at h⟩
  exact ⟨⟨exampleShell_made, by simp [exampleShell], by simp [Potential.WF, pOuterCore], by simp [pOuterCore, exampleShell],
    Or.inr (by simp [pOuterCore, exampleShell]), fun k h => ⟨Or.inr (Or.inr (hk k h).1), (hk k h).2⟩⟩, hx _ _, hx _ _⟩

/-- Two entries with the same quantum numbers: the call succeeds and there is a cross term. -/
example (sf : SpecFun) (C : Point) : ∃ κ : ℝ, |κ - 1| ≤ 3e-15 ∧ ∃ oc' out',
    outerCore sf true sShell sShell C [(pOuterCore, exampleShell), (pOuterCore, exampleShell)] (fun _ => [7, 8]) = .ok (oc', out') ∧
    (out' 0)[1]? = some 8 ∧ (out' 0)[0]? = some (2 * ocOne sShell sShell (dropTiny sShell) (dropTiny sShell) C pOuterCore exampleShell (dropTiny exampleShell) 0 0 0 -
      4 * (κ * ocTwo sShell sShell C pOuterCore exampleShell pOuterCore exampleShell 0 0 0)) := by
  obtain ⟨κ, hκ, H⟩ := outer_core_correct
  obtain ⟨out', h1, h2⟩ := H cartesianDirac (Or.inl rfl) sf sShell sShell sShell_supported sShell_supported C
    [(pOuterCore, exampleShell), (pOuterCore, exampleShell)] (by
      intro e he
      simp only [List.mem_cons, List.not_mem_nil, or_false, or_self] at he
      rw [he]
      exact pOuterCore_ready sf _ _ C) (fun _ => [7, 8]) (by intro q; simp [sShell])
  refine ⟨κ 1, hκ 1 (by norm_num), _, out', h1, ?_, ?_⟩
  · rw [(h2 0).1.2 1 (by simp [sShell])]; rfl
  · have := (h2 0).2 0 0 (by simp [sShell]) (by simp [sShell])
    rw [show 0 * sShell.cart_size + 0 = 0 by simp] at this
    rw [this]
    congr 1
    change (∑ a : Fin 2, _) - (∑ a : Fin 2, ∑ b : Fin 2, _) = _
    simp only [Fin.sum_univ_two]
    change _ + _ - (κ 1 * _ + κ 1 * _ + (κ 1 * _ + κ 1 * _)) = _
    simp only [Fin.getElem_fin, Fin.val_zero, Fin.val_one, List.getElem_cons_zero, List.getElem_cons_succ]
    ring

/-- The entry for `exampleShell` at `(0, 1, 2)` is moved by a call for the origin. -/
example (sf : SpecFun) : ∃ oc' out', outerCore sf true sShell sShell (fun _ => 0) [(pOuterCore, exampleShell)] (fun _ => [7]) = .ok (oc', out') ∧
    oc' ≠ [(pOuterCore, exampleShell)] := by
  obtain ⟨κ, hκ, H⟩ := outer_core_correct
  obtain ⟨out', h1, -⟩ := H cartesianDirac (Or.inl rfl) sf sShell sShell sShell_supported sShell_supported (fun _ => 0)
    [(pOuterCore, exampleShell)] (by
      intro e he
      rw [List.mem_singleton.1 he]
      exact pOuterCore_ready sf _ _ _) (fun _ => [7]) (by intro q; simp [sShell])
  refine ⟨_, out', h1, (outer_core_moves_shells sf true _ _ _ _ _ h1).2 ⟨_, List.mem_singleton.2 rfl, fun h => ?_⟩⟩
  have := congrFun h 1
  simp [exampleShell] at this

/-- The weights for `L = 1`: `1/3` and `2/3`, `-2/3` and `2/3`. -/
example : arepFactor 1 1 = 1 / 3 ∧ arepFactor 1 3 = 2 / 3 ∧ esopFactor 1 1 = -2 / 3 ∧ esopFactor 1 3 = 2 / 3 := by
  unfold arepFactor esopFactor
  norm_num

end Libgrpp
