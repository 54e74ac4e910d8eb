import Verif.Lemmas.FortranModule
import Verif.Props.OuterCore
import Verif.Lemmas.FullLib

/-! # C58 (scalar wrappers), C92, C93: the Fortran module -/

namespace Libgrpp

/-- Row `i` of the Fortran arrays describes the potential and the shell `p` of the C interface. -/
def FOcTable.Describes (t : FOcTable) (gen : Nat → List Comp) (C : Point) (i : Nat) (p : Potential × Shell) : Prop :=
  ∃ u : FOc, (t.L[i]? = some u.L ∧ t.J[i]? = some u.J ∧ t.potNum[i]? = some u.u.num ∧ t.powers[i]? = some u.u.powers ∧
    t.coeffs[i]? = some u.u.coeffs ∧ t.alpha[i]? = some u.u.alpha ∧ t.shellNum[i]? = some u.num ∧ t.shellCoeffs[i]? = some u.coeffs ∧
    t.shellAlpha[i]? = some u.alpha) ∧ u.u.num ≤ u.u.powers.length ∧ u.u.make u.L u.J = .ok p.1 ∧ u.make gen C = .ok p.2

/-- The rows as the subroutine reads them. -/
theorem FOcTable.describes_iff {t : FOcTable} {gen : Nat → List Comp} {C : Point} {i : Nat} {p : Potential × Shell} :
    t.Describes gen C i p ↔ ∃ u, t.row i = .ok u ∧ u.u.num ≤ u.u.powers.length ∧ u.u.make u.L u.J = .ok p.1 ∧ u.make gen C = .ok p.2 := by
  have hrd : ∀ {α : Type} (l : List α) (k : Nat) (x : α), rd l k = .ok x ↔ l[k]? = some x := by
    intro α l k x
    unfold rd
    cases l[k]? <;> simp
  refine exists_congr fun u => and_congr_left fun _ => ⟨fun h => ?_, fun h => ?_⟩
  · obtain ⟨h1, h2, h3, h4, h5, h6, h7, h8, h9⟩ := h
    simp only [← hrd] at h1 h2 h3 h4 h5 h6 h7 h8 h9
    unfold FOcTable.row
    rw [h1, Outcome.ok_bind, h2, Outcome.ok_bind, h3, Outcome.ok_bind, h4, Outcome.ok_bind, h5, Outcome.ok_bind, h6, Outcome.ok_bind, h7, Outcome.ok_bind,
      h8, Outcome.ok_bind, h9, Outcome.ok_bind]
  · unfold FOcTable.row at h
    simp only [← hrd]
    cases h1 : rd t.L i <;> rw [h1] at h <;> try cases h
    cases h2 : rd t.J i <;> rw [Outcome.ok_bind, h2] at h <;> try cases h
    cases h3 : rd t.potNum i <;> rw [Outcome.ok_bind, h3] at h <;> try cases h
    cases h4 : rd t.powers i <;> rw [Outcome.ok_bind, h4] at h <;> try cases h
    cases h5 : rd t.coeffs i <;> rw [Outcome.ok_bind, h5] at h <;> try cases h
    cases h6 : rd t.alpha i <;> rw [Outcome.ok_bind, h6] at h <;> try cases h
    cases h7 : rd t.shellNum i <;> rw [Outcome.ok_bind, h7] at h <;> try cases h
    cases h8 : rd t.shellCoeffs i <;> rw [Outcome.ok_bind, h8] at h <;> try cases h
    cases h9 : rd t.shellAlpha i <;> rw [Outcome.ok_bind, h9] at h <;> try cases h
    exact ⟨rfl, rfl, rfl, rfl, rfl, rfl, rfl, rfl, rfl⟩

/-- **C92.** The Fortran subroutine has the outcome and the results of the C routine on the shells and potentials made of the same arguments,
and leaves the memory as it was. -/
theorem fortran_module_outer_core (gen : Nat → List Comp) (sf : SpecFun) (h : Store) (hw : h.WF) (a b : FShell) (C : Point) (t : FOcTable)
    (out : Fin 4 → List ℝ) (A B : Shell) (hA : a.make gen = .ok A) (hB : b.make gen = .ok B) (oc : List (Potential × Shell))
    (hn : oc.length = t.num) (hrow : ∀ (i : Nat) (hi : i < oc.length), t.Describes gen C i oc[i]) :
    Forwards h (modOuterCore gen sf true h a b C t out) (do let r ← outerCore sf true A B C oc out; .ok r.2) := by
  simp only [FOcTable.describes_iff] at hrow
  have hAn : A.cart_size = (a.L + 1) * (a.L + 2) / 2 := by
    unfold FShell.make newShell at hA
    cases e : copyPrims a.num a.coeffs a.alpha <;> rw [e] at hA <;> cases hA
    rfl
  have hBn : B.cart_size = (b.L + 1) * (b.L + 2) / 2 := by
    unfold FShell.make newShell at hB
    cases e : copyPrims b.num b.coeffs b.alpha <;> rw [e] at hB <;> cases hB
    rfl
  have hmap : oc.map (fun p => (p.1, bindOrigin C p.2)) = oc := by
    refine List.ext_getElem (by simp) fun i h1 h2 => ?_
    obtain ⟨u, -, -, -, e⟩ := hrow i h2
    unfold FOc.make newShell at e
    rw [List.getElem_map, bindOrigin_eq]
    cases e' : copyPrims u.num u.coeffs u.alpha with
    | ok r =>
      rw [e'] at e
      have e : _ = oc[i].2 := Outcome.ok.inj e
      rw [← e]
      exact Prod.ext rfl e
    | ub => rw [e'] at e; cases e
    | abort => rw [e'] at e; cases e
    | exit => rw [e'] at e; cases e
  unfold modOuterCore outerCore
  simp only [hAn, hBn, hmap, hn, Outcome.bind_assoc, Outcome.assert, if_true, Outcome.ok_bind]
  refine forwards_pre fun o0 => forwards_pre fun o1 => forwards_pre fun o2 => forwards_pre fun o3 => ?_
  refine (forwards_forRange t.num ?_ h hw _).bind' fun h1 r hr => ?_
  · intro i hi h s hw
    obtain ⟨u, e1, e2, e3, e4⟩ := hrow i (by omega)
    have := fortran_outer_core_1 gen sf true h hw a b C u.L u.J u.u e2 u.num u.coeffs u.alpha s
    have e4' : FShell.make gen ⟨C, u.L, u.num, u.coeffs, u.alpha⟩ = .ok oc[i].2 := e4
    rw [hA, hB, e3, e4'] at this
    rw [e1, rd_ok (a := oc) (i := i) (by omega)]
    exact this
  · have := forwards_forRange t.num (body := fun i st => forRange t.num st fun j st => do
      let u ← t.row i
      let v ← t.row j
      ftnOcPart2 gen st.1 a b C u v st.2) (spec := fun i out => forRange t.num out fun j out => do
      let p ← rd oc i
      let q ← rd oc j
      ocPart2 A B C p.1 p.2 q.1 q.2 out) ?_ h1 (hr.wf' hw) r
    · rwa [show ∀ x : Outcome (Fin 4 → List ℝ), (x >>= fun r => .ok r) = x from fun x => by cases x <;> rfl]
    · intro i hi h s hw
      refine forwards_forRange t.num ?_ h hw s
      intro j hj h s hw
      obtain ⟨u, e1, e2, e3, e4⟩ := hrow i (by omega)
      obtain ⟨v, f1, f2, f3, f4⟩ := hrow j (by omega)
      have := fortran_outer_core_2 gen h hw a b C u v e2 f2 s
      rw [hA, hB, e3, e4, f3, f4] at this
      rw [e1, f1, rd_ok (a := oc) (i := i) (by omega), rd_ok (a := oc) (i := j) (by omega)]
      exact this

/-- The C routine for the outer-core integrals checks that the library has been initialised even if there are no outer-core shells; the Fortran
subroutine then returns zeros. -/
theorem fortran_module_not_initialised (gen : Nat → List Comp) (sf : SpecFun) (h : Store) (a b : FShell) (C : Point) (t : FOcTable) (ht : t.num = 0)
    (out : Fin 4 → List ℝ) (ho : ∀ q, (out q).length = cartSize a.L * cartSize b.L) (A B : Shell) :
    modOuterCore gen sf false h a b C t out = .ok (h, fun _ => List.replicate (cartSize a.L * cartSize b.L) 0) ∧
      outerCore sf false A B C [] out = .abort := by
  constructor
  · unfold modOuterCore
    have hz : ∀ q, memset0 ((a.L + 1) * (a.L + 2) / 2 * ((b.L + 1) * (b.L + 2) / 2)) (out q) =
        .ok (List.replicate (cartSize a.L * cartSize b.L) 0) := fun q => memset0_full (ho q)
    simp only [hz, Outcome.ok_bind, ht, forRange_zero]
    congr 2
    funext q
    fin_cases q <;> rfl
  · rfl

/-- **C93.** The Fortran subroutine for the gradient stores nothing: whatever the matrices `R` of the derivatives are, for some contents of the
arrays before the call none of the twelve arrays contains its matrix afterwards. -/
theorem fortran_module_gradient_missing (h : Store) (a b : FShell) (C : Point) (t : FOcTable) (point : Point) (R : Fin 12 → List ℝ)
    (hR : ∀ q, (R q).length = cartSize a.L * cartSize b.L) :
    ∃ grad grad' : Fin 12 → List ℝ, (∀ q, (grad q).length = cartSize a.L * cartSize b.L) ∧
      modOuterCoreGradient h a b C t point grad = .ok (h, grad') ∧ ∀ q, grad' q ≠ R q := by
  refine ⟨fun q => (R q).map (· + 1), _, fun q => by simp [hR], rfl, fun q e => ?_⟩
  have hp : 0 < (R q).length := by
    rw [hR]
    exact Nat.mul_pos (cartSize_pos _) (cartSize_pos _)
  have := congrArg (fun l : List ℝ => l[0]?) e
  simp [List.getElem?_eq_getElem hp] at this

/-- What the subroutine does do: the arrays keep their contents. -/
theorem fortran_module_gradient_partial (h : Store) (a b : FShell) (C : Point) (t : FOcTable) (point : Point) (grad : Fin 12 → List ℝ) :
    Forwards h (modOuterCoreGradient h a b C t point grad) (.ok grad) := Forwards.pure' h grad

/-- All variables but `p` keep their values and `p` gets the value `v`. -/
def Cells.Stored (m m' : Cells) (p : Nat) (v : ℝ) : Prop := m'.real p = v ∧ (∀ q, q ≠ p → m'.real q = m.real q) ∧ m'.int = m.int

theorem stored_put (m : Cells) (p : Nat) (v : ℝ) : m.Stored (m.put p v) p v :=
  ⟨by simp [Cells.put], fun q hq => by simp [Cells.put, hq], rfl⟩

/-- The wrapper stores the value of the C function, or ends like the C function. -/
def Cells.StoredIf (m : Cells) (p : Nat) (v : Outcome ℝ) (x : Outcome Cells) : Prop :=
  ∃ f : ℝ → Cells, (∀ r, m.Stored (f r) p r) ∧ x = (do let r ← v; .ok (f r))

theorem storedIf_put (m : Cells) (p : Nat) (v : Outcome ℝ) : m.StoredIf p v (do let r ← v; .ok (m.put p r)) := ⟨m.put p, stored_put m p, rfl⟩

/-- **C58**, nuclear models: every wrapper stores the value that the C function has for the contents of the arguments before the call, in the
variable for the result and nowhere else. -/
theorem fortran_nuclear_models (sk : SkFun) (m : Cells) (A r Z R c a k p : Nat) :
    m.Stored (ftnRmsJohnson m A p) p (rmsJohnson (m.int A)) ∧
    m.Stored (ftnRmsGolovko m A p) p (rmsGolovko (m.int A)) ∧
    m.Stored (ftnDensBall m r Z R p) p (densBall (m.real r) (m.real Z) (m.real R)) ∧
    m.Stored (ftnDensGauss m r Z R p) p (densGauss (m.real r) (m.real Z) (m.real R)) ∧
    m.StoredIf p (densFermi sk (m.real r) (m.real Z) (m.real c) (m.real a)) (ftnDensFermi sk m r Z c a p) ∧
    m.StoredIf p (densBubble sk (m.real r) (m.real Z) (m.real c) (m.real a) (m.real k)) (ftnDensBubble sk m r Z c a k p) ∧
    m.Stored (ftnPotPoint m r Z p) p (potPoint (m.real r) (m.real Z)) ∧
    m.Stored (ftnPotBall m r Z R p) p (potBall (m.real r) (m.real Z) (m.real R)) ∧
    m.Stored (ftnPotGauss m r Z R p) p (potGauss (m.real r) (m.real Z) (m.real R)) ∧
    m.StoredIf p (potFermi sk (m.real r) (m.real Z) (m.real c) (m.real a)) (ftnPotFermi sk m r Z c a p) ∧
    m.StoredIf p (potBubble sk (m.real r) (m.real Z) (m.real c) (m.real a) (m.real k)) (ftnPotBubble sk m r Z c a k p) ∧
    m.StoredIf p (rmsFermi sk (m.int Z) (m.real c) (m.real a)) (ftnRmsFermi sk m Z c a p) ∧
    m.StoredIf p (rmsBubble sk (m.int Z) (m.real c) (m.real a) (m.real k)) (ftnRmsBubble sk m Z c a k p) :=
  ⟨stored_put .., stored_put .., stored_put .., stored_put .., storedIf_put .., storedIf_put .., stored_put .., stored_put .., stored_put ..,
    storedIf_put .., storedIf_put .., storedIf_put .., storedIf_put ..⟩

/-- **C58**, parameters of the Fermi model: for two different result variables, the code is 1 and both parameters are stored, or it is -1 and `c`
keeps its value. -/
theorem fortran_fermi_parameters (m : Cells) (R c a err : Nat) (hac : a ≠ c) :
    let m' := ftnEstimateFermi m R c a err
    m'.real a = 2.3 / (4 * Real.log 3) ∧
    (∀ q, q ≠ a → q ≠ c → m'.real q = m.real q) ∧ (∀ q, q ≠ err → m'.int q = m.int q) ∧
    (m'.int err = 1 ∨ m'.int err = -1) ∧
    (m'.int err = 1 ↔ 0 ≤ 5 / 3 * m.real R ^ 2 - 7 / 3 * Real.pi ^ 2 * m'.real a ^ 2) ∧
    (m'.int err = 1 → 0 ≤ m'.real c ∧ m'.real c ^ 2 = 5 / 3 * m.real R ^ 2 - 7 / 3 * Real.pi ^ 2 * m'.real a ^ 2) ∧
    (m'.int err = -1 → m'.real c = m.real c) := by
  have e : ∀ x : ℝ, 5 / 3 * m.real R * m.real R - 7 / 3 * Real.pi * Real.pi * x * x = 5 / 3 * m.real R ^ 2 - 7 / 3 * Real.pi ^ 2 * x ^ 2 := fun x => by ring
  simp only [ftnEstimateFermi, Cells.put, estimateFermi, e, Function.update_self, Function.update_of_ne hac]
  refine ⟨?_, ?_, ?_, ?_, ?_, ?_, ?_⟩
  · split_ifs <;> rfl
  · intro q h1 h2
    simp [h1, h2]
  · intro q h1
    simp [h1]
  · split_ifs <;> simp
  · split_ifs with h
    · simpa using h
    · simpa using not_lt.1 h
  · split_ifs with h
    · intro h'; norm_num at h'
    · exact fun _ => ⟨Real.sqrt_nonneg _, Real.sq_sqrt (not_lt.1 h)⟩
  · split_ifs with h
    · simp
    · intro h'; norm_num at h'

/-! ## Non-vacuity -/

/-- Two outer-core shells, s and p, in arrays padded to two columns. -/
def exampleTable : FOcTable :=
  ⟨2, [0, 1], [1, 3], [1, 2], [[2, 0], [2, 1]], [[5, 0], [3, 4]], [[1, 0], [1, 2]], [2, 1], [[1, 1], [1, 0]], [[1, 2], [3, 0]]⟩

/-- The assumptions of `fortran_module_outer_core` hold for a table with two rows. -/
example : ∃ oc : List (Potential × Shell), oc.length = exampleTable.num ∧
    ∀ (i : Nat) (hi : i < oc.length), exampleTable.Describes cartesianDirac ![0, 0, 1] i oc[i] := by
  obtain ⟨P0, e0⟩ : ∃ P, FPot.make 0 1 ⟨1, [2, 0], [5, 0], [1, 0]⟩ = .ok P := by
    obtain ⟨P, e, -⟩ := newPotential_ok 0 1 1 [2, 0] [5, 0] [1, 0] (by simp) (by simp) (by simp)
    exact ⟨P, e⟩
  obtain ⟨P1, e1⟩ : ∃ P, FPot.make 1 3 ⟨2, [2, 1], [3, 4], [1, 2]⟩ = .ok P := by
    obtain ⟨P, e, -⟩ := newPotential_ok 1 3 2 [2, 1] [3, 4] [1, 2] (by simp) (by simp) (by simp)
    exact ⟨P, e⟩
  refine ⟨[(P0, ⟨0, ![0, 0, 1], cartSize 0, cartesianDirac 0, 2, [1, 1], [1, 2]⟩), (P1, ⟨1, ![0, 0, 1], cartSize 1, cartesianDirac 1, 1, [1], [3]⟩)], rfl,
    fun i hi => ?_⟩
  have hi : i < 2 := hi
  interval_cases i
  · exact ⟨⟨0, 1, ⟨1, [2, 0], [5, 0], [1, 0]⟩, 2, [1, 1], [1, 2]⟩, ⟨rfl, rfl, rfl, rfl, rfl, rfl, rfl, rfl, rfl⟩, by decide, e0, new_shell_value _ _ _ _ _ _ (by simp) (by simp)⟩
  · exact ⟨⟨1, 3, ⟨2, [2, 1], [3, 4], [1, 2]⟩, 1, [1, 0], [3, 0]⟩, ⟨rfl, rfl, rfl, rfl, rfl, rfl, rfl, rfl, rfl⟩, by decide, e1, new_shell_value _ _ _ _ _ _ (by simp) (by simp)⟩

/-- The gradient subroutine leaves a value that is not zero in an array of length one. -/
example (h : Store) (t : FOcTable) : modOuterCoreGradient h ⟨![0, 0, 0], 0, 1, [1], [1]⟩ ⟨![0, 0, 0], 0, 1, [1], [1]⟩ ![0, 0, 1] t ![0, 0, 1]
    (fun _ => [7]) = .ok (h, fun _ => [7]) := rfl

/-- The potential of a charged point at distance 2. -/
example : (ftnPotPoint ⟨fun i => [2, 6].getD i 0, fun _ => 0⟩ 0 1 2).real 2 = -3 := by
  rw [(fortran_nuclear_models (fun _ _ => .ok 0) _ 0 0 1 0 0 0 0 2).2.2.2.2.2.2.1.1]
  norm_num [potPoint]

end Libgrpp
