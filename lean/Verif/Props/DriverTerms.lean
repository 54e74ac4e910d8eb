import Verif.Lemmas.TermsAdd
import Verif.Props.GrppTerms

/-! # C106: gradients of single terms of the pseudopotentials in the driver program

The driver can differentiate the local, semilocal, spin-orbit and outer-core terms of the pseudopotentials one by one. The reference for each is the
derivative of the matrix element of a pseudopotential with this term only, when an atom is displaced with the basis functions and the
pseudopotential on it. -/

namespace Libgrpp

/-- `V x a k p q` is within an explicit bound of the derivative of the matrix element of component `x` of all operators `ops` between the basis functions
`p` and `q`, with respect to coordinate `k` of atom `a`; for all atoms together they add up to zero, if no two atoms are at the same position. -/
structure IsGradient {G : Type} (lib : Lib G) (shells : List Shell) (atoms : List (Nat × Point)) (ops : List (GrppData × Point))
    (V : Fin 4 → ℕ → Fin 3 → ℕ → ℕ → ℝ) : Prop where
  close : ∃ Qb Qk : Shell → Shell → GrppData × Point → Shell → Potential → ℕ → ℕ → ℕ → ℝ,
    (∀ A ∈ shells, ∀ B ∈ shells, ∀ o ∈ ops, ∀ u ∈ o.1.arep ++ o.1.esop,
      (∀ S, IsDiff lib.gen A S → RadialTable lib S B o.2 u (Qb A B o S u)) ∧
      ∀ T, IsDiff lib.gen B T → RadialTable lib A T o.2 u (Qk A B o T u)) ∧
    ∀ a c D, atoms[a]? = some (c, D) → ∀ x k p q A m B n, (basisComps shells)[p]? = some (A, m) → (basisComps shells)[q]? = some (B, n) →
      ∃ d, HasDerivAt (fun t => (ops.map fun o => grppElement (moveAtom D k t A) (moveAtom D k t B) (movePoint D k t o.2) o.1 x m n).sum) d 0 ∧
        |V x a k p q - d| ≤ (ops.map fun o => diffErr lib.gen A (fun S i => grppErr S B o.2 o.1 (Qb A B o S) x i n) k m +
          diffErr lib.gen B (fun T i => grppErr A T o.2 o.1 (Qk A B o T) x m i) k n).sum
  invariant : (atoms.map Prod.snd).Nodup → ∀ x k p q, p < (basisComps shells).length → q < (basisComps shells).length →
    ∑ a ∈ Finset.range atoms.length, V x a k p q = 0

section
variable {G : Type} (lib : Lib G) (hi : lib.init = true) (hbt : BesselOk lib.bt) (ho : DocumentedOrder lib.gen) {eps : ℝ}
  {sf : SpecFun} (hs : LibSpec eps sf)
include hi hbt ho hs

/-- The values which the library returns for operators on atoms, and what they are. -/
theorem gradient_values {shells : List Shell} {atoms : List (Nat × Point)} {ops : List (GrppData × Point)}
    (hin : ∀ A ∈ shells, ∀ B ∈ shells, ∀ o ∈ ops, GradInput lib.gen A B o.2 o.1) (hat : AtomsOk shells atoms) (hon : ∀ o ∈ ops, ∃ a ∈ atoms, o.2 = a.2)
    (d : Shell × Nat) (d' : Nat × Point) :
    ∃ W : Shell → Shell → GrppData × Point → Point → Fin 4 → Fin 3 → Nat → Nat → ℝ,
      (∀ junk : Option (Nat → ℝ), (junk ≠ none ∨ ∀ s ∈ shells, s.L = 0) → PartsReturn lib.gen junk (libFull lib sf) shells atoms ops W) ∧
      IsGradient lib shells atoms ops fun x a k p q => (ops.map fun o => W ((basisComps shells).getD p d).1 ((basisComps shells).getD q d).1 o
        (atoms.getD a d').2 x k ((basisComps shells).getD p d).2 ((basisComps shells).getD q d).2).sum := by
  have hv : ∀ (A B : Shell) (o : GrppData × Point), ∃ (Qb Qk : Shell → Potential → ℕ → ℕ → ℕ → ℝ) (Tb Tk : Fin 4 → Fin 3 → ℕ → ℕ → ℝ),
      A ∈ shells → B ∈ shells → o ∈ ops →
      (∀ S, IsDiff lib.gen A S → ∀ u ∈ o.1.arep ++ o.1.esop, RadialTable lib S B o.2 u (Qb S u)) ∧
      (∀ T, IsDiff lib.gen B T → ∀ u ∈ o.1.arep ++ o.1.esop, RadialTable lib A T o.2 u (Qk T u)) ∧
      (∀ junk : Option (Nat → ℝ), (junk = none → A.L = 0 ∧ B.L = 0) → GradMats lib.gen (libFull lib sf o.1 o.2) A B junk Tb Tk) ∧
        ∀ q k i j, i < A.cart_size → j < B.cart_size →
          |Tb q k i j - braT (grppForm o.2 o.1) A B q k i j| ≤ diffErr lib.gen A (fun S a => grppErr S B o.2 o.1 (Qb S) q a j) k i ∧
          |Tk q k i j - ketT (grppForm o.2 o.1) A B q k i j| ≤ diffErr lib.gen B (fun T a => grppErr A T o.2 o.1 (Qk T) q i a) k j := by
    intro A B o
    by_cases hc : A ∈ shells ∧ B ∈ shells ∧ o ∈ ops
    · obtain ⟨hA, hB, hm⟩ := hc
      obtain ⟨Qb, Qk, h1, h2, Tb, Tk, h3, h4⟩ := lib_mats lib hi hbt ho hs (hin A hA B hB o hm).lib
      exact ⟨Qb, Qk, Tb, Tk, fun _ _ _ => ⟨h1, h2, h3, h4⟩⟩
    · exact ⟨fun _ _ _ _ _ => 0, fun _ _ _ _ _ => 0, fun _ _ _ _ => 0, fun _ _ _ _ => 0, fun hA hB hm => absurd ⟨hA, hB, hm⟩ hc⟩
  choose Qb Qk Tb Tk hT using hv
  let W : Shell → Shell → GrppData × Point → Point → Fin 4 → Fin 3 → Nat → Nat → ℝ := fun A B o D x k m n =>
    ((if A.origin = D then 1 else 0) - if o.2 = D then 1 else 0) * Tb A B o x k m n +
      ((if B.origin = D then 1 else 0) - if o.2 = D then 1 else 0) * Tk A B o x k m n
  refine ⟨W, fun junk hj A hA B hB a ha o hm => ?_, ⟨Qb, Qk,
    fun A hA B hB o hm u hu => ⟨fun S hS => (hT A B o hA hB hm).1 S hS u hu, fun T hT' => (hT A B o hA hB hm).2.1 T hT' u hu⟩, ?_⟩, ?_⟩
  · have oD : ∃ b ∈ atoms, a.2 = b.2 := ⟨a, ha, rfl⟩
    have oC := hon o hm
    obtain ⟨G', e, v, -⟩ := grppGradient_adds ((hT A B o hA hB hm).2.2.1 junk fun e =>
        hj.elim (fun h => absurd e h) fun h => ⟨h A hA, h B hB⟩) o.2 a.2 (hat.separated (hat.on A hA) (hat.on B hB) oC oD)
      (fun _ => List.replicate (A.cart_size * B.cart_size) 0) fun _ => List.length_replicate.ge
    refine ⟨G', e, fun x k m n hm' hn' => ?_⟩
    rw [v x k m n hm' hn']
    simp only [hat.iff (hat.on A hA) oD, hat.iff (hat.on B hB) oD, hat.iff oC oD, W]
  · intro a c D ha x k p q A m B n hp hq
    have e1 := getD_of_some hp d
    have e2 := getD_of_some hq d
    have e3 := getD_of_some ha d'
    obtain ⟨hA, hm⟩ := basisComps_mem2 hp
    obtain ⟨hB, hn⟩ := basisComps_mem2 hq
    have oD : ∃ b ∈ atoms, D = b.2 := ⟨(c, D), List.mem_of_getElem? ha, rfl⟩
    have der : ∀ o ∈ ops,
        HasDerivAt (fun t => grppElement (moveAtom D k t A) (moveAtom D k t B) (movePoint D k t o.2) o.1 x m n)
          (((if A.origin = D then 1 else 0) - if o.2 = D then 1 else 0) * braT (grppForm o.2 o.1) A B x k m n +
            ((if B.origin = D then 1 else 0) - if o.2 = D then 1 else 0) * ketT (grppForm o.2 o.1) A B x k m n) 0 := by
      intro o hm'
      have hl := (hin A hA B hB o hm').lib
      have hd := (grppForm_interaction ho (hl.form ho) hl.made_bra.pos hl.made_ket.pos o.2).hasDerivAt D x k hm hn
      simp only [grppForm_basis, hat.iff (hat.on A hA) oD, hat.iff (hat.on B hB) oD, hat.iff (hon o hm') oD] at hd
      simp only [moveAtom_eq, movePoint_eq]
      exact hd
    refine ⟨_, hasDerivAt_list_sum _ der, ?_⟩
    beta_reduce
    rw [e1, e2, e3]
    refine list_sum_close _ _ _ _ fun o hm' => ?_
    obtain ⟨b1, b2⟩ := (hT A B o hA hB hm').2.2.2 x k m n hm hn
    have w : ∀ (p r : Prop) [Decidable p] [Decidable r], |((if p then 1 else 0) - if r then 1 else 0 : ℝ)| ≤ 1 := by
      intro p r _ _
      by_cases hp : p <;> by_cases hr : r <;> simp [hp, hr]
    simp only [W]
    rw [add_sub_add_comm, ← mul_sub, ← mul_sub]
    refine (abs_add_le _ _).trans (add_le_add ?_ ?_)
    · rw [abs_mul]
      exact (mul_le_mul (w _ _) b1 (abs_nonneg _) zero_le_one).trans_eq (one_mul _)
    · rw [abs_mul]
      exact (mul_le_mul (w _ _) b2 (abs_nonneg _) zero_le_one).trans_eq (one_mul _)
  · intro hn x k p q hp hq
    have hA := (basisComps_mem2 (A := ((basisComps shells).getD p d).1) (m := ((basisComps shells).getD p d).2) (getD_of_lt hp d)).1
    have hB := (basisComps_mem2 (A := ((basisComps shells).getD q d).1) (m := ((basisComps shells).getD q d).2) (getD_of_lt hq d)).1
    simp only [W]
    clear_value W
    clear hT hin
    induction ops with
    | nil => simp
    | cons o l ih =>
      simp only [List.map_cons, List.sum_cons]
      rw [Finset.sum_add_distrib, ih fun o ho => hon o (by simp [ho]), add_zero, Finset.sum_add_distrib, ← Finset.sum_mul, ← Finset.sum_mul,
        Finset.sum_sub_distrib, Finset.sum_sub_distrib, sum_at_atom hn d' (hat.on _ hA), sum_at_atom hn d' (hat.on _ hB),
        sum_at_atom hn d' (hon o (by simp))]
      ring

/-- The same for the parts of the pseudopotentials of a molecule. -/
theorem part_values {parts : GrppData → List GrppData} (hparts : ∀ g, ∀ h ∈ parts g, PartOf h g) {shells : List Shell} {atoms : List (Nat × Point)}
    {grpps : List (Option GrppData)} (h : GradDriverInput lib.gen shells atoms grpps) (d : Shell × Nat) (d' : Nat × Point) :
    ∃ W : Shell → Shell → GrppData × Point → Point → Fin 4 → Fin 3 → Nat → Nat → ℝ,
      (∀ junk : Option (Nat → ℝ), (junk ≠ none ∨ ∀ s ∈ shells, s.L = 0) →
        PartsReturn lib.gen junk (libFull lib sf) shells atoms (moleculeParts parts atoms grpps) W) ∧
      IsGradient lib shells atoms (moleculeParts parts atoms grpps) fun x a k p q => ((moleculeParts parts atoms grpps).map fun o =>
        W ((basisComps shells).getD p d).1 ((basisComps shells).getD q d).1 o (atoms.getD a d').2 x k ((basisComps shells).getD p d).2
          ((basisComps shells).getD q d).2).sum := by
  refine gradient_values lib hi hbt ho hs (fun A hA B hB o hm => ?_) h.atoms_ok (fun o hm => ?_) d d'
  · obtain ⟨g, hg, hp⟩ := moleculeParts_from hm
    exact (hparts g _ hp).input (h.input A hA B hB _ hg)
  · obtain ⟨g, hg, -⟩ := moleculeParts_from hm
    exact moleculeGrpps_on (o := (g, o.2)) hg

/-- **C106, local terms, partial.** For all molecules which meet the preconditions of C101 the driver adds to each element of each of its matrices a number
within an explicit bound of the derivative of the matrix element of the local terms of all pseudopotentials, and changes nothing else. Missing, here
and in the following three: for shells with `L > 0` the result is relative to some value being returned by out-of-bounds reads, as in C101. -/
theorem molecular_type1_gradient_partial (shells : List Shell) (atoms : List (Nat × Point)) (grpps : List (Option GrppData))
    (h : GradDriverInput lib.gen shells atoms grpps) :
    ∃ V, IsGradient lib shells atoms (moleculeParts localPart atoms grpps) V ∧
      ∀ junk : ℕ → ℕ → ℕ → ℕ → Option (ℕ → ℝ), ((∀ io jo ia ir, junk io jo ia ir ≠ none) ∨ ∀ s ∈ shells, s.L = 0) → ∀ grad : List (List ℝ),
        GradArrays atoms.length (basisComps shells).length grad →
        ∃ grad', evalType1Grad lib.gen junk (fun g C S T M => fullGrpp (libKernels lib sf) lib.init S T g C M) shells atoms grpps grad = .ok grad' ∧
          GradsIncreased atoms.length (basisComps shells).length (V 0) grad grad' := by
  let d : Shell × Nat := (⟨0, fun _ => 0, 0, [], 0, [], []⟩, 0)
  let d' : Nat × Point := (0, fun _ => 0)
  obtain ⟨W, hrun, hV⟩ := part_values lib hi hbt ho hs localPart_of h d d'
  refine ⟨_, hV, fun junk hj grad hG => ?_⟩
  have hd := h.dim
  have hG2 := hG.2
  rw [basisComps_length] at hd hG2
  obtain ⟨grad', e, r⟩ := evalType1Grad_spec h.charge hd hG.1 d' (fun io jo ia ir => hrun (junk io jo ia ir) (hj.imp (fun h => h io jo ia ir) id))
    grad ⟨rfl, hG2⟩
  exact ⟨grad', e, GradsIncreased.of_added r hG2 d⟩

/-- **C106, semilocal terms, partial.** -/
theorem molecular_type2_gradient_partial (shells : List Shell) (atoms : List (Nat × Point)) (grpps : List (Option GrppData))
    (h : GradDriverInput lib.gen shells atoms grpps) :
    ∃ V, IsGradient lib shells atoms (moleculeParts arepParts atoms grpps) V ∧
      ∀ junk : ℕ → ℕ → ℕ → ℕ → ℕ → Option (ℕ → ℝ), ((∀ io jo ia ir ip, junk io jo ia ir ip ≠ none) ∨ ∀ s ∈ shells, s.L = 0) → ∀ grad : List (List ℝ),
        GradArrays atoms.length (basisComps shells).length grad →
        ∃ grad', evalType2Grad lib.gen junk (fun g C S T M => fullGrpp (libKernels lib sf) lib.init S T g C M) shells atoms grpps grad = .ok grad' ∧
          GradsIncreased atoms.length (basisComps shells).length (V 0) grad grad' := by
  let d : Shell × Nat := (⟨0, fun _ => 0, 0, [], 0, [], []⟩, 0)
  let d' : Nat × Point := (0, fun _ => 0)
  obtain ⟨W, hrun, hV⟩ := part_values lib hi hbt ho hs arepParts_of h d d'
  refine ⟨_, hV, fun junk hj grad hG => ?_⟩
  have hd := h.dim
  have hG2 := hG.2
  rw [basisComps_length] at hd hG2
  obtain ⟨grad', e, r⟩ := evalType2Grad_spec h.charge hd hG.1 d'
    (fun io jo ia ir ip => hrun (junk io jo ia ir ip) (hj.imp (fun h => h io jo ia ir ip) id)) grad ⟨rfl, hG2⟩
  exact ⟨grad', e, GradsIncreased.of_added r hG2 d⟩

/-- **C106, spin-orbit terms, partial.** The weight `2/(2l+1)` of the driver and the factor `(2l+1)/2` of the library cancel exactly, so that the result is the
gradient of the spin-orbit terms as they occur in the full pseudopotential. -/
theorem molecular_so_gradient_partial (shells : List Shell) (atoms : List (Nat × Point)) (grpps : List (Option GrppData))
    (h : GradDriverInput lib.gen shells atoms grpps) :
    ∃ V, IsGradient lib shells atoms (moleculeParts esopParts atoms grpps) V ∧
      ∀ junk : ℕ → ℕ → ℕ → ℕ → ℕ → Option (ℕ → ℝ), ((∀ io jo ia ir ip, junk io jo ia ir ip ≠ none) ∨ ∀ s ∈ shells, s.L = 0) →
        ∀ grads : Fin 3 → List (List ℝ),
        (∀ x, GradArrays atoms.length (basisComps shells).length (grads x) ∧ (grads x).length = (grads 0).length) →
        ∃ grads', evalSOGrad lib.gen junk (fun g C S T M => fullGrpp (libKernels lib sf) lib.init S T g C M) shells atoms grpps grads = .ok grads' ∧
          ∀ x, GradsIncreased atoms.length (basisComps shells).length (V x.succ) (grads x) (grads' x) := by
  let d : Shell × Nat := (⟨0, fun _ => 0, 0, [], 0, [], []⟩, 0)
  let d' : Nat × Point := (0, fun _ => 0)
  obtain ⟨W, hrun, hV⟩ := part_values lib hi hbt ho hs esopParts_of h d d'
  refine ⟨_, hV, fun junk hj grads hG => ?_⟩
  have hd := h.dim
  rw [basisComps_length] at hd
  have hG2 : ∀ x, ∀ m ∈ grads x, dimOf shells * dimOf shells ≤ m.length := fun x => by
    have := (hG x).1.2
    rwa [basisComps_length] at this
  obtain ⟨grads', e, r⟩ := evalSOGrad_spec h.charge hd (len := (grads 0).length) (hG 0).1.1 d'
    (fun io jo ia ir ip => hrun (junk io jo ia ir ip) (hj.imp (fun h => h io jo ia ir ip) id)) grads fun x => ⟨(hG x).2, hG2 x⟩
  exact ⟨grads', e, fun x => GradsIncreased.of_added (r x) (hG2 x) d⟩

/-- **C106, outer-core terms, partial.** -/
theorem molecular_oc_gradient_partial (shells : List Shell) (atoms : List (Nat × Point)) (grpps : List (Option GrppData))
    (h : GradDriverInput lib.gen shells atoms grpps) :
    ∃ V, IsGradient lib shells atoms (moleculeParts ocPart atoms grpps) V ∧
      ∀ junk : ℕ → ℕ → ℕ → ℕ → Option (ℕ → ℝ), ((∀ io jo ia ir, junk io jo ia ir ≠ none) ∨ ∀ s ∈ shells, s.L = 0) →
        ∀ grads : Fin 4 → List (List ℝ),
        (∀ x, GradArrays atoms.length (basisComps shells).length (grads x) ∧ (grads x).length = (grads 0).length) →
        ∃ grads', evalOcGrad lib.gen junk (fun g C S T M => fullGrpp (libKernels lib sf) lib.init S T g C M) shells atoms grpps grads = .ok grads' ∧
          ∀ x, GradsIncreased atoms.length (basisComps shells).length (V x) (grads x) (grads' x) := by
  let d : Shell × Nat := (⟨0, fun _ => 0, 0, [], 0, [], []⟩, 0)
  let d' : Nat × Point := (0, fun _ => 0)
  obtain ⟨W, hrun, hV⟩ := part_values lib hi hbt ho hs ocPart_of h d d'
  refine ⟨_, hV, fun junk hj grads hG => ?_⟩
  have hd := h.dim
  rw [basisComps_length] at hd
  have hG2 : ∀ x, ∀ m ∈ grads x, dimOf shells * dimOf shells ≤ m.length := fun x => by
    have := (hG x).1.2
    rwa [basisComps_length] at this
  obtain ⟨grads', e, r⟩ := evalOcGrad_spec h.charge hd (len := (grads 0).length) (hG 0).1.1 d'
    (fun io jo ia ir => hrun (junk io jo ia ir) (hj.imp (fun h => h io jo ia ir) id)) grads fun x => ⟨(hG x).2, hG2 x⟩
  exact ⟨grads', e, fun x => GradsIncreased.of_added (r x) (hG2 x) d⟩

end

/-- **C106, all terms.** The four references make up the whole: matrix elements of the four kinds of terms add up to the matrix element of the
pseudopotentials, for all shells and wherever the atoms are. -/
theorem molecular_terms_sum (A B : Shell) (move : Point → Point) (atoms : List (Nat × Point)) (grpps : List (Option GrppData)) (x : Fin 4) (m n : ℕ) :
    ((moleculeGrpps atoms grpps).map fun o => grppElement A B (move o.2) o.1 x m n).sum =
      ((moleculeParts localPart atoms grpps).map fun o => grppElement A B (move o.2) o.1 x m n).sum +
      ((moleculeParts arepParts atoms grpps).map fun o => grppElement A B (move o.2) o.1 x m n).sum +
      ((moleculeParts esopParts atoms grpps).map fun o => grppElement A B (move o.2) o.1 x m n).sum +
      ((moleculeParts ocPart atoms grpps).map fun o => grppElement A B (move o.2) o.1 x m n).sum := by
  have nil : ∀ C, ocElement A B C [] x m n = 0 := fun C => by simp [ocElement]
  simp only [moleculeParts_sum]
  induction moleculeGrpps atoms grpps with
  | nil => simp
  | cons o l ih =>
    simp only [List.map_cons, List.sum_cons]
    rw [ih]
    have key : grppElement A B (move o.2) o.1 x m n = ((localPart o.1).map fun g => grppElement A B (move o.2) g x m n).sum +
        ((arepParts o.1).map fun g => grppElement A B (move o.2) g x m n).sum + ((esopParts o.1).map fun g => grppElement A B (move o.2) g x m n).sum +
        ((ocPart o.1).map fun g => grppElement A B (move o.2) g x m n).sum := by
      simp only [localPart, arepParts, esopParts, ocPart, List.map_map, List.map_cons, List.map_nil, List.sum_cons, List.sum_nil, add_zero, Function.comp_def]
      unfold grppElement
      simp only [nil, add_zero]
      refine Fin.cases ?_ (fun k => ?_) x
      · simp [localPotElement]
      · simp [localPotElement]
    rw [key]
    ring

/-- **C106, the routines behind.** On live objects in memory the library's routines for single terms return what `scalarTermGradient` and
`soTermGradient`, with which the driver is modelled, say; the objects they create are gone afterwards. -/
theorem term_routines_agree (e : GradEnv) (h : Store) (hw : h.WF) :
    (∀ (pot : Option Addr) (u : Option Potential), ((pot = none ∧ u = none) ∨ ∃ a v, pot = some a ∧ h.mem a = some (.pot v) ∧ u = some v) → ∀ grad,
      ∃ h', Restored h h' ∧ type1Gradient e h pot grad =
        (scalarTermGradient e.gen e.junk (fun S T M => fullGrpp e.K e.init S T ⟨u, [], [], []⟩ e.C M) e.A e.B e.C e.D grad >>= fun r => .ok (h', r))) ∧
    (∀ a u, h.mem a = some (.pot u) → ∀ grad, ∃ h', Restored h h' ∧ type2Gradient e h (some a) grad =
        (scalarTermGradient e.gen e.junk (fun S T M => fullGrpp e.K e.init S T ⟨none, [u], [], []⟩ e.C M) e.A e.B e.C e.D grad >>= fun r => .ok (h', r))) ∧
    (∀ a u, h.mem a = some (.pot u) → ∀ grad, ∃ h', Restored h h' ∧ soGradient e h (some a) grad =
        (soTermGradient e.gen e.junk (fun S T M => fullGrpp e.K e.init S T ⟨none, [], [u], []⟩ e.C M) e.A e.B e.C e.D u.L grad >>= fun r => .ok (h', r))) := by
  refine ⟨fun pot u hp grad => ?_, fun a u ha grad => ?_, fun a u ha grad => ?_⟩
  · obtain ⟨h', hr, ee⟩ := type1_gradient_is_full e h hw pot u hp grad
    refine ⟨h', hr, ee.trans ?_⟩
    unfold scalarTermGradient
    rw [bind_assoc]
    rfl
  · obtain ⟨h', hr, ee⟩ := type2_gradient_is_full e h hw a u ha grad
    refine ⟨h', hr, ee.trans ?_⟩
    unfold scalarTermGradient
    rw [bind_assoc]
    rfl
  · obtain ⟨h', hr, ee⟩ := so_gradient_is_full e h hw a u ha grad
    refine ⟨h', hr, ee.trans ?_⟩
    unfold soTermGradient
    simp only [bind_assoc]
    rfl

/-- The sum over the terms of one kind of what the library returns for them. -/
noncomputable def gradTerm {G : Type} (lib : Lib G) (sf : SpecFun) (shells : List Shell) (atoms : List (Nat × Point)) (grpps : List (Option GrppData))
    (parts : GrppData → List GrppData) (x : Fin 4) (a : ℕ) (k : Fin 3) (p q : ℕ) : ℝ :=
  ((moleculeParts parts atoms grpps).map fun o => gradVal lib sf ((basisComps shells).getD p (⟨0, fun _ => 0, 0, [], 0, [], []⟩, 0)).1
    ((basisComps shells).getD q (⟨0, fun _ => 0, 0, [], 0, [], []⟩, 0)).1 o (atoms.getD a (0, fun _ => 0)).2 x k
    ((basisComps shells).getD p (⟨0, fun _ => 0, 0, [], 0, [], []⟩, 0)).2 ((basisComps shells).getD q (⟨0, fun _ => 0, 0, [], 0, [], []⟩, 0)).2).sum

section
variable {G : Type} (lib : Lib G) (hi : lib.init = true) (hbt : BesselOk lib.bt) (ho : DocumentedOrder lib.gen) {eps : ℝ}
  {sf : SpecFun} (hs : LibSpec eps sf)
include hi hbt ho hs

theorem gradient_terms_explicit (shells : List Shell) (atoms : List (Nat × Point)) (grpps : List (Option GrppData))
    (h : GradDriverInput lib.gen shells atoms grpps) :
    ∀ (junk : ℕ → ℕ → ℕ → ℕ → Option (ℕ → ℝ)) (junk' : ℕ → ℕ → ℕ → ℕ → ℕ → Option (ℕ → ℝ)),
      (((∀ io jo ia ir, junk io jo ia ir ≠ none) ∧ ∀ io jo ia ir ip, junk' io jo ia ir ip ≠ none) ∨ ∀ s ∈ shells, s.L = 0) →
      ∀ (grad : List (List ℝ)) (grads3 : Fin 3 → List (List ℝ)) (grads4 : Fin 4 → List (List ℝ)),
      GradArrays atoms.length (basisComps shells).length grad →
      (∀ x, GradArrays atoms.length (basisComps shells).length (grads3 x) ∧ (grads3 x).length = (grads3 0).length) →
      (∀ x, GradArrays atoms.length (basisComps shells).length (grads4 x) ∧ (grads4 x).length = (grads4 0).length) →
      (∃ r, evalType1Grad lib.gen junk (fun g C S T M => fullGrpp (libKernels lib sf) lib.init S T g C M) shells atoms grpps grad = .ok r ∧
        GradsIncreased atoms.length (basisComps shells).length (gradTerm lib sf shells atoms grpps localPart 0) grad r) ∧
      (∃ r, evalType2Grad lib.gen junk' (fun g C S T M => fullGrpp (libKernels lib sf) lib.init S T g C M) shells atoms grpps grad = .ok r ∧
        GradsIncreased atoms.length (basisComps shells).length (gradTerm lib sf shells atoms grpps arepParts 0) grad r) ∧
      (∃ r, evalSOGrad lib.gen junk' (fun g C S T M => fullGrpp (libKernels lib sf) lib.init S T g C M) shells atoms grpps grads3 = .ok r ∧
        ∀ x, GradsIncreased atoms.length (basisComps shells).length (gradTerm lib sf shells atoms grpps esopParts x.succ) (grads3 x) (r x)) ∧
      (∃ r, evalOcGrad lib.gen junk (fun g C S T M => fullGrpp (libKernels lib sf) lib.init S T g C M) shells atoms grpps grads4 = .ok r ∧
        ∀ x, GradsIncreased atoms.length (basisComps shells).length (gradTerm lib sf shells atoms grpps ocPart x) (grads4 x) (r x)) ∧
      ∃ r, evalGrppGrad lib.gen junk (fun g C S T M => fullGrpp (libKernels lib sf) lib.init S T g C M) shells atoms grpps grads4 = .ok r ∧
        GradsIncreased atoms.length (basisComps shells).length (fun a k p q => gradTerm lib sf shells atoms grpps localPart 0 a k p q + gradTerm lib sf shells atoms grpps arepParts 0 a k p q + gradTerm lib sf shells atoms grpps ocPart 0 a k p q) (grads4 0) (r 0) ∧
        ∀ x : Fin 3, GradsIncreased atoms.length (basisComps shells).length (fun a k p q => gradTerm lib sf shells atoms grpps esopParts x.succ a k p q + gradTerm lib sf shells atoms grpps ocPart x.succ a k p q) (grads4 x.succ) (r x.succ) := by
  let d : Shell × Nat := (⟨0, fun _ => 0, 0, [], 0, [], []⟩, 0)
  let d' : Nat × Point := (0, fun _ => 0)
  let V := gradTerm lib sf shells atoms grpps
  have ret : ∀ (parts : GrppData → List GrppData), (∀ g, ∀ h ∈ parts g, PartOf h g) → ∀ junk : Option (Nat → ℝ), (junk ≠ none ∨ ∀ s ∈ shells, s.L = 0) →
      PartsReturn lib.gen junk (libFull lib sf) shells atoms (moleculeParts parts atoms grpps) (gradVal lib sf) := by
    intro parts hparts junk hj
    refine gradVal_returns lib hi hbt ho hs (fun A hA B hB o hm => ?_) h.atoms_ok (fun o hm => ?_) junk hj
    · obtain ⟨g, hg, hp⟩ := moleculeParts_from hm
      exact (hparts g _ hp).input (h.input A hA B hB _ hg)
    · obtain ⟨g, hg, -⟩ := moleculeParts_from hm
      exact moleculeGrpps_on (o := (g, o.2)) hg
  intro junk junk' hj grad grads3 grads4 hG h3 h4
  have hd := h.dim
  have hG2 := hG.2
  rw [basisComps_length] at hd hG2
  have h3' : ∀ x, ∀ m ∈ grads3 x, dimOf shells * dimOf shells ≤ m.length := fun x => by
    have := (h3 x).1.2
    rwa [basisComps_length] at this
  have h4' : ∀ x, ∀ m ∈ grads4 x, dimOf shells * dimOf shells ≤ m.length := fun x => by
    have := (h4 x).1.2
    rwa [basisComps_length] at this
  have j1 : ∀ io jo ia ir, junk io jo ia ir ≠ none ∨ ∀ s ∈ shells, s.L = 0 := fun io jo ia ir => hj.imp (fun h => h.1 io jo ia ir) id
  have j2 : ∀ io jo ia ir ip, junk' io jo ia ir ip ≠ none ∨ ∀ s ∈ shells, s.L = 0 := fun io jo ia ir ip => hj.imp (fun h => h.2 io jo ia ir ip) id
  refine ⟨?_, ?_, ?_, ?_, ?_⟩
  · obtain ⟨r, e, a⟩ := evalType1Grad_spec h.charge hd hG.1 d' (fun io jo ia ir => ret _ localPart_of _ (j1 io jo ia ir)) grad ⟨rfl, hG2⟩
    exact ⟨r, e, GradsIncreased.of_added a hG2 d⟩
  · obtain ⟨r, e, a⟩ := evalType2Grad_spec h.charge hd hG.1 d' (fun io jo ia ir ip => ret _ arepParts_of _ (j2 io jo ia ir ip)) grad ⟨rfl, hG2⟩
    exact ⟨r, e, GradsIncreased.of_added a hG2 d⟩
  · obtain ⟨r, e, a⟩ := evalSOGrad_spec h.charge hd (len := (grads3 0).length) (h3 0).1.1 d'
      (fun io jo ia ir ip => ret _ esopParts_of _ (j2 io jo ia ir ip)) grads3 fun x => ⟨(h3 x).2, h3' x⟩
    exact ⟨r, e, fun x => GradsIncreased.of_added (a x) (h3' x) d⟩
  · obtain ⟨r, e, a⟩ := evalOcGrad_spec h.charge hd (len := (grads4 0).length) (h4 0).1.1 d'
      (fun io jo ia ir => ret _ ocPart_of _ (j1 io jo ia ir)) grads4 fun x => ⟨(h4 x).2, h4' x⟩
    exact ⟨r, e, fun x => GradsIncreased.of_added (a x) (h4' x) d⟩
  · have whole : ∀ junk : Option (Nat → ℝ), (junk ≠ none ∨ ∀ s ∈ shells, s.L = 0) →
        PartsReturn lib.gen junk (libFull lib sf) shells atoms (moleculeGrpps atoms grpps) (gradVal lib sf) := fun junk hj =>
      gradVal_returns lib hi hbt ho hs (fun A hA B hB o hm => h.input A hA B hB o hm) h.atoms_ok (fun o hm => moleculeGrpps_on hm) junk hj
    obtain ⟨r, e, a⟩ := evalGrppGrad_spec (junk := junk) (full := libFull lib sf) (W := gradVal lib sf)
      (fun A hA B hB io jo ia ir a ha o hm => whole _ (j1 io jo ia ir) A hA B hB a ha o hm) h.charge hd (len := (grads4 0).length) grads4
      (fun x => ⟨(h4 x).2, h4' x⟩) (h4 0).1.1 d'
    have inc := fun x => GradsIncreased.of_added (a x) (h4' x) d
    have sum : ∀ x ia k p q, p < (basisComps shells).length → q < (basisComps shells).length →
        ((moleculeGrpps atoms grpps).map fun o => gradVal lib sf ((basisComps shells).getD p d).1 ((basisComps shells).getD q d).1 o (atoms.getD ia d').2 x k
          ((basisComps shells).getD p d).2 ((basisComps shells).getD q d).2).sum =
        V localPart x ia k p q + V arepParts x ia k p q + V esopParts x ia k p q + V ocPart x ia k p q ∧
        V esopParts 0 ia k p q = 0 ∧ (∀ y : Fin 3, V localPart y.succ ia k p q = 0 ∧ V arepParts y.succ ia k p q = 0) := by
      intro x ia k p q hp hq
      obtain ⟨hA, hm⟩ := basisComps_mem2 (A := ((basisComps shells).getD p d).1) (m := ((basisComps shells).getD p d).2) (getD_of_lt hp d)
      obtain ⟨hB, hn⟩ := basisComps_mem2 (A := ((basisComps shells).getD q d).1) (m := ((basisComps shells).getD q d).2) (getD_of_lt hq d)
      have hin := fun o hm => (h.input _ hA _ hB o hm).lib
      have hin' : ∀ {g : GrppData} {o}, o ∈ moleculeGrpps atoms grpps → PartOf g o.1 → GradLib lib.gen _ _ o.2 g := fun hm hg =>
        (hg.input (h.input _ hA _ hB _ hm)).lib
      refine ⟨?_, ?_, fun y => ⟨?_, ?_⟩⟩
      · simp only [V, gradTerm, moleculeParts_sum]
        generalize moleculeGrpps atoms grpps = l at hin
        induction l with
        | nil => simp
        | cons o l ih =>
          simp only [List.map_cons, List.sum_cons]
          rw [ih fun o ho => hin o (List.mem_cons_of_mem _ ho), gradVal_parts lib hi hbt ho hs (hin o (by simp)) _ x k hm hn, allParts]
          simp only [List.map_append, List.sum_append]
          ring
      all_goals
        refine List.sum_eq_zero fun v hv => ?_
        obtain ⟨o, ho', rfl⟩ := List.mem_map.1 hv
        obtain ⟨g, hg, hp'⟩ := moleculeParts_from ho'
      · have := hin' hg (esopParts_of g _ hp')
        obtain ⟨u, -, hu⟩ := List.mem_map.1 hp'
        exact (gradVal_zero lib hi hbt ho hs (o := o) this (by rw [← hu]) _ k hm hn).1 (by rw [← hu]) (by rw [← hu])
      · have := hin' hg (localPart_of g _ hp')
        have hu := List.mem_singleton.1 hp'
        exact (gradVal_zero lib hi hbt ho hs (o := o) this (by rw [hu]) _ k hm hn).2 (by rw [hu]) y
      · have := hin' hg (arepParts_of g _ hp')
        obtain ⟨u, -, hu⟩ := List.mem_map.1 hp'
        exact (gradVal_zero lib hi hbt ho hs (o := o) this (by rw [← hu]) _ k hm hn).2 (by rw [← hu]) y
    refine ⟨r, e, (inc 0).congr fun ia k p q hp hq => ?_, fun x => (inc x.succ).congr fun ia k p q hp hq => ?_⟩
    · obtain ⟨e1, e2, -⟩ := sum 0 ia k p q hp hq
      refine e1.trans ?_
      rw [e2, add_zero]
    · obtain ⟨e1, -, e3⟩ := sum x.succ ia k p q hp hq
      refine e1.trans ?_
      rw [(e3 x).1, (e3 x).2, zero_add, zero_add]

/-- **C106, the sum.** The gradients of the terms add up to the gradient of the whole pseudopotentials (C101), and this exactly, with no error: with `V1` to
`V4` as added by the drivers for the single terms, the driver for the whole adds `V1 + V2 + V4` to the scalar matrices and `V3 + V4` to those of the three
spin-orbit components. -/
theorem molecular_gradient_terms_add (shells : List Shell) (atoms : List (Nat × Point)) (grpps : List (Option GrppData))
    (h : GradDriverInput lib.gen shells atoms grpps) :
    ∃ (V1 V2 : ℕ → Fin 3 → ℕ → ℕ → ℝ) (V3 : Fin 3 → ℕ → Fin 3 → ℕ → ℕ → ℝ) (V4 : Fin 4 → ℕ → Fin 3 → ℕ → ℕ → ℝ),
      ∀ (junk : ℕ → ℕ → ℕ → ℕ → Option (ℕ → ℝ)) (junk' : ℕ → ℕ → ℕ → ℕ → ℕ → Option (ℕ → ℝ)),
        (((∀ io jo ia ir, junk io jo ia ir ≠ none) ∧ ∀ io jo ia ir ip, junk' io jo ia ir ip ≠ none) ∨ ∀ s ∈ shells, s.L = 0) →
        ∀ (grad : List (List ℝ)) (grads3 : Fin 3 → List (List ℝ)) (grads4 : Fin 4 → List (List ℝ)),
        GradArrays atoms.length (basisComps shells).length grad →
        (∀ x, GradArrays atoms.length (basisComps shells).length (grads3 x) ∧ (grads3 x).length = (grads3 0).length) →
        (∀ x, GradArrays atoms.length (basisComps shells).length (grads4 x) ∧ (grads4 x).length = (grads4 0).length) →
        (∃ r, evalType1Grad lib.gen junk (fun g C S T M => fullGrpp (libKernels lib sf) lib.init S T g C M) shells atoms grpps grad = .ok r ∧
          GradsIncreased atoms.length (basisComps shells).length V1 grad r) ∧
        (∃ r, evalType2Grad lib.gen junk' (fun g C S T M => fullGrpp (libKernels lib sf) lib.init S T g C M) shells atoms grpps grad = .ok r ∧
          GradsIncreased atoms.length (basisComps shells).length V2 grad r) ∧
        (∃ r, evalSOGrad lib.gen junk' (fun g C S T M => fullGrpp (libKernels lib sf) lib.init S T g C M) shells atoms grpps grads3 = .ok r ∧
          ∀ x, GradsIncreased atoms.length (basisComps shells).length (V3 x) (grads3 x) (r x)) ∧
        (∃ r, evalOcGrad lib.gen junk (fun g C S T M => fullGrpp (libKernels lib sf) lib.init S T g C M) shells atoms grpps grads4 = .ok r ∧
          ∀ x, GradsIncreased atoms.length (basisComps shells).length (V4 x) (grads4 x) (r x)) ∧
        ∃ r, evalGrppGrad lib.gen junk (fun g C S T M => fullGrpp (libKernels lib sf) lib.init S T g C M) shells atoms grpps grads4 = .ok r ∧
          GradsIncreased atoms.length (basisComps shells).length (fun a k p q => V1 a k p q + V2 a k p q + V4 0 a k p q) (grads4 0) (r 0) ∧
          ∀ x : Fin 3, GradsIncreased atoms.length (basisComps shells).length (fun a k p q => V3 x a k p q + V4 x.succ a k p q) (grads4 x.succ) (r x.succ) := by
  exact ⟨_, _, _, _, gradient_terms_explicit lib hi hbt ho hs shells atoms grpps h⟩

/-- **C106 is false without the assumption on out-of-bounds reads, local terms**: no defined result for any molecule in which a shell of `L > 0` sits on an
atom other than that of a pseudopotential, even if that pseudopotential has no local term. -/
theorem molecular_type1_gradient_undefined (shells : List Shell) (atoms : List (Nat × Point)) (grpps : List (Option GrppData))
    (h : GradDriverInput lib.gen shells atoms grpps) (A : Shell) (hA : A ∈ shells) (hL : 0 < A.L) (o : GrppData × Point)
    (hm : o ∈ moleculeGrpps atoms grpps) (hoA : A.origin ≠ o.2) (grad : List (List ℝ)) (hG : GradArrays atoms.length (basisComps shells).length grad) :
    evalType1Grad lib.gen (fun _ _ _ _ => none) (fun g C S T M => fullGrpp (libKernels lib sf) lib.init S T g C M) shells atoms grpps grad = .ub := by
  have hat := h.atoms_ok
  have hd := h.dim
  have hG2 := hG.2
  have hG1 := hG.1
  rw [basisComps_length] at hd hG2
  obtain ⟨a, ha, ea⟩ := hat.on A hA
  unfold evalType1Grad
  rw [basisDim_eq, Outcome.ok_bind]
  refine forGradCentres_ub (fun g => GradsOk grad.length (dimOf shells) g) grad ⟨rfl, hG2⟩ h.charge ?_ hA ha hm ?_
  · intro S hS T hT io jo h1 h2 ia hia ir o hm s hI
    refine (scalarTermGradient_okUb (gradLib_runs lib hi hbt ho hs ((localPart_of o.1 _ (List.mem_singleton.2 rfl)).input (h.input S hS T hT _ hm))
      (some fun _ => 0) (by simp)) o.2 atoms[ia].2).bind fun b hb => ?_
    obtain ⟨s', e, hI', -⟩ := addGrads_spec hd h1 h2 (fun k => MatIs.of_length (hb k)) 1 s hI (ia := ia) (by omega)
    exact Or.inl ⟨s', e, hI'⟩
  · intro io jo ia ir s h1 h2 hia hI
    unfold scalarTermGradient
    rw [full_gradient_undefined lib hi hbt ho hs ((localPart_of o.1 _ (List.mem_singleton.2 rfl)).input (h.input A hA A hA _ hm)) hL hL a.2 _
      (fun q => by split_ifs <;> exact List.length_replicate.ge)
      (fun hc => hoA ((hat.iff (hat.on A hA) (moleculeGrpps_on hm)).1 hc.1)) (Or.inl (by rw [ea]; exact points_equal_refl _))]
    rfl

/-- **C106 is false without the assumption on out-of-bounds reads, semilocal terms**: the same if that pseudopotential has a semilocal term. -/
theorem molecular_type2_gradient_undefined (shells : List Shell) (atoms : List (Nat × Point)) (grpps : List (Option GrppData))
    (h : GradDriverInput lib.gen shells atoms grpps) (A : Shell) (hA : A ∈ shells) (hL : 0 < A.L) (o : GrppData × Point)
    (hm : o ∈ moleculeGrpps atoms grpps) (hoA : A.origin ≠ o.2) (hne : o.1.arep ≠ []) (grad : List (List ℝ))
    (hG : GradArrays atoms.length (basisComps shells).length grad) :
    evalType2Grad lib.gen (fun _ _ _ _ _ => none) (fun g C S T M => fullGrpp (libKernels lib sf) lib.init S T g C M) shells atoms grpps grad = .ub := by
  have hat := h.atoms_ok
  have hd := h.dim
  have hG2 := hG.2
  have hG1 := hG.1
  rw [basisComps_length] at hd hG2
  obtain ⟨a, ha, ea⟩ := hat.on A hA
  unfold evalType2Grad
  rw [basisDim_eq, Outcome.ok_bind]
  refine forGradCentres_ub (fun g => GradsOk grad.length (dimOf shells) g) grad ⟨rfl, hG2⟩ h.charge ?_ hA ha hm ?_
  all_goals
    have hstep : ∀ S ∈ shells, ∀ T ∈ shells, ∀ io jo, io + S.cart_size ≤ dimOf shells → jo + T.cart_size ≤ dimOf shells → ∀ ia < atoms.length,
        ∀ o ∈ moleculeGrpps atoms grpps, ∀ D : Point, ∀ ip s, ip < o.1.arep.length → GradsOk grad.length (dimOf shells) s →
        OkUb (fun g => GradsOk grad.length (dimOf shells) g) (do
          let u ← rd o.1.arep ip
          let b ← scalarTermGradient lib.gen none (fun S T M => fullGrpp (libKernels lib sf) lib.init S T ⟨none, [u], [], []⟩ o.2 M) S T o.2 D
            fun _ => List.replicate (S.cart_size * T.cart_size) 0
          addGrads (dimOf shells) s S.cart_size T.cart_size b io jo ia 1) := by
      intro S hS T hT io jo h1 h2 ia hia o hm D ip s hip hI
      rw [rd_ok hip, Outcome.ok_bind]
      refine (scalarTermGradient_okUb (gradLib_runs lib hi hbt ho hs ((arepParts_of o.1 _ (List.mem_map.2 ⟨_, List.getElem_mem hip, rfl⟩)).input
        (h.input S hS T hT _ hm)) (some fun _ => 0) (by simp)) o.2 D).bind fun b hb => ?_
      obtain ⟨s', e, hI', -⟩ := addGrads_spec hd h1 h2 (fun k => MatIs.of_length (hb k)) 1 s hI (ia := ia) (by omega)
      exact Or.inl ⟨s', e, hI'⟩
  · intro S hS T hT io jo h1 h2 ia hia ir o hm s hI
    exact (forRange_okUb (fun _ g => GradsOk grad.length (dimOf shells) g) hI fun ip s hip hI => hstep S hS T hT io jo h1 h2 ia hia o hm _ ip s hip hI).1
  · intro io jo ia ir s h1 h2 hia hI
    have h0 := List.length_pos_iff.2 hne
    refine (forRange_okUb (fun _ g => GradsOk grad.length (dimOf shells) g) hI fun ip s hip hI => hstep A hA A hA io jo h1 h2 ia hia o hm _ ip s hip hI).2 0 h0
      fun s hI => ?_
    rw [rd_ok h0, Outcome.ok_bind]
    unfold scalarTermGradient
    rw [full_gradient_undefined lib hi hbt ho hs ((arepParts_of o.1 _ (List.mem_map.2 ⟨_, List.getElem_mem h0, rfl⟩)).input (h.input A hA A hA _ hm))
      hL hL a.2 _ (fun q => by split_ifs <;> exact List.length_replicate.ge)
      (fun hc => hoA ((hat.iff (hat.on A hA) (moleculeGrpps_on hm)).1 hc.1)) (Or.inl (by rw [ea]; exact points_equal_refl _))]
    rfl

/-- **C106 is false without the assumption on out-of-bounds reads, spin-orbit terms.** -/
theorem molecular_so_gradient_undefined (shells : List Shell) (atoms : List (Nat × Point)) (grpps : List (Option GrppData))
    (h : GradDriverInput lib.gen shells atoms grpps) (A : Shell) (hA : A ∈ shells) (hL : 0 < A.L) (o : GrppData × Point)
    (hm : o ∈ moleculeGrpps atoms grpps) (hoA : A.origin ≠ o.2) (hne : o.1.esop ≠ []) (grads : Fin 3 → List (List ℝ))
    (hG : ∀ x, GradArrays atoms.length (basisComps shells).length (grads x) ∧ (grads x).length = (grads 0).length) :
    evalSOGrad lib.gen (fun _ _ _ _ _ => none) (fun g C S T M => fullGrpp (libKernels lib sf) lib.init S T g C M) shells atoms grpps grads = .ub := by
  have hat := h.atoms_ok
  have hd := h.dim
  have hG1 := (hG 0).1.1
  rw [basisComps_length] at hd
  have hG2 : ∀ x, ∀ m ∈ grads x, dimOf shells * dimOf shells ≤ m.length := fun x => by
    have := (hG x).1.2
    rwa [basisComps_length] at this
  obtain ⟨a, ha, ea⟩ := hat.on A hA
  let I : (Fin 3 → List (List ℝ)) → Prop := fun g => ∀ x, GradsOk (grads 0).length (dimOf shells) (g x)
  have hstep : ∀ S ∈ shells, ∀ T ∈ shells, ∀ io jo, io + S.cart_size ≤ dimOf shells → jo + T.cart_size ≤ dimOf shells → ∀ ia < atoms.length,
      ∀ o ∈ moleculeGrpps atoms grpps, ∀ D : Point, ∀ ip s, ip < o.1.esop.length → I s → OkUb I (do
        let u ← rd o.1.esop ip
        let b ← soTermGradient lib.gen none (fun S T M => fullGrpp (libKernels lib sf) lib.init S T ⟨none, [], [u], []⟩ o.2 M) S T o.2 D u.L
          fun _ => List.replicate (S.cart_size * T.cart_size) 0
        addGrads3 (dimOf shells) s S.cart_size T.cart_size b io jo ia (2 / (2 * (u.L : ℝ) + 1))) := by
    intro S hS T hT io jo h1 h2 ia hia o hm D ip s hip hI
    rw [rd_ok hip, Outcome.ok_bind]
    refine (soTermGradient_okUb (gradLib_runs lib hi hbt ho hs ((esopParts_of o.1 _ (List.mem_map.2 ⟨_, List.getElem_mem hip, rfl⟩)).input
      (h.input S hS T hT _ hm)) (some fun _ => 0) (by simp)) o.2 D _).bind fun b hb => ?_
    obtain ⟨s', e, hI', -⟩ := addGrads3_spec hd h1 h2 (fun q k => MatIs.of_length (hb (q, k))) _ s hI (ia := ia) (by omega)
    exact Or.inl ⟨s', e, hI'⟩
  unfold evalSOGrad
  rw [basisDim_eq, Outcome.ok_bind]
  refine forGradCentres_ub I grads (fun x => ⟨(hG x).2, hG2 x⟩) h.charge ?_ hA ha hm ?_
  · intro S hS T hT io jo h1 h2 ia hia ir o hm s hI
    exact (forRange_okUb (fun _ => I) hI fun ip s hip hI => hstep S hS T hT io jo h1 h2 ia hia o hm _ ip s hip hI).1
  · intro io jo ia ir s h1 h2 hia hI
    have h0 := List.length_pos_iff.2 hne
    refine (forRange_okUb (fun _ => I) hI fun ip s hip hI => hstep A hA A hA io jo h1 h2 ia hia o hm _ ip s hip hI).2 0 h0 fun s hI => ?_
    rw [rd_ok h0, Outcome.ok_bind]
    unfold soTermGradient
    rw [full_gradient_undefined lib hi hbt ho hs ((esopParts_of o.1 _ (List.mem_map.2 ⟨_, List.getElem_mem h0, rfl⟩)).input (h.input A hA A hA _ hm))
      hL hL a.2 _ (fun q => by refine Fin.cases ?_ (fun q => ?_) q.1 <;> exact List.length_replicate.ge)
      (fun hc => hoA ((hat.iff (hat.on A hA) (moleculeGrpps_on hm)).1 hc.1)) (Or.inl (by rw [ea]; exact points_equal_refl _))]
    rfl

/-- **C106 is false without the assumption on out-of-bounds reads, outer-core terms**: even if that pseudopotential has none. -/
theorem molecular_oc_gradient_undefined (shells : List Shell) (atoms : List (Nat × Point)) (grpps : List (Option GrppData))
    (h : GradDriverInput lib.gen shells atoms grpps) (A : Shell) (hA : A ∈ shells) (hL : 0 < A.L) (o : GrppData × Point)
    (hm : o ∈ moleculeGrpps atoms grpps) (hoA : A.origin ≠ o.2) (grads : Fin 4 → List (List ℝ))
    (hG : ∀ x, GradArrays atoms.length (basisComps shells).length (grads x) ∧ (grads x).length = (grads 0).length) :
    evalOcGrad lib.gen (fun _ _ _ _ => none) (fun g C S T M => fullGrpp (libKernels lib sf) lib.init S T g C M) shells atoms grpps grads = .ub := by
  have hat := h.atoms_ok
  have hd := h.dim
  have hG1 := (hG 0).1.1
  rw [basisComps_length] at hd
  have hG2 : ∀ x, ∀ m ∈ grads x, dimOf shells * dimOf shells ≤ m.length := fun x => by
    have := (hG x).1.2
    rwa [basisComps_length] at this
  obtain ⟨a, ha, ea⟩ := hat.on A hA
  unfold evalOcGrad
  rw [basisDim_eq, Outcome.ok_bind]
  refine forGradCentres_ub (fun g => ∀ x, GradsOk (grads 0).length (dimOf shells) (g x)) grads (fun x => ⟨(hG x).2, hG2 x⟩) h.charge ?_ hA ha hm ?_
  · intro S hS T hT io jo h1 h2 ia hia ir o hm s hI
    refine (grppGradient_okUb (gradLib_runs lib hi hbt ho hs ((ocPart_of o.1 _ (List.mem_singleton.2 rfl)).input (h.input S hS T hT _ hm))
      (some fun _ => 0) (by simp)) o.2 atoms[ia].2 _ fun _ => List.length_replicate.ge).bind fun b hb => ?_
    obtain ⟨s', e, hI', -⟩ := addGrads4_spec hd h1 h2 (fun q k => MatIs.of_length (hb (q, k))) 1 s hI (ia := ia) (by omega)
    exact Or.inl ⟨s', e, hI'⟩
  · intro io jo ia ir s h1 h2 hia hI
    rw [full_gradient_undefined lib hi hbt ho hs ((ocPart_of o.1 _ (List.mem_singleton.2 rfl)).input (h.input A hA A hA _ hm)) hL hL a.2 _
      (fun q => List.length_replicate.ge)
      (fun hc => hoA ((hat.iff (hat.on A hA) (moleculeGrpps_on hm)).1 hc.1)) (Or.inl (by rw [ea]; exact points_equal_refl _))]
    rfl

end

/-! ## Concrete cases: a `p` shell and an `s` shell on two atoms, a pseudopotential with terms of all kinds on one of them -/

/-- Each of the four drivers returns when out-of-bounds reads return something, and has no defined result otherwise. -/
example (prm : LibParams ℕ) (screen : Screen) (junk : ℕ → ℝ) (grad : List (List ℝ)) (hl : grad.length = 6) (hm : ∀ m ∈ grad, m.length = 16) :
    ∃ (bt : BesselTab) (sf : SpecFun), let full := fun g C S T M => fullGrpp (libKernels ⟨true, prm, bt, cartesianDirac, screen⟩ sf) true S T g C M
      ((∃ r, evalType1Grad cartesianDirac (fun _ _ _ _ => some junk) full
        [exampleShell, sShell] [(2, fun _ => 0), (1, exampleShell.origin)] [none, none, some grppExample] grad = .ok r) ∧
      (∃ r, evalType2Grad cartesianDirac (fun _ _ _ _ _ => some junk) full
        [exampleShell, sShell] [(2, fun _ => 0), (1, exampleShell.origin)] [none, none, some grppExample] grad = .ok r) ∧
      (∃ r, evalSOGrad cartesianDirac (fun _ _ _ _ _ => some junk) full
        [exampleShell, sShell] [(2, fun _ => 0), (1, exampleShell.origin)] [none, none, some grppExample] (fun _ => grad) = .ok r) ∧
      ∃ r, evalOcGrad cartesianDirac (fun _ _ _ _ => some junk) full
        [exampleShell, sShell] [(2, fun _ => 0), (1, exampleShell.origin)] [none, none, some grppExample] (fun _ => grad) = .ok r) ∧
      evalType1Grad cartesianDirac (fun _ _ _ _ => none) full
        [exampleShell, sShell] [(2, fun _ => 0), (1, exampleShell.origin)] [none, none, some grppExample] grad = .ub ∧
      evalType2Grad cartesianDirac (fun _ _ _ _ _ => none) full
        [exampleShell, sShell] [(2, fun _ => 0), (1, exampleShell.origin)] [none, none, some grppExample] grad = .ub ∧
      evalSOGrad cartesianDirac (fun _ _ _ _ _ => none) full
        [exampleShell, sShell] [(2, fun _ => 0), (1, exampleShell.origin)] [none, none, some grppExample] (fun _ => grad) = .ub ∧
      evalOcGrad cartesianDirac (fun _ _ _ _ => none) full
        [exampleShell, sShell] [(2, fun _ => 0), (1, exampleShell.origin)] [none, none, some grppExample] (fun _ => grad) = .ub := by
  have he : LdblEps (1 / 2 ^ 63) := ⟨by norm_num, by norm_num⟩
  obtain ⟨d, hd⟩ := dawson_total he
  obtain ⟨bt, -, hbt⟩ := type2_tables besselTab0
  have hG : GradArrays 2 (basisComps [exampleShell, sShell]).length grad := ⟨by rw [hl], fun m h' => by rw [hm m h', example_basis]⟩
  have hne : exampleShell.origin ≠ (grppExample, (fun _ => 0 : Point)).2 := fun h => by
    have := congrFun h 1
    simp [exampleShell] at this
  have hmem : (grppExample, (fun _ => 0 : Point)) ∈ moleculeGrpps [(2, fun _ => 0), (1, exampleShell.origin)] [none, none, some grppExample] := by
    simp [moleculeGrpps]
  let lib : Lib ℕ := ⟨true, prm, bt, cartesianDirac, screen⟩
  obtain ⟨V1, V2, V3, V4, h⟩ := molecular_gradient_terms_add lib rfl hbt (Or.inl rfl) (sf := ⟨boysLiteral, d⟩) ⟨he, rfl, hd⟩ _ _ _ gradDriverInput_example
  obtain ⟨⟨r1, e1, -⟩, ⟨r2, e2, -⟩, ⟨r3, e3, -⟩, ⟨r4, e4, -⟩, -⟩ := h (fun _ _ _ _ => some junk) (fun _ _ _ _ _ => some junk)
    (Or.inl ⟨fun _ _ _ _ => by simp, fun _ _ _ _ _ => by simp⟩) grad (fun _ => grad) (fun _ => grad) hG (fun _ => ⟨hG, rfl⟩) (fun _ => ⟨hG, rfl⟩)
  exact ⟨bt, ⟨boysLiteral, d⟩, ⟨⟨r1, e1⟩, ⟨r2, e2⟩, ⟨r3, e3⟩, r4, e4⟩,
    molecular_type1_gradient_undefined lib rfl hbt (Or.inl rfl) (sf := ⟨boysLiteral, d⟩) ⟨he, rfl, hd⟩ _ _ _ gradDriverInput_example
      exampleShell (by simp) (by simp [exampleShell]) _ hmem hne grad hG,
    molecular_type2_gradient_undefined lib rfl hbt (Or.inl rfl) (sf := ⟨boysLiteral, d⟩) ⟨he, rfl, hd⟩ _ _ _ gradDriverInput_example
      exampleShell (by simp) (by simp [exampleShell]) _ hmem hne (by simp [grppExample]) grad hG,
    molecular_so_gradient_undefined lib rfl hbt (Or.inl rfl) (sf := ⟨boysLiteral, d⟩) ⟨he, rfl, hd⟩ _ _ _ gradDriverInput_example
      exampleShell (by simp) (by simp [exampleShell]) _ hmem hne (by simp [grppExample]) _ fun _ => ⟨hG, rfl⟩,
    molecular_oc_gradient_undefined lib rfl hbt (Or.inl rfl) (sf := ⟨boysLiteral, d⟩) ⟨he, rfl, hd⟩ _ _ _ gradDriverInput_example
      exampleShell (by simp) (by simp [exampleShell]) _ hmem hne _ fun _ => ⟨hG, rfl⟩⟩

/-- The parts of the example: one local, two semilocal, one spin-orbit and one outer-core part. -/
example : (moleculeParts localPart [(2, fun _ => 0), (1, exampleShell.origin)] [none, none, some grppExample]).length = 1 ∧
    (moleculeParts arepParts [(2, fun _ => 0), (1, exampleShell.origin)] [none, none, some grppExample]).length = 2 ∧
    (moleculeParts esopParts [(2, fun _ => 0), (1, exampleShell.origin)] [none, none, some grppExample]).length = 1 ∧
    (moleculeParts ocPart [(2, fun _ => 0), (1, exampleShell.origin)] [none, none, some grppExample]).length = 1 :=
  ⟨rfl, rfl, rfl, rfl⟩

/-- A potential in memory whose gradient is requested. -/
example (e : GradEnv) (grad : Fin 3 → List ℝ) : ∃ h', Restored exampleStore h' ∧ type1Gradient e exampleStore none grad =
    (scalarTermGradient e.gen e.junk (fun S T M => fullGrpp e.K e.init S T ⟨none, [], [], []⟩ e.C M) e.A e.B e.C e.D grad >>= fun r => .ok (h', r)) :=
  (term_routines_agree e exampleStore exampleStore_wf).1 none none (Or.inl ⟨rfl, rfl⟩) grad

end Libgrpp
