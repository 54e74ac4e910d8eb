import Verif.Lemmas.DriverGrpp
import Verif.Props.Driver
import Verif.Props.GradientLib

/-! # C98: molecular matrices of the pseudopotentials in the driver program

`basisComps shells` is the list of all basis functions of a molecule, `moleculeGrpps atoms grpps` the list of its pseudopotentials with their
centres (file `Verif/Model/DriverGrpp.lean`). -/

namespace Libgrpp

/-- The input of the driver: shells and pseudopotentials which satisfy the preconditions of C86 for all pairs of shells, charges within the table of
pseudopotentials, and a basis whose matrices and lists of pairs can be indexed by an `int`. -/
structure DriverInput (gen : Nat → List Comp) (shells : List Shell) (atoms : List (Nat × Point)) (grpps : List (Option GrppData)) : Prop where
  usable : ∀ s ∈ shells, s.Usable gen
  charge : ∀ a ∈ atoms, a.1 < grpps.length
  place : ∀ A ∈ shells, ∀ B ∈ shells, ∀ o ∈ moleculeGrpps atoms grpps, OnCentre A B o.2 ∨ OffCentre A B o.2
  ready : ∀ A ∈ shells, ∀ B ∈ shells, ∀ o ∈ moleculeGrpps atoms grpps, GrppReady gen A B o.2 o.1
  dim : (basisComps shells).length * (basisComps shells).length ≤ 2147483648
  pairs : shells.length * shells.length * 2 ≤ 2147483647

/-- **C98.** For all molecules which meet the preconditions the driver succeeds and fills its four matrices: each element is within the sum of the
bounds of C86 of the sum of the matrix elements of all pseudopotentials of the molecule, nothing else is written, and the result `V` depends neither on
the order in which the iterations of the parallel loop are executed, nor on what matrices and buffers held before. -/
theorem molecular_grpp {G : Type} (lib : Lib G) (hi : lib.init = true) (hbt : BesselOk lib.bt) (ho : DocumentedOrder lib.gen) {eps : ℝ}
    {sf : SpecFun} (hs : LibSpec eps sf) (shells : List Shell) (atoms : List (Nat × Point)) (grpps : List (Option GrppData))
    (h : DriverInput lib.gen shells atoms grpps) :
    ∃ (Q : Shell → Shell → GrppData × Point → Potential → ℕ → ℕ → ℕ → ℝ) (V : Fin 4 → ℕ → ℕ → ℝ),
      (∀ A ∈ shells, ∀ B ∈ shells, ∀ o ∈ moleculeGrpps atoms grpps, ∀ u ∈ o.1.arep ++ o.1.esop, RadialTable lib A B o.2 u (Q A B o u)) ∧
      (∀ (k : Fin 4) (p q : ℕ) (A B : Shell) (m n : ℕ), (basisComps shells)[p]? = some (A, m) → (basisComps shells)[q]? = some (B, n) →
        |V k p q - ((moleculeGrpps atoms grpps).map fun o => grppElement A B o.2 o.1 k m n).sum| ≤
          ((moleculeGrpps atoms grpps).map fun o => grppErr A B o.2 o.1 (Q A B o) k m n).sum) ∧
      ∀ (order : ℕ → List ℕ) (bufs : ℕ → Fin 4 → List ℝ) (M : Fin 4 → List ℝ), (∀ n, (order n).Perm (List.range n)) →
        (∀ i k, maxBuf ≤ (bufs i k).length) → (∀ k, (basisComps shells).length * (basisComps shells).length ≤ (M k).length) →
        ∃ M', evalGrpp (libKernels lib sf) shells atoms grpps order bufs M = .ok M' ∧
          ∀ k, SameBeyond ((basisComps shells).length * (basisComps shells).length) (M' k) (M k) ∧
            ∀ p q, p < (basisComps shells).length → q < (basisComps shells).length →
              (M' k)[p * (basisComps shells).length + q]? = some (V k p q) := by
  have hv : ∀ (A B : Shell) (o : GrppData × Point), ∃ (Q : Potential → ℕ → ℕ → ℕ → ℝ) (V : Fin 4 → ℕ → ℕ → ℝ),
      A ∈ shells → B ∈ shells → o ∈ moleculeGrpps atoms grpps → (∀ u ∈ o.1.arep ++ o.1.esop, RadialTable lib A B o.2 u (Q u)) ∧
      (∀ q m n, m < A.cart_size → n < B.cart_size → |V q m n - grppElement A B o.2 o.1 q m n| ≤ grppErr A B o.2 o.1 Q q m n) ∧
      ∀ M : Fin 4 → List ℝ, (∀ q, A.cart_size * B.cart_size ≤ (M q).length) →
        ∃ M', fullGrpp (libKernels lib sf) lib.init A B o.1 o.2 M = .ok M' ∧
          ∀ q, SameBeyond (A.cart_size * B.cart_size) (M' q) (M q) ∧ ∀ m n, m < A.cart_size → n < B.cart_size →
            (M' q)[m * B.cart_size + n]? = some (V q m n) := by
    intro A B o
    by_cases hc : A ∈ shells ∧ B ∈ shells ∧ o ∈ moleculeGrpps atoms grpps
    · obtain ⟨hA, hB, hm⟩ := hc
      obtain ⟨Q, V, h1⟩ := full_grpp_values lib hi hbt ho hs A B (h.usable A hA) (h.usable B hB) o.2 (h.place A hA B hB o hm) o.1
        (h.ready A hA B hB o hm)
      exact ⟨Q, V, fun _ _ _ => h1⟩
    · exact ⟨fun _ _ _ _ => 0, fun _ _ _ => 0, fun hA hB hm => absurd ⟨hA, hB, hm⟩ hc⟩
  choose Q W hQW using hv
  have hin : ∀ s ∈ shells, s.InMolecule lib.gen := fun s hs => ⟨(h.usable s hs).made, (h.usable s hs).L9⟩
  have hfill : PairFills (libKernels lib sf) shells (moleculeGrpps atoms grpps) W := by
    intro A hA B hB o hm M hM
    obtain ⟨M', e, r⟩ := (hQW A B o hA hB hm).2.2 M hM
    exact ⟨M', by rw [driverPair_eq, ← hi]; exact e, fun q => ⟨(r q).1.1, (r q).2⟩⟩
  have hd := h.dim
  have hp := h.pairs
  rw [basisComps_length] at hd
  let d : Shell × Nat := (⟨0, fun _ => 0, 0, [], 0, [], []⟩, 0)
  have hsum : ∀ (p : Nat) (f : Shell × Nat), (basisComps shells)[p]? = some f → (basisComps shells).getD p d = f := by
    intro p f hf; simp [List.getD, hf]
  refine ⟨Q, fun k p q => ((moleculeGrpps atoms grpps).map fun o =>
      W ((basisComps shells).getD p d).1 ((basisComps shells).getD q d).1 o k ((basisComps shells).getD p d).2 ((basisComps shells).getD q d).2).sum,
    fun A hA B hB o hm => (hQW A B o hA hB hm).1, ?_, ?_⟩
  · intro k p q A B m n hf hg
    beta_reduce
    rw [hsum p _ hf, hsum q _ hg]
    have hA : A ∈ shells ∧ m < A.cart_size := by
      have := List.mem_of_getElem? hf
      simp only [basisComps, List.mem_flatMap, List.mem_map, List.mem_range] at this
      obtain ⟨s, hs, m', hm', e⟩ := this
      obtain ⟨rfl, rfl⟩ := Prod.mk.inj e
      exact ⟨hs, hm'⟩
    have hB : B ∈ shells ∧ n < B.cart_size := by
      have := List.mem_of_getElem? hg
      simp only [basisComps, List.mem_flatMap, List.mem_map, List.mem_range] at this
      obtain ⟨s, hs, m', hm', e⟩ := this
      obtain ⟨rfl, rfl⟩ := Prod.mk.inj e
      exact ⟨hs, hm'⟩
    exact list_sum_close _ _ _ _ fun o hm => (hQW A B o hA.1 hB.1 hm).2.1 k m n hA.2 hB.2
  · intro order bufs M hord hb hM
    rw [basisComps_length] at hM ⊢
    obtain ⟨M', e, r⟩ := evalGrpp_spec hfill h.charge hd hp (fun A hA B hB =>
      (Nat.mul_le_mul (hin A hA).size_le (hin B hB).size_le).trans (by unfold maxBuf; omega)) hord hb M hM
    refine ⟨M', e, fun k => ⟨(r k).1, fun p q hp hq => ?_⟩⟩
    have key := basisComps_pairs (shells := shells) (P := fun p q f g => (M' k)[p * dimOf shells + q]? =
      some ((moleculeGrpps atoms grpps).map fun o => W f.1 g.1 o k f.2 g.2).sum) fun i j m n hi hj hm hn => (r k).2 i j m n hi hj hm hn
    rw [← basisComps_length] at hp hq
    exact key p q _ _ (by simp [List.getD, hp]) (by simp [List.getD, hq])

/-- **C98** (order). With matrices of exactly the required size the whole result is the same for every order of the iterations and all previous
contents of matrices and buffers. -/
theorem molecular_grpp_deterministic {G : Type} (lib : Lib G) (hi : lib.init = true) (hbt : BesselOk lib.bt) (ho : DocumentedOrder lib.gen) {eps : ℝ}
    {sf : SpecFun} (hs : LibSpec eps sf) (shells : List Shell) (atoms : List (Nat × Point)) (grpps : List (Option GrppData))
    (h : DriverInput lib.gen shells atoms grpps) (order order' : ℕ → List ℕ) (bufs bufs' : ℕ → Fin 4 → List ℝ) (M M' : Fin 4 → List ℝ)
    (ho1 : ∀ n, (order n).Perm (List.range n)) (ho2 : ∀ n, (order' n).Perm (List.range n)) (hb1 : ∀ i k, (bufs i k).length = maxBuf)
    (hb2 : ∀ i k, (bufs' i k).length = maxBuf) (hM1 : ∀ k, (M k).length = (basisComps shells).length * (basisComps shells).length)
    (hM2 : ∀ k, (M' k).length = (basisComps shells).length * (basisComps shells).length) :
    evalGrpp (libKernels lib sf) shells atoms grpps order bufs M = evalGrpp (libKernels lib sf) shells atoms grpps order' bufs' M' := by
  obtain ⟨Q, V, -, -, hV⟩ := molecular_grpp lib hi hbt ho hs shells atoms grpps h
  obtain ⟨R, e, r⟩ := hV order bufs M ho1 (fun i k => (hb1 i k).ge) fun k => (hM1 k).ge
  obtain ⟨R', e', r'⟩ := hV order' bufs' M' ho2 (fun i k => (hb2 i k).ge) fun k => (hM2 k).ge
  rw [e, e']
  congr 1
  funext k
  refine List.ext_getElem? fun x => ?_
  rcases Nat.lt_or_ge x ((basisComps shells).length * (basisComps shells).length) with hx | hx
  · have hN : 0 < (basisComps shells).length := Nat.pos_of_ne_zero fun h => by simp [h] at hx
    have h1 := (r k).2 _ _ (Nat.div_lt_of_lt_mul hx) (Nat.mod_lt x hN)
    have h2 := (r' k).2 _ _ (Nat.div_lt_of_lt_mul hx) (Nat.mod_lt x hN)
    rw [Nat.mul_comm, Nat.div_add_mod] at h1 h2
    rw [h1, h2]
  · rw [List.getElem?_eq_none (by rw [(r k).1.1, hM1]; exact hx), List.getElem?_eq_none (by rw [(r' k).1.1, hM2]; exact hx)]

/-- From 32768 shells on the size of the list of shell pairs is no `int`: undefined behaviour, also where the matrices could be indexed. -/
theorem molecular_grpp_pairs_overflow (K : Kernels) (shells : List Shell) (atoms : List (Nat × Point)) (grpps : List (Option GrppData))
    (order : ℕ → List ℕ) (bufs : ℕ → Fin 4 → List ℝ) (M : Fin 4 → List ℝ) (hn : 32768 ≤ shells.length)
    (hM : ∀ k, (basisComps shells).length * (basisComps shells).length ≤ (M k).length) :
    evalGrpp K shells atoms grpps order bufs M = .ub := by
  simp only [basisComps_length] at hM
  choose M0 e0 _ _ using fun k => memset0_spec (dimOf shells * dimOf shells) (M k) (hM k)
  obtain ⟨offsets, eo, -⟩ := driverOffsets_spec shells
  unfold evalGrpp
  rw [basisDim_eq, Outcome.ok_bind, e0, Outcome.ok_bind, e0, Outcome.ok_bind, e0, Outcome.ok_bind, e0, Outcome.ok_bind, eo, Outcome.ok_bind]
  unfold driverPairs
  rw [Outcome.valid_neg]
  · rfl
  · have : 32768 * 32768 ≤ shells.length * shells.length := Nat.mul_le_mul hn hn
    unfold intMax
    omega

/-! ## Concrete cases -/

/-- A `p` shell and an `s` shell; the `s` shell sits on an atom with a pseudopotential of all kinds of terms, the second atom has none. -/
theorem driverInput_example : DriverInput cartesianDirac [exampleShell, sShell] [(2, fun _ => 0), (1, exampleShell.origin)]
    [none, none, some grppExample] := by
  have hops : moleculeGrpps [(2, fun _ => 0), (1, exampleShell.origin)] [none, none, some grppExample] = [(grppExample, fun _ => 0)] := rfl
  refine ⟨?_, ?_, ?_, ?_, ?_, by simp⟩
  · intro s hs
    simp only [List.mem_cons, List.not_mem_nil, or_false] at hs
    rcases hs with rfl | rfl
    exacts [exampleShell_usable, sShell_usable]
  · intro a ha
    simp only [List.mem_cons, List.not_mem_nil, or_false] at ha
    rcases ha with rfl | rfl <;> simp
  · intro A hA B hB o hm
    rw [hops, List.mem_singleton] at hm
    subst hm
    simp only [List.mem_cons, List.not_mem_nil, or_false] at hA hB
    rcases hA with rfl | rfl <;> rcases hB with rfl | rfl
    · exact gradInput_pp.place
    · exact Or.inr exampleFar
    · exact Or.inr ⟨exampleFar.2.1, exampleFar.1, fun h => exampleFar.2.2 ⟨h.2, h.1⟩⟩
    · exact Or.inl ⟨rfl, rfl⟩
  · intro A hA B hB o hm
    rw [hops, List.mem_singleton] at hm
    subst hm
    simp only [List.mem_cons, List.not_mem_nil, or_false] at hA hB
    refine grppExample_up A B ?_ ?_ _
    · rcases hA with rfl | rfl <;> simp [exampleShell, sShell]
    · rcases hB with rfl | rfl <;> simp [exampleShell, sShell]
  · rw [basisComps_length]; simp [dimOf, exampleShell, sShell]

/-- All preconditions can be met at once: four basis functions, the iterations in reverse order. -/
example (prm : LibParams ℕ) (screen : Screen) (M : Fin 4 → List ℝ) (hM : ∀ q, (M q).length = 17) :
    ∃ (bt : BesselTab) (sf : SpecFun) (M' : Fin 4 → List ℝ), evalGrpp (libKernels ⟨true, prm, bt, cartesianDirac, screen⟩ sf)
      [exampleShell, sShell] [(2, fun _ => 0), (1, exampleShell.origin)] [none, none, some grppExample] (fun n => (List.range n).reverse)
      (fun _ _ => List.replicate maxBuf 0) M = .ok M' ∧ ∀ q, (M' q)[16]? = (M q)[16]? := by
  have he : LdblEps (1 / 2 ^ 63) := ⟨by norm_num, by norm_num⟩
  obtain ⟨d, hd⟩ := dawson_total he
  obtain ⟨bt, -, hbt⟩ := type2_tables besselTab0
  have hl : (basisComps [exampleShell, sShell]).length = 4 := by rw [basisComps_length]; simp [dimOf, exampleShell, sShell]
  obtain ⟨Q, V, -, -, h⟩ := molecular_grpp (⟨true, prm, bt, cartesianDirac, screen⟩ : Lib ℕ) rfl hbt (Or.inl rfl) (sf := ⟨boysLiteral, d⟩) ⟨he, rfl, hd⟩
    _ _ _ driverInput_example
  obtain ⟨M', h1, h2⟩ := h (fun n => (List.range n).reverse) (fun _ _ => List.replicate maxBuf 0) M (fun n => List.reverse_perm _)
    (fun _ _ => by rw [List.length_replicate]) fun k => by rw [hM, hl]; omega
  exact ⟨bt, _, M', h1, fun q => (h2 q).1.2 16 (by rw [hl])⟩

example (K : Kernels) (M : Fin 4 → List ℝ) (hM : ∀ k, (M k).length = 32768 * 32768) :
    evalGrpp K (List.replicate 32768 sShell) [] [] List.range (fun _ _ => []) M = .ub := by
  refine molecular_grpp_pairs_overflow _ _ _ _ _ _ _ (by rw [List.length_replicate]) fun k => ?_
  rw [basisComps_length, hM]
  have : dimOf (List.replicate 32768 sShell) = 32768 := by
    rw [dimOf, List.map_replicate, List.sum_replicate]
    simp [sShell]
  rw [this]

end Libgrpp
