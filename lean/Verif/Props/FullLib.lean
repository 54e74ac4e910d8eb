import Verif.Lemmas.FullLib

/-! # C86: the full integrals of a generalised relativistic pseudopotential, with the routines of the library

The reference is `grppElement`, the matrix elements of the pseudopotential operator. -/

namespace Libgrpp

open MeasureTheory

/-- What is required of a pseudopotential: the terms of the local and outer-core potentials have powers `0`, `1`, `2`, in the range where the
auxiliary functions are available; the semilocal and spin-orbit potentials satisfy the preconditions of C77-C79; the outer-core shells are as the
constructor makes them, with `J = L ± 1/2` and no tiny coefficients. -/
structure GrppReady (gen : Nat → List Comp) (A B : Shell) (C : Point) (g : GrppData) : Prop where
  local_ : ∀ p, g.local_ = some p → p.WF ∧ ∀ k < p.num, InRange A B C (p.powers.getD k 0) (p.alpha.getD k 0)
  arep : ∀ u ∈ g.arep, SemiReady A B C u
  esop : ∀ u ∈ g.esop, SemiReady A B C u
  oc : ∀ e ∈ g.oc, OcBase gen e.1 e.2 ∧ OcRange A B C e.1 e.2 ∧ e.2.NoTiny

/-- The bound: the errors of the local, semilocal, spin-orbit and outer-core parts. `Q u` is the table of radial integrals for `u`. -/
noncomputable def grppErr (A B : Shell) (C : Point) (g : GrppData) (Q : Potential → ℕ → ℕ → ℕ → ℝ) (q : Fin 4) (m n : ℕ) : ℝ :=
  Fin.cases (g.local_.elim 0 (fun p => localErr A B C p m n) + (g.arep.map fun u => semiErr A B C u (Q u) m n).sum)
    (fun k => (g.esop.map fun u => 2 / (2 * (u.L : ℝ) + 1) * soErr A B C u (Q u) k m n).sum) q + ocErr A B C g.oc q m n

theorem list_sum_close {α : Type} (l : List α) (f g e : α → ℝ) (h : ∀ a ∈ l, |f a - g a| ≤ e a) : |(l.map f).sum - (l.map g).sum| ≤ (l.map e).sum := by
  induction l with
  | nil => simp
  | cons a l ih =>
    simp only [List.map_cons, List.sum_cons]
    rw [add_sub_add_comm]
    exact (abs_add_le _ _).trans (add_le_add (h a (by simp)) (ih fun b hb => h b (by simp [hb])))

/-- **C86.** For all shells, centres and pseudopotentials which meet the preconditions, `libgrpp_full_grpp_integrals` with the library's own
integral routines and special functions succeeds and overwrites the `A × B` elements of its four matrices, and nothing else. Each of them is within
the bound `grppErr` of the matrix element of the pseudopotential. The bound consists of the tabulated errors of the special functions, the
thresholds, and the errors of the radial integrals which the semilocal and spin-orbit routines tabulate. The values `V` do not depend on what
the matrices held before. -/
theorem full_grpp_values {G : Type} (lib : Lib G) (hi : lib.init = true) (hbt : BesselOk lib.bt) (ho : DocumentedOrder lib.gen) {eps : ℝ}
    {sf : SpecFun} (hs : LibSpec eps sf) (A B : Shell) (hA : A.Usable lib.gen) (hB : B.Usable lib.gen) (C : Point)
    (hpl : OnCentre A B C ∨ OffCentre A B C) (g : GrppData) (hg : GrppReady lib.gen A B C g) :
    ∃ (Q : Potential → ℕ → ℕ → ℕ → ℝ) (V : Fin 4 → ℕ → ℕ → ℝ), (∀ u ∈ g.arep ++ g.esop, RadialTable lib A B C u (Q u)) ∧
      (∀ q m n, m < A.cart_size → n < B.cart_size → |V q m n - grppElement A B C g q m n| ≤ grppErr A B C g Q q m n) ∧
      ∀ M : Fin 4 → List ℝ, (∀ q, A.cart_size * B.cart_size ≤ (M q).length) →
        ∃ M', fullGrpp (libKernels lib sf) lib.init A B g C M = .ok M' ∧
          ∀ q, SameBeyond (A.cart_size * B.cart_size) (M' q) (M q) ∧ ∀ m n, m < A.cart_size → n < B.cart_size →
            (M' q)[m * B.cart_size + n]? = some (V q m n) := by
  have sA := hA.made.supported ho hA.L9
  have sB := hB.made.supported ho hB.L9
  have nA := hA.kept.noTiny
  have nB := hB.kept.noTiny
  have hsemi : ∀ u ∈ g.arep ++ g.esop, SemiReady A B C u := fun u hu =>
    (List.mem_append.1 hu).elim (hg.arep u) (hg.esop u)
  choose! t Q hQ1 hQ2 hQ3 using fun u hu => radialTable_exists lib hbt ho hA hB hpl (hsemi u hu)
  -- local part
  obtain ⟨V1, hV1, eV1⟩ : ∃ V : ℕ → ℕ → ℝ, (∀ l : List ℝ, l.length = A.cart_size * B.cart_size →
      ∃ l', type1Integrals sf true A B C g.local_ l = .ok l' ∧ l'.length = A.cart_size * B.cart_size ∧ MatIs A.cart_size B.cart_size l' V) ∧
      ∀ m n, m < A.cart_size → n < B.cart_size →
        |V m n - localPotElement A B C g.local_ m n| ≤ g.local_.elim 0 (fun p => localErr A B C p m n) := by
    cases hl : g.local_ with
    | none =>
      refine ⟨fun _ _ => 0, fun l hlen => ⟨List.replicate (A.cart_size * B.cart_size) 0, ?_, by simp, fun m n hm hn => ?_⟩, fun m n _ _ => ?_⟩
      · unfold type1Integrals
        simp only [Outcome.assert_pos, Outcome.ok_bind, memset0_full hlen]
      · exact List.getElem?_replicate_of_lt (rowMajor_lt hm hn)
      · simp [localPotElement]
    | some p =>
      obtain ⟨V, h1, h2⟩ := type1_numeric hs sA sB C (hg.local_ p hl).1 (hg.local_ p hl).2
      refine ⟨V, fun l hlen => ?_, fun m n hm hn => ?_⟩
      · obtain ⟨l', k1, k2, k3⟩ := h1 l hlen.ge
        exact ⟨l', k1, k3.1.trans hlen, k2⟩
      · have := h2 m n hm hn
        rw [dropTiny_same A nA, dropTiny_same B nB] at this
        exact this
  -- semilocal parts
  choose! V2 hV2 eV2 using fun u (hu : u ∈ g.arep) => type2_numeric lib hi ho hA hB hpl (hg.arep u hu)
    (hQ2 u (List.mem_append_left _ hu)) (hQ3 u (List.mem_append_left _ hu))
  -- spin-orbit parts
  choose! V3 hV3 eV3 using fun u (hu : u ∈ g.esop) => so_numeric lib hi ho hA hB hpl (hg.esop u hu)
    (hQ2 u (List.mem_append_right _ hu)) (hQ3 u (List.mem_append_right _ hu))
  -- outer-core part
  obtain ⟨V4, hV4, eV4⟩ := outerCore_numeric ho hs sA sB nA nB C hg.oc
  have mat : ∀ {l : List ℝ} {V : ℕ → ℕ → ℝ}, l.length = A.cart_size * B.cart_size → MatIs A.cart_size B.cart_size l V →
      BufIs (A.cart_size * B.cart_size) l fun p => V (p / B.cart_size) (p % B.cart_size) := by
    intro l V hl hm
    refine ⟨hl, fun p hp => ?_⟩
    have hB0 : 0 < B.cart_size := by
      rcases Nat.eq_zero_or_pos B.cart_size with h | h
      · rw [h, mul_zero] at hp; omega
      · exact h
    have := hm (p / B.cart_size) (p % B.cart_size) (Nat.div_lt_of_lt_mul (by rwa [mul_comm] at hp)) (Nat.mod_lt _ hB0)
    rwa [Nat.div_add_mod'] at this
  have hK : (libKernels lib sf).ComputesFor A B C g (fun p => V1 (p / B.cart_size) (p % B.cart_size))
      (fun u p => V2 u (p / B.cart_size) (p % B.cart_size)) (fun u k p => V3 u k (p / B.cart_size) (p % B.cart_size))
      (fun q p => V4 q (p / B.cart_size) (p % B.cart_size)) := by
    refine ⟨fun l hl => ?_, fun u hu l hl => ?_, fun u hu l hl => ?_, fun l hl => ?_⟩
    · obtain ⟨l', h1, h2, h3⟩ := hV1 l hl
      exact ⟨l', by simp only [libKernels, hi]; exact h1, mat h2 h3⟩
    · obtain ⟨l', h1, h2, h3⟩ := hV2 u hu l hl.ge
      exact ⟨l', h1, mat (h3.1.trans hl) h2⟩
    · obtain ⟨l', h1, h2⟩ := hV3 u hu l hl
      exact ⟨l', h1, fun k => mat (h2 k).1 (h2 k).2⟩
    · obtain ⟨l', h1, h2⟩ := hV4 l fun q => (hl q).ge
      exact ⟨l', by simp only [libKernels, hi, h1, Outcome.ok_bind], fun q => mat ((h2 q).1.1.trans (hl q)) (h2 q).2⟩
  refine ⟨Q, fun q m n => Fin.cases (V1 m n + (g.arep.map fun u => V2 u m n).sum)
    (fun k => (g.esop.map fun u => 2 / (2 * (u.L : ℝ) + 1) * V3 u k m n).sum) q + V4 q m n, hQ1, fun q m n hm hn => ?_, fun M hM => ?_⟩
  · refine Fin.cases ?_ (fun k => ?_) q
    · simp only [grppElement, grppErr, Fin.cases_zero]
      rw [add_sub_add_comm]
      refine (abs_add_le _ _).trans (add_le_add ?_ (eV4 0 m n hm hn))
      rw [add_sub_add_comm]
      exact (abs_add_le _ _).trans (add_le_add (eV1 m n hm hn) (list_sum_close _ _ _ _ fun u hu => eV2 u hu m n hm hn))
    · simp only [grppElement, grppErr, Fin.cases_succ]
      rw [add_sub_add_comm]
      refine (abs_add_le _ _).trans (add_le_add (list_sum_close _ _ _ _ fun u hu => ?_) (eV4 k.succ m n hm hn))
      have hw : (0:ℝ) ≤ 2 / (2 * (u.L : ℝ) + 1) := by
        have : (0:ℝ) ≤ u.L := by exact_mod_cast (hg.esop u hu).nonneg
        positivity
      rw [← mul_sub, abs_mul, abs_of_nonneg hw]
      exact mul_le_mul_of_nonneg_left (eV3 u hu k m n hm hn) hw
  obtain ⟨M', h1, h2, h3⟩ := full_is_sum_for _ A B g C hK M hM
  refine ⟨M', by rw [hi]; exact h1, fun q => ⟨h3 q, fun m n hm hn => ?_⟩⟩
  have hd : (m * B.cart_size + n) / B.cart_size = m := by
    rw [mul_comm, Nat.mul_add_div (by omega), Nat.div_eq_of_lt hn, add_zero]
  have hmod : (m * B.cart_size + n) % B.cart_size = n := by rw [mul_comm, Nat.mul_add_mod, Nat.mod_eq_of_lt hn]
  obtain ⟨r0, rk⟩ := h2 _ (rowMajor_lt hm hn)
  simp only [hd, hmod] at r0 rk
  exact Fin.cases r0 rk q

/-- The same, element by element. -/
theorem full_grpp_correct {G : Type} (lib : Lib G) (hi : lib.init = true) (hbt : BesselOk lib.bt) (ho : DocumentedOrder lib.gen) {eps : ℝ}
    {sf : SpecFun} (hs : LibSpec eps sf) (A B : Shell) (hA : A.Usable lib.gen) (hB : B.Usable lib.gen) (C : Point)
    (hpl : OnCentre A B C ∨ OffCentre A B C) (g : GrppData) (hg : GrppReady lib.gen A B C g) :
    ∃ Q : Potential → ℕ → ℕ → ℕ → ℝ, (∀ u ∈ g.arep ++ g.esop, RadialTable lib A B C u (Q u)) ∧
      ∀ M : Fin 4 → List ℝ, (∀ q, A.cart_size * B.cart_size ≤ (M q).length) →
        ∃ M', fullGrpp (libKernels lib sf) lib.init A B g C M = .ok M' ∧
          ∀ q, SameBeyond (A.cart_size * B.cart_size) (M' q) (M q) ∧ ∀ m n, m < A.cart_size → n < B.cart_size →
            ∃ v, (M' q)[m * B.cart_size + n]? = some v ∧ |v - grppElement A B C g q m n| ≤ grppErr A B C g Q q m n := by
  obtain ⟨Q, V, h1, h2, h3⟩ := full_grpp_values lib hi hbt ho hs A B hA hB C hpl g hg
  refine ⟨Q, h1, fun M hM => ?_⟩
  obtain ⟨M', e, h⟩ := h3 M hM
  exact ⟨M', e, fun q => ⟨(h q).1, fun m n hm hn => ⟨_, (h q).2 m n hm hn, h2 q m n hm hn⟩⟩⟩

/-- **C86.** What the scalar and spin-orbit parts of a semilocal potential mean together, at each radius. Let `U₊` and `U₋` be the potentials for
`j = L + 1/2` and `j = L - 1/2`. With the scalar potential `((L + 1) U₊ + L U₋)/(2L + 1)`, the spin-orbit potential `U₊ - U₋` and the weight
`2/(2L + 1)` of the library, the four parts combined with spin are `U₊ P_{L,L+1/2} + U₋ P_{L,L-1/2}`, with the projectors on spinors. -/
theorem semilocal_spinors (L : ℕ) (Up Um : ℝ) (a b : ℕ → ℝ) (σ τ : Fin 2) :
    withSpin (fun q => Fin.cases ((((L : ℝ) + 1) * Up + L * Um) / (2 * L + 1) * sandwich (2 * L + 1) projector a b)
      (fun k => 2 / (2 * (L : ℝ) + 1) * ((Up - Um) * sandwich (2 * L + 1) (rotationMatrix L k) a b)) q) σ τ =
      Up * spinSandwich L (2 * L + 1) a b σ τ + Um * spinSandwich L (2 * L - 1) a b σ τ := by
  rw [← withSpin_sandwich, ← withSpin_sandwich]
  have hp : (2 * (L : ℝ) + 1) ≠ 0 := by positivity
  have e : (fun q : Fin 4 => (Fin.cases ((((L : ℝ) + 1) * Up + L * Um) / (2 * L + 1) * sandwich (2 * L + 1) projector a b)
      (fun k => 2 / (2 * (L : ℝ) + 1) * ((Up - Um) * sandwich (2 * L + 1) (rotationMatrix L k) a b)) q : ℝ)) = fun q =>
      Up * (spinorWeight L (2 * L + 1) q * sandwich (2 * L + 1) (ocMatrix L q) a b) +
      Um * (spinorWeight L (2 * L - 1) q * sandwich (2 * L + 1) (ocMatrix L q) a b) := by
    funext q
    unfold spinorWeight
    refine Fin.cases ?_ (fun k => ?_) q
    · simp only [Fin.cases_zero, if_true]
      have : ocMatrix L 0 = projector := rfl
      rw [this]
      push_cast
      field_simp
      ring
    · simp only [Fin.cases_succ, if_neg (Fin.succ_ne_zero k)]
      have : ocMatrix L k.succ = rotationMatrix L k := rfl
      rw [this]
      push_cast
      field_simp
      ring
  rw [e]
  unfold withSpin
  simp only [Fin.sum_univ_three]
  by_cases h : σ = τ <;> simp only [h, if_true, if_false] <;> push_cast <;> ring

/-- **C86.** Before initialisation the process is stopped. -/
theorem full_grpp_needs_init {G : Type} (lib : Lib G) (hi : lib.init = false) (sf : SpecFun) (A B : Shell) (C : Point) (g : GrppData)
    (M : Fin 4 → List ℝ) : fullGrpp (libKernels lib sf) lib.init A B g C M = .abort := by
  unfold fullGrpp
  rw [hi, Outcome.assert_neg (by simp)]
  rfl

/-- A local potential with all three powers. -/
noncomputable def localThree : Potential := { L := 0, J := 0, num := 3, powers := [2, 1, 0], coeffs := [3, -1, 2], alpha := [1, 4, 0] }

/-- A pseudopotential with all four kinds of terms. -/
noncomputable def grppExample : GrppData := ⟨some localThree, [{ pPotential with L := 0 }, pPotential], [pPotential], [(pOuterCore, exampleShell)]⟩

theorem localThree_range (A B : Shell) (C : Point) (h : A.L + B.L ≤ 15) :
    localThree.WF ∧ ∀ k < localThree.num, InRange A B C (localThree.powers.getD k 0) (localThree.alpha.getD k 0) := by
  refine ⟨by simp [Potential.WF, localThree], fun k hk => ?_⟩
  have : k = 0 ∨ k = 1 ∨ k = 2 := by simp only [localThree] at hk; omega
  rcases this with rfl | rfl | rfl <;> simp [InRange, localThree, h]

theorem sShell_usable : sShell.Usable cartesianDirac := by
  refine ⟨⟨sShell_supported.wf, ?_, ?_, sShell_supported.pos⟩, by simp [sShell], by simp [sShell], ?_⟩
  · simp [sShell, cartSize]
  · simp [sShell]; rfl
  · intro c hc
    simp only [sShell, List.mem_singleton] at hc
    subst hc
    right; norm_num

theorem exampleShell_usable : exampleShell.Usable cartesianDirac := by
  refine ⟨exampleShell_made, by simp [exampleShell], by simp [exampleShell], ?_⟩
  intro c hc
  simp [exampleShell] at hc
  right
  rcases hc with rfl | rfl <;> norm_num

theorem grppExample_ready : GrppReady cartesianDirac exampleShell sShell (fun _ => 0) grppExample := by
  have kp : Kept pPotential.coeffs := by
    intro c hc
    simp [pPotential] at hc
    right
    rcases hc with rfl | rfl <;> norm_num
  have far : ¬ OnCentre exampleShell sShell fun _ => 0 := fun h => by
    have := congrFun h.1 1
    simp [exampleShell] at this
  have semi : ∀ u ∈ [{ pPotential with L := 0 }, pPotential], SemiReady exampleShell sShell (fun _ => 0) u := by
    intro u hu
    simp only [List.mem_cons, List.not_mem_nil, or_false] at hu
    rcases hu with rfl | rfl
    · exact ⟨pPotential_ok.1, pPotential_ok.2, kp, le_rfl, by simp [exampleShell], by simp [sShell], fun h => absurd h far⟩
    · exact ⟨pPotential_ok.1, pPotential_ok.2, kp, by simp [pPotential], by simp [exampleShell, pPotential], by simp [sShell, pPotential],
        fun h => absurd h far⟩
  refine ⟨fun p hp => ?_, semi, fun u hu => semi u ?_, fun e he => ?_⟩
  · obtain rfl := Option.some.inj hp
    exact localThree_range _ _ _ (by simp [exampleShell, sShell])
  · simp only [grppExample, List.mem_singleton] at hu
    simp [hu]
  · simp only [grppExample, List.mem_singleton] at he
    subst he
    refine ⟨(pOuterCore_ready ⟨fun _ _ => 0, fun _ => 0⟩ exampleShell sShell fun _ => 0).toOcBase, fun k hk => ?_, exampleShell_usable.kept.noTiny⟩
    have : k = 0 ∨ k = 1 := by simp only [pOuterCore] at hk; omega
    rcases this with rfl | rfl <;> simp [InRange, pOuterCore]

/-- The pseudopotential of the example, a `p` shell away from its centre and an `s` shell at its centre: all preconditions can be met at once, with the
tables of the library, and the four matrices are written. -/
example (prm : LibParams ℕ) (screen : Screen) (M : Fin 4 → List ℝ) (hM : ∀ q, (M q).length = 4) :
    ∃ (bt : BesselTab) (sf : SpecFun) (M' : Fin 4 → List ℝ), fullGrpp (libKernels ⟨true, prm, bt, cartesianDirac, screen⟩ sf) true exampleShell sShell
      grppExample (fun _ => 0) M = .ok M' ∧ ∀ q, (M' q)[3]? = (M q)[3]? := by
  have he : LdblEps (1 / 2 ^ 63) := ⟨by norm_num, by norm_num⟩
  obtain ⟨d, hd⟩ := dawson_total he
  obtain ⟨bt, -, hbt⟩ := type2_tables besselTab0
  obtain ⟨Q, -, h⟩ := full_grpp_correct (⟨true, prm, bt, cartesianDirac, screen⟩ : Lib ℕ) rfl hbt (Or.inl rfl) (sf := ⟨boysLiteral, d⟩) ⟨he, rfl, hd⟩
    exampleShell sShell exampleShell_usable sShell_usable (fun _ => 0) (Or.inr exampleFar) grppExample grppExample_ready
  obtain ⟨M', h1, h2⟩ := h M (by intro q; rw [hM q]; simp [exampleShell, sShell])
  exact ⟨bt, _, M', h1, fun q => (h2 q).1.2 3 (by simp [exampleShell, sShell])⟩

/-- For `L = 1` and potentials `1` and `0`: the scalar weight is `2/3`. -/
example (a b : ℕ → ℝ) (σ τ : Fin 2) :
    withSpin (fun q => Fin.cases (2 / 3 * sandwich 3 projector a b) (fun k => 2 / 3 * sandwich 3 (rotationMatrix 1 k) a b) q) σ τ =
      spinSandwich 1 3 a b σ τ := by
  have := semilocal_spinors 1 1 0 a b σ τ
  norm_num at this
  exact this

end Libgrpp
