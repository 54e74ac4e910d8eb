import Verif.Lemmas.DriverTerms

/-! # The integrals and gradients of a pseudopotential are the sums of those of its terms, exactly -/

namespace Libgrpp

/-- A pseudopotential made of some of the terms of another one. -/
structure PartOf (h g : GrppData) : Prop where
  local_ : h.local_ = none ∨ h.local_ = g.local_
  arep : ∀ u ∈ h.arep, u ∈ g.arep
  esop : ∀ u ∈ h.esop, u ∈ g.esop
  oc : ∀ e ∈ h.oc, e ∈ g.oc

theorem PartOf.ready {gen : Nat → List Comp} {A B : Shell} {C : Point} {h g : GrppData} (hp : PartOf h g) (hg : GrppReady gen A B C g) :
    GrppReady gen A B C h :=
  ⟨fun p e => hp.local_.elim (fun h => by rw [h] at e; cases e) fun h => hg.local_ p (by rw [← h]; exact e),
    fun u hu => hg.arep u (hp.arep u hu), fun u hu => hg.esop u (hp.esop u hu), fun e he => hg.oc e (hp.oc e he)⟩

theorem PartOf.input {gen : Nat → List Comp} {A B : Shell} {C : Point} {h g : GrppData} (hp : PartOf h g) (hg : GradInput gen A B C g) :
    GradInput gen A B C h :=
  ⟨hg.made_bra, hg.made_ket, hg.L_bra, hg.L_ket, hg.num_bra, hg.num_ket, hg.kept_bra, hg.kept_ket, hg.place, hp.ready hg.up_bra, hp.ready hg.up_ket⟩

theorem localPart_of (g : GrppData) : ∀ h ∈ localPart g, PartOf h g := by
  intro h hh
  simp only [localPart, List.mem_singleton] at hh
  subst hh
  exact ⟨Or.inr rfl, by simp, by simp, by simp⟩

theorem arepParts_of (g : GrppData) : ∀ h ∈ arepParts g, PartOf h g := by
  intro h hh
  obtain ⟨u, hu, rfl⟩ := List.mem_map.1 hh
  exact ⟨Or.inl rfl, by simpa using hu, by simp, by simp⟩

theorem esopParts_of (g : GrppData) : ∀ h ∈ esopParts g, PartOf h g := by
  intro h hh
  obtain ⟨u, hu, rfl⟩ := List.mem_map.1 hh
  exact ⟨Or.inl rfl, by simp, by simpa using hu, by simp⟩

theorem ocPart_of (g : GrppData) : ∀ h ∈ ocPart g, PartOf h g := by
  intro h hh
  simp only [ocPart, List.mem_singleton] at hh
  subst hh
  exact ⟨Or.inl rfl, by simp, by simp, by simp⟩

theorem moleculeParts_from {parts : GrppData → List GrppData} {atoms : List (Nat × Point)} {grpps : List (Option GrppData)} {o : GrppData × Point}
    (h : o ∈ moleculeParts parts atoms grpps) : ∃ g, (g, o.2) ∈ moleculeGrpps atoms grpps ∧ o.1 ∈ parts g := by
  unfold moleculeParts at h
  rw [List.mem_flatMap] at h
  obtain ⟨b, hb, hh⟩ := h
  obtain ⟨g, hg, rfl⟩ := List.mem_map.1 hh
  exact ⟨b.1, hb, hg⟩

/-- The value of an outcome, or a default. -/
def Outcome.okOr {α : Type} (d : α) : Outcome α → α
  | .ok a => a
  | _ => d

/-- Component `q` of the integrals which the library returns for a pseudopotential and a pair of shells. -/
noncomputable def fullVal {G : Type} (lib : Lib G) (sf : SpecFun) (S T : Shell) (C : Point) (h : GrppData) (q : Fin 4) (p : ℕ) : ℝ :=
  ((libFull lib sf h C S T fun _ => List.replicate (S.cart_size * T.cart_size) 0).okOr (fun _ => []) q).getD p 0

section
variable {G : Type} (lib : Lib G) (hi : lib.init = true) (hbt : BesselOk lib.bt) (ho : DocumentedOrder lib.gen) {eps : ℝ}
  {sf : SpecFun} (hs : LibSpec eps sf)
include hi hbt ho hs

theorem fullVal_returns {S T : Shell} {C : Point} {g : GrppData} (h : PairReady lib.gen S T C g) :
    ∃ R, libFull lib sf g C S T (fun _ => List.replicate (S.cart_size * T.cart_size) 0) = .ok R ∧
      ∀ q, (R q).length = S.cart_size * T.cart_size ∧ ∀ p < S.cart_size * T.cart_size, (R q)[p]? = some (fullVal lib sf S T C g q p) := by
  obtain ⟨Q, -, hR⟩ := libFull_returns lib hi hbt ho hs h
  obtain ⟨R, e, hR⟩ := hR (fun _ => List.replicate (S.cart_size * T.cart_size) 0) (by simp)
  refine ⟨R, e, fun q => ⟨(hR q).1, fun p hp => ?_⟩⟩
  unfold fullVal
  rw [e]
  exact getD_of_lt (by rw [(hR q).1]; exact hp) 0

/-- The integral routines of the library compute something for the terms of the pseudopotential; nothing, if there is no local or outer-core part. -/
theorem lib_computes {A B : Shell} {C : Point} {g : GrppData} (h : PairReady lib.gen A B C g) :
    ∃ t1 t2 so oc, (libKernels lib sf).ComputesFor A B C g t1 t2 so oc ∧ (g.local_ = none → ∀ p < A.cart_size * B.cart_size, t1 p = 0) ∧
      (g.oc = [] → ∀ q, ∀ p < A.cart_size * B.cart_size, oc q p = 0) := by
  obtain ⟨hA, hB, hpl, hg⟩ := h
  have sA := hA.made.supported ho hA.L9
  have sB := hB.made.supported ho hB.L9
  have nA := hA.kept.noTiny
  have nB := hB.kept.noTiny
  have hsemi : ∀ u ∈ g.arep ++ g.esop, SemiReady A B C u := fun u hu =>
    (List.mem_append.1 hu).elim (hg.arep u) (hg.esop u)
  choose! t Q hQ1 hQ2 hQ3 using fun u hu => radialTable_exists lib hbt ho hA hB hpl (hsemi u hu)
  obtain ⟨V1, hV1, eV1⟩ : ∃ V : ℕ → ℕ → ℝ, (∀ l : List ℝ, l.length = A.cart_size * B.cart_size →
      ∃ l', type1Integrals sf true A B C g.local_ l = .ok l' ∧ l'.length = A.cart_size * B.cart_size ∧ MatIs A.cart_size B.cart_size l' V) ∧
      (g.local_ = none → ∀ m n, V m n = 0) := by
    cases hl : g.local_ with
    | none =>
      refine ⟨fun _ _ => 0, fun l hlen => ⟨List.replicate (A.cart_size * B.cart_size) 0, ?_, by simp, fun m n hm hn => ?_⟩, fun _ m n => rfl⟩
      · unfold type1Integrals
        simp only [Outcome.assert_pos, Outcome.ok_bind, memset0_full hlen]
      · exact List.getElem?_replicate_of_lt (rowMajor_lt hm hn)
    | some p =>
      obtain ⟨V, h1, h2⟩ := type1_numeric hs sA sB C (hg.local_ p hl).1 (hg.local_ p hl).2
      refine ⟨V, fun l hlen => ?_, fun e => by cases e⟩
      obtain ⟨l', k1, k2, k3⟩ := h1 l hlen.ge
      exact ⟨l', k1, k3.1.trans hlen, k2⟩
  choose! V2 hV2 eV2 using fun u (hu : u ∈ g.arep) => type2_numeric lib hi ho hA hB hpl (hg.arep u hu)
    (hQ2 u (List.mem_append_left _ hu)) (hQ3 u (List.mem_append_left _ hu))
  choose! V3 hV3 eV3 using fun u (hu : u ∈ g.esop) => so_numeric lib hi ho hA hB hpl (hg.esop u hu)
    (hQ2 u (List.mem_append_right _ hu)) (hQ3 u (List.mem_append_right _ hu))
  obtain ⟨V4, hV4, eV4⟩ := outerCore_numeric ho hs sA sB nA nB C hg.oc
  have B0 : ∀ p, p < A.cart_size * B.cart_size → 0 < B.cart_size := by
    intro p hp
    rcases Nat.eq_zero_or_pos B.cart_size with h | h
    · rw [h, mul_zero] at hp; omega
    · exact h
  have mat : ∀ {l : List ℝ} {V : ℕ → ℕ → ℝ}, l.length = A.cart_size * B.cart_size → MatIs A.cart_size B.cart_size l V →
      BufIs (A.cart_size * B.cart_size) l fun p => V (p / B.cart_size) (p % B.cart_size) := by
    intro l V hl hm
    refine ⟨hl, fun p hp => ?_⟩
    have := hm (p / B.cart_size) (p % B.cart_size) (Nat.div_lt_of_lt_mul (by rwa [mul_comm] at hp)) (Nat.mod_lt _ (B0 p hp))
    rwa [Nat.div_add_mod'] at this
  refine ⟨fun p => V1 (p / B.cart_size) (p % B.cart_size), fun u p => V2 u (p / B.cart_size) (p % B.cart_size),
    fun u k p => V3 u k (p / B.cart_size) (p % B.cart_size), fun q p => V4 q (p / B.cart_size) (p % B.cart_size),
    ⟨fun l hl => ?_, fun u hu l hl => ?_, fun u hu l hl => ?_, fun l hl => ?_⟩, fun e p _ => eV1 e _ _, fun e q p hp => ?_⟩
  · obtain ⟨l', h1, h2, h3⟩ := hV1 l hl
    exact ⟨l', by simp only [libKernels, hi]; exact h1, mat h2 h3⟩
  · obtain ⟨l', h1, h2, h3⟩ := hV2 u hu l hl.ge
    exact ⟨l', h1, mat (h3.1.trans hl) h2⟩
  · obtain ⟨l', h1, h2⟩ := hV3 u hu l hl
    exact ⟨l', h1, fun k => mat (h2 k).1 (h2 k).2⟩
  · obtain ⟨l', h1, h2⟩ := hV4 l fun q => (hl q).ge
    exact ⟨l', by simp only [libKernels, hi, h1, Outcome.ok_bind], fun q => mat ((h2 q).1.1.trans (hl q)) (h2 q).2⟩
  · have := eV4 q (p / B.cart_size) (p % B.cart_size) (Nat.div_lt_of_lt_mul (by rwa [mul_comm] at hp)) (Nat.mod_lt _ (B0 p hp))
    rw [e] at this
    have z1 : ocElement A B C [] q (p / B.cart_size) (p % B.cart_size) = 0 := by simp [ocElement]
    have z2 : ocErr A B C [] q (p / B.cart_size) (p % B.cart_size) = 0 := by simp [ocErr]
    rw [z1, z2, sub_zero] at this
    exact abs_eq_zero.1 (le_antisymm this (abs_nonneg _))

omit hi hbt ho hs in
/-- Results of the same call are the same. -/
theorem BufIs.same {n : ℕ} {x : Outcome (List ℝ)} {l l' : List ℝ} {t t' : ℕ → ℝ} (e : x = .ok l) (e' : x = .ok l') (h : BufIs n l t) (h' : BufIs n l' t')
    {p : ℕ} (hp : p < n) : t p = t' p := by
  obtain rfl := Outcome.ok.inj (e.symm.trans e')
  exact Option.some.inj ((h.2 p hp).symm.trans (h'.2 p hp))

/-- The integrals of a pseudopotential are exactly the sums of those of its terms. -/
theorem fullVal_add {S T : Shell} {C : Point} {g : GrppData} (h : PairReady lib.gen S T C g) (q : Fin 4) {p : ℕ} (hp : p < S.cart_size * T.cart_size) :
    fullVal lib sf S T C g q p = ((localPart g).map fun g => fullVal lib sf S T C g q p).sum + ((arepParts g).map fun g => fullVal lib sf S T C g q p).sum +
      ((esopParts g).map fun g => fullVal lib sf S T C g q p).sum + ((ocPart g).map fun g => fullVal lib sf S T C g q p).sum := by
  have val : ∀ {d : GrppData} {t1 t2 so oc}, (libKernels lib sf).ComputesFor S T C d t1 t2 so oc →
      fullVal lib sf S T C d 0 p = t1 p + (d.arep.map fun u => t2 u p).sum + oc 0 p ∧
      ∀ k : Fin 3, fullVal lib sf S T C d k.succ p = (d.esop.map fun u => 2 / (2 * (u.L : ℝ) + 1) * so u k p).sum + oc k.succ p := by
    intro d t1 t2 so oc hK
    obtain ⟨M', e, v, -⟩ := full_is_sum_for _ S T d C hK (fun _ => List.replicate (S.cart_size * T.cart_size) 0) (by simp)
    have hf : libFull lib sf d C S T (fun _ => List.replicate (S.cart_size * T.cart_size) 0) = .ok M' := by
      unfold libFull; rw [hi]; exact e
    obtain ⟨v0, v1⟩ := v p hp
    unfold fullVal
    rw [hf]
    exact ⟨getD_of_some v0 0, fun k => getD_of_some (v1 k) 0⟩
  have ready : ∀ {d}, PartOf d g → PairReady lib.gen S T C d := fun hd => ⟨h.bra, h.ket, h.place, hd.ready h.grpp⟩
  obtain ⟨t1, t2, so, oc, hK, -⟩ := lib_computes lib hi hbt ho hs h
  obtain ⟨v0, v1⟩ := val hK
  have z : ∀ n : ℕ, (List.replicate n (0 : ℝ)).length = n := fun n => List.length_replicate
  -- the local part
  have loc : fullVal lib sf S T C ⟨g.local_, [], [], []⟩ 0 p = t1 p ∧ ∀ k : Fin 3, fullVal lib sf S T C ⟨g.local_, [], [], []⟩ k.succ p = 0 := by
    obtain ⟨s1, s2, s3, s4, hK', -, ho'⟩ := lib_computes lib hi hbt ho hs (ready (localPart_of g _ (List.mem_singleton.2 rfl)))
    obtain ⟨w0, w1⟩ := val hK'
    obtain ⟨l, e, b⟩ := hK.type1 (List.replicate _ 0) (z _)
    obtain ⟨l', e', b'⟩ := hK'.type1 (List.replicate _ 0) (z _)
    refine ⟨?_, fun k => ?_⟩
    · rw [w0, ho' rfl 0 p hp, b.same e e' b' hp]; simp
    · rw [w1, ho' rfl _ p hp]; simp
  have ocp : ∀ q, fullVal lib sf S T C ⟨none, [], [], g.oc⟩ q p = oc q p := by
    obtain ⟨s1, s2, s3, s4, hK', hn, -⟩ := lib_computes lib hi hbt ho hs (ready (ocPart_of g _ (List.mem_singleton.2 rfl)))
    obtain ⟨w0, w1⟩ := val hK'
    obtain ⟨l, e, b⟩ := hK.oc (fun _ => List.replicate _ 0) fun _ => z _
    obtain ⟨l', e', b'⟩ := hK'.oc (fun _ => List.replicate _ 0) fun _ => z _
    obtain rfl := Outcome.ok.inj (e.symm.trans e')
    have same : ∀ q, s4 q p = oc q p := fun q => Option.some.inj (((b' q).2 p hp).symm.trans ((b q).2 p hp))
    intro q
    refine Fin.cases ?_ (fun k => ?_) q
    · rw [w0, hn rfl p hp, same]; simp
    · rw [w1, same]; simp
  have are : ∀ u ∈ g.arep, fullVal lib sf S T C ⟨none, [u], [], []⟩ 0 p = t2 u p ∧ ∀ k : Fin 3, fullVal lib sf S T C ⟨none, [u], [], []⟩ k.succ p = 0 := by
    intro u hu
    obtain ⟨s1, s2, s3, s4, hK', hn, ho'⟩ := lib_computes lib hi hbt ho hs (ready (arepParts_of g _ (List.mem_map.2 ⟨u, hu, rfl⟩)))
    obtain ⟨w0, w1⟩ := val hK'
    obtain ⟨l, e, b⟩ := hK.type2 u hu (List.replicate _ 0) (z _)
    obtain ⟨l', e', b'⟩ := hK'.type2 u (by simp) (List.replicate _ 0) (z _)
    refine ⟨?_, fun k => ?_⟩
    · rw [w0, hn rfl p hp, ho' rfl 0 p hp, b.same e e' b' hp]; simp
    · rw [w1, ho' rfl _ p hp]; simp
  have eso : ∀ u ∈ g.esop, fullVal lib sf S T C ⟨none, [], [u], []⟩ 0 p = 0 ∧
      ∀ k : Fin 3, fullVal lib sf S T C ⟨none, [], [u], []⟩ k.succ p = 2 / (2 * (u.L : ℝ) + 1) * so u k p := by
    intro u hu
    obtain ⟨s1, s2, s3, s4, hK', hn, ho'⟩ := lib_computes lib hi hbt ho hs (ready (esopParts_of g _ (List.mem_map.2 ⟨u, hu, rfl⟩)))
    obtain ⟨w0, w1⟩ := val hK'
    obtain ⟨l, e, b⟩ := hK.so u hu (fun _ => List.replicate _ 0) fun _ => z _
    obtain ⟨l', e', b'⟩ := hK'.so u (by simp) (fun _ => List.replicate _ 0) fun _ => z _
    obtain rfl := Outcome.ok.inj (e.symm.trans e')
    have same : ∀ k, s3 u k p = so u k p := fun k => Option.some.inj (((b' k).2 p hp).symm.trans ((b k).2 p hp))
    refine ⟨?_, fun k => ?_⟩
    · rw [w0, hn rfl p hp, ho' rfl 0 p hp]; simp
    · rw [w1, ho' rfl _ p hp]; simp [same]
  simp only [localPart, arepParts, esopParts, ocPart, List.map_map, List.map_cons, List.map_nil, List.sum_cons, List.sum_nil, add_zero, Function.comp_def, ocp]
  have cong : ∀ (l : List Potential) (f f' : Potential → ℝ), (∀ u ∈ l, f u = f' u) → (l.map f).sum = (l.map f').sum := fun l f f' hf => by
    rw [List.map_congr_left hf]
  refine Fin.cases ?_ (fun k => ?_) q
  · rw [v0, loc.1, cong g.arep _ _ fun u hu => (are u hu).1, cong g.esop _ (fun _ => 0) fun u hu => (eso u hu).1]
    simp
  · rw [v1, loc.2, cong g.arep _ (fun _ => 0) fun u hu => (are u hu).2 k, cong g.esop _ _ fun u hu => (eso u hu).2 k]
    simp

end

/-- The derivative of the integrals of a pseudopotential with respect to the position of the bra function as the library forms it: from the integrals of the two
shells which make up the derivative of the bra function. -/
noncomputable def gradBra {G : Type} (lib : Lib G) (sf : SpecFun) (A B : Shell) (C : Point) (h : GrppData) (q : Fin 4) (k : Fin 3) (i j : ℕ) : ℝ :=
  match differentiateShell lib.gen A with
  | .ok (dn, up) => splitVal lib.gen A (fun a => fullVal lib sf up B C h q (a * B.cart_size + j))
      (fun a => dn.elim 0 fun d => fullVal lib sf d B C h q (a * B.cart_size + j)) k i
  | _ => 0

/-- The same for the ket function. -/
noncomputable def gradKet {G : Type} (lib : Lib G) (sf : SpecFun) (A B : Shell) (C : Point) (h : GrppData) (q : Fin 4) (k : Fin 3) (i j : ℕ) : ℝ :=
  match differentiateShell lib.gen B with
  | .ok (dn, up) => splitVal lib.gen B (fun a => fullVal lib sf A up C h q (i * up.cart_size + a))
      (fun a => dn.elim 0 fun d => fullVal lib sf A d C h q (i * d.cart_size + a)) k j
  | _ => 0

/-- The gradient which the library returns. -/
noncomputable def gradVal {G : Type} (lib : Lib G) (sf : SpecFun) (A B : Shell) (o : GrppData × Point) (D : Point) (x : Fin 4) (k : Fin 3) (m n : ℕ) : ℝ :=
  ((if A.origin = D then 1 else 0) - if o.2 = D then 1 else 0) * gradBra lib sf A B o.2 o.1 x k m n +
    ((if B.origin = D then 1 else 0) - if o.2 = D then 1 else 0) * gradKet lib sf A B o.2 o.1 x k m n

/-- Only values within the shells count. -/
theorem splitVal_congr {gen : Nat → List Comp} (hg : DocumentedOrder gen) {s : Shell} (hs : s.Made gen) {dn : Option Shell} {up : Shell}
    (e : differentiateShell gen s = .ok (dn, up)) {U U' D D' : ℕ → ℝ} (hU : ∀ a < up.cart_size, U a = U' a)
    (hD : ∀ d, dn = some d → ∀ a < d.cart_size, D a = D' a) (k : Fin 3) {i : ℕ} (hi : i < s.cart_size) :
    splitVal gen s U D k i = splitVal gen s U' D' k i := by
  have h := splitVal_close hg hs e (VU := U) (VD := D) (EU := U') (ED := D') (E := fun _ _ => 0) (fun a ha => by rw [hU a ha, sub_self, abs_zero])
    (fun d hd a ha => by rw [hD d hd a ha, sub_self, abs_zero]) k hi
  have z : diffErr gen s (fun _ _ => (0 : ℝ)) k i = 0 := by
    unfold diffErr
    rw [e]
    cases dn <;> simp
  rw [z] at h
  exact sub_eq_zero.1 (abs_eq_zero.1 (le_antisymm h (abs_nonneg _)))

theorem splitVal_add (gen : Nat → List Comp) (s : Shell) (U U' D D' : ℕ → ℝ) (k : Fin 3) (i : ℕ) :
    splitVal gen s (fun a => U a + U' a) (fun a => D a + D' a) k i = splitVal gen s U D k i + splitVal gen s U' D' k i := by
  unfold splitVal
  ring

theorem splitVal_list {ι : Type} (gen : Nat → List Comp) (s : Shell) (l : List ι) (U D : ι → ℕ → ℝ) (k : Fin 3) (i : ℕ) :
    splitVal gen s (fun a => (l.map fun t => U t a).sum) (fun a => (l.map fun t => D t a).sum) k i =
      (l.map fun t => splitVal gen s (U t) (D t) k i).sum := by
  induction l with
  | nil => simp [splitVal]
  | cons t l ih =>
    simp only [List.map_cons, List.sum_cons]
    rw [splitVal_add, ih]

/-- All terms of a pseudopotential, one by one. -/
def allParts (g : GrppData) : List GrppData := localPart g ++ arepParts g ++ esopParts g ++ ocPart g

section
variable {G : Type} (lib : Lib G) (hi : lib.init = true) (hbt : BesselOk lib.bt) (ho : DocumentedOrder lib.gen) {eps : ℝ}
  {sf : SpecFun} (hs : LibSpec eps sf)
include hi hbt ho hs

theorem gradVal_mats {A B : Shell} {C : Point} {g : GrppData} (h : GradLib lib.gen A B C g) (junk : Option (Nat → ℝ))
    (hj : junk = none → A.L = 0 ∧ B.L = 0) :
    GradMats lib.gen (libFull lib sf g C) A B junk (gradBra lib sf A B C g) (gradKet lib sf A B C g) := by
  refine ⟨ho, h.made_bra, h.made_ket, ?_, ?_, hj⟩
  · obtain ⟨dn, up, e, -⟩ := dBasis_split ho h.made_bra
    have iu : IsDiff lib.gen A up := ⟨dn, up, e, Or.inl rfl⟩
    have idn : ∀ d, dn = some d → IsDiff lib.gen A d := fun d hd => ⟨dn, up, e, Or.inr hd⟩
    obtain ⟨U, eU, hU⟩ := fullVal_returns lib hi hbt ho hs (h.bra up iu)
    have := diffMats_bra_val ho h.made_bra h.made_ket e (full := libFull lib sf g C) (U := U) (by simpa [fullWith, mul_comm] using eU)
      (VU := fun q m n => fullVal lib sf up B C g q (m * B.cart_size + n))
      (VD := fun q m n => dn.elim 0 fun d => fullVal lib sf d B C g q (m * B.cart_size + n))
      (fun q m n hm hn => (hU q).2 _ (rowMajor_lt hm hn)) (fun d hd => by
        obtain ⟨W, eW, hW⟩ := fullVal_returns lib hi hbt ho hs (h.bra d (idn d hd))
        refine ⟨W, by simpa [fullWith, mul_comm] using eW, fun q => ⟨(hW q).1, fun m n hm hn => ?_⟩⟩
        rw [hd]
        exact (hW q).2 _ (rowMajor_lt hm hn))
    unfold gradBra
    rw [e]
    exact this
  · obtain ⟨dn, up, e, -⟩ := dBasis_split ho h.made_ket
    have iu : IsDiff lib.gen B up := ⟨dn, up, e, Or.inl rfl⟩
    have idn : ∀ d, dn = some d → IsDiff lib.gen B d := fun d hd => ⟨dn, up, e, Or.inr hd⟩
    obtain ⟨U, eU, hU⟩ := fullVal_returns lib hi hbt ho hs (h.ket up iu)
    have := diffMats_ket_val ho h.made_bra h.made_ket e (full := libFull lib sf g C) (U := U) (by simpa [fullWith] using eU)
      (VU := fun q m n => fullVal lib sf A up C g q (m * up.cart_size + n))
      (VD := fun q m n => dn.elim 0 fun d => fullVal lib sf A d C g q (m * d.cart_size + n))
      (fun q m n hm hn => (hU q).2 _ (rowMajor_lt hm hn)) (fun d hd => by
        obtain ⟨W, eW, hW⟩ := fullVal_returns lib hi hbt ho hs (h.ket d (idn d hd))
        refine ⟨W, by simpa [fullWith] using eW, fun q => ⟨(hW q).1, fun m n hm hn => ?_⟩⟩
        rw [hd]
        exact (hW q).2 _ (rowMajor_lt hm hn))
    unfold gradKet
    rw [e]
    exact this

theorem fullVal_parts {S T : Shell} {C : Point} {g : GrppData} (h : PairReady lib.gen S T C g) (q : Fin 4) {p : ℕ} (hp : p < S.cart_size * T.cart_size) :
    fullVal lib sf S T C g q p = ((allParts g).map fun g => fullVal lib sf S T C g q p).sum := by
  rw [fullVal_add lib hi hbt ho hs h q hp, allParts]
  simp only [List.map_append, List.sum_append]

/-- No scalar part without scalar terms, no spin-orbit part without spin-orbit terms. -/
theorem fullVal_zero {S T : Shell} {C : Point} {g : GrppData} (h : PairReady lib.gen S T C g) {p : ℕ} (hp : p < S.cart_size * T.cart_size)
    (h4 : g.oc = []) : (g.local_ = none → g.arep = [] → fullVal lib sf S T C g 0 p = 0) ∧ (g.esop = [] → ∀ k : Fin 3, fullVal lib sf S T C g k.succ p = 0) := by
  obtain ⟨t1, t2, so, oc, hK, z1, z4⟩ := lib_computes lib hi hbt ho hs h
  obtain ⟨M', e, v, -⟩ := full_is_sum_for _ S T g C hK (fun _ => List.replicate (S.cart_size * T.cart_size) 0) (by simp)
  have hf : libFull lib sf g C S T (fun _ => List.replicate (S.cart_size * T.cart_size) 0) = .ok M' := by
    unfold libFull; rw [hi]; exact e
  obtain ⟨v0, v1⟩ := v p hp
  unfold fullVal
  rw [hf]
  refine ⟨fun h1 h2 => ?_, fun h3 k => ?_⟩
  · rw [z1 h1 p hp, z4 h4 0 p hp, h2] at v0
    refine (getD_of_some v0 0).trans (by simp)
  · have := v1 k
    rw [z4 h4 _ p hp, h3] at this
    exact (getD_of_some this 0).trans (by simp)

theorem gradVal_zero {A B : Shell} {o : GrppData × Point} (h : GradLib lib.gen A B o.2 o.1) (h4 : o.1.oc = []) (D : Point) (k : Fin 3) {m n : ℕ}
    (hm : m < A.cart_size) (hn : n < B.cart_size) : (o.1.local_ = none → o.1.arep = [] → gradVal lib sf A B o D 0 k m n = 0) ∧
      (o.1.esop = [] → ∀ x : Fin 3, gradVal lib sf A B o D x.succ k m n = 0) := by
  have key : ∀ x : Fin 4, (∀ S T p, PairReady lib.gen S T o.2 o.1 → p < S.cart_size * T.cart_size → fullVal lib sf S T o.2 o.1 x p = 0) →
      gradVal lib sf A B o D x k m n = 0 := by
    intro x hz
    have hb : gradBra lib sf A B o.2 o.1 x k m n = 0 := by
      obtain ⟨dn, up, e, -⟩ := dBasis_split ho h.made_bra
      unfold gradBra
      rw [e]
      refine (splitVal_congr ho h.made_bra e (U' := fun _ => 0) (D' := fun _ => 0) (fun a ha => ?_) (fun d hd a ha => ?_) k hm).trans (by simp [splitVal])
      · exact hz _ _ _ (h.bra up ⟨dn, up, e, Or.inl rfl⟩) (rowMajor_lt ha hn)
      · rw [hd]
        exact hz _ _ _ (h.bra d ⟨dn, up, e, Or.inr hd⟩) (rowMajor_lt ha hn)
    have hk : gradKet lib sf A B o.2 o.1 x k m n = 0 := by
      obtain ⟨dn, up, e, -⟩ := dBasis_split ho h.made_ket
      unfold gradKet
      rw [e]
      refine (splitVal_congr ho h.made_ket e (U' := fun _ => 0) (D' := fun _ => 0) (fun a ha => ?_) (fun d hd a ha => ?_) k hn).trans (by simp [splitVal])
      · exact hz _ _ _ (h.ket up ⟨dn, up, e, Or.inl rfl⟩) (rowMajor_lt hm ha)
      · rw [hd]
        exact hz _ _ _ (h.ket d ⟨dn, up, e, Or.inr hd⟩) (rowMajor_lt hm ha)
    unfold gradVal
    rw [hb, hk]
    simp
  exact ⟨fun h1 h2 => key 0 fun S T p hr hp => (fullVal_zero lib hi hbt ho hs hr hp h4).1 h1 h2,
    fun h3 x => key x.succ fun S T p hr hp => (fullVal_zero lib hi hbt ho hs hr hp h4).2 h3 x⟩

/-- The gradient of a pseudopotential is exactly the sum of those of its terms. -/
theorem gradVal_parts {A B : Shell} {o : GrppData × Point} (h : GradLib lib.gen A B o.2 o.1) (D : Point) (x : Fin 4) (k : Fin 3) {m n : ℕ}
    (hm : m < A.cart_size) (hn : n < B.cart_size) :
    gradVal lib sf A B o D x k m n = ((allParts o.1).map fun g => gradVal lib sf A B (g, o.2) D x k m n).sum := by
  have hb : gradBra lib sf A B o.2 o.1 x k m n = ((allParts o.1).map fun g => gradBra lib sf A B o.2 g x k m n).sum := by
    obtain ⟨dn, up, e, -⟩ := dBasis_split ho h.made_bra
    unfold gradBra
    rw [e]
    simp only []
    rw [← splitVal_list]
    refine splitVal_congr ho h.made_bra e (fun a ha => ?_) (fun d hd a ha => ?_) k hm
    · exact fullVal_parts lib hi hbt ho hs (h.bra up ⟨dn, up, e, Or.inl rfl⟩) x (rowMajor_lt ha hn)
    · rw [hd]
      exact fullVal_parts lib hi hbt ho hs (h.bra d ⟨dn, up, e, Or.inr hd⟩) x (rowMajor_lt ha hn)
  have hk : gradKet lib sf A B o.2 o.1 x k m n = ((allParts o.1).map fun g => gradKet lib sf A B o.2 g x k m n).sum := by
    obtain ⟨dn, up, e, -⟩ := dBasis_split ho h.made_ket
    unfold gradKet
    rw [e]
    simp only []
    rw [← splitVal_list]
    refine splitVal_congr ho h.made_ket e (fun a ha => ?_) (fun d hd a ha => ?_) k hn
    · exact fullVal_parts lib hi hbt ho hs (h.ket up ⟨dn, up, e, Or.inl rfl⟩) x (rowMajor_lt hm ha)
    · rw [hd]
      exact fullVal_parts lib hi hbt ho hs (h.ket d ⟨dn, up, e, Or.inr hd⟩) x (rowMajor_lt hm ha)
  unfold gradVal
  simp only []
  rw [hb, hk]
  clear hb hk h
  induction allParts o.1 with
  | nil => simp
  | cons g l ih =>
    simp only [List.map_cons, List.sum_cons]
    rw [← ih]
    ring

/-- What the library returns for operators on the atoms. -/
theorem gradVal_returns {shells : List Shell} {atoms : List (Nat × Point)} {ops : List (GrppData × Point)}
    (hin : ∀ A ∈ shells, ∀ B ∈ shells, ∀ o ∈ ops, GradInput lib.gen A B o.2 o.1) (hat : AtomsOk shells atoms) (hon : ∀ o ∈ ops, ∃ a ∈ atoms, o.2 = a.2)
    (junk : Option (Nat → ℝ)) (hj : junk ≠ none ∨ ∀ s ∈ shells, s.L = 0) : PartsReturn lib.gen junk (libFull lib sf) shells atoms ops (gradVal lib sf) := by
  intro A hA B hB a ha o hm
  have oD : ∃ b ∈ atoms, a.2 = b.2 := ⟨a, ha, rfl⟩
  have oC := hon o hm
  obtain ⟨G', e, v, -⟩ := grppGradient_adds (gradVal_mats lib hi hbt ho hs (hin A hA B hB o hm).lib junk fun e =>
      hj.elim (fun h => absurd e h) fun h => ⟨h A hA, h B hB⟩) o.2 a.2 (hat.separated (hat.on A hA) (hat.on B hB) oC oD)
    (fun _ => List.replicate (A.cart_size * B.cart_size) 0) fun _ => List.length_replicate.ge
  refine ⟨G', e, fun x k m n hm' hn' => ?_⟩
  rw [v x k m n hm' hn']
  simp only [hat.iff (hat.on A hA) oD, hat.iff (hat.on B hB) oD, hat.iff oC oD, gradVal]

end

theorem GradsIncreased.congr {natoms N : Nat} {V V' : Nat → Fin 3 → Nat → Nat → ℝ} {grad grad' : List (List ℝ)} (h : GradsIncreased natoms N V grad grad')
    (e : ∀ a k p q, p < N → q < N → V a k p q = V' a k p q) : GradsIncreased natoms N V' grad grad' := by
  refine ⟨h.len, h.other, fun a ha k => ?_⟩
  obtain ⟨M, M', e1, e2, sb, v⟩ := h.elem a ha k
  refine ⟨M, M', e1, e2, sb, fun p q hp hq => ?_⟩
  rw [← e a k p q hp hq]
  exact v p q hp hq

/-! ## Undefined cases -/

/-- If the body always returns or is undefined, and is undefined for one shell, atom and pseudopotential, the loops are undefined. -/
theorem forGradCentres_ub {σ : Type} {shells : List Shell} {atoms : List (Nat × Point)} {grpps : List (Option GrppData)}
    {body : Nat → Nat → Nat → Nat → Shell → Shell → GrppData → Point → Point → σ → Outcome σ} (Inv : σ → Prop) (s : σ) (h0 : Inv s)
    (hz : ∀ a ∈ atoms, a.1 < grpps.length)
    (hstep : ∀ S ∈ shells, ∀ T ∈ shells, ∀ io jo, io + S.cart_size ≤ dimOf shells → jo + T.cart_size ≤ dimOf shells → ∀ ia, (hia : ia < atoms.length) →
      ∀ ir, ∀ o ∈ moleculeGrpps atoms grpps, ∀ s, Inv s → OkUb Inv (body io jo ia ir S T o.1 o.2 atoms[ia].2 s))
    {A : Shell} (hA : A ∈ shells) {a : Nat × Point} (ha : a ∈ atoms) {o : GrppData × Point} (hm : o ∈ moleculeGrpps atoms grpps)
    (hub : ∀ io jo ia ir s, io + A.cart_size ≤ dimOf shells → jo + A.cart_size ≤ dimOf shells → ia < atoms.length → Inv s →
      body io jo ia ir A A o.1 o.2 a.2 s = .ub) :
    forGradCentres shells atoms grpps s body = .ub := by
  let one : Nat → Nat → Shell → Shell → Nat → Nat → σ → Outcome σ := fun io jo S T ia ir s => do
    let atom ← rd atoms ia
    let centre ← rd atoms ir
    let g ← rd grpps centre.1
    match g with
    | none => .ok s
    | some g => body io jo ia ir S T g centre.2 atom.2 s
  have centre : ∀ ir (hir : ir < atoms.length), rd grpps atoms[ir].1 = .ok (grpps.getD atoms[ir].1 none) := by
    intro ir hir
    have := hz _ (List.getElem_mem hir)
    rw [rd_ok this]
    simp [List.getD, this]
  have step : ∀ S ∈ shells, ∀ T ∈ shells, ∀ io jo, io + S.cart_size ≤ dimOf shells → jo + T.cart_size ≤ dimOf shells → ∀ ia < atoms.length,
      ∀ ir < atoms.length, ∀ s, Inv s → OkUb Inv (one io jo S T ia ir s) := by
    intro S hS T hT io jo h1 h2 ia hia ir hir s hI
    simp only [one]
    rw [rd_ok hia, Outcome.ok_bind, rd_ok hir, Outcome.ok_bind, centre ir hir, Outcome.ok_bind]
    cases hg : grpps.getD atoms[ir].1 none with
    | none => exact Or.inl ⟨s, rfl, hI⟩
    | some g =>
      have hm' : (g, atoms[ir].2) ∈ moleculeGrpps atoms grpps := by
        simp only [moleculeGrpps, List.mem_filterMap]
        exact ⟨atoms[ir], List.getElem_mem hir, by rw [hg]; rfl⟩
      exact hstep S hS T hT io jo h1 h2 ia hia ir _ hm' s hI
  have row : ∀ S ∈ shells, ∀ T ∈ shells, ∀ io jo, io + S.cart_size ≤ dimOf shells → jo + T.cart_size ≤ dimOf shells → ∀ ia < atoms.length, ∀ s, Inv s →
      OkUb Inv (forRange atoms.length s (one io jo S T ia)) ∧
      ∀ ir < atoms.length, (∀ s, Inv s → one io jo S T ia ir s = .ub) → forRange atoms.length s (one io jo S T ia) = .ub := by
    intro S hS T hT io jo h1 h2 ia hia s hI
    exact forRange_okUb (n := atoms.length) (s := s) (body := one io jo S T ia) (fun _ => Inv) hI fun ir s hir hI =>
      step S hS T hT io jo h1 h2 ia hia ir hir s hI
  have body' : ∀ io jo S T ia s, ia < atoms.length → (do
      let atom ← rd atoms ia
      forRange atoms.length s fun ir s => do
        let centre ← rd atoms ir
        let g ← rd grpps centre.1
        match g with
        | none => Outcome.ok s
        | some g => body io jo ia ir S T g centre.2 atom.2 s) = forRange atoms.length s (one io jo S T ia) := by
    intro io jo S T ia s hia
    rw [rd_ok hia, Outcome.ok_bind]
    congr 1
    funext ir g
    simp only [one]
    rw [rd_ok hia, Outcome.ok_bind]
  unfold forGradCentres
  refine forShellPairs_ub shells Inv s h0 (fun S hS T hT io jo s h1 h2 hI => ?_) hA hA (fun io jo s h1 h2 hI => ?_)
  · refine (forRange_okUb (fun _ => Inv) hI fun ia s hia hI => ?_).1
    have := (row S hS T hT io jo h1 h2 ia hia s hI).1
    rw [← body' io jo S T ia s hia] at this
    exact this
  · obtain ⟨ia, hia, rfl⟩ := List.mem_iff_getElem.1 ha
    refine (forRange_okUb (fun _ => Inv) hI fun ia s hia hI => ?_).2 ia hia fun s hI => ?_
    · have := (row A hA A hA io jo h1 h2 ia hia s hI).1
      rw [← body' io jo A A ia s hia] at this
      exact this
    · simp only [moleculeGrpps, List.mem_filterMap, Option.map_eq_some_iff] at hm
      obtain ⟨b, hb, g, hg, rfl⟩ := hm
      obtain ⟨ir, hir, rfl⟩ := List.mem_iff_getElem.1 hb
      have := (row A hA A hA io jo h1 h2 ia hia s hI).2 ir hir fun s hI => by
        simp only [one]
        rw [rd_ok hia, Outcome.ok_bind, rd_ok hir, Outcome.ok_bind, centre ir hir, Outcome.ok_bind, hg]
        exact hub io jo ia ir s h1 h2 hia hI
      rw [← body' io jo A A ia s hia] at this
      exact this

theorem MatIs.of_length {n m : ℕ} {l : List ℝ} (h : n * m ≤ l.length) : MatIs n m l fun i j => l.getD (i * m + j) 0 := by
  intro i j hi hj
  have : i * m + j < l.length := (rowMajor_lt hi hj).trans_le h
  simp [List.getD, this]

section
variable {gen : Nat → List Comp} {full : FullRoutine} {A B : Shell}

theorem scalarTermGradient_okUb {junk : Option (Nat → ℝ)} (h : GradRuns gen full A B junk) (C D : Point) :
    OkUb (fun b : Fin 3 → List ℝ => ∀ k, A.cart_size * B.cart_size ≤ (b k).length)
      (scalarTermGradient gen none full A B C D fun _ => List.replicate (A.cart_size * B.cart_size) 0) := by
  unfold scalarTermGradient
  refine (grppGradient_okUb h C D _ fun q => ?_).bind fun b hb => Or.inl ⟨_, rfl, fun k => hb _⟩
  split_ifs <;> exact List.length_replicate.ge

theorem soTermGradient_okUb {junk : Option (Nat → ℝ)} (h : GradRuns gen full A B junk) (C D : Point) (L : Int) :
    OkUb (fun b : Fin 3 × Fin 3 → List ℝ => ∀ k, A.cart_size * B.cart_size ≤ (b k).length)
      (soTermGradient gen none full A B C D L fun _ => List.replicate (A.cart_size * B.cart_size) 0) := by
  unfold soTermGradient
  refine (grppGradient_okUb h C D _ fun q => ?_).bind fun b hb => ?_
  · refine Fin.cases ?_ (fun q => ?_) q.1 <;> exact List.length_replicate.ge
  · obtain ⟨G', e, hS⟩ := rescaleSO_ok ((2 * (L : ℝ) + 1) / 2) (A.cart_size * B.cart_size) b hb
    rw [e, Outcome.ok_bind]
    exact Or.inl ⟨_, rfl, fun k => (hb _).trans (hS.len _).ge⟩

end

end Libgrpp
