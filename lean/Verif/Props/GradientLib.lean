import Verif.Lemmas.GradientLib
import Verif.Props.GrppTerms

/-! # C87: the gradient of the pseudopotential integrals, with the routines of the library

The reference is the derivative of `grppElement`, the matrix elements of the pseudopotential operator. -/

set_option linter.unusedSimpArgs false

namespace Libgrpp

open MeasureTheory

/-- The preconditions of C86 for one pair of shells. -/
structure PairReady (gen : Nat → List Comp) (S T : Shell) (C : Point) (g : GrppData) : Prop where
  bra : S.Usable gen
  ket : T.Usable gen
  place : OnCentre S T C ∨ OffCentre S T C
  grpp : GrppReady gen S T C g

/-- The same centre, number of primitives and exponents, and at most the same angular momentum. -/
structure Below (S A : Shell) : Prop where
  origin : S.origin = A.origin
  num : S.num = A.num
  alpha : ∀ i < A.num, S.alphaAt i = A.alphaAt i
  L : S.L ≤ A.L

/-- No coefficient is dropped, nor any of the differentiated shells: they are `c √a` for `L+1` and `2 c √a` for `L-1`. -/
def KeptDiff (s : Shell) : Prop :=
  Kept s.coeffs ∧ ∀ i < s.num, s.coeffAt i = 0 ∨ 1e-14 < |s.coeffAt i| * Real.sqrt (s.alphaAt i)

/-- The preconditions of the gradient: shells with `L ≤ 8`, and a pseudopotential which meets the limits of C86 for the shells with one unit of
angular momentum more. -/
structure GradInput (gen : Nat → List Comp) (A B : Shell) (C : Point) (g : GrppData) : Prop where
  made_bra : A.Made gen
  made_ket : B.Made gen
  L_bra : A.L ≤ 8
  L_ket : B.L ≤ 8
  num_bra : 0 < A.num
  num_ket : 0 < B.num
  kept_bra : KeptDiff A
  kept_ket : KeptDiff B
  place : OnCentre A B C ∨ OffCentre A B C
  up_bra : GrppReady gen { A with L := A.L + 1 } B C g
  up_ket : GrppReady gen A { B with L := B.L + 1 } C g

/-- The preconditions of C86 for the pairs of shells of which the gradient needs the integrals. -/
structure GradLib (gen : Nat → List Comp) (A B : Shell) (C : Point) (g : GrppData) : Prop where
  made_bra : A.Made gen
  made_ket : B.Made gen
  bra : ∀ S, IsDiff gen A S → PairReady gen S B C g
  ket : ∀ T, IsDiff gen B T → PairReady gen A T C g

theorem Below.refl (A : Shell) : Below A A := ⟨rfl, rfl, fun _ _ => rfl, le_rfl⟩

theorem Below.toC {S A : Shell} (h : Below S A) (C : Point) : toC S C = toC A C := by
  funext i
  simp [Libgrpp.toC, h.origin]

theorem Below.kDir {S A : Shell} (h : Below S A) (hn : 0 < A.num) (C : Point) : kDir S C = kDir A C := by
  funext i
  simp [Libgrpp.kDir, h.toC, h.alpha 0 hn]

theorem OnCentre.below {A B S T : Shell} {C : Point} (hS : Below S A) (hT : Below T B) (h : OnCentre S T C) : OnCentre A B C :=
  ⟨hS.origin ▸ h.1, hT.origin ▸ h.2⟩

theorem InRange.below {A B S T : Shell} {C : Point} (hS : Below S A) (hT : Below T B) {pw : ℤ} {c : ℝ} (h : InRange A B C pw c) :
    InRange S T C pw c := by
  refine ⟨h.1, h.2.1, fun hp => ?_⟩
  rcases h.2.2 hp with h | h
  · exact Or.inl (by have := hS.L; have := hT.L; omega)
  · refine Or.inr fun i hi j hj => ?_
    rw [hS.num] at hi
    rw [hT.num] at hj
    have := h i hi j hj
    unfold pairArg at this ⊢
    have e1 : S.alpha.getD i 0 = A.alpha.getD i 0 := hS.alpha i hi
    have e2 : T.alpha.getD j 0 = B.alpha.getD j 0 := hT.alpha j hj
    rwa [e1, e2, hS.origin, hT.origin]

theorem SemiReady.below {A B S T : Shell} {C : Point} (hS : Below S A) (hT : Below T B) {u : Potential} (h : SemiReady A B C u) :
    SemiReady S T C u where
  wf := h.wf
  regular := h.regular
  kept := h.kept
  nonneg := h.nonneg
  LA := by have := h.LA; have := hS.L; omega
  LB := by have := h.LB; have := hT.L; omega
  moments := fun hc k hk n hn => h.moments (hc.below hS hT) k hk n (by have := hS.L; have := hT.L; omega)

theorem GrppReady.below {gen : Nat → List Comp} {A B S T : Shell} {C : Point} (hS : Below S A) (hT : Below T B) {g : GrppData}
    (h : GrppReady gen A B C g) : GrppReady gen S T C g where
  local_ := fun p hp => ⟨(h.local_ p hp).1, fun k hk => ((h.local_ p hp).2 k hk).below hS hT⟩
  arep := fun u hu => (h.arep u hu).below hS hT
  esop := fun u hu => (h.esop u hu).below hS hT
  oc := fun e he => ⟨(h.oc e he).1, fun k hk => ⟨((h.oc e he).2.1 k hk).1.below hS (Below.refl _), ((h.oc e he).2.1 k hk).2.below (Below.refl _) hT⟩,
    (h.oc e he).2.2⟩

theorem norm_ratio {a : ℝ} (ha : 0 < a) (L : ℕ) : normFactorL a (L + 1) = normFactorL a L * (2 * Real.sqrt a) := by
  unfold normFactorL
  have h4 : (0 : ℝ) < 4 * a := by linarith
  have e : (0.5 * ((L + 1 : ℕ) : ℝ)) = 0.5 * (L : ℝ) + 1 / 2 := by push_cast; ring
  rw [e, Real.rpow_add h4, ← Real.sqrt_eq_rpow, show 4 * a = 2 ^ 2 * a by ring, Real.sqrt_mul (by norm_num), Real.sqrt_sq (by norm_num)]
  ring

theorem normFactorL_pos {a : ℝ} (ha : 0 < a) (L : ℕ) : 0 < normFactorL a L := by
  rw [normFactorL_eq]
  exact gaussianNormFactor_pos ha _ _ _

/-- The shells into which the differentiation turns a shell. -/
theorem IsDiff.spec {gen : Nat → List Comp} {s S : Shell} (hs : s.Made gen) (hk : KeptDiff s) (h : IsDiff gen s S) :
    S.Made gen ∧ Below S { s with L := s.L + 1 } ∧ Kept S.coeffs := by
  have hK : ∀ S : Shell, S.coeffs.length ≤ s.num → S.num = s.num → (∀ i < s.num, S.coeffAt i = 0 ∨ 1e-14 < |S.coeffAt i|) → Kept S.coeffs := by
    intro S hl hn hi c hc
    obtain ⟨i, hi', rfl⟩ := List.mem_iff_getElem.1 hc
    have h2 := hi i (by omega)
    unfold Shell.coeffAt at h2
    rwa [List.getD_eq_getElem _ _ hi'] at h2
  obtain ⟨dn, up, e, hu, h0, hd⟩ := differentiateShell_ok gen s hs.wf
  obtain ⟨dn', up', e', h⟩ := h
  obtain ⟨rfl, rfl⟩ := Prod.mk.inj (Outcome.ok.inj (e.symm.trans e'))
  rcases h with rfl | h
  · refine ⟨hu.made hs.pos, ⟨hu.origin, hu.num, fun i hi => hu.alpha i hi, hu.hL.le⟩, hK _ hu.len hu.num fun i hi => ?_⟩
    have ha := hs.pos.at hi
    have hr : 2 * s.alphaAt i * normFactorL (s.alphaAt i) s.L / normFactorL (s.alphaAt i) (s.L + 1) = Real.sqrt (s.alphaAt i) := by
      rw [norm_ratio ha]
      have := (normFactorL_pos ha s.L).ne'
      have h2 : Real.sqrt (s.alphaAt i) ≠ 0 := (Real.sqrt_pos.2 ha).ne'
      have h3 := Real.mul_self_sqrt ha.le
      rw [div_eq_iff (by positivity)]
      linear_combination (-2 * normFactorL (s.alphaAt i) s.L) * h3
    rw [hu.coeff i hi]
    simp only [hr]
    rcases hk.2 i hi with h | h
    · left; rw [h, zero_mul]
    · right; rw [abs_mul, abs_of_nonneg (Real.sqrt_nonneg _)]; exact h
  · have hL : 0 < s.L := by
      rcases Nat.eq_zero_or_pos s.L with h' | h'
      · rw [h0 h'] at h; cases h
      · exact h'
    obtain ⟨d, rfl, sd⟩ := hd hL
    obtain rfl := Option.some.inj h
    refine ⟨sd.made hs.pos, ⟨sd.origin, sd.num, fun i hi => sd.alpha i hi, sd.hL.le.trans (by show s.L - 1 ≤ s.L + 1; omega)⟩, hK _ sd.len sd.num fun i hi => ?_⟩
    have ha := hs.pos.at hi
    obtain ⟨L, hL'⟩ : ∃ L, s.L = L + 1 := ⟨s.L - 1, by omega⟩
    have hr : normFactorL (s.alphaAt i) s.L / normFactorL (s.alphaAt i) (s.L - 1) = 2 * Real.sqrt (s.alphaAt i) := by
      rw [hL', Nat.add_sub_cancel, norm_ratio ha]
      have := (normFactorL_pos ha L).ne'
      field_simp
    rw [sd.coeff i hi]
    simp only [hr]
    rcases hk.2 i hi with h | h
    · left; rw [h, zero_mul]
    · right
      rw [abs_mul, abs_of_nonneg (show 0 ≤ 2 * Real.sqrt (s.alphaAt i) by positivity)]
      have : 0 ≤ |s.coeffAt i| * Real.sqrt (s.alphaAt i) := by positivity
      linarith

theorem OffCentre.below {A B S T : Shell} {C : Point} (hS : Below S A) (hT : Below T B) (nA : 0 < A.num) (nB : 0 < B.num) (h : OffCentre A B C) :
    OffCentre S T C := by
  unfold OffCentre
  rw [hS.kDir nA, hT.kDir nB, hS.toC, hT.toC]
  exact h

theorem GradInput.lib {gen : Nat → List Comp} {A B : Shell} {C : Point} {g : GrppData} (h : GradInput gen A B C g) : GradLib gen A B C g where
  made_bra := h.made_bra
  made_ket := h.made_ket
  bra := fun S hS => by
    obtain ⟨m, b, k⟩ := hS.spec h.made_bra h.kept_bra
    refine ⟨⟨m, b.L.trans (by have := h.L_bra; show A.L + 1 ≤ 9; omega), b.num ▸ h.num_bra, k⟩,
      ⟨h.made_ket, by have := h.L_ket; omega, h.num_ket, h.kept_ket.1⟩, ?_, h.up_bra.below b (Below.refl _)⟩
    rcases h.place with hp | hp
    · exact Or.inl ⟨b.origin.trans hp.1, hp.2⟩
    · exact Or.inr (OffCentre.below (A := { A with L := A.L + 1 }) b (Below.refl _) h.num_bra h.num_ket hp)
  ket := fun T hT => by
    obtain ⟨m, b, k⟩ := hT.spec h.made_ket h.kept_ket
    refine ⟨⟨h.made_bra, by have := h.L_bra; omega, h.num_bra, h.kept_bra.1⟩,
      ⟨m, b.L.trans (by have := h.L_ket; show B.L + 1 ≤ 9; omega), b.num ▸ h.num_ket, k⟩, ?_, h.up_ket.below (Below.refl _) b⟩
    rcases h.place with hp | hp
    · exact Or.inl ⟨hp.1, b.origin.trans hp.2⟩
    · exact Or.inr (OffCentre.below (B := { B with L := B.L + 1 }) (Below.refl _) b h.num_bra h.num_ket hp)

/-- The error of an assembled element, from the errors `E` of the shells with `L+1` and `L-1`. -/
noncomputable def diffErr (gen : Nat → List Comp) (s : Shell) (E : Shell → ℕ → ℝ) (k : Fin 3) (i : ℕ) : ℝ :=
  match differentiateShell gen s with
  | .ok (dn, up) => E up (nlmIndex gen (shiftC (s.comp i).ints k 1)) +
      ((s.comp i).exp k : ℝ) * dn.elim 0 fun d => E d (nlmIndex gen (shiftC (s.comp i).ints k (-1)))
  | _ => 0

/-- The integral routine of the library for the pseudopotential `g` at `C`. -/
noncomputable def libFull {G : Type} (lib : Lib G) (sf : SpecFun) (g : GrppData) (C : Point) : FullRoutine :=
  fun S T M => fullGrpp (libKernels lib sf) lib.init S T g C M

theorem splitVal_close {gen : Nat → List Comp} (hg : DocumentedOrder gen) {s : Shell} (hs : s.Made gen) {dn : Option Shell} {up : Shell}
    (e : differentiateShell gen s = .ok (dn, up)) {VU VD EU ED : ℕ → ℝ} {E : Shell → ℕ → ℝ} (hU : ∀ a < up.cart_size, |VU a - EU a| ≤ E up a)
    (hD : ∀ d, dn = some d → ∀ a < d.cart_size, |VD a - ED a| ≤ E d a) (k : Fin 3) {i : ℕ} (hi : i < s.cart_size) :
    |splitVal gen s VU VD k i - splitVal gen s EU ED k i| ≤ diffErr gen s E k i := by
  obtain ⟨dn', up', e', -, -, -, -, h⟩ := dBasis_split hg hs
  obtain ⟨rfl, rfl⟩ := Prod.mk.inj (Outcome.ok.inj (e.symm.trans e'))
  obtain ⟨b1, -, b3⟩ := h i k hi
  unfold splitVal diffErr
  rw [e]
  simp only []
  have h1 := hU _ b1
  rcases Nat.eq_zero_or_pos ((s.comp i).exp k) with h0 | hpos
  · rw [h0]; simpa using h1
  · obtain ⟨d, rfl, c1, -⟩ := b3 hpos
    have h2 := hD d rfl _ c1
    have hn : (0 : ℝ) ≤ (s.comp i).exp k := Nat.cast_nonneg _
    rw [sub_sub_sub_comm, ← mul_sub]
    refine (abs_sub _ _).trans (add_le_add h1 ?_)
    rw [abs_mul, abs_of_nonneg hn]
    exact mul_le_mul_of_nonneg_left h2 hn

theorem GrppReady.form {gen : Nat → List Comp} {A B : Shell} {C : Point} {g : GrppData} (h : GrppReady gen A B C g) : FormReady gen g where
  local_ := fun p hp k hk => ⟨((h.local_ p hp).2 k hk).1, ((h.local_ p hp).2 k hk).2.1⟩
  arep := fun u hu => (h.arep u hu).regular
  esop := fun u hu => (h.esop u hu).regular
  oc := fun e he => (h.oc e he).1

theorem GradLib.form {gen : Nat → List Comp} (ho : DocumentedOrder gen) {A B : Shell} {C : Point} {g : GrppData} (h : GradLib gen A B C g) :
    FormReady gen g := by
  obtain ⟨dn, up, e, -⟩ := dBasis_split ho h.made_bra
  exact (h.bra up ⟨dn, up, e, Or.inl rfl⟩).grpp.form

section
variable {G : Type} (lib : Lib G) (hi : lib.init = true) (hbt : BesselOk lib.bt) (ho : DocumentedOrder lib.gen) {eps : ℝ}
  {sf : SpecFun} (hs : LibSpec eps sf)
include hi hbt ho hs

/-- The matrices which the routine of the library returns for a pair of shells. -/
theorem libFull_returns {S T : Shell} {C : Point} {g : GrppData} (h : PairReady lib.gen S T C g) :
    ∃ Q : Potential → ℕ → ℕ → ℕ → ℝ, (∀ u ∈ g.arep ++ g.esop, RadialTable lib S T C u (Q u)) ∧
      ∀ M : Fin 4 → List ℝ, (∀ q, (M q).length = S.cart_size * T.cart_size) → ∃ R, libFull lib sf g C S T M = .ok R ∧
        ∀ q, (R q).length = S.cart_size * T.cart_size ∧ ∀ m n, m < S.cart_size → n < T.cart_size →
          (R q)[m * T.cart_size + n]? = some ((R q).getD (m * T.cart_size + n) 0) ∧
          |(R q).getD (m * T.cart_size + n) 0 - grppElement S T C g q m n| ≤ grppErr S T C g Q q m n := by
  obtain ⟨Q, hQ, hr⟩ := full_grpp_correct lib hi hbt ho hs S T h.bra h.ket C h.place g h.grpp
  refine ⟨Q, hQ, fun M hM => ?_⟩
  obtain ⟨R, e, hR⟩ := hr M fun q => (hM q).ge
  refine ⟨R, e, fun q => ?_⟩
  have hl : (R q).length = S.cart_size * T.cart_size := (hR q).1.1.trans (hM q)
  refine ⟨hl, fun m n hm hn => ?_⟩
  obtain ⟨v, hv, hb⟩ := (hR q).2 m n hm hn
  have e1 := getElem?_getD hl hm hn rfl
  refine ⟨e1, ?_⟩
  rw [e1] at hv
  rwa [Option.some.inj hv]

theorem lib_mats {A B : Shell} {C : Point} {g : GrppData} (h : GradLib lib.gen A B C g) :
    ∃ Qb Qk : Shell → Potential → ℕ → ℕ → ℕ → ℝ,
      (∀ S, IsDiff lib.gen A S → ∀ u ∈ g.arep ++ g.esop, RadialTable lib S B C u (Qb S u)) ∧
      (∀ T, IsDiff lib.gen B T → ∀ u ∈ g.arep ++ g.esop, RadialTable lib A T C u (Qk T u)) ∧
      ∃ Tb Tk, (∀ junk : Option (Nat → ℝ), (junk = none → A.L = 0 ∧ B.L = 0) → GradMats lib.gen (libFull lib sf g C) A B junk Tb Tk) ∧
        ∀ q k i j, i < A.cart_size → j < B.cart_size →
          |Tb q k i j - braT (grppForm C g) A B q k i j| ≤ diffErr lib.gen A (fun S a => grppErr S B C g (Qb S) q a j) k i ∧
          |Tk q k i j - ketT (grppForm C g) A B q k i j| ≤ diffErr lib.gen B (fun T a => grppErr A T C g (Qk T) q i a) k j := by
  choose! Qb hQb hRb using fun S (hS : IsDiff lib.gen A S) => libFull_returns lib hi hbt ho hs (h.bra S hS)
  choose! Qk hQk hRk using fun T (hT : IsDiff lib.gen B T) => libFull_returns lib hi hbt ho hs (h.ket T hT)
  have hform := fun q => grppForm_gform ho (h.form ho) C q
  refine ⟨Qb, Qk, hQb, hQk, ?_⟩
  obtain ⟨Tb, mb, eb⟩ : ∃ Tb, (∃ m, diffMats lib.gen (libFull lib sf g C) A B true = .ok m ∧ GMat lib.gen A B true m Tb) ∧
      ∀ q k i j, i < A.cart_size → j < B.cart_size →
        |Tb q k i j - braT (grppForm C g) A B q k i j| ≤ diffErr lib.gen A (fun S a => grppErr S B C g (Qb S) q a j) k i := by
    obtain ⟨dn, up, e, -⟩ := dBasis_split ho h.made_bra
    have iu : IsDiff lib.gen A up := ⟨dn, up, e, Or.inl rfl⟩
    have idn : ∀ d, dn = some d → IsDiff lib.gen A d := fun d hd => ⟨dn, up, e, Or.inr hd⟩
    obtain ⟨U, eU, hU⟩ := hRb up iu (fun _ => List.replicate (B.cart_size * up.cart_size) 0) (by simp [mul_comm])
    obtain ⟨W, hW⟩ : ∃ W : Fin 4 → List ℝ, ∀ d, dn = some d → libFull lib sf g C d B (fun _ => List.replicate (B.cart_size * d.cart_size) 0) = .ok W ∧
        ∀ q, (W q).length = d.cart_size * B.cart_size ∧ ∀ m n, m < d.cart_size → n < B.cart_size →
          (W q)[m * B.cart_size + n]? = some ((W q).getD (m * B.cart_size + n) 0) ∧
          |(W q).getD (m * B.cart_size + n) 0 - grppElement d B C g q m n| ≤ grppErr d B C g (Qb d) q m n := by
      cases dn with
      | none => exact ⟨fun _ => [], fun d hd => by cases hd⟩
      | some d =>
        obtain ⟨W, eW, hW⟩ := hRb d (idn d rfl) (fun _ => List.replicate (B.cart_size * d.cart_size) 0) (by simp [mul_comm])
        exact ⟨W, fun d' hd => by cases hd; exact ⟨eW, hW⟩⟩
    refine ⟨_, diffMats_bra_val ho h.made_bra h.made_ket e (U := U) (by simpa [fullWith] using eU)
      (VU := fun q m n => (U q).getD (m * B.cart_size + n) 0) (VD := fun q m n => (W q).getD (m * B.cart_size + n) 0)
      (fun q m n hm hn => ((hU q).2 m n hm hn).1) (fun d hd => ⟨W, by simpa [fullWith] using (hW d hd).1, fun q => ⟨((hW d hd).2 q).1,
        fun m n hm hn => (((hW d hd).2 q).2 m n hm hn).1⟩⟩), fun q k i j hi hj => ?_⟩
    have hx : splitVal lib.gen A (fun a => grppForm C g q (basisFn up a) (basisFn B j))
        (fun a => dn.elim 0 fun d => grppForm C g q (basisFn d a) (basisFn B j)) k i = braT (grppForm C g) A B q k i j :=
      splitVal_dBasis ho h.made_bra e (ℓ := fun f => grppForm C g q f (basisFn B j))
        (fun d m n c hd => (hform q).left_sub (h.bra up iu).bra.made.pos (h.bra d (idn d hd)).bra.made.pos h.made_ket.pos m n j c) k hi
    rw [← hx]
    refine splitVal_close ho h.made_bra e (E := fun S a => grppErr S B C g (Qb S) q a j) (fun a ha => ?_) (fun d hd a ha => ?_) k hi
    · rw [grppForm_basis]
      exact ((hU q).2 a j ha hj).2
    · rw [hd]
      show |_ - grppForm C g q (basisFn d a) (basisFn B j)| ≤ _
      rw [grppForm_basis]
      exact (((hW d hd).2 q).2 a j ha hj).2
  obtain ⟨Tk, mk, ek⟩ : ∃ Tk, (∃ m, diffMats lib.gen (libFull lib sf g C) A B false = .ok m ∧ GMat lib.gen A B false m Tk) ∧
      ∀ q k i j, i < A.cart_size → j < B.cart_size →
        |Tk q k i j - ketT (grppForm C g) A B q k i j| ≤ diffErr lib.gen B (fun T a => grppErr A T C g (Qk T) q i a) k j := by
    obtain ⟨dn, up, e, -⟩ := dBasis_split ho h.made_ket
    have iu : IsDiff lib.gen B up := ⟨dn, up, e, Or.inl rfl⟩
    have idn : ∀ d, dn = some d → IsDiff lib.gen B d := fun d hd => ⟨dn, up, e, Or.inr hd⟩
    obtain ⟨U, eU, hU⟩ := hRk up iu (fun _ => List.replicate (A.cart_size * up.cart_size) 0) (by simp)
    obtain ⟨W, z, hW⟩ : ∃ (W : Fin 4 → List ℝ) (z : ℕ), ∀ d, dn = some d → z = d.cart_size ∧
        libFull lib sf g C A d (fun _ => List.replicate (A.cart_size * d.cart_size) 0) = .ok W ∧
        ∀ q, (W q).length = A.cart_size * d.cart_size ∧ ∀ m n, m < A.cart_size → n < d.cart_size →
          (W q)[m * d.cart_size + n]? = some ((W q).getD (m * d.cart_size + n) 0) ∧
          |(W q).getD (m * d.cart_size + n) 0 - grppElement A d C g q m n| ≤ grppErr A d C g (Qk d) q m n := by
      cases dn with
      | none => exact ⟨fun _ => [], 0, fun d hd => by cases hd⟩
      | some d =>
        obtain ⟨W, eW, hW⟩ := hRk d (idn d rfl) (fun _ => List.replicate (A.cart_size * d.cart_size) 0) (by simp)
        exact ⟨W, d.cart_size, fun d' hd => by cases hd; exact ⟨rfl, eW, hW⟩⟩
    refine ⟨_, diffMats_ket_val ho h.made_bra h.made_ket e (U := U) (by simpa [fullWith] using eU)
      (VU := fun q m n => (U q).getD (m * up.cart_size + n) 0) (VD := fun q m n => (W q).getD (m * z + n) 0)
      (fun q m n hm hn => ((hU q).2 m n hm hn).1) (fun d hd => ⟨W, by simpa [fullWith] using (hW d hd).2.1, fun q => ⟨((hW d hd).2.2 q).1,
        fun m n hm hn => by rw [(hW d hd).1]; exact (((hW d hd).2.2 q).2 m n hm hn).1⟩⟩), fun q k i j hi hj => ?_⟩
    have hx : splitVal lib.gen B (fun a => grppForm C g q (basisFn A i) (basisFn up a))
        (fun a => dn.elim 0 fun d => grppForm C g q (basisFn A i) (basisFn d a)) k j = ketT (grppForm C g) A B q k i j :=
      splitVal_dBasis ho h.made_ket e (ℓ := fun f => grppForm C g q (basisFn A i) f)
        (fun d m n c hd => (hform q).right_sub (h.ket up iu).ket.made.pos (h.ket d (idn d hd)).ket.made.pos h.made_bra.pos m n i c) k hj
    rw [← hx]
    refine splitVal_close ho h.made_ket e (E := fun T a => grppErr A T C g (Qk T) q i a) (fun a ha => ?_) (fun d hd a ha => ?_) k hj
    · rw [grppForm_basis]
      exact ((hU q).2 i a hi ha).2
    · rw [hd, (hW d hd).1]
      show |_ - grppForm C g q (basisFn A i) (basisFn d a)| ≤ _
      rw [grppForm_basis]
      exact (((hW d hd).2.2 q).2 i a hi ha).2
  exact ⟨Tb, Tk, fun junk hj => ⟨ho, h.made_bra, h.made_ket, mb, mk, hj⟩, fun q k i j hi hj => ⟨eb q k i j hi hj, ek q k i j hi hj⟩⟩

/-- **C87, partial.** For all shells, centres and pseudopotentials which meet the preconditions, and every point `D`, the gradient routine with the
library's own integral routines and special functions returns, overwrites the `A × B` elements of its twelve arrays, and nothing else. Each of them
is within an explicit bound of the derivative of the matrix element of the pseudopotential when all centres at `D` (bra, ket, pseudopotential) are
displaced together along the coordinate; the derivative exists. The bound consists of those of C86 for the shells with `L+1` and `L-1`. Missing:
for shells with `L > 0` the result is relative to some value being returned by the out-of-bounds reads (`junk`, see C24), which are multiplied by
zero; with two s shells no such assumption is made. -/
theorem full_gradient_correct_partial {A B : Shell} {C : Point} {g : GrppData} (hin : GradInput lib.gen A B C g) (junk : Option (Nat → ℝ))
    (hj : junk = none → A.L = 0 ∧ B.L = 0) :
    ∃ Qb Qk : Shell → Potential → ℕ → ℕ → ℕ → ℝ,
      (∀ S, IsDiff lib.gen A S → ∀ u ∈ g.arep ++ g.esop, RadialTable lib S B C u (Qb S u)) ∧
      (∀ T, IsDiff lib.gen B T → ∀ u ∈ g.arep ++ g.esop, RadialTable lib A T C u (Qk T u)) ∧
      ∀ D, Separated A.origin B.origin C D → ∀ G : Grads, (∀ q, A.cart_size * B.cart_size ≤ (G q).length) →
        ∃ G', grppGradient lib.gen junk (fun S T M => fullGrpp (libKernels lib sf) lib.init S T g C M) A B C D G = .ok G' ∧
          (∀ q p, A.cart_size * B.cart_size ≤ p → (G' q)[p]? = (G q)[p]?) ∧
          ∀ q k m n, m < A.cart_size → n < B.cart_size → ∃ v d, (G' (q, k))[m * B.cart_size + n]? = some v ∧
            HasDerivAt (fun t => grppElement (A.moveTo k (if pointsAreEqual A.origin D then A.origin k + t else A.origin k))
              (B.moveTo k (if pointsAreEqual B.origin D then B.origin k + t else B.origin k))
              (if pointsAreEqual C D then C + along k t else C) g q m n) d 0 ∧
            |v - d| ≤ diffErr lib.gen A (fun S a => grppErr S B C g (Qb S) q a n) k m +
              diffErr lib.gen B (fun T a => grppErr A T C g (Qk T) q m a) k n := by
  have h := hin.lib
  obtain ⟨Qb, Qk, hQb, hQk, Tb, Tk, hT, hE⟩ := lib_mats lib hi hbt ho hs h
  refine ⟨Qb, Qk, hQb, hQk, fun D hsep G hG => ?_⟩
  obtain ⟨G', e, v, b⟩ := grppGradient_adds (hT junk hj) C D hsep G hG
  refine ⟨G', e, b, fun q k m n hm hn => ?_⟩
  have hd := (grppForm_interaction ho (h.form ho) h.made_bra.pos h.made_ket.pos C).hasDerivAt D q k hm hn
  simp only [grppForm_basis] at hd
  refine ⟨_, _, v q k m n hm hn, hd, ?_⟩
  · obtain ⟨e1, e2⟩ := hE q k m n hm hn
    have w : ∀ (p r : Prop) [Decidable p] [Decidable r], |((if p then 1 else 0) - if r then 1 else 0 : ℝ)| ≤ 1 := by
      intro p r _ _
      by_cases hp : p <;> by_cases hr : r <;> simp [hp, hr]
    rw [add_sub_add_comm, ← mul_sub, ← mul_sub]
    refine (abs_add_le _ _).trans (add_le_add ?_ ?_)
    · rw [abs_mul]
      exact (mul_le_mul (w _ _) e1 (abs_nonneg _) zero_le_one).trans_eq (one_mul _)
    · rw [abs_mul]
      exact (mul_le_mul (w _ _) e2 (abs_nonneg _) zero_le_one).trans_eq (one_mul _)

/-- The library's routine returns for all shells which the gradient needs. -/
theorem gradLib_runs {A B : Shell} {C : Point} {g : GrppData} (hin : GradInput lib.gen A B C g) (junk : Option (Nat → ℝ))
    (hj : junk = none → A.L = 0 ∧ B.L = 0) :
    GradRuns lib.gen (fun S T M => fullGrpp (libKernels lib sf) lib.init S T g C M) A B junk := by
  have h := hin.lib
  refine ⟨ho, h.made_bra, h.made_ket, fun S hS => ?_, fun T hT => ?_, hj⟩
  · obtain ⟨Q, -, hR⟩ := libFull_returns lib hi hbt ho hs (h.bra S hS)
    obtain ⟨R, e, hR⟩ := hR (fun _ => List.replicate (B.cart_size * S.cart_size) 0) (by simp [mul_comm])
    exact ⟨R, by simpa [fullWith, libFull] using e, fun q => (hR q).1⟩
  · obtain ⟨Q, -, hR⟩ := libFull_returns lib hi hbt ho hs (h.ket T hT)
    obtain ⟨R, e, hR⟩ := hR (fun _ => List.replicate (A.cart_size * T.cart_size) 0) (by simp)
    exact ⟨R, by simpa [fullWith, libFull] using e, fun q => (hR q).1⟩

/-- **C87, partial** (with C25). With the routines of the library: the gradients with respect to the bra, the ket and the pseudopotential centre
add up to exactly zero, in spite of the quadrature and table errors. Missing: as above. -/
theorem full_gradient_translational_partial {A B : Shell} {C : Point} {g : GrppData} (hin : GradInput lib.gen A B C g) (junk : Option (Nat → ℝ))
    (hj : junk = none → A.L = 0 ∧ B.L = 0) (hap : Apart3 A.origin B.origin C) (G1 G2 G3 : Grads)
    (h1 : ∀ q, A.cart_size * B.cart_size ≤ (G1 q).length) (h2 : ∀ q, A.cart_size * B.cart_size ≤ (G2 q).length)
    (h3 : ∀ q, A.cart_size * B.cart_size ≤ (G3 q).length) :
    ∃ RA RB RC, grppGradient lib.gen junk (fun S T M => fullGrpp (libKernels lib sf) lib.init S T g C M) A B C A.origin G1 = .ok RA ∧
      grppGradient lib.gen junk (fun S T M => fullGrpp (libKernels lib sf) lib.init S T g C M) A B C B.origin G2 = .ok RB ∧
      grppGradient lib.gen junk (fun S T M => fullGrpp (libKernels lib sf) lib.init S T g C M) A B C C G3 = .ok RC ∧
      ∀ q p, p < A.cart_size * B.cart_size → ∃ a b c, (RA q)[p]? = some a ∧ (RB q)[p]? = some b ∧ (RC q)[p]? = some c ∧
        a + b + c = 0 :=
  grpp_gradient_translational_partial (gradLib_runs lib hi hbt ho hs hin junk hj) C hap G1 G2 G3 h1 h2 h3

/-- **C87 is false without the assumption on out-of-bounds reads.** With `L > 0` in both shells the routine has no defined result, for any
pseudopotential which meets the preconditions and any position of a centre, except if all three centres coincide. -/
theorem full_gradient_undefined {A B : Shell} {C : Point} {g : GrppData} (hin : GradInput lib.gen A B C g) (hLA : 0 < A.L) (hLB : 0 < B.L) (D : Point)
    (G : Grads) (hG : ∀ q, A.cart_size * B.cart_size ≤ (G q).length) (hc : ¬ (pointsAreEqual A.origin C ∧ pointsAreEqual B.origin C))
    (hD : pointsAreEqual A.origin D ∨ pointsAreEqual B.origin D ∨ pointsAreEqual C D) :
    grppGradient lib.gen none (fun S T M => fullGrpp (libKernels lib sf) lib.init S T g C M) A B C D G = .ub :=
  grpp_gradient_out_of_bounds (gradLib_runs lib hi hbt ho hs hin (some fun _ => 0) (by simp)) hLA hLB C D G hG hc hD

/-- **C87 for two s shells**, where no assumption on out-of-bounds reads is needed. -/
theorem full_gradient_correct_s {A B : Shell} {C : Point} {g : GrppData} (hin : GradInput lib.gen A B C g) (hA : A.L = 0) (hB : B.L = 0) :
    ∃ Qb Qk : Shell → Potential → ℕ → ℕ → ℕ → ℝ,
      (∀ S, IsDiff lib.gen A S → ∀ u ∈ g.arep ++ g.esop, RadialTable lib S B C u (Qb S u)) ∧
      (∀ T, IsDiff lib.gen B T → ∀ u ∈ g.arep ++ g.esop, RadialTable lib A T C u (Qk T u)) ∧
      ∀ D, Separated A.origin B.origin C D → ∀ G : Grads, (∀ q, A.cart_size * B.cart_size ≤ (G q).length) →
        ∃ G', grppGradient lib.gen none (fun S T M => fullGrpp (libKernels lib sf) lib.init S T g C M) A B C D G = .ok G' ∧
          (∀ q p, A.cart_size * B.cart_size ≤ p → (G' q)[p]? = (G q)[p]?) ∧
          ∀ q k m n, m < A.cart_size → n < B.cart_size → ∃ v d, (G' (q, k))[m * B.cart_size + n]? = some v ∧
            HasDerivAt (fun t => grppElement (A.moveTo k (if pointsAreEqual A.origin D then A.origin k + t else A.origin k))
              (B.moveTo k (if pointsAreEqual B.origin D then B.origin k + t else B.origin k))
              (if pointsAreEqual C D then C + along k t else C) g q m n) d 0 ∧
            |v - d| ≤ diffErr lib.gen A (fun S a => grppErr S B C g (Qb S) q a n) k m +
              diffErr lib.gen B (fun T a => grppErr A T C g (Qk T) q m a) k n :=
  full_gradient_correct_partial lib hi hbt ho hs hin none fun _ => ⟨hA, hB⟩

end

/-! ## Concrete cases -/

theorem grppExample_up (A B : Shell) (hA : A.L ≤ 7) (hB : B.L ≤ 7) (C : Point) : GrppReady cartesianDirac A B C grppExample := by
  have kp : Kept pPotential.coeffs := by
    intro c hc
    simp [pPotential] at hc
    right
    rcases hc with rfl | rfl <;> norm_num
  have mo : MomentsOk pPotential (A.L + B.L) := by
    intro k hk n hn
    have : k = 0 ∨ k = 1 := by simp only [pPotential] at hk; omega
    right
    rcases this with rfl | rfl <;> simp [pPotential] <;> omega
  have semi : ∀ u ∈ [{ pPotential with L := 0 }, pPotential], SemiReady A B C u := by
    intro u hu
    simp only [List.mem_cons, List.not_mem_nil, or_false] at hu
    rcases hu with rfl | rfl
    · exact ⟨pPotential_ok.1, pPotential_ok.2, kp, le_rfl, by simp; omega, by simp; omega, fun _ => mo⟩
    · exact ⟨pPotential_ok.1, pPotential_ok.2, kp, by simp [pPotential], by simp [pPotential]; omega, by simp [pPotential]; omega, fun _ => mo⟩
  refine ⟨fun p hp => ?_, semi, fun u hu => semi u ?_, fun e he => ?_⟩
  · obtain rfl := Option.some.inj hp
    exact localThree_range _ _ _ (by omega)
  · simp only [grppExample, List.mem_singleton] at hu
    simp [hu]
  · simp only [grppExample, List.mem_singleton] at he
    subst he
    refine ⟨(pOuterCore_ready ⟨fun _ _ => 0, fun _ => 0⟩ exampleShell sShell fun _ => 0).toOcBase, fun k hk => ?_, exampleShell_usable.kept.noTiny⟩
    have : k = 0 ∨ k = 1 := by simp only [pOuterCore] at hk; omega
    rcases this with rfl | rfl <;> simp [InRange, pOuterCore]

theorem exampleShell_keptDiff : KeptDiff exampleShell := by
  refine ⟨exampleShell_usable.kept, fun i hi => Or.inr ?_⟩
  have : i = 0 ∨ i = 1 := by simp only [exampleShell] at hi; omega
  have h1 : (1 : ℝ) ≤ Real.sqrt 2 := Real.one_le_sqrt.2 (by norm_num)
  have h2 : (1 : ℝ) ≤ Real.sqrt 3 := Real.one_le_sqrt.2 (by norm_num)
  rcases this with rfl | rfl <;> simp [exampleShell, Shell.coeffAt, Shell.alphaAt] <;> norm_num <;> linarith

theorem sShell_keptDiff : KeptDiff sShell := by
  refine ⟨sShell_usable.kept, fun i hi => Or.inr ?_⟩
  have : i = 0 := by simp only [sShell] at hi; omega
  subst this
  simp [sShell, Shell.coeffAt, Shell.alphaAt]
  norm_num

/-- A `p` shell away from the centre and an `s` shell at the centre of the pseudopotential with all kinds of terms. -/
theorem gradInput_example : GradInput cartesianDirac exampleShell sShell (fun _ => 0) grppExample where
  made_bra := exampleShell_made
  made_ket := sShell_usable.made
  L_bra := by simp [exampleShell]
  L_ket := by simp [sShell]
  num_bra := by simp [exampleShell]
  num_ket := by simp [sShell]
  kept_bra := exampleShell_keptDiff
  kept_ket := sShell_keptDiff
  place := Or.inr exampleFar
  up_bra := grppExample_up _ _ (by simp [exampleShell]) (by simp [sShell]) _
  up_ket := grppExample_up _ _ (by simp [exampleShell]) (by simp [sShell]) _

/-- Two `s` shells at the centre. -/
theorem gradInput_centre : GradInput cartesianDirac sShell sShell (fun _ => 0) grppExample where
  made_bra := sShell_usable.made
  made_ket := sShell_usable.made
  L_bra := by simp [sShell]
  L_ket := by simp [sShell]
  num_bra := by simp [sShell]
  num_ket := by simp [sShell]
  kept_bra := sShell_keptDiff
  kept_ket := sShell_keptDiff
  place := Or.inl ⟨rfl, rfl⟩
  up_bra := grppExample_up _ _ (by simp [sShell]) (by simp [sShell]) _
  up_ket := grppExample_up _ _ (by simp [sShell]) (by simp [sShell]) _

/-- Two `p` shells away from the centre. -/
theorem gradInput_pp : GradInput cartesianDirac exampleShell exampleShell (fun _ => 0) grppExample where
  made_bra := exampleShell_made
  made_ket := exampleShell_made
  L_bra := by simp [exampleShell]
  L_ket := by simp [exampleShell]
  num_bra := by simp [exampleShell]
  num_ket := by simp [exampleShell]
  kept_bra := exampleShell_keptDiff
  kept_ket := exampleShell_keptDiff
  place := Or.inr ⟨exampleFar.1, exampleFar.1, fun h => by
    have := h.1
    simp [Fin.sum_univ_three, toC, exampleShell] at this
    norm_num at this⟩
  up_bra := grppExample_up _ _ (by simp [exampleShell]) (by simp [exampleShell]) _
  up_ket := grppExample_up _ _ (by simp [exampleShell]) (by simp [exampleShell]) _

theorem example_separated : Separated exampleShell.origin sShell.origin (fun _ => 0) exampleShell.origin := by
  have ne : ¬ pointsAreEqual exampleShell.origin (fun _ => 0) := by unfold pointsAreEqual exampleShell; norm_num
  have ne' := fun h => ne (points_equal_symm h)
  have e : sShell.origin = fun _ => 0 := rfl
  intro x y z hx hy hz hxy hyz
  simp only [Set.mem_insert_iff, Set.mem_singleton_iff, e] at hx hy hz
  have hx : x = exampleShell.origin ∨ x = fun _ => 0 := by tauto
  have hy : y = exampleShell.origin ∨ y = fun _ => 0 := by tauto
  rcases hx with rfl | rfl <;> rcases hy with rfl | rfl
  · exact hyz
  · exact absurd hxy ne
  · exact absurd hxy ne'
  · exact hyz

/-- The preconditions can be met at once with the tables of the library, and the gradient with respect to the position of the `p` shell is written. -/
example (prm : LibParams ℕ) (screen : Screen) (G : Grads) (hG : ∀ q, (G q).length = 4) :
    ∃ (bt : BesselTab) (sf : SpecFun) (G' : Grads), grppGradient cartesianDirac (some fun _ => 7)
      (fun S T M => fullGrpp (libKernels ⟨true, prm, bt, cartesianDirac, screen⟩ sf) true S T grppExample (fun _ => 0) M)
      exampleShell sShell (fun _ => 0) exampleShell.origin G = .ok G' ∧ ∀ q, (G' q)[3]? = (G q)[3]? := by
  have he : LdblEps (1 / 2 ^ 63) := ⟨by norm_num, by norm_num⟩
  obtain ⟨d, hd⟩ := dawson_total he
  obtain ⟨bt, -, hbt⟩ := type2_tables besselTab0
  obtain ⟨Qb, Qk, -, -, h⟩ := full_gradient_correct_partial (⟨true, prm, bt, cartesianDirac, screen⟩ : Lib ℕ) rfl hbt (Or.inl rfl) (sf := ⟨boysLiteral, d⟩)
    ⟨he, rfl, hd⟩ gradInput_example (some fun _ => 7) (by simp)
  obtain ⟨G', h1, h2, -⟩ := h exampleShell.origin example_separated G (by intro q; rw [hG q]; simp [exampleShell, sShell])
  exact ⟨bt, _, G', h1, fun q => h2 q 3 (by simp [exampleShell, sShell])⟩

/-- Two `p` shells on one centre apart from the pseudopotential: no defined result. -/
example (prm : LibParams ℕ) (screen : Screen) (G : Grads) (hG : ∀ q, (G q).length = 9) :
    ∃ (bt : BesselTab) (sf : SpecFun), grppGradient cartesianDirac none
      (fun S T M => fullGrpp (libKernels ⟨true, prm, bt, cartesianDirac, screen⟩ sf) true S T grppExample (fun _ => 0) M)
      exampleShell exampleShell (fun _ => 0) (fun _ => 0) G = .ub := by
  have he : LdblEps (1 / 2 ^ 63) := ⟨by norm_num, by norm_num⟩
  obtain ⟨d, hd⟩ := dawson_total he
  obtain ⟨bt, -, hbt⟩ := type2_tables besselTab0
  have ne : ¬ pointsAreEqual exampleShell.origin (fun _ => 0) := by unfold pointsAreEqual exampleShell; norm_num
  exact ⟨bt, _, full_gradient_undefined (⟨true, prm, bt, cartesianDirac, screen⟩ : Lib ℕ) rfl hbt (Or.inl rfl) (sf := ⟨boysLiteral, d⟩)
    ⟨he, rfl, hd⟩ gradInput_pp (by simp [exampleShell]) (by simp [exampleShell]) _ G (by intro q; rw [hG q]; simp [exampleShell])
    (fun h => ne h.1) (Or.inr (Or.inr (points_equal_refl _)))⟩

/-- A `p` and an `s` shell and the pseudopotential at three different points: the three gradients add up to zero. -/
example (prm : LibParams ℕ) (screen : Screen) : ∃ (bt : BesselTab) (sf : SpecFun) (R : Point → Grads), ∀ D ∈ [exampleShell.origin, exampleS.origin, fun _ => 0],
      grppGradient cartesianDirac (some fun _ => 7)
        (fun S T M => fullGrpp (libKernels ⟨true, prm, bt, cartesianDirac, screen⟩ sf) true S T grppExample (fun _ => 0) M)
        exampleShell exampleS (fun _ => 0) D (fun _ => [1, 2, 3]) = .ok (R D) := by
  have he : LdblEps (1 / 2 ^ 63) := ⟨by norm_num, by norm_num⟩
  obtain ⟨d, hd⟩ := dawson_total he
  obtain ⟨bt, -, hbt⟩ := type2_tables besselTab0
  have hk : KeptDiff exampleS := exampleShell_keptDiff
  have far : OffCentre exampleShell exampleS fun _ => 0 := by
    refine ⟨exampleFar.1, Or.inr ?_, fun h => exampleFar.2.2 ⟨h.1, by simp [toC, sShell]; norm_num⟩⟩
    unfold vnorm
    refine Real.lt_sqrt_of_sq_lt ?_
    simp [Fin.sum_univ_three, kDir, toC, exampleS, exampleShell, Shell.alphaAt]
    norm_num
  have hin : GradInput cartesianDirac exampleShell exampleS (fun _ => 0) grppExample :=
    ⟨exampleShell_made, exampleS_made, by simp [exampleShell], by simp [exampleS], by simp [exampleShell], by simp [exampleS, exampleShell],
      exampleShell_keptDiff, hk, Or.inr far, grppExample_up _ _ (by simp [exampleShell]) (by simp [exampleS]) _,
      grppExample_up _ _ (by simp [exampleShell]) (by simp [exampleS]) _⟩
  have n1 : ¬ pointsAreEqual exampleShell.origin (fun _ => 0) := by unfold pointsAreEqual exampleShell; norm_num
  have n2 : ¬ pointsAreEqual exampleS.origin (fun _ => 0) := by unfold pointsAreEqual exampleS; norm_num
  obtain ⟨RA, RB, RC, h1, h2, h3, -⟩ := full_gradient_translational_partial (⟨true, prm, bt, cartesianDirac, screen⟩ : Lib ℕ) rfl hbt (Or.inl rfl)
    (sf := ⟨boysLiteral, d⟩) ⟨he, rfl, hd⟩ hin (some fun _ => 7) (by simp) ⟨example_apart, n1, n2⟩ (fun _ => [1, 2, 3]) (fun _ => [1, 2, 3])
    (fun _ => [1, 2, 3]) (fun _ => by decide) (fun _ => by decide) (fun _ => by decide)
  classical
  refine ⟨bt, ⟨boysLiteral, d⟩, fun D => if D = exampleShell.origin then RA else if D = exampleS.origin then RB else RC, fun D hD => ?_⟩
  have e1 : exampleS.origin ≠ exampleShell.origin := fun h => example_apart (h ▸ points_equal_refl _)
  have e2 : (fun _ => 0) ≠ exampleShell.origin := fun h => n1 (h ▸ points_equal_refl _)
  have e3 : (fun _ => 0) ≠ exampleS.origin := fun h => n2 (h ▸ points_equal_refl _)
  simp only [List.mem_cons, List.not_mem_nil, or_false] at hD
  rcases hD with rfl | rfl | rfl
  · simpa using h1
  · simpa [e1] using h2
  · simpa [e2, e3] using h3

/-- Two `s` shells at the centre, without any assumption on out-of-bounds reads. -/
example (prm : LibParams ℕ) (screen : Screen) : ∃ (bt : BesselTab) (sf : SpecFun) (R : Grads), grppGradient cartesianDirac none
      (fun S T M => fullGrpp (libKernels ⟨true, prm, bt, cartesianDirac, screen⟩ sf) true S T grppExample (fun _ => 0) M)
      sShell sShell (fun _ => 0) (fun _ => 0) (fun _ => [1, 2]) = .ok R := by
  have he : LdblEps (1 / 2 ^ 63) := ⟨by norm_num, by norm_num⟩
  obtain ⟨d, hd⟩ := dawson_total he
  obtain ⟨bt, -, hbt⟩ := type2_tables besselTab0
  obtain ⟨Qb, Qk, -, -, h⟩ := full_gradient_correct_s (⟨true, prm, bt, cartesianDirac, screen⟩ : Lib ℕ) rfl hbt (Or.inl rfl) (sf := ⟨boysLiteral, d⟩)
    ⟨he, rfl, hd⟩ gradInput_centre rfl rfl
  have e : sShell.origin = fun _ => 0 := rfl
  obtain ⟨G', h1, -⟩ := h (fun _ => 0) (by
    intro x y z hx hy hz hxy hyz
    simp only [Set.mem_insert_iff, Set.mem_singleton_iff, e, or_self] at hx hy hz
    subst hx hz
    exact points_equal_refl _) (fun _ => [1, 2]) (fun _ => by simp [sShell])
  exact ⟨bt, _, G', h1⟩

end Libgrpp
