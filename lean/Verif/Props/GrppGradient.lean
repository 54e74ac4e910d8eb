import Verif.Lemmas.GrppGradient
import Verif.Props.OverlapGradient
import Mathlib.Analysis.Calculus.FDeriv.Prod
import Mathlib.Analysis.Calculus.Deriv.Prod
import Mathlib.Analysis.Calculus.Deriv.Comp
import Mathlib.Analysis.Calculus.Deriv.Add
import Mathlib.Analysis.Calculus.Deriv.Mul

/-! # C24-C27: the GRPP gradient -/

set_option linter.unusedSimpArgs false

namespace Libgrpp

/-- Among the centres of the shells, of the pseudopotential and the differentiation point, "equal up to 1e-12" is
transitive: no chain of points each within the threshold of the next but not of the one after. -/
def Separated (A B C D : Point) : Prop :=
  ∀ x y z, x ∈ ({A, B, C, D} : Set Point) → y ∈ ({A, B, C, D} : Set Point) → z ∈ ({A, B, C, D} : Set Point) →
    pointsAreEqual x y → pointsAreEqual y z → pointsAreEqual x z

/-- The case analysis, for the six comparisons `AC, BC, AB, AD, BD, CD` (a transitive relation). -/
theorem gradCases {ac bc ab ad bd cd : Prop} [Decidable ac] [Decidable bc] [Decidable ab] [Decidable ad] [Decidable bd]
    [Decidable cd] (t1 : ab → ad → bd) (t2 : ab → bd → ad) (t3 : ac → ad → cd) (t4 : ac → cd → ad) (t5 : bc → bd → cd)
    (t6 : bc → cd → bd) (t7 : ad → cd → ac) (t8 : bd → cd → bc) (t9 : ab → bc → ac) (t10 : ab → ac → bc)
    (c1 : ¬ (ac ∧ bc)) (c2 : ¬ (¬ ad ∧ ¬ bd ∧ ¬ cd)) :
    ((if ¬ ac ∧ ¬ bc ∧ ¬ ab then (if ad then 1 else 0) + ((if bd then 0 else 0) + if cd then -1 + 0 else 0) else 0) +
      ((if ab ∧ ¬ ac then if ad then 1 + 0 else -1 + 0 else 0) + ((if ¬ ac ∧ bc then if ad then 1 else -1 else 0) +
        if ac ∧ ¬ bc then if bd then 0 else 0 else 0)) = ((if ad then 1 else 0) - if cd then 1 else 0 : ℝ)) ∧
    ((if ¬ ac ∧ ¬ bc ∧ ¬ ab then (if ad then 0 else 0) + ((if bd then 1 else 0) + if cd then 0 + -1 else 0) else 0) +
      ((if ab ∧ ¬ ac then if ad then 0 + 1 else 0 + -1 else 0) + ((if ¬ ac ∧ bc then if ad then 0 else 0 else 0) +
        if ac ∧ ¬ bc then if bd then 1 else -1 else 0)) = ((if bd then 1 else 0) - if cd then 1 else 0 : ℝ)) := by
  by_cases p1 : ac <;> by_cases p2 : bc
  · exact absurd ⟨p1, p2⟩ c1
  · have p3 : ¬ ab := fun h => p2 (t10 h p1)
    by_cases p5 : bd
    · have p6 : ¬ cd := fun h => p2 (t8 p5 h)
      have p4 : ¬ ad := fun h => p6 (t3 p1 h)
      norm_num [p1, p2, p3, p4, p5, p6]
    · by_cases p6 : cd
      · have p4 : ad := t4 p1 p6
        norm_num [p1, p2, p3, p4, p5, p6]
      · exact absurd ⟨fun h => p6 (t3 p1 h), p5, p6⟩ c2
  · have p3 : ¬ ab := fun h => p1 (t9 h p2)
    by_cases p4 : ad
    · have p6 : ¬ cd := fun h => p1 (t7 p4 h)
      have p5 : ¬ bd := fun h => p6 (t5 p2 h)
      norm_num [p1, p2, p3, p4, p5, p6]
    · by_cases p6 : cd
      · have p5 : bd := t6 p2 p6
        norm_num [p1, p2, p3, p4, p5, p6]
      · exact absurd ⟨p4, fun h => p6 (t5 p2 h), p6⟩ c2
  · by_cases p3 : ab
    · by_cases p4 : ad
      · have p5 : bd := t1 p3 p4
        have p6 : ¬ cd := fun h => p1 (t7 p4 h)
        norm_num [p1, p2, p3, p4, p5, p6]
      · have p5 : ¬ bd := fun h => p4 (t2 p3 h)
        have p6 : cd := by by_contra h; exact c2 ⟨p4, p5, h⟩
        norm_num [p1, p2, p3, p4, p5, p6]
    · by_cases p4 : ad <;> by_cases p5 : bd <;> by_cases p6 : cd <;> norm_num [p1, p2, p3, p4, p5, p6]

/-- Main fact: the gradient is `[A at D]·∂A + [B at D]·∂B - [C at D]·(∂A + ∂B)`. -/
theorem grppGradient_adds {gen : Nat → List Comp} {full : FullRoutine} {Tb Tk : Fin 4 → Fin 3 → Nat → Nat → ℝ}
    {A B : Shell} {junk : Option (Nat → ℝ)} (h : GradMats gen full A B junk Tb Tk) (C D : Point)
    (hsep : Separated A.origin B.origin C D) (G : Grads) (hG : ∀ q, A.cart_size * B.cart_size ≤ (G q).length) :
    ∃ G', grppGradient gen junk full A B C D G = .ok G' ∧
      (∀ q k m n, m < A.cart_size → n < B.cart_size → (G' (q, k))[m * B.cart_size + n]? = some
        (((if pointsAreEqual A.origin D then 1 else 0) - (if pointsAreEqual C D then 1 else 0)) * Tb q k m n +
          ((if pointsAreEqual B.origin D then 1 else 0) - (if pointsAreEqual C D then 1 else 0)) * Tk q k m n)) ∧
      (∀ q p, A.cart_size * B.cart_size ≤ p → (G' q)[p]? = (G q)[p]?) := by
  obtain ⟨G0, e0, h0⟩ := memsetGrads_ok (A.cart_size * B.cart_size) G hG
  have hlen0 : ∀ k, A.cart_size * B.cart_size ≤ (G0 k).length := fun k => by rw [(h0 k).2.1]; exact hG k
  -- from the effect after clearing
  have fin : ∀ {f : Grads → Outcome Grads} {a b : ℝ}, Does A B Tb Tk a b f →
      a = (if pointsAreEqual A.origin D then 1 else 0) - (if pointsAreEqual C D then 1 else 0) →
      b = (if pointsAreEqual B.origin D then 1 else 0) - (if pointsAreEqual C D then 1 else 0) →
      ∃ G', f G0 = .ok G' ∧
      (∀ q k m n, m < A.cart_size → n < B.cart_size → (G' (q, k))[m * B.cart_size + n]? = some
        (((if pointsAreEqual A.origin D then 1 else 0) - (if pointsAreEqual C D then 1 else 0)) * Tb q k m n +
          ((if pointsAreEqual B.origin D then 1 else 0) - (if pointsAreEqual C D then 1 else 0)) * Tk q k m n)) ∧
      (∀ q p, A.cart_size * B.cart_size ≤ p → (G' q)[p]? = (G q)[p]?) := by
    intro f a b hf ha hb
    obtain ⟨G', e, c⟩ := hf G0 hlen0
    refine ⟨G', e, fun q k m n hm hn => ?_, fun q p hp => (c.beyond q p hp).trans ((h0 q).2.2 p hp)⟩
    rw [c.val q k m n 0 hm hn ((h0 (q, k)).1 _ (rowMajor_lt hm hn)), ha, hb, zero_add]
  have hCB : pointsAreEqual C B.origin ↔ pointsAreEqual B.origin C := ⟨points_equal_symm, points_equal_symm⟩
  have mA : A.origin ∈ ({A.origin, B.origin, C, D} : Set Point) := by simp
  have mB : B.origin ∈ ({A.origin, B.origin, C, D} : Set Point) := by simp
  have mC : C ∈ ({A.origin, B.origin, C, D} : Set Point) := by simp
  have mD : D ∈ ({A.origin, B.origin, C, D} : Set Point) := by simp
  -- all instances of transitivity that matter
  have s := fun {x y} (h : pointsAreEqual x y) => points_equal_symm h
  have t1 : pointsAreEqual A.origin B.origin → pointsAreEqual A.origin D → pointsAreEqual B.origin D :=
    fun a b => hsep _ _ _ mB mA mD (s a) b
  have t2 : pointsAreEqual A.origin B.origin → pointsAreEqual B.origin D → pointsAreEqual A.origin D :=
    fun a b => hsep _ _ _ mA mB mD a b
  have t3 : pointsAreEqual A.origin C → pointsAreEqual A.origin D → pointsAreEqual C D :=
    fun a b => hsep _ _ _ mC mA mD (s a) b
  have t4 : pointsAreEqual A.origin C → pointsAreEqual C D → pointsAreEqual A.origin D :=
    fun a b => hsep _ _ _ mA mC mD a b
  have t5 : pointsAreEqual B.origin C → pointsAreEqual B.origin D → pointsAreEqual C D :=
    fun a b => hsep _ _ _ mC mB mD (s a) b
  have t6 : pointsAreEqual B.origin C → pointsAreEqual C D → pointsAreEqual B.origin D :=
    fun a b => hsep _ _ _ mB mC mD a b
  have t7 : pointsAreEqual A.origin D → pointsAreEqual C D → pointsAreEqual A.origin C :=
    fun a b => hsep _ _ _ mA mD mC a (s b)
  have t8 : pointsAreEqual B.origin D → pointsAreEqual C D → pointsAreEqual B.origin C :=
    fun a b => hsep _ _ _ mB mD mC a (s b)
  have t9 : pointsAreEqual A.origin B.origin → pointsAreEqual B.origin C → pointsAreEqual A.origin C :=
    fun a b => hsep _ _ _ mA mB mC a b
  have t10 : pointsAreEqual A.origin B.origin → pointsAreEqual A.origin C → pointsAreEqual B.origin C :=
    fun a b => hsep _ _ _ mB mA mC (s a) b
  unfold grppGradient
  rw [e0]
  simp only [Outcome.ok_bind]
  have hzero : Does A B Tb Tk 0 0 (fun G => .ok G) := fun G _ => ⟨G, rfl, Combo.refl G⟩
  by_cases c1 : pointsAreEqual A.origin C ∧ pointsAreEqual B.origin C
  · simp only [if_pos c1]
    refine fin hzero ?_ ?_
    · by_cases hd : pointsAreEqual C D
      · rw [if_pos (t4 c1.1 hd), if_pos hd, sub_self]
      · rw [if_neg (fun x => hd (t3 c1.1 x)), if_neg hd, sub_self]
    · by_cases hd : pointsAreEqual C D
      · rw [if_pos (t6 c1.2 hd), if_pos hd, sub_self]
      · rw [if_neg (fun x => hd (t5 c1.2 x)), if_neg hd, sub_self]
  by_cases c2 : ¬ pointsAreEqual A.origin D ∧ ¬ pointsAreEqual B.origin D ∧ ¬ pointsAreEqual C D
  · simp only [if_neg c1, if_pos c2]
    refine fin hzero ?_ ?_
    · rw [if_neg c2.1, if_neg c2.2.2, sub_self]
    · rw [if_neg c2.2.1, if_neg c2.2.2, sub_self]
  simp only [if_neg c1, if_neg c2]
  have main := ((Does.onlyIf (¬ pointsAreEqual A.origin C ∧ ¬ pointsAreEqual C B.origin ∧ ¬ pointsAreEqual A.origin B.origin)
    fun _ => ((Does.onlyIf (pointsAreEqual A.origin D) fun _ => h.contribution_bra 1).seq
      ((Does.onlyIf (pointsAreEqual B.origin D) fun _ => h.contribution_ket 1).seq
        (Does.onlyIf (pointsAreEqual C D) fun _ => (h.contribution_bra (-1)).seq (h.contribution_ket (-1))))))).seq
    ((Does.onlyIf (pointsAreEqual A.origin B.origin ∧ ¬ pointsAreEqual A.origin C) fun _ =>
      (Does.ite (pointsAreEqual A.origin D) ((h.bra_contribution 1).seq (h.ket_contribution 1))
        ((h.bra_contribution (-1)).seq (h.ket_contribution (-1))))).seq
    ((Does.onlyIf (¬ pointsAreEqual A.origin C ∧ pointsAreEqual C B.origin) fun _ =>
      (Does.ite (pointsAreEqual A.origin D) (h.contribution_bra 1) (h.contribution_bra (-1)))).seq
    (Does.onlyIf (pointsAreEqual A.origin C ∧ ¬ pointsAreEqual C B.origin) fun _ =>
      (Does.ite (pointsAreEqual B.origin D) (h.contribution_ket 1) (h.contribution_ket (-1))))))
  have hc := gradCases t1 t2 t3 t4 t5 t6 t7 t8 t9 t10 c1 c2
  refine fin main ?_ ?_
  · simp only [hCB]; exact hc.1
  · simp only [hCB]; exact hc.2

theorem grppGradient_value {gen : Nat → List Comp} {full : FullRoutine} {I : Fin 4 → (Point → ℝ) → (Point → ℝ) → ℝ}
    {A B : Shell} {junk : Option (Nat → ℝ)} (h : GradReady gen full I A B junk) (C D : Point)
    (hsep : Separated A.origin B.origin C D) (G : Grads) (hG : ∀ q, A.cart_size * B.cart_size ≤ (G q).length) :
    ∃ G', grppGradient gen junk full A B C D G = .ok G' ∧
      (∀ q k m n, m < A.cart_size → n < B.cart_size → (G' (q, k))[m * B.cart_size + n]? = some
        (((if pointsAreEqual A.origin D then 1 else 0) - (if pointsAreEqual C D then 1 else 0)) * braT I A B q k m n +
          ((if pointsAreEqual B.origin D then 1 else 0) - (if pointsAreEqual C D then 1 else 0)) * ketT I A B q k m n)) ∧
      (∀ q p, A.cart_size * B.cart_size ≤ p → (G' q)[p]? = (G q)[p]?) :=
  grppGradient_adds h.mats C D hsep G hG

/-! ## C26 -/

/-- **C26.** If both shells sit on the pseudopotential centre, or the differentiation point is none of the three centres,
all twelve arrays are set to zero (and nothing beyond the shell-pair size is touched), for every integral routine,
angular momenta and array contents. -/
theorem grpp_gradient_zero (gen : Nat → List Comp) (junk : Option (Nat → ℝ)) (full : FullRoutine) (A B : Shell)
    (C D : Point) (G : Grads) (hG : ∀ q, A.cart_size * B.cart_size ≤ (G q).length)
    (h : pointsAreEqual A.origin C ∧ pointsAreEqual B.origin C ∨
      ¬ pointsAreEqual A.origin D ∧ ¬ pointsAreEqual B.origin D ∧ ¬ pointsAreEqual C D) :
    ∃ G', grppGradient gen junk full A B C D G = .ok G' ∧
      ∀ q, (∀ p < A.cart_size * B.cart_size, (G' q)[p]? = some 0) ∧
        ∀ p, A.cart_size * B.cart_size ≤ p → (G' q)[p]? = (G q)[p]? := by
  obtain ⟨G0, e0, h0⟩ := memsetGrads_ok (A.cart_size * B.cart_size) G hG
  refine ⟨G0, ?_, fun k => ⟨(h0 k).1, (h0 k).2.2⟩⟩
  unfold grppGradient
  rw [e0]
  simp only [Outcome.ok_bind]
  by_cases h1 : pointsAreEqual A.origin C ∧ pointsAreEqual B.origin C
  · rw [if_pos h1]
  · rw [if_neg h1, if_pos (h.resolve_left h1)]

/-! ## C25 -/

/-- The points are pairwise told apart by the code. -/
def Apart3 (A B C : Point) : Prop := ¬ pointsAreEqual A B ∧ ¬ pointsAreEqual A C ∧ ¬ pointsAreEqual B C

theorem Apart3.separated {A B C : Point} (h : Apart3 A B C) {D : Point} (hD : D = A ∨ D = B ∨ D = C) :
    Separated A B C D := by
  obtain ⟨h1, h2, h3⟩ := h
  have h1' := fun h => h1 (points_equal_symm h)
  have h2' := fun h => h2 (points_equal_symm h)
  have h3' := fun h => h3 (points_equal_symm h)
  have ra := points_equal_refl A
  have rb := points_equal_refl B
  have rc := points_equal_refl C
  have mem : ∀ x, x ∈ ({A, B, C, D} : Set Point) → x = A ∨ x = B ∨ x = C := by
    intro x hx
    simp only [Set.mem_insert_iff, Set.mem_singleton_iff] at hx
    rcases hx with h | h | h | h
    · exact Or.inl h
    · exact Or.inr (Or.inl h)
    · exact Or.inr (Or.inr h)
    · rw [h]; exact hD
  intro x y z hx hy hz hxy hyz
  rcases mem x hx with rfl | rfl | rfl <;> rcases mem y hy with rfl | rfl | rfl <;>
    first
    | exact hyz
    | exact absurd hxy (by assumption)

/-- **C25, partial.** Full statement: for centres told apart by the code, the gradients with respect to the bra centre, the
ket centre and the pseudopotential centre add up to zero, element by element and for each of the four matrices. The integral
routine `full` is only assumed to return, with matrices of the right size, for the shells made by the differentiation; the
numbers it returns need not be correct. Missing: for shells with `L > 0` the result is relative to some value being returned
by the out-of-bounds reads (`junk`), without which the code has no defined result (`grpp_gradient_out_of_bounds`). -/
theorem grpp_gradient_translational_partial {gen : Nat → List Comp} {full : FullRoutine} {A B : Shell} {junk : Option (Nat → ℝ)}
    (h : GradRuns gen full A B junk) (C : Point) (hap : Apart3 A.origin B.origin C) (G1 G2 G3 : Grads)
    (h1 : ∀ q, A.cart_size * B.cart_size ≤ (G1 q).length) (h2 : ∀ q, A.cart_size * B.cart_size ≤ (G2 q).length)
    (h3 : ∀ q, A.cart_size * B.cart_size ≤ (G3 q).length) :
    ∃ RA RB RC, grppGradient gen junk full A B C A.origin G1 = .ok RA ∧
      grppGradient gen junk full A B C B.origin G2 = .ok RB ∧ grppGradient gen junk full A B C C G3 = .ok RC ∧
      ∀ q p, p < A.cart_size * B.cart_size → ∃ a b c, (RA q)[p]? = some a ∧ (RB q)[p]? = some b ∧ (RC q)[p]? = some c ∧
        a + b + c = 0 := by
  obtain ⟨Tb, Tk, hm0⟩ := h.mats
  obtain ⟨RA, eA, vA, -⟩ := grppGradient_adds hm0 C A.origin (hap.separated (Or.inl rfl)) G1 h1
  obtain ⟨RB, eB, vB, -⟩ := grppGradient_adds hm0 C B.origin (hap.separated (Or.inr (Or.inl rfl))) G2 h2
  obtain ⟨RC, eC, vC, -⟩ := grppGradient_adds hm0 C C (hap.separated (Or.inr (Or.inr rfl))) G3 h3
  refine ⟨RA, RB, RC, eA, eB, eC, fun q p hp => ?_⟩
  obtain ⟨q, k⟩ := q
  have hB : 0 < B.cart_size := by
    rcases Nat.eq_zero_or_pos B.cart_size with h | h
    · rw [h] at hp; omega
    · exact h
  have hm : p / B.cart_size < A.cart_size := Nat.div_lt_of_lt_mul (by rwa [mul_comm] at hp)
  have hn : p % B.cart_size < B.cart_size := Nat.mod_lt _ hB
  have ep : p / B.cart_size * B.cart_size + p % B.cart_size = p := by rw [mul_comm]; exact Nat.div_add_mod p _
  obtain ⟨d1, d2, d3⟩ := hap
  have d1' := fun h => d1 (points_equal_symm h)
  have d2' := fun h => d2 (points_equal_symm h)
  have d3' := fun h => d3 (points_equal_symm h)
  have a1 := vA q k _ _ hm hn
  have b1 := vB q k _ _ hm hn
  have c1 := vC q k _ _ hm hn
  rw [ep] at a1 b1 c1
  refine ⟨_, _, _, a1, b1, c1, ?_⟩
  simp only [points_equal_refl, if_true, if_neg d1, if_neg d1', if_neg d2, if_neg d2', if_neg d3, if_neg d3']
  ring

/-- **C25, partial** (two distinct centres). If two of the three centres coincide, the gradients with respect to the two
distinct positions are opposite. Same assumptions as above. -/
theorem grpp_gradient_two_centres_partial {gen : Nat → List Comp} {full : FullRoutine} {A B : Shell} {junk : Option (Nat → ℝ)}
    (h : GradRuns gen full A B junk) (C P Q : Point) (hPQ : ¬ pointsAreEqual P Q)
    (hA : A.origin = P ∨ A.origin = Q) (hB : B.origin = P ∨ B.origin = Q) (hC : C = P ∨ C = Q) (G1 G2 : Grads)
    (h1 : ∀ q, A.cart_size * B.cart_size ≤ (G1 q).length) (h2 : ∀ q, A.cart_size * B.cart_size ≤ (G2 q).length) :
    ∃ RP RQ, grppGradient gen junk full A B C P G1 = .ok RP ∧ grppGradient gen junk full A B C Q G2 = .ok RQ ∧
      ∀ q p, p < A.cart_size * B.cart_size → ∃ a b, (RP q)[p]? = some a ∧ (RQ q)[p]? = some b ∧ a = -b := by
  have hQP := fun h => hPQ (points_equal_symm h)
  have sep : ∀ D, D = P ∨ D = Q → Separated A.origin B.origin C D := by
    intro D hD x y z hx hy hz hxy hyz
    have mem : ∀ x, x ∈ ({A.origin, B.origin, C, D} : Set Point) → x = P ∨ x = Q := by
      intro x hx
      simp only [Set.mem_insert_iff, Set.mem_singleton_iff] at hx
      rcases hx with h | h | h | h <;> rw [h] <;> assumption
    rcases mem x hx with h | h <;> rcases mem y hy with h' | h' <;> rw [h, h'] at hxy <;> rw [h'] at hyz
    · rw [h]; exact hyz
    · exact absurd hxy hPQ
    · exact absurd hxy hQP
    · rw [h]; exact hyz
  obtain ⟨Tb, Tk, hm0⟩ := h.mats
  obtain ⟨RA, eA, vA, -⟩ := grppGradient_adds hm0 C P (sep P (Or.inl rfl)) G1 h1
  obtain ⟨RB, eB, vB, -⟩ := grppGradient_adds hm0 C Q (sep Q (Or.inr rfl)) G2 h2
  refine ⟨RA, RB, eA, eB, fun q p hp => ?_⟩
  obtain ⟨q, k⟩ := q
  have hBp : 0 < B.cart_size := by
    rcases Nat.eq_zero_or_pos B.cart_size with h | h
    · rw [h] at hp; omega
    · exact h
  have hm : p / B.cart_size < A.cart_size := Nat.div_lt_of_lt_mul (by rwa [mul_comm] at hp)
  have hn : p % B.cart_size < B.cart_size := Nat.mod_lt _ hBp
  have ep : p / B.cart_size * B.cart_size + p % B.cart_size = p := by rw [mul_comm]; exact Nat.div_add_mod p _
  have a1 := vA q k _ _ hm hn
  have b1 := vB q k _ _ hm hn
  rw [ep] at a1 b1
  refine ⟨_, _, a1, b1, ?_⟩
  rcases hA with hA | hA <;> rcases hB with hB | hB <;> rcases hC with hC | hC <;> rw [hA, hB, hC] <;>
    simp only [points_equal_refl, if_true, if_neg hPQ, if_neg hQP] <;> ring

/-! ## The gradient is the derivative -/

/-- Displacement by `t` along coordinate `k`. -/
noncomputable def along (k : Fin 3) (t : ℝ) : Point := Function.update 0 k t

theorem basisFn_translate (s : Shell) (k : Fin 3) (a t : ℝ) (m : Nat) (r : Point) :
    basisFn (s.moveTo k (a + t)) m (r + along k t) = basisFn (s.moveTo k a) m r := by
  have key : ∀ k', (r + along k t) k' - (s.moveTo k (a + t)).origin k' = r k' - (s.moveTo k a).origin k' := by
    intro k'
    unfold along Shell.moveTo
    by_cases hk : k' = k
    · subst hk; simp
    · simp [Function.update_of_ne hk]
  unfold basisFn primFn
  simp only [key]
  rfl

/-- What is assumed of the interaction of two functions with a pseudopotential at `C`, `W C q f g`: it does not change when
everything is translated, and it can be differentiated with respect to the centres of the functions under the integral. -/
structure Interaction (W : Point → Fin 4 → (Point → ℝ) → (Point → ℝ) → ℝ) (A B : Shell) (C : Point) : Prop where
  translate : ∀ C q f g τ, W (C + τ) q f g = W C q (fun r => f (r + τ)) (fun r => g (r + τ))
  diff : ∀ q k m n, m < A.cart_size → n < B.cart_size → HasFDerivAt (fun p : ℝ × ℝ => W C q (basisFn (A.moveTo k p.1) m) (basisFn (B.moveTo k p.2) n))
    (braT (W C) A B q k m n • ContinuousLinearMap.fst ℝ ℝ ℝ + ketT (W C) A B q k m n • ContinuousLinearMap.snd ℝ ℝ ℝ)
    (A.origin k, B.origin k)

/-- The derivative when every centre at `D` is displaced together. -/
theorem Interaction.hasDerivAt {W : Point → Fin 4 → (Point → ℝ) → (Point → ℝ) → ℝ} {A B : Shell} {C : Point} (hW : Interaction W A B C) (D : Point)
    (q : Fin 4) (k : Fin 3) {m n : Nat} (hm : m < A.cart_size) (hn : n < B.cart_size) :
    HasDerivAt (fun t => W (if pointsAreEqual C D then C + along k t else C) q
          (basisFn (A.moveTo k (if pointsAreEqual A.origin D then A.origin k + t else A.origin k)) m)
          (basisFn (B.moveTo k (if pointsAreEqual B.origin D then B.origin k + t else B.origin k)) n))
      (((if pointsAreEqual A.origin D then 1 else 0) - (if pointsAreEqual C D then 1 else 0)) * braT (W C) A B q k m n +
        ((if pointsAreEqual B.origin D then 1 else 0) - (if pointsAreEqual C D then 1 else 0)) * ketT (W C) A B q k m n) 0 := by
  -- everything relative to the pseudopotential
  have hrel : (fun t => W (if pointsAreEqual C D then C + along k t else C) q
      (basisFn (A.moveTo k (if pointsAreEqual A.origin D then A.origin k + t else A.origin k)) m)
      (basisFn (B.moveTo k (if pointsAreEqual B.origin D then B.origin k + t else B.origin k)) n)) =
      fun t => W C q
        (basisFn (A.moveTo k (A.origin k + ((if pointsAreEqual A.origin D then 1 else 0) - if pointsAreEqual C D then 1 else 0) * t)) m)
        (basisFn (B.moveTo k (B.origin k + ((if pointsAreEqual B.origin D then 1 else 0) - if pointsAreEqual C D then 1 else 0) * t)) n) := by
    funext t
    have mv : ∀ (s : Shell) (a : ℝ) (m : Nat), (fun r => basisFn (s.moveTo k a) m (r + along k t)) =
        basisFn (s.moveTo k (a - t)) m := by
      intro s a m
      funext r
      have := basisFn_translate s k (a - t) t m r
      rwa [sub_add_cancel] at this
    by_cases hC : pointsAreEqual C D
    · simp only [if_pos hC]
      rw [hW.translate, mv, mv]
      congr 3
      · split <;> ring
      · split <;> ring
    · simp only [if_neg hC]
      congr 3
      · split <;> ring
      · split <;> ring
  rw [hrel]
  have hpath : HasDerivAt (fun t : ℝ => (A.origin k + ((if pointsAreEqual A.origin D then 1 else 0) -
      if pointsAreEqual C D then 1 else 0) * t, B.origin k + ((if pointsAreEqual B.origin D then 1 else 0) -
      if pointsAreEqual C D then 1 else 0) * t))
      (((if pointsAreEqual A.origin D then 1 else 0) - if pointsAreEqual C D then 1 else 0 : ℝ),
        ((if pointsAreEqual B.origin D then 1 else 0) - if pointsAreEqual C D then 1 else 0 : ℝ)) 0 := by
    have line : ∀ a w : ℝ, HasDerivAt (fun t : ℝ => a + w * t) w 0 := fun a w => by
      simpa using ((hasDerivAt_id (0 : ℝ)).const_mul w).const_add a
    exact (line _ _).prodMk (line _ _)
  have hd := hW.diff q k m n hm hn
  have h0 : ((A.origin k, B.origin k) : ℝ × ℝ) = (fun t : ℝ => (A.origin k + ((if pointsAreEqual A.origin D then 1 else 0) -
      if pointsAreEqual C D then 1 else 0) * t, B.origin k + ((if pointsAreEqual B.origin D then 1 else 0) -
      if pointsAreEqual C D then 1 else 0) * t)) 0 := by simp
  rw [h0] at hd
  refine (hd.comp_hasDerivAt (0 : ℝ) hpath).congr_deriv ?_
  simp [mul_comm]

/-- **C25, partial** (the gradient is the derivative). The array element is the derivative of the integral when every
centre at `D` (the bra centre, the ket centre, the pseudopotential) is displaced together along coordinate `k`. Same
assumptions as `grpp_gradient_translational_partial`, and the interaction must be translation invariant and
differentiable under the integral. -/
theorem grpp_gradient_true_partial {gen : Nat → List Comp} {full : FullRoutine}
    {W : Point → Fin 4 → (Point → ℝ) → (Point → ℝ) → ℝ} {A B : Shell} {junk : Option (Nat → ℝ)} (C D : Point)
    (h : GradReady gen full (W C) A B junk) (hW : Interaction W A B C)
    (hsep : Separated A.origin B.origin C D) (G : Grads) (hG : ∀ q, A.cart_size * B.cart_size ≤ (G q).length) :
    ∃ G', grppGradient gen junk full A B C D G = .ok G' ∧
      (∀ q p, A.cart_size * B.cart_size ≤ p → (G' q)[p]? = (G q)[p]?) ∧
      ∀ q k m n, m < A.cart_size → n < B.cart_size → ∃ g, (G' (q, k))[m * B.cart_size + n]? = some g ∧
        HasDerivAt (fun t => W (if pointsAreEqual C D then C + along k t else C) q
          (basisFn (A.moveTo k (if pointsAreEqual A.origin D then A.origin k + t else A.origin k)) m)
          (basisFn (B.moveTo k (if pointsAreEqual B.origin D then B.origin k + t else B.origin k)) n)) g 0 := by
  obtain ⟨G', e, v, b⟩ := grppGradient_value h C D hsep G hG
  exact ⟨G', e, b, fun q k m n hm hn => ⟨_, v q k m n hm hn, hW.hasDerivAt D q k hm hn⟩⟩

/-! ## C24 for the GRPP gradient -/

/-- **C24 is false** for the GRPP gradient too: with `L > 0` in both shells, whenever a contribution is needed, the
assembly reads outside the matrix of the `L-1` shell, for every geometry and every integral routine. -/
theorem grpp_gradient_out_of_bounds {gen : Nat → List Comp} {full : FullRoutine} {A B : Shell} {junk : Option (Nat → ℝ)}
    (h : GradRuns gen full A B junk) (hLA : 0 < A.L) (hLB : 0 < B.L) (C D : Point) (G : Grads)
    (hG : ∀ q, A.cart_size * B.cart_size ≤ (G q).length)
    (hc : ¬ (pointsAreEqual A.origin C ∧ pointsAreEqual B.origin C))
    (hD : pointsAreEqual A.origin D ∨ pointsAreEqual B.origin D ∨ pointsAreEqual C D) :
    grppGradient gen none full A B C D G = .ub := by
  obtain ⟨Tb, Tk, hm0⟩ := h.mats
  obtain ⟨G0, e0, h0⟩ := memsetGrads_ok (A.cart_size * B.cart_size) G hG
  have hlen0 : ∀ k, A.cart_size * B.cart_size ≤ (G0 k).length := fun k => by rw [(h0 k).2.1]; exact hG k
  have hCB : pointsAreEqual C B.origin ↔ pointsAreEqual B.origin C := ⟨points_equal_symm, points_equal_symm⟩
  have c2 : ¬ (¬ pointsAreEqual A.origin D ∧ ¬ pointsAreEqual B.origin D ∧ ¬ pointsAreEqual C D) := by tauto
  have u1 := fun f => hm0.contribution_bra_ub hLA f hlen0
  have u2 := fun f => hm0.contribution_ket_ub hLB f hlen0
  have u3 := fun f => hm0.bra_contribution_ub hLA f hlen0
  unfold grppGradient
  rw [e0]
  simp only [Outcome.ok_bind, if_neg hc, if_neg c2, hCB]
  by_cases p1 : pointsAreEqual A.origin C
  · have p2 : ¬ pointsAreEqual B.origin C := fun h => hc ⟨p1, h⟩
    simp only [p1, p2, not_true, not_false_iff, and_false, false_and, and_true, true_and, and_self, onlyIf, if_true,
      if_false, Outcome.ok_bind]
    split
    · exact u2 1
    · exact u2 (-1)
  · by_cases p2 : pointsAreEqual B.origin C
    · by_cases p3 : pointsAreEqual A.origin B.origin
      · simp only [p1, p2, p3, not_true, not_false_iff, and_false, false_and, and_true, true_and, and_self, onlyIf, if_true,
          if_false, Outcome.ok_bind, u3]
        split <;> rfl
      · simp only [p1, p2, p3, not_true, not_false_iff, and_false, false_and, and_true, true_and, and_self, onlyIf, if_true,
          if_false, Outcome.ok_bind, u1]
        split <;> rfl
    · by_cases p3 : pointsAreEqual A.origin B.origin
      · simp only [p1, p2, p3, not_true, not_false_iff, and_false, false_and, and_true, true_and, and_self, onlyIf, if_true,
          if_false, Outcome.ok_bind, u3]
        split <;> rfl
      · simp only [p1, p2, p3, not_true, not_false_iff, and_false, false_and, and_true, true_and, and_self, onlyIf, if_true,
          if_false, Outcome.ok_bind]
        by_cases p4 : pointsAreEqual A.origin D
        · simp only [p4, if_true, u1]; rfl
        · by_cases p5 : pointsAreEqual B.origin D
          · simp only [p4, p5, if_true, if_false, Outcome.ok_bind, u2]; rfl
          · have p6 : pointsAreEqual C D := by tauto
            simp only [p4, p5, p6, if_true, if_false, Outcome.ok_bind, u1]; rfl

/-- **C24, partial** for the GRPP gradient: with two s shells there is no out-of-bounds read. -/
theorem grpp_gradient_in_bounds_partial {gen : Nat → List Comp} {full : FullRoutine} {A B : Shell}
    (h : GradRuns gen full A B none) (C D : Point) (hsep : Separated A.origin B.origin C D) (G : Grads)
    (hG : ∀ q, A.cart_size * B.cart_size ≤ (G q).length) :
    ∃ G', grppGradient gen none full A B C D G = .ok G' := by
  obtain ⟨Tb, Tk, hm0⟩ := h.mats
  obtain ⟨G', e, -⟩ := grppGradient_adds hm0 C D hsep G hG
  exact ⟨G', e⟩

/-! ## C27 -/

/-- The formulas of the gradient routine. -/
inductive GradCase | zero | acb | aca | acc | ccb

/-- When the documentation (comments before each formula) says the formula is used: all centres equal or `D` elsewhere;
three distinct centres; the two shells on one centre; ket on the pseudopotential; bra on the pseudopotential. -/
def GradCase.When (A B C D : Point) : GradCase → Prop
  | .zero => pointsAreEqual A C ∧ pointsAreEqual B C ∨ ¬ pointsAreEqual A D ∧ ¬ pointsAreEqual B D ∧ ¬ pointsAreEqual C D
  | .acb => (pointsAreEqual A D ∨ pointsAreEqual B D ∨ pointsAreEqual C D) ∧
      ¬ pointsAreEqual A C ∧ ¬ pointsAreEqual C B ∧ ¬ pointsAreEqual A B
  | .aca => (pointsAreEqual A D ∨ pointsAreEqual B D ∨ pointsAreEqual C D) ∧ pointsAreEqual A B ∧ ¬ pointsAreEqual A C
  | .acc => (pointsAreEqual A D ∨ pointsAreEqual B D ∨ pointsAreEqual C D) ∧ ¬ pointsAreEqual A C ∧ pointsAreEqual C B
  | .ccb => (pointsAreEqual A D ∨ pointsAreEqual B D ∨ pointsAreEqual C D) ∧ pointsAreEqual A C ∧ ¬ pointsAreEqual C B

/-- The value each formula is meant to add, as weights of `∂A` and `∂B`. -/
noncomputable def GradCase.weights (A B C D : Point) : GradCase → ℝ × ℝ
  | .zero => (0, 0)
  | .acb => ((if pointsAreEqual A D then 1 else 0) - (if pointsAreEqual C D then 1 else 0),
      (if pointsAreEqual B D then 1 else 0) - (if pointsAreEqual C D then 1 else 0))
  | .aca => if pointsAreEqual A D then (1, 1) else (-1, -1)
  | .acc => if pointsAreEqual A D then (1, 0) else (-1, 0)
  | .ccb => if pointsAreEqual B D then (0, 1) else (0, -1)

theorem gradCase_unique {A B C D : Point} (t9 : pointsAreEqual A B → pointsAreEqual B C → pointsAreEqual A C)
    {c c' : GradCase} (hc : c.When A B C D) (hc' : c'.When A B C D) : c' = c := by
  have hCB : pointsAreEqual C B → pointsAreEqual B C := points_equal_symm
  have hz : ∀ c : GradCase, c ≠ .zero → c.When A B C D → ¬ GradCase.When A B C D .zero := by
    intro c hne h hz
    have h1 : pointsAreEqual A D ∨ pointsAreEqual B D ∨ pointsAreEqual C D := by
      cases c
      · exact absurd rfl hne
      all_goals exact h.1
    have h2 : ¬ (pointsAreEqual A C ∧ pointsAreEqual B C) := by
      intro h3
      cases c
      · exact absurd rfl hne
      · exact h.2.1 h3.1
      · exact h.2.2 h3.1
      · exact h.2.1 h3.1
      · exact h.2.2 (points_equal_symm h3.2)
    rcases hz with h | ⟨n1, n2, n3⟩
    · exact h2 h
    · rcases h1 with h | h | h
      · exact n1 h
      · exact n2 h
      · exact n3 h
  cases c <;> cases c'
  · rfl
  · exact absurd hc (hz _ (by simp) hc')
  · exact absurd hc (hz _ (by simp) hc')
  · exact absurd hc (hz _ (by simp) hc')
  · exact absurd hc (hz _ (by simp) hc')
  · exact absurd hc' (hz _ (by simp) hc)
  · rfl
  · exact absurd hc'.2.1 hc.2.2.2
  · exact absurd hc'.2.2 hc.2.2.1
  · exact absurd hc'.2.1 hc.2.1
  · exact absurd hc' (hz _ (by simp) hc)
  · exact absurd hc.2.1 hc'.2.2.2
  · rfl
  · exact absurd (t9 hc.2.1 (hCB hc'.2.2)) hc.2.2
  · exact absurd hc'.2.1 hc.2.2
  · exact absurd hc' (hz _ (by simp) hc)
  · exact absurd hc.2.2 hc'.2.2.1
  · exact absurd (t9 hc'.2.1 (hCB hc.2.2)) hc'.2.2
  · rfl
  · exact absurd hc'.2.1 hc.2.1
  · exact absurd hc' (hz _ (by simp) hc)
  · exact absurd hc.2.1 hc'.2.1
  · exact absurd hc.2.1 hc'.2.2
  · exact absurd hc.2.1 hc'.2.1
  · rfl

/-- **C27, partial.** Full statement: for *every* quadruple of points exactly one formula is selected, and its value is what
the routine returns. Proved for all quadruples on which the comparison with threshold 1e-12 is transitive; it is false
without that (`grpp_gradient_two_formulas`). -/
theorem grpp_gradient_one_case_partial {gen : Nat → List Comp} {full : FullRoutine}
    {I : Fin 4 → (Point → ℝ) → (Point → ℝ) → ℝ} {A B : Shell} {junk : Option (Nat → ℝ)}
    (h : GradReady gen full I A B junk) (C D : Point) (hsep : Separated A.origin B.origin C D) (G : Grads)
    (hG : ∀ q, A.cart_size * B.cart_size ≤ (G q).length) :
    ∃ c : GradCase, (c.When A.origin B.origin C D ∧ ∀ c' : GradCase, c'.When A.origin B.origin C D → c' = c) ∧
      ∃ G', grppGradient gen junk full A B C D G = .ok G' ∧
        ∀ q k m n, m < A.cart_size → n < B.cart_size → (G' (q, k))[m * B.cart_size + n]? = some
          ((c.weights A.origin B.origin C D).1 * I q (dBasis A k m) (basisFn B n) +
            (c.weights A.origin B.origin C D).2 * I q (basisFn A m) (dBasis B k n)) := by
  obtain ⟨G', e, v, -⟩ := grppGradient_value h C D hsep G hG
  have hCB : pointsAreEqual C B.origin ↔ pointsAreEqual B.origin C := ⟨points_equal_symm, points_equal_symm⟩
  have mA : A.origin ∈ ({A.origin, B.origin, C, D} : Set Point) := by simp
  have mB : B.origin ∈ ({A.origin, B.origin, C, D} : Set Point) := by simp
  have mC : C ∈ ({A.origin, B.origin, C, D} : Set Point) := by simp
  have mD : D ∈ ({A.origin, B.origin, C, D} : Set Point) := by simp
  have s := fun {x y} (h : pointsAreEqual x y) => points_equal_symm h
  have t1 : pointsAreEqual A.origin B.origin → pointsAreEqual A.origin D → pointsAreEqual B.origin D :=
    fun a b => hsep _ _ _ mB mA mD (s a) b
  have t2 : pointsAreEqual A.origin B.origin → pointsAreEqual B.origin D → pointsAreEqual A.origin D :=
    fun a b => hsep _ _ _ mA mB mD a b
  have t3 : pointsAreEqual A.origin C → pointsAreEqual A.origin D → pointsAreEqual C D :=
    fun a b => hsep _ _ _ mC mA mD (s a) b
  have t4 : pointsAreEqual A.origin C → pointsAreEqual C D → pointsAreEqual A.origin D :=
    fun a b => hsep _ _ _ mA mC mD a b
  have t5 : pointsAreEqual B.origin C → pointsAreEqual B.origin D → pointsAreEqual C D :=
    fun a b => hsep _ _ _ mC mB mD (s a) b
  have t6 : pointsAreEqual B.origin C → pointsAreEqual C D → pointsAreEqual B.origin D :=
    fun a b => hsep _ _ _ mB mC mD a b
  have t7 : pointsAreEqual A.origin D → pointsAreEqual C D → pointsAreEqual A.origin C :=
    fun a b => hsep _ _ _ mA mD mC a (s b)
  have t8 : pointsAreEqual B.origin D → pointsAreEqual C D → pointsAreEqual B.origin C :=
    fun a b => hsep _ _ _ mB mD mC a (s b)
  have t9 : pointsAreEqual A.origin B.origin → pointsAreEqual B.origin C → pointsAreEqual A.origin C :=
    fun a b => hsep _ _ _ mA mB mC a b
  have t10 : pointsAreEqual A.origin B.origin → pointsAreEqual A.origin C → pointsAreEqual B.origin C :=
    fun a b => hsep _ _ _ mB mA mC (s a) b
  -- the weights determine the conclusion
  have fin : ∀ c : GradCase, c.When A.origin B.origin C D → (∀ c' : GradCase, c'.When A.origin B.origin C D → c' = c) →
      ((if pointsAreEqual A.origin D then 1 else 0) - (if pointsAreEqual C D then 1 else 0) = (c.weights A.origin B.origin C D).1) →
      ((if pointsAreEqual B.origin D then 1 else 0) - (if pointsAreEqual C D then 1 else 0) = (c.weights A.origin B.origin C D).2) →
      ∃ c : GradCase, (c.When A.origin B.origin C D ∧ ∀ c' : GradCase, c'.When A.origin B.origin C D → c' = c) ∧
      ∃ G', grppGradient gen junk full A B C D G = .ok G' ∧
        ∀ q k m n, m < A.cart_size → n < B.cart_size → (G' (q, k))[m * B.cart_size + n]? = some
          ((c.weights A.origin B.origin C D).1 * I q (dBasis A k m) (basisFn B n) +
            (c.weights A.origin B.origin C D).2 * I q (basisFn A m) (dBasis B k n)) := by
    intro c w u ha hb
    refine ⟨c, ⟨w, u⟩, G', e, fun q k m n hm hn => ?_⟩
    rw [v q k m n hm hn, ha, hb]; rfl
  have uniq : ∀ c : GradCase, c.When A.origin B.origin C D → ∀ c' : GradCase, c'.When A.origin B.origin C D → c' = c := by
    exact fun c hc c' hc' => gradCase_unique t9 hc hc'
  by_cases c1 : pointsAreEqual A.origin C ∧ pointsAreEqual B.origin C
  · refine fin .zero (Or.inl c1) (uniq _ (Or.inl c1)) ?_ ?_
    · by_cases hd : pointsAreEqual C D
      · simp [GradCase.weights, t4 c1.1 hd, hd]
      · have : ¬ pointsAreEqual A.origin D := fun x => hd (t3 c1.1 x)
        simp [GradCase.weights, this, hd]
    · by_cases hd : pointsAreEqual C D
      · simp [GradCase.weights, t6 c1.2 hd, hd]
      · have : ¬ pointsAreEqual B.origin D := fun x => hd (t5 c1.2 x)
        simp [GradCase.weights, this, hd]
  by_cases c2 : ¬ pointsAreEqual A.origin D ∧ ¬ pointsAreEqual B.origin D ∧ ¬ pointsAreEqual C D
  · refine fin .zero (Or.inr c2) (uniq _ (Or.inr c2)) ?_ ?_
    · simp [GradCase.weights, c2.1, c2.2.2]
    · simp [GradCase.weights, c2.2.1, c2.2.2]
  have c3 : pointsAreEqual A.origin D ∨ pointsAreEqual B.origin D ∨ pointsAreEqual C D := by
    by_contra hn
    exact c2 ⟨fun h => hn (Or.inl h), fun h => hn (Or.inr (Or.inl h)), fun h => hn (Or.inr (Or.inr h))⟩
  by_cases p1 : pointsAreEqual A.origin C
  · have p2 : ¬ pointsAreEqual B.origin C := fun h => c1 ⟨p1, h⟩
    have w : GradCase.When A.origin B.origin C D .ccb := ⟨c3, p1, fun h => p2 (hCB.1 h)⟩
    refine fin .ccb w (uniq _ w) ?_ ?_
    · by_cases hd : pointsAreEqual C D
      · have := t4 p1 hd
        simp only [GradCase.weights, if_pos this, if_pos hd]; split <;> simp
      · have : ¬ pointsAreEqual A.origin D := fun x => hd (t3 p1 x)
        simp only [GradCase.weights, if_neg this, if_neg hd]; split <;> simp
    · by_cases hb : pointsAreEqual B.origin D
      · have : ¬ pointsAreEqual C D := fun h => p2 (t8 hb h)
        simp [GradCase.weights, hb, this]
      · have : pointsAreEqual C D := by
          rcases c3 with h | h | h
          · exact t3 p1 h
          · exact absurd h hb
          · exact h
        simp [GradCase.weights, hb, this]
  · by_cases p2 : pointsAreEqual B.origin C
    · have w : GradCase.When A.origin B.origin C D .acc := ⟨c3, p1, hCB.2 p2⟩
      refine fin .acc w (uniq _ w) ?_ ?_
      · by_cases ha : pointsAreEqual A.origin D
        · have : ¬ pointsAreEqual C D := fun h => p1 (t7 ha h)
          simp [GradCase.weights, ha, this]
        · have : pointsAreEqual C D := by
            rcases c3 with h | h | h
            · exact absurd h ha
            · exact t5 p2 h
            · exact h
          simp [GradCase.weights, ha, this]
      · by_cases hd : pointsAreEqual C D
        · have := t6 p2 hd
          simp only [GradCase.weights, if_pos this, if_pos hd]; split <;> simp
        · have : ¬ pointsAreEqual B.origin D := fun x => hd (t5 p2 x)
          simp only [GradCase.weights, if_neg this, if_neg hd]; split <;> simp
    · by_cases p3 : pointsAreEqual A.origin B.origin
      · have w : GradCase.When A.origin B.origin C D .aca := ⟨c3, p3, p1⟩
        refine fin .aca w (uniq _ w) ?_ ?_
        all_goals
          by_cases ha : pointsAreEqual A.origin D
          · have hb := t1 p3 ha
            have : ¬ pointsAreEqual C D := fun h => p1 (t7 ha h)
            simp [GradCase.weights, ha, hb, this]
          · have hb : ¬ pointsAreEqual B.origin D := fun h => ha (t2 p3 h)
            have : pointsAreEqual C D := by
              rcases c3 with h | h | h
              · exact absurd h ha
              · exact absurd h hb
              · exact h
            simp [GradCase.weights, ha, hb, this]
      · have w : GradCase.When A.origin B.origin C D .acb := ⟨c3, p1, fun h => p2 (hCB.1 h), p3⟩
        exact fin .acb w (uniq _ w) rfl rfl

/-- **C27 is false** as stated: with centres in a row, each within the threshold of the next only, two formulas are
selected and both are added: at the bra centre the code returns `2 ∂A + ∂B`. -/
theorem grpp_gradient_two_formulas {gen : Nat → List Comp} {full : FullRoutine}
    {I : Fin 4 → (Point → ℝ) → (Point → ℝ) → ℝ} {A B : Shell} {junk : Option (Nat → ℝ)}
    (h : GradReady gen full I A B junk) (C : Point) (hAB : pointsAreEqual A.origin B.origin)
    (hBC : pointsAreEqual B.origin C) (hAC : ¬ pointsAreEqual A.origin C) (G : Grads)
    (hG : ∀ q, A.cart_size * B.cart_size ≤ (G q).length) :
    GradCase.When A.origin B.origin C A.origin .aca ∧ GradCase.When A.origin B.origin C A.origin .acc ∧
      ∃ G', grppGradient gen junk full A B C A.origin G = .ok G' ∧
        ∀ q k m n, m < A.cart_size → n < B.cart_size → (G' (q, k))[m * B.cart_size + n]? = some
          (2 * I q (dBasis A k m) (basisFn B n) + I q (basisFn A m) (dBasis B k n)) := by
  have hAA := points_equal_refl A.origin
  have hCB := points_equal_symm hBC
  refine ⟨⟨Or.inl hAA, hAB, hAC⟩, ⟨Or.inl hAA, hAC, hCB⟩, ?_⟩
  obtain ⟨G0, e0, h0⟩ := memsetGrads_ok (A.cart_size * B.cart_size) G hG
  have hlen0 : ∀ k, A.cart_size * B.cart_size ≤ (G0 k).length := fun k => by rw [(h0 k).2.1]; exact hG k
  obtain ⟨G', e, c⟩ := (((h.mats.bra_contribution 1).seq (h.mats.ket_contribution 1)).seq (h.mats.contribution_bra 1)) G0 hlen0
  refine ⟨G', ?_, fun q k m n hm hn => ?_⟩
  · unfold grppGradient
    rw [e0]
    simp only [Outcome.ok_bind, hAA, hAB, hBC, hAC, hCB, not_true, not_false_iff, and_false, false_and, and_true, true_and,
      and_self, onlyIf, if_true, if_false]
    rw [← e]
    simp only [bind_assoc]
    congr 1
    funext G1
    congr 1
    funext G2
    cases ggContribution gen junk full A B true 1 G2 <;> rfl
  · rw [c.val q k m n 0 hm hn ((h0 (q, k)).1 _ (rowMajor_lt hm hn))]
    simp only [braT, ketT]
    congr 1
    ring

/-! ## Non-vacuity: a contact interaction at `C` -/

/-- The product of the two functions at the pseudopotential centre. -/
noncomputable def contact (C : Point) (_ : Fin 4) (f g : Point → ℝ) : ℝ := f C * g C

/-- A routine computing these matrix elements. -/
noncomputable def contactFull (C : Point) : FullRoutine := fun S T _ =>
  .ok fun q => (List.range (S.cart_size * T.cart_size)).map fun p =>
    contact C q (basisFn S (p / T.cart_size)) (basisFn T (p % T.cart_size))

theorem contact_ready {gen : Nat → List Comp} (hg : DocumentedOrder gen) {A B : Shell} (hA : A.Made gen) (hB : B.Made gen)
    (C : Point) (junk : Option (Nat → ℝ)) (hj : junk = none → A.L = 0 ∧ B.L = 0) :
    GradReady gen (contactFull C) (contact C) A B junk where
  order := hg
  bra := hA
  ket := hB
  bilinear := ⟨fun q f g h c => by simp only [contact]; ring, fun q f g h c => by simp only [contact]; ring⟩
  computes := by
    intro S T _ _ _ M _
    refine ⟨_, rfl, fun q => ⟨by simp, fun m n hm hn => ?_⟩⟩
    have hp : m * T.cart_size + n < S.cart_size * T.cart_size := rowMajor_lt hm hn
    have hT : 0 < T.cart_size := by omega
    have e1 : (m * T.cart_size + n) / T.cart_size = m := by
      rw [mul_comm, Nat.mul_add_div hT, Nat.div_eq_of_lt hn, add_zero]
    have e2 : (m * T.cart_size + n) % T.cart_size = n := by
      rw [mul_comm, Nat.mul_add_mod, Nat.mod_eq_of_lt hn]
    simp [List.getElem?_map, List.getElem?_range hp, e1, e2]
  reads := hj

theorem dBasis_hasDerivAt {gen : Nat → List Comp} (hg : DocumentedOrder gen) {s : Shell} (hs : s.Made gen) (k : Fin 3)
    {m : Nat} (hm : m < s.cart_size) (r : Point) :
    HasDerivAt (fun t => basisFn (s.moveTo k t) m r) (dBasis s k m r) (s.origin k) := by
  obtain ⟨dn, up, -, h⟩ := diff_shell_derivative gen hg s hs.wf hs.pos
  obtain ⟨hc, hsum⟩ := hs.get hg hm
  obtain ⟨u, -, -, h1, h2⟩ := h m (s.comp m) k r (by rw [hs.list]; exact hc) hsum
  have : DifferentiableAt ℝ (fun t => basisFn (s.moveTo k t) m r) (s.origin k) := by
    rcases Nat.eq_zero_or_pos ((s.comp m).exp k) with h0 | hp
    · exact (h1 h0).differentiableAt
    · obtain ⟨d, v, -, -, -, h3⟩ := h2 hp
      exact h3.differentiableAt
  exact this.hasDerivAt

theorem contact_interaction {gen : Nat → List Comp} (hg : DocumentedOrder gen) {A B : Shell} (hA : A.Made gen)
    (hB : B.Made gen) (C : Point) : Interaction contact A B C where
  translate := fun _ _ _ _ _ => rfl
  diff := by
    intro q k m n hm hn
    have hf : HasFDerivAt (fun p : ℝ × ℝ => basisFn (A.moveTo k p.1) m C)
        (dBasis A k m C • ContinuousLinearMap.fst ℝ ℝ ℝ) (A.origin k, B.origin k) :=
      HasDerivAt.comp_hasFDerivAt (h₂ := fun t => basisFn (A.moveTo k t) m C) (f := Prod.fst) (A.origin k, B.origin k)
        (dBasis_hasDerivAt hg hA k hm C) hasFDerivAt_fst
    have hg' : HasFDerivAt (fun p : ℝ × ℝ => basisFn (B.moveTo k p.2) n C)
        (dBasis B k n C • ContinuousLinearMap.snd ℝ ℝ ℝ) (A.origin k, B.origin k) :=
      HasDerivAt.comp_hasFDerivAt (h₂ := fun t => basisFn (B.moveTo k t) n C) (f := Prod.snd) (A.origin k, B.origin k)
        (dBasis_hasDerivAt hg hB k hn C) hasFDerivAt_snd
    have hmul := hf.mul hg'
    have eA : A.moveTo k (A.origin k) = A := by simp [Shell.moveTo]
    have eB : B.moveTo k (B.origin k) = B := by simp [Shell.moveTo]
    refine hmul.congr_fderiv ?_
    ext <;> simp [braT, ketT, contact, eA, eB, mul_comm]

/-- A pseudopotential position away from the example shells. -/
noncomputable def exampleC : Point := ![5, 0, 0]

theorem example_apart3 : Apart3 exampleShell.origin exampleS.origin exampleC := by
  refine ⟨example_apart, ?_, ?_⟩
  · unfold pointsAreEqual exampleShell exampleC; norm_num
  · unfold pointsAreEqual exampleS exampleC; norm_num

/-- A p and an s shell: the gradient at the pseudopotential is the derivative. -/
example : ∃ G', grppGradient cartesianDirac (some fun _ => 3) (contactFull exampleC) exampleShell exampleS exampleC exampleC
    (fun _ => [1, 2, 3]) = .ok G' := by
  obtain ⟨G', e, -⟩ := grpp_gradient_true_partial exampleC exampleC
    (contact_ready (Or.inl rfl) exampleShell_made exampleS_made exampleC (some fun _ => 3) (by simp))
    (contact_interaction (Or.inl rfl) exampleShell_made exampleS_made exampleC)
    (example_apart3.separated (Or.inr (Or.inr rfl))) (fun _ => [1, 2, 3]) (fun _ => by decide)
  exact ⟨G', e⟩

/-- Two s shells without any assumption on out-of-bounds reads. -/
example : ∃ G', grppGradient cartesianDirac none (contactFull exampleC) exampleS exampleS exampleC exampleC
    (fun _ => [1, 2, 3]) = .ok G' := by
  refine grpp_gradient_in_bounds_partial
    (contact_ready (Or.inl rfl) exampleS_made exampleS_made exampleC none (fun _ => ⟨rfl, rfl⟩)).runs exampleC exampleC ?_
    (fun _ => [1, 2, 3]) (fun _ => by decide)
  have h := example_apart3.2.2
  have h' := fun x => h (points_equal_symm x)
  intro x y z hx hy hz hxy hyz
  simp only [Set.mem_insert_iff, Set.mem_singleton_iff] at hx hy hz
  have hx : x = exampleS.origin ∨ x = exampleC := by tauto
  have hy : y = exampleS.origin ∨ y = exampleC := by tauto
  rcases hx with rfl | rfl <;> rcases hy with rfl | rfl
  · exact hyz
  · exact absurd hxy h
  · exact absurd hxy h'
  · exact hyz

/-- Two p shells: out of bounds. -/
example : grppGradient cartesianDirac none (contactFull exampleC) exampleShell exampleShell exampleC exampleC
    (fun _ => [1, 2, 3, 4, 5, 6, 7, 8, 9]) = .ub :=
  grpp_gradient_out_of_bounds (contact_ready (Or.inl rfl) exampleShell_made exampleShell_made exampleC (some fun _ => 0)
    (by simp)).runs (by decide) (by decide) _ _ _ (fun _ => by decide) (fun h => example_apart3.2.1 h.1)
    (Or.inr (Or.inr (points_equal_refl _)))

/-- Sum over the three centres. -/
example : ∃ RA RB RC, grppGradient cartesianDirac (some fun _ => 3) (contactFull exampleC) exampleShell exampleS exampleC
      exampleShell.origin (fun _ => [1, 2, 3]) = .ok RA ∧
    grppGradient cartesianDirac (some fun _ => 3) (contactFull exampleC) exampleShell exampleS exampleC
      exampleS.origin (fun _ => [1, 2, 3]) = .ok RB ∧
    grppGradient cartesianDirac (some fun _ => 3) (contactFull exampleC) exampleShell exampleS exampleC exampleC
      (fun _ => [1, 2, 3]) = .ok RC := by
  obtain ⟨RA, RB, RC, a, b, c, -⟩ := grpp_gradient_translational_partial
    (contact_ready (Or.inl rfl) exampleShell_made exampleS_made exampleC (some fun _ => 3) (by simp)).runs exampleC
    example_apart3 (fun _ => [1, 2, 3]) (fun _ => [1, 2, 3]) (fun _ => [1, 2, 3]) (fun _ => by decide) (fun _ => by decide)
    (fun _ => by decide)
  exact ⟨RA, RB, RC, a, b, c⟩

/-- Both shells on one centre. -/
example : ∃ G', grppGradient cartesianDirac none (contactFull exampleC) exampleShell exampleShell exampleShell.origin
    exampleC (fun _ => [1, 2, 3, 4, 5, 6, 7, 8, 9]) = .ok G' ∧ ∀ q, ∀ p < 9, (G' q)[p]? = some 0 := by
  obtain ⟨G', e, h⟩ := grpp_gradient_zero cartesianDirac none (contactFull exampleC) exampleShell exampleShell
    exampleShell.origin exampleC (fun _ => [1, 2, 3, 4, 5, 6, 7, 8, 9]) (fun _ => by decide)
    (Or.inl ⟨points_equal_refl _, points_equal_refl _⟩)
  exact ⟨G', e, fun q => (h q).1⟩

/-- The s shell at `(x, 0, 0)`. -/
noncomputable def nearShell (x : ℝ) : Shell := { exampleS with origin := ![x, 0, 0] }

theorem nearShell_made (x : ℝ) : (nearShell x).Made cartesianDirac :=
  ⟨exampleShell_ready.1.wf, exampleS_made.size, exampleS_made.list, exampleShell_ready.2⟩

/-- Centres at distances 0.9e-12 in a row: two formulas are applied, also without assumption on reads. -/
example : ∃ G', grppGradient cartesianDirac none (contactFull ![18e-13, 0, 0]) (nearShell 0) (nearShell 9e-13)
    ![18e-13, 0, 0] (nearShell 0).origin (fun _ => [1]) = .ok G' := by
  obtain ⟨-, -, G', e, -⟩ := grpp_gradient_two_formulas (contact_ready (Or.inl rfl) (nearShell_made 0) (nearShell_made 9e-13)
    ![18e-13, 0, 0] none (fun _ => ⟨rfl, rfl⟩)) ![18e-13, 0, 0]
    (by unfold pointsAreEqual nearShell; norm_num [abs_of_nonneg, abs_of_nonpos]; simp)
    (by unfold pointsAreEqual nearShell; norm_num [abs_of_nonneg, abs_of_nonpos]; simp)
    (by unfold pointsAreEqual nearShell; norm_num [abs_of_nonneg, abs_of_nonpos])
    (fun _ => [1]) (fun _ => by decide)
  exact ⟨G', e⟩

end Libgrpp
