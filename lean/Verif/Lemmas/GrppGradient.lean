import Verif.Model.GrppGradient
import Verif.Lemmas.OverlapGradient
import Verif.Props.DiffShell

/-! Assembly of the GRPP gradient. -/

namespace Libgrpp

/-- The derivative of a contracted function with respect to coordinate `k` of its centre, as a function in space. -/
noncomputable def dBasis (s : Shell) (k : Fin 3) (m : Nat) (r : Point) : ℝ :=
  deriv (fun t => basisFn (s.moveTo k t) m r) (s.origin k)

/-- The four values `I q f g` depend linearly on both functions (as far as needed). -/
structure Bilinear (I : Fin 4 → (Point → ℝ) → (Point → ℝ) → ℝ) : Prop where
  left : ∀ q f g h (c : ℝ), I q (fun r => f r - c * g r) h = I q f h - c * I q g h
  right : ∀ q f g h (c : ℝ), I q h (fun r => f r - c * g r) = I q h f - c * I q h g

/-- The integral routine computes `I` for all shells with allowed angular momenta. -/
def FullComputes (gen : Nat → List Comp) (full : FullRoutine) (allowed : Nat → Nat → Prop)
    (I : Fin 4 → (Point → ℝ) → (Point → ℝ) → ℝ) : Prop :=
  ∀ S T : Shell, S.Made gen → T.Made gen → allowed S.L T.L → ∀ M : Fin 4 → List ℝ,
    (∀ q, (M q).length = S.cart_size * T.cart_size) →
    ∃ R, full S T M = .ok R ∧ ∀ q, (R q).length = S.cart_size * T.cart_size ∧
      ∀ m n, m < S.cart_size → n < T.cart_size → (R q)[m * T.cart_size + n]? = some (I q (basisFn S m) (basisFn T n))

theorem IsScaled.made {gen : Nat → List Comp} {s d : Shell} {L' : Nat} {f : ℝ → ℝ} (h : IsScaled gen s d L' f)
    (hp : s.Pos) : d.Made gen :=
  ⟨h.wf, by rw [h.size, h.hL], by rw [h.list, h.hL], h.pos hp⟩

/-- The index of the component in the differentiated shell. -/
theorem scaled_index {gen : Nat → List Comp} (hg : DocumentedOrder gen) {s d : Shell} {L' : Nat} {f : ℝ → ℝ}
    (h : IsScaled gen s d L' f) {c : Comp} (hc : c.1 + c.2.1 + c.2.2 = L') :
    nlmIndex gen c.ints < d.cart_size ∧ d.comp (nlmIndex gen c.ints) = c := by
  obtain ⟨h1, h2⟩ := nlmIndex_ints hg c hc
  refine ⟨by rw [h.size]; exact h1, ?_⟩
  simp [Shell.comp, List.getD, h.list, h2]

/-- The derivative of a contracted function through the functions of the differentiated shells. -/
theorem dBasis_split {gen : Nat → List Comp} (hg : DocumentedOrder gen) {s : Shell} (hs : s.Made gen) :
    ∃ dn up, differentiateShell gen s = .ok (dn, up) ∧ up.Made gen ∧ up.L = s.L + 1 ∧ (s.L = 0 → dn = none) ∧
      (0 < s.L → ∃ d, dn = some d ∧ d.Made gen ∧ d.L = s.L - 1) ∧
      ∀ m k, m < s.cart_size →
        nlmIndex gen (shiftC (s.comp m).ints k 1) < up.cart_size ∧
        ((s.comp m).exp k = 0 → dBasis s k m = basisFn up (nlmIndex gen (shiftC (s.comp m).ints k 1))) ∧
        (0 < (s.comp m).exp k → ∃ d, dn = some d ∧ nlmIndex gen (shiftC (s.comp m).ints k (-1)) < d.cart_size ∧
          dBasis s k m = fun r => basisFn up (nlmIndex gen (shiftC (s.comp m).ints k 1)) r -
            ((s.comp m).exp k : ℝ) * basisFn d (nlmIndex gen (shiftC (s.comp m).ints k (-1))) r) := by
  obtain ⟨dn, up, e, hu, h0, hd⟩ := differentiateShell_ok gen s hs.wf
  refine ⟨dn, up, e, hu.made hs.pos, hu.hL, h0, fun hL => ?_, fun m k hm => ?_⟩
  · obtain ⟨d, rfl, sd⟩ := hd hL
    exact ⟨d, rfl, sd.made hs.pos, sd.hL⟩
  · obtain ⟨hget, hsum⟩ := hs.get hg hm
    have eu : shiftC (s.comp m).ints k 1 = ((s.comp m).bump k).ints := ints_bump _ _
    obtain ⟨i1, i2⟩ := scaled_index hg hu (c := (s.comp m).bump k) (by rw [Comp.sum_bump, hsum])
    rw [eu]
    refine ⟨i1, fun hz => ?_, fun hpos => ?_⟩
    · funext r
      have := hasDerivAt_basisFn hs.pos hu i2 (fun _ => 0) (Or.inl ⟨hz, rfl⟩) r
      rw [sub_zero] at this
      exact this.deriv
    · have hL : 0 < s.L := by
        have : (s.comp m).exp k ≤ s.L := by rw [← hsum]; fin_cases k <;> simp [Comp.exp] <;> omega
        omega
      obtain ⟨d, rfl, sd⟩ := hd hL
      have ed : shiftC (s.comp m).ints k (-1) = ((s.comp m).drop k).ints := ints_drop _ _ hpos
      obtain ⟨j1, j2⟩ := scaled_index hg sd (c := (s.comp m).drop k) (by rw [Comp.sum_drop _ k hpos, hsum])
      rw [ed]
      refine ⟨d, rfl, j1, ?_⟩
      funext r
      exact (hasDerivAt_basisFn hs.pos hu i2 (fun r => ((s.comp m).exp k : ℝ) * basisFn d (nlmIndex gen ((s.comp m).drop k).ints) r)
        (Or.inr ⟨d, _, sd, j2, rfl⟩) r).deriv

/-- Matrices from which the contribution `T` is assembled. -/
structure GMat (gen : Nat → List Comp) (A B : Shell) (diffBra : Bool) (m : DiffMats) (T : Fin 4 → Fin 3 → Nat → Nat → ℝ) :
    Prop where
  guard : 0 < m.sizeDown ↔ 0 < (if diffBra then A else B).L
  down_size : 0 < (if diffBra then A else B).L → m.sizeDown = cartSize ((if diffBra then A else B).L - 1)
  down_len : ∀ q, (m.down q).length = m.sizeDown * (if diffBra then B else A).cart_size
  split : ∀ q k i j, i < A.cart_size → j < B.cart_size → ∃ v w,
    (m.up q)[(if diffBra then B.cart_size else m.sizeUp) *
      nlmIndex gen (if diffBra then shiftC (A.comp i).ints k 1 else (A.comp i).ints) +
      nlmIndex gen (if !diffBra then shiftC (B.comp j).ints k 1 else (B.comp j).ints)]? = some v ∧
    T q k i j = v - w ∧
    ((if diffBra then (A.comp i).exp k else (B.comp j).exp k) = 0 → w = 0) ∧
    (0 < (if diffBra then (A.comp i).exp k else (B.comp j).exp k) → ∃ x,
      (m.down q)[(if diffBra then B.cart_size else m.sizeDown) *
        nlmIndex gen (if diffBra then shiftC (A.comp i).ints k (-1) else (A.comp i).ints) +
        nlmIndex gen (if !diffBra then shiftC (B.comp j).ints k (-1) else (B.comp j).ints)]? = some x ∧
      w = ((if diffBra then (A.comp i).exp k else (B.comp j).exp k : Nat) : ℝ) * x)

theorem cartSize_pos (L : Nat) : 0 < cartSize L := by
  unfold cartSize; exact Nat.div_pos (by nlinarith) (by norm_num)

theorem GMat.congr {gen : Nat → List Comp} {A B : Shell} {b : Bool} {m : DiffMats} {T T' : Fin 4 → Fin 3 → Nat → Nat → ℝ}
    (h : GMat gen A B b m T) (hT : ∀ q k i j, i < A.cart_size → j < B.cart_size → T q k i j = T' q k i j) : GMat gen A B b m T' :=
  ⟨h.guard, h.down_size, h.down_len, fun q k i j hi hj => by rw [← hT q k i j hi hj]; exact h.split q k i j hi hj⟩

/-- The derivative of a matrix element from those of the shells with `L+1` and `L-1`. -/
noncomputable def splitVal (gen : Nat → List Comp) (s : Shell) (U D : Nat → ℝ) (k : Fin 3) (i : Nat) : ℝ :=
  U (nlmIndex gen (shiftC (s.comp i).ints k 1)) - ((s.comp i).exp k : ℝ) * D (nlmIndex gen (shiftC (s.comp i).ints k (-1)))

theorem exp_le_L {gen : Nat → List Comp} (hg : DocumentedOrder gen) {s : Shell} (hs : s.Made gen) {i : Nat} (hi : i < s.cart_size)
    (k : Fin 3) : (s.comp i).exp k ≤ s.L := by
  rw [← (hs.get hg hi).2]; fin_cases k <;> simp [Comp.exp] <;> omega

theorem diffMats_bra_val {gen : Nat → List Comp} (hg : DocumentedOrder gen) {full : FullRoutine} {A B : Shell}
    (hA : A.Made gen) (hB : B.Made gen) {dn : Option Shell} {up : Shell} (e : differentiateShell gen A = .ok (dn, up))
    {U : Fin 4 → List ℝ} (eU : fullWith full A B true up = .ok U) {VU VD : Fin 4 → Nat → Nat → ℝ}
    (hU : ∀ q m n, m < up.cart_size → n < B.cart_size → (U q)[m * B.cart_size + n]? = some (VU q m n))
    (hD : ∀ d, dn = some d → ∃ W, fullWith full A B true d = .ok W ∧ ∀ q, (W q).length = d.cart_size * B.cart_size ∧
      ∀ m n, m < d.cart_size → n < B.cart_size → (W q)[m * B.cart_size + n]? = some (VD q m n)) :
    ∃ m, diffMats gen full A B true = .ok m ∧
      GMat gen A B true m (fun q k i j => splitVal gen A (fun a => VU q a j) (fun a => VD q a j) k i) := by
  obtain ⟨dn', up', e', mu, Lu, hz, hd, hs⟩ := dBasis_split hg hA
  obtain ⟨rfl, rfl⟩ := Prod.mk.inj (Outcome.ok.inj (e.symm.trans e'))
  have hket : ∀ {j}, j < B.cart_size → nlmIndex gen (B.comp j).ints = j := fun hj => nlmIndex_get hg (hB.get hg hj).1
  by_cases hL : 0 < A.L
  · obtain ⟨d, rfl, md, Ld⟩ := hd hL
    obtain ⟨W, eW, hW⟩ := hD d rfl
    refine ⟨⟨W, U, d.cart_size, up.cart_size⟩, ?_, ⟨?_, ?_, ?_, fun q k i j hi hj => ?_⟩⟩
    · unfold diffMats
      simp only [if_true, e, Outcome.ok_bind, eW, eU, Option.map_some, Option.getD_some]
    · simp only [if_true]
      exact ⟨fun _ => hL, fun _ => by rw [md.size]; exact cartSize_pos _⟩
    · intro _; simp only [if_true]; rw [md.size, Ld]
    · intro q; simp only [if_true]; rw [(hW q).1]
    · simp only [if_true, Bool.not_true, Bool.false_eq_true, if_false]
      obtain ⟨b1, -, b3⟩ := hs i k hi
      have gU := hU q _ j b1 hj
      rw [hket hj]
      refine ⟨_, ((A.comp i).exp k : ℝ) * VD q (nlmIndex gen (shiftC (A.comp i).ints k (-1))) j, by rw [mul_comm]; exact gU, rfl,
        fun h0 => by rw [h0]; simp, fun hpos => ?_⟩
      obtain ⟨d', ed', c1, -⟩ := b3 hpos
      cases ed'
      exact ⟨_, by rw [mul_comm]; exact (hW q).2 _ j c1 hj, rfl⟩
  · have hL0 : A.L = 0 := by omega
    have := hz hL0
    subst this
    refine ⟨⟨fun _ => [], U, 0, up.cart_size⟩, ?_, ⟨?_, ?_, ?_, fun q k i j hi hj => ?_⟩⟩
    · unfold diffMats
      simp only [if_true, e, Outcome.ok_bind, eU, Option.map_none, Option.getD_none]
    · simp [hL0]
    · simp [hL0]
    · simp
    · simp only [if_true, Bool.not_true, Bool.false_eq_true, if_false]
      obtain ⟨b1, -, -⟩ := hs i k hi
      have gU := hU q _ j b1 hj
      rw [hket hj]
      have h0 : (A.comp i).exp k = 0 := by have := exp_le_L hg hA hi k; omega
      refine ⟨_, 0, by rw [mul_comm]; exact gU, ?_, fun _ => rfl, by omega⟩
      unfold splitVal
      rw [h0]; simp

theorem diffMats_ket_val {gen : Nat → List Comp} (hg : DocumentedOrder gen) {full : FullRoutine} {A B : Shell}
    (hA : A.Made gen) (hB : B.Made gen) {dn : Option Shell} {up : Shell} (e : differentiateShell gen B = .ok (dn, up))
    {U : Fin 4 → List ℝ} (eU : fullWith full A B false up = .ok U) {VU VD : Fin 4 → Nat → Nat → ℝ}
    (hU : ∀ q m n, m < A.cart_size → n < up.cart_size → (U q)[m * up.cart_size + n]? = some (VU q m n))
    (hD : ∀ d, dn = some d → ∃ W, fullWith full A B false d = .ok W ∧ ∀ q, (W q).length = A.cart_size * d.cart_size ∧
      ∀ m n, m < A.cart_size → n < d.cart_size → (W q)[m * d.cart_size + n]? = some (VD q m n)) :
    ∃ m, diffMats gen full A B false = .ok m ∧
      GMat gen A B false m (fun q k i j => splitVal gen B (VU q i) (VD q i) k j) := by
  obtain ⟨dn', up', e', mu, Lu, hz, hd, hs⟩ := dBasis_split hg hB
  obtain ⟨rfl, rfl⟩ := Prod.mk.inj (Outcome.ok.inj (e.symm.trans e'))
  have hbra : ∀ {i}, i < A.cart_size → nlmIndex gen (A.comp i).ints = i := fun hi => nlmIndex_get hg (hA.get hg hi).1
  by_cases hL : 0 < B.L
  · obtain ⟨d, rfl, md, Ld⟩ := hd hL
    obtain ⟨W, eW, hW⟩ := hD d rfl
    refine ⟨⟨W, U, d.cart_size, up.cart_size⟩, ?_, ⟨?_, ?_, ?_, fun q k i j hi hj => ?_⟩⟩
    · unfold diffMats
      simp only [Bool.false_eq_true, if_false, e, Outcome.ok_bind, eW, eU, Option.map_some, Option.getD_some]
    · simp only [Bool.false_eq_true, if_false]
      exact ⟨fun _ => hL, fun _ => by rw [md.size]; exact cartSize_pos _⟩
    · intro _; simp only [Bool.false_eq_true, if_false]; rw [md.size, Ld]
    · intro q; simp only [Bool.false_eq_true, if_false]; rw [(hW q).1, mul_comm]
    · simp only [Bool.not_false, Bool.false_eq_true, if_false, if_true]
      obtain ⟨b1, -, b3⟩ := hs j k hj
      have gU := hU q i _ hi b1
      rw [hbra hi]
      refine ⟨_, ((B.comp j).exp k : ℝ) * VD q i (nlmIndex gen (shiftC (B.comp j).ints k (-1))), by rw [mul_comm]; exact gU, rfl,
        fun h0 => by rw [h0]; simp, fun hpos => ?_⟩
      obtain ⟨d', ed', c1, -⟩ := b3 hpos
      cases ed'
      exact ⟨_, by rw [mul_comm]; exact (hW q).2 i _ hi c1, rfl⟩
  · have hL0 : B.L = 0 := by omega
    have := hz hL0
    subst this
    refine ⟨⟨fun _ => [], U, 0, up.cart_size⟩, ?_, ⟨?_, ?_, ?_, fun q k i j hi hj => ?_⟩⟩
    · unfold diffMats
      simp only [Bool.false_eq_true, if_false, e, Outcome.ok_bind, eU, Option.map_none, Option.getD_none]
    · simp [hL0]
    · simp [hL0]
    · simp
    · simp only [Bool.not_false, Bool.false_eq_true, if_false, if_true]
      obtain ⟨b1, -, -⟩ := hs j k hj
      have gU := hU q i _ hi b1
      rw [hbra hi]
      have h0 : (B.comp j).exp k = 0 := by have := exp_le_L hg hB hj k; omega
      refine ⟨_, 0, by rw [mul_comm]; exact gU, ?_, fun _ => rfl, by omega⟩
      unfold splitVal
      rw [h0]; simp

/-- The values of a form for the shells with `L+1` and `L-1` combine to its value for the derivative. -/
theorem splitVal_dBasis {gen : Nat → List Comp} (hg : DocumentedOrder gen) {s : Shell} (hs : s.Made gen) {dn : Option Shell} {up : Shell}
    (e : differentiateShell gen s = .ok (dn, up)) {ℓ : (Point → ℝ) → ℝ}
    (hl : ∀ d m n (c : ℝ), dn = some d → ℓ (fun r => basisFn up m r - c * basisFn d n r) = ℓ (basisFn up m) - c * ℓ (basisFn d n))
    (k : Fin 3) {i : Nat} (hi : i < s.cart_size) :
    splitVal gen s (fun a => ℓ (basisFn up a)) (fun a => dn.elim 0 fun d => ℓ (basisFn d a)) k i = ℓ (dBasis s k i) := by
  obtain ⟨dn', up', e', -, -, -, -, h⟩ := dBasis_split hg hs
  obtain ⟨rfl, rfl⟩ := Prod.mk.inj (Outcome.ok.inj (e.symm.trans e'))
  obtain ⟨-, b2, b3⟩ := h i k hi
  unfold splitVal
  rcases Nat.eq_zero_or_pos ((s.comp i).exp k) with h0 | hpos
  · rw [b2 h0, h0]; simp
  · obtain ⟨d, rfl, -, c2⟩ := b3 hpos
    rw [c2, hl d _ _ _ rfl]
    rfl

theorem diffMats_bra {gen : Nat → List Comp} (hg : DocumentedOrder gen) {full : FullRoutine} {allowed : Nat → Nat → Prop}
    {I : Fin 4 → (Point → ℝ) → (Point → ℝ) → ℝ} (hI : Bilinear I) (hf : FullComputes gen full allowed I) {A B : Shell}
    (hA : A.Made gen) (hB : B.Made gen) (h1 : allowed (A.L + 1) B.L) (h2 : 0 < A.L → allowed (A.L - 1) B.L) :
    ∃ m, diffMats gen full A B true = .ok m ∧
      GMat gen A B true m (fun q k i j => I q (dBasis A k i) (basisFn B j)) := by
  obtain ⟨dn, up, e, mu, Lu, hz, hd, -⟩ := dBasis_split hg hA
  obtain ⟨U, eU, hU⟩ := hf up B mu hB (by rw [Lu]; exact h1) (fun _ => List.replicate (B.cart_size * up.cart_size) 0)
    (by simp [mul_comm])
  obtain ⟨m, em, hm⟩ := diffMats_bra_val hg hA hB e (U := U) (by simpa [fullWith] using eU)
    (VU := fun q a j => I q (basisFn up a) (basisFn B j)) (VD := fun q a j => dn.elim 0 fun d => I q (basisFn d a) (basisFn B j))
    (fun q => (hU q).2) (fun d ed => by
      have hL : 0 < A.L := by
        by_contra h
        rw [hz (by omega)] at ed
        cases ed
      obtain ⟨d', ed', md, Ld⟩ := hd hL
      obtain rfl : d = d' := Option.some.inj (ed.symm.trans ed')
      obtain ⟨W, eW, hW⟩ := hf d B md hB (by rw [Ld]; exact h2 hL) (fun _ => List.replicate (B.cart_size * d.cart_size) 0)
        (by simp [mul_comm])
      exact ⟨W, by simpa [fullWith] using eW, fun q => ⟨(hW q).1, fun m n hm hn => by rw [(hW q).2 m n hm hn, ed]; rfl⟩⟩)
  exact ⟨m, em, hm.congr fun q k i j hi hj => splitVal_dBasis hg hA e (ℓ := fun f => I q f (basisFn B j)) (fun _ _ _ _ _ => hI.left q _ _ _ _) k hi⟩

theorem diffMats_ket {gen : Nat → List Comp} (hg : DocumentedOrder gen) {full : FullRoutine} {allowed : Nat → Nat → Prop}
    {I : Fin 4 → (Point → ℝ) → (Point → ℝ) → ℝ} (hI : Bilinear I) (hf : FullComputes gen full allowed I) {A B : Shell}
    (hA : A.Made gen) (hB : B.Made gen) (h1 : allowed A.L (B.L + 1)) (h2 : 0 < B.L → allowed A.L (B.L - 1)) :
    ∃ m, diffMats gen full A B false = .ok m ∧
      GMat gen A B false m (fun q k i j => I q (basisFn A i) (dBasis B k j)) := by
  obtain ⟨dn, up, e, mu, Lu, hz, hd, -⟩ := dBasis_split hg hB
  obtain ⟨U, eU, hU⟩ := hf A up hA mu (by rw [Lu]; exact h1) (fun _ => List.replicate (A.cart_size * up.cart_size) 0)
    (by simp)
  obtain ⟨m, em, hm⟩ := diffMats_ket_val hg hA hB e (U := U) (by simpa [fullWith] using eU)
    (VU := fun q i a => I q (basisFn A i) (basisFn up a)) (VD := fun q i a => dn.elim 0 fun d => I q (basisFn A i) (basisFn d a))
    (fun q => (hU q).2) (fun d ed => by
      have hL : 0 < B.L := by
        by_contra h
        rw [hz (by omega)] at ed
        cases ed
      obtain ⟨d', ed', md, Ld⟩ := hd hL
      obtain rfl : d = d' := Option.some.inj (ed.symm.trans ed')
      obtain ⟨W, eW, hW⟩ := hf A d hA md (by rw [Ld]; exact h2 hL) (fun _ => List.replicate (A.cart_size * d.cart_size) 0)
        (by simp)
      exact ⟨W, by simpa [fullWith] using eW, fun q => ⟨(hW q).1, fun m n hm hn => by rw [(hW q).2 m n hm hn, ed]; rfl⟩⟩)
  exact ⟨m, em, hm.congr fun q k i j hi hj => splitVal_dBasis hg hB e (ℓ := fun f => I q (basisFn A i) f) (fun _ _ _ _ _ => hI.right q _ _ _ _) k hj⟩

/-! ## The loops -/

/-- Update of element `p` of the arrays of coordinate `k`, by `w q` in array `q`. -/
def cell (k : Fin 3) (p : Nat) (w : Fin 4 → ℝ) : Fin 4 × Fin 3 → Nat → ℝ :=
  fun qk p' => if qk.2 = k ∧ p' = p then w qk.1 else 0

theorem addFour_ok (junk : Option (Nat → ℝ)) (k : Fin 3) (index : Nat) (w : ℝ) {m : Fin 4 → List ℝ} {idx : Nat}
    {v : Fin 4 → ℝ} (hv : ∀ q, rdJ junk (m q) idx = .ok (v q)) {G : Grads} (hidx : ∀ q, index < (G q).length) :
    ∃ G', addFour junk k index w m idx G = .ok G' ∧ AddsTo G G' (cell k index fun q => w * v q) := by
  unfold addFour forFour
  simp only [hv, Outcome.ok_bind]
  obtain ⟨G0, e0, a0⟩ := gadd_ok G (0, k) index (w * v 0) (hidx _)
  obtain ⟨G1, e1, a1⟩ := gadd_ok G0 (1, k) index (w * v 1) (by rw [(a0 _).1]; exact hidx _)
  obtain ⟨G2, e2, a2⟩ := gadd_ok G1 (2, k) index (w * v 2) (by rw [(a1 _).1, (a0 _).1]; exact hidx _)
  obtain ⟨G3, e3, a3⟩ := gadd_ok G2 (3, k) index (w * v 3) (by rw [(a2 _).1, (a1 _).1, (a0 _).1]; exact hidx _)
  refine ⟨G3, by rw [e0]; simp only [Outcome.ok_bind, e1, e2, e3], (((a0.trans a1).trans a2).trans a3).congr ?_⟩
  funext ⟨q, k'⟩ p
  simp only [Pi.add_apply, single, cell, Prod.mk.injEq]
  by_cases hk : k' = k ∧ p = index
  · obtain ⟨rfl, rfl⟩ := hk
    fin_cases q <;> simp
  · have : ∀ x : Fin 4, ¬ ((q = x ∧ k' = k) ∧ p = index) := fun x h => hk ⟨h.1.2, h.2⟩
    simp [this, hk]

theorem cell_add (k : Fin 3) (p : Nat) (v w : Fin 4 → ℝ) : cell k p v + cell k p w = cell k p (v + w) := by
  funext qk p'
  simp only [Pi.add_apply, cell]
  split <;> simp

theorem ggBody_ok {gen : Nat → List Comp} (hg : DocumentedOrder gen) {junk : Option (Nat → ℝ)}
    {A B : Shell} (hA : A.Made gen) (hB : B.Made gen) {diffBra guard : Bool} (hj : guard = true → junk ≠ none) {m : DiffMats}
    {T : Fin 4 → Fin 3 → Nat → Nat → ℝ} (hm : GMat gen A B diffBra m T)
    (hguard : guard = true ↔ 0 < (if diffBra then A else B).L) (factor : ℝ) (k : Fin 3) {i j : Nat} (hi : i < A.cart_size)
    (hjB : j < B.cart_size) {G : Grads} (hlen : ∀ q, A.cart_size * B.cart_size ≤ (G q).length) :
    ∃ G', ggBody gen junk A B diffBra guard factor m k i j G = .ok G' ∧
      AddsTo G G' (cell k (i * B.cart_size + j) fun q => factor * T q k i j) := by
  have hbra : rd A.cartInts i = .ok (A.comp i).ints := by simp [rd, cartInts_get hg hA hi]
  have hket : rd B.cartInts j = .ok (B.comp j).ints := by simp [rd, cartInts_get hg hB hjB]
  have hidx : ∀ G : Grads, (∀ q, A.cart_size * B.cart_size ≤ (G q).length) → ∀ q, i * B.cart_size + j < (G q).length :=
    fun G h q => lt_of_lt_of_le (rowMajor_lt hi hjB) (h q)
  choose v w hv hT hw0 hwp using fun q => hm.split q k i j hi hjB
  have hn : (if diffBra = true then (((A.comp i).ints k : Int) : ℝ) else (((B.comp j).ints k : Int) : ℝ)) =
      ((if diffBra then (A.comp i).exp k else (B.comp j).exp k : Nat) : ℝ) := by
    cases diffBra <;> simp [Comp.ints_apply]
  unfold ggBody
  rw [hbra, hket]
  simp only [Outcome.ok_bind, hn]
  have rdUp : ∀ q, rdJ junk (m.up q) ((if diffBra then B.cart_size else m.sizeUp) *
      nlmIndex gen (if diffBra then shiftC (A.comp i).ints k 1 else (A.comp i).ints) +
      nlmIndex gen (if !diffBra then shiftC (B.comp j).ints k 1 else (B.comp j).ints)) = .ok (v q) := by
    intro q; unfold rdJ; rw [hv q]
  cases hgd : guard with
  | true =>
    simp only [if_true]
    choose x hx using fun q => rdJ_ok (hj hgd) (m.down q) ((if diffBra then B.cart_size else m.sizeDown) *
        nlmIndex gen (if diffBra then shiftC (A.comp i).ints k (-1) else (A.comp i).ints) +
        nlmIndex gen (if !diffBra then shiftC (B.comp j).ints k (-1) else (B.comp j).ints))
    have hwx : ∀ q, w q = ((if diffBra then (A.comp i).exp k else (B.comp j).exp k : Nat) : ℝ) * x q := by
      intro q
      rcases Nat.eq_zero_or_pos (if diffBra then (A.comp i).exp k else (B.comp j).exp k) with h0 | hpos
      · rw [hw0 q h0, h0]; simp
      · obtain ⟨x', hx', hw'⟩ := hwp q hpos
        have := hx q
        unfold rdJ at this
        rw [hx'] at this
        injection this with this
        rw [hw', this]
    obtain ⟨G1, e1, a1⟩ := addFour_ok junk k (i * B.cart_size + j)
      (-(factor * ((if diffBra then (A.comp i).exp k else (B.comp j).exp k : Nat) : ℝ))) hx (hidx G hlen)
    obtain ⟨G2, e2, a2⟩ := addFour_ok junk k (i * B.cart_size + j) factor rdUp (hidx G1 fun q => by rw [(a1 q).1]; exact hlen q)
    refine ⟨G2, by rw [e1]; exact e2, (a1.trans a2).congr ?_⟩
    rw [cell_add]
    congr 1
    funext q
    simp only [Pi.add_apply]
    rw [hT q, hwx q]
    ring
  | false =>
    simp only [Bool.false_eq_true, if_false]
    obtain ⟨G2, e2, a2⟩ := addFour_ok junk k (i * B.cart_size + j) factor rdUp (hidx G hlen)
    refine ⟨G2, e2, a2.congr ?_⟩
    congr 1
    funext q
    have hL : ¬ 0 < (if diffBra then A else B).L := fun h => by simpa [hgd] using hguard.2 h
    have h0 : (if diffBra then (A.comp i).exp k else (B.comp j).exp k) = 0 := by
      cases diffBra
      · have : (B.comp j).exp k ≤ B.L := by rw [← (hB.get hg hjB).2]; fin_cases k <;> simp [Comp.exp] <;> omega
        simp at hL ⊢; omega
      · have : (A.comp i).exp k ≤ A.L := by rw [← (hA.get hg hi).2]; fin_cases k <;> simp [Comp.exp] <;> omega
        simp at hL ⊢; omega
    rw [hT q, hw0 q h0, sub_zero]

theorem sum_cell (M N : Nat) (T : Fin 3 → Nat → Nat → Fin 4 → ℝ) (q : Fin 4) (k : Fin 3) (i j : Nat) (hi : i < M)
    (hj : j < N) : (∑ k' : Fin 3, ∑ i' ∈ Finset.range M, ∑ j' ∈ Finset.range N, cell k' (i' * N + j') (T k' i' j'))
      (q, k) (i * N + j) = T k i j q := by
  have := sum_single M N (fun k i j => T k i j q) k i j hi hj
  rw [← this]
  simp only [Finset.sum_apply, cell, single]

theorem sum_cell_beyond (M N : Nat) (T : Fin 3 → Nat → Nat → Fin 4 → ℝ) (qk : Fin 4 × Fin 3) (p : Nat) (hp : M * N ≤ p) :
    (∑ k' : Fin 3, ∑ i' ∈ Finset.range M, ∑ j' ∈ Finset.range N, cell k' (i' * N + j') (T k' i' j')) qk p = 0 := by
  have := sum_single_beyond M N (fun k i j => T k i j qk.1) qk.2 p hp
  rw [← this]
  simp only [Finset.sum_apply, cell, single]

/-- Effect of a contribution: `f · T` is added to every element of the `A × B` matrices, nothing else changes. -/
structure Contributes (A B : Shell) (T : Fin 4 → Fin 3 → Nat → Nat → ℝ) (f : ℝ) (G G' : Grads) : Prop where
  len : ∀ qk, (G' qk).length = (G qk).length
  val : ∀ q k m n x, m < A.cart_size → n < B.cart_size → (G (q, k))[m * B.cart_size + n]? = some x →
    (G' (q, k))[m * B.cart_size + n]? = some (x + f * T q k m n)
  beyond : ∀ qk p, A.cart_size * B.cart_size ≤ p → (G' qk)[p]? = (G qk)[p]?

theorem ggLoops_ok {gen : Nat → List Comp} (hg : DocumentedOrder gen) {junk : Option (Nat → ℝ)}
    {A B : Shell} (hA : A.Made gen) (hB : B.Made gen) {diffBra guard : Bool} (hj : guard = true → junk ≠ none) {m : DiffMats}
    {T : Fin 4 → Fin 3 → Nat → Nat → ℝ} (hm : GMat gen A B diffBra m T)
    (hguard : guard = true ↔ 0 < (if diffBra then A else B).L) (factor : ℝ) {G : Grads}
    (hlen : ∀ q, A.cart_size * B.cart_size ≤ (G q).length) :
    ∃ G', ggLoops gen junk A B diffBra guard factor m G = .ok G' ∧ Contributes A B T factor G G' := by
  have hP : ∀ {s t : Grads} {δ : Fin 4 × Fin 3 → Nat → ℝ}, (∀ q, A.cart_size * B.cart_size ≤ (s q).length) →
      AddsTo s t δ → ∀ q, A.cart_size * B.cart_size ≤ (t q).length := fun h r q => by rw [(r q).1]; exact h q
  obtain ⟨G', e, a⟩ : ∃ G', ggLoops gen junk A B diffBra guard factor m G = .ok G' ∧ AddsTo G G'
      (∑ k : Fin 3, ∑ i ∈ Finset.range A.cart_size, ∑ j ∈ Finset.range B.cart_size,
        cell k (i * B.cart_size + j) fun q => factor * T q k i j) := by
    unfold ggLoops
    refine forCoord_adds (R := AddsTo) AddsTo.trans _ (fun s => ∀ q, A.cart_size * B.cart_size ≤ (s q).length)
      hP hlen fun k s hs => ?_
    refine forRange_adds (R := AddsTo) AddsTo.refl AddsTo.trans _ (fun s => ∀ q, A.cart_size * B.cart_size ≤ (s q).length)
      hP hs fun i s hi hs => ?_
    refine forRange_adds (R := AddsTo) AddsTo.refl AddsTo.trans _ (fun s => ∀ q, A.cart_size * B.cart_size ≤ (s q).length)
      hP hs fun j s hjB hs => ?_
    exact ggBody_ok hg hA hB hj hm hguard factor k hi hjB hs
  refine ⟨G', e, fun qk => (a qk).1, fun q k m n x hm hn hx => ?_, fun qk p hp => ?_⟩
  · rw [(a (q, k)).2 _ x hx, sum_cell A.cart_size B.cart_size (fun k i j q => factor * T q k i j) q k m n hm hn]
  · cases hx : (G qk)[p]? with
    | none => rw [List.getElem?_eq_none_iff] at hx ⊢; rw [(a qk).1]; exact hx
    | some x => rw [(a qk).2 p x hx, sum_cell_beyond _ _ _ qk p hp, add_zero]

/-! ## The contributions -/

/-- `a·Tb + b·Tk` is added to the matrices. -/
structure Combo (A B : Shell) (Tb Tk : Fin 4 → Fin 3 → Nat → Nat → ℝ) (a b : ℝ) (G G' : Grads) : Prop where
  len : ∀ qk, (G' qk).length = (G qk).length
  val : ∀ q k m n x, m < A.cart_size → n < B.cart_size → (G (q, k))[m * B.cart_size + n]? = some x →
    (G' (q, k))[m * B.cart_size + n]? = some (x + (a * Tb q k m n + b * Tk q k m n))
  beyond : ∀ qk p, A.cart_size * B.cart_size ≤ p → (G' qk)[p]? = (G qk)[p]?

section
variable {A B : Shell} {Tb Tk : Fin 4 → Fin 3 → Nat → Nat → ℝ}

theorem Combo.refl (G : Grads) : Combo A B Tb Tk 0 0 G G :=
  ⟨fun _ => rfl, fun _ _ _ _ _ _ _ h => by simp [h], fun _ _ _ => rfl⟩

theorem Combo.trans {a b a' b' : ℝ} {G G' G'' : Grads} (h : Combo A B Tb Tk a b G G') (h' : Combo A B Tb Tk a' b' G' G'') :
    Combo A B Tb Tk (a + a') (b + b') G G'' :=
  ⟨fun qk => (h'.len qk).trans (h.len qk), fun q k m n x hm hn hx => by
    rw [h'.val q k m n _ hm hn (h.val q k m n x hm hn hx)]; congr 1; ring,
    fun qk p hp => (h'.beyond qk p hp).trans (h.beyond qk p hp)⟩

theorem Contributes.bra {f : ℝ} {G G' : Grads} (h : Contributes A B Tb f G G') : Combo A B Tb Tk f 0 G G' :=
  ⟨h.len, fun q k m n x hm hn hx => by rw [h.val q k m n x hm hn hx]; simp, h.beyond⟩

theorem Contributes.ket {f : ℝ} {G G' : Grads} (h : Contributes A B Tk f G G') : Combo A B Tb Tk 0 f G G' :=
  ⟨h.len, fun q k m n x hm hn hx => by rw [h.val q k m n x hm hn hx]; simp, h.beyond⟩

/-- A statement that adds `a·Tb + b·Tk` to arrays of sufficient size. -/
def Does (A B : Shell) (Tb Tk : Fin 4 → Fin 3 → Nat → Nat → ℝ) (a b : ℝ) (f : Grads → Outcome Grads) : Prop :=
  ∀ G : Grads, (∀ q, A.cart_size * B.cart_size ≤ (G q).length) → ∃ G', f G = .ok G' ∧ Combo A B Tb Tk a b G G'

theorem Does.seq {a b a' b' : ℝ} {f g : Grads → Outcome Grads} (hf : Does A B Tb Tk a b f) (hg : Does A B Tb Tk a' b' g) :
    Does A B Tb Tk (a + a') (b + b') (fun G => f G >>= g) := by
  intro G hG
  obtain ⟨G1, e1, c1⟩ := hf G hG
  obtain ⟨G2, e2, c2⟩ := hg G1 fun q => by rw [c1.len]; exact hG q
  exact ⟨G2, by simp only [e1, Outcome.ok_bind, e2], c1.trans c2⟩

theorem Does.onlyIf {a b : ℝ} {f : Grads → Outcome Grads} (c : Prop) [Decidable c] (hf : c → Does A B Tb Tk a b f) :
    Does A B Tb Tk (if c then a else 0) (if c then b else 0) (Libgrpp.onlyIf c f) := by
  intro G hG
  unfold Libgrpp.onlyIf
  by_cases h : c
  · simp only [if_pos h]; exact hf h G hG
  · simp only [if_neg h]; exact ⟨G, rfl, Combo.refl G⟩

theorem Does.ite {a b a' b' : ℝ} {f g : Grads → Outcome Grads} (c : Prop) [Decidable c] (hf : Does A B Tb Tk a b f)
    (hg : Does A B Tb Tk a' b' g) :
    Does A B Tb Tk (if c then a else a') (if c then b else b') (fun G => if c then f G else g G) := by
  intro G hG
  by_cases h : c
  · simp only [if_pos h]; exact hf G hG
  · simp only [if_neg h]; exact hg G hG

theorem Does.congr {a b a' b' : ℝ} {f : Grads → Outcome Grads} (hf : Does A B Tb Tk a b f) (ha : a = a') (hb : b = b') :
    Does A B Tb Tk a' b' f := ha ▸ hb ▸ hf

end

/-- What the assembly of the gradient rests on: the contributions `Tb` and `Tk` can be assembled from the matrices which the integral
routine returns. -/
structure GradMats (gen : Nat → List Comp) (full : FullRoutine) (A B : Shell) (junk : Option (Nat → ℝ))
    (Tb Tk : Fin 4 → Fin 3 → Nat → Nat → ℝ) : Prop where
  order : DocumentedOrder gen
  bra : A.Made gen
  ket : B.Made gen
  mats_bra : ∃ m, diffMats gen full A B true = .ok m ∧ GMat gen A B true m Tb
  mats_ket : ∃ m, diffMats gen full A B false = .ok m ∧ GMat gen A B false m Tk
  reads : junk = none → A.L = 0 ∧ B.L = 0

section
variable {gen : Nat → List Comp} {full : FullRoutine} {A B : Shell} {junk : Option (Nat → ℝ)} {Tb Tk : Fin 4 → Fin 3 → Nat → Nat → ℝ}

theorem GradMats.contribution_bra (h : GradMats gen full A B junk Tb Tk) (f : ℝ) :
    Does A B Tb Tk f 0 (ggContribution gen junk full A B true f) := by
  intro G hG
  obtain ⟨m, e, hm⟩ := h.mats_bra
  have hgd : decide (m.sizeDown > 0) = true ↔ 0 < (if true = true then A else B).L := by simpa using hm.guard
  obtain ⟨G', e', c⟩ := ggLoops_ok h.order h.bra h.ket (junk := junk) (fun hz hj => by
    have := hgd.1 hz; have := (h.reads hj).1; simp_all) hm hgd f hG
  exact ⟨G', by unfold ggContribution; rw [e, Outcome.ok_bind, e'], c.bra⟩

theorem GradMats.contribution_ket (h : GradMats gen full A B junk Tb Tk) (f : ℝ) :
    Does A B Tb Tk 0 f (ggContribution gen junk full A B false f) := by
  intro G hG
  obtain ⟨m, e, hm⟩ := h.mats_ket
  have hgd : decide (m.sizeDown > 0) = true ↔ 0 < (if false = true then A else B).L := by simpa using hm.guard
  obtain ⟨G', e', c⟩ := ggLoops_ok h.order h.bra h.ket (junk := junk) (fun hz hj => by
    have := hgd.1 hz; have := (h.reads hj).2; simp_all) hm hgd f hG
  exact ⟨G', by unfold ggContribution; rw [e, Outcome.ok_bind, e'], c.ket⟩

theorem GradMats.bra_contribution (h : GradMats gen full A B junk Tb Tk) (f : ℝ) :
    Does A B Tb Tk f 0 (ggBraContribution gen junk full A B f) := by
  intro G hG
  obtain ⟨m, e, hm⟩ := h.mats_bra
  have hgd : decide (A.L > 0) = true ↔ 0 < (if true = true then A else B).L := by simp
  obtain ⟨G', e', c⟩ := ggLoops_ok h.order h.bra h.ket (junk := junk) (fun hz hj => by
    have := hgd.1 hz; have := (h.reads hj).1; simp_all) hm hgd f hG
  exact ⟨G', by unfold ggBraContribution; rw [e, Outcome.ok_bind, e'], c.bra⟩

theorem GradMats.ket_contribution (h : GradMats gen full A B junk Tb Tk) (f : ℝ) :
    Does A B Tb Tk 0 f (ggKetContribution gen junk full A B f) := by
  intro G hG
  obtain ⟨m, e, hm⟩ := h.mats_ket
  have hgd : decide (B.L > 0) = true ↔ 0 < (if false = true then A else B).L := by simp
  obtain ⟨G', e', c⟩ := ggLoops_ok h.order h.bra h.ket (junk := junk) (fun hz hj => by
    have := hgd.1 hz; have := (h.reads hj).2; simp_all) hm hgd f hG
  exact ⟨G', by unfold ggKetContribution; rw [e, Outcome.ok_bind, e'], c.ket⟩

end

/-- `S` is one of the shells into which `differentiateShell` turns `s`. -/
def IsDiff (gen : Nat → List Comp) (s S : Shell) : Prop := ∃ dn up, differentiateShell gen s = .ok (dn, up) ∧ (S = up ∨ dn = some S)

/-- The integral routine returns, with matrices of the right size, for the shells into which the differentiation turns `A` and `B`. Nothing
is said about the numbers in the matrices. -/
structure GradRuns (gen : Nat → List Comp) (full : FullRoutine) (A B : Shell) (junk : Option (Nat → ℝ)) : Prop where
  order : DocumentedOrder gen
  bra : A.Made gen
  ket : B.Made gen
  runs_bra : ∀ S, IsDiff gen A S → ∃ R, fullWith full A B true S = .ok R ∧ ∀ q, (R q).length = S.cart_size * B.cart_size
  runs_ket : ∀ S, IsDiff gen B S → ∃ R, fullWith full A B false S = .ok R ∧ ∀ q, (R q).length = A.cart_size * S.cart_size
  reads : junk = none → A.L = 0 ∧ B.L = 0

theorem getElem?_getD {l : List ℝ} {n m p : Nat} (hl : l.length = n * m) {i j : Nat} (hi : i < n) (hj : j < m) (hp : i * m + j = p) :
    l[p]? = some (l.getD p 0) := by
  have h : p < l.length := by rw [hl, ← hp]; exact rowMajor_lt hi hj
  simp [List.getD, List.getElem?_eq_getElem h]

theorem GradRuns.mats {gen : Nat → List Comp} {full : FullRoutine} {A B : Shell} {junk : Option (Nat → ℝ)}
    (h : GradRuns gen full A B junk) : ∃ Tb Tk, GradMats gen full A B junk Tb Tk := by
  have bra : ∃ Tb, ∃ m, diffMats gen full A B true = .ok m ∧ GMat gen A B true m Tb := by
    obtain ⟨dn, up, e, -⟩ := dBasis_split h.order h.bra
    obtain ⟨U, eU, lU⟩ := h.runs_bra up ⟨dn, up, e, Or.inl rfl⟩
    have hD : ∃ W : Fin 4 → List ℝ, ∀ d, dn = some d → fullWith full A B true d = .ok W ∧ ∀ q, (W q).length = d.cart_size * B.cart_size := by
      cases dn with
      | none => exact ⟨fun _ => [], fun d hd => by cases hd⟩
      | some d =>
        obtain ⟨W, hW⟩ := h.runs_bra d ⟨some d, up, e, Or.inr rfl⟩
        exact ⟨W, fun d' hd => by cases hd; exact hW⟩
    obtain ⟨W, hW⟩ := hD
    exact ⟨_, diffMats_bra_val h.order h.bra h.ket e eU (VU := fun q m n => (U q).getD (m * B.cart_size + n) 0)
      (VD := fun q m n => (W q).getD (m * B.cart_size + n) 0) (fun q m n hm hn => getElem?_getD (lU q) hm hn rfl)
      (fun d hd => ⟨W, (hW d hd).1, fun q => ⟨(hW d hd).2 q, fun m n hm hn => getElem?_getD ((hW d hd).2 q) hm hn rfl⟩⟩)⟩
  have ket : ∃ Tk, ∃ m, diffMats gen full A B false = .ok m ∧ GMat gen A B false m Tk := by
    obtain ⟨dn, up, e, -⟩ := dBasis_split h.order h.ket
    obtain ⟨U, eU, lU⟩ := h.runs_ket up ⟨dn, up, e, Or.inl rfl⟩
    have hD : ∃ (W : Fin 4 → List ℝ) (z : Nat), ∀ d, dn = some d → fullWith full A B false d = .ok W ∧ z = d.cart_size ∧
        ∀ q, (W q).length = A.cart_size * d.cart_size := by
      cases dn with
      | none => exact ⟨fun _ => [], 0, fun d hd => by cases hd⟩
      | some d =>
        obtain ⟨W, hW⟩ := h.runs_ket d ⟨some d, up, e, Or.inr rfl⟩
        exact ⟨W, d.cart_size, fun d' hd => by cases hd; exact ⟨hW.1, rfl, hW.2⟩⟩
    obtain ⟨W, z, hW⟩ := hD
    exact ⟨_, diffMats_ket_val h.order h.bra h.ket e eU (VU := fun q m n => (U q).getD (m * up.cart_size + n) 0)
      (VD := fun q m n => (W q).getD (m * z + n) 0) (fun q m n hm hn => getElem?_getD (lU q) hm hn rfl)
      (fun d hd => ⟨W, (hW d hd).1, fun q => ⟨(hW d hd).2.2 q, fun m n hm hn => by
        rw [(hW d hd).2.1]; exact getElem?_getD ((hW d hd).2.2 q) hm hn rfl⟩⟩)⟩
  obtain ⟨Tb, hb⟩ := bra
  obtain ⟨Tk, hk⟩ := ket
  exact ⟨Tb, Tk, h.order, h.bra, h.ket, hb, hk, h.reads⟩

/-- Assumptions on the integral routine under which the gradient is assembled: it computes the four forms `I` for the
shells whose angular momenta occur. -/
structure GradReady (gen : Nat → List Comp) (full : FullRoutine) (I : Fin 4 → (Point → ℝ) → (Point → ℝ) → ℝ) (A B : Shell)
    (junk : Option (Nat → ℝ)) : Prop where
  order : DocumentedOrder gen
  bra : A.Made gen
  ket : B.Made gen
  bilinear : Bilinear I
  computes : FullComputes gen full
    (fun a b => (a = A.L + 1 ∨ a + 1 = A.L) ∧ b = B.L ∨ a = A.L ∧ (b = B.L + 1 ∨ b + 1 = B.L)) I
  reads : junk = none → A.L = 0 ∧ B.L = 0

section
variable {gen : Nat → List Comp} {full : FullRoutine} {I : Fin 4 → (Point → ℝ) → (Point → ℝ) → ℝ} {A B : Shell}
  {junk : Option (Nat → ℝ)}

theorem GradReady.mats_bra (h : GradReady gen full I A B junk) : ∃ m, diffMats gen full A B true = .ok m ∧
    GMat gen A B true m (fun q k i j => I q (dBasis A k i) (basisFn B j)) :=
  diffMats_bra h.order h.bilinear h.computes h.bra h.ket (Or.inl ⟨Or.inl rfl, rfl⟩)
    (fun hL => Or.inl ⟨Or.inr (by omega), rfl⟩)

theorem GradReady.mats_ket (h : GradReady gen full I A B junk) : ∃ m, diffMats gen full A B false = .ok m ∧
    GMat gen A B false m (fun q k i j => I q (basisFn A i) (dBasis B k j)) :=
  diffMats_ket h.order h.bilinear h.computes h.bra h.ket (Or.inr ⟨rfl, Or.inl rfl⟩)
    (fun hL => Or.inr ⟨rfl, Or.inr (by omega)⟩)

/-- Matrix elements with the bra function differentiated with respect to its centre. -/
noncomputable def braT (I : Fin 4 → (Point → ℝ) → (Point → ℝ) → ℝ) (A B : Shell) (q : Fin 4) (k : Fin 3) (m n : Nat) : ℝ :=
  I q (dBasis A k m) (basisFn B n)

/-- Matrix elements with the ket function differentiated with respect to its centre. -/
noncomputable def ketT (I : Fin 4 → (Point → ℝ) → (Point → ℝ) → ℝ) (A B : Shell) (q : Fin 4) (k : Fin 3) (m n : Nat) : ℝ :=
  I q (basisFn A m) (dBasis B k n)

theorem GradReady.mats (h : GradReady gen full I A B junk) : GradMats gen full A B junk (braT I A B) (ketT I A B) :=
  ⟨h.order, h.bra, h.ket, h.mats_bra, h.mats_ket, h.reads⟩

theorem GradReady.runs (h : GradReady gen full I A B junk) : GradRuns gen full A B junk := by
  refine ⟨h.order, h.bra, h.ket, fun S hS => ?_, fun S hS => ?_, h.reads⟩
  · obtain ⟨dn, up, e, hS⟩ := hS
    obtain ⟨dn', up', e', mu, Lu, hz, hd, -⟩ := dBasis_split h.order h.bra
    obtain ⟨rfl, rfl⟩ := Prod.mk.inj (Outcome.ok.inj (e.symm.trans e'))
    have hm : S.Made gen ∧ (S.L = A.L + 1 ∨ S.L + 1 = A.L) := by
      rcases hS with rfl | hS
      · exact ⟨mu, Or.inl Lu⟩
      · have hL : 0 < A.L := by
          by_contra hn
          rw [hz (by omega)] at hS
          cases hS
        obtain ⟨d, ed, md, Ld⟩ := hd hL
        obtain rfl : S = d := Option.some.inj (hS.symm.trans ed)
        exact ⟨md, Or.inr (by omega)⟩
    obtain ⟨R, eR, hR⟩ := h.computes S B hm.1 h.ket (Or.inl ⟨hm.2, rfl⟩) (fun _ => List.replicate (B.cart_size * S.cart_size) 0)
      (by simp [mul_comm])
    exact ⟨R, by simpa [fullWith] using eR, fun q => (hR q).1⟩
  · obtain ⟨dn, up, e, hS⟩ := hS
    obtain ⟨dn', up', e', mu, Lu, hz, hd, -⟩ := dBasis_split h.order h.ket
    obtain ⟨rfl, rfl⟩ := Prod.mk.inj (Outcome.ok.inj (e.symm.trans e'))
    have hm : S.Made gen ∧ (S.L = B.L + 1 ∨ S.L + 1 = B.L) := by
      rcases hS with rfl | hS
      · exact ⟨mu, Or.inl Lu⟩
      · have hL : 0 < B.L := by
          by_contra hn
          rw [hz (by omega)] at hS
          cases hS
        obtain ⟨d, ed, md, Ld⟩ := hd hL
        obtain rfl : S = d := Option.some.inj (hS.symm.trans ed)
        exact ⟨md, Or.inr (by omega)⟩
    obtain ⟨R, eR, hR⟩ := h.computes A S h.bra hm.1 (Or.inr ⟨rfl, hm.2⟩) (fun _ => List.replicate (A.cart_size * S.cart_size) 0)
      (by simp)
    exact ⟨R, by simpa [fullWith] using eR, fun q => (hR q).1⟩

end

/-! ## Clearing -/

theorem memsetGrads_ok (n : Nat) (G : Grads) (h : ∀ q, n ≤ (G q).length) :
    ∃ G', memsetGrads n G = .ok G' ∧ ∀ q, (∀ p < n, (G' q)[p]? = some 0) ∧ SameBeyond n (G' q) (G q) := by
  -- one array
  have one : ∀ (q : Fin 4 × Fin 3) (G : Grads), (∀ q, n ≤ (G q).length) → ∃ G' : Grads,
      (do let l ← memset0 n (G q); Outcome.ok (Function.update G q l)) = .ok G' ∧
      ((∀ p < n, (G' q)[p]? = some 0) ∧ SameBeyond n (G' q) (G q)) ∧ ∀ q', q' ≠ q → G' q' = G q' := by
    intro q G h
    obtain ⟨l, e, hl⟩ := memset0_spec n (G q) (h q)
    exact ⟨Function.update G q l, by rw [e]; rfl, by simpa using hl, fun q' hq => Function.update_of_ne hq _ _⟩
  -- the arrays of a list of indices
  let step : Fin 4 × Fin 3 → Grads → Outcome Grads := fun q G => do
    let l ← memset0 n (G q); Outcome.ok (Function.update G q l)
  have all : ∀ (qs : List (Fin 4 × Fin 3)) (G : Grads), (∀ q, n ≤ (G q).length) → ∃ G' : Grads,
      qs.foldlM (fun G q => step q G) G = .ok G' ∧
      (∀ q ∈ qs, (∀ p < n, (G' q)[p]? = some 0)) ∧ (∀ q, SameBeyond n (G' q) (G q)) ∧
      ∀ q, (∀ p < n, (G q)[p]? = some 0) → (∀ p < n, (G' q)[p]? = some 0) := by
    intro qs
    induction qs with
    | nil => intro G _; exact ⟨G, rfl, by simp, fun q => ⟨rfl, fun _ _ => rfl⟩, fun _ h => h⟩
    | cons q qs ih =>
      intro G hG
      obtain ⟨G1, e1, ⟨z1, b1⟩, o1⟩ := one q G hG
      have b1' : ∀ q', SameBeyond n (G1 q') (G q') := fun q' => by
        by_cases hq : q' = q
        · subst hq; exact b1
        · rw [o1 q' hq]; exact ⟨rfl, fun _ _ => rfl⟩
      obtain ⟨G2, e2, z2, b2, k2⟩ := ih G1 fun q' => by rw [(b1' q').1]; exact hG q'
      refine ⟨G2, ?_, ?_, ?_, ?_⟩
      · rw [List.foldlM_cons]
        show (step q G >>= _) = _
        rw [show step q G = .ok G1 from e1, Outcome.ok_bind, e2]
      · intro q' hq'
        rcases List.mem_cons.1 hq' with rfl | hq'
        · exact k2 _ z1
        · exact z2 q' hq'
      · exact fun q' => ⟨(b2 q').1.trans (b1' q').1, fun p hp => ((b2 q').2 p hp).trans ((b1' q').2 p hp)⟩
      · intro q' hz
        refine k2 q' ?_
        by_cases hq : q' = q
        · subst hq; exact z1
        · rw [o1 q' hq]; exact hz
  obtain ⟨G', e, z, b, -⟩ := all [(0,0),(1,0),(2,0),(3,0),(0,1),(1,1),(2,1),(3,1),(0,2),(1,2),(2,2),(3,2)] G h
  refine ⟨G', ?_, fun q => ⟨z q ?_, b q⟩⟩
  · rw [← e]
    simp only [List.foldlM_cons, List.foldlM_nil, step]
    unfold memsetGrads forCoord forFour
    simp only [bind_assoc, Outcome.ok_bind]
    rfl
  · obtain ⟨q1, q2⟩ := q
    fin_cases q1 <;> fin_cases q2 <;> simp

/-! ## Reads outside the matrix of the lower shell -/

theorem rdJ_none_or (l : List ℝ) (i : Nat) : (∃ v, rdJ none l i = .ok v) ∨ rdJ none l i = .ub := by
  unfold rdJ
  cases l[i]? with
  | some v => exact Or.inl ⟨v, rfl⟩
  | none => exact Or.inr rfl

theorem addFour_or (k : Fin 3) (index : Nat) (w : ℝ) (m : Fin 4 → List ℝ) (idx : Nat)
    {G : Grads} (hidx : ∀ q, index < (G q).length) :
    (∃ G', addFour none k index w m idx G = .ok G' ∧ ∀ q, (G' q).length = (G q).length) ∨
      addFour none k index w m idx G = .ub := by
  have step : ∀ (q : Fin 4) (G : Grads), (∀ q, index < (G q).length) →
      (∃ G', (do let v ← rdJ none (m q) idx; gadd G (q, k) index (w * v)) = .ok G' ∧ ∀ q, (G' q).length = (G q).length) ∨
      (do let v ← rdJ none (m q) idx; gadd G (q, k) index (w * v)) = .ub := by
    intro q G h
    rcases rdJ_none_or (m q) idx with ⟨v, e⟩ | e
    · obtain ⟨G', e', a⟩ := gadd_ok G (q, k) index (w * v) (h _)
      exact Or.inl ⟨G', by rw [e, Outcome.ok_bind, e'], fun q => (a q).1⟩
    · exact Or.inr (by rw [e]; rfl)
  unfold addFour forFour
  rcases step 0 G hidx with ⟨G0, e0, l0⟩ | e0
  · have h0 : ∀ q, index < (G0 q).length := fun q => by rw [l0]; exact hidx q
    simp only [e0, Outcome.ok_bind]
    rcases step 1 G0 h0 with ⟨G1, e1, l1⟩ | e1
    · have h1 : ∀ q, index < (G1 q).length := fun q => by rw [l1]; exact h0 q
      simp only [e1, Outcome.ok_bind]
      rcases step 2 G1 h1 with ⟨G2, e2, l2⟩ | e2
      · have h2 : ∀ q, index < (G2 q).length := fun q => by rw [l2]; exact h1 q
        simp only [e2, Outcome.ok_bind]
        rcases step 3 G2 h2 with ⟨G3, e3, l3⟩ | e3
        · exact Or.inl ⟨G3, e3, fun q => by rw [l3, l2, l1, l0]⟩
        · exact Or.inr e3
      · exact Or.inr (by simp only [e2]; rfl)
    · exact Or.inr (by simp only [e1]; rfl)
  · exact Or.inr (by simp only [e0]; rfl)

theorem addFour_ub (k : Fin 3) (index : Nat) (w : ℝ) (m : Fin 4 → List ℝ) (idx : Nat) (G : Grads)
    (h : (m 0).length ≤ idx) : addFour none k index w m idx G = .ub := by
  unfold addFour forFour rdJ
  beta_reduce
  rw [List.getElem?_eq_none h]
  rfl

theorem ggBody_or {gen : Nat → List Comp} (hg : DocumentedOrder gen) {A B : Shell} (hA : A.Made gen) (hB : B.Made gen)
    (diffBra guard : Bool) (m : DiffMats) (factor : ℝ) (k : Fin 3) {i j : Nat} (hi : i < A.cart_size)
    (hjB : j < B.cart_size) {G : Grads} (hlen : ∀ q, A.cart_size * B.cart_size ≤ (G q).length) :
    (∃ G', ggBody gen none A B diffBra guard factor m k i j G = .ok G' ∧
      ∀ q, A.cart_size * B.cart_size ≤ (G' q).length) ∨
      ggBody gen none A B diffBra guard factor m k i j G = .ub := by
  have hbra : rd A.cartInts i = .ok (A.comp i).ints := by simp [rd, cartInts_get hg hA hi]
  have hket : rd B.cartInts j = .ok (B.comp j).ints := by simp [rd, cartInts_get hg hB hjB]
  have hidx : ∀ G : Grads, (∀ q, A.cart_size * B.cart_size ≤ (G q).length) → ∀ q, i * B.cart_size + j < (G q).length :=
    fun G h q => lt_of_lt_of_le (rowMajor_lt hi hjB) (h q)
  have key : ∀ (w : ℝ) (mm : Fin 4 → List ℝ) (idx : Nat) {G : Grads}, (∀ q, A.cart_size * B.cart_size ≤ (G q).length) →
      (∃ G', addFour none k (i * B.cart_size + j) w mm idx G = .ok G' ∧
        ∀ q, A.cart_size * B.cart_size ≤ (G' q).length) ∨ addFour none k (i * B.cart_size + j) w mm idx G = .ub := by
    intro w mm idx G h
    rcases addFour_or k (i * B.cart_size + j) w mm idx (hidx G h) with ⟨G', e, l⟩ | e
    · exact Or.inl ⟨G', e, fun q => by rw [l]; exact h q⟩
    · exact Or.inr e
  unfold ggBody
  rw [hbra, hket]
  simp only [Outcome.ok_bind]
  cases guard with
  | true =>
    simp only [if_true]
    rcases key _ m.down _ hlen with ⟨G', e, l⟩ | e
    · rw [e, Outcome.ok_bind]; exact key _ m.up _ l
    · rw [e]; exact Or.inr rfl
  | false =>
    simp only [Bool.false_eq_true, if_false]
    exact key _ m.up _ hlen

/-- The component of a shell without the first coordinate. -/
theorem exists_exp_zero {gen : Nat → List Comp} (hg : DocumentedOrder gen) {A : Shell} (hA : A.Made gen) :
    ∃ i, i < A.cart_size ∧ (A.comp i).exp 0 = 0 := by
  have hm : ((0, A.L, 0) : Comp) ∈ gen A.L := by
    rw [hg.eq]; exact ((cartesian_turbomole_complete A.L).2.2 0 A.L 0).2 (by simp)
  obtain ⟨i, hi, hi'⟩ := List.getElem_of_mem hm
  refine ⟨i, by rw [hA.size, ← gen_length hg]; exact hi, ?_⟩
  simp [Shell.comp, hA.list, List.getD, List.getElem?_eq_getElem hi, hi', Comp.exp]

theorem ggLoops_ub {gen : Nat → List Comp} (hg : DocumentedOrder gen)
    {A B : Shell} (hA : A.Made gen) (hB : B.Made gen) {diffBra : Bool} {m : DiffMats}
    {T : Fin 4 → Fin 3 → Nat → Nat → ℝ} (hm : GMat gen A B diffBra m T)
    (hL : 0 < (if diffBra then A else B).L) (factor : ℝ) {G : Grads}
    (hlen : ∀ q, A.cart_size * B.cart_size ≤ (G q).length) :
    ggLoops gen none A B diffBra true factor m G = .ub := by
  have hApos : 0 < A.cart_size := by rw [hA.size]; exact cartSize_pos _
  have hBpos : 0 < B.cart_size := by rw [hB.size]; exact cartSize_pos _
  -- a step with an out-of-bounds read
  obtain ⟨i0, j0, hi0, hj0, hub⟩ : ∃ i j, i < A.cart_size ∧ j < B.cart_size ∧
      ∀ G, ggBody gen none A B diffBra true factor m 0 i j G = .ub := by
    have go : ∀ i j, i < A.cart_size → j < B.cart_size → (m.down 0).length ≤ (if diffBra then B.cart_size else m.sizeDown) *
        nlmIndex gen (if diffBra then shiftC (A.comp i).ints 0 (-1) else (A.comp i).ints) +
        nlmIndex gen (if !diffBra then shiftC (B.comp j).ints 0 (-1) else (B.comp j).ints) →
        ∀ G, ggBody gen none A B diffBra true factor m 0 i j G = .ub := by
      intro i j hi hjB h G
      have hbra : rd A.cartInts i = .ok (A.comp i).ints := by simp [rd, cartInts_get hg hA hi]
      have hket : rd B.cartInts j = .ok (B.comp j).ints := by simp [rd, cartInts_get hg hB hjB]
      unfold ggBody
      rw [hbra, hket]
      simp only [Outcome.ok_bind, if_true]
      rw [addFour_ub _ _ _ _ _ _ h]
      rfl
    cases diffBra with
    | true =>
      simp only [if_true] at hL
      obtain ⟨i, hi, h0⟩ := exists_exp_zero hg hA
      refine ⟨i, 0, hi, hBpos, go i 0 hi hBpos ?_⟩
      have := hm.down_size hL
      simp only [if_true] at this
      rw [hm.down_len, this]
      simp only [if_true, shiftC]
      rw [nlmIndex_negative hg _ 0 (hA.get hg hi).2 hL h0, mul_comm]
      exact Nat.le_add_right _ _
    | false =>
      simp only [Bool.false_eq_true, if_false] at hL
      obtain ⟨j, hj, h0⟩ := exists_exp_zero hg hB
      refine ⟨A.cart_size - 1, j, by omega, hj, go _ j (by omega) hj ?_⟩
      have := hm.down_size hL
      simp only [Bool.false_eq_true, if_false] at this
      rw [hm.down_len, this]
      simp only [Bool.false_eq_true, if_false, Bool.not_false, if_true, shiftC]
      rw [nlmIndex_negative hg _ 0 (hB.get hg hj).2 hL h0,
        nlmIndex_get hg (hA.get hg (show A.cart_size - 1 < A.cart_size by omega)).1]
      have : A.cart_size = (A.cart_size - 1) + 1 := by omega
      conv_lhs => rw [this]
      rw [mul_add, mul_one]
  have hfirst : forRange A.cart_size G (fun i G =>
      forRange B.cart_size G fun j G => ggBody gen none A B diffBra true factor m 0 i j G) = .ub := by
    refine forRange_ub_some (fun s => ∀ k, A.cart_size * B.cart_size ≤ (s k).length) hlen ?_ hi0 ?_
    · intro i s hi hs
      -- the inner loop succeeds or is undefined
      have key : ∀ n, n ≤ B.cart_size → (∃ s', forRange n s (fun j G => ggBody gen none A B diffBra true factor m 0 i j G) =
          .ok s' ∧ ∀ k, A.cart_size * B.cart_size ≤ (s' k).length) ∨
          forRange n s (fun j G => ggBody gen none A B diffBra true factor m 0 i j G) = .ub := by
        intro n
        induction n with
        | zero => intro _; exact Or.inl ⟨s, rfl, hs⟩
        | succ n ih =>
          intro hn
          rw [forRange_succ]
          rcases ih (by omega) with ⟨s', e, h⟩ | e
          · rw [e, Outcome.ok_bind]
            exact ggBody_or hg hA hB diffBra true m factor 0 hi (by omega) h
          · rw [e]; exact Or.inr rfl
      exact key _ le_rfl
    · intro s hs
      exact forRange_ub_some (fun s => ∀ k, A.cart_size * B.cart_size ≤ (s k).length) hs
        (fun j s hj hs => ggBody_or hg hA hB diffBra true m factor 0 hi0 hj hs) hj0 (fun s _ => hub s)
  unfold ggLoops forCoord
  beta_reduce
  rw [hfirst]
  rfl

section
variable {gen : Nat → List Comp} {full : FullRoutine} {A B : Shell} {junk : Option (Nat → ℝ)} {Tb Tk : Fin 4 → Fin 3 → Nat → Nat → ℝ}

theorem GradMats.contribution_bra_ub (h : GradMats gen full A B junk Tb Tk) (hL : 0 < A.L) (f : ℝ) {G : Grads}
    (hlen : ∀ q, A.cart_size * B.cart_size ≤ (G q).length) : ggContribution gen none full A B true f G = .ub := by
  obtain ⟨m, e, hm⟩ := h.mats_bra
  have hgd : decide (m.sizeDown > 0) = true := by simpa using hm.guard.2 (by simpa using hL)
  unfold ggContribution
  rw [e, Outcome.ok_bind, hgd]
  exact ggLoops_ub h.order h.bra h.ket hm (by simpa using hL) f hlen

theorem GradMats.contribution_ket_ub (h : GradMats gen full A B junk Tb Tk) (hL : 0 < B.L) (f : ℝ) {G : Grads}
    (hlen : ∀ q, A.cart_size * B.cart_size ≤ (G q).length) : ggContribution gen none full A B false f G = .ub := by
  obtain ⟨m, e, hm⟩ := h.mats_ket
  have hgd : decide (m.sizeDown > 0) = true := by simpa using hm.guard.2 (by simpa using hL)
  unfold ggContribution
  rw [e, Outcome.ok_bind, hgd]
  exact ggLoops_ub h.order h.bra h.ket hm (by simpa using hL) f hlen

theorem GradMats.bra_contribution_ub (h : GradMats gen full A B junk Tb Tk) (hL : 0 < A.L) (f : ℝ) {G : Grads}
    (hlen : ∀ q, A.cart_size * B.cart_size ≤ (G q).length) : ggBraContribution gen none full A B f G = .ub := by
  obtain ⟨m, e, hm⟩ := h.mats_bra
  unfold ggBraContribution
  rw [e, Outcome.ok_bind, decide_eq_true hL]
  exact ggLoops_ub h.order h.bra h.ket hm (by simpa using hL) f hlen

end

end Libgrpp
