import Verif.Lemmas.OuterCoreTrue
import Verif.Lemmas.Rotation
import Verif.Lemmas.HarmonicSpan

/-! Helper lemmas for the outer-core integrals: the loops over the shells. -/

namespace Libgrpp

open MeasureTheory Set

theorem rate_entry (L : ℕ) (R : Matrix (Fin (2 * L + 1)) (Fin (2 * L + 1)) ℝ) (c : Fin 3) (j : Fin (2 * L + 1))
    (h : ∀ ω : Point, ∑ k, ω k ^ 2 = 1 → HasDerivAt (fun s => rsh L ((j : ℤ) - L) (turn c s ω)) (-∑ k, R k j * rsh L ((k : ℤ) - L) (turn c 0 ω)) 0)
    (i : Fin (2 * L + 1)) : rotationMatrix L c i j = R i j := by
  have t0 : ∀ ω : Point, turn c 0 ω = ω := by
    intro ω
    funext k
    fin_cases c <;> fin_cases k <;> simp [turn]
  have e : sphInt (fun ω => rsh L (((i : ℕ) : ℤ) - L) ω * deriv (fun t => rsh L (((j : ℕ) : ℤ) - L) (turn c t ω)) 0) =
      sphInt fun ω => ∑ k : Fin (2 * L + 1), (-R k j) * (rsh L (((i : ℕ) : ℤ) - L) ω * rsh L (((k : ℕ) : ℤ) - L) ω) := by
    refine sphInt_congr fun ω hω => ?_
    rw [(h ω hω).deriv, t0, ← Finset.sum_neg_distrib, Finset.mul_sum]
    exact Finset.sum_congr rfl fun k _ => by ring
  unfold rotationMatrix
  rw [e, sphInt_sum (f := fun (k : Fin (2 * L + 1)) ω => (-R k j) * (rsh L (((i : ℕ) : ℤ) - L) ω * rsh L (((k : ℕ) : ℤ) - L) ω)) Finset.univ
    fun k _ => continuous_const.mul ((continuous_rsh _ _).mul (continuous_rsh _ _))]
  simp only [sphInt_const_mul_real]
  rw [Finset.sum_eq_single i]
  · rw [rsh_orthonormal' _ _ _ _ (by omega) (by omega), if_pos ⟨rfl, rfl⟩]; ring
  · intro k _ hk
    rw [rsh_orthonormal' _ _ _ _ (by omega) (by omega), if_neg (by rintro ⟨-, h⟩; exact hk (Fin.ext (by omega)))]; ring
  · intro hi; exact absurd (Finset.mem_univ i) hi

theorem lEntry_eq (L : ℕ) (c : Fin 3) {i j : ℕ} (hi : i < 2 * L + 1) (hj : j < 2 * L + 1) : lEntry L c i j = rotationMatrix L c i j := by
  symm
  match c with
  | 0 => exact rate_entry L (rX L) 0 ⟨j, hj⟩ (fun ω hω => rsh_turn_x L ω hω 0 ⟨j, hj⟩) ⟨i, hi⟩
  | 1 => exact rate_entry L (rY L) 1 ⟨j, hj⟩ (fun ω hω => rsh_turn_y L ω hω 0 ⟨j, hj⟩) ⟨i, hi⟩
  | 2 => exact rate_entry L (rZ L) 2 ⟨j, hj⟩ (fun ω _ => rsh_turn_z L ω 0 ⟨j, hj⟩) ⟨i, hi⟩

theorem ocW_eq (L : ℕ) (q : Fin 4) {i j : ℕ} (hi : i < 2 * L + 1) (hj : j < 2 * L + 1) : ocW L q i j = ocMatrix L q i j := by
  refine Fin.cases ?_ (fun c => ?_) q
  · rfl
  · exact lEntry_eq L c hi hj

theorem ocFactor_eq {L : ℕ} {J2 : ℤ} (h : J2 = 2 * L - 1 ∨ J2 = 2 * L + 1) (q : Fin 4) : ocFactor L J2 q = spinorWeight L J2 q := by
  have hp : (0:ℝ) < 2 * (L:ℝ) + 1 := by positivity
  have c : (J2 : ℝ) / 2 < L ↔ J2 < 2 * L := by rw [div_lt_iff₀ two_pos]; constructor <;> intro h <;> [(rw [mul_comm] at h; exact_mod_cast h); (rw [mul_comm]; exact_mod_cast h)]
  unfold spinorWeight
  refine Fin.cases ?_ (fun k => ?_) q
  · rw [if_pos rfl]
    show arepFactor L J2 = _
    unfold arepFactor
    rcases h with h | h
    · rw [if_pos (c.2 (by omega)), h]; push_cast; field_simp; ring
    · rw [if_neg (by rw [c]; omega), h]; push_cast; field_simp; ring
  · rw [if_neg (Fin.succ_ne_zero k)]
    show esopFactor L J2 = _
    unfold esopFactor
    rcases h with h | h
    · rw [if_pos (c.2 (by omega)), h]; push_cast; field_simp; ring
    · rw [if_neg (by rw [c]; omega), h]; push_cast; field_simp; ring

theorem sandwich_congr {d : ℕ} {W W' : ℕ → ℕ → ℝ} {a a' b b' : ℕ → ℝ} (hW : ∀ i j, i < d → j < d → W i j = W' i j) (ha : ∀ i < d, a i = a' i)
    (hb : ∀ i < d, b i = b' i) : sandwich d W a b = sandwich d W' a' b' := by
  unfold sandwich
  refine Finset.sum_congr rfl fun i hi => Finset.sum_congr rfl fun j hj => ?_
  rw [Finset.mem_range] at hi hj
  rw [hW i j hi hj, ha i hi, hb j hj]

theorem SameBeyond.refl (n : ℕ) (b : List ℝ) : SameBeyond n b b := ⟨rfl, fun _ _ => rfl⟩

theorem SameBeyond.trans {n : ℕ} {a b c : List ℝ} (h : SameBeyond n a b) (h' : SameBeyond n b c) : SameBeyond n a c :=
  ⟨h.1.trans h'.1, fun p hp => (h.2 p hp).trans (h'.2 p hp)⟩

theorem forRange_arr4 {nA nB n : ℕ} {out : Fin 4 → List ℝ} {o : Fin 4 → ℕ → ℕ → ℝ} {body : ℕ → (Fin 4 → List ℝ) → Outcome (Fin 4 → List ℝ)}
    (g : ℕ → Fin 4 → ℕ → ℕ → ℝ) (ho : ∀ q, Arr nA nB (out q) (o q))
    (hb : ∀ a < n, ∀ (st : Fin 4 → List ℝ) (o' : Fin 4 → ℕ → ℕ → ℝ), (∀ q, Arr nA nB (st q) (o' q)) → ∃ st', body a st = .ok st' ∧
      ∀ q, SameBeyond (nA * nB) (st' q) (st q) ∧ Arr nA nB (st' q) fun i j => o' q i j + g a q i j) :
    ∃ st', forRange n out body = .ok st' ∧ ∀ q, SameBeyond (nA * nB) (st' q) (out q) ∧
      Arr nA nB (st' q) fun i j => o q i j + ∑ a ∈ Finset.range n, g a q i j := by
  refine forRange_spec (fun k st => ∀ q, SameBeyond (nA * nB) (st q) (out q) ∧ Arr nA nB (st q) fun i j => o q i j + ∑ a ∈ Finset.range k, g a q i j)
    (fun q => ⟨SameBeyond.refl _ _, (ho q).congr fun i j _ _ => by simp⟩) ?_ fun _ h => h
  intro a st ha hst
  obtain ⟨st', h1, h2⟩ := hb a ha st _ fun q => (hst q).2
  exact ⟨st', h1, fun q => ⟨(h2 q).1.trans (hst q).1, (h2 q).2.congr fun i j _ _ => by rw [Finset.sum_range_succ, add_assoc]⟩⟩

/-- What is required of an outer-core potential and its shell. -/
structure OcBase (gen : Nat → List Comp) (p : Potential) (s : Shell) : Prop where
  made : s.Made gen
  L9 : s.L ≤ 9
  pot : p.WF
  sameL : p.L = s.L
  j : p.J = 2 * s.L - 1 ∨ p.J = 2 * s.L + 1
  terms : p.Terms

/-- The same, and the special functions are exact where they are used. -/
structure OcReady (gen : Nat → List Comp) (sf : SpecFun) (A B : Shell) (C : Point) (p : Potential) (s : Shell) : Prop extends OcBase gen p s where
  auxA : ∀ k < p.num, ExactAux sf A (bindOrigin C s) C (p.powers.getD k 0) (p.alpha.getD k 0)
  auxB : ∀ k < p.num, ExactAux sf (bindOrigin C s) B C (p.powers.getD k 0) (p.alpha.getD k 0)

theorem Shell.Made.supported {gen : Nat → List Comp} (hg : DocumentedOrder gen) {s : Shell} (h : s.Made gen) (hL : s.L ≤ 9) : s.Supported := by
  have hc := h.complete hg
  exact ⟨h.wf, h.listed hg, fun c hc' => ((hc.mem c).1 hc').le, h.pos, hL⟩

theorem Shell.Made.bind {gen : Nat → List Comp} {s : Shell} (h : s.Made gen) (C : Point) : (bindOrigin C s).Made gen := ⟨h.wf, h.size, h.list, h.pos⟩

theorem gives_overlap {A B : Shell} (sA : A.Supported) (sB : B.Supported) :
    Gives (overlapIntegrals A B (List.replicate (A.cart_size * B.cart_size) 0)) A.cart_size B.cart_size fun m n => ∫ r, basisFn A m r * basisFn B n r := by
  obtain ⟨R, h1, h2, h3, -⟩ := overlap_true A B sA.wf sB.wf sA.listed sB.listed sA.pos sB.pos sA.L9 sB.L9
    (List.replicate (A.cart_size * B.cart_size) 0) (by simp)
  exact ⟨R, h1, by rw [h2]; simp, h3⟩

theorem gives_type1 (sf : SpecFun) {A B : Shell} (sA : A.Supported) (sB : B.Supported) (C : Point) {p : Potential} (hp : p.WF) (ht : p.Terms)
    (hx : ∀ k < p.num, ExactAux sf A B C (p.powers.getD k 0) (p.alpha.getD k 0)) :
    Gives (type1Integrals sf true A B C (some p) (List.replicate (A.cart_size * B.cart_size) 0)) A.cart_size B.cart_size
      fun m n => ∫ r, basisFn (dropTiny A) m r * potentialFn p C r * basisFn (dropTiny B) n r := by
  obtain ⟨R, h1, h2, h3, -⟩ := type1_true sf A B sA sB C p hp (fun k hk => ⟨(ht k hk).1, (ht k hk).2, hx k hk⟩)
    (List.replicate (A.cart_size * B.cart_size) 0) (by simp)
  exact ⟨R, h1, by rw [h2]; simp, h3⟩

theorem ocPart1_true {gen : Nat → List Comp} (hg : DocumentedOrder gen) (sf : SpecFun) {A B : Shell} (sA : A.Supported) (sB : B.Supported) (C : Point)
    {p : Potential} {s : Shell} (h : OcReady gen sf A B C p s) {out : Fin 4 → List ℝ} {o : Fin 4 → ℕ → ℕ → ℝ}
    (ho : ∀ q, Arr A.cart_size B.cart_size (out q) (o q)) :
    ∃ out', ocPart1 sf true A B C p s out = .ok out' ∧ ∀ q, SameBeyond (A.cart_size * B.cart_size) (out' q) (out q) ∧
      Arr A.cart_size B.cart_size (out' q) fun i j => o q i j + ocOne A B (dropTiny A) (dropTiny B) C p s (dropTiny s) q i j := by
  have hc := h.made.complete hg
  have sS : (bindOrigin C s).Supported := (h.made.bind C).supported hg h.L9
  obtain ⟨out', h1, h2⟩ := ocPart1_spec sf true A B C p s (by have := h.L9; omega) (h.made.listed hg) (fun c hc' => (hc.mem c).1 hc')
    (gives_overlap sS sB) (gives_overlap sA sS) (gives_type1 sf sS sB C h.pot h.terms h.auxB) (gives_type1 sf sA sS C h.pot h.terms h.auxA) ho
  refine ⟨out', h1, fun q => ⟨(h2 q).1, (h2 q).2.congr fun i j _ _ => ?_⟩⟩
  rw [ocFactor_eq h.j, ocOne]
  congr 3
  · refine sandwich_congr (fun _ _ => ocW_eq s.L q) (fun mi hmi => ?_) fun mi hmi => ?_
    · exact sphComp_potential sA.pos hc h.made.pos C p h.terms i hmi
    · rw [← sphComp_overlap sB.pos hc h.made.pos C j hmi]
      simp only [mul_comm (basisFn (bindOrigin C s) _ _)]
  · refine sandwich_congr (fun _ _ => ocW_eq s.L q) (fun mi hmi => ?_) fun mi hmi => ?_
    · exact sphComp_overlap sA.pos hc h.made.pos C i hmi
    · rw [← sphComp_potential sB.pos hc h.made.pos C p h.terms j hmi]
      congr 1
      funext k
      exact integral_congr_ae (.of_forall fun r => by simp only []; ring)

theorem ocPart2_true {gen : Nat → List Comp} (hg : DocumentedOrder gen) {A B : Shell} (sA : A.Supported) (sB : B.Supported) (C : Point)
    {p1 p2 : Potential} {s1 s2 : Shell} (h1 : OcBase gen p1 s1) (h2 : OcBase gen p2 s2) {out : Fin 4 → List ℝ}
    {o : Fin 4 → ℕ → ℕ → ℝ} (ho : ∀ q, Arr A.cart_size B.cart_size (out q) (o q)) :
    ∃ out', ocPart2 A B C p1 s1 p2 s2 out = .ok out' ∧ ∀ q, SameBeyond (A.cart_size * B.cart_size) (out' q) (out q) ∧
      Arr A.cart_size B.cart_size (out' q) fun i j => o q i j + -(gtoErr s1.L * ocTwo A B C p1 s1 p2 s2 q i j) := by
  by_cases he : p1.L = p2.L ∧ p1.J = p2.J
  · obtain ⟨eL, eJ⟩ := he
    have hc1 := h1.made.complete hg
    have hc2 := h2.made.complete hg
    have sS1 : (bindOrigin C s1).Supported := (h1.made.bind C).supported hg h1.L9
    have sS2 : (bindOrigin C s2).Supported := (h2.made.bind C).supported hg h2.L9
    have eS : s2.L = s1.L := by have := h1.sameL; have := h2.sameL; omega
    obtain ⟨out', e1, e2⟩ := ocPart2_spec A B C p1 s1 p2 s2 eL eJ h1.sameL (by have := h1.L9; omega) (h1.made.listed hg)
      (fun c hc' => (hc1.mem c).1 hc') (by rw [h1.made.size, h2.made.size, eS]) (by rw [h1.made.list, h2.made.list, eS])
      (deltaIntegral_eq h1.terms h2.terms eL eJ (s1 := bindOrigin C s1) (s2 := bindOrigin C s2) h1.sameL eS (by have := h1.L9; exact this.trans (by norm_num))
        h1.made.wf h2.made.wf h1.pot h2.pot h1.made.pos h2.made.pos) (gives_overlap sS2 sB) (gives_overlap sA sS1) ho
    refine ⟨out', e1, fun q => ⟨(e2 q).1, (e2 q).2.congr fun i j _ _ => ?_⟩⟩
    rw [ocFactor_eq h1.j, ocTwo, if_pos ⟨eL, eJ⟩]
    have e3 : sandwich (2 * s1.L + 1) (ocW s1.L q) (sphComp s1.cart_size (slm s1.L s1) fun k => ∫ r, basisFn A i r * basisFn (bindOrigin C s1) k r)
        (sphComp s2.cart_size (slm s1.L s2) fun k => ∫ r, basisFn (bindOrigin C s2) k r * basisFn B j r) =
        sandwich (2 * s1.L + 1) (ocMatrix s1.L q) (ocOverlap A C s1 i) (ocOverlap B C s2 j) := by
      refine sandwich_congr (fun _ _ => ocW_eq s1.L q) (fun mi hmi => sphComp_overlap sA.pos hc1 h1.made.pos C i hmi) fun mi hmi => ?_
      rw [← eS] at hmi ⊢
      rw [← sphComp_overlap sB.pos hc2 h2.made.pos C j hmi]
      simp only [mul_comm (basisFn (bindOrigin C s2) _ _)]
    have e4 : ocDelta p1 (bindOrigin C s1) p2 (bindOrigin C s2) = ocDelta p1 s1 p2 s2 := rfl
    show o q i j + -1 * (gtoErr s1.L * ocDelta p1 (bindOrigin C s1) p2 (bindOrigin C s2)) * spinorWeight s1.L p1.J q * _ = _
    rw [e3, e4]
    ring
  · refine ⟨out, ?_, fun q => ⟨SameBeyond.refl _ _, (ho q).congr fun i j _ _ => by rw [ocTwo, if_neg he]; ring⟩⟩
    unfold ocPart2
    by_cases eL : p1.L = p2.L
    · rw [if_neg (by simpa using eL), if_pos (fun h => he ⟨eL, h⟩)]
    · rw [if_pos eL]

theorem outerCore_gen {gen : Nat → List Comp} (hg : DocumentedOrder gen) (sf : SpecFun) (A B : Shell) (sA : A.Supported) (sB : B.Supported) (C : Point)
    (oc : List (Potential × Shell)) (hoc : ∀ e ∈ oc, OcBase gen e.1 e.2)
    (one : Potential → Shell → Fin 4 → ℕ → ℕ → ℝ)
    (hone : ∀ e ∈ oc, ∀ (st : Fin 4 → List ℝ) (o : Fin 4 → ℕ → ℕ → ℝ), (∀ q, Arr A.cart_size B.cart_size (st q) (o q)) →
      ∃ st', ocPart1 sf true A B C e.1 (bindOrigin C e.2) st = .ok st' ∧ ∀ q, SameBeyond (A.cart_size * B.cart_size) (st' q) (st q) ∧
        Arr A.cart_size B.cart_size (st' q) fun i j => o q i j + one e.1 e.2 q i j) (out : Fin 4 → List ℝ)
    (hout : ∀ q, A.cart_size * B.cart_size ≤ (out q).length) :
    ∃ out', outerCore sf true A B C oc out = .ok (oc.map fun e => (e.1, bindOrigin C e.2), out') ∧
      ∀ q, SameBeyond (A.cart_size * B.cart_size) (out' q) (out q) ∧ Arr A.cart_size B.cart_size (out' q) fun i j =>
        ∑ a : Fin oc.length, one oc[a].1 oc[a].2 q i j -
        ∑ a : Fin oc.length, ∑ b : Fin oc.length, gtoErr oc[a].2.L * ocTwo A B C oc[a].1 oc[a].2 oc[b].1 oc[b].2 q i j := by
  obtain ⟨m0, e0, z0, b0⟩ := memset0_spec _ (out 0) (hout 0)
  obtain ⟨m1, e1, z1, b1⟩ := memset0_spec _ (out 1) (hout 1)
  obtain ⟨m2, e2, z2, b2⟩ := memset0_spec _ (out 2) (hout 2)
  obtain ⟨m3, e3, z3, b3⟩ := memset0_spec _ (out 3) (hout 3)
  have hz : ∀ q, SameBeyond (A.cart_size * B.cart_size) ((![m0, m1, m2, m3] : Fin 4 → List ℝ) q) (out q) ∧
      Arr A.cart_size B.cart_size ((![m0, m1, m2, m3] : Fin 4 → List ℝ) q) fun _ _ => 0 := by
    intro q
    have k : ∀ {m l : List ℝ}, (∀ i < A.cart_size * B.cart_size, m[i]? = some 0) → SameBeyond (A.cart_size * B.cart_size) m l →
        A.cart_size * B.cart_size ≤ l.length → SameBeyond (A.cart_size * B.cart_size) m l ∧ Arr A.cart_size B.cart_size m fun _ _ => 0 :=
      fun h h' h'' => ⟨h', by rw [h'.1]; exact h'', fun i j hi hj => h _ (rowMajor_lt hi hj)⟩
    fin_cases q
    exacts [k z0 b0 (hout 0), k z1 b1 (hout 1), k z2 b2 (hout 2), k z3 b3 (hout 3)]
  have hr : ∀ a (ha : a < oc.length), OcBase gen oc[a].1 (bindOrigin C oc[a].2) := fun a ha =>
    have h := hoc _ (List.getElem_mem ha)
    ⟨h.made.bind C, h.L9, h.pot, h.sameL, h.j, h.terms⟩
  have hrd : ∀ a (ha : a < oc.length), rd (oc.map fun e => (e.1, bindOrigin C e.2)) a = .ok (oc[a].1, bindOrigin C oc[a].2) := fun a ha => by
    rw [rd_ok (by simpa using ha), List.getElem_map]
  obtain ⟨s1, h1, r1⟩ := forRange_arr4 (nA := A.cart_size) (nB := B.cart_size) (n := (oc.map fun e => (e.1, bindOrigin C e.2)).length)
    (out := ![m0, m1, m2, m3]) (o := fun _ _ _ => 0) (body := fun i out => do
      let p ← rd (oc.map fun e => (e.1, bindOrigin C e.2)) i
      ocPart1 sf true A B C p.1 p.2 out)
    (fun a q i j => if ha : a < oc.length then one oc[a].1 oc[a].2 q i j else 0)
    (fun q => (hz q).2) (by
      intro a ha st o' ho'
      rw [List.length_map] at ha
      obtain ⟨st', k1, k2⟩ := hone _ (List.getElem_mem ha) st o' ho'
      refine ⟨st', by simp only [hrd a ha, Outcome.ok_bind]; exact k1, fun q => ⟨(k2 q).1, (k2 q).2.congr fun i j _ _ => ?_⟩⟩
      rw [dif_pos ha])
  obtain ⟨s2, h2, r2⟩ := forRange_arr4 (nA := A.cart_size) (nB := B.cart_size) (n := (oc.map fun e => (e.1, bindOrigin C e.2)).length)
    (out := s1) (body := fun i out => forRange (oc.map fun e => (e.1, bindOrigin C e.2)).length out fun j out => do
      let p ← rd (oc.map fun e => (e.1, bindOrigin C e.2)) i
      let q ← rd (oc.map fun e => (e.1, bindOrigin C e.2)) j
      ocPart2 A B C p.1 p.2 q.1 q.2 out)
    (fun a q i j => ∑ b ∈ Finset.range oc.length, if ha : a < oc.length ∧ b < oc.length then
      -(gtoErr oc[a].2.L * ocTwo A B C oc[a].1 oc[a].2 oc[b].1 oc[b].2 q i j) else 0)
    (fun q => (r1 q).2) (by
      intro a ha st o' ho'
      rw [List.length_map] at ha
      obtain ⟨st', k1, k2⟩ := forRange_arr4 (nA := A.cart_size) (nB := B.cart_size) (n := (oc.map fun e => (e.1, bindOrigin C e.2)).length)
        (out := st) (o := o') (body := fun j out => do
          let p ← rd (oc.map fun e => (e.1, bindOrigin C e.2)) a
          let q ← rd (oc.map fun e => (e.1, bindOrigin C e.2)) j
          ocPart2 A B C p.1 p.2 q.1 q.2 out)
        (fun b q i j => if ha : a < oc.length ∧ b < oc.length then
          -(gtoErr oc[a].2.L * ocTwo A B C oc[a].1 oc[a].2 oc[b].1 oc[b].2 q i j) else 0) ho' (by
          intro b hb st o' ho'
          rw [List.length_map] at hb
          obtain ⟨st', k1, k2⟩ := ocPart2_true hg sA sB C (hr a ha) (hr b hb) ho'
          refine ⟨st', by simp only [hrd a ha, hrd b hb, Outcome.ok_bind]; exact k1, fun q => ⟨(k2 q).1, (k2 q).2.congr fun i j _ _ => ?_⟩⟩
          rw [dif_pos ⟨ha, hb⟩]
          rfl)
      rw [List.length_map] at k2
      exact ⟨st', k1, k2⟩)
  refine ⟨s2, ?_, fun q => ⟨((r2 q).1.trans (r1 q).1).trans (hz q).1, (r2 q).2.congr fun i j _ _ => ?_⟩⟩
  · unfold outerCore
    rw [Outcome.assert_pos rfl, Outcome.ok_bind]
    simp only [e0, e1, e2, e3, Outcome.ok_bind]
    rw [h1, Outcome.ok_bind, h2, Outcome.ok_bind]
  · rw [List.length_map, zero_add, Finset.sum_range, Finset.sum_range, sub_eq_add_neg, ← Finset.sum_neg_distrib]
    congr 1
    · exact Finset.sum_congr rfl fun a _ => by rw [dif_pos a.2]; rfl
    · refine Finset.sum_congr rfl fun a _ => ?_
      rw [Finset.sum_range, ← Finset.sum_neg_distrib]
      exact Finset.sum_congr rfl fun b _ => by rw [dif_pos ⟨a.2, b.2⟩]; rfl

theorem outerCore_run {gen : Nat → List Comp} (hg : DocumentedOrder gen) (sf : SpecFun) (A B : Shell) (sA : A.Supported) (sB : B.Supported) (C : Point)
    (oc : List (Potential × Shell)) (hoc : ∀ e ∈ oc, OcReady gen sf A B C e.1 e.2) (out : Fin 4 → List ℝ)
    (hout : ∀ q, A.cart_size * B.cart_size ≤ (out q).length) :
    ∃ out', outerCore sf true A B C oc out = .ok (oc.map fun e => (e.1, bindOrigin C e.2), out') ∧
      ∀ q, SameBeyond (A.cart_size * B.cart_size) (out' q) (out q) ∧ Arr A.cart_size B.cart_size (out' q) fun i j =>
        ∑ a : Fin oc.length, ocOne A B (dropTiny A) (dropTiny B) C oc[a].1 oc[a].2 (dropTiny oc[a].2) q i j -
        ∑ a : Fin oc.length, ∑ b : Fin oc.length, gtoErr oc[a].2.L * ocTwo A B C oc[a].1 oc[a].2 oc[b].1 oc[b].2 q i j := by
  refine outerCore_gen hg sf A B sA sB C oc (fun e he => (hoc e he).toOcBase) (fun p s => ocOne A B (dropTiny A) (dropTiny B) C p s (dropTiny s))
    (fun e he st o ho => ?_) out hout
  have h := hoc e he
  exact ocPart1_true hg sf sA sB C (s := bindOrigin C e.2) ⟨⟨h.made.bind C, h.L9, h.pot, h.sameL, h.j, h.terms⟩, h.auxA, h.auxB⟩ ho

end Libgrpp
