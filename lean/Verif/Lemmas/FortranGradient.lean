import Verif.Model.FortranGradient
import Verif.Lemmas.FortranEcp
import Verif.Props.DriverTerms
import Verif.Props.Fortran

/-! # Auxiliary lemmas for Props/FortranGradient -/

namespace Libgrpp

/-! ## The routines for pairs of shells with arrays which may be longer than needed -/

/-- The integrals of a pseudopotential at `C` are differentiated to the values `W`, whatever the arrays contain before. -/
def GradFills (gen : Nat → List Comp) (junk : Option (Nat → ℝ)) (full : FullRoutine) (A B : Shell) (C D : Point)
    (W : Fin 4 → Fin 3 → Nat → Nat → ℝ) : Prop :=
  ∀ G : Grads, (∀ qk, A.cart_size * B.cart_size ≤ (G qk).length) → ∃ G', grppGradient gen junk full A B C D G = .ok G' ∧
    ∀ q k, (G' (q, k)).length = (G (q, k)).length ∧ MatIs A.cart_size B.cart_size (G' (q, k)) (W q k)

theorem length_of_beyond {n : Nat} {l l' : List ℝ} (h : n ≤ l.length) (h' : n ≤ l'.length) (e : ∀ p, n ≤ p → l'[p]? = l[p]?) : l'.length = l.length := by
  rcases Nat.lt_trichotomy l'.length l.length with hl | hl | hl
  · have := e l'.length h'
    rw [List.getElem?_eq_none le_rfl, List.getElem?_eq_getElem hl] at this
    exact absurd this (by simp)
  · exact hl
  · have := e l.length h
    rw [List.getElem?_eq_none le_rfl, List.getElem?_eq_getElem hl] at this
    exact absurd this (by simp)

section
variable {gen : Nat → List Comp} {junk : Option (Nat → ℝ)} {full : FullRoutine} {A B : Shell} {C D : Point} {W : Fin 4 → Fin 3 → Nat → Nat → ℝ}

theorem GradFills.scalar (h : GradFills gen junk full A B C D W) (grad : Fin 3 → List ℝ) (hg : ∀ k, A.cart_size * B.cart_size ≤ (grad k).length) :
    ∃ b, scalarTermGradient gen junk full A B C D grad = .ok b ∧
      ∀ k, (b k).length = (grad k).length ∧ MatIs A.cart_size B.cart_size (b k) (W 0 k) := by
  obtain ⟨G', e, v⟩ := h (fun qk => if qk.1 = 0 then grad qk.2 else List.replicate (A.cart_size * B.cart_size) 0) (fun qk => by
    split_ifs
    · exact hg _
    · exact List.length_replicate.ge)
  refine ⟨fun k => G' (0, k), ?_, fun k => ⟨by simpa using (v 0 k).1, (v 0 k).2⟩⟩
  unfold scalarTermGradient
  rw [e, Outcome.ok_bind]

theorem GradFills.so (h : GradFills gen junk full A B C D W) (L : Int) (grad : Fin 3 × Fin 3 → List ℝ)
    (hg : ∀ k, A.cart_size * B.cart_size ≤ (grad k).length) :
    ∃ b, soTermGradient gen junk full A B C D L grad = .ok b ∧
      ∀ q k, (b (q, k)).length = (grad (q, k)).length ∧
        MatIs A.cart_size B.cart_size (b (q, k)) fun m n => W q.succ k m n * ((2 * (L : ℝ) + 1) / 2) := by
  obtain ⟨G', e, v⟩ := h (fun qk => Fin.cases (List.replicate (A.cart_size * B.cart_size) 0) (fun q => grad (q, qk.2)) qk.1) (fun qk => by
    refine Fin.cases ?_ (fun q => ?_) qk.1
    · exact List.length_replicate.ge
    · exact hg _)
  obtain ⟨G'', e', hS⟩ := rescaleSO_ok ((2 * (L : ℝ) + 1) / 2) (A.cart_size * B.cart_size) G' fun q => (v q.1 q.2).2.length_ge
  refine ⟨fun qk => G'' (qk.1.succ, qk.2), ?_, fun q k => ⟨?_, fun m n hm hn => ?_⟩⟩
  · unfold soTermGradient
    rw [e, Outcome.ok_bind, e', Outcome.ok_bind]
  · exact (hS.len _).trans ((v q.succ k).1)
  · show (G'' (q.succ, k))[m * B.cart_size + n]? = _
    rw [hS.hit q k _ (rowMajor_lt hm hn), (v q.succ k).2 m n hm hn, Option.map_some]

end

section
variable {G : Type} (lib : Lib G) (hi : lib.init = true) (hbt : BesselOk lib.bt) (ho : DocumentedOrder lib.gen) {eps : ℝ}
  {sf : SpecFun} (hs : LibSpec eps sf)
include hi hbt ho hs

/-- What the library returns for operators on the atoms, as `gradVal_returns`, for all arrays. -/
theorem gradVal_fills {shells : List Shell} {atoms : List (Nat × Point)} {A B : Shell} (hA : A ∈ shells) (hB : B ∈ shells) {o : GrppData × Point}
    (hin : GradInput lib.gen A B o.2 o.1) (hat : AtomsOk shells atoms) (oC : ∃ a ∈ atoms, o.2 = a.2) {D : Point} (oD : ∃ a ∈ atoms, D = a.2)
    (junk : Option (Nat → ℝ)) (hj : junk ≠ none ∨ ∀ s ∈ shells, s.L = 0) :
    GradFills lib.gen junk (libFull lib sf o.1 o.2) A B o.2 D (gradVal lib sf A B o D) := by
  intro G hG
  obtain ⟨G', e, v, w⟩ := grppGradient_adds (gradVal_mats lib hi hbt ho hs hin.lib junk fun e =>
      hj.elim (fun h => absurd e h) fun h => ⟨h A hA, h B hB⟩) o.2 D (hat.separated (hat.on A hA) (hat.on B hB) oC oD) G hG
  have hm : ∀ q k, MatIs A.cart_size B.cart_size (G' (q, k)) (gradVal lib sf A B o D q k) := by
    intro x k m n hm' hn'
    rw [v x k m n hm' hn']
    simp only [hat.iff (hat.on A hA) oD, hat.iff (hat.on B hB) oD, hat.iff oC oD, gradVal]
  exact ⟨G', e, fun q k => ⟨length_of_beyond (hG _) (hm q k).length_ge (w (q, k)), hm q k⟩⟩

end

/-- The routines for single terms return or have no defined result; arrays which were longer than needed still are. -/
theorem scalarTermGradient_okUb_long {gen : Nat → List Comp} {full : FullRoutine} {A B : Shell} {junk : Option (Nat → ℝ)}
    (h : GradRuns gen full A B junk) (C D : Point) {N : Nat} (hN : A.cart_size * B.cart_size ≤ N) (grad : Fin 3 → List ℝ) (hg : ∀ k, N ≤ (grad k).length) :
    OkUb (fun b : Fin 3 → List ℝ => ∀ k, N ≤ (b k).length) (scalarTermGradient gen none full A B C D grad) := by
  unfold scalarTermGradient
  refine (grppGradient_okUb_long h C D _ (N := fun qk => if qk.1 = 0 then N else A.cart_size * B.cart_size) (fun q => ?_) fun q => ?_).bind
    fun b hb => Or.inl ⟨_, rfl, fun k => by simpa using hb (0, k)⟩
  · split_ifs
    · exact hN
    · exact le_rfl
  · split_ifs
    · exact hg _
    · exact List.length_replicate.ge

theorem soTermGradient_okUb_long {gen : Nat → List Comp} {full : FullRoutine} {A B : Shell} {junk : Option (Nat → ℝ)}
    (h : GradRuns gen full A B junk) (C D : Point) (L : Int) {N : Nat} (hN : A.cart_size * B.cart_size ≤ N) (grad : Fin 3 × Fin 3 → List ℝ)
    (hg : ∀ k, N ≤ (grad k).length) :
    OkUb (fun b : Fin 3 × Fin 3 → List ℝ => ∀ k, N ≤ (b k).length) (soTermGradient gen none full A B C D L grad) := by
  unfold soTermGradient
  refine (grppGradient_okUb_long h C D _ (N := fun qk => Fin.cases (A.cart_size * B.cart_size) (fun _ => N) qk.1) (fun q => ?_) fun q => ?_).bind
    fun b hb => ?_
  · refine Fin.cases ?_ (fun q => ?_) q.1
    · exact le_rfl
    · exact hN
  · refine Fin.cases ?_ (fun j => ?_) q.1
    · exact List.length_replicate.ge
    · exact hg _
  · obtain ⟨G', e, hS⟩ := rescaleSO_ok ((2 * (L : ℝ) + 1) / 2) (A.cart_size * B.cart_size) b fun q => le_trans (by
      refine Fin.cases ?_ (fun j => ?_) q.1
      · exact le_rfl
      · exact hN) (hb q)
    rw [e, Outcome.ok_bind]
    exact Or.inl ⟨_, rfl, fun k => (hb (k.1.succ, k.2)).trans (hS.len _).ge⟩

theorem Forwards.okUb {α : Type} {h : Store} {x : Outcome (Store × α)} {y : Outcome α} {P : α → Prop} (f : Forwards h x y) (hy : OkUb P y) :
    OkUb (fun r => Restored h r.1 ∧ P r.2) x := by
  obtain ⟨h', r, rfl⟩ := f
  exact hy.bind fun a ha => Or.inl ⟨_, rfl, r, ha⟩

theorem Forwards.ub {α : Type} {h : Store} {x : Outcome (Store × α)} {y : Outcome α} (f : Forwards h x y) (hy : y = .ub) : x = .ub := by
  obtain ⟨h', r, rfl⟩ := f
  rw [hy]
  rfl

theorem Forwards.trans_eq {α : Type} {h : Store} {x : Outcome (Store × α)} {y y' : Outcome α} (f : Forwards h x y) (e : y = y') : Forwards h x y' := e ▸ f

/-! ## The calls -/

section
variable {G : Type} {lib : Lib G} {sf : SpecFun} {junk : Option (Nat → ℝ)} {C D : Point} {h : Store} {a b : FShell} {u : FPot}
  {W : Fin 4 → Fin 3 → Nat → Nat → ℝ} (hw : h.WF) (okA : a.Ok) (okB : b.Ok) (h1 : u.num ≤ u.powers.length) (h2 : u.num ≤ u.coeffs.length)
  (h3 : u.num ≤ u.alpha.length)
include hw okA okB h1 h2 h3

theorem ftnType1Gradient_eq (grad : Fin 3 → List ℝ) :
    Forwards h (ftnType1Gradient (ftnGradEnv lib sf junk C D) h a b u grad)
      (scalarTermGradient lib.gen junk (libFull lib sf ⟨some (u.pot 0 0), [], [], []⟩ C) (a.shell lib.gen) (b.shell lib.gen) C D grad) := by
  obtain ⟨mk, -⟩ := FPot.make_ok 0 0 h1 h2 h3
  have hwP : (h.alloc (.pot (u.pot 0 0))).2.WF := ((Holds.refl h).alloc (.pot _)).wf hw
  have hP : (h.alloc (.pot (u.pot 0 0))).2.mem h.next = some (.pot (u.pot 0 0)) := ((Holds.refl h).alloc (.pot _)).get (List.mem_cons_self ..)
  obtain ⟨h'', -, e2⟩ := (term_routines_agree { ftnGradEnv lib sf junk C D with A := a.shell lib.gen, B := b.shell lib.gen } _ hwP).1 (some h.next)
    (some (u.pot 0 0)) (.inr ⟨_, _, rfl, hP, rfl⟩) grad
  refine (fortran_gradients (ftnGradEnv lib sf junk C D) h hw a b 0 u h1 grad fun _ => []).1.trans_eq ?_
  show (u.make 0 0 >>= fun P => a.make lib.gen >>= fun A => b.make lib.gen >>= fun B => _) = _
  rw [mk, Outcome.ok_bind, okA.make, Outcome.ok_bind, okB.make, Outcome.ok_bind, e2, bind_assoc]
  exact bind_pure _

theorem ftnType2Gradient_eq (L : Nat) (grad : Fin 3 → List ℝ) :
    Forwards h (ftnType2Gradient (ftnGradEnv lib sf junk C D) h a b L u grad)
      (scalarTermGradient lib.gen junk (libFull lib sf ⟨none, [u.pot L 0], [], []⟩ C) (a.shell lib.gen) (b.shell lib.gen) C D grad) := by
  obtain ⟨mk, -⟩ := FPot.make_ok L 0 h1 h2 h3
  have hwP : (h.alloc (.pot (u.pot L 0))).2.WF := ((Holds.refl h).alloc (.pot _)).wf hw
  have hP : (h.alloc (.pot (u.pot L 0))).2.mem h.next = some (.pot (u.pot L 0)) := ((Holds.refl h).alloc (.pot _)).get (List.mem_cons_self ..)
  obtain ⟨h'', -, e2⟩ := (term_routines_agree { ftnGradEnv lib sf junk C D with A := a.shell lib.gen, B := b.shell lib.gen } _ hwP).2.1 h.next
    (u.pot L 0) hP grad
  refine (fortran_gradients (ftnGradEnv lib sf junk C D) h hw a b L u h1 grad fun _ => []).2.1.trans_eq ?_
  show (u.make L 0 >>= fun P => a.make lib.gen >>= fun A => b.make lib.gen >>= fun B => _) = _
  rw [mk, Outcome.ok_bind, okA.make, Outcome.ok_bind, okB.make, Outcome.ok_bind, e2, bind_assoc]
  exact bind_pure _

theorem ftnSpinOrbitGradient_eq (L : Nat) (grad : Fin 3 × Fin 3 → List ℝ) :
    Forwards h (ftnSpinOrbitGradient (ftnGradEnv lib sf junk C D) h a b L u grad)
      (soTermGradient lib.gen junk (libFull lib sf ⟨none, [], [u.pot L 0], []⟩ C) (a.shell lib.gen) (b.shell lib.gen) C D L grad) := by
  obtain ⟨mk, hL⟩ := FPot.make_ok L 0 h1 h2 h3
  have hwP : (h.alloc (.pot (u.pot L 0))).2.WF := ((Holds.refl h).alloc (.pot _)).wf hw
  have hP : (h.alloc (.pot (u.pot L 0))).2.mem h.next = some (.pot (u.pot L 0)) := ((Holds.refl h).alloc (.pot _)).get (List.mem_cons_self ..)
  obtain ⟨h'', -, e2⟩ := (term_routines_agree { ftnGradEnv lib sf junk C D with A := a.shell lib.gen, B := b.shell lib.gen } _ hwP).2.2 h.next
    (u.pot L 0) hP grad
  rw [hL] at e2
  refine (fortran_gradients (ftnGradEnv lib sf junk C D) h hw a b L u h1 (fun _ => []) grad).2.2.trans_eq ?_
  show (u.make L 0 >>= fun P => a.make lib.gen >>= fun A => b.make lib.gen >>= fun B => _) = _
  rw [mk, Outcome.ok_bind, okA.make, Outcome.ok_bind, okB.make, Outcome.ok_bind, e2, bind_assoc]
  exact bind_pure _

theorem ftnType1Gradient_spec
    (hf : GradFills lib.gen junk (libFull lib sf ⟨some (u.pot 0 0), [], [], []⟩ C) (a.shell lib.gen) (b.shell lib.gen) C D W)
    (grad : Fin 3 → List ℝ) (hg : ∀ k, cartSize a.L * cartSize b.L ≤ (grad k).length) :
    ∃ h' g, Restored h h' ∧ ftnType1Gradient (ftnGradEnv lib sf junk C D) h a b u grad = .ok (h', g) ∧
      ∀ k, (g k).length = (grad k).length ∧ MatIs (cartSize a.L) (cartSize b.L) (g k) (W 0 k) := by
  obtain ⟨g, e, v⟩ := hf.scalar grad hg
  obtain ⟨h', r, ef⟩ := (ftnType1Gradient_eq hw okA okB h1 h2 h3 grad).ok e
  exact ⟨h', g, r, ef, v⟩

theorem ftnType2Gradient_spec (L : Nat)
    (hf : GradFills lib.gen junk (libFull lib sf ⟨none, [u.pot L 0], [], []⟩ C) (a.shell lib.gen) (b.shell lib.gen) C D W)
    (grad : Fin 3 → List ℝ) (hg : ∀ k, cartSize a.L * cartSize b.L ≤ (grad k).length) :
    ∃ h' g, Restored h h' ∧ ftnType2Gradient (ftnGradEnv lib sf junk C D) h a b L u grad = .ok (h', g) ∧
      ∀ k, (g k).length = (grad k).length ∧ MatIs (cartSize a.L) (cartSize b.L) (g k) (W 0 k) := by
  obtain ⟨g, e, v⟩ := hf.scalar grad hg
  obtain ⟨h', r, ef⟩ := (ftnType2Gradient_eq hw okA okB h1 h2 h3 L grad).ok e
  exact ⟨h', g, r, ef, v⟩

theorem ftnSpinOrbitGradient_spec (L : Nat)
    (hf : GradFills lib.gen junk (libFull lib sf ⟨none, [], [u.pot L 0], []⟩ C) (a.shell lib.gen) (b.shell lib.gen) C D W)
    (grad : Fin 3 × Fin 3 → List ℝ) (hg : ∀ k, cartSize a.L * cartSize b.L ≤ (grad k).length) :
    ∃ h' g, Restored h h' ∧ ftnSpinOrbitGradient (ftnGradEnv lib sf junk C D) h a b L u grad = .ok (h', g) ∧
      ∀ q k, (g (q, k)).length = (grad (q, k)).length ∧
        MatIs (cartSize a.L) (cartSize b.L) (g (q, k)) fun m n => W q.succ k m n * ((2 * (L : ℝ) + 1) / 2) := by
  obtain ⟨g, e, v⟩ := hf.so L grad hg
  obtain ⟨h', r, ef⟩ := (ftnSpinOrbitGradient_eq hw okA okB h1 h2 h3 L grad).ok e
  exact ⟨h', g, r, ef, fun q k => ⟨(v q k).1, fun m n hm hn => by
    have := (v q k).2 m n hm hn
    rw [Int.cast_natCast] at this
    exact this⟩⟩

end

/-! ## Updates of the results -/

/-- A loop that changes three cells. -/
theorem forCoord_cells {ι : Type} [DecidableEq ι] (c : Fin 3 → ι) (hc : Function.Injective c) (f : Fin 3 → List ℝ → Outcome (List ℝ)) (M : ι → List ℝ)
    (m : Fin 3 → List ℝ) (hf : ∀ i, f i (M (c i)) = .ok (m i)) :
    ∃ M', (forCoord M fun i M => do let x ← f i (M (c i)); .ok (Function.update M (c i) x)) = .ok M' ∧ (∀ i, M' (c i) = m i) ∧
      ∀ y, (∀ i, y ≠ c i) → M' y = M y := by
  have n10 : c 1 ≠ c 0 := fun h => absurd (hc h) (by decide)
  have n20 : c 2 ≠ c 0 := fun h => absurd (hc h) (by decide)
  have n21 : c 2 ≠ c 1 := fun h => absurd (hc h) (by decide)
  refine ⟨Function.update (Function.update (Function.update M (c 0) (m 0)) (c 1) (m 1)) (c 2) (m 2), ?_, fun i => ?_, fun y hy => ?_⟩
  · unfold forCoord
    beta_reduce
    rw [hf 0, Outcome.ok_bind, Outcome.ok_bind, Function.update_of_ne n10, hf 1, Outcome.ok_bind, Outcome.ok_bind, Function.update_of_ne n21,
      Function.update_of_ne n20, hf 2, Outcome.ok_bind]
  · match i with
    | 0 => rw [Function.update_of_ne n20.symm, Function.update_of_ne n10.symm, Function.update_self]
    | 1 => rw [Function.update_of_ne n21.symm, Function.update_self]
    | 2 => rw [Function.update_self]
  · rw [Function.update_of_ne (hy 2), Function.update_of_ne (hy 1), Function.update_of_ne (hy 0)]

/-- The results of `n` points, with matrices of dimension `dim`. -/
def GradOut (n dim : Nat) (out : List Grads) : Prop := out.length = n ∧ ∀ M ∈ out, ∀ qk, dim * dim ≤ (M qk).length

/-- One matrix of the results. -/
def gradView (x : Fin 4 × Nat × Fin 3) (out : List Grads) : List ℝ := (out.getD x.2.1 fun _ => []) (x.1, x.2.2)

theorem gradView_set {n dim : Nat} {out : List Grads} (ho : GradOut n dim out) {ip : Nat} (hip : ip < n) (hip' : ip < out.length) {M' : Grads}
    {E : Fin 4 → Fin 3 → Nat → Nat → ℝ} (hM : ∀ q k, Added dim (E q k) (out[ip] (q, k)) (M' (q, k))) :
    GradOut n dim (out.set ip M') ∧ ∀ x : Fin 4 × Nat × Fin 3, Added dim (fun p q => if x.2.1 = ip then E x.1 x.2.2 p q else 0)
      (gradView x out) (gradView x (out.set ip M')) := by
  refine ⟨⟨by rw [List.length_set]; exact ho.1, fun M hMm qk => ?_⟩, fun x => ?_⟩
  · rcases List.mem_or_eq_of_mem_set hMm with h | h
    · exact ho.2 M h qk
    · rw [h, (hM qk.1 qk.2).len]
      exact ho.2 _ (List.getElem_mem hip') qk
  · unfold gradView
    by_cases hx : x.2.1 = ip
    · have e1 : (out.set ip M').getD x.2.1 (fun _ => []) = M' := by simp [List.getD, hx, hip']
      have e2 : out.getD x.2.1 (fun _ => []) = out[ip] := by simp [List.getD, hx, hip']
      rw [e1, e2]
      simp only [hx, if_true]
      exact hM _ _
    · have e1 : (out.set ip M').getD x.2.1 (fun _ => []) = out.getD x.2.1 (fun _ => []) := by
        simp only [List.getD]
        rw [List.getElem?_set_ne (fun h => hx h.symm)]
      rw [e1]
      simp only [hx, if_false]
      exact Added.refl _ _

section
variable {n dim io jo n1 n2 : Nat} (h1 : io + n1 ≤ dim) (h2 : jo + n2 ≤ dim) {out : List Grads} (ho : GradOut n dim out) {ip : Nat} (hip : ip < n)
include h1 h2 ho hip

theorem updateArepGrad_spec {b : Fin 3 → List ℝ} {g : Fin 3 → Nat → Nat → ℝ} (hb : ∀ k, MatIs n1 n2 (b k) (g k)) :
    ∃ out', updateArepGrad dim out ip io jo b n1 n2 = .ok out' ∧ GradOut n dim out' ∧
      ∀ x : Fin 4 × Nat × Fin 3, Added dim (fun p q => if x.2.1 = ip then
        blockAt io jo n1 n2 (Fin.cases (g x.2.2) (fun _ _ _ => 0) x.1) p q else 0) (gradView x out) (gradView x out') := by
  have hip' : ip < out.length := by rw [ho.1]; exact hip
  have hsz := ho.2 _ (List.getElem_mem hip')
  choose m em am using fun k => updateMatrixPart_spec h1 h2 (hb k) (out[ip] (0, k)) (hsz _)
  obtain ⟨M', e, v, w⟩ := forCoord_cells (fun i : Fin 3 => ((0 : Fin 4), i)) (fun i j h => (Prod.ext_iff.1 h).2)
    (fun i l => updateMatrixPart dim l io jo (b i) n1 n2) out[ip] m em
  obtain ⟨o', a'⟩ := gradView_set ho hip hip' (M' := M') (E := fun q k => blockAt io jo n1 n2 (Fin.cases (g k) (fun _ _ _ => 0) q)) (fun q k => by
    refine Fin.cases ?_ (fun q => ?_) q
    · rw [v k]
      exact am k
    · rw [w _ fun i h => absurd (Prod.ext_iff.1 h).1 (Fin.succ_ne_zero q)]
      exact (Added.refl _ _).congr fun p q _ _ => (blockAt_zero ..).symm)
  refine ⟨out.set ip M', ?_, o', a'⟩
  unfold updateArepGrad
  rw [rd_ok hip', Outcome.ok_bind]
  erw [e]
  rw [Outcome.ok_bind, wr_ok _ hip']

theorem updateSOGrad_spec {b : Fin 3 × Fin 3 → List ℝ} {g : Fin 3 → Fin 3 → Nat → Nat → ℝ} (hb : ∀ q k, MatIs n1 n2 (b (q, k)) (g q k)) :
    ∃ out', updateSOGrad dim out ip io jo b n1 n2 = .ok out' ∧ GradOut n dim out' ∧
      ∀ x : Fin 4 × Nat × Fin 3, Added dim (fun p q => if x.2.1 = ip then
        blockAt io jo n1 n2 (Fin.cases (fun _ _ => 0) (fun j => g j x.2.2) x.1) p q else 0) (gradView x out) (gradView x out') := by
  have hip' : ip < out.length := by rw [ho.1]; exact hip
  have hsz := ho.2 _ (List.getElem_mem hip')
  choose m em am using fun j k => updateMatrixPart_spec h1 h2 (hb j k) (out[ip] (j.succ, k)) (hsz _)
  have inner : ∀ (i : Fin 3) (M : Grads), (∀ j : Fin 3, M (j.succ, i) = out[ip] (j.succ, i)) → ∃ M' : Grads, (forCoord M fun j M => do
      let x ← updateMatrixPart dim (M (j.succ, i)) io jo (b (j, i)) n1 n2
      .ok (Function.update M (j.succ, i) x)) = .ok M' ∧ (∀ j : Fin 3, M' (j.succ, i) = m j i) ∧ ∀ y, (∀ j : Fin 3, y ≠ (j.succ, i)) → M' y = M y :=
    fun i M hM => forCoord_cells (fun j : Fin 3 => (j.succ, i)) (fun j k h => Fin.succ_injective _ (Prod.ext_iff.1 h).1)
      (fun j l => updateMatrixPart dim l io jo (b (j, i)) n1 n2) M (fun j => m j i) (fun j => by rw [hM j]; exact em j i)
  have ne : ∀ {i k : Fin 3}, i ≠ k → ∀ (q : Fin 4) (j : Fin 3), ((q, i) : Fin 4 × Fin 3) ≠ (j.succ, k) := fun h q j e => h (Prod.ext_iff.1 e).2
  obtain ⟨M0, e0, v0, w0⟩ := inner 0 out[ip] fun j => rfl
  obtain ⟨M1, e1, v1, w1⟩ := inner 1 M0 fun j => w0 _ (ne (by decide) _)
  obtain ⟨M2, e2, v2, w2⟩ := inner 2 M1 fun j => (w1 _ (ne (by decide) _)).trans (w0 _ (ne (by decide) _))
  obtain ⟨o', a'⟩ := gradView_set ho hip hip' (M' := M2) (E := fun q k => blockAt io jo n1 n2 (Fin.cases (fun _ _ => 0) (fun j => g j k) q)) (fun q k => by
    refine Fin.cases ?_ (fun j => ?_) q
    · have n0 : ∀ i j : Fin 3, ((0 : Fin 4), k) ≠ (j.succ, i) := fun i j h => absurd (Prod.ext_iff.1 h).1 (Fin.succ_ne_zero j).symm
      rw [w2 _ (n0 2), w1 _ (n0 1), w0 _ (n0 0)]
      exact (Added.refl _ _).congr fun p q _ _ => (blockAt_zero ..).symm
    · have : M2 (j.succ, k) = m j k := by
        match k with
        | 0 => rw [w2 _ (ne (by decide) _), w1 _ (ne (by decide) _), v0]
        | 1 => rw [w2 _ (ne (by decide) _), v1]
        | 2 => rw [v2]
      rw [this]
      exact am j k)
  refine ⟨out.set ip M2, ?_, o', a'⟩
  unfold updateSOGrad
  rw [rd_ok hip', Outcome.ok_bind]
  have : (forCoord out[ip] fun i M => forCoord M fun j M => do
      let m ← updateMatrixPart dim (M (j.succ, i)) io jo (b (j, i)) n1 n2
      Outcome.ok (Function.update M (j.succ, i) m)) = .ok M2 := by
    rw [forCoord, e0, Outcome.ok_bind, e1, Outcome.ok_bind, e2]
  rw [this, Outcome.ok_bind, wr_ok _ hip']

end

/-! ## The steps -/

/-- State between two calls: memory as at the beginning `h0`, buffers of full size, results for `n` points of dimension `dim`. -/
structure FGradState.Ok (h0 : Store) (n dim : Nat) (st : FGradState) : Prop where
  restored : Restored h0 st.h
  buf : ∀ k, maxBuf ≤ (st.buf k).length
  bufSO : ∀ qk, maxBuf ≤ (st.bufSO qk).length
  out : GradOut n dim st.out

/-- The step leads from `st` to another state and adds the blocks `W` to the results of point `ip`. -/
def GradStep (h0 : Store) (n dim io jo n1 n2 ip : Nat) (x : Outcome FGradState) (st : FGradState) (W : Fin 4 → Fin 3 → ℕ → ℕ → ℝ) : Prop :=
  ∃ st', x = .ok st' ∧ st'.Ok h0 n dim ∧
    ∀ x : Fin 4 × Nat × Fin 3, Added dim (blockAt io jo n1 n2 fun m k => if x.2.1 = ip then W x.1 x.2.2 m k else 0) (gradView x st.out) (gradView x st'.out)

theorem GradStep.bind {h0 : Store} {n dim io jo n1 n2 ip : Nat} {x : Outcome FGradState} {st : FGradState} {W W' : Fin 4 → Fin 3 → ℕ → ℕ → ℝ}
    {f : FGradState → Outcome FGradState} (h : GradStep h0 n dim io jo n1 n2 ip x st W)
    (h' : ∀ st1, st1.Ok h0 n dim → GradStep h0 n dim io jo n1 n2 ip (f st1) st1 W') :
    GradStep h0 n dim io jo n1 n2 ip (x >>= f) st fun q k m n => W q k m n + W' q k m n := by
  obtain ⟨s1, e1, o1, a1⟩ := h
  obtain ⟨s2, e2, o2, a2⟩ := h' s1 o1
  refine ⟨s2, by rw [e1, Outcome.ok_bind, e2], o2, fun x => ((a1 x).trans (a2 x)).congr fun p p' _ _ => ?_⟩
  rw [blockAt_add]
  congr 1
  funext m k
  by_cases hx : x.2.1 = ip <;> simp [hx]

theorem GradStep.congr {h0 : Store} {n dim io jo n1 n2 ip : Nat} {x : Outcome FGradState} {st : FGradState} {W W' : Fin 4 → Fin 3 → ℕ → ℕ → ℝ}
    (h : GradStep h0 n dim io jo n1 n2 ip x st W) (e : ∀ q k m n, W q k m n = W' q k m n) : GradStep h0 n dim io jo n1 n2 ip x st W' := by
  have : W = W' := funext fun q => funext fun k => funext fun m => funext fun n => e q k m n
  rwa [← this]

theorem gradStep_forRange {h0 : Store} {n dim io jo n1 n2 ip : Nat} (N : Nat) {body : Nat → FGradState → Outcome FGradState}
    {W : Nat → Fin 4 → Fin 3 → ℕ → ℕ → ℝ} (hb : ∀ i < N, ∀ st, st.Ok h0 n dim → GradStep h0 n dim io jo n1 n2 ip (body i st) st (W i)) {st : FGradState}
    (hst : st.Ok h0 n dim) :
    GradStep h0 n dim io jo n1 n2 ip (forRange N st body) st fun q k m n' => ∑ i ∈ Finset.range N, W i q k m n' := by
  obtain ⟨s', e, o, a⟩ := added_loop (κ := Fin 4 × Nat × Fin 3) (dim := dim) (n := N) (body := body) (fun _ st => st.Ok h0 n dim)
    (fun x st => gradView x st.out) (fun x i => blockAt io jo n1 n2 fun m k => if x.2.1 = ip then W i x.1 x.2.2 m k else 0) st hst
    fun i s hi hs => hb i hi s hs
  refine ⟨s', e, o, fun x => (a x).congr fun p p' _ _ => ?_⟩
  rw [blockAt_range]
  congr 1
  funext m k
  by_cases hx : x.2.1 = ip <;> simp [hx]

section
variable {G : Type} {lib : Lib G} {sf : SpecFun} {good : Option (Nat → ℝ) → Prop} {h0 : Store} {n dim io jo ip : Nat} {a b : FShell} {C D : Point} {e : FEcp}

/-- The situation in which the steps for one atom are executed. -/
structure GradAtom (lib : Lib G) (sf : SpecFun) (good : Option (Nat → ℝ) → Prop) (h0 : Store) (n dim io jo ip : Nat) (a b : FShell) (C D : Point) (e : FEcp) :
    Prop where
  wf : h0.WF
  okA : a.Ok
  okB : b.Ok
  fit : cartSize a.L * cartSize b.L ≤ maxBuf
  row : io + cartSize a.L ≤ dim
  col : jo + cartSize b.L ≤ dim
  ecp : e.Ok
  pos : 0 < e.numArep
  point : ip < n
  fills : ∀ junk, good junk → ∀ g ∈ localPart (e.data lib.gen) ++ arepParts (e.data lib.gen) ++ esopParts (e.data lib.gen),
    GradFills lib.gen junk (libFull lib sf g C) (a.shell lib.gen) (b.shell lib.gen) C D (gradVal lib sf (a.shell lib.gen) (b.shell lib.gen) (g, C) D)

theorem ftnGradLocal_spec (h : GradAtom lib sf good h0 n dim io jo ip a b C D e) {junk : Option (Nat → ℝ)} (hj : good junk) {st : FGradState}
    (hst : st.Ok h0 n dim) :
    GradStep h0 n dim io jo (cartSize a.L) (cartSize b.L) ip
      (ftnGradLocal lib sf junk dim io jo (cartSize a.L) (cartSize b.L) ip a b C D e st) st fun q k =>
        Fin.cases (gradVal lib sf (a.shell lib.gen) (b.shell lib.gen) (⟨(e.data lib.gen).local_, [], [], []⟩, C) D 0 k) (fun _ _ _ => 0) q := by
  have hr : rd1 e.rows e.numArep = .ok (e.row (e.numArep - 1)) := by
    unfold rd1
    rw [if_neg (by have := h.pos; omega)]
    exact row_get h.ecp (by have := h.pos; omega)
  have hp := h.ecp.pots (e.numArep - 1) (by have := h.pos; omega)
  obtain ⟨h', g, r, ef, v⟩ := ftnType1Gradient_spec (hst.restored.wf' h.wf) h.okA h.okB (u := (e.row (e.numArep - 1)).pot (e.row (e.numArep - 1)).arep)
    hp.powers hp.arep hp.alpha (h.fills junk hj ⟨(e.data lib.gen).local_, [], [], []⟩ (by simp [localPart])) st.buf fun k => h.fit.trans (hst.buf k)
  obtain ⟨out', e2, o2, a2⟩ := updateArepGrad_spec h.row h.col hst.out h.point (fun k => (v k).2)
  refine ⟨⟨h', g, st.bufSO, out'⟩, ?_, ⟨hst.restored.then r, fun k => (hst.buf k).trans_eq (v k).1.symm, hst.bufSO, o2⟩,
    fun x => (a2 x).congr fun p p' _ _ => blockAt_if ..⟩
  unfold ftnGradLocal
  rw [hr, Outcome.ok_bind, ef, Outcome.ok_bind, e2, Outcome.ok_bind]

theorem ftnGradSemilocal_spec (h : GradAtom lib sf good h0 n dim io jo ip a b C D e) {junk : Option (Nat → ℝ)} (hj : good junk) {L : Nat}
    (hL : L < e.numArep - 1) {st : FGradState} (hst : st.Ok h0 n dim) :
    GradStep h0 n dim io jo (cartSize a.L) (cartSize b.L) ip
      (ftnGradSemilocal lib sf junk dim io jo (cartSize a.L) (cartSize b.L) ip a b C D e L st) st fun q k =>
        Fin.cases (gradVal lib sf (a.shell lib.gen) (b.shell lib.gen) (⟨none, [((e.row L).pot (e.row L).arep).pot L 0], [], []⟩, C) D 0 k) (fun _ _ _ => 0) q := by
  have hr := row_get h.ecp (L := L) (by omega)
  have hp := h.ecp.pots L (by omega)
  have hmem : ((e.row L).pot (e.row L).arep).pot L 0 ∈ (e.data lib.gen).arep := List.mem_map.2 ⟨L, List.mem_range.2 hL, rfl⟩
  obtain ⟨h', g, r, ef, v⟩ := ftnType2Gradient_spec (hst.restored.wf' h.wf) h.okA h.okB (u := (e.row L).pot (e.row L).arep)
    hp.powers hp.arep hp.alpha L (h.fills junk hj ⟨none, [((e.row L).pot (e.row L).arep).pot L 0], [], []⟩
      (List.mem_append_left _ (List.mem_append_right _ (List.mem_map.2 ⟨_, hmem, rfl⟩)))) st.buf fun k => h.fit.trans (hst.buf k)
  obtain ⟨out', e2, o2, a2⟩ := updateArepGrad_spec h.row h.col hst.out h.point (fun k => (v k).2)
  refine ⟨⟨h', g, st.bufSO, out'⟩, ?_, ⟨hst.restored.then r, fun k => (hst.buf k).trans_eq (v k).1.symm, hst.bufSO, o2⟩,
    fun x => (a2 x).congr fun p p' _ _ => blockAt_if ..⟩
  unfold ftnGradSemilocal
  rw [hr, Outcome.ok_bind, ef, Outcome.ok_bind, e2, Outcome.ok_bind]

theorem ftnGradSO_spec (h : GradAtom lib sf good h0 n dim io jo ip a b C D e) {junk : Option (Nat → ℝ)} (hj : good junk) {i : Nat}
    (hL : i < e.numArep - 1) {st : FGradState} (hst : st.Ok h0 n dim) :
    GradStep h0 n dim io jo (cartSize a.L) (cartSize b.L) ip
      (ftnGradSO lib sf junk dim io jo (cartSize a.L) (cartSize b.L) ip a b C D e (i + 1) st) st fun q k =>
        Fin.cases (fun _ _ => 0) (fun j => gradVal lib sf (a.shell lib.gen) (b.shell lib.gen)
          (⟨none, [], [((e.row (i + 1)).pot (e.row (i + 1)).esop).pot (i + 1 : ℕ) 0], []⟩, C) D j.succ k) q := by
  have hr := row_get h.ecp (L := i + 1) (by omega)
  have hp := h.ecp.pots (i + 1) (by omega)
  have hmem : ((e.row (i + 1)).pot (e.row (i + 1)).esop).pot (i + 1 : ℕ) 0 ∈ (e.data lib.gen).esop := List.mem_map.2 ⟨i, List.mem_range.2 hL, rfl⟩
  obtain ⟨h', g, r, ef, v⟩ := ftnSpinOrbitGradient_spec (hst.restored.wf' h.wf) h.okA h.okB (u := (e.row (i + 1)).pot (e.row (i + 1)).esop)
    hp.powers hp.esop hp.alpha (i + 1) (h.fills junk hj ⟨none, [], [((e.row (i + 1)).pot (e.row (i + 1)).esop).pot (i + 1 : ℕ) 0], []⟩
      (List.mem_append_right _ (List.mem_map.2 ⟨_, hmem, rfl⟩))) st.bufSO fun k => h.fit.trans (hst.bufSO k)
  have hne : (2 * ((i + 1 : ℕ) : ℝ) + 1) ≠ 0 := by positivity
  obtain ⟨out', e2, o2, a2⟩ := updateSOGrad_spec h.row h.col hst.out h.point (b := fun qk => scaleBuf (i + 1) (g qk))
    (g := fun q k => gradVal lib sf (a.shell lib.gen) (b.shell lib.gen)
          (⟨none, [], [((e.row (i + 1)).pot (e.row (i + 1)).esop).pot (i + 1 : ℕ) 0], []⟩, C) D q.succ k) (fun q k m n' hm hn => by
      rw [matIs_scale (v q k).2 (i + 1) m n' hm hn]
      congr 1
      field_simp)
  refine ⟨⟨h', st.buf, fun qk => scaleBuf (i + 1) (g qk), out'⟩, ?_, ⟨hst.restored.then r, hst.buf, fun qk => ?_, o2⟩,
    fun x => (a2 x).congr fun p p' _ _ => blockAt_if ..⟩
  · unfold ftnGradSO
    rw [hr, Outcome.ok_bind, ef, Outcome.ok_bind, e2, Outcome.ok_bind]
  · have : (scaleBuf (i + 1) (g qk)).length = (g qk).length := by simp [scaleBuf]
    rw [this]
    exact (hst.bufSO qk).trans_eq (v qk.1 qk.2).1.symm

/-- What one pseudopotential contributes. -/
noncomputable def gradBlock (lib : Lib G) (sf : SpecFun) (A B : Shell) (g : GrppData) (C D : Point) (q : Fin 4) (k : Fin 3) (m n : ℕ) : ℝ :=
  Fin.cases (gradVal lib sf A B (⟨g.local_, [], [], []⟩, C) D 0 k m n + (g.arep.map fun u => gradVal lib sf A B (⟨none, [u], [], []⟩, C) D 0 k m n).sum)
    (fun j => (g.esop.map fun u => gradVal lib sf A B (⟨none, [], [u], []⟩, C) D j.succ k m n).sum) q

theorem ftnGradAtom_spec (h : GradAtom lib sf good h0 n dim io jo ip a b C D e) {junk : FGradCall → Nat → Option (Nat → ℝ)} (hj : ∀ c i, good (junk c i))
    {st : FGradState} (hst : st.Ok h0 n dim) :
    GradStep h0 n dim io jo (cartSize a.L) (cartSize b.L) ip
      (ftnGradAtom lib sf junk dim io jo (cartSize a.L) (cartSize b.L) ip a b C D e st) st
        (gradBlock lib sf (a.shell lib.gen) (b.shell lib.gen) (e.data lib.gen) C D) := by
  have h1 := ((ftnGradLocal_spec h (hj .loc 0) hst).bind fun st1 h1 =>
    (gradStep_forRange (e.numArep - 1) (fun i hi st hs => ftnGradSemilocal_spec h (hj .semilocal i) hi hs) h1).bind fun st2 h2 =>
      gradStep_forRange (e.numArep - 1) (fun i hi st hs => ftnGradSO_spec h (hj .so (i + 1)) hi hs) h2)
  refine h1.congr fun q k m n => ?_
  unfold gradBlock
  refine Fin.cases ?_ (fun j => ?_) q
  · simp only [Fin.cases_zero, Finset.sum_const_zero, add_zero]
    congr 1
    simp only [FEcp.data, List.map_map]
    rfl
  · simp only [Fin.cases_succ, Finset.sum_const_zero, zero_add]
    simp only [FEcp.data, List.map_map]
    rfl

end

/-! ## The loops -/

section
variable {G : Type} {lib : Lib G} {sf : SpecFun} {good : Option (Nat → ℝ) → Prop} {h0 : Store} {n dim io jo : Nat} {a b : FShell} {mol : FMol}

/-- The situation for a pair of shells. -/
structure GradPair (lib : Lib G) (sf : SpecFun) (good : Option (Nat → ℝ) → Prop) (mol : FMol) (h0 : Store) (dim io jo : Nat) (a b : FShell) : Prop where
  okM : mol.Ok
  ecp : mol.EcpOk
  wf : h0.WF
  okA : a.Ok
  okB : b.Ok
  fit : cartSize a.L * cartSize b.L ≤ maxBuf
  row : io + cartSize a.L ≤ dim
  col : jo + cartSize b.L ≤ dim
  fills : ∀ junk, good junk → ∀ D, (∃ c ∈ mol.atoms, D = c.2) → ∀ o ∈ moleculeGrpps mol.atoms (mol.grpps lib.gen),
    ∀ g ∈ localPart o.1 ++ arepParts o.1 ++ esopParts o.1,
    GradFills lib.gen junk (libFull lib sf g o.2) (a.shell lib.gen) (b.shell lib.gen) o.2 D (gradVal lib sf (a.shell lib.gen) (b.shell lib.gen) (g, o.2) D)

theorem ftnGradPass_spec (h : GradPair lib sf good mol h0 dim io jo a b) {junk : FGradCall → Nat → Option (Nat → ℝ)} (hj : ∀ c i, good (junk c i))
    (d : Nat × Point) {ip ic : Nat} (hip : ip < mol.charges.length) (hic : ic < mol.charges.length) {st : FGradState}
    (hst : st.Ok h0 mol.charges.length dim) :
    GradStep h0 mol.charges.length dim io jo (cartSize a.L) (cartSize b.L) ip
      (ftnGradPass lib sf junk mol dim io jo (cartSize a.L) (cartSize b.L) ip a b ic st) st fun q k m n =>
        ((mol.grpps lib.gen).getD (mol.atoms.getD ic d).1 none).elim 0 fun g =>
          gradBlock lib sf (a.shell lib.gen) (b.shell lib.gen) g (mol.atoms.getD ic d).2 (mol.atoms.getD ip d).2 q k m n := by
  have hz := List.getElem_mem hic
  have hc : ic < mol.coord.length := by rw [h.okM.coord]; exact hic
  have hc' : ip < mol.coord.length := by rw [h.okM.coord]; exact hip
  obtain ⟨hr, hlt, hg⟩ := grpps_get h.okM lib.gen hz
  have hat : mol.atoms.getD ic d = (mol.charges[ic], mol.coord[ic]) := by simp [FMol.atoms, List.getD, hic, hc]
  have hat' : mol.atoms.getD ip d = (mol.charges[ip], mol.coord[ip]) := by simp [FMol.atoms, List.getD, hip, hc']
  have mem : ∀ i, (hi : i < mol.charges.length) → (hi' : i < mol.coord.length) → (mol.charges[i], mol.coord[i]) ∈ mol.atoms := fun i hi hi' => by
    refine List.mem_iff_getElem?.2 ⟨i, ?_⟩
    unfold FMol.atoms
    rw [List.getElem?_zip_eq_some]
    exact ⟨List.getElem?_eq_getElem hi, List.getElem?_eq_getElem hi'⟩
  unfold ftnGradPass
  rw [rd_ok hic, Outcome.ok_bind, hr, Outcome.ok_bind, hat, hat']
  simp only [hg]
  by_cases hn : (mol.ecpOf mol.charges[ic]).numArep = 0
  · rw [if_pos hn, if_pos hn]
    exact ⟨st, rfl, hst, fun x => (Added.refl _ _).congr fun p p' _ _ => by
      simp only [Option.elim, ite_self]
      exact (blockAt_zero ..).symm⟩
  · rw [if_neg hn, if_neg hn, rd_ok hc, Outcome.ok_bind, rd_ok hc', Outcome.ok_bind]
    have hmem : ((mol.ecpOf mol.charges[ic]).data lib.gen, mol.coord[ic]) ∈ moleculeGrpps mol.atoms (mol.grpps lib.gen) := by
      refine moleculeGrpps_mem (a := (mol.charges[ic], mol.coord[ic])) (mem ic hic hc) ?_
      rw [if_neg hn] at hg
      rw [List.getElem?_eq_getElem hlt]
      rw [List.getD_eq_getElem _ _ hlt] at hg
      exact congrArg some hg
    exact ftnGradAtom_spec ⟨h.wf, h.okA, h.okB, h.fit, h.row, h.col, h.ecp _ hz hn, Nat.pos_of_ne_zero hn, hip,
      fun junk hj g hg => h.fills junk hj _ ⟨_, mem ip hip hc', rfl⟩ _ hmem g hg⟩ hj hst

/-- The loops over the points and the atoms for a pair of shells. -/
theorem ftnGradPasses_spec (h : GradPair lib sf good mol h0 dim io jo a b) {junk : Nat → Nat → FGradCall → Nat → Option (Nat → ℝ)}
    (hj : ∀ ip ic c i, good (junk ip ic c i)) (d : Nat × Point) {st : FGradState} (hst : st.Ok h0 mol.charges.length dim) :
    ∃ st', (forRange mol.charges.length st fun ip st => forRange mol.charges.length st fun ic st =>
        ftnGradPass lib sf (junk ip ic) mol dim io jo (cartSize a.L) (cartSize b.L) ip a b ic st) = .ok st' ∧ st'.Ok h0 mol.charges.length dim ∧
      ∀ x : Fin 4 × Nat × Fin 3, Added dim (blockAt io jo (cartSize a.L) (cartSize b.L) fun m k => if x.2.1 < mol.charges.length then
        ((moleculeGrpps mol.atoms (mol.grpps lib.gen)).map fun o : GrppData × Point =>
          gradBlock lib sf (a.shell lib.gen) (b.shell lib.gen) o.1 o.2 (mol.atoms.getD x.2.1 d).2 x.1 x.2.2 m k).sum else 0)
        (gradView x st.out) (gradView x st'.out) := by
  have hl : mol.atoms.length = mol.charges.length := by simp [FMol.atoms, h.okM.coord]
  have step : ∀ ip s, ip < mol.charges.length → s.Ok h0 mol.charges.length dim →
      GradStep h0 mol.charges.length dim io jo (cartSize a.L) (cartSize b.L) ip (forRange mol.charges.length s fun ic st =>
        ftnGradPass lib sf (junk ip ic) mol dim io jo (cartSize a.L) (cartSize b.L) ip a b ic st) s
        (fun q k m n => ((moleculeGrpps mol.atoms (mol.grpps lib.gen)).map fun o : GrppData × Point =>
          gradBlock lib sf (a.shell lib.gen) (b.shell lib.gen) o.1 o.2 (mol.atoms.getD ip d).2 q k m n).sum) := by
    intro ip s hip hs
    refine (gradStep_forRange mol.charges.length (fun ic hic st hs => ftnGradPass_spec h (hj ip ic) d hip hic hs) hs).congr fun q k m n => ?_
    rw [moleculeGrpps_sum, ← hl]
    exact sum_range_list mol.atoms d fun x => ((mol.grpps lib.gen).getD x.1 none).elim 0 fun g =>
      gradBlock lib sf (a.shell lib.gen) (b.shell lib.gen) g x.2 (mol.atoms.getD ip d).2 q k m n
  obtain ⟨s', e, o, ad⟩ := added_loop (κ := Fin 4 × Nat × Fin 3) (dim := dim) (n := mol.charges.length)
    (body := fun ip st => forRange mol.charges.length st fun ic st =>
        ftnGradPass lib sf (junk ip ic) mol dim io jo (cartSize a.L) (cartSize b.L) ip a b ic st) (fun _ st => st.Ok h0 mol.charges.length dim)
    (fun x st => gradView x st.out) (fun x ip => blockAt io jo (cartSize a.L) (cartSize b.L) fun m k => if x.2.1 = ip then
        ((moleculeGrpps mol.atoms (mol.grpps lib.gen)).map fun o : GrppData × Point =>
          gradBlock lib sf (a.shell lib.gen) (b.shell lib.gen) o.1 o.2 (mol.atoms.getD ip d).2 x.1 x.2.2 m k).sum else 0) st hst
    step
  refine ⟨s', e, o, fun x => (ad x).congr fun p p' _ _ => ?_⟩
  rw [blockAt_range]
  congr 1
  funext m k
  exact sum_range_if _ _ _

/-- The whole program. -/
theorem ftnGradients_spec (hm : mol.Ok) (he : mol.EcpOk) (hL : ∀ a ∈ mol.shells, a.L ≤ 9) {shells : List Shell}
    (hsh : shells = mol.shells.map (FShell.shell lib.gen))
    (hf : ∀ A ∈ shells, ∀ B ∈ shells, ∀ junk, good junk → ∀ D, (∃ c ∈ mol.atoms, D = c.2) → ∀ o ∈ moleculeGrpps mol.atoms (mol.grpps lib.gen),
      ∀ g ∈ localPart o.1 ++ arepParts o.1 ++ esopParts o.1, GradFills lib.gen junk (libFull lib sf g o.2) A B o.2 D (gradVal lib sf A B (g, o.2) D))
    {junk : Nat → Nat → Nat → Nat → FGradCall → Nat → Option (Nat → ℝ)} (hj : ∀ io jo ip ic c i, good (junk io jo ip ic c i))
    {cl : List Comp} (hcl : cl.length = 100) (hw : h0.WF) (d : Nat × Point) {buf : Fin 3 → List ℝ} {bufSO : Fin 3 × Fin 3 → List ℝ} {out : List Grads}
    (hb : ∀ k, maxBuf ≤ (buf k).length) (hb' : ∀ k, maxBuf ≤ (bufSO k).length) (hlen : out.length = mol.charges.length)
    (hout : ∀ M ∈ out, ∀ qk, (M qk).length = dimOf shells * dimOf shells) :
    ∃ h' out', Restored h0 h' ∧ ftnGradients lib sf junk mol cl (dimOf shells) h0 buf bufSO out = .ok (h', out') ∧ out'.length = out.length ∧
      ∀ (q : Fin 4) (ip : Nat) (k : Fin 3), (h : ip < out'.length) → (out'[ip] (q, k)).length = dimOf shells * dimOf shells ∧
        ∀ i j m n, (hi : i < shells.length) → (hj : j < shells.length) → m < shells[i].cart_size → n < shells[j].cart_size →
          (out'[ip] (q, k))[(shellOff shells i + m) * dimOf shells + (shellOff shells j + n)]? =
            some ((moleculeGrpps mol.atoms (mol.grpps lib.gen)).map fun o : GrppData × Point =>
              gradBlock lib sf shells[i] shells[j] o.1 o.2 (mol.atoms.getD ip d).2 q k m n).sum := by
  have h55 : ∀ a ∈ mol.shells, cartSize a.L ≤ 55 := fun a ha => cartSize_le (hL a ha)
  have hfit : ∀ a ∈ mol.shells, ∀ b ∈ mol.shells, cartSize a.L * cartSize b.L ≤ maxBuf := fun a ha b hb =>
    (Nat.mul_le_mul (h55 a ha) (h55 b hb)).trans (by unfold maxBuf; omega)
  have hcl' : ∀ a ∈ mol.shells, cartSize a.L ≤ cl.length := fun a ha => by have := h55 a ha; omega
  have hmem : ∀ a ∈ mol.shells, a.shell lib.gen ∈ shells := fun a ha => by rw [hsh]; exact List.mem_map_of_mem ha
  have h0s : (⟨h0, buf, bufSO, out.map fun M qk => zeroAll (M qk)⟩ : FGradState).Ok h0 mol.charges.length (dimOf shells) := by
    refine ⟨Restored.self h0, hb, hb', by simpa using hlen, fun M hM qk => ?_⟩
    obtain ⟨M', hM', rfl⟩ := List.mem_map.1 hM
    simp only [zeroAll_length]
    exact (hout M' hM' qk).ge
  generalize hs0 : (⟨h0, buf, bufSO, out.map fun M qk => zeroAll (M qk)⟩ : FGradState) = s0 at h0s
  obtain ⟨s', e, o, ad⟩ := forFPairs_spec (κ := Fin 4 × Nat × Fin 3) hm lib.gen ⟨0, fun _ => 0, 0, [], 0, [], []⟩ (cl := cl) hcl' hsh
    (fun st => st.Ok h0 mol.charges.length (dimOf shells)) (fun x st => gradView x st.out)
    (fun x A B m n => if x.2.1 < mol.charges.length then ((moleculeGrpps mol.atoms (mol.grpps lib.gen)).map fun o : GrppData × Point =>
      gradBlock lib sf A B o.1 o.2 (mol.atoms.getD x.2.1 d).2 x.1 x.2.2 m n).sum else 0) s0 h0s
    (body := fun io jo n1 n2 a b st => forRange mol.charges.length st fun ip st =>
      forRange mol.charges.length st fun ic st => ftnGradPass lib sf (junk io jo ip ic) mol (dimOf shells) io jo n1 n2 ip a b ic st)
    (fun a ha b hb io jo st h1 h2 hst => ftnGradPasses_spec (good := good) ⟨hm, he, hw, hm.shell ha, hm.shell hb, hfit a ha b hb, h1, h2,
      hf _ (hmem a ha) _ (hmem b hb)⟩ (hj io jo) d hst)
  subst hs0
  have hl' : s'.out.length = out.length := o.out.1.trans hlen.symm
  refine ⟨s'.h, s'.out, o.restored, ?_, hl', fun q ip k hip => ?_⟩
  · unfold ftnGradients
    rw [e]
    rfl
  · have hip' : ip < out.length := by omega
    have hlt : ip < mol.charges.length := by omega
    have e1 : gradView (q, ip, k) s'.out = s'.out[ip] (q, k) := by simp [gradView, List.getD, hip]
    have e2 : gradView (q, ip, k) (out.map fun M qk => zeroAll (M qk)) = zeroAll (out[ip] (q, k)) := by simp [gradView, List.getD, hip']
    have := added_zero (M := out[ip] (q, k)) (M' := s'.out[ip] (q, k)) (E := fun A B m n => if ip < mol.charges.length then
        ((moleculeGrpps mol.atoms (mol.grpps lib.gen)).map fun o : GrppData × Point => gradBlock lib sf A B o.1 o.2 (mol.atoms.getD ip d).2 q k m n).sum else 0)
      (hout _ (List.getElem_mem hip') _) (by rw [← e1, ← e2]; exact ad (q, ip, k))
    simp only [hlt, if_true] at this
    exact this

end

/-! ## Undefined cases -/

/-- If the body always returns or is undefined, and is undefined for one pair of shells, the loops are undefined. -/
theorem forFPairs_undefined {σ : Type} {mol : FMol} (hm : mol.Ok) {shells : List Shell} {gen : Nat → List Comp}
    (hsh : shells = mol.shells.map (FShell.shell gen)) {cl : List Comp} (hcl : ∀ a ∈ mol.shells, cartSize a.L ≤ cl.length)
    {body : Nat → Nat → Nat → Nat → FShell → FShell → σ → Outcome σ} (I : σ → Prop) (s : σ) (h0 : I s)
    (hstep : ∀ a ∈ mol.shells, ∀ b ∈ mol.shells, ∀ io jo s, io + cartSize a.L ≤ dimOf shells → jo + cartSize b.L ≤ dimOf shells → I s →
      OkUb I (body io jo (cartSize a.L) (cartSize b.L) a b s)) {a b : FShell} (ha : a ∈ mol.shells) (hb : b ∈ mol.shells)
    (hub : ∀ io jo s, io + cartSize a.L ≤ dimOf shells → jo + cartSize b.L ≤ dimOf shells → I s →
      body io jo (cartSize a.L) (cartSize b.L) a b s = .ub) : forFPairs mol cl s body = .ub := by
  have hlen : shells.length = mol.shells.length := by simp [hsh]
  have gs : ∀ a, (h : a < mol.shells.length) → (h' : a < shells.length) → shells[a] = (mol.shells[a]).shell gen := fun a h h' => by simp [hsh]
  have succ : ∀ a, (h : a < mol.shells.length) → shellOff shells (a + 1) = shellOff shells a + cartSize (mol.shells[a]).L := fun a h => by
    rw [shellOff_succ shells a (by omega), gs a h (by omega)]; rfl
  have add_le : ∀ a, (h : a < mol.shells.length) → shellOff shells a + cartSize (mol.shells[a]).L ≤ dimOf shells := fun a h => by
    have := shellOff_add_le shells a (by omega)
    rwa [gs a h (by omega)] at this
  obtain ⟨ka, hka, rfl⟩ := List.mem_iff_getElem.1 ha
  obtain ⟨kb, hkb, rfl⟩ := List.mem_iff_getElem.1 hb
  have inner : ∀ i (hi : i < mol.shells.length) (o : Nat) (s : σ), o = shellOff shells i → I s →
      let x := forFShells mol ((0 : Nat), s) fun b st2 => do
        let c2 ← generateCartesians b.L cl
        let s ← body o st2.1 (cartSize (mol.shells[i]).L) c2.2 (mol.shells[i]) b st2.2
        Outcome.ok (st2.1 + c2.2, s)
      OkUb (fun st : Nat × σ => I st.2) x ∧ (i = ka → x = .ub) := by
    intro i hi o s ho hI
    rw [forFShells_eq hm]
    rw [← forRange_list mol.shells (fun j (st2 : Nat × σ) => do
        let b ← rd mol.shells j
        let c2 ← generateCartesians b.L cl
        let s ← body o st2.1 (cartSize (mol.shells[i]).L) c2.2 (mol.shells[i]) b st2.2
        Outcome.ok (st2.1 + c2.2, s)) (fun b (st2 : Nat × σ) => do
        let c2 ← generateCartesians b.L cl
        let s ← body o st2.1 (cartSize (mol.shells[i]).L) c2.2 (mol.shells[i]) b st2.2
        Outcome.ok (st2.1 + c2.2, s)) (fun j hj st => by rw [rd_ok hj, Outcome.ok_bind]) ((0 : Nat), s)]
    have := forRange_okUb (n := mol.shells.length) (s := ((0 : Nat), s)) (body := fun j (st2 : Nat × σ) => do
        let b ← rd mol.shells j
        let c2 ← generateCartesians b.L cl
        let s ← body o st2.1 (cartSize (mol.shells[i]).L) c2.2 (mol.shells[i]) b st2.2
        Outcome.ok (st2.1 + c2.2, s)) (fun j st => st.1 = shellOff shells j ∧ I st.2) ⟨by simp [shellOff], hI⟩ (fun j st hj hst => by
      rw [rd_ok hj, Outcome.ok_bind, generateCartesians_spec _ _ (hcl _ (List.getElem_mem hj)), Outcome.ok_bind]
      refine (hstep _ (List.getElem_mem hi) _ (List.getElem_mem hj) o st.1 st.2 (by rw [ho]; exact add_le i hi) (by rw [hst.1]; exact add_le j hj) hst.2).bind
        fun s' hs' => Or.inl ⟨_, rfl, ?_, hs'⟩
      rw [succ j hj, ← hst.1])
    refine ⟨?_, fun e => ?_⟩
    · rcases this.1 with ⟨st, e, h⟩ | e
      · exact Or.inl ⟨st, e, h.2⟩
      · exact Or.inr e
    · refine this.2 kb hkb fun st hst => ?_
      subst e
      rw [rd_ok hkb, Outcome.ok_bind, generateCartesians_spec _ _ (hcl _ (List.getElem_mem hkb)), Outcome.ok_bind]
      simp only [hub o st.1 st.2 (by rw [ho]; exact add_le i hi) (by rw [hst.1]; exact add_le kb hkb) hst.2]
      rfl
  unfold forFPairs
  rw [forFShells_eq hm]
  rw [← forRange_list mol.shells (fun i st => do
    let a ← rd mol.shells i
    let c1 ← generateCartesians a.L cl
    let r ← forFShells mol ((0 : Nat), st.2) fun b st2 => do
      let c2 ← generateCartesians b.L cl
      let s ← body st.1 st2.1 c1.2 c2.2 a b st2.2
      Outcome.ok (st2.1 + c2.2, s)
    Outcome.ok (st.1 + c1.2, r.2)) (fun a st => do
    let c1 ← generateCartesians a.L cl
    let r ← forFShells mol ((0 : Nat), st.2) fun b st2 => do
      let c2 ← generateCartesians b.L cl
      let s ← body st.1 st2.1 c1.2 c2.2 a b st2.2
      Outcome.ok (st2.1 + c2.2, s)
    Outcome.ok (st.1 + c1.2, r.2)) (fun i hi st => by rw [rd_ok hi, Outcome.ok_bind]) ((0 : Nat), s)]
  have outer := forRange_okUb (n := mol.shells.length) (s := ((0 : Nat), s)) (body := fun i (st : Nat × σ) => do
    let a ← rd mol.shells i
    let c1 ← generateCartesians a.L cl
    let r ← forFShells mol ((0 : Nat), st.2) fun b st2 => do
      let c2 ← generateCartesians b.L cl
      let s ← body st.1 st2.1 c1.2 c2.2 a b st2.2
      Outcome.ok (st2.1 + c2.2, s)
    Outcome.ok (st.1 + c1.2, r.2)) (fun i st => st.1 = shellOff shells i ∧ I st.2) ⟨by simp [shellOff], h0⟩ (fun i st hi hst => by
      rw [rd_ok hi, Outcome.ok_bind, generateCartesians_spec _ _ (hcl _ (List.getElem_mem hi)), Outcome.ok_bind]
      refine (inner i hi st.1 st.2 hst.1 hst.2).1.bind fun r hr => Or.inl ⟨_, rfl, ?_, hr⟩
      rw [succ i hi, ← hst.1])
  have := outer.2 ka hka fun st hst => by
    rw [rd_ok hka, Outcome.ok_bind, generateCartesians_spec _ _ (hcl _ (List.getElem_mem hka)), Outcome.ok_bind]
    have := (inner ka hka st.1 st.2 hst.1 hst.2).2 rfl
    rw [this]
    rfl
  rw [this]
  rfl

section
variable {G : Type} {lib : Lib G} {sf : SpecFun} {good : Option (Nat → ℝ) → Prop} {h0 : Store} {n dim io jo ip : Nat} {a b : FShell} {C D : Point} {e : FEcp}

theorem ftnGradAtom_okUb (h : GradAtom lib sf good h0 n dim io jo ip a b C D e)
    (hr : ∀ g ∈ localPart (e.data lib.gen) ++ arepParts (e.data lib.gen) ++ esopParts (e.data lib.gen),
      ∃ junk, GradRuns lib.gen (libFull lib sf g C) (a.shell lib.gen) (b.shell lib.gen) junk) {st : FGradState} (hst : st.Ok h0 n dim) :
    OkUb (FGradState.Ok h0 n dim) (ftnGradAtom lib sf (fun _ _ => none) dim io jo (cartSize a.L) (cartSize b.L) ip a b C D e st) := by
  have hfit : (a.shell lib.gen).cart_size * (b.shell lib.gen).cart_size ≤ maxBuf := h.fit
  refine OkUb.bind (P := FGradState.Ok h0 n dim) ?_ fun st hst => OkUb.bind (P := FGradState.Ok h0 n dim) ?_ fun st hst => ?_
  · have hr1 : rd1 e.rows e.numArep = .ok (e.row (e.numArep - 1)) := by
      unfold rd1
      rw [if_neg (by have := h.pos; omega)]
      exact row_get h.ecp (by have := h.pos; omega)
    have hp := h.ecp.pots (e.numArep - 1) (by have := h.pos; omega)
    obtain ⟨junk, runs⟩ := hr ⟨(e.data lib.gen).local_, [], [], []⟩ (by simp [localPart])
    unfold ftnGradLocal
    rw [hr1, Outcome.ok_bind]
    refine ((ftnType1Gradient_eq (hst.restored.wf' h.wf) h.okA h.okB (u := (e.row (e.numArep - 1)).pot (e.row (e.numArep - 1)).arep)
      hp.powers hp.arep hp.alpha st.buf).okUb (scalarTermGradient_okUb_long runs C D hfit st.buf hst.buf)).bind fun c hc => ?_
    obtain ⟨out', e2, o2, a2⟩ := updateArepGrad_spec h.row h.col hst.out h.point (fun k => MatIs.of_length (h.fit.trans (hc.2 k)))
    rw [e2, Outcome.ok_bind]
    exact Or.inl ⟨_, rfl, hst.restored.then hc.1, hc.2, hst.bufSO, o2⟩
  · refine (forRange_okUb (fun _ => FGradState.Ok h0 n dim) hst fun L st hL hst => ?_).1
    have hr1 := row_get h.ecp (L := L) (by omega)
    have hp := h.ecp.pots L (by omega)
    have hmem : ((e.row L).pot (e.row L).arep).pot L 0 ∈ (e.data lib.gen).arep := List.mem_map.2 ⟨L, List.mem_range.2 hL, rfl⟩
    obtain ⟨junk, runs⟩ := hr ⟨none, [((e.row L).pot (e.row L).arep).pot L 0], [], []⟩
      (List.mem_append_left _ (List.mem_append_right _ (List.mem_map.2 ⟨_, hmem, rfl⟩)))
    unfold ftnGradSemilocal
    rw [hr1, Outcome.ok_bind]
    refine ((ftnType2Gradient_eq (hst.restored.wf' h.wf) h.okA h.okB (u := (e.row L).pot (e.row L).arep)
      hp.powers hp.arep hp.alpha L st.buf).okUb (scalarTermGradient_okUb_long runs C D hfit st.buf hst.buf)).bind fun c hc => ?_
    obtain ⟨out', e2, o2, a2⟩ := updateArepGrad_spec h.row h.col hst.out h.point (fun k => MatIs.of_length (h.fit.trans (hc.2 k)))
    rw [e2, Outcome.ok_bind]
    exact Or.inl ⟨_, rfl, hst.restored.then hc.1, hc.2, hst.bufSO, o2⟩
  · refine (forRange_okUb (fun _ => FGradState.Ok h0 n dim) hst fun i st hL hst => ?_).1
    have hr1 := row_get h.ecp (L := i + 1) (by omega)
    have hp := h.ecp.pots (i + 1) (by omega)
    have hmem : ((e.row (i + 1)).pot (e.row (i + 1)).esop).pot (i + 1 : ℕ) 0 ∈ (e.data lib.gen).esop := List.mem_map.2 ⟨i, List.mem_range.2 hL, rfl⟩
    obtain ⟨junk, runs⟩ := hr ⟨none, [], [((e.row (i + 1)).pot (e.row (i + 1)).esop).pot (i + 1 : ℕ) 0], []⟩
      (List.mem_append_right _ (List.mem_map.2 ⟨_, hmem, rfl⟩))
    unfold ftnGradSO
    rw [hr1, Outcome.ok_bind]
    refine ((ftnSpinOrbitGradient_eq (hst.restored.wf' h.wf) h.okA h.okB (u := (e.row (i + 1)).pot (e.row (i + 1)).esop)
      hp.powers hp.esop hp.alpha (i + 1) st.bufSO).okUb (soTermGradient_okUb_long runs C D _ hfit st.bufSO hst.bufSO)).bind fun c hc => ?_
    have hlen : ∀ qk, maxBuf ≤ (scaleBuf (i + 1) (c.2 qk)).length := fun qk => by
      have : (scaleBuf (i + 1) (c.2 qk)).length = (c.2 qk).length := by simp [scaleBuf]
      rw [this]
      exact hc.2 qk
    obtain ⟨out', e2, o2, a2⟩ := updateSOGrad_spec h.row h.col hst.out h.point (b := fun qk => scaleBuf (i + 1) (c.2 qk))
      (fun q k => MatIs.of_length (h.fit.trans (hlen (q, k))))
    rw [e2, Outcome.ok_bind]
    exact Or.inl ⟨_, rfl, hst.restored.then hc.1, hst.buf, hlen, o2⟩

/-- The first call for an atom has no defined result. -/
theorem ftnGradAtom_ub (h : GradAtom lib sf good h0 n dim io jo ip a b C D e)
    (hu : ∀ G : Grads, (∀ q, cartSize a.L * cartSize b.L ≤ (G q).length) → grppGradient lib.gen none
      (libFull lib sf ⟨(e.data lib.gen).local_, [], [], []⟩ C) (a.shell lib.gen) (b.shell lib.gen) C D G = .ub) {st : FGradState} (hst : st.Ok h0 n dim) :
    ftnGradAtom lib sf (fun _ _ => none) dim io jo (cartSize a.L) (cartSize b.L) ip a b C D e st = .ub := by
  have hr1 : rd1 e.rows e.numArep = .ok (e.row (e.numArep - 1)) := by
    unfold rd1
    rw [if_neg (by have := h.pos; omega)]
    exact row_get h.ecp (by have := h.pos; omega)
  have hp := h.ecp.pots (e.numArep - 1) (by have := h.pos; omega)
  unfold ftnGradAtom ftnGradLocal
  rw [hr1, Outcome.ok_bind, (ftnType1Gradient_eq (hst.restored.wf' h.wf) h.okA h.okB (u := (e.row (e.numArep - 1)).pot (e.row (e.numArep - 1)).arep)
      hp.powers hp.arep hp.alpha st.buf).ub]
  · rfl
  · unfold scalarTermGradient
    erw [hu]
    · rfl
    · intro q
      split_ifs
      · exact h.fit.trans (hst.buf _)
      · exact List.length_replicate.ge

end

section
variable {G : Type} {lib : Lib G} {sf : SpecFun} {good : Option (Nat → ℝ) → Prop} {h0 : Store} {dim io jo : Nat} {a b : FShell} {mol : FMol}

theorem ftnGradPass_okUb (h : GradPair lib sf good mol h0 dim io jo a b)
    (hr : ∀ o ∈ moleculeGrpps mol.atoms (mol.grpps lib.gen), ∀ g ∈ localPart o.1 ++ arepParts o.1 ++ esopParts o.1,
      ∃ junk, GradRuns lib.gen (libFull lib sf g o.2) (a.shell lib.gen) (b.shell lib.gen) junk)
    {ip ic : Nat} (hip : ip < mol.charges.length) (hic : ic < mol.charges.length) {st : FGradState} (hst : st.Ok h0 mol.charges.length dim) :
    OkUb (FGradState.Ok h0 mol.charges.length dim)
      (ftnGradPass lib sf (fun _ _ => none) mol dim io jo (cartSize a.L) (cartSize b.L) ip a b ic st) ∧
    ((mol.ecpOf mol.charges[ic]).numArep ≠ 0 → (∀ G : Grads, (∀ q, cartSize a.L * cartSize b.L ≤ (G q).length) → grppGradient lib.gen none
      (libFull lib sf ⟨((mol.ecpOf mol.charges[ic]).data lib.gen).local_, [], [], []⟩ (mol.coord[ic]'(by rw [h.okM.coord]; exact hic))) (a.shell lib.gen)
        (b.shell lib.gen) (mol.coord[ic]'(by rw [h.okM.coord]; exact hic)) (mol.coord[ip]'(by rw [h.okM.coord]; exact hip)) G = .ub) →
      ftnGradPass lib sf (fun _ _ => none) mol dim io jo (cartSize a.L) (cartSize b.L) ip a b ic st = .ub) := by
  have hz := List.getElem_mem hic
  have hc : ic < mol.coord.length := by rw [h.okM.coord]; exact hic
  have hc' : ip < mol.coord.length := by rw [h.okM.coord]; exact hip
  obtain ⟨hr1, hlt, hg⟩ := grpps_get h.okM lib.gen hz
  have mem : ∀ i, (hi : i < mol.charges.length) → (hi' : i < mol.coord.length) → (mol.charges[i], mol.coord[i]) ∈ mol.atoms := fun i hi hi' => by
    refine List.mem_iff_getElem?.2 ⟨i, ?_⟩
    unfold FMol.atoms
    rw [List.getElem?_zip_eq_some]
    exact ⟨List.getElem?_eq_getElem hi, List.getElem?_eq_getElem hi'⟩
  unfold ftnGradPass
  rw [rd_ok hic, Outcome.ok_bind, hr1, Outcome.ok_bind]
  by_cases hn : (mol.ecpOf mol.charges[ic]).numArep = 0
  · rw [if_pos hn]
    exact ⟨Or.inl ⟨st, rfl, hst⟩, fun h => absurd hn h⟩
  · rw [if_neg hn, rd_ok hc, Outcome.ok_bind, rd_ok hc', Outcome.ok_bind]
    have hmem : ((mol.ecpOf mol.charges[ic]).data lib.gen, mol.coord[ic]) ∈ moleculeGrpps mol.atoms (mol.grpps lib.gen) := by
      refine moleculeGrpps_mem (a := (mol.charges[ic], mol.coord[ic])) (mem ic hic hc) ?_
      rw [if_neg hn] at hg
      rw [List.getElem?_eq_getElem hlt]
      rw [List.getD_eq_getElem _ _ hlt] at hg
      exact congrArg some hg
    have hA : GradAtom lib sf good h0 mol.charges.length dim io jo ip a b mol.coord[ic] mol.coord[ip] (mol.ecpOf mol.charges[ic]) :=
      ⟨h.wf, h.okA, h.okB, h.fit, h.row, h.col, h.ecp _ hz hn, Nat.pos_of_ne_zero hn, hip,
        fun junk hj g hg => h.fills junk hj _ ⟨_, mem ip hip hc', rfl⟩ _ hmem g hg⟩
    exact ⟨ftnGradAtom_okUb hA (hr _ hmem) hst, fun _ hu => ftnGradAtom_ub hA hu hst⟩

theorem ftnGradients_ub (hm : mol.Ok) (he : mol.EcpOk) (hL : ∀ a ∈ mol.shells, a.L ≤ 9) {shells : List Shell}
    (hsh : shells = mol.shells.map (FShell.shell lib.gen))
    (hr : ∀ A ∈ shells, ∀ B ∈ shells, ∀ o ∈ moleculeGrpps mol.atoms (mol.grpps lib.gen), ∀ g ∈ localPart o.1 ++ arepParts o.1 ++ esopParts o.1,
      ∃ junk, GradRuns lib.gen (libFull lib sf g o.2) A B junk)
    {a : FShell} (ha : a ∈ mol.shells) {ip ic : Nat} (hip : ip < mol.charges.length) (hic : ic < mol.charges.length)
    (hn : (mol.ecpOf mol.charges[ic]).numArep ≠ 0) (hu : ∀ G : Grads, (∀ q, cartSize a.L * cartSize a.L ≤ (G q).length) → grppGradient lib.gen none
      (libFull lib sf ⟨((mol.ecpOf mol.charges[ic]).data lib.gen).local_, [], [], []⟩ (mol.coord[ic]'(by rw [hm.coord]; exact hic))) (a.shell lib.gen)
        (a.shell lib.gen) (mol.coord[ic]'(by rw [hm.coord]; exact hic)) (mol.coord[ip]'(by rw [hm.coord]; exact hip)) G = .ub)
    {cl : List Comp} (hcl : cl.length = 100) (hw : h0.WF) {buf : Fin 3 → List ℝ} {bufSO : Fin 3 × Fin 3 → List ℝ} {out : List Grads}
    (hb : ∀ k, maxBuf ≤ (buf k).length) (hb' : ∀ k, maxBuf ≤ (bufSO k).length) (hlen : out.length = mol.charges.length)
    (hout : ∀ M ∈ out, ∀ qk, (M qk).length = dimOf shells * dimOf shells) :
    ftnGradients lib sf (fun _ _ _ _ _ _ => none) mol cl (dimOf shells) h0 buf bufSO out = .ub := by
  have h55 : ∀ a ∈ mol.shells, cartSize a.L ≤ 55 := fun a ha => cartSize_le (hL a ha)
  have hfit : ∀ a ∈ mol.shells, ∀ b ∈ mol.shells, cartSize a.L * cartSize b.L ≤ maxBuf := fun a ha b hb =>
    (Nat.mul_le_mul (h55 a ha) (h55 b hb)).trans (by unfold maxBuf; omega)
  have hcl' : ∀ a ∈ mol.shells, cartSize a.L ≤ cl.length := fun a ha => by have := h55 a ha; omega
  have hmem : ∀ a ∈ mol.shells, a.shell lib.gen ∈ shells := fun a ha => by rw [hsh]; exact List.mem_map_of_mem ha
  have h0s : (⟨h0, buf, bufSO, out.map fun M qk => zeroAll (M qk)⟩ : FGradState).Ok h0 mol.charges.length (dimOf shells) := by
    refine ⟨Restored.self h0, hb, hb', by simpa using hlen, fun M hM qk => ?_⟩
    obtain ⟨M', hM', rfl⟩ := List.mem_map.1 hM
    simp only [zeroAll_length]
    exact (hout M' hM' qk).ge
  have pair : ∀ a ∈ mol.shells, ∀ b ∈ mol.shells, ∀ io jo, io + cartSize a.L ≤ dimOf shells → jo + cartSize b.L ≤ dimOf shells →
      GradPair lib sf (fun _ => False) mol h0 (dimOf shells) io jo a b := fun a ha b hb io jo h1 h2 =>
    ⟨hm, he, hw, hm.shell ha, hm.shell hb, hfit a ha b hb, h1, h2, fun _ h => h.elim⟩
  unfold ftnGradients
  rw [forFPairs_undefined hm hsh hcl' (FGradState.Ok h0 mol.charges.length (dimOf shells)) _ h0s
    (fun a ha b hb io jo s h1 h2 hs => (forRange_okUb (fun _ => FGradState.Ok h0 mol.charges.length (dimOf shells)) hs fun ip s hip hs =>
      (forRange_okUb (fun _ => FGradState.Ok h0 mol.charges.length (dimOf shells)) hs fun ic s hic hs =>
        (ftnGradPass_okUb (pair a ha b hb io jo h1 h2) (hr _ (hmem a ha) _ (hmem b hb)) hip hic hs).1).1).1) ha ha
    fun io jo s h1 h2 hs => ?_]
  · rfl
  · refine (forRange_okUb (fun _ => FGradState.Ok h0 mol.charges.length (dimOf shells)) hs fun ip s hip hs =>
      (forRange_okUb (fun _ => FGradState.Ok h0 mol.charges.length (dimOf shells)) hs fun ic s hic hs =>
        (ftnGradPass_okUb (pair a ha a ha io jo h1 h2) (hr _ (hmem a ha) _ (hmem a ha)) hip hic hs).1).1).2 ip hip fun s hs => ?_
    exact (forRange_okUb (fun _ => FGradState.Ok h0 mol.charges.length (dimOf shells)) hs fun ic s hic hs =>
        (ftnGradPass_okUb (pair a ha a ha io jo h1 h2) (hr _ (hmem a ha) _ (hmem a ha)) hip hic hs).1).2 ic hic fun s hs =>
      (ftnGradPass_okUb (pair a ha a ha io jo h1 h2) (hr _ (hmem a ha) _ (hmem a ha)) hip hic hs).2 hn hu

end

/-! ## Values -/

theorem GradReturns.unique {gen : Nat → List Comp} {junk : Option (Nat → ℝ)} {full : FullRoutine} {A B : Shell} {C D : Point}
    {W W' : Fin 4 → Fin 3 → Nat → Nat → ℝ} (h : GradReturns gen junk full A B C D W) (h' : GradReturns gen junk full A B C D W') (q : Fin 4) (k : Fin 3)
    {m n : Nat} (hm : m < A.cart_size) (hn : n < B.cart_size) : W q k m n = W' q k m n := by
  obtain ⟨g, e, v⟩ := h
  obtain ⟨g', e', v'⟩ := h'
  obtain rfl : g = g' := Outcome.ok.inj (e.symm.trans e')
  exact Option.some.inj ((v q k m n hm hn).symm.trans (v' q k m n hm hn))

theorem IsGradient.congr {G : Type} {lib : Lib G} {shells : List Shell} {atoms : List (Nat × Point)} {ops : List (GrppData × Point)}
    {V V' : Fin 4 → ℕ → Fin 3 → ℕ → ℕ → ℝ} (h : IsGradient lib shells atoms ops V)
    (e : ∀ x a k p q, a < atoms.length → p < (basisComps shells).length → q < (basisComps shells).length → V x a k p q = V' x a k p q) :
    IsGradient lib shells atoms ops V' := by
  obtain ⟨⟨Qb, Qk, h1, h2⟩, h3⟩ := h
  refine ⟨⟨Qb, Qk, h1, fun a c D ha x k p q A m B n hp hq => ?_⟩, fun hn x k p q hp hq => ?_⟩
  · rw [← e x a k p q (List.getElem?_eq_some_iff.1 ha).1 (List.getElem?_eq_some_iff.1 hp).1 (List.getElem?_eq_some_iff.1 hq).1]
    exact h2 a c D ha x k p q A m B n hp hq
  · rw [← h3 hn x k p q hp hq]
    exact Finset.sum_congr rfl fun a ha => (e x a k p q (Finset.mem_range.1 ha) hp hq).symm

section
variable {G : Type} (lib : Lib G) (hi : lib.init = true) (hbt : BesselOk lib.bt) (ho : DocumentedOrder lib.gen) {eps : ℝ}
  {sf : SpecFun} (hs : LibSpec eps sf)
include hi hbt ho hs

/-- `gradient_values` for the values named `gradVal`. -/
theorem gradVal_isGradient {shells : List Shell} {atoms : List (Nat × Point)} {ops : List (GrppData × Point)}
    (hin : ∀ A ∈ shells, ∀ B ∈ shells, ∀ o ∈ ops, GradInput lib.gen A B o.2 o.1) (hat : AtomsOk shells atoms) (hon : ∀ o ∈ ops, ∃ a ∈ atoms, o.2 = a.2)
    (d : Shell × Nat) (d' : Nat × Point) :
    IsGradient lib shells atoms ops fun x a k p q => (ops.map fun o => gradVal lib sf ((basisComps shells).getD p d).1 ((basisComps shells).getD q d).1 o
      (atoms.getD a d').2 x k ((basisComps shells).getD p d).2 ((basisComps shells).getD q d).2).sum := by
  obtain ⟨W, hW, hg⟩ := gradient_values lib hi hbt ho hs (sf := sf) hin hat hon d d'
  refine hg.congr fun x a k p q ha hp hq => ?_
  obtain ⟨hA, hm⟩ := basisComps_mem2 (A := ((basisComps shells).getD p d).1) (m := ((basisComps shells).getD p d).2) (getD_of_lt hp d)
  obtain ⟨hB, hn⟩ := basisComps_mem2 (A := ((basisComps shells).getD q d).1) (m := ((basisComps shells).getD q d).2) (getD_of_lt hq d)
  congr 1
  refine List.map_congr_left fun o hm' => ?_
  have hmem : atoms.getD a d' ∈ atoms := by rw [List.getD_eq_getElem _ _ ha]; exact List.getElem_mem ha
  have j : (some fun _ => 0 : Option (Nat → ℝ)) ≠ none ∨ ∀ s ∈ shells, s.L = 0 := Or.inl (by simp)
  exact (hW _ j _ hA _ hB _ hmem _ hm').unique (gradVal_returns lib hi hbt ho hs hin hat hon _ j _ hA _ hB _ hmem _ hm') x k hm hn

theorem gradBlock_eq {A B : Shell} {g : GrppData} {C : Point} (h : GradInput lib.gen A B C g) (D : Point) (x : Fin 4) (k : Fin 3) {m n : ℕ}
    (hm : m < A.cart_size) (hn : n < B.cart_size) :
    gradBlock lib sf A B g C D x k m n = gradVal lib sf A B ({ g with oc := [] }, C) D x k m n ∧
    gradVal lib sf A B (g, C) D x k m n = gradBlock lib sf A B g C D x k m n + gradVal lib sf A B (⟨none, [], [], g.oc⟩, C) D x k m n ∧
    (g.oc = [] → gradVal lib sf A B (⟨none, [], [], g.oc⟩, C) D x k m n = 0) := by
  have z : ∀ {p : GrppData}, PartOf p g → p.oc = [] → (p.local_ = none → p.arep = [] → gradVal lib sf A B (p, C) D 0 k m n = 0) ∧
      (p.esop = [] → ∀ x : Fin 3, gradVal lib sf A B (p, C) D x.succ k m n = 0) := fun hp h4 =>
    gradVal_zero lib hi hbt ho hs (o := (_, C)) (hp.input h).lib h4 D k hm hn
  have zz : ∀ x, gradVal lib sf A B (⟨none, [], [], []⟩, C) D x k m n = 0 := by
    have := z (p := ⟨none, [], [], []⟩) ⟨Or.inl rfl, by simp, by simp, by simp⟩ rfl
    exact fun x => Fin.cases (this.1 rfl rfl) (this.2 rfl) x
  have key : ((localPart g ++ arepParts g ++ esopParts g).map fun p => gradVal lib sf A B (p, C) D x k m n).sum = gradBlock lib sf A B g C D x k m n := by
    simp only [List.map_append, List.sum_append]
    unfold gradBlock
    refine Fin.cases ?_ (fun y => ?_) x
    · have : ((esopParts g).map fun p => gradVal lib sf A B (p, C) D 0 k m n).sum = 0 := by
        refine List.sum_eq_zero fun v hv => ?_
        obtain ⟨p, hp, rfl⟩ := List.mem_map.1 hv
        have hq := esopParts_of g p hp
        obtain ⟨u, -, rfl⟩ := List.mem_map.1 hp
        exact (z hq rfl).1 rfl rfl
      rw [this, add_zero]
      simp [localPart, arepParts, Function.comp_def]
    · have e1 : ((localPart g).map fun p => gradVal lib sf A B (p, C) D y.succ k m n).sum = 0 := by
        refine List.sum_eq_zero fun v hv => ?_
        obtain ⟨p, hp, rfl⟩ := List.mem_map.1 hv
        have hq := localPart_of g p hp
        obtain rfl := List.mem_singleton.1 hp
        exact (z hq rfl).2 rfl y
      have e2 : ((arepParts g).map fun p => gradVal lib sf A B (p, C) D y.succ k m n).sum = 0 := by
        refine List.sum_eq_zero fun v hv => ?_
        obtain ⟨p, hp, rfl⟩ := List.mem_map.1 hv
        have hq := arepParts_of g p hp
        obtain ⟨u, -, rfl⟩ := List.mem_map.1 hp
        exact (z hq rfl).2 rfl y
      rw [e1, e2, zero_add, zero_add]
      simp [esopParts, Function.comp_def]
  have hno : PartOf { g with oc := [] } g := ⟨Or.inr rfl, fun _ h => h, fun _ h => h, by simp⟩
  refine ⟨?_, ?_, fun h4 => by rw [h4]; exact zz x⟩
  · rw [gradVal_parts lib hi hbt ho hs (o := ({ g with oc := [] }, C)) (hno.input h).lib D x k hm hn, allParts, List.map_append, List.sum_append]
    have : ((ocPart { g with oc := [] }).map fun p => gradVal lib sf A B (p, C) D x k m n).sum = 0 := by
      simp only [ocPart, List.map_cons, List.map_nil, List.sum_cons, List.sum_nil, add_zero]
      exact zz x
    simp only [this, add_zero]
    exact key.symm
  · rw [gradVal_parts lib hi hbt ho hs (o := (g, C)) h.lib D x k hm hn, allParts, List.map_append, List.sum_append]
    simp only [key]
    simp [ocPart]

end

end Libgrpp
