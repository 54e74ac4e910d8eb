import Verif.Props.Grpp

/-! # C44: gradients of single terms -/

set_option linter.unusedSimpArgs false

namespace Libgrpp

/-- The full gradient of the GRPP with contents `d`. -/
noncomputable def GradEnv.full (e : GradEnv) (d : GrppData) (G : Grads) : Outcome Grads :=
  grppGradient e.gen e.junk (fun S T M => fullGrpp e.K e.init S T d e.C M) e.A e.B e.C e.D G

/-- The caller's arrays as scalar part, zero-filled stubs for the spin-orbit parts. -/
noncomputable def GradEnv.scalarArrays (e : GradEnv) (grad : Fin 3 → List ℝ) : Grads :=
  fun qk => if qk.1 = 0 then grad qk.2 else e.stub

/-- A zero-filled stub for the scalar part, the caller's arrays as spin-orbit parts. -/
noncomputable def GradEnv.soArrays (e : GradEnv) (grad : Fin 3 × Fin 3 → List ℝ) : Grads :=
  fun qk => Fin.cases e.stub (fun q => grad (q, qk.2)) qk.1

/-- Memory is as before: every object that was alive is alive and unchanged, and every block allocated in between has been
released exactly once. -/
def Restored (h h' : Store) : Prop :=
  h'.mem = h.mem ∧ h'.freed.Perm (List.range' h.next (h'.next - h.next) ++ h.freed) ∧ h.next ≤ h'.next

theorem gradient_of_contents {h : Store} {e : GradEnv} {cs : List GrppCall} {st : Store × GrppObj} (hw : h.WF)
    (t : Tracks h cs [] st) (hf : Fits cs) (d : GrppData) (hd : PointsTo h cs d) (G : Grads) :
    e.gradient st.1 st.2 G = e.full d G := by
  have := t.contents hw hf (by simp) d hd
  unfold GradEnv.gradient GradEnv.full fullObj
  rw [this]
  rfl

theorem Tracks.nil_of_length {h0 : Store} {cs : List GrppCall} {F : List Addr} {st : Store × GrppObj} (t : Tracks h0 cs F st)
    (hl : (addrs (attached cs)).length ≤ (addrs st.2.held).length) : F = [] := by
  have := t.perm.length_eq
  rw [List.length_append] at this
  exact List.length_eq_zero_iff.1 (by omega)

/-- **C44, local term.** For a live or NULL potential: the gradient of the local term is the scalar part of the full gradient
of the GRPP with only this local potential, whatever that returns; afterwards the memory is as before. -/
theorem type1_gradient_is_full (e : GradEnv) (h : Store) (hw : h.WF) (pot : Option Addr) (u : Option Potential)
    (hp : (pot = none ∧ u = none) ∨ ∃ a v, pot = some a ∧ h.mem a = some (.pot v) ∧ u = some v) (grad : Fin 3 → List ℝ) :
    ∃ h', Restored h h' ∧ type1Gradient e h pot grad =
      (do let G ← e.full ⟨u, [], [], []⟩ (e.scalarArrays grad); .ok (h', fun k => G (0, k))) := by
  have hl : LiveArgs h ([] ++ [.setLocal pot]) := by
    intro k a hm
    simp only [attached, List.nil_append, List.flatMap_cons, List.flatMap_nil, GrppCall.args, List.append_nil,
      List.mem_singleton, Prod.mk.injEq] at hm
    obtain ⟨rfl, e1⟩ := hm
    rcases hp with ⟨e2, -⟩ | ⟨b, v, e2, e3, -⟩
    · rw [e2] at e1; cases e1
    · rw [e2] at e1; cases e1; exact ⟨_, e3, rfl⟩
  obtain ⟨st, F, es, t⟩ := (tracks_new h hw).setLocal hw pot (fun a ha => by simp [newGrpp] at ha) hl
  have est : st = ((newGrpp h).1, { (newGrpp h).2 with uL := pot }) := by
    simp only [setLocal, newGrpp, Store.release, Outcome.ok_bind, Outcome.ok.injEq] at es
    rw [← es]; rfl
  obtain rfl : F = [] := t.nil_of_length (by
    rw [est]
    cases pot <;> simp [attached, GrppCall.args, GrppObj.held, newGrpp, addrs])
  have hf : Fits ([] ++ [.setLocal pot]) := ⟨by simp [GrppCall.isArep], by simp [GrppCall.isEsop], by simp [GrppCall.isOc]⟩
  have hs := t.sized hf
  obtain ⟨h', ed, hm, hfr⟩ := delete_own (g := { st.2 with uL := none }) hw t.mem ⟨hs.arep, hs.esop, hs.oc, hs.ocs⟩ (by
    rw [est]; simp [GrppObj.held, newGrpp, addrs, PtrArray.used, GrppObj.ocList])
  refine ⟨h', ⟨hm, hfr⟩, ?_⟩
  have hd : PointsTo h ([] ++ [.setLocal pot]) ⟨u, [], [], []⟩ := by
    refine ⟨?_, .nil, .nil, .nil⟩
    rcases hp with ⟨e2, e3⟩ | ⟨b, v, e2, e3, e4⟩
    · exact .inl ⟨by simp [localArg, e2], e3⟩
    · exact .inr ⟨b, v, by simp [localArg, e2], e3, e4⟩
  unfold type1Gradient
  rw [es]
  simp only [Outcome.ok_bind]
  rw [gradient_of_contents hw t hf _ hd]
  simp only [ed, Outcome.ok_bind]
  rfl

/-- **C44, semilocal term.** -/
theorem type2_gradient_is_full (e : GradEnv) (h : Store) (hw : h.WF) (a : Addr) (u : Potential) (ha : h.mem a = some (.pot u))
    (grad : Fin 3 → List ℝ) :
    ∃ h', Restored h h' ∧ type2Gradient e h (some a) grad =
      (do let G ← e.full ⟨none, [u], [], []⟩ (e.scalarArrays grad); .ok (h', fun k => G (0, k))) := by
  have hf : Fits ([] ++ [.addArep (some a)]) := ⟨by simp [GrppCall.isArep], by simp [GrppCall.isEsop], by simp [GrppCall.isOc]⟩
  obtain ⟨st, es, t⟩ := (tracks_new h hw).addArep (some a) hf
  have hs := t.sized hf
  have hu : st.2.uL = none := by rw [t.localL]; rfl
  have hE : st.2.nEsop = 0 := by rw [t.nEsop]; rfl
  have hO : st.2.nOc = 0 := by rw [t.nOc]; rfl
  obtain ⟨h', ed, hm, hfr⟩ := delete_own (g := { st.2 with nArep := 0 }) hw t.mem ⟨Nat.zero_le _, hs.esop, hs.oc, hs.ocs⟩ (by
    simp [GrppObj.held, addrs, PtrArray.used, GrppObj.ocList, hu, hE, hO])
  refine ⟨h', ⟨hm, hfr⟩, ?_⟩
  have hd : PointsTo h ([] ++ [.addArep (some a)]) ⟨none, [u], [], []⟩ :=
    ⟨.inl ⟨rfl, rfl⟩, .cons ⟨a, rfl, ha⟩ .nil, .nil, .nil⟩
  unfold type2Gradient
  rw [es]
  simp only [Outcome.ok_bind]
  rw [gradient_of_contents hw t hf _ hd]
  simp only [ed, Outcome.ok_bind]
  rfl

/-- **C44, spin-orbit term.** The result is the full gradient of the GRPP with only this spin-orbit potential, followed by
multiplication of the matrices with `(2l+1)/2`; see `so_gradient_value_partial` for the consequence. -/
theorem so_gradient_is_full (e : GradEnv) (h : Store) (hw : h.WF) (a : Addr) (u : Potential) (ha : h.mem a = some (.pot u))
    (grad : Fin 3 × Fin 3 → List ℝ) :
    ∃ h', Restored h h' ∧ soGradient e h (some a) grad =
      (do let G ← e.full ⟨none, [], [u], []⟩ (e.soArrays grad)
          let G ← rescaleSO ((2 * (u.L : ℝ) + 1) / 2) (e.A.cart_size * e.B.cart_size) G
          .ok (h', fun qk => G (qk.1.succ, qk.2))) := by
  have hf : Fits ([] ++ [.addEsop (some a)]) := ⟨by simp [GrppCall.isArep], by simp [GrppCall.isEsop], by simp [GrppCall.isOc]⟩
  obtain ⟨st, es, t⟩ := (tracks_new h hw).addEsop (some a) hf
  have hs := t.sized hf
  have hu : st.2.uL = none := by rw [t.localL]; rfl
  have hA : st.2.nArep = 0 := by rw [t.nArep]; rfl
  have hO : st.2.nOc = 0 := by rw [t.nOc]; rfl
  obtain ⟨h', ed, hm, hfr⟩ := delete_own (g := { st.2 with nEsop := 0 }) hw t.mem ⟨hs.arep, Nat.zero_le _, hs.oc, hs.ocs⟩ (by
    simp [GrppObj.held, addrs, PtrArray.used, GrppObj.ocList, hu, hA, hO])
  refine ⟨h', ⟨hm, hfr⟩, ?_⟩
  have hd : PointsTo h ([] ++ [.addEsop (some a)]) ⟨none, [], [u], []⟩ :=
    ⟨.inl ⟨rfl, rfl⟩, .nil, .cons ⟨a, rfl, ha⟩ .nil, .nil⟩
  have hder : derefPot st.1 (some a) = .ok u := derefPot_old t.mem hw ha (by simp)
  unfold soGradient
  rw [es]
  simp only [Outcome.ok_bind]
  rw [gradient_of_contents hw t hf _ hd]
  simp only [ed, hder, Outcome.ok_bind]
  rfl

theorem tracks_addOcs (h : Store) (hw : h.WF) (ps : List (Option Addr × Option Addr)) (hlen : ps.length ≤ 100) :
    ∃ st, runCalls (ps.map fun p => .addOc p.1 p.2) (newGrpp h) = .ok st ∧
      Tracks h (ps.map fun p => .addOc p.1 p.2) [] st := by
  induction ps using List.reverseRecOn with
  | nil => exact ⟨_, rfl, tracks_new h hw⟩
  | append_singleton ps p ih =>
    obtain ⟨st, e, t⟩ := ih (by simp at hlen; omega)
    have hf : Fits ((ps.map fun p => GrppCall.addOc p.1 p.2) ++ [.addOc p.1 p.2]) := by
      have hz : ∀ f : GrppCall → Bool, (∀ p s, f (.addOc p s) = false) →
          ((ps.map fun p => GrppCall.addOc p.1 p.2) ++ [GrppCall.addOc p.1 p.2]).countP f ≤ 100 := by
        intro f hf
        rw [List.countP_eq_zero.2]
        · norm_num
        · intro c hc
          simp only [List.mem_append, List.mem_map, List.mem_singleton] at hc
          rcases hc with ⟨q, -, rfl⟩ | rfl <;> simp [hf]
      refine ⟨hz _ fun _ _ => rfl, hz _ fun _ _ => rfl, ?_⟩
      refine List.countP_le_length.trans ?_
      simpa using hlen
    obtain ⟨st', e', t'⟩ := t.addOc p.1 p.2 hf
    refine ⟨st', ?_, by simpa using t'⟩
    unfold runCalls at e ⊢
    rw [List.map_append, List.foldlM_append, e]
    simp only [List.map_cons, List.map_nil, List.foldlM_cons, List.foldlM_nil, Outcome.ok_bind, GrppCall.run, e']
    rfl

/-- **C44, outer-core term.** For up to 100 outer-core shells (the same potential or shell may appear several times). -/
theorem oc_gradient_is_full_partial (e : GradEnv) (h : Store) (hw : h.WF) (num : Nat) (pots shells : List (Option Addr))
    (hp : num ≤ pots.length) (hs : num ≤ shells.length) (hnum : num ≤ 100) (us : List (Potential × Shell))
    (hu : List.Forall₂ (fun (p : Option Addr × Option Addr) u => (∃ a, p.1 = some a ∧ h.mem a = some (.pot u.1)) ∧
      ∃ a, p.2 = some a ∧ h.mem a = some (.shell u.2)) ((pots.zip shells).take num) us) (G : Grads) :
    ∃ h', Restored h h' ∧ ocGradient e h num pots shells G =
      (do let G ← e.full ⟨none, [], [], us⟩ G; .ok (h', G)) := by
  set ps := (pots.zip shells).take num with hps
  have hz : num ≤ (pots.zip shells).length := by simp; omega
  have hlen : ps.length ≤ 100 := by rw [hps, List.length_take]; omega
  obtain ⟨st, er, t⟩ := tracks_addOcs h hw ps hlen
  have eloop : (forRange num (newGrpp h) fun i st => do
      let p ← rd pots i
      let s ← rd shells i
      addOc st p s) = .ok st := by
    rw [← er]
    have e1 : (forRange num (newGrpp h) fun i st => do
        let p ← rd pots i
        let s ← rd shells i
        addOc st p s) = (forRange num (newGrpp h) fun i st => do
        let x ← rd (pots.zip shells) i
        addOc st x.1 x.2) := by
      refine forRange_congr _ _ _ (fun i hi l => ?_) _
      have h1 : i < pots.length := by omega
      have h2 : i < shells.length := by omega
      rw [rd_ok h1, rd_ok h2, rd_ok (by omega)]
      simp
    rw [e1, forRange_rd _ (fun (x : Option Addr × Option Addr) (st : Store × GrppObj) => addOc st x.1 x.2) _ hz]
    unfold runCalls
    rw [List.foldlM_map]
    rfl
  have hcnt : ∀ f : GrppCall → Bool, (∀ p s, f (.addOc p s) = false) →
      (ps.map fun p => GrppCall.addOc p.1 p.2).countP f = 0 := by
    intro f hf
    rw [List.countP_eq_zero]
    intro c hc
    obtain ⟨q, -, rfl⟩ := List.mem_map.1 hc
    simp [hf]
  have hf : Fits (ps.map fun p => .addOc p.1 p.2) :=
    ⟨by rw [hcnt _ fun _ _ => rfl]; norm_num, by rw [hcnt _ fun _ _ => rfl]; norm_num,
      List.countP_le_length.trans (by simpa using hlen)⟩
  have hsz := t.sized hf
  have hloc : localArg (ps.map fun p => GrppCall.addOc p.1 p.2) = none := by
    unfold localArg
    rw [List.foldl_map]
    clear_value ps
    clear * -
    induction ps with
    | nil => rfl
    | cons _ _ ih => exact ih
  have hul : st.2.uL = none := by rw [t.localL, hloc]
  have hA : st.2.nArep = 0 := by rw [t.nArep, hcnt _ fun _ _ => rfl]
  have hE : st.2.nEsop = 0 := by rw [t.nEsop, hcnt _ fun _ _ => rfl]
  obtain ⟨h', ed, hm, hfr⟩ := delete_own (g := { st.2 with nOc := 0 }) hw t.mem
    ⟨hsz.arep, hsz.esop, Nat.zero_le _, Nat.zero_le _⟩ (by
    simp [GrppObj.held, addrs, PtrArray.used, GrppObj.ocList, hul, hA, hE])
  refine ⟨h', ⟨hm, hfr⟩, ?_⟩
  have hd : PointsTo h (ps.map fun p => .addOc p.1 p.2) ⟨none, [], [], us⟩ := by
    refine ⟨.inl ⟨hloc, rfl⟩, ?_, ?_, ?_⟩
    · simp [arepArgs, List.filterMap_map, Function.comp_def]
    · simp [esopArgs, List.filterMap_map, Function.comp_def]
    · simpa [ocArgs, List.filterMap_map, Function.comp_def] using hu
  unfold ocGradient
  rw [eloop]
  simp only [Outcome.ok_bind]
  rw [gradient_of_contents hw t hf _ hd]
  simp only [ed, Outcome.ok_bind]

/-- **C44, spin-orbit term, value** (partial: integrals as in C25). If the spin-orbit routine computes the form `J` on the
shells involved (and a GRPP without local and outer-core parts contributes nothing else), the result of the routine is the
gradient of `J` itself, with no factor left over: the weight `2/(2l+1)` is undone exactly. -/
theorem so_gradient_value_partial (e : GradEnv) (hi : e.init = true) (h : Store) (hw : h.WF) (a : Addr) (u : Potential)
    (ha : h.mem a = some (.pot u)) (J : Fin 3 → (Point → ℝ) → (Point → ℝ) → ℝ)
    (hJl : ∀ q f g k (c : ℝ), J q (fun r => f r - c * g r) k = J q f k - c * J q g k)
    (hJr : ∀ q f g k (c : ℝ), J q k (fun r => f r - c * g r) = J q k f - c * J q k g)
    (ho : DocumentedOrder e.gen) (hA : e.A.Made e.gen) (hB : e.B.Made e.gen) (hj : e.junk = none → e.A.L = 0 ∧ e.B.L = 0)
    (hK : ∀ S T : Shell, S.Made e.gen → T.Made e.gen → ∃ t1 t2 so oc, e.K.Computes S T e.C t1 t2 so oc ∧
      (∀ p, t1 none p = 0) ∧ (∀ q p, oc [] q p = 0) ∧
      ∀ k m n, m < S.cart_size → n < T.cart_size → so u k (m * T.cart_size + n) = J k (basisFn S m) (basisFn T n))
    (hsep : Separated e.A.origin e.B.origin e.C e.D) (grad : Fin 3 × Fin 3 → List ℝ)
    (hG : ∀ qk, e.A.cart_size * e.B.cart_size ≤ (grad qk).length) :
    ∃ h' R, soGradient e h (some a) grad = .ok (h', R) ∧ Restored h h' ∧
      ∀ q k m n, m < e.A.cart_size → n < e.B.cart_size → (R (q, k))[m * e.B.cart_size + n]? = some
        (((if pointsAreEqual e.A.origin e.D then 1 else 0) - (if pointsAreEqual e.C e.D then 1 else 0)) *
            J q (dBasis e.A k m) (basisFn e.B n) +
          ((if pointsAreEqual e.B.origin e.D then 1 else 0) - (if pointsAreEqual e.C e.D then 1 else 0)) *
            J q (basisFn e.A m) (dBasis e.B k n)) := by
  obtain ⟨h', hr, e1⟩ := so_gradient_is_full e h hw a u ha grad
  have hL : (2 * (u.L : ℝ) + 1) ≠ 0 := by
    have : (2 * u.L + 1 : ℤ) ≠ 0 := by omega
    exact_mod_cast this
  let I : Fin 4 → (Point → ℝ) → (Point → ℝ) → ℝ := fun q f g => Fin.cases 0 (fun k => 2 / (2 * (u.L : ℝ) + 1) * J k f g) q
  have hready : GradReady e.gen (fun S T M => fullGrpp e.K e.init S T ⟨none, [], [u], []⟩ e.C M) I e.A e.B e.junk := by
    refine ⟨ho, hA, hB, ⟨fun q f g k c => ?_, fun q f g k c => ?_⟩, fun S T hS hT _ M hM => ?_, hj⟩
    · refine Fin.cases ?_ (fun q => ?_) q
      · simp [I]
      · simp only [I, Fin.cases_succ, hJl]; ring
    · refine Fin.cases ?_ (fun q => ?_) q
      · simp [I]
      · simp only [I, Fin.cases_succ, hJr]; ring
    · obtain ⟨t1, t2, so, oc, hc, h1, h2, h3⟩ := hK S T hS hT
      obtain ⟨R, eR, hv, hlen⟩ := full_is_sum e.K S T ⟨none, [], [u], []⟩ e.C hc M (fun q => (hM q).ge)
      refine ⟨R, by rw [hi]; exact eR, fun q => ⟨(hlen q).1.trans (hM q), fun m n hm hn => ?_⟩⟩
      obtain ⟨v0, v1⟩ := hv _ (rowMajor_lt hm hn)
      refine Fin.cases ?_ (fun q => ?_) q
      · rw [v0, h1, h2]; simp [I]
      · rw [v1, h2]; simp [I, h3 q m n hm hn]
  obtain ⟨G', eG, hv, hbey⟩ := grppGradient_value hready e.C e.D hsep (e.soArrays grad) (by
    rintro ⟨q, k⟩
    refine Fin.cases ?_ (fun q => ?_) q
    · simp [GradEnv.soArrays, GradEnv.stub]
    · exact hG (q, k))
  have hlen : ∀ q, e.A.cart_size * e.B.cart_size ≤ (G' q).length := by
    rintro ⟨q, k⟩
    by_contra hc
    have hsz : 0 < e.A.cart_size * e.B.cart_size := by omega
    have hB0 : 0 < e.B.cart_size := Nat.pos_of_mul_pos_left hsz
    have hlast := hv q k ((e.A.cart_size * e.B.cart_size - 1) / e.B.cart_size) ((e.A.cart_size * e.B.cart_size - 1) % e.B.cart_size)
      (by rw [Nat.div_lt_iff_lt_mul hB0]; omega) (Nat.mod_lt _ hB0)
    have hq : (e.A.cart_size * e.B.cart_size - 1) / e.B.cart_size * e.B.cart_size +
        (e.A.cart_size * e.B.cart_size - 1) % e.B.cart_size = e.A.cart_size * e.B.cart_size - 1 := by
      rw [mul_comm]; exact Nat.div_add_mod _ _
    rw [hq, List.getElem?_eq_none (by omega)] at hlast
    cases hlast
  obtain ⟨G'', eS, hS⟩ := rescaleSO_ok ((2 * (u.L : ℝ) + 1) / 2) (e.A.cart_size * e.B.cart_size) G' hlen
  refine ⟨h', fun qk => G'' (qk.1.succ, qk.2), ?_, hr, fun q k m n hm hn => ?_⟩
  · rw [e1]
    have : e.full ⟨none, [], [u], []⟩ (e.soArrays grad) = .ok G' := eG
    rw [this]
    simp only [Outcome.ok_bind, eS]
  · show (G'' (q.succ, k))[m * e.B.cart_size + n]? = _
    rw [hS.hit q k _ (rowMajor_lt hm hn), hv q.succ k m n hm hn, Option.map_some]
    simp only [braT, ketT, I, Fin.cases_succ]
    congr 1
    field_simp

/-! ## Non-vacuity -/

noncomputable def examplePotential : Potential := ⟨1, 0, 1, [2], [1], [1]⟩

/-- Memory with potentials at addresses 0, 1, 2 and a shell at address 3. -/
noncomputable def exampleStore : Store :=
  ⟨fun a => if a < 3 then some (.pot examplePotential) else if a = 3 then some (.shell exampleS) else none, 4, []⟩

theorem exampleStore_wf : exampleStore.WF := by
  intro a ha
  have ha' : 4 ≤ a := ha
  have h1 : ¬ a < 3 := by omega
  have h2 : a ≠ 3 := by omega
  simp [exampleStore, h1, h2]

/-- Two local potentials (the first is replaced), and an outer-core pair. -/
def exampleCalls : List GrppCall := [.setLocal (some 0), .addOc (some 2) (some 3), .setLocal (some 1), .addArep none]

theorem exampleCalls_live : LiveArgs exampleStore exampleCalls := by
  intro k a hm
  simp only [attached, exampleCalls, List.flatMap_cons, List.flatMap_nil, GrppCall.args, List.cons_append, List.nil_append,
    List.mem_cons, Prod.mk.injEq, Option.some.injEq, List.not_mem_nil, or_false] at hm
  rcases hm with ⟨rfl, rfl⟩ | ⟨rfl, rfl⟩ | ⟨rfl, rfl⟩ | ⟨rfl, rfl⟩ | ⟨rfl, h⟩
  · exact ⟨_, rfl, rfl⟩
  · exact ⟨_, rfl, rfl⟩
  · exact ⟨_, rfl, rfl⟩
  · exact ⟨_, rfl, rfl⟩
  · cases h

/-- All four objects are released; address 5 never held anything. -/
example : ∃ h', grppLife exampleStore exampleCalls = .ok h' ∧ h'.mem 0 = none ∧ h'.mem 3 = none ∧
    h'.freed.Perm ([0, 2, 3, 1] ++ List.range' 4 (h'.next - 4) ++ []) := by
  obtain ⟨h', e, hm, hf⟩ := grpp_frees_once_partial exampleStore exampleStore_wf exampleCalls exampleCalls_live
    ⟨by decide, by decide, by decide⟩ (by decide)
  exact ⟨h', e, by rw [hm]; rfl, by rw [hm]; rfl, hf⟩

/-- The same local potential set twice. -/
example : grppLife exampleStore [.setLocal (some 0), .setLocal (some 0)] = .ub :=
  grpp_double_free exampleStore exampleStore_wf _ (by
    intro k a hm
    simp only [attached, List.flatMap_cons, List.flatMap_nil, GrppCall.args, List.cons_append, List.nil_append,
      List.mem_cons, Prod.mk.injEq, Option.some.injEq, List.not_mem_nil, or_false] at hm
    rcases hm with ⟨rfl, rfl⟩ | ⟨rfl, rfl⟩ <;> exact ⟨_, rfl, rfl⟩) ⟨by decide, by decide, by decide⟩ (by decide)

/-- 101 additions. -/
example : runCalls (List.replicate 101 (.addEsop none)) (newGrpp exampleStore) = .ub :=
  grpp_add_overflow _ _ fun h => by
    have := h.esop
    rw [List.countP_replicate] at this
    simp [GrppCall.isEsop] at this

example : ∃ st, runCalls exampleCalls (newGrpp exampleStore) = .ok st :=
  grpp_add_in_bounds_partial exampleStore exampleStore_wf exampleCalls exampleCalls_live ⟨by decide, by decide, by decide⟩
    (by decide)

/-- The object presents the second local potential and the outer-core pair. -/
example : ∃ st, runCalls (exampleCalls.take 3) (newGrpp exampleStore) = .ok st ∧ ∀ K init C,
    fullObj K init C st.1 st.2 = fun S T M => fullGrpp K init S T ⟨some examplePotential, [], [], [(examplePotential, exampleS)]⟩ C M :=
  grpp_contents exampleStore exampleStore_wf _ (fun k a hm => exampleCalls_live k a (by
    rw [← List.take_append_drop 3 exampleCalls, attached_append]; exact List.mem_append_left _ hm))
    ⟨by decide, by decide, by decide⟩ (by decide) _
    ⟨.inr ⟨1, _, rfl, rfl, rfl⟩, .nil, .nil, .cons ⟨⟨2, rfl, rfl⟩, ⟨3, rfl, rfl⟩⟩ .nil⟩

/-- Gradients of single terms, for whatever integral routines. -/
example (e : GradEnv) (grad : Fin 3 → List ℝ) : ∃ h', Restored exampleStore h' ∧ type1Gradient e exampleStore (some 0) grad =
    (do let G ← e.full ⟨some examplePotential, [], [], []⟩ (e.scalarArrays grad); .ok (h', fun k => G (0, k))) :=
  type1_gradient_is_full e _ exampleStore_wf _ _ (.inr ⟨0, _, rfl, rfl, rfl⟩) grad

example (e : GradEnv) (grad : Fin 3 → List ℝ) : ∃ h', Restored exampleStore h' ∧ type2Gradient e exampleStore (some 2) grad =
    (do let G ← e.full ⟨none, [examplePotential], [], []⟩ (e.scalarArrays grad); .ok (h', fun k => G (0, k))) :=
  type2_gradient_is_full e _ exampleStore_wf _ _ rfl grad

/-- The same outer-core pair twice. -/
example (e : GradEnv) (G : Grads) : ∃ h', Restored exampleStore h' ∧
    ocGradient e exampleStore 2 [some 1, some 1] [some 3, some 3] G =
    (do let G ← e.full ⟨none, [], [], [(examplePotential, exampleS), (examplePotential, exampleS)]⟩ G; .ok (h', G)) :=
  oc_gradient_is_full_partial e _ exampleStore_wf 2 _ _ (by simp) (by simp) (by norm_num) _
    (.cons ⟨⟨1, rfl, rfl⟩, ⟨3, rfl, rfl⟩⟩ (.cons ⟨⟨1, rfl, rfl⟩, ⟨3, rfl, rfl⟩⟩ .nil)) G

/-- Routines where only the spin-orbit part is present, a contact interaction. -/
noncomputable def soKernels : Kernels where
  type1 A B _ _ _ := .ok (List.replicate (A.cart_size * B.cart_size) 0)
  type2 A B _ _ _ := .ok (List.replicate (A.cart_size * B.cart_size) 0)
  so A B C _ _ := .ok fun _ => (List.range (A.cart_size * B.cart_size)).map fun p =>
    contact C 0 (basisFn A (p / B.cart_size)) (basisFn B (p % B.cart_size))
  oc A B _ _ _ := .ok fun _ => List.replicate (A.cart_size * B.cart_size) 0

theorem soKernels_computes (S T : Shell) (C : Point) : soKernels.Computes S T C (fun _ _ => 0) (fun _ _ => 0)
    (fun _ _ p => contact C 0 (basisFn S (p / T.cart_size)) (basisFn T (p % T.cart_size))) (fun _ _ _ => 0) := by
  have key : ∀ n (x : ℝ), BufIs n (List.replicate n x) fun _ => x :=
    fun n x => ⟨by simp, fun p hp => by simp [hp]⟩
  refine ⟨fun _ _ _ => ⟨_, rfl, key _ _⟩, fun _ _ _ => ⟨_, rfl, key _ _⟩, fun _ _ _ => ⟨_, rfl, fun k => ⟨by simp, fun p hp => ?_⟩⟩,
    fun _ _ _ => ⟨_, rfl, fun q => key _ _⟩⟩
  simp [List.getElem?_map, List.getElem?_range hp]

/-- A p shell and an s shell; gradient with respect to the pseudopotential position. -/
noncomputable def exampleEnv : GradEnv := ⟨cartesianDirac, some fun _ => 3, soKernels, true, exampleShell, exampleS, exampleC, exampleC⟩

example : ∃ h' R, soGradient exampleEnv exampleStore (some 0) (fun _ => [1, 2, 3]) = .ok (h', R) ∧ Restored exampleStore h' := by
  obtain ⟨h', R, e, hr, -⟩ := so_gradient_value_partial exampleEnv rfl exampleStore exampleStore_wf 0 examplePotential rfl
    (fun _ => contact exampleC 0) (fun q f g k c => by simp only [contact]; ring) (fun q f g k c => by simp only [contact]; ring)
    (Or.inl rfl) exampleShell_made exampleS_made (by simp [exampleEnv])
    (fun S T _ _ => ⟨_, _, _, _, soKernels_computes S T exampleC, fun _ => rfl, fun _ _ => rfl, fun k m n hm hn => by
      have hT : 0 < T.cart_size := by omega
      have e1 : (m * T.cart_size + n) / T.cart_size = m := by
        rw [mul_comm, Nat.mul_add_div hT, Nat.div_eq_of_lt hn, add_zero]
      have e2 : (m * T.cart_size + n) % T.cart_size = n := by
        rw [mul_comm, Nat.mul_add_mod, Nat.mod_eq_of_lt hn]
      simp only [e1, e2]⟩)
    (example_apart3.separated (Or.inr (Or.inr rfl))) (fun _ => [1, 2, 3]) (fun _ => by decide)
  exact ⟨h', R, e, hr⟩

end Libgrpp
