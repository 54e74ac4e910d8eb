import Verif.Lemmas.FortranDriver

/-! # Auxiliary lemmas for Props/FortranDriver: the pseudopotential of one atom -/

namespace Libgrpp

/-- What the routines of the library compute for a pair of shells and a pseudopotential, into buffers which may be longer than needed. -/
structure PairKernels {G : Type} (lib : Lib G) (sf : SpecFun) (A B : Shell) (C : Point) (g : GrppData) (V1 : ℕ → ℕ → ℝ) (V2 : Potential → ℕ → ℕ → ℝ)
    (V3 : Potential → Fin 3 → ℕ → ℕ → ℝ) (V4 : Fin 4 → ℕ → ℕ → ℝ) : Prop where
  t1 : ∀ out : List ℝ, A.cart_size * B.cart_size ≤ out.length → ∃ out', type1Integrals sf lib.init A B C g.local_ out = .ok out' ∧
    out'.length = out.length ∧ MatIs A.cart_size B.cart_size out' V1
  t2 : ∀ u ∈ g.arep, ∀ out : List ℝ, A.cart_size * B.cart_size ≤ out.length → ∃ out', type2Integrals lib A B C u out = .ok out' ∧
    out'.length = out.length ∧ MatIs A.cart_size B.cart_size out' (V2 u)
  so : ∀ u ∈ g.esop, ∀ out : LMat, A.cart_size * B.cart_size ≤ out.x.length → A.cart_size * B.cart_size ≤ out.y.length →
    A.cart_size * B.cart_size ≤ out.z.length → ∃ out', spinOrbitIntegrals lib A B C u out = .ok out' ∧
      (out'.x.length = out.x.length ∧ out'.y.length = out.y.length ∧ out'.z.length = out.z.length) ∧
      MatIs A.cart_size B.cart_size out'.x (V3 u 0) ∧ MatIs A.cart_size B.cart_size out'.y (V3 u 1) ∧ MatIs A.cart_size B.cart_size out'.z (V3 u 2)
  oc : ∀ out : Fin 4 → List ℝ, (∀ q, A.cart_size * B.cart_size ≤ (out q).length) →
    ∃ out', outerCore sf true A B C g.oc out = .ok (g.oc.map (fun e => (e.1, bindOrigin C e.2)), out') ∧
      ∀ q, (out' q).length = (out q).length ∧ MatIs A.cart_size B.cart_size (out' q) (V4 q)
  full : ∀ M : Fin 4 → List ℝ, (∀ q, A.cart_size * B.cart_size ≤ (M q).length) →
    ∃ M', fullGrpp (libKernels lib sf) lib.init A B g C M = .ok M' ∧
      ∀ q, (M' q).length = (M q).length ∧ MatIs A.cart_size B.cart_size (M' q) fun m n =>
        Fin.cases (V1 m n + (g.arep.map fun u => V2 u m n).sum) (fun k => (g.esop.map fun u => 2 / (2 * (u.L : ℝ) + 1) * V3 u k m n).sum) q + V4 q m n

theorem so_numeric_any {G : Type} (lib : Lib G) (hi : lib.init = true) (ho : DocumentedOrder lib.gen) {A B : Shell} (hA : A.Usable lib.gen)
    (hB : B.Usable lib.gen) {C : Point} {u : Potential} (hu : SemiReady A B C u) {t : List ℝ} {Q : ℕ → ℕ → ℕ → ℝ}
    (ht : radialType2 lib (u.L.toNat + A.L) (u.L.toNat + B.L) (A.L + B.L) (∑ i, toC A C i ^ 2) (∑ i, toC B C i ^ 2) u A B = .ok t)
    (hQ : ∀ l1 l2 n, l1 ≤ u.L.toNat + A.L → l2 ≤ u.L.toNat + B.L → n ≤ A.L + B.L →
        getType2 (u.L.toNat + B.L) (A.L + B.L) t l1 l2 n = .ok (Q l1 l2 n)) :
    ∃ V : Fin 3 → ℕ → ℕ → ℝ, ∀ out : LMat, A.cart_size * B.cart_size ≤ out.x.length → A.cart_size * B.cart_size ≤ out.y.length →
      A.cart_size * B.cart_size ≤ out.z.length → ∃ out', spinOrbitIntegrals lib A B C u out = .ok out' ∧
        (out'.x.length = out.x.length ∧ out'.y.length = out.y.length ∧ out'.z.length = out.z.length) ∧
        MatIs A.cart_size B.cart_size out'.x (V 0) ∧ MatIs A.cart_size B.cart_size out'.y (V 1) ∧ MatIs A.cart_size B.cart_size out'.z (V 2) := by
  set d := (2 * u.L.toNat + 1) * (2 * u.L.toNat + 1) with hd
  obtain ⟨M, e1, e2, -⟩ := lmatRsh_spec u.L.toNat ⟨List.replicate d 0, List.replicate d 0, List.replicate d 0⟩ (by simp [hd]) (by simp [hd])
    (by simp [hd])
  obtain ⟨X, Y, Z, e3⟩ : ∃ X Y Z, LMatIs (2 * u.L.toNat + 1) M X Y Z := ⟨_, _, _, e2⟩
  refine ⟨![fun m n => semiSumCode zeroThresh zeroThresh u.L.toNat (toC A C) (toC B C) Q (angSumT3 u.L.toNat X Y Z X (kDir A C) (kDir B C)) (A.comp m) (B.comp n) *
    (16 * Real.pi * Real.pi),
    fun m n => semiSumCode zeroThresh zeroThresh u.L.toNat (toC A C) (toC B C) Q (angSumT3 u.L.toNat X Y Z Y (kDir A C) (kDir B C)) (A.comp m) (B.comp n) *
    (16 * Real.pi * Real.pi),
    fun m n => semiSumCode zeroThresh zeroThresh u.L.toNat (toC A C) (toC B C) Q (angSumT3 u.L.toNat X Y Z Z (kDir A C) (kDir B C)) (A.comp m) (B.comp n) *
    (16 * Real.pi * Real.pi)], fun out hx hy hz => ?_⟩
  obtain ⟨out', h1, ⟨k1, k2, k3⟩, s1, s2, s3⟩ := spinOrbitIntegrals_spec lib hi A B (hA.made.homog ho) (hB.made.homog ho) hA.num hB.num C u hu.LA hu.LB
    t Q ht hQ M e1 X Y Z e3 out hx hy hz
  exact ⟨out', h1, ⟨s1.1, s2.1, s3.1⟩, k1, k2, k3⟩

theorem pairKernels_exist {G : Type} (lib : Lib G) (hi : lib.init = true) (hbt : BesselOk lib.bt) (ho : DocumentedOrder lib.gen) {eps : ℝ}
    {sf : SpecFun} (hs : LibSpec eps sf) (A B : Shell) (hA : A.Usable lib.gen) (hB : B.Usable lib.gen) (C : Point)
    (hpl : OnCentre A B C ∨ OffCentre A B C) (g : GrppData) (hg : GrppReady lib.gen A B C g) :
    ∃ V1 V2 V3 V4, PairKernels lib sf A B C g V1 V2 V3 V4 := by
  have sA := hA.made.supported ho hA.L9
  have sB := hB.made.supported ho hB.L9
  have nA := hA.kept.noTiny
  have nB := hB.kept.noTiny
  have hsemi : ∀ u ∈ g.arep ++ g.esop, SemiReady A B C u := fun u hu =>
    (List.mem_append.1 hu).elim (hg.arep u) (hg.esop u)
  choose! t Q hQ1 hQ2 hQ3 using fun u hu => radialTable_exists lib hbt ho hA hB hpl (hsemi u hu)
  obtain ⟨V1, hV1⟩ : ∃ V : ℕ → ℕ → ℝ, ∀ l : List ℝ, A.cart_size * B.cart_size ≤ l.length →
      ∃ l', type1Integrals sf true A B C g.local_ l = .ok l' ∧ l'.length = l.length ∧ MatIs A.cart_size B.cart_size l' V := by
    cases hl : g.local_ with
    | none =>
      refine ⟨fun _ _ => 0, fun l hlen => ?_⟩
      obtain ⟨l', e, z, s⟩ := memset0_spec (A.cart_size * B.cart_size) l hlen
      refine ⟨l', ?_, s.1, fun m n hm hn => z _ (rowMajor_lt hm hn)⟩
      unfold type1Integrals
      simp only [Outcome.assert_pos, Outcome.ok_bind, e]
    | some p =>
      obtain ⟨V, h1, -⟩ := type1_numeric hs sA sB C (hg.local_ p hl).1 (hg.local_ p hl).2
      refine ⟨V, fun l hlen => ?_⟩
      obtain ⟨l', k1, k2, k3⟩ := h1 l hlen
      exact ⟨l', k1, k3.1, k2⟩
  choose! V2 hV2 eV2 using fun u (hu : u ∈ g.arep) => type2_numeric lib hi ho hA hB hpl (hg.arep u hu)
    (hQ2 u (List.mem_append_left _ hu)) (hQ3 u (List.mem_append_left _ hu))
  choose! V3 hV3 using fun u (hu : u ∈ g.esop) => so_numeric_any lib hi ho hA hB (hg.esop u hu)
    (hQ2 u (List.mem_append_right _ hu)) (hQ3 u (List.mem_append_right _ hu))
  obtain ⟨V4, hV4, -⟩ := outerCore_numeric ho hs sA sB nA nB C hg.oc
  have mat : ∀ {l : List ℝ} {V : ℕ → ℕ → ℝ}, l.length = A.cart_size * B.cart_size → MatIs A.cart_size B.cart_size l V →
      BufIs (A.cart_size * B.cart_size) l fun p => V (p / B.cart_size) (p % B.cart_size) := by
    intro l V hl hm
    refine ⟨hl, fun p hp => ?_⟩
    have hB0 : 0 < B.cart_size := by
      rcases Nat.eq_zero_or_pos B.cart_size with h | h
      · rw [h, mul_zero] at hp; omega
      · exact h
    have := hm (p / B.cart_size) (p % B.cart_size) (Nat.div_lt_of_lt_mul (by rwa [mul_comm] at hp)) (Nat.mod_lt _ hB0)
    rwa [Nat.div_add_mod'] at this
  have hK : (libKernels lib sf).ComputesFor A B C g (fun p => V1 (p / B.cart_size) (p % B.cart_size))
      (fun u p => V2 u (p / B.cart_size) (p % B.cart_size)) (fun u k p => V3 u k (p / B.cart_size) (p % B.cart_size))
      (fun q p => V4 q (p / B.cart_size) (p % B.cart_size)) := by
    refine ⟨fun l hl => ?_, fun u hu l hl => ?_, fun u hu l hl => ?_, fun l hl => ?_⟩
    · obtain ⟨l', h1, h2, h3⟩ := hV1 l hl.ge
      exact ⟨l', by simp only [libKernels, hi]; exact h1, mat (h2.trans hl) h3⟩
    · obtain ⟨l', h1, h2, h3⟩ := hV2 u hu l hl.ge
      exact ⟨l', h1, mat (h3.1.trans hl) h2⟩
    · obtain ⟨l', h1, ⟨l1, l2, l3⟩, k1, k2, k3⟩ := hV3 u hu ⟨l 0, l 1, l 2⟩ (hl 0).ge (hl 1).ge (hl 2).ge
      refine ⟨![l'.x, l'.y, l'.z], by simp only [libKernels, h1, Outcome.ok_bind], fun k => ?_⟩
      match k with
      | 0 => exact mat (l1.trans (hl 0)) k1
      | 1 => exact mat (l2.trans (hl 1)) k2
      | 2 => exact mat (l3.trans (hl 2)) k3
    · obtain ⟨l', h1, h2⟩ := hV4 l fun q => (hl q).ge
      exact ⟨l', by simp only [libKernels, hi, h1, Outcome.ok_bind], fun q => mat ((h2 q).1.1.trans (hl q)) (h2 q).2⟩
  refine ⟨V1, V2, V3, V4, by rw [hi]; exact hV1, fun u hu out hl => ?_, hV3, fun out ho => ?_, fun M hM => ?_⟩
  · obtain ⟨l', h1, h2, h3⟩ := hV2 u hu out hl
    exact ⟨l', h1, h3.1, h2⟩
  · obtain ⟨l', h1, h2⟩ := hV4 out ho
    exact ⟨l', h1, fun q => ⟨(h2 q).1.1, (h2 q).2⟩⟩
  obtain ⟨M', h1, h2, h3⟩ := full_is_sum_for _ A B g C hK M hM
  refine ⟨M', by rw [hi]; exact h1, fun q => ⟨(h3 q).1, fun m n hm hn => ?_⟩⟩
  have hd : (m * B.cart_size + n) / B.cart_size = m := by
    rw [mul_comm, Nat.mul_add_div (by omega), Nat.div_eq_of_lt hn, add_zero]
  have hmod : (m * B.cart_size + n) % B.cart_size = n := by rw [mul_comm, Nat.mul_add_mod, Nat.mod_eq_of_lt hn]
  obtain ⟨r0, rk⟩ := h2 _ (rowMajor_lt hm hn)
  simp only [hd, hmod] at r0 rk
  exact Fin.cases r0 rk q

/-! ## The steps -/

/-- State between two calls: memory as at the beginning `h0`, buffers of full size, matrices of dimension `dim`. -/
structure FState.Ok (h0 : Store) (dim : Nat) (st : FState) : Prop where
  restored : Restored h0 st.h
  buf : ∀ q, maxBuf ≤ (st.buf q).length
  out : ∀ q, dim * dim ≤ (st.out q).length

/-- The step leads from `st` to `st'` and adds the blocks `W` to the matrices. -/
def StepAdds (h0 : Store) (dim io jo n1 n2 : Nat) (x : Outcome FState) (st : FState) (W : Fin 4 → ℕ → ℕ → ℝ) : Prop :=
  ∃ st', x = .ok st' ∧ st'.Ok h0 dim ∧ ∀ q, Added dim (blockAt io jo n1 n2 (W q)) (st.out q) (st'.out q)

theorem StepAdds.bind {h0 : Store} {dim io jo n1 n2 : Nat} {x : Outcome FState} {st : FState} {W W' : Fin 4 → ℕ → ℕ → ℝ}
    {f : FState → Outcome FState} (h : StepAdds h0 dim io jo n1 n2 x st W)
    (h' : ∀ st1, st1.Ok h0 dim → StepAdds h0 dim io jo n1 n2 (f st1) st1 W') :
    StepAdds h0 dim io jo n1 n2 (x >>= f) st fun q m n => W q m n + W' q m n := by
  obtain ⟨s1, e1, o1, a1⟩ := h
  obtain ⟨s2, e2, o2, a2⟩ := h' s1 o1
  refine ⟨s2, by rw [e1, Outcome.ok_bind, e2], o2, fun q => ((a1 q).trans (a2 q)).congr fun p p' _ _ => blockAt_add ..⟩

theorem StepAdds.congr {h0 : Store} {dim io jo n1 n2 : Nat} {x : Outcome FState} {st : FState} {W W' : Fin 4 → ℕ → ℕ → ℝ}
    (h : StepAdds h0 dim io jo n1 n2 x st W) (e : ∀ q m n, W q m n = W' q m n) : StepAdds h0 dim io jo n1 n2 x st W' := by
  have : W = W' := funext fun q => funext fun m => funext fun n => e q m n
  rwa [← this]

theorem stepAdds_forRange {h0 : Store} {dim io jo n1 n2 : Nat} (n : Nat) {body : Nat → FState → Outcome FState} {W : Nat → Fin 4 → ℕ → ℕ → ℝ}
    (hb : ∀ i < n, ∀ st, st.Ok h0 dim → StepAdds h0 dim io jo n1 n2 (body i st) st (W i)) {st : FState} (hst : st.Ok h0 dim) :
    StepAdds h0 dim io jo n1 n2 (forRange n st body) st fun q m n' => ∑ i ∈ Finset.range n, W i q m n' := by
  obtain ⟨s', e, o, a⟩ := added_loop (κ := Fin 4) (dim := dim) (n := n) (body := body) (fun _ st => st.Ok h0 dim) (fun q st => st.out q)
    (fun q i => blockAt io jo n1 n2 (W i q)) st hst fun i s hi hs => hb i hi s hs
  exact ⟨s', e, o, fun q => (a q).congr fun p p' _ _ => blockAt_range ..⟩

variable {G : Type} {lib : Lib G} {sf : SpecFun} {h0 : Store} {dim io jo : Nat} {a b : FShell} {C : Point} {e : FEcp}
  {V1 : ℕ → ℕ → ℝ} {V2 : Potential → ℕ → ℕ → ℝ} {V3 : Potential → Fin 3 → ℕ → ℕ → ℝ} {V4 : Fin 4 → ℕ → ℕ → ℝ}

/-- The situation in which the steps for one atom are executed. -/
structure AtomStep (lib : Lib G) (sf : SpecFun) (h0 : Store) (dim io jo : Nat) (a b : FShell) (C : Point) (e : FEcp) (V1 : ℕ → ℕ → ℝ)
    (V2 : Potential → ℕ → ℕ → ℝ) (V3 : Potential → Fin 3 → ℕ → ℕ → ℝ) (V4 : Fin 4 → ℕ → ℕ → ℝ) : Prop where
  wf : h0.WF
  okA : a.Ok
  okB : b.Ok
  fit : cartSize a.L * cartSize b.L ≤ maxBuf
  row : io + cartSize a.L ≤ dim
  col : jo + cartSize b.L ≤ dim
  ecp : e.Ok
  pos : 0 < e.numArep
  k : PairKernels lib sf (a.shell lib.gen) (b.shell lib.gen) C (e.data lib.gen) V1 V2 V3 V4

theorem row_get (he : e.Ok) {L : Nat} (hL : L < e.numArep) : rd e.rows L = .ok (e.row L) := by
  have h : L < e.rows.length := by have := he.rows; have := he.num; omega
  rw [rd_ok h]
  unfold FEcp.row
  rw [List.getD_eq_getElem _ _ h]

theorem ftnLocalStep_spec (h : AtomStep lib sf h0 dim io jo a b C e V1 V2 V3 V4) {st : FState} (hst : st.Ok h0 dim) :
    StepAdds h0 dim io jo (cartSize a.L) (cartSize b.L) (ftnLocalStep lib sf dim io jo (cartSize a.L) (cartSize b.L) a b C e st) st
      (Fin.cases V1 fun _ _ _ => 0) := by
  have hr : rd1 e.rows e.numArep = .ok (e.row (e.numArep - 1)) := by
    unfold rd1
    rw [if_neg (by have := h.pos; omega)]
    exact row_get h.ecp (by have := h.pos; omega)
  have hp := h.ecp.pots (e.numArep - 1) (by have := h.pos; omega)
  obtain ⟨mk, -⟩ := FPot.make_ok 0 0 (u := (e.row (e.numArep - 1)).pot (e.row (e.numArep - 1)).arep) hp.powers hp.arep hp.alpha
  obtain ⟨o', e1, l1, m1⟩ := h.k.t1 (st.buf 0) (h.fit.trans (hst.buf 0))
  obtain ⟨h', r', ef⟩ := (fortran_potentials lib.gen sf lib.init lib st.h (hst.restored.wf' h.wf) a b C 0
    ((e.row (e.numArep - 1)).pot (e.row (e.numArep - 1)).arep) hp.powers (st.buf 0) ⟨[], [], []⟩).1.ok (v := o') (by
      rw [mk, Outcome.ok_bind, h.okA.make, Outcome.ok_bind, h.okB.make, Outcome.ok_bind]; exact e1)
  obtain ⟨m', e2, a2⟩ := updateMatrixPart_spec h.row h.col m1 (st.out 0) (hst.out 0)
  refine ⟨⟨h', Function.update st.buf 0 o', Function.update st.out 0 m'⟩, ?_, ⟨hst.restored.then r', fun q => ?_, fun q => ?_⟩, fun q => ?_⟩
  · unfold ftnLocalStep
    rw [hr, Outcome.ok_bind, ef, Outcome.ok_bind]
    dsimp only
    erw [e2]
    rfl
  · refine Fin.cases ?_ (fun k => ?_) q
    · simp only [Function.update_self, l1]; exact hst.buf 0
    · simp only [Function.update_of_ne (Fin.succ_ne_zero k)]; exact hst.buf _
  · refine Fin.cases ?_ (fun k => ?_) q
    · simp only [Function.update_self, a2.len]; exact hst.out 0
    · simp only [Function.update_of_ne (Fin.succ_ne_zero k)]; exact hst.out _
  · refine Fin.cases ?_ (fun k => ?_) q
    · simp only [Function.update_self, Fin.cases_zero]; exact a2
    · simp only [Function.update_of_ne (Fin.succ_ne_zero k), Fin.cases_succ]
      exact (Added.refl _ _).congr fun p p' _ _ => (blockAt_zero ..).symm

theorem ftnSemilocalStep_spec (h : AtomStep lib sf h0 dim io jo a b C e V1 V2 V3 V4) {L : Nat} (hL : L < e.numArep - 1) {st : FState}
    (hst : st.Ok h0 dim) :
    StepAdds h0 dim io jo (cartSize a.L) (cartSize b.L) (ftnSemilocalStep lib dim io jo (cartSize a.L) (cartSize b.L) a b C e L st) st
      (Fin.cases (V2 (((e.row L).pot (e.row L).arep).pot L 0)) fun _ _ _ => 0) := by
  have hr := row_get h.ecp (L := L) (by omega)
  have hp := h.ecp.pots L (by omega)
  obtain ⟨mk, -⟩ := FPot.make_ok L 0 (u := (e.row L).pot (e.row L).arep) hp.powers hp.arep hp.alpha
  have hmem : ((e.row L).pot (e.row L).arep).pot L 0 ∈ (e.data lib.gen).arep :=
    List.mem_map.2 ⟨L, List.mem_range.2 hL, rfl⟩
  obtain ⟨o', e1, l1, m1⟩ := h.k.t2 _ hmem (st.buf 0) (h.fit.trans (hst.buf 0))
  obtain ⟨h', r', ef⟩ := (fortran_potentials lib.gen sf lib.init lib st.h (hst.restored.wf' h.wf) a b C L
    ((e.row L).pot (e.row L).arep) hp.powers (st.buf 0) ⟨[], [], []⟩).2.1.ok (v := o') (by
      rw [mk, Outcome.ok_bind, h.okA.make, Outcome.ok_bind, h.okB.make, Outcome.ok_bind]; exact e1)
  obtain ⟨m', e2, a2⟩ := updateMatrixPart_spec h.row h.col m1 (st.out 0) (hst.out 0)
  refine ⟨⟨h', Function.update st.buf 0 o', Function.update st.out 0 m'⟩, ?_, ⟨hst.restored.then r', fun q => ?_, fun q => ?_⟩, fun q => ?_⟩
  · unfold ftnSemilocalStep
    rw [hr, Outcome.ok_bind, ef, Outcome.ok_bind]
    dsimp only
    erw [e2]
    rfl
  · refine Fin.cases ?_ (fun k => ?_) q
    · simp only [Function.update_self, l1]; exact hst.buf 0
    · simp only [Function.update_of_ne (Fin.succ_ne_zero k)]; exact hst.buf _
  · refine Fin.cases ?_ (fun k => ?_) q
    · simp only [Function.update_self, a2.len]; exact hst.out 0
    · simp only [Function.update_of_ne (Fin.succ_ne_zero k)]; exact hst.out _
  · refine Fin.cases ?_ (fun k => ?_) q
    · simp only [Function.update_self, Fin.cases_zero]; exact a2
    · simp only [Function.update_of_ne (Fin.succ_ne_zero k), Fin.cases_succ]
      exact (Added.refl _ _).congr fun p p' _ _ => (blockAt_zero ..).symm

theorem matIs_scale {bd1 bd2 : Nat} {l : List ℝ} {g : ℕ → ℕ → ℝ} (hm : MatIs bd1 bd2 l g) (L : Nat) :
    MatIs bd1 bd2 (scaleBuf L l) fun m n => 2 / (2 * (L : ℝ) + 1) * g m n := by
  intro m n h1 h2
  unfold scaleBuf
  rw [List.getElem?_map, hm m n h1 h2, Option.map_some]
  congr 1
  ring

theorem ftnSOStep_spec (h : AtomStep lib sf h0 dim io jo a b C e V1 V2 V3 V4) {i : Nat} (hL : i < e.numArep - 1) {st : FState}
    (hst : st.Ok h0 dim) :
    StepAdds h0 dim io jo (cartSize a.L) (cartSize b.L) (ftnSOStep lib dim io jo (cartSize a.L) (cartSize b.L) a b C e (i + 1) st) st
      (Fin.cases (fun _ _ => 0) fun k m n => 2 / (2 * (((((e.row (i + 1)).pot (e.row (i + 1)).esop).pot (i + 1 : ℕ) 0).L : ℤ) : ℝ) + 1) *
        V3 (((e.row (i + 1)).pot (e.row (i + 1)).esop).pot (i + 1 : ℕ) 0) k m n) := by
  have hr := row_get h.ecp (L := i + 1) (by omega)
  have hp := h.ecp.pots (i + 1) (by omega)
  obtain ⟨mk, hPL⟩ := FPot.make_ok (i + 1 : ℕ) 0 (u := (e.row (i + 1)).pot (e.row (i + 1)).esop) hp.powers hp.esop hp.alpha
  have hmem : ((e.row (i + 1)).pot (e.row (i + 1)).esop).pot (i + 1 : ℕ) 0 ∈ (e.data lib.gen).esop :=
    List.mem_map.2 ⟨i, List.mem_range.2 hL, rfl⟩
  obtain ⟨o', e1, ⟨l1, l2, l3⟩, m1, m2, m3⟩ := h.k.so _ hmem ⟨st.buf 1, st.buf 2, st.buf 3⟩ (h.fit.trans (hst.buf 1)) (h.fit.trans (hst.buf 2))
    (h.fit.trans (hst.buf 3))
  obtain ⟨h', r', ef⟩ := (fortran_potentials lib.gen sf lib.init lib st.h (hst.restored.wf' h.wf) a b C (i + 1 : ℕ)
    ((e.row (i + 1)).pot (e.row (i + 1)).esop) hp.powers (st.buf 0) ⟨st.buf 1, st.buf 2, st.buf 3⟩).2.2.ok (v := o') (by
      rw [mk, Outcome.ok_bind, h.okA.make, Outcome.ok_bind, h.okB.make, Outcome.ok_bind]; exact e1)
  rw [hPL]
  generalize ((e.row (i + 1)).pot (e.row (i + 1)).esop).pot (i + 1 : ℕ) 0 = P at m1 m2 m3 ⊢
  obtain ⟨mx, ex, ax⟩ := updateMatrixPart_spec h.row h.col (matIs_scale m1 (i + 1)) (st.out 1) (hst.out 1)
  obtain ⟨my, ey, ay⟩ := updateMatrixPart_spec h.row h.col (matIs_scale m2 (i + 1)) (st.out 2) (hst.out 2)
  obtain ⟨mz, ez, az⟩ := updateMatrixPart_spec h.row h.col (matIs_scale m3 (i + 1)) (st.out 3) (hst.out 3)
  have ls : ∀ l, (scaleBuf (i + 1) l).length = l.length := fun l => by simp [scaleBuf]
  refine ⟨⟨h', ![st.buf 0, scaleBuf (i + 1) o'.x, scaleBuf (i + 1) o'.y, scaleBuf (i + 1) o'.z], ![st.out 0, mx, my, mz]⟩, ?_,
    ⟨hst.restored.then r', fun q => ?_, fun q => ?_⟩, fun q => ?_⟩
  · unfold ftnSOStep
    rw [hr, Outcome.ok_bind, ef, Outcome.ok_bind]
    dsimp only
    erw [ex, Outcome.ok_bind, ey, Outcome.ok_bind, ez]
    rfl
  · match q with
    | 0 => exact hst.buf 0
    | 1 => exact (hst.buf 1).trans_eq ((ls _).trans l1).symm
    | 2 => exact (hst.buf 2).trans_eq ((ls _).trans l2).symm
    | 3 => exact (hst.buf 3).trans_eq ((ls _).trans l3).symm
  · match q with
    | 0 => exact hst.out 0
    | 1 => exact (hst.out 1).trans_eq ax.len.symm
    | 2 => exact (hst.out 2).trans_eq ay.len.symm
    | 3 => exact (hst.out 3).trans_eq az.len.symm
  · match q with
    | 0 => exact (Added.refl _ _).congr fun p p' _ _ => (blockAt_zero ..).symm
    | 1 => exact ax
    | 2 => exact ay
    | 3 => exact az

theorem outerCore_bind (sf : SpecFun) (init : Bool) (A B : Shell) (C : Point) (oc : List (Potential × Shell)) (out : Fin 4 → List ℝ) :
    outerCore sf init A B C (oc.map fun p => (p.1, bindOrigin C p.2)) out = outerCore sf init A B C oc out := by
  have : (oc.map fun p => (p.1, bindOrigin C p.2)).map (fun p => (p.1, bindOrigin C p.2)) = oc.map fun p => (p.1, bindOrigin C p.2) := by
    rw [List.map_map]
    refine List.map_congr_left fun p _ => ?_
    simp only [Function.comp, bindOrigin_eq]
  unfold outerCore
  simp only [this]

theorem ocList_mem {u : FOc} (hu : u ∈ e.ocList) (he : e.Ok) : u.u.num ≤ u.u.powers.length ∧ u.u.num ≤ u.u.coeffs.length ∧ u.u.num ≤ u.u.alpha.length ∧
    u.num ≤ u.coeffs.length ∧ u.num ≤ u.alpha.length := by
  simp only [FEcp.ocList, FEcp.ocRow, List.mem_flatMap, List.mem_map, List.mem_range] at hu
  obtain ⟨L, hL, i, hi, rfl⟩ := hu
  have ho := he.oc L hL (by omega)
  exact ⟨ho.powers, ho.pot i hi, ho.alpha, ho.fun_ i hi, ho.ocAlpha⟩

theorem ftnOcStep_spec (h : AtomStep lib sf h0 dim io jo a b C e V1 V2 V3 V4) (hi : lib.init = true) (hoc : e.ocList.length ≤ 20) {t0 : FOcTable}
    (ht : t0.Sized 20) {st : FState} (hst : st.Ok h0 dim) :
    StepAdds h0 dim io jo (cartSize a.L) (cartSize b.L) (ftnOcStep lib sf t0 dim io jo (cartSize a.L) (cartSize b.L) a b C e st) st V4 := by
  obtain ⟨t, et, nt, rt⟩ := (ftnOcTable_spec h.ecp ht).1 hoc
  obtain ⟨o', e1, m1⟩ := h.k.oc st.buf fun q => h.fit.trans (hst.buf q)
  let oc : List (Potential × Shell) := (e.data lib.gen).oc.map fun p => (p.1, bindOrigin C p.2)
  have hocl : oc.length = e.ocList.length := by simp [oc, FEcp.data]
  have hget : ∀ i, (h1 : i < oc.length) → (h2 : i < e.ocList.length) → oc[i] = ((e.ocList[i]).u.pot (e.ocList[i]).L (e.ocList[i]).J,
      FShell.shell lib.gen ⟨C, (e.ocList[i]).L, (e.ocList[i]).num, (e.ocList[i]).coeffs, (e.ocList[i]).alpha⟩) := by
    intro i h1 h2
    simp only [oc, FEcp.data, List.map_map, List.getElem_map, Function.comp, bindOrigin_eq]
    rfl
  obtain ⟨h', r', ef⟩ := (fortran_module_outer_core lib.gen sf st.h (hst.restored.wf' h.wf) a b C t st.buf _ _ (h.okA.make lib.gen) (h.okB.make lib.gen) oc
    (by rw [hocl, nt]) (fun i hi => by
      have hi' : i < e.ocList.length := by omega
      obtain ⟨k1, k2, k3, k4, k5⟩ := ocList_mem (List.getElem_mem hi') h.ecp
      refine FOcTable.describes_iff.2 ⟨e.ocList[i], rt i hi', k1, ?_, ?_⟩
      · rw [hget i hi hi']
        exact (FPot.make_ok _ _ k1 k2 k3).1
      · rw [hget i hi hi']
        exact FShell.Ok.make (a := ⟨C, (e.ocList[i]).L, (e.ocList[i]).num, (e.ocList[i]).coeffs, (e.ocList[i]).alpha⟩) ⟨k4, k5⟩ lib.gen)).ok (v := o') (by
      rw [outerCore_bind, e1]; rfl)
  choose m' e2 a2 using fun q => updateMatrixPart_spec h.row h.col (m1 q).2 (st.out q) (hst.out q)
  refine ⟨⟨h', o', ![m' 0, m' 1, m' 2, m' 3]⟩, ?_, ⟨hst.restored.then r', fun q => ?_, fun q => ?_⟩, fun q => ?_⟩
  · unfold ftnOcStep
    rw [et, Outcome.ok_bind, hi, ef, Outcome.ok_bind]
    dsimp only
    erw [e2 0, Outcome.ok_bind, e2 1, Outcome.ok_bind, e2 2, Outcome.ok_bind, e2 3]
    rfl
  · simp only [(m1 q).1]; exact hst.buf q
  · simp only [vec4_apply, (a2 q).len]; exact hst.out q
  · simp only [vec4_apply]; exact a2 q

/-- The blocks which one pseudopotential contributes. -/
noncomputable def grppBlock (g : GrppData) (V1 : ℕ → ℕ → ℝ) (V2 : Potential → ℕ → ℕ → ℝ) (V3 : Potential → Fin 3 → ℕ → ℕ → ℝ)
    (V4 : Fin 4 → ℕ → ℕ → ℝ) (q : Fin 4) (m n : ℕ) : ℝ :=
  Fin.cases (V1 m n + (g.arep.map fun u => V2 u m n).sum) (fun k => (g.esop.map fun u => 2 / (2 * (u.L : ℝ) + 1) * V3 u k m n).sum) q + V4 q m n

theorem ftnEcpAtom_spec (h : AtomStep lib sf h0 dim io jo a b C e V1 V2 V3 V4) (hi : lib.init = true) (hoc : e.ocList.length ≤ 20) {t0 : FOcTable}
    (ht : t0.Sized 20) {st : FState} (hst : st.Ok h0 dim) :
    StepAdds h0 dim io jo (cartSize a.L) (cartSize b.L) (ftnEcpAtom lib sf t0 dim io jo (cartSize a.L) (cartSize b.L) a b C e st) st
      (grppBlock (e.data lib.gen) V1 V2 V3 V4) := by
  have h1 := ((ftnLocalStep_spec h hst).bind fun st1 h1 =>
    (stepAdds_forRange (e.numArep - 1) (fun i hi st hs => ftnSemilocalStep_spec h hi hs) h1).bind fun st2 h2 =>
      (stepAdds_forRange (e.numArep - 1) (fun i hi st hs => ftnSOStep_spec h hi hs) h2).bind fun st3 h3 => ftnOcStep_spec h hi hoc ht h3)
  refine h1.congr fun q m n => ?_
  unfold grppBlock
  refine Fin.cases ?_ (fun k => ?_) q
  · simp only [Fin.cases_zero, Finset.sum_const_zero, zero_add]
    rw [← add_assoc]
    congr 2
    simp only [FEcp.data, List.map_map]
    rfl
  · simp only [Fin.cases_succ, Finset.sum_const_zero, zero_add]
    congr 1
    simp only [FEcp.data, List.map_map]
    rfl

/-- Too many outer-core shells: the arrays are overrun. -/
theorem ftnEcpAtom_ub (h : AtomStep lib sf h0 dim io jo a b C e V1 V2 V3 V4) (hoc : 20 < e.ocList.length) {t0 : FOcTable}
    (ht : t0.Sized 20) {st : FState} (hst : st.Ok h0 dim) :
    ftnEcpAtom lib sf t0 dim io jo (cartSize a.L) (cartSize b.L) a b C e st = .ub := by
  obtain ⟨s1, e1, o1, -⟩ := ftnLocalStep_spec h hst
  obtain ⟨s2, e2, o2, -⟩ := stepAdds_forRange (e.numArep - 1) (fun i hi st hs => ftnSemilocalStep_spec h hi hs) o1
  obtain ⟨s3, e3, o3, -⟩ := stepAdds_forRange (e.numArep - 1) (fun i hi st hs => ftnSOStep_spec h hi hs) o2
  unfold ftnEcpAtom
  rw [e1, Outcome.ok_bind, e2, Outcome.ok_bind, e3, Outcome.ok_bind]
  unfold ftnOcStep
  rw [(ftnOcTable_spec h.ecp ht).2 hoc]
  rfl

/-! ## All atoms and all pairs of shells -/

theorem grpps_get {mol : FMol} (hm : mol.Ok) (gen : Nat → List Comp) {z : Nat} (hz : z ∈ mol.charges) :
    rd1 mol.ecp z = .ok (mol.ecpOf z) ∧ z < (mol.grpps gen).length ∧
      (mol.grpps gen).getD z none = if (mol.ecpOf z).numArep = 0 then none else some ((mol.ecpOf z).data gen) := by
  obtain ⟨h1, -, h3, -⟩ := hm.charge z hz
  obtain ⟨k, rfl⟩ : ∃ k, z = k + 1 := ⟨z - 1, by omega⟩
  have hk : k < mol.ecp.length := by omega
  have e : mol.ecpOf (k + 1) = mol.ecp[k] := by simp [FMol.ecpOf, List.getD, hk]
  refine ⟨?_, ?_, ?_⟩
  · unfold rd1
    rw [if_neg (by omega), Nat.add_sub_cancel, rd_ok hk, e]
  · simp [FMol.grpps, hk]
  · simp [FMol.grpps, List.getD, hk, e]

/-- The values of the four matrices for every pair of shells and every pseudopotential of the molecule. -/
structure MolKernels {G : Type} (lib : Lib G) (sf : SpecFun) (shells : List Shell) (ops : List (GrppData × Point))
    (W : Shell → Shell → GrppData × Point → Fin 4 → ℕ → ℕ → ℝ) : Prop where
  each : ∀ A ∈ shells, ∀ B ∈ shells, ∀ o ∈ ops, ∃ V1 V2 V3 V4, PairKernels lib sf A B o.2 o.1 V1 V2 V3 V4 ∧ W A B o = grppBlock o.1 V1 V2 V3 V4

theorem MolKernels.fills {G : Type} {lib : Lib G} (hi : lib.init = true) {sf : SpecFun} {shells : List Shell} {ops : List (GrppData × Point)}
    {W : Shell → Shell → GrppData × Point → Fin 4 → ℕ → ℕ → ℝ} (h : MolKernels lib sf shells ops W) :
    PairFills (libKernels lib sf) shells ops W := by
  intro A hA B hB o ho M hM
  obtain ⟨V1, V2, V3, V4, k, e⟩ := h.each A hA B hB o ho
  obtain ⟨M', e1, r⟩ := k.full M hM
  exact ⟨M', by rw [driverPair_eq, ← hi]; exact e1, fun q => by rw [e]; exact r q⟩

theorem molKernels_exist {G : Type} (lib : Lib G) (hi : lib.init = true) (hbt : BesselOk lib.bt) (ho : DocumentedOrder lib.gen) {eps : ℝ}
    {sf : SpecFun} (hs : LibSpec eps sf) {shells : List Shell} {atoms : List (Nat × Point)} {grpps : List (Option GrppData)}
    (h : DriverInput lib.gen shells atoms grpps) : ∃ W, MolKernels lib sf shells (moleculeGrpps atoms grpps) W := by
  have hv : ∀ (A B : Shell) (o : GrppData × Point), ∃ W : Fin 4 → ℕ → ℕ → ℝ, A ∈ shells → B ∈ shells → o ∈ moleculeGrpps atoms grpps →
      ∃ V1 V2 V3 V4, PairKernels lib sf A B o.2 o.1 V1 V2 V3 V4 ∧ W = grppBlock o.1 V1 V2 V3 V4 := by
    intro A B o
    by_cases hc : A ∈ shells ∧ B ∈ shells ∧ o ∈ moleculeGrpps atoms grpps
    · obtain ⟨hA, hB, hm⟩ := hc
      obtain ⟨V1, V2, V3, V4, k⟩ := pairKernels_exist lib hi hbt ho hs A B (h.usable A hA) (h.usable B hB) o.2 (h.place A hA B hB o hm) o.1
        (h.ready A hA B hB o hm)
      exact ⟨_, fun _ _ _ => ⟨V1, V2, V3, V4, k, rfl⟩⟩
    · exact ⟨fun _ _ _ => 0, fun hA hB hm => absurd ⟨hA, hB, hm⟩ hc⟩
  choose W hW using hv
  exact ⟨W, ⟨fun A hA B hB o ho => hW A B o hA hB ho⟩⟩

/-- The data of the pseudopotentials of all atoms are within the arrays. -/
def FMol.EcpOk (mol : FMol) : Prop := ∀ z ∈ mol.charges, (mol.ecpOf z).numArep ≠ 0 → (mol.ecpOf z).Ok

/-- The situation of the loop over the atoms for a pair of shells. -/
structure PassStep (lib : Lib G) (sf : SpecFun) (mol : FMol) (h0 : Store) (dim io jo : Nat) (a b : FShell)
    (W : Shell → Shell → GrppData × Point → Fin 4 → ℕ → ℕ → ℝ) : Prop where
  okM : mol.Ok
  ecp : mol.EcpOk
  wf : h0.WF
  memA : a ∈ mol.shells
  memB : b ∈ mol.shells
  fit : cartSize a.L * cartSize b.L ≤ maxBuf
  row : io + cartSize a.L ≤ dim
  col : jo + cartSize b.L ≤ dim
  k : MolKernels lib sf (mol.shells.map (FShell.shell lib.gen)) (moleculeGrpps mol.atoms (mol.grpps lib.gen)) W

variable {mol : FMol} {W : Shell → Shell → GrppData × Point → Fin 4 → ℕ → ℕ → ℝ}

theorem PassStep.atom (h : PassStep lib sf mol h0 dim io jo a b W) {ic : Nat} (hic : ic < mol.charges.length)
    (hn : (mol.ecpOf mol.charges[ic]).numArep ≠ 0) {C : Point} (hC : mol.coord[ic]? = some C) :
    ∃ V1 V2 V3 V4, AtomStep lib sf h0 dim io jo a b C (mol.ecpOf mol.charges[ic]) V1 V2 V3 V4 ∧
      W (a.shell lib.gen) (b.shell lib.gen) ((mol.ecpOf mol.charges[ic]).data lib.gen, C) = grppBlock ((mol.ecpOf mol.charges[ic]).data lib.gen) V1 V2 V3 V4 := by
  have hz := List.getElem_mem hic
  obtain ⟨-, hlt, hg⟩ := grpps_get h.okM lib.gen hz
  have hmem : ((mol.ecpOf mol.charges[ic]).data lib.gen, C) ∈ moleculeGrpps mol.atoms (mol.grpps lib.gen) := by
    refine moleculeGrpps_mem (a := (mol.charges[ic], C)) ?_ ?_
    · refine List.mem_iff_getElem?.2 ⟨ic, ?_⟩
      unfold FMol.atoms
      rw [List.getElem?_zip_eq_some]
      exact ⟨List.getElem?_eq_getElem hic, hC⟩
    · rw [if_neg hn] at hg
      rw [List.getElem?_eq_getElem hlt]
      rw [List.getD_eq_getElem _ _ hlt] at hg
      exact congrArg some hg
  obtain ⟨V1, V2, V3, V4, k, e⟩ := h.k.each _ (List.mem_map_of_mem h.memA) _ (List.mem_map_of_mem h.memB) _ hmem
  exact ⟨V1, V2, V3, V4, ⟨h.wf, h.okM.shell h.memA, h.okM.shell h.memB, h.fit, h.row, h.col, h.ecp _ hz hn, Nat.pos_of_ne_zero hn, k⟩, e⟩

theorem ftnEcpPass_spec (h : PassStep lib sf mol h0 dim io jo a b W) (hi : lib.init = true) {t0 : FOcTable} (ht : t0.Sized 20) (d : Nat × Point)
    {ic : Nat} (hic : ic < mol.charges.length) {st : FState} (hst : st.Ok h0 dim) :
    (((mol.ecpOf mol.charges[ic]).numArep ≠ 0 → (mol.ecpOf mol.charges[ic]).ocList.length ≤ 20) →
      StepAdds h0 dim io jo (cartSize a.L) (cartSize b.L) (ftnEcpPass lib sf mol t0 dim io jo (cartSize a.L) (cartSize b.L) a b ic st) st fun q m n =>
        ((mol.grpps lib.gen).getD (mol.atoms.getD ic d).1 none).elim 0 fun g =>
          W (a.shell lib.gen) (b.shell lib.gen) (g, (mol.atoms.getD ic d).2) q m n) ∧
    ((mol.ecpOf mol.charges[ic]).numArep ≠ 0 → 20 < (mol.ecpOf mol.charges[ic]).ocList.length →
      ftnEcpPass lib sf mol t0 dim io jo (cartSize a.L) (cartSize b.L) a b ic st = .ub) ∧
    ((mol.ecpOf mol.charges[ic]).numArep = 0 → ftnEcpPass lib sf mol t0 dim io jo (cartSize a.L) (cartSize b.L) a b ic st = .ok st) := by
  have hz := List.getElem_mem hic
  have hc : ic < mol.coord.length := by rw [h.okM.coord]; exact hic
  obtain ⟨hr, hlt, hg⟩ := grpps_get h.okM lib.gen hz
  have hat : mol.atoms.getD ic d = (mol.charges[ic], mol.coord[ic]) := by simp [FMol.atoms, List.getD, hic, hc]
  unfold ftnEcpPass
  rw [rd_ok hic, Outcome.ok_bind, hr, Outcome.ok_bind, hat]
  simp only [hg]
  by_cases hn : (mol.ecpOf mol.charges[ic]).numArep = 0
  · rw [if_pos hn, if_pos hn]
    exact ⟨fun _ => ⟨st, rfl, hst, fun q => (Added.refl _ _).congr fun p p' _ _ => (blockAt_zero ..).symm⟩, fun h => absurd hn h, fun _ => rfl⟩
  · obtain ⟨V1, V2, V3, V4, k, e⟩ := h.atom hic hn (List.getElem?_eq_getElem hc)
    rw [if_neg hn, if_neg hn, rd_ok hc, Outcome.ok_bind]
    refine ⟨fun hoc => ?_, fun _ hoc => ftnEcpAtom_ub k hoc ht hst, fun h => absurd h hn⟩
    exact (ftnEcpAtom_spec k hi (hoc hn) ht hst).congr fun q m n => by simp only [Option.elim]; rw [e]

/-- The loop over the atoms for a pair of shells. -/
theorem ftnEcpPasses_spec (h : PassStep lib sf mol h0 dim io jo a b W) (hi : lib.init = true) {t0 : FOcTable} (ht : t0.Sized 20)
    (hoc : ∀ z ∈ mol.charges, (mol.ecpOf z).numArep ≠ 0 → (mol.ecpOf z).ocList.length ≤ 20) {st : FState} (hst : st.Ok h0 dim) :
    StepAdds h0 dim io jo (cartSize a.L) (cartSize b.L) (forRange mol.charges.length st fun ic st =>
        ftnEcpPass lib sf mol t0 dim io jo (cartSize a.L) (cartSize b.L) a b ic st) st fun q m n =>
      ((moleculeGrpps mol.atoms (mol.grpps lib.gen)).map fun o => W (a.shell lib.gen) (b.shell lib.gen) o q m n).sum := by
  let d : Nat × Point := (0, fun _ => 0)
  refine (stepAdds_forRange mol.charges.length (fun ic hic st hs => (ftnEcpPass_spec h hi ht d hic hs).1 (hoc _ (List.getElem_mem hic))) hst).congr
    fun q m n => ?_
  have hl : mol.atoms.length = mol.charges.length := by simp [FMol.atoms, h.okM.coord]
  rw [moleculeGrpps_sum, ← hl]
  exact sum_range_list mol.atoms d fun x => ((mol.grpps lib.gen).getD x.1 none).elim 0 fun g => W (a.shell lib.gen) (b.shell lib.gen) (g, x.2) q m n

theorem ftnEcpPasses_ub (h : PassStep lib sf mol h0 dim io jo a b W) (hi : lib.init = true) {t0 : FOcTable} (ht : t0.Sized 20)
    {z : Nat} (hz : z ∈ mol.charges) (hn : (mol.ecpOf z).numArep ≠ 0) (hoc : 20 < (mol.ecpOf z).ocList.length) {st : FState} (hst : st.Ok h0 dim) :
    (forRange mol.charges.length st fun ic st => ftnEcpPass lib sf mol t0 dim io jo (cartSize a.L) (cartSize b.L) a b ic st) = .ub := by
  let d : Nat × Point := (0, fun _ => 0)
  obtain ⟨k, hk, rfl⟩ := List.getElem_of_mem hz
  refine forRange_ub_some (fun st => st.Ok h0 dim) hst (fun ic st hic hs => ?_) hk fun st hs => (ftnEcpPass_spec h hi ht d hk hs).2.1 hn hoc
  obtain ⟨h1, h2, h3⟩ := ftnEcpPass_spec h hi ht d hic hs
  by_cases hn : (mol.ecpOf mol.charges[ic]).numArep = 0
  · exact Or.inl ⟨st, h3 hn, hs⟩
  · rcases Nat.lt_or_ge 20 (mol.ecpOf mol.charges[ic]).ocList.length with hl | hl
    · exact Or.inr (h2 hn hl)
    · obtain ⟨st', e, o, -⟩ := h1 fun _ => hl
      exact Or.inl ⟨st', e, o⟩

theorem zeroAll_length (M : List ℝ) : (zeroAll M).length = M.length := by simp [zeroAll]

theorem ftnEcpMatrices_spec (hm : mol.Ok) (he : mol.EcpOk) (hL : ∀ a ∈ mol.shells, a.L ≤ 9) (hi : lib.init = true)
    (k : MolKernels lib sf (mol.shells.map (FShell.shell lib.gen)) (moleculeGrpps mol.atoms (mol.grpps lib.gen)) W) {t0 : FOcTable} (ht : t0.Sized 20)
    (hoc : ∀ z ∈ mol.charges, (mol.ecpOf z).numArep ≠ 0 → (mol.ecpOf z).ocList.length ≤ 20) {cl : List Comp} (hcl : cl.length = 100) (hw : h0.WF) {shells : List Shell}
    (hsh : shells = mol.shells.map (FShell.shell lib.gen)) {buf M : Fin 4 → List ℝ} (hb : ∀ q, maxBuf ≤ (buf q).length)
    (hM : ∀ q, (M q).length = dimOf shells * dimOf shells) :
    ∃ h' M', Restored h0 h' ∧ ftnEcpMatrices lib sf mol cl t0 (dimOf shells) h0 buf M = .ok (h', M') ∧
      ∀ q, (M' q).length = dimOf shells * dimOf shells ∧
        ∀ i j m n, (hi : i < shells.length) → (hj : j < shells.length) → m < shells[i].cart_size → n < shells[j].cart_size →
          (M' q)[(shellOff shells i + m) * dimOf shells + (shellOff shells j + n)]? =
            some ((moleculeGrpps mol.atoms (mol.grpps lib.gen)).map fun o => W shells[i] shells[j] o q m n).sum := by
  have h55 : ∀ a ∈ mol.shells, cartSize a.L ≤ 55 := fun a ha => cartSize_le (hL a ha)
  have hfit : ∀ a ∈ mol.shells, ∀ b ∈ mol.shells, cartSize a.L * cartSize b.L ≤ maxBuf := fun a ha b hb =>
    (Nat.mul_le_mul (h55 a ha) (h55 b hb)).trans (by unfold maxBuf; omega)
  have h0s : (⟨h0, buf, fun q => zeroAll (M q)⟩ : FState).Ok h0 (dimOf shells) :=
    ⟨Restored.self h0, hb, fun q => by simp only [zeroAll_length]; exact (hM q).ge⟩
  have hcl' : ∀ a ∈ mol.shells, cartSize a.L ≤ cl.length := fun a ha => by have := h55 a ha; omega
  generalize hs0 : (⟨h0, buf, fun q => zeroAll (M q)⟩ : FState) = s0 at h0s
  obtain ⟨s', e, o, ad⟩ := forFPairs_spec (κ := Fin 4) hm lib.gen ⟨0, fun _ => 0, 0, [], 0, [], []⟩ (cl := cl) hcl' hsh
    (fun st => st.Ok h0 (dimOf shells)) (fun q st => st.out q)
    (fun q A B m n => ((moleculeGrpps mol.atoms (mol.grpps lib.gen)).map fun o => W A B o q m n).sum) s0 h0s
    (body := fun io jo n1 n2 a b st => forRange mol.charges.length st fun ic st => ftnEcpPass lib sf mol t0 (dimOf shells) io jo n1 n2 a b ic st)
    (fun a ha b hb io jo st h1 h2 hst => by
      obtain ⟨s', e', o', a'⟩ := ftnEcpPasses_spec ⟨hm, he, hw, ha, hb, hfit a ha b hb, h1, h2, k⟩ hi ht hoc hst
      exact ⟨s', e', o', a'⟩)
  subst hs0
  refine ⟨s'.h, s'.out, o.restored, ?_, fun q => ?_⟩
  · unfold ftnEcpMatrices
    rw [e]
    rfl
  · have := added_zero (E := fun A B m n => ((moleculeGrpps mol.atoms (mol.grpps lib.gen)).map fun o => W A B o q m n).sum) (hM q) (ad q)
    exact this

theorem foldlM_first_ub {σ α : Type} (x : α) (l : List α) (f : σ → α → Outcome σ) (s : σ) (h : f s x = .ub) : (x :: l).foldlM f s = .ub := by
  rw [List.foldlM_cons, h]; rfl

/-- An error for the first pair of shells ends the loops. -/
theorem forFPairs_ub {σ : Type} (hm : mol.Ok) {cl : List Comp} (hcl : ∀ a ∈ mol.shells, cartSize a.L ≤ cl.length) (hne : mol.shells ≠ [])
    {body : Nat → Nat → Nat → Nat → FShell → FShell → σ → Outcome σ} (s : σ)
    (h : ∀ a ∈ mol.shells, body 0 0 (cartSize a.L) (cartSize a.L) a a s = .ub) : forFPairs mol cl s body = .ub := by
  unfold forFPairs
  rw [forFShells_eq hm]
  obtain ⟨a, l, hl⟩ := List.exists_cons_of_ne_nil hne
  have ha : a ∈ mol.shells := by rw [hl]; exact List.mem_cons_self
  have : mol.shells.foldlM (fun (st : Nat × σ) a => do
      let c1 ← generateCartesians a.L cl
      let r ← forFShells mol ((0 : Nat), st.2) fun b st2 => do
        let c2 ← generateCartesians b.L cl
        let s ← body st.1 st2.1 c1.2 c2.2 a b st2.2
        Outcome.ok (st2.1 + c2.2, s)
      Outcome.ok (st.1 + c1.2, r.2)) (0, s) = .ub := by
    rw [hl]
    refine foldlM_first_ub _ _ _ _ ?_
    rw [generateCartesians_spec _ _ (hcl a ha), Outcome.ok_bind, forFShells_eq hm, hl]
    rw [foldlM_first_ub]
    · rfl
    · rw [generateCartesians_spec _ _ (hcl a ha), Outcome.ok_bind]
      simp only [h a ha]
      rfl
  rw [this]
  rfl

theorem ftnEcpMatrices_ub (hm : mol.Ok) (he : mol.EcpOk) (hL : ∀ a ∈ mol.shells, a.L ≤ 9) (hne : mol.shells ≠ []) (hi : lib.init = true)
    (k : MolKernels lib sf (mol.shells.map (FShell.shell lib.gen)) (moleculeGrpps mol.atoms (mol.grpps lib.gen)) W) {t0 : FOcTable} (ht : t0.Sized 20)
    {z : Nat} (hz : z ∈ mol.charges) (hn : (mol.ecpOf z).numArep ≠ 0) (hoc : 20 < (mol.ecpOf z).ocList.length) {cl : List Comp}
    (hcl : cl.length = 100) (hw : h0.WF) {shells : List Shell} (hsh : shells = mol.shells.map (FShell.shell lib.gen)) {buf M : Fin 4 → List ℝ}
    (hb : ∀ q, maxBuf ≤ (buf q).length) (hM : ∀ q, (M q).length = dimOf shells * dimOf shells) :
    ftnEcpMatrices lib sf mol cl t0 (dimOf shells) h0 buf M = .ub := by
  have h55 : ∀ a ∈ mol.shells, cartSize a.L ≤ 55 := fun a ha => cartSize_le (hL a ha)
  unfold ftnEcpMatrices
  rw [forFPairs_ub hm (fun a ha => by have := h55 a ha; omega) hne]
  · rfl
  · intro a ha
    have hd : 0 + cartSize a.L ≤ dimOf shells := by
      obtain ⟨i, hi, e⟩ := List.getElem_of_mem ha
      have := shellOff_add_le shells i (by rw [hsh]; simpa using hi)
      have e' : (shells[i]'(by rw [hsh]; simpa using hi)).cart_size = cartSize a.L := by
        simp only [hsh, List.getElem_map, e]; rfl
      omega
    exact ftnEcpPasses_ub ⟨hm, he, hw, ha, ha, (Nat.mul_le_mul (h55 a ha) (h55 a ha)).trans (by unfold maxBuf; omega), hd, hd, k⟩ hi ht hz hn hoc
      ⟨Restored.self h0, hb, fun q => by simp only [zeroAll_length]; exact (hM q).ge⟩

end Libgrpp
