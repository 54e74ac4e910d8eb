import Verif.Lemmas.FloatTable
import Verif.Lemmas.OneElectronTrue

/-! # Auxiliary lemmas for Props/Float: matrices and contractions -/

namespace Libgrpp

/-- The first `n` elements have the property. -/
def VecQ (n : Nat) (buf : List ℝ) (P : Nat → ℝ → Prop) : Prop := ∀ p < n, ∃ v, buf[p]? = some v ∧ P p v

theorem VecQ.get {n : Nat} {buf : List ℝ} {P : Nat → ℝ → Prop} (h : VecQ n buf P) {p : Nat} (hp : p < n) : ∃ v, rd buf p = .ok v ∧ P p v := by
  obtain ⟨v, e, hv⟩ := h p hp
  have hl : p < buf.length := by
    by_contra hc
    rw [List.getElem?_eq_none (by omega)] at e
    simp at e
  rw [List.getElem?_eq_getElem hl] at e
  exact ⟨v, by rw [rd_ok hl, Option.some.inj e], hv⟩

theorem VecQ.set {n : Nat} {buf : List ℝ} {P : Nat → ℝ → Prop} (h : VecQ n buf P) (hn : n < buf.length) {v : ℝ} (hv : P n v) :
    VecQ (n + 1) (buf.set n v) P := by
  intro p hp
  by_cases e : p = n
  · subst e
    exact ⟨v, List.getElem?_set_self hn, hv⟩
  · rw [List.getElem?_set_ne (fun h => e h.symm)]
    exact h p (by omega)

theorem SameBeyond.refl (n : Nat) (buf : List ℝ) : SameBeyond n buf buf := ⟨rfl, fun _ _ => rfl⟩

theorem SameBeyond.trans {n : Nat} {a b c : List ℝ} (h : SameBeyond n a b) (g : SameBeyond n b c) : SameBeyond n a c :=
  ⟨h.1.trans g.1, fun p hp => (h.2 p hp).trans (g.2 p hp)⟩

theorem SameBeyond.set {n p : Nat} {a b : List ℝ} (h : SameBeyond n a b) (hp : p < n) (v : ℝ) : SameBeyond n (a.set p v) b :=
  ⟨by rw [List.length_set]; exact h.1, fun q hq => by rw [List.getElem?_set_ne (by omega)]; exact h.2 q hq⟩

theorem orTrap_storePairs (A B : Shell) (hA : A.Listed) (hB : B.Listed) (val : Comp → Comp → Outcome ℝ) (P : Nat → ℝ → Prop) (buf : List ℝ)
    (hval : ∀ m n, m < A.cart_size → n < B.cart_size → OrTrap (val (A.comp m) (B.comp n)) (P (m * B.cart_size + n)))
    (hlen : A.cart_size * B.cart_size ≤ buf.length) :
    OrTrap (storePairs A B val buf) fun buf' => VecQ (A.cart_size * B.cart_size) buf' P ∧ SameBeyond (A.cart_size * B.cart_size) buf' buf := by
  unfold storePairs
  refine orTrap_forRange (fun m s => VecQ (m * B.cart_size) s P ∧ SameBeyond (A.cart_size * B.cart_size) s buf)
    ⟨by intro p hp; omega, .refl _ _⟩ ?_ (fun s h => h)
  rintro m s hm ⟨h1, h2⟩
  refine orTrap_forRange (fun n s => VecQ (m * B.cart_size + n) s P ∧ SameBeyond (A.cart_size * B.cart_size) s buf)
    ⟨h1, h2⟩ ?_ (fun s h => ⟨by rw [Nat.succ_mul]; exact h.1, h.2⟩)
  rintro n s hn ⟨h1, h2⟩
  rw [A.rd_comp hA hm, B.rd_comp hB hn]
  simp only [Outcome.ok_bind]
  refine (hval m n hm hn).bind fun v hv => ?_
  have hp := rowMajor_lt hm hn
  have hl : m * B.cart_size + n < s.length := by rw [h2.1]; omega
  rw [wr_ok v hl]
  exact .ok ⟨h1.set hl hv, h2.set hp v⟩

theorem orTrap_flDaxpy (F : Arith) (n : Nat) (a : ℝ) (x y : List ℝ) (P Q R : Nat → ℝ → Prop) (hx : VecQ n x P) (hy : VecQ n y Q)
    (hstep : ∀ p v u, p < n → P p v → Q p u → OrTrap (do
      let t ← F.mul a v
      F.add u t) (R p)) :
    OrTrap (flDaxpy F n a x y) fun y' => VecQ n y' R ∧ SameBeyond n y' y := by
  unfold flDaxpy
  refine orTrap_forRange (fun k s => VecQ k s R ∧ (∀ p, k ≤ p → s[p]? = y[p]?) ∧ s.length = y.length)
    ⟨by intro p hp; omega, fun _ _ => rfl, rfl⟩ ?_ (fun s h => ⟨h.1, h.2.2, h.2.1⟩)
  rintro k s hk ⟨h1, h2, h3⟩
  obtain ⟨v, ev, hv⟩ := hx.get hk
  obtain ⟨u, eu, hu⟩ := hy k hk
  have hl : k < s.length := by
    rw [h3]
    by_contra hc
    rw [List.getElem?_eq_none (by omega)] at eu
    simp at eu
  have eu' : rd s k = .ok u := by
    have := h2 k le_rfl
    rw [eu, List.getElem?_eq_getElem hl] at this
    rw [rd_ok hl, Option.some.inj this]
  rw [ev, eu']
  simp only [Outcome.ok_bind]
  have := (hstep k v u hk hv hu).bind (k := fun r => wr s k r) (Q := fun s' => VecQ (k + 1) s' R ∧ (∀ p, k + 1 ≤ p → s'[p]? = y[p]?) ∧ s'.length = y.length)
    fun r hr => by
      rw [wr_ok r hl]
      refine .ok ⟨h1.set hl hr, fun p hp => ?_, by rw [List.length_set]; exact h3⟩
      rw [List.getElem?_set_ne (by omega)]
      exact h2 p (by omega)
  simpa only [bind_assoc] using this

section
variable {F : Arith} {w z : ℝ} (hF : F.Acc w z)
include hF

/-- The contraction adds `2 + n_A n_B` roundings. -/
theorem orTrap_flContract (A B : Shell) (hA : A.WF) (hB : B.WF) (prim : ℝ → ℝ → List ℝ → Outcome (List ℝ)) (g G : ℝ → ℝ → Nat → ℝ) (e : ℝ) (he : 0 ≤ e)
    (out : List ℝ)
    (hprim : ∀ i j buf, i < A.num → j < B.num → A.cart_size * B.cart_size ≤ buf.length →
      OrTrap (prim (A.alphaAt i) (B.alphaAt j) buf) fun buf' =>
        VecQ (A.cart_size * B.cart_size) buf' (fun p v => Close e v (g (A.alphaAt i) (B.alphaAt j) p) (G (A.alphaAt i) (B.alphaAt j) p)) ∧
          SameBeyond (A.cart_size * B.cart_size) buf' buf)
    (hlen : A.cart_size * B.cart_size ≤ out.length) :
    OrTrap (flContract F A B prim out) fun out' =>
      VecQ (A.cart_size * B.cart_size) out' (fun p v => Close (e + (2 + A.num * B.num) * w) v
        (∑ i ∈ Finset.range A.num, ∑ j ∈ Finset.range B.num, A.coeffAt i * B.coeffAt j * g (A.alphaAt i) (B.alphaAt j) p)
        (∑ i ∈ Finset.range A.num, ∑ j ∈ Finset.range B.num, |A.coeffAt i * B.coeffAt j| * G (A.alphaAt i) (B.alphaAt j) p)) ∧
      SameBeyond (A.cart_size * B.cart_size) out' out := by
  have hw := hF.nonneg
  obtain ⟨out0, hm, hz, hsame⟩ := memset0_spec (A.cart_size * B.cart_size) out hlen
  unfold flContract
  simp only [hm, Outcome.ok_bind]
  let T : Nat → Nat → Nat → ℝ := fun i j p => A.coeffAt i * B.coeffAt j * g (A.alphaAt i) (B.alphaAt j) p
  let U : Nat → Nat → Nat → ℝ := fun i j p => |A.coeffAt i * B.coeffAt j| * G (A.alphaAt i) (B.alphaAt j) p
  refine OrTrap.bind (P := fun r : List ℝ × List ℝ => VecQ (A.cart_size * B.cart_size) r.2 (fun p v => Close (e + (2 + A.num * B.num) * w) v
      (∑ i ∈ Finset.range A.num, ∑ j ∈ Finset.range B.num, T i j p) (∑ i ∈ Finset.range A.num, ∑ j ∈ Finset.range B.num, U i j p)) ∧
      SameBeyond (A.cart_size * B.cart_size) r.2 out) ?_ (fun r hr => .ok hr)
  refine orTrap_forRange (fun k (st : List ℝ × List ℝ) => st.1.length = A.cart_size * B.cart_size ∧
    VecQ (A.cart_size * B.cart_size) st.2 (fun p v => Close (e + (2 + k * B.num) * w) v
      (∑ i ∈ Finset.range k, ∑ j ∈ Finset.range B.num, T i j p) (∑ i ∈ Finset.range k, ∑ j ∈ Finset.range B.num, U i j p)) ∧
    SameBeyond (A.cart_size * B.cart_size) st.2 out) ⟨by simp, ?_, hsame⟩ ?_ (fun st h => h.2)
  · intro p hp
    refine ⟨0, hz p hp, ?_⟩
    simp only [Finset.range_zero, Finset.sum_empty]
    exact Close.zero (by push_cast; nlinarith)
  · rintro i ⟨buf, o⟩ hi ⟨hbl, hv, hs⟩
    refine orTrap_forRange (fun k (st : List ℝ × List ℝ) => st.1.length = A.cart_size * B.cart_size ∧
      VecQ (A.cart_size * B.cart_size) st.2 (fun p v => Close (e + (2 + i * B.num + k) * w) v
        ((∑ i ∈ Finset.range i, ∑ j ∈ Finset.range B.num, T i j p) + ∑ j ∈ Finset.range k, T i j p)
        ((∑ i ∈ Finset.range i, ∑ j ∈ Finset.range B.num, U i j p) + ∑ j ∈ Finset.range k, U i j p)) ∧
      SameBeyond (A.cart_size * B.cart_size) st.2 out) ⟨hbl, ?_, hs⟩ ?_ ?_
    · intro p hp
      obtain ⟨v, e1, e2⟩ := hv p hp
      refine ⟨v, e1, ?_⟩
      simpa only [Finset.range_zero, Finset.sum_empty, add_zero, Nat.cast_zero] using e2
    · rintro j ⟨buf, o⟩ hj ⟨hbl, hv, hs⟩
      simp only at hbl hv hs ⊢
      rw [rd_getD (show i < A.alpha.length from lt_of_lt_of_le hi hA.2),
        rd_getD (show j < B.alpha.length from lt_of_lt_of_le hj hB.2),
        rd_getD (show i < A.coeffs.length from lt_of_lt_of_le hi hA.1),
        rd_getD (show j < B.coeffs.length from lt_of_lt_of_le hj hB.1)]
      simp only [Outcome.ok_bind]
      refine (hprim i j buf hi hj (by omega)).bind fun buf' hb => ?_
      refine (hF.mul (A.coeffs.getD i 0) (B.coeffs.getD j 0)).bind fun cc hcc => ?_
      have hcc : Close w cc (A.coeffAt i * B.coeffAt j) |A.coeffAt i * B.coeffAt j| := hcc.close le_rfl
      refine (orTrap_flDaxpy F _ cc buf' o _ _ (fun p v => Close (e + (2 + i * B.num + (j + 1)) * w) v
        ((∑ i ∈ Finset.range i, ∑ j ∈ Finset.range B.num, T i j p) + ∑ j ∈ Finset.range j, T i j p + T i j p)
        ((∑ i ∈ Finset.range i, ∑ j ∈ Finset.range B.num, U i j p) + ∑ j ∈ Finset.range j, U i j p + U i j p)) hb.1 hv ?_).bind ?_
      · intro p v u hp hv hu
        refine (hF.mulC hcc hv).bind fun t ht => ?_
        have ht' := ht.mono (e' := e + (2 + i * B.num + j) * w) (by
          have : 0 ≤ ((i : ℝ) * B.num + j) * w := by positivity
          linarith)
        exact (hF.addC hu ht').mono fun r hr => hr.mono (by linarith)
      · rintro o' ⟨h1, h2⟩
        refine .ok ⟨by simpa only [hb.2.1] using hbl, ?_, h2.trans hs⟩
        intro p hp
        obtain ⟨v, e1, e2⟩ := h1 p hp
        refine ⟨v, e1, ?_⟩
        beta_reduce
        rw [Finset.sum_range_succ, Finset.sum_range_succ, ← add_assoc, ← add_assoc]
        push_cast
        exact e2
    · rintro ⟨buf, o⟩ ⟨h1, h2, h3⟩
      refine ⟨h1, ?_, h3⟩
      intro p hp
      obtain ⟨v, e1, e2⟩ := h2 p hp
      refine ⟨v, e1, ?_⟩
      beta_reduce
      rw [Finset.sum_range_succ, Finset.sum_range_succ]
      refine e2.mono (le_of_eq ?_)
      push_cast
      ring

/-! ## The table -/

/-- Majorant of the one-dimensional overlap integral: the same integral with `P - A` and `P - B` replaced by bounds for their terms. -/
noncomputable def osMaj (a b A B : ℝ) (i j : Nat) : ℝ :=
  Real.exp (-(a * b / (a + b)) * (A - B) * (A - B)) *
    gaussMaj (a + b) ((a * |A| + b * |B|) / (a + b) + |A|) ((a * |A| + b * |B|) / (a + b) + |B|) i j

theorem flFillS_ok (hw1 : w ≤ 1 / 49) (d iMax jMax : Nat) (hid : iMax < d) (hjd : jMax < d) {a b : ℝ} (ha : 0 < a) (hb : 0 < b) (A B : Point) :
    OrTrap (flFillS F d iMax jMax a b A B) fun S => ∀ (c : Fin 3) (i j : Nat), i ≤ iMax → j ≤ jMax → ∃ v, S c i j = some v ∧
      Close (tabExp w z (a * b / (a + b) * (A c - B c) ^ 2) (i + j)) v (gauss1 a b (A c) (B c) i j) (osMaj a b (A c) (B c) i j) := by
  have hw := hF.nonneg
  have hp0 : 0 < a + b := by linarith
  unfold flFillS
  refine (hF.add a b).bind fun p hp => ?_
  refine (hF.mul a b).bind fun t ht => ?_
  refine (hF.add a b).bind fun q hq => ?_
  refine (hF.divN ht hq hp0).bind fun mu hmu => ?_
  have hmu : Near (3 * w) mu (a * b / (a + b)) := hmu.mono (by linarith)
  let Q : Fin 3 → Nat → Nat → ℝ → Prop := fun c i j v =>
    Close (tabExp w z (a * b / (a + b) * (A c - B c) ^ 2) (i + j)) v (gauss1 a b (A c) (B c) i j) (osMaj a b (A c) (B c) i j)
  refine orTrap_forCoord (fun k S => FilledQ S Q iMax jMax k 0 0) (filledQ_uninit Q iMax jMax) ?_ ?_
  · intro c S hS
    refine (hF.mul a (A c)).bind fun x hx => ?_
    refine (hF.mul b (B c)).bind fun y hy => ?_
    have hx := hx.close (a := a * |A c|) (by rw [abs_mul, abs_of_pos ha])
    have hy := hy.close (a := b * |B c|) (by rw [abs_mul, abs_of_pos hb])
    refine (hF.addC hx hy).bind fun t ht => ?_
    refine (hF.divC ht hp hp0).bind fun P hP => ?_
    refine (hF.sub (A c) (B c)).bind fun xab hxab => ?_
    have hP : Close (4 * w) P ((a * A c + b * B c) / (a + b)) ((a * |A c| + b * |B c|) / (a + b)) := hP.mono (by linarith)
    refine (hF.subC hP (Close.refl (by linarith) (A c))).bind fun xpa hxpa => ?_
    refine (hF.subC hP (Close.refl (by linarith) (B c))).bind fun xpb hxpb => ?_
    refine (hF.mulN (Near.refl le_rfl 2) hp).bind fun t ht => ?_
    refine (hF.divN (Near.refl le_rfl 1) ht (by linarith)).bind fun pfac hpfac => ?_
    refine fill_rows iMax jMax Q c _ ?_ S hS
    intro i j S hi hj hS
    exact flOsStep_ok hF hw1 d iMax jMax hid hjd c hp hp0 hmu (by positivity) hxab rfl
      (hxpa.mono (by linarith)) (hxpb.mono (by linarith)) (hpfac.mono (by linarith)) (by positivity)
      (gauss1 a b (A c) (B c)) (osMaj a b (A c) (B c)) (gauss1_os hp0 (A c) (B c)) (gaussMaj_os hp0 _ _ _) Q (fun i j v => Iff.rfl) i j S hi hj hS
  · intro S hS c i j hi hj
    exact hS c i j hi hj (Or.inl c.isLt)

end

end Libgrpp
