import Verif.Model.FortranRpp
import Verif.Lemmas.FortranFiles
import Verif.Lemmas.GrppFile

/-! # Lemmas on the reader of pseudopotentials of the Fortran front end (C110) -/

namespace Libgrpp

/-! ## Statements which stay on one line -/

theorem read_rpp_star {num : FtnNum} {z n m : Nat} {r : FRecord} {recs rs : List FRecord} (hr : RppStarRec num z n m r) (h : nonBlank recs = r :: rs) :
    ∃ rest, nonBlank rest = rs ∧ rest.length < recs.length ∧ fRead (rppHeader num) recs = .ok (['*'], [(z : Int), (n : Int), (m : Int)]) rest := by
  obtain ⟨s, t, u, v, more, rfl, h1, h2, h3⟩ := hr
  obtain ⟨rest, t', c', e, g1, g2, g3⟩ := nextValue_cons h
  obtain ⟨rfl, rfl⟩ := List.cons.inj e
  refine ⟨rest, g1, g2, ?_⟩
  unfold rppHeader
  rw [fRead_next g3, fItem_chr, FRes.ok_bind]
  simp only [fItems, fItem_cons h1, fItem_cons h2, fItem_cons h3, FRes.ok_bind]
  rfl

theorem read_pot {num : FtnNum} {p : PotRow} {r : FRecord} {recs rs : List FRecord} (hr : PotRowRec num p r) (h : nonBlank recs = r :: rs) :
    ∃ rest, nonBlank rest = rs ∧ rest.length < recs.length ∧ fReadStop (potItems num p.oc.length) recs = .ok (⟨p.power, p.exp, p.arep, p.esop, p.oc⟩, rest) := by
  obtain ⟨t, u1, u2, u3, us, more, rfl, h1, h2, h3, h4, h5⟩ := hr
  obtain ⟨rest, t', c', e', g1, g2, g3⟩ := nextValue_cons h
  obtain ⟨rfl, rfl⟩ := List.cons.inj e'
  refine ⟨rest, g1, g2, ?_⟩
  unfold fReadStop potItems
  rw [fRead_next g3, fItem_cons h1, FRes.ok_bind, fItem_cons h2, FRes.ok_bind, fItem_cons h3, FRes.ok_bind, fItem_cons h4, FRes.ok_bind, fItems_real h5,
    FRes.ok_bind]
  rfl

/-! ## The search for a header -/

theorem PotRowRec.data {num : FtnNum} {p : PotRow} {r : FRecord} (h : PotRowRec num p r) : DataRec r := by
  obtain ⟨t, u1, u2, u3, us, more, rfl, h1, -⟩ := h
  exact ⟨t, _, rfl, num.int_head h1⟩

theorem PotRowRec.closed {num : FtnNum} {p : PotRow} {r : FRecord} (h : PotRowRec num p r) : RppClosed num r := by
  obtain ⟨t, u1, u2, u3, us, more, rfl, -⟩ := h
  left; simp only [List.length_cons]; omega

theorem PotBlockRecs.data {num : FtnNum} {b : PotBlock} {rs : List FRecord} (h : PotBlockRecs num b rs) : ∀ r ∈ rs, DataRec r := by
  obtain ⟨hh, hr⟩ := h
  intro r hm0
  rcases List.mem_cons.1 hm0 with rfl | hm
  · exact hh.data
  · clear hh hm0
    generalize b.rows = l at hr
    induction hr with
    | nil => simp at hm
    | cons h1 _ ih =>
      rcases List.mem_cons.1 hm with rfl | hm
      · exact h1.2.data
      · exact ih hm

theorem PotBlocksRecs.data {num : FtnNum} {bs : List PotBlock} {rs : List FRecord} (h : PotBlocksRecs num bs rs) : ∀ r ∈ rs, DataRec r := by
  induction h with
  | nil => simp
  | cons h1 _ ih =>
    intro r hm
    rcases List.mem_append.1 hm with hm | hm
    · exact h1.data r hm
    · exact ih r hm

/-- The last line of a list is complete. -/
def LastRpp (num : FtnNum) (D : List FRecord) : Prop := ∀ r, D.getLast? = some r → RppClosed num r

theorem LastRpp.suffix {num : FtnNum} {D D' : List FRecord} (h : LastRpp num D) (hs : D' <:+ D) : LastRpp num D' := by
  intro r hr
  obtain ⟨p, rfl⟩ := hs
  refine h r ?_
  rw [List.getLast?_append, hr]
  rfl

/-- Integers from lines of data: either all are read, or there is an error; the rest is a part of the data. -/
theorem ints_scan {num : FtnNum} (T : List FRecord) : ∀ (n : Nat) (c : FRecord) (rest D : List FRecord), n ≤ 3 → nonBlank rest = D ++ T →
    (∀ q ∈ D, DataRec q) → LastRpp num D → (D = [] → n ≤ c.length ∨ ∃ t ∈ c, num.int t = none) →
    ∃ rest' D', D' <:+ D ∧ nonBlank rest' = D' ++ T ∧ rest'.length ≤ rest.length ∧
      (fItems num.int n (c, rest) = .err rest' ∨ ∃ v c', fItems num.int n (c, rest) = .ok v (c', rest')) := by
  intro n
  induction n with
  | zero => intro c rest D _ h _ _ _; exact ⟨rest, D, List.suffix_rfl, h, le_rfl, Or.inr ⟨[], c, rfl⟩⟩
  | succ n ih =>
    have step : ∀ (t : List Char) (c : FRecord) (rest D : List FRecord), n + 1 ≤ 3 → nonBlank rest = D ++ T →
        (∀ q ∈ D, DataRec q) → LastRpp num D → (D = [] → n + 1 ≤ (t :: c).length ∨ ∃ u ∈ t :: c, num.int u = none) →
        ∃ rest' D', D' <:+ D ∧ nonBlank rest' = D' ++ T ∧ rest'.length ≤ rest.length ∧
          (fItems num.int (n + 1) (t :: c, rest) = .err rest' ∨ ∃ v c', fItems num.int (n + 1) (t :: c, rest) = .ok v (c', rest')) := by
      intro t c rest D hn h hd hl hc
      rw [fItems]
      cases ht : num.int t with
      | none => exact ⟨rest, D, List.suffix_rfl, h, le_rfl, Or.inl (by rw [fItem_bad ht, FRes.err_bind])⟩
      | some k =>
        obtain ⟨rest', D', g1, g2, g3, g4⟩ := ih c rest D (by omega) h hd hl fun e => by
          rcases hc e with h | ⟨u, hu, h⟩
          · left; simpa using h
          · rcases List.mem_cons.1 hu with rfl | hu
            · rw [ht] at h; cases h
            · exact Or.inr ⟨u, hu, h⟩
        refine ⟨rest', D', g1, g2, g3, ?_⟩
        rw [fItem_cons ht, FRes.ok_bind]
        rcases g4 with g4 | ⟨v, c', g4⟩
        · left; rw [g4, FRes.err_bind]
        · right; rw [g4, FRes.ok_bind]; exact ⟨_, c', rfl⟩
    intro c rest D hn h hd hl hc
    cases c with
    | cons t c => exact step t c rest D hn h hd hl hc
    | nil =>
      cases D with
      | nil => rcases hc rfl with h | ⟨u, hu, -⟩ <;> simp at *
      | cons r D =>
        obtain ⟨rest1, t, c, rfl, k1, k2, k3⟩ := nextValue_cons (show nonBlank rest = r :: (D ++ T) from h)
        obtain ⟨rest', D', g1, g2, g3, g4⟩ := step t c rest1 D hn k1 (fun q hq => hd q (List.mem_cons_of_mem _ hq)) (hl.suffix (List.suffix_cons _ _)) fun e => by
          subst e
          rcases hl (t :: c) rfl with h | ⟨u, hu, h⟩
          · left; omega
          · exact Or.inr ⟨u, List.mem_cons_of_mem _ hu, h⟩
        refine ⟨rest', D', g1.trans (List.suffix_cons _ _), g2, by omega, ?_⟩
        have : fItems num.int (n + 1) ([], rest) = fItems num.int (n + 1) (t :: c, rest1) := by simp only [fItems, fItem_next k3]
        rw [this]; exact g4

theorem rpp_scan_step {num : FtnNum} {r : FRecord} {D T recs : List FRecord} (hd : ∀ q ∈ r :: D, DataRec q) (hl : LastRpp num (r :: D))
    (h : nonBlank recs = r :: (D ++ T)) (charge : Nat) (ecp : List FEcp) :
    ∃ rest D', D' <:+ D ∧ nonBlank rest = D' ++ T ∧ rest.length < recs.length ∧ ftnRppLoop num charge ecp recs = ftnRppLoop num charge ecp rest := by
  obtain ⟨rest, t, c, rfl, g1, g2, g3⟩ := nextValue_cons h
  have ht : t.head? ≠ some '*' := by
    obtain ⟨t', c', e, h'⟩ := hd _ (List.mem_cons_self ..)
    rw [(List.cons.inj e).1]; exact h'
  obtain ⟨rest', D', k1, k2, k3, k4⟩ := ints_scan T 3 c rest D le_rfl g1 (fun q hq => hd q (List.mem_cons_of_mem _ hq)) (hl.suffix (List.suffix_cons _ _)) fun e => by
    subst e
    rcases hl (t :: c) rfl with h | ⟨u, hu, h⟩
    · left; simp only [List.length_cons] at h; omega
    · exact Or.inr ⟨u, hu, h⟩
  have hlen : rest'.length < recs.length := by omega
  refine ⟨rest', D', k1, k2, hlen, ?_⟩
  have hread : fRead (rppHeader num) recs = ((fItems num.int 3 (c, rest)).bind fun v p => .ok (t.take 1, v) p).done := by
    unfold rppHeader
    rw [fRead_next g3, fItem_chr, FRes.ok_bind]
  rw [ftnRppLoop, hread]
  rcases k4 with k4 | ⟨v, c', k4⟩
  · rw [k4, FRes.err_bind]; simp only [FRes.done]; rw [dif_pos hlen]
  · rw [k4, FRes.ok_bind]; simp only [FRes.done]; rw [if_neg fun h => take_one_star ht h.1, dif_pos hlen]

/-- Lines of data are passed over. -/
theorem rpp_scan_data {num : FtnNum} (charge : Nat) (ecp : List FEcp) (T : List FRecord) :
    ∀ (n : Nat) (D recs : List FRecord), D.length ≤ n → (∀ q ∈ D, DataRec q) → LastRpp num D → nonBlank recs = D ++ T →
      ∃ rest, nonBlank rest = T ∧ ftnRppLoop num charge ecp recs = ftnRppLoop num charge ecp rest := by
  intro n
  induction n with
  | zero =>
    intro D recs hn _ _ h
    have : D = [] := List.length_eq_zero_iff.1 (by omega)
    exact ⟨recs, by rw [h, this]; rfl, rfl⟩
  | succ n ih =>
    intro D recs hn hd hl h
    cases D with
    | nil => exact ⟨recs, by rw [h]; rfl, rfl⟩
    | cons r D =>
      obtain ⟨rest, D', hs, g1, g2, g3⟩ := rpp_scan_step hd hl h charge ecp
      have hs' : D' <:+ r :: D := hs.trans (List.suffix_cons _ _)
      obtain ⟨rest', k1, k3⟩ := ih D' rest (by have := hs.length_le; simp only [List.length_cons] at hn; omega) (fun q hq => hd q (hs'.subset hq))
        (hl.suffix hs') g1
      exact ⟨rest', k1, g3.trans k3⟩

theorem rpp_loop_end {num : FtnNum} (charge : Nat) (ecp : List FEcp) {recs : List FRecord} (h : nonBlank recs = []) :
    ftnRppLoop num charge ecp recs = .ok ecp := by
  have : fRead (rppHeader num) recs = .eof := by
    unfold fRead rppHeader fItem
    simp only [nextValue_none h, FRes.bind, FRes.done]
  rw [ftnRppLoop, this]

/-! ## Storing an entry -/

/-- The rows of a two-dimensional array have `M` elements, and there are `N` of them. -/
def Rect (N M : Nat) (co : List (List ℝ)) : Prop := co.length = N ∧ ∀ r ∈ co, r.length = M

theorem storeCols_spec {N M ip : Nat} (cs : List ℝ) {co : List (List ℝ)} (hco : Rect N M co) (hip : ip < M) (hcs : cs.length ≤ N) :
    ∃ co', storeCols ip cs co = .ok co' ∧ Rect N M co' ∧
      ∀ i (_ : i < cs.length), ∃ row, co[i]? = some row ∧ co'[i]? = some (row.set ip (cs.getD i 0)) := by
  unfold storeCols
  refine forRange_spec (fun m co' => Rect N M co' ∧
    (∀ i, i < m → ∃ row, co[i]? = some row ∧ co'[i]? = some (row.set ip (cs.getD i 0))) ∧ ∀ i, m ≤ i → co'[i]? = co[i]?) ?_ ?_ ?_
  · exact ⟨hco, fun i hi => absurd hi (by omega), fun _ _ => rfl⟩
  · rintro m co' hm ⟨⟨h1, h2⟩, h3, h4⟩
    have hmk : m < co.length := by rw [hco.1]; omega
    have hmc : m < co'.length := by rw [h1]; omega
    have e1 : co'[m]? = some co[m] := by rw [h4 m le_rfl, List.getElem?_eq_getElem hmk]
    have hlen : ip < (co[m]).length := by rw [hco.2 _ (List.getElem_mem hmk)]; exact hip
    have e2 : rd cs m = .ok (cs.getD m 0) := by
      rw [rd_ok hm, List.getD_eq_getElem?_getD, List.getElem?_eq_getElem hm]; rfl
    have e3 : rd co' m = .ok co[m] := by unfold rd; rw [e1]
    refine ⟨co'.set m (co[m].set ip (cs.getD m 0)), ?_, ⟨by simpa using h1, ?_⟩, ?_, ?_⟩
    · simp only [e2, e3, Outcome.ok_bind, wr_ok _ hlen, wr_ok _ hmc]
    · intro r hr
      rcases List.mem_or_eq_of_mem_set hr with hr | rfl
      · exact h2 r hr
      · rw [List.length_set]; exact hco.2 _ (List.getElem_mem hmk)
    · intro i hi
      rcases Nat.lt_succ_iff_lt_or_eq.1 hi with hi | rfl
      · obtain ⟨row, f1, f2⟩ := h3 i hi
        exact ⟨row, f1, by rw [List.getElem?_set_ne (by omega)]; exact f2⟩
      · exact ⟨_, List.getElem?_eq_getElem hmk, by rw [List.getElem?_set_self hmc]⟩
    · intro i hi
      rw [List.getElem?_set_ne (by omega)]
      exact h4 i (by omega)
  · rintro co' ⟨h1, h2, -⟩
    exact ⟨h1, h2⟩

theorem storeCols_ub {N M ip : Nat} {cs : List ℝ} {co : List (List ℝ)} (hco : Rect N M co) (hip : ip < M) (hcs : N < cs.length) :
    storeCols ip cs co = .ub := by
  unfold storeCols
  refine (forRange_okUb (n := cs.length) (fun _ co => Rect N M co) hco ?_).2 N hcs ?_
  · rintro m co hm ⟨h1, h2⟩
    rw [rd_ok hm, Outcome.ok_bind]
    by_cases hmc : m < co.length
    · left
      have hl : ip < (co[m]).length := by rw [h2 _ (List.getElem_mem hmc)]; exact hip
      refine ⟨co.set m (co[m].set ip cs[m]), ?_, by simpa using h1, fun r hr => ?_⟩
      · simp only [rd_ok hmc, Outcome.ok_bind, wr_ok _ hl, wr_ok _ hmc]
      · rcases List.mem_or_eq_of_mem_set hr with hr | rfl
        · exact h2 r hr
        · rw [List.length_set]; exact h2 _ (List.getElem_mem hmc)
    · right
      rw [rd_ub (by omega)]; rfl
  · rintro co ⟨h1, -⟩
    rw [rd_ok hcs, Outcome.ok_bind, rd_ub (by omega)]; rfl

theorem storeCols_okUb {N M ip : Nat} (cs : List ℝ) {co : List (List ℝ)} (hco : Rect N M co) (hip : ip < M) : OkUb (Rect N M) (storeCols ip cs co) := by
  by_cases hcs : cs.length ≤ N
  · obtain ⟨co', h1, h2, -⟩ := storeCols_spec cs hco hip hcs
    exact Or.inl ⟨co', h1, h2⟩
  · exact Or.inr (storeCols_ub hco hip (by omega))

/-- A line from which a statement reads the values `v`. -/
def ReadsLine {V : Type} (items : FPos → FRes V) (v : V) (r : FRecord) : Prop :=
  ∀ recs rs, nonBlank recs = r :: rs → ∃ rest, nonBlank rest = rs ∧ rest.length < recs.length ∧ fReadStop items recs = .ok (v, rest)

theorem readLines_spec {V : Type} {items : FPos → FRes V} {store : Nat → V → FEcpRow → Outcome FEcpRow} {vs : List V} {rs T recs : List FRecord}
    (hr : List.Forall₂ (ReadsLine items) vs rs) (h : nonBlank recs = rs ++ T) (I : Nat → FEcpRow → Prop) {r : FEcpRow} (h0 : I 0 r)
    (hstep : ∀ m (hm : m < vs.length) r, I m r → ∃ r', store m vs[m] r = .ok r' ∧ I (m + 1) r') :
    ∃ r' rest, ftnReadLines items store vs.length r recs = .ok (r', rest) ∧ nonBlank rest = T ∧ rest.length ≤ recs.length ∧ I vs.length r' := by
  have : ∃ st, ftnReadLines items store vs.length r recs = .ok st ∧ nonBlank st.2 = T ∧ st.2.length ≤ recs.length ∧ I vs.length st.1 := by
    unfold ftnReadLines
    refine forRange_spec (fun m (st : FEcpRow × List FRecord) => nonBlank st.2 = rs.drop m ++ T ∧ st.2.length ≤ recs.length ∧ I m st.1) ⟨h, le_rfl, h0⟩ ?_ ?_
    · rintro m ⟨r1, recs1⟩ hm ⟨h1, h2, h3⟩
      obtain ⟨q, f1, f2, f3⟩ := forall₂_get hr hm
      simp only at h1 h2 h3
      rw [f3] at h1
      obtain ⟨rest1, q1, q2, q3⟩ := f2 recs1 _ (show nonBlank recs1 = q :: (rs.drop (m + 1) ++ T) from h1)
      obtain ⟨r2, s1, s2⟩ := hstep m hm r1 h3
      exact ⟨(r2, rest1), by simp only [q3, Outcome.ok_bind, s1], q1, by simp only; omega, s2⟩
    · rintro st ⟨h1, h2, h3⟩
      refine ⟨?_, h2, h3⟩
      rw [h1, hr.length_eq, List.drop_length]; rfl
  obtain ⟨⟨r', rest⟩, h1, h2⟩ := this
  exact ⟨r', rest, h1, h2⟩

theorem readLines_ub {V : Type} {items : FPos → FRes V} {store : Nat → V → FEcpRow → Outcome FEcpRow} {vs : List V} {rs T recs : List FRecord}
    (hr : List.Forall₂ (ReadsLine items) vs rs) (h : nonBlank recs = rs ++ T) (I : FEcpRow → Prop) {r : FEcpRow} (h0 : I r)
    (hstep : ∀ m (hm : m < vs.length) r, I r → OkUb I (store m vs[m] r)) {k : Nat} (hk : k < vs.length) (hub : ∀ r, I r → store k vs[k] r = .ub) :
    ftnReadLines items store vs.length r recs = .ub := by
  have key : ∀ m (_ : m < vs.length) (st : FEcpRow × List FRecord), nonBlank st.2 = rs.drop m ++ T →
      ∃ rest1, nonBlank rest1 = rs.drop (m + 1) ++ T ∧ fReadStop items st.2 = .ok (vs[m], rest1) := by
    rintro m hm ⟨k1, recs1⟩ h1
    obtain ⟨q, f1, f2, f3⟩ := forall₂_get hr hm
    simp only at h1
    rw [f3] at h1
    obtain ⟨rest1, q1, q2, q3⟩ := f2 recs1 _ (show nonBlank recs1 = q :: (rs.drop (m + 1) ++ T) from h1)
    exact ⟨rest1, q1, q3⟩
  unfold ftnReadLines
  refine (forRange_okUb (fun m (st : FEcpRow × List FRecord) => nonBlank st.2 = rs.drop m ++ T ∧ I st.1) ⟨h, h0⟩ ?_).2 k hk ?_
  · rintro m st hm ⟨h1, h2⟩
    obtain ⟨rest1, q1, q2⟩ := key m hm st h1
    simp only [q2, Outcome.ok_bind]
    rcases hstep m hm st.1 h2 with ⟨r2, s1, s2⟩ | s1
    · exact Or.inl ⟨(r2, rest1), by rw [s1, Outcome.ok_bind], q1, s2⟩
    · exact Or.inr (by rw [s1]; rfl)
  · rintro st ⟨h1, h2⟩
    obtain ⟨rest1, q1, q2⟩ := key k hk st h1
    simp only [q2, Outcome.ok_bind, hub _ h2]
    rfl

theorem forall₂_map_left_mono {α β γ : Type} {R : α → β → Prop} {S : γ → β → Prop} (f : α → γ) {l : List α} {l' : List β} (h : List.Forall₂ R l l')
    (hRS : ∀ a b, R a b → S (f a) b) : List.Forall₂ S (l.map f) l' := by
  induction h with
  | nil => exact .nil
  | cons h1 _ ih => exact .cons (hRS _ _ h1) ih

/-! ### Outer-core functions -/

/-- What a block of outer-core functions changes in a row. -/
def OcChange (b : BasisBlock) (r r' : FEcpRow) : Prop :=
  OcBlockIs b r' ∧ ∃ al co, r' = { r with ocNum := b.rows.length, numOc := b.nc, ocAlpha := al, ocCoeffs := co }

theorem EcpRowSized.rectOc {r : FEcpRow} (h : EcpRowSized r) : Rect 50 50 r.ocCoeffs := ⟨h.funs, h.fun_⟩

theorem EcpRowSized.rectPot {r : FEcpRow} (h : EcpRowSized r) : Rect 20 50 r.ocpot := ⟨h.pots, h.pot⟩

theorem EcpRowSized.withOc {r : FEcpRow} (h : EcpRowSized r) (n m : Nat) {al : List ℝ} (hal : al.length = 50) {co : List (List ℝ)} (hco : Rect 50 50 co) :
    EcpRowSized { r with ocNum := n, numOc := m, ocAlpha := al, ocCoeffs := co } :=
  ⟨h.alpha, h.powers, h.arep, h.esop, h.pots, h.pot, hal, hco.1, hco.2⟩

theorem readOc_spec {num : FtnNum} {b : BasisBlock} {rs T recs : List FRecord} (hb : BlockRecs num b rs) (hnp : b.rows.length ≤ 50) (hnc : b.nc ≤ 50)
    (h : nonBlank recs = rs ++ T) {r : FEcpRow} (hs : EcpRowSized r) :
    ∃ r' rest, ftnReadOcBlock num r recs = .ok (r', rest) ∧ nonBlank rest = T ∧ rest.length ≤ recs.length ∧ EcpRowSized r' ∧ OcChange b r r' := by
  obtain ⟨hh, hr⟩ := hb
  rename_i hd rs
  obtain ⟨rest0, g1, g2, g3⟩ := read_ints hh (show nonBlank recs = hd :: (rs ++ T) from h)
  have hlen : ∀ m (hm : m < b.rows.length), (b.rows[m]).2.length = b.nc := fun m hm => by
    obtain ⟨-, -, ⟨f, -⟩, -⟩ := forall₂_get hr hm; exact f
  have hr' : List.Forall₂ (ReadsLine (basisRow num b.nc)) b.rows rs := by
    refine hr.imp fun v q hq recs rs h => ?_
    have := read_row hq.2 h
    rw [hq.1] at this
    exact this
  obtain ⟨r', rest, e1, e2, e3, e4⟩ := readLines_spec (store := storeOc) hr' g1 (fun m r' => EcpRowSized r' ∧ r'.ocAlpha.take m = b.exps.take m ∧
      (∀ i < b.nc, ∃ c, r'.ocCoeffs[i]? = some c ∧ c.take m = (b.col i).take m) ∧
      ∃ al co, r' = { r with ocNum := b.rows.length, numOc := b.nc, ocAlpha := al, ocCoeffs := co })
    (r := { r with ocNum := b.rows.length, numOc := b.nc })
    ⟨hs.withOc _ _ hs.ocAlpha hs.rectOc, by simp, fun i hi => ⟨r.ocCoeffs[i]'(by rw [hs.funs]; omega), List.getElem?_eq_getElem _, by simp⟩, _, _, rfl⟩
    (fun m hm r1 h1 => by
      obtain ⟨h1, h2, h3, al, co, h4⟩ := h1
      have hma : m < r1.ocAlpha.length := by rw [h1.ocAlpha]; omega
      obtain ⟨co', s1, s2, s3⟩ := storeCols_spec (ip := m) (b.rows[m]).2 h1.rectOc (by omega) (by rw [hlen m hm]; exact hnc)
      refine ⟨{ r1 with ocAlpha := r1.ocAlpha.set m (b.rows[m]).1, ocCoeffs := co' }, ?_, ?_, ?_, fun i hi => ?_, ?_⟩
      · unfold storeOc; rw [wr_ok _ hma, Outcome.ok_bind, s1, Outcome.ok_bind]
      · exact h1.withOc _ _ (by simpa using h1.ocAlpha) s2
      · simp only
        rw [take_set_snoc h2 hma, List.take_add_one]
        congr 1
        simp [BasisBlock.exps, List.getElem?_eq_getElem hm]
      · obtain ⟨row, t1, t2⟩ := s3 i (by rw [hlen m hm]; exact hi)
        obtain ⟨row', u1, u2⟩ := h3 i hi
        rw [t1] at u1
        obtain rfl := Option.some.inj u1
        refine ⟨_, t2, ?_⟩
        have hrl : row.length = 50 := h1.fun_ row (List.mem_of_getElem? t1)
        rw [take_set_snoc u2 (by rw [hrl]; omega), List.take_add_one]
        congr 1
        simp [BasisBlock.col, List.getElem?_eq_getElem hm]
      · exact ⟨_, _, by rw [h4]⟩)
  obtain ⟨e4, e5, e6, al, co, e7⟩ := e4
  refine ⟨r', rest, ?_, e2, by omega, e4, ⟨by rw [e7], by rw [e7], ?_, fun i hi => ?_⟩, al, co, e7⟩
  · unfold ftnReadOcBlock
    rw [g3, Outcome.ok_bind]
    simp only [Int.toNat_natCast]
    exact e1
  · rw [e5, List.take_of_length_le (by simp [BasisBlock.exps])]
  · obtain ⟨row, u1, u2⟩ := e6 i hi
    exact ⟨row, u1, by rw [u2, List.take_of_length_le (by simp [BasisBlock.col])]⟩

theorem storeOc_okUb {ip : Nat} (v : ℝ × List ℝ) {r : FEcpRow} (hs : EcpRowSized r) :
    OkUb EcpRowSized (storeOc ip v r) ∧ (50 ≤ ip ∨ 50 < v.2.length → storeOc ip v r = .ub) := by
  by_cases hip : ip < 50
  · have e : storeOc ip v r = (storeCols ip v.2 r.ocCoeffs).bind fun co => .ok { r with ocAlpha := r.ocAlpha.set ip v.1, ocCoeffs := co } := by
      unfold storeOc; rw [wr_ok _ (by rw [hs.ocAlpha]; exact hip), Outcome.ok_bind]; rfl
    refine ⟨?_, fun h => ?_⟩
    · rw [e]
      rcases storeCols_okUb v.2 hs.rectOc hip with ⟨co, s1, s2⟩ | s1
      · exact Or.inl ⟨_, by rw [s1]; rfl, hs.withOc _ _ (by simpa using hs.ocAlpha) s2⟩
      · exact Or.inr (by rw [s1]; rfl)
    · rw [e, storeCols_ub hs.rectOc hip (by omega)]; rfl
  · have hub : storeOc ip v r = .ub := by unfold storeOc; rw [wr_ub _ (by rw [hs.ocAlpha]; omega)]; rfl
    exact ⟨Or.inr hub, fun _ => hub⟩

theorem readOc_outside {num : FtnNum} {b : BasisBlock} {rs T recs : List FRecord} (hb : BlockRecs num b rs)
    (hout : 50 < b.rows.length ∨ 50 < b.nc ∧ b.rows ≠ []) (h : nonBlank recs = rs ++ T) {r : FEcpRow} (hs : EcpRowSized r) :
    ftnReadOcBlock num r recs = .ub := by
  obtain ⟨hh, hr⟩ := hb
  rename_i hd rs
  obtain ⟨rest0, g1, g2, g3⟩ := read_ints hh (show nonBlank recs = hd :: (rs ++ T) from h)
  have hlen : ∀ m (hm : m < b.rows.length), (b.rows[m]).2.length = b.nc := fun m hm => by
    obtain ⟨-, -, ⟨f, -⟩, -⟩ := forall₂_get hr hm; exact f
  have hr' : List.Forall₂ (ReadsLine (basisRow num b.nc)) b.rows rs := by
    refine hr.imp fun v q hq recs rs h => ?_
    have := read_row hq.2 h
    rw [hq.1] at this
    exact this
  unfold ftnReadOcBlock
  rw [g3, Outcome.ok_bind]
  simp only [Int.toNat_natCast]
  have hs0 : EcpRowSized { r with ocNum := b.rows.length, numOc := b.nc } := hs.withOc _ _ hs.ocAlpha hs.rectOc
  rcases hout with hout | ⟨hout, hne⟩
  · exact readLines_ub hr' g1 EcpRowSized hs0 (fun m hm r h => (storeOc_okUb _ h).1) hout fun r h => (storeOc_okUb _ h).2 (Or.inl le_rfl)
  · have h0 : 0 < b.rows.length := List.length_pos_iff.2 hne
    exact readLines_ub hr' g1 EcpRowSized hs0 (fun m hm r h => (storeOc_okUb _ h).1) h0 fun r h => (storeOc_okUb _ h).2 (Or.inr (by rw [hlen 0 h0]; exact hout))

/-! ### Potentials -/

/-- What a block of potentials changes in a row. -/
def PotChange (b : PotBlock) (r r' : FEcpRow) : Prop :=
  PotBlockIs b r' ∧ ∃ po al ar es oc, r' = { r with numPrim := b.rows.length, powers := po, alpha := al, arep := ar, esop := es, ocpot := oc }

theorem EcpRowSized.withPot {r : FEcpRow} (h : EcpRowSized r) (n : Nat) {po : List Int} (hpo : po.length = 50) {al ar es : List ℝ} (hal : al.length = 50)
    (har : ar.length = 50) (hes : es.length = 50) {oc : List (List ℝ)} (hoc : Rect 20 50 oc) :
    EcpRowSized { r with numPrim := n, powers := po, alpha := al, arep := ar, esop := es, ocpot := oc } :=
  ⟨hal, hpo, har, hes, hoc.1, hoc.2, h.ocAlpha, h.funs, h.fun_⟩

/-- The values of a line. -/
def PotRow.line (p : PotRow) : RppLine := ⟨p.power, p.exp, p.arep, p.esop, p.oc⟩

theorem take_map_snoc {α β : Type} (f : α → β) {l : List α} {m : Nat} (hm : m < l.length) :
    (l.map f).take m ++ [f l[m]] = (l.map f).take (m + 1) := by
  rw [List.take_add_one]
  congr 1
  simp [List.getElem?_eq_getElem hm]

theorem pot_lines {num : FtnNum} {b : PotBlock} {rs : List FRecord} (hr : List.Forall₂ (fun (p : PotRow) r => p.oc.length = b.noc ∧ PotRowRec num p r) b.rows rs) :
    List.Forall₂ (ReadsLine (potItems num b.noc)) (b.rows.map PotRow.line) rs := by
  refine forall₂_map_left_mono PotRow.line hr fun p q hq recs rs h => ?_
  have := read_pot hq.2 h
  rw [hq.1] at this
  exact this

theorem readPot_spec {num : FtnNum} {b : PotBlock} {rs T recs : List FRecord} (hb : PotBlockRecs num b rs) (hnp : b.rows.length ≤ 50) (hnc : b.noc ≤ 20)
    (h : nonBlank recs = rs ++ T) {r : FEcpRow} (hs : EcpRowSized r) :
    ∃ r' rest, ftnReadPotBlock num r recs = .ok (r', rest) ∧ nonBlank rest = T ∧ rest.length ≤ recs.length ∧ EcpRowSized r' ∧ PotChange b r r' := by
  obtain ⟨hh, hr⟩ := hb
  rename_i hd rs
  obtain ⟨rest0, g1, g2, g3⟩ := read_ints hh (show nonBlank recs = hd :: (rs ++ T) from h)
  have hlen : ∀ m (hm : m < b.rows.length), (b.rows[m]).oc.length = b.noc := fun m hm => by
    obtain ⟨-, -, ⟨f, -⟩, -⟩ := forall₂_get hr hm; exact f
  obtain ⟨r', rest, e1, e2, e3, e4⟩ := readLines_spec (store := storePot) (pot_lines hr) g1 (fun m r' => EcpRowSized r' ∧
      r'.powers.take m = (b.rows.map fun p => (p.power : Int)).take m ∧ r'.alpha.take m = (b.rows.map fun p => p.exp).take m ∧
      r'.arep.take m = (b.rows.map fun p => p.arep).take m ∧ r'.esop.take m = (b.rows.map fun p => p.esop).take m ∧
      (∀ i < b.noc, ∃ c, r'.ocpot[i]? = some c ∧ c.take m = (b.rows.map fun p => p.oc.getD i 0).take m) ∧
      ∃ po al ar es oc, r' = { r with numPrim := b.rows.length, powers := po, alpha := al, arep := ar, esop := es, ocpot := oc })
    (r := { r with numPrim := b.rows.length })
    ⟨hs.withPot _ hs.powers hs.alpha hs.arep hs.esop hs.rectPot, by simp, by simp, by simp, by simp,
      fun i hi => ⟨r.ocpot[i]'(by rw [hs.pots]; omega), List.getElem?_eq_getElem _, by simp⟩, _, _, _, _, _, rfl⟩
    (fun m hm r1 h1 => by
      obtain ⟨h1, h2, h3, h4, h5, h6, po, al, ar, es, oc, h7⟩ := h1
      rw [List.length_map] at hm
      rw [List.getElem_map]
      have k1 : m < r1.powers.length := by rw [h1.powers]; omega
      have k2 : m < r1.alpha.length := by rw [h1.alpha]; omega
      have k3 : m < r1.arep.length := by rw [h1.arep]; omega
      have k4 : m < r1.esop.length := by rw [h1.esop]; omega
      obtain ⟨co', s1, s2, s3⟩ := storeCols_spec (ip := m) (b.rows[m]).oc h1.rectPot (by omega) (by rw [hlen m hm]; exact hnc)
      refine ⟨{ r1 with powers := r1.powers.set m (b.rows[m]).power, alpha := r1.alpha.set m (b.rows[m]).exp, arep := r1.arep.set m (b.rows[m]).arep,
                        esop := r1.esop.set m (b.rows[m]).esop, ocpot := co' }, ?_, ?_, ?_, ?_, ?_, ?_, fun i hi => ?_, ?_⟩
      · unfold storePot PotRow.line
        simp only [wr_ok _ k1, wr_ok _ k2, wr_ok _ k3, wr_ok _ k4, Outcome.ok_bind, s1]
      · exact h1.withPot _ (by simpa using h1.powers) (by simpa using h1.alpha) (by simpa using h1.arep) (by simpa using h1.esop) s2
      · simp only; rw [take_set_snoc h2 k1, take_map_snoc _ hm]
      · simp only; rw [take_set_snoc h3 k2, take_map_snoc _ hm]
      · simp only; rw [take_set_snoc h4 k3, take_map_snoc _ hm]
      · simp only; rw [take_set_snoc h5 k4, take_map_snoc _ hm]
      · obtain ⟨row, t1, t2⟩ := s3 i (by rw [hlen m hm]; exact hi)
        obtain ⟨row', u1, u2⟩ := h6 i hi
        rw [t1] at u1
        obtain rfl := Option.some.inj u1
        refine ⟨_, t2, ?_⟩
        have hrl : row.length = 50 := h1.pot row (List.mem_of_getElem? t1)
        rw [take_set_snoc u2 (by rw [hrl]; omega), take_map_snoc (fun p : PotRow => p.oc.getD i 0) hm]
      · exact ⟨_, _, _, _, _, by rw [h7]⟩)
  obtain ⟨e4, p1, p2, p3, p4, p5, po, al, ar, es, oc, e7⟩ := e4
  rw [List.length_map] at e1 p1 p2 p3 p4 p5
  refine ⟨r', rest, ?_, e2, by omega, e4, ⟨by rw [e7], ?_, ?_, ?_, ?_, fun i hi => ?_⟩, po, al, ar, es, oc, e7⟩
  · unfold ftnReadPotBlock
    rw [g3, Outcome.ok_bind]
    simp only [Int.toNat_natCast]
    exact e1
  · rw [p1, List.take_of_length_le (by simp)]
  · rw [p2, List.take_of_length_le (by simp)]
  · rw [p3, List.take_of_length_le (by simp)]
  · rw [p4, List.take_of_length_le (by simp)]
  · obtain ⟨row, u1, u2⟩ := p5 i hi
    exact ⟨row, u1, by rw [u2, List.take_of_length_le (by simp)]⟩

theorem storePot_okUb {ip : Nat} (v : RppLine) {r : FEcpRow} (hs : EcpRowSized r) :
    OkUb EcpRowSized (storePot ip v r) ∧ (50 ≤ ip ∨ 20 < v.oc.length → storePot ip v r = .ub) := by
  by_cases hip : ip < 50
  · have e : storePot ip v r = (storeCols ip v.oc r.ocpot).bind fun co => .ok { r with powers := r.powers.set ip v.power, alpha := r.alpha.set ip v.alpha,
                                                                                        arep := r.arep.set ip v.arep, esop := r.esop.set ip v.esop, ocpot := co } := by
      unfold storePot
      rw [wr_ok _ (by rw [hs.powers]; exact hip), Outcome.ok_bind, wr_ok _ (by rw [hs.alpha]; exact hip), Outcome.ok_bind,
        wr_ok _ (by rw [hs.arep]; exact hip), Outcome.ok_bind, wr_ok _ (by rw [hs.esop]; exact hip), Outcome.ok_bind]; rfl
    refine ⟨?_, fun h => ?_⟩
    · rw [e]
      rcases storeCols_okUb v.oc hs.rectPot hip with ⟨co, s1, s2⟩ | s1
      · exact Or.inl ⟨_, by rw [s1]; rfl, hs.withPot _ (by simpa using hs.powers) (by simpa using hs.alpha) (by simpa using hs.arep) (by simpa using hs.esop) s2⟩
      · exact Or.inr (by rw [s1]; rfl)
    · rw [e, storeCols_ub hs.rectPot hip (by omega)]; rfl
  · have hub : storePot ip v r = .ub := by unfold storePot; rw [wr_ub _ (by rw [hs.powers]; omega)]; rfl
    exact ⟨Or.inr hub, fun _ => hub⟩

theorem readPot_outside {num : FtnNum} {b : PotBlock} {rs T recs : List FRecord} (hb : PotBlockRecs num b rs)
    (hout : 50 < b.rows.length ∨ 20 < b.noc ∧ b.rows ≠ []) (h : nonBlank recs = rs ++ T) {r : FEcpRow} (hs : EcpRowSized r) :
    ftnReadPotBlock num r recs = .ub := by
  obtain ⟨hh, hr⟩ := hb
  rename_i hd rs
  obtain ⟨rest0, g1, g2, g3⟩ := read_ints hh (show nonBlank recs = hd :: (rs ++ T) from h)
  have hlen : ∀ m (hm : m < b.rows.length), (b.rows[m]).oc.length = b.noc := fun m hm => by
    obtain ⟨-, -, ⟨f, -⟩, -⟩ := forall₂_get hr hm; exact f
  have hl := pot_lines hr
  unfold ftnReadPotBlock
  rw [g3, Outcome.ok_bind]
  simp only [Int.toNat_natCast]
  have hs0 : EcpRowSized { r with numPrim := b.rows.length } := hs.withPot _ hs.powers hs.alpha hs.arep hs.esop hs.rectPot
  have hll : (b.rows.map PotRow.line).length = b.rows.length := List.length_map ..
  rw [← hll]
  rcases hout with hout | ⟨hout, hne⟩
  · refine readLines_ub hl g1 EcpRowSized (by rw [hll]; exact hs0) (fun m hm r h => (storePot_okUb _ h).1) (show 50 < _ by rw [hll]; exact hout)
      fun r h => (storePot_okUb _ h).2 (Or.inl le_rfl)
  · have h0 : 0 < b.rows.length := List.length_pos_iff.2 hne
    refine readLines_ub hl g1 EcpRowSized (by rw [hll]; exact hs0) (fun m hm r h => (storePot_okUb _ h).1) (show 0 < _ by rw [hll]; exact h0)
      fun r h => (storePot_okUb _ h).2 (Or.inr ?_)
    rw [List.getElem_map]
    show 20 < (b.rows[0]).oc.length
    rw [hlen 0 h0]; exact hout

/-! ### All blocks -/

/-- Lines of blocks, one after the other. -/
inductive ConcatRecs {β : Type} (P : β → List FRecord → Prop) : List β → List FRecord → Prop
  | nil : ConcatRecs P [] []
  | cons {b : β} {bs : List β} {r1 r2 : List FRecord} (h1 : P b r1) (h2 : ConcatRecs P bs r2) : ConcatRecs P (b :: bs) (r1 ++ r2)

theorem BlocksRecs.concat {num : FtnNum} {bs : List BasisBlock} {rs : List FRecord} (h : BlocksRecs num bs rs) : ConcatRecs (BlockRecs num) bs rs := by
  induction h with
  | nil => exact .nil
  | cons h1 _ ih => exact .cons h1 ih

theorem PotBlocksRecs.concat {num : FtnNum} {bs : List PotBlock} {rs : List FRecord} (h : PotBlocksRecs num bs rs) : ConcatRecs (PotBlockRecs num) bs rs := by
  induction h with
  | nil => exact .nil
  | cons h1 _ ih => exact .cons h1 ih

theorem ConcatRecs.split {β : Type} {P : β → List FRecord → Prop} {bs cs : List β} {rs : List FRecord} (h : ConcatRecs P (bs ++ cs) rs) :
    ∃ r1 r2, rs = r1 ++ r2 ∧ ConcatRecs P bs r1 ∧ ConcatRecs P cs r2 := by
  induction bs generalizing rs with
  | nil => exact ⟨[], rs, rfl, .nil, h⟩
  | cons b bs ih =>
    cases h with
    | @cons _ _ q1 q2 h1 h2 =>
      obtain ⟨r1, r2, rfl, h3, h4⟩ := ih h2
      exact ⟨q1 ++ r1, r2, by simp, .cons h1 h3, h4⟩

/-- The rows of an element. -/
def RowsSized (rows : List FEcpRow) : Prop := rows.length = 10 ∧ ∀ r ∈ rows, EcpRowSized r

theorem forRows_spec {β : Type} {P : β → List FRecord → Prop} {f : FEcpRow → List FRecord → Outcome (FEcpRow × List FRecord)} {Q : β → FEcpRow → FEcpRow → Prop}
    {bs : List β} (hlen : bs.length ≤ 10)
    (hf : ∀ b ∈ bs, ∀ (rs T recs : List FRecord) (r : FEcpRow), P b rs → nonBlank recs = rs ++ T → EcpRowSized r →
      ∃ r' rest, f r recs = .ok (r', rest) ∧ nonBlank rest = T ∧ rest.length ≤ recs.length ∧ EcpRowSized r' ∧ Q b r r')
    {rs T recs : List FRecord} (hb : ConcatRecs P bs rs) (h : nonBlank recs = rs ++ T) {rows : List FEcpRow} (hs : RowsSized rows) :
    ∃ rows' rest, forRows f bs.length rows recs = .ok (rows', rest) ∧ nonBlank rest = T ∧ rest.length ≤ recs.length ∧ RowsSized rows' ∧
      (∀ i, bs.length ≤ i → rows'[i]? = rows[i]?) ∧
      ∀ i (h : i < bs.length), ∃ r r', rows[i]? = some r ∧ rows'[i]? = some r' ∧ Q bs[i] r r' := by
  induction bs using List.reverseRecOn generalizing rs T with
  | nil =>
    cases hb
    exact ⟨rows, recs, rfl, h, le_rfl, hs, fun _ _ => rfl, fun i h => absurd h (by simp)⟩
  | append_singleton bs c ih =>
    obtain ⟨r1, r2, rfl, h2, h3⟩ := hb.split
    have h3 : P c r2 := by
      cases h3 with
      | @cons _ _ q1 q2 a b => cases b; simpa using a
    rw [List.append_assoc] at h
    rw [List.length_append, List.length_singleton] at hlen
    obtain ⟨rows', rest, e1, e2, e3, e4, e5, e6⟩ := ih (by omega) (fun b hb => hf b (by simp [hb])) h2 h
    have hbl : bs.length < rows'.length := by rw [e4.1]; omega
    obtain ⟨k', rest', f1, f2, f3, f4, f5⟩ := hf c (by simp) r2 T rest _ h3 e2 (e4.2 _ (List.getElem_mem hbl))
    refine ⟨rows'.set bs.length k', rest', ?_, f2, by omega, ⟨by simpa using e4.1, fun k hk => ?_⟩, fun i hi => ?_, fun i hi => ?_⟩
    · unfold forRows at e1 ⊢
      rw [List.length_append, List.length_singleton, forRange_succ, e1, Outcome.ok_bind]
      simp only [rd_ok hbl, f1, wr_ok _ hbl, Outcome.ok_bind]
    · rcases List.mem_or_eq_of_mem_set hk with hk | rfl
      · exact e4.2 k hk
      · exact f4
    · rw [List.length_append, List.length_singleton] at hi
      rw [List.getElem?_set_ne (by omega)]; exact e5 i (by omega)
    · rw [List.length_append, List.length_singleton] at hi
      rcases Nat.lt_succ_iff_lt_or_eq.1 hi with hi' | rfl
      · obtain ⟨r, r', q1, q2, q3⟩ := e6 i hi'
        refine ⟨r, r', q1, by rw [List.getElem?_set_ne (by omega)]; exact q2, ?_⟩
        rw [List.getElem_append_left hi']; exact q3
      · refine ⟨rows'[bs.length], k', ?_, by rw [List.getElem?_set_self hbl], ?_⟩
        · rw [← e5 _ le_rfl, List.getElem?_eq_getElem hbl]
        · rw [List.getElem_append_right le_rfl]
          simpa using f5

theorem forRows_outside {β : Type} {P : β → List FRecord → Prop} {f : FEcpRow → List FRecord → Outcome (FEcpRow × List FRecord)} {Q : β → FEcpRow → FEcpRow → Prop}
    {bs bs' : List β} {b : β} (hlen : bs.length ≤ 10)
    (hf : ∀ b ∈ bs, ∀ (rs T recs : List FRecord) (r : FEcpRow), P b rs → nonBlank recs = rs ++ T → EcpRowSized r →
      ∃ r' rest, f r recs = .ok (r', rest) ∧ nonBlank rest = T ∧ rest.length ≤ recs.length ∧ EcpRowSized r' ∧ Q b r r')
    (hout : bs.length = 10 ∨ ∀ (rs T recs : List FRecord) (r : FEcpRow), P b rs → nonBlank recs = rs ++ T → EcpRowSized r → f r recs = .ub)
    {rs T recs : List FRecord} (hb : ConcatRecs P (bs ++ b :: bs') rs) (h : nonBlank recs = rs ++ T) {rows : List FEcpRow} (hs : RowsSized rows) :
    forRows f (bs ++ b :: bs').length rows recs = .ub := by
  obtain ⟨r1, r2, rfl, h2, h3⟩ := hb.split
  rw [List.append_assoc] at h
  obtain ⟨rows', rest, e1, e2, e3, e4, e5, e6⟩ := forRows_spec hlen hf h2 h hs
  unfold forRows at e1 ⊢
  refine forRange_ub_at e1 ?_ (by simp)
  by_cases h10 : bs.length < 10
  · have hl : bs.length < rows'.length := by rw [e4.1]; exact h10
    rcases hout with hout | hout
    · omega
    · cases h3 with
      | @cons _ _ v1 v2 h5 h6 =>
        rw [List.append_assoc] at e2
        simp only [rd_ok hl, Outcome.ok_bind]
        rw [hout _ _ _ _ h5 e2 (e4.2 _ (List.getElem_mem hl))]
        rfl
  · rw [rd_ub (by rw [e4.1]; omega)]; rfl

/-! ## An entry -/

theorem OcBlockIs.of_pot {c : BasisBlock} {b : PotBlock} {r r' : FEcpRow} (h : OcBlockIs c r) (hp : PotChange b r r') : OcBlockIs c r' := by
  obtain ⟨-, po, al, ar, es, oc, rfl⟩ := hp
  exact ⟨h.num, h.contr, h.exps, h.funs⟩

/-- The potentials of a row are those of another. -/
def SamePots (r r' : FEcpRow) : Prop :=
  r'.numPrim = r.numPrim ∧ r'.powers = r.powers ∧ r'.alpha = r.alpha ∧ r'.arep = r.arep ∧ r'.esop = r.esop ∧ r'.ocpot = r.ocpot

theorem OcChange.same {b : BasisBlock} {r r' : FEcpRow} (h : OcChange b r r') : SamePots r r' := by
  obtain ⟨-, al, co, rfl⟩ := h
  exact ⟨rfl, rfl, rfl, rfl, rfl, rfl⟩

theorem rppEntry_spec {num : FtnNum} {cs : List BasisBlock} {ps : List PotBlock} (hlim : RppLimits cs ps) {r1 r2 T recs : List FRecord}
    (h1 : BlocksRecs num cs r1) (h2 : PotBlocksRecs num ps r2) (h : nonBlank recs = r1 ++ (r2 ++ T)) {e : FEcp} (hs : RowsSized e.rows)
    (h0 : ∀ r ∈ e.rows, r.numOc = 0) :
    ∃ e', ftnReadRppEntry num cs.length ps.length e recs = .ok e' ∧ RowsSized e'.rows ∧ FEcpIs cs ps e' ∧
      ∀ L r, ps.length ≤ L → e.rows[L]? = some r → ∃ r', e'.rows[L]? = some r' ∧ SamePots r r' := by
  obtain ⟨rows1, rest1, a1, a2, a3, a4, a5, a6⟩ := forRows_spec (Q := OcChange) hlim.clen
    (fun b hb rs T recs r h1 h2 h3 => readOc_spec h1 (hlim.cnp b hb) (hlim.cnc b hb) h2 h3) h1.concat h hs
  obtain ⟨rows2, rest2, b1, b2, b3, b4, b5, b6⟩ := forRows_spec (Q := PotChange) hlim.plen
    (fun b hb rs T recs r h1 h2 h3 => readPot_spec h1 (hlim.pnp b hb) (hlim.pnoc b hb) h2 h3) h2.concat a2 a4
  refine ⟨⟨ps.length, rows2⟩, ?_, b4, ⟨rfl, fun L hL => ?_, fun L r hL hr => ?_, fun L hL => ?_⟩, fun L r hL hr => ?_⟩
  · unfold ftnReadRppEntry
    simp only [a1, b1, Outcome.ok_bind]
  · obtain ⟨r, r', c1, c2, c3⟩ := a6 L hL
    by_cases hp : L < ps.length
    · obtain ⟨q, q', d1, d2, d3⟩ := b6 L hp
      rw [c2] at d1
      cases d1
      exact ⟨q', d2, c3.1.of_pot d3⟩
    · exact ⟨r', by rw [b5 L (by omega)]; exact c2, c3.1⟩
  · simp only at hr
    by_cases hp : L < ps.length
    · obtain ⟨q, q', d1, d2, d3⟩ := b6 L hp
      rw [a5 L hL] at d1
      rw [hr] at d2
      cases d2
      obtain ⟨-, po, al, ar, es, oc, rfl⟩ := d3
      exact h0 q (List.mem_of_getElem? d1)
    · rw [b5 L (by omega), a5 L hL] at hr
      exact h0 r (List.mem_of_getElem? hr)
  · obtain ⟨q, q', d1, d2, d3⟩ := b6 L hL
    exact ⟨q', d2, d3.1⟩
  · simp only
    rw [b5 L hL]
    by_cases hc : L < cs.length
    · obtain ⟨q, q', c1, c2, c3⟩ := a6 L hc
      rw [hr] at c1
      cases c1
      exact ⟨q', c2, c3.same⟩
    · exact ⟨r, by rw [a5 L (by omega)]; exact hr, rfl, rfl, rfl, rfl, rfl, rfl⟩

/-! ## A whole file -/

theorem EcpSized.element {ecp : List FEcp} (h : EcpSized ecp) {e : FEcp} (he : e ∈ ecp) : RowsSized e.rows := ⟨h.rows e he, h.sized e he⟩

theorem EcpSized.set {ecp : List FEcp} (h : EcpSized ecp) {e : FEcp} (he : RowsSized e.rows) (i : Nat) : EcpSized (ecp.set i e) := by
  have key : ∀ c ∈ ecp.set i e, RowsSized c.rows := fun c hc => by
    rcases List.mem_or_eq_of_mem_set hc with hc | rfl
    · exact h.element hc
    · exact he
  exact ⟨by simpa using h.elements, fun c hc => (key c hc).1, fun c hc => (key c hc).2⟩

/-- The entry of another element is passed over. -/
theorem rpp_entry_skip {num : FtnNum} {z charge : Nat} (hz : z ≠ charge) {cs : List BasisBlock} {ps : List PotBlock} {r1 T recs : List FRecord}
    (he : RppEntryRecs num z cs ps r1) (hc : ∀ r, r1.getLast? = some r → RppClosed num r) (h : nonBlank recs = r1 ++ T) (ecp : List FEcp) :
    ∃ rest, nonBlank rest = T ∧ ftnRppLoop num charge ecp recs = ftnRppLoop num charge ecp rest := by
  obtain ⟨hd, q1, q2, rfl, h1, h2, h3⟩ := he
  obtain ⟨rest0, g1, g2, g3⟩ := read_rpp_star h1 (show nonBlank recs = hd :: ((q1 ++ q2) ++ T) from h)
  have hl : LastRpp num (q1 ++ q2) := fun r hr => hc r (by
    cases hb : q1 ++ q2 with
    | nil => rw [hb] at hr; simp at hr
    | cons q body => rw [hb] at hr; rw [List.getLast?_cons_cons]; exact hr)
  obtain ⟨rest, k1, k3⟩ := rpp_scan_data charge ecp T _ (q1 ++ q2) rest0 le_rfl (fun r hr => by
    rcases List.mem_append.1 hr with hr | hr
    · exact h2.data r hr
    · exact h3.data r hr) hl g1
  refine ⟨rest, k1, ?_⟩
  rw [← k3, ftnRppLoop, g3]
  simp only
  rw [if_neg fun h => hz (by simpa using h.2), dif_pos g2]

/-- The entry of the element is stored. -/
theorem rpp_entry_store {num : FtnNum} {z : Nat} (hz : 1 ≤ z ∧ z ≤ 131) {cs : List BasisBlock} {ps : List PotBlock} {r1 T recs : List FRecord}
    (he : RppEntryRecs num z cs ps r1) (h : nonBlank recs = r1 ++ T) {ecp : List FEcp} (hs : EcpSized ecp) {e : FEcp} (hez : ecp[z - 1]? = some e) :
    ∃ rest q1 q2, BlocksRecs num cs q1 ∧ PotBlocksRecs num ps q2 ∧ nonBlank rest = q1 ++ (q2 ++ T) ∧
      ftnRppLoop num z ecp recs = (ftnReadRppEntry num cs.length ps.length e rest).bind fun e' => .ok (ecp.set (z - 1) e') := by
  obtain ⟨hd, q1, q2, rfl, h1, h2, h3⟩ := he
  obtain ⟨rest0, g1, g2, g3⟩ := read_rpp_star h1 (show nonBlank recs = hd :: ((q1 ++ q2) ++ T) from h)
  have hi : z - 1 < ecp.length := by rw [hs.elements]; omega
  refine ⟨rest0, q1, q2, h2, h3, by rw [g1, List.append_assoc], ?_⟩
  rw [ftnRppLoop, g3]
  simp only
  have e1 : rd1 ecp z = .ok e := by
    rw [rd1_ok hz.1 hi]
    rw [List.getElem?_eq_getElem hi] at hez
    exact congrArg Outcome.ok (Option.some.inj hez)
  rw [if_pos ⟨trivial, by simp⟩, e1, Outcome.ok_bind]
  have e2 : (([(z : Int), (cs.length : Int), (ps.length : Int)].getD 1 0).toNat) = cs.length := by simp
  have e3 : (([(z : Int), (cs.length : Int), (ps.length : Int)].getD 2 0).toNat) = ps.length := by simp
  rw [e2, e3]
  congr 1
  funext e'
  exact wr1_ok hz.1 hi

theorem firstEntry_cons_ne {z z' : Nat} (h : z' ≠ z) (c : List BasisBlock × List PotBlock) (es : List (Nat × List BasisBlock × List PotBlock)) :
    firstEntry z ((z', c) :: es) = firstEntry z es := by simp [firstEntry, h]

theorem firstEntry_cons_eq (z : Nat) (c : List BasisBlock × List PotBlock) (es : List (Nat × List BasisBlock × List PotBlock)) :
    firstEntry z ((z, c) :: es) = some c := by simp [firstEntry]

/-- What the loop finds: nothing, or the first entry. -/
theorem rpp_loop_first {num : FtnNum} {z : Nat} (hz : 1 ≤ z ∧ z ≤ 131) {es : List (Nat × List BasisBlock × List PotBlock)} {rs : List FRecord}
    (hf : RppFileRecs num es rs) {ecp : List FEcp} (hs : EcpSized ecp) {e : FEcp} (hez : ecp[z - 1]? = some e) :
    ∀ (recs : List FRecord), nonBlank recs = rs →
      (firstEntry z es = none → ftnRppLoop num z ecp recs = .ok ecp) ∧
      ∀ cs ps, firstEntry z es = some (cs, ps) → ∃ rest q1 q2 T, BlocksRecs num cs q1 ∧ PotBlocksRecs num ps q2 ∧ nonBlank rest = q1 ++ (q2 ++ T) ∧
        ftnRppLoop num z ecp recs = (ftnReadRppEntry num cs.length ps.length e rest).bind fun e' => .ok (ecp.set (z - 1) e') := by
  induction hf with
  | nil =>
    intro recs h
    exact ⟨fun _ => rpp_loop_end z ecp h, fun cs ps h => by simp [firstEntry] at h⟩
  | @cons z' cs ps es r1 r2 h1 hc h2 ih =>
    intro recs h
    by_cases hzz : z' = z
    · subst hzz
      obtain ⟨rest, q1, q2, g1, g2, g3, g4⟩ := rpp_entry_store hz h1 h hs hez
      rw [firstEntry_cons_eq]
      refine ⟨fun h => (by cases h), fun cs' ps' h => ?_⟩
      cases h
      exact ⟨rest, q1, q2, _, g1, g2, g3, g4⟩
    · obtain ⟨rest, g1, g2⟩ := rpp_entry_skip hzz h1 hc h ecp
      rw [firstEntry_cons_ne hzz, g2]
      exact ih rest g1

/-- The arrays of one element after `read_rpp`. -/
def EcpRead (es : List (Nat × List BasisBlock × List PotBlock)) (z : Nat) (e : FEcp) : Prop :=
  (firstEntry z es = none → e.numArep = 0) ∧ ∀ cs ps, firstEntry z es = some (cs, ps) → FEcpIs cs ps e

/-- The beginning of `read_rpp`. -/
theorem ftnReadRpp_eq {num : FtnNum} {z : Nat} (hz : 1 ≤ z ∧ z ≤ 131) {ecp : List FEcp} (hs : EcpSized ecp) (recs : List FRecord) :
    ∃ e0 e, ecp[z - 1]? = some e0 ∧ e = ⟨0, e0.rows.map fun r => { r with numOc := 0 }⟩ ∧ RowsSized e.rows ∧ (∀ r ∈ e.rows, r.numOc = 0) ∧
      EcpSized (ecp.set (z - 1) e) ∧ (ecp.set (z - 1) e)[z - 1]? = some e ∧ ftnReadRpp num z ecp recs = ftnRppLoop num z (ecp.set (z - 1) e) recs := by
  have hi : z - 1 < ecp.length := by rw [hs.elements]; omega
  have hr : RowsSized (ecp[z - 1].rows.map fun r => { r with numOc := 0 }) := by
    have := hs.element (List.getElem_mem hi)
    refine ⟨by rw [List.length_map]; exact this.1, fun r h => ?_⟩
    obtain ⟨q, hq, rfl⟩ := List.mem_map.1 h
    have := this.2 q hq
    exact ⟨this.alpha, this.powers, this.arep, this.esop, this.pots, this.pot, this.ocAlpha, this.funs, this.fun_⟩
  refine ⟨ecp[z - 1], _, List.getElem?_eq_getElem hi, rfl, hr, fun r h => ?_, hs.set hr _, List.getElem?_set_self hi, ?_⟩
  · obtain ⟨q, hq, rfl⟩ := List.mem_map.1 h
    rfl
  · unfold ftnReadRpp
    rw [rd1_ok hz.1 hi, Outcome.ok_bind, wr1_ok hz.1 hi, Outcome.ok_bind]

theorem read_rpp_file {num : FtnNum} {z : Nat} (hz : 1 ≤ z ∧ z ≤ 131) {es : List (Nat × List BasisBlock × List PotBlock)} {recs : List FRecord}
    (hf : RppFileRecs num es (nonBlank recs)) (hlim : ∀ cs ps, firstEntry z es = some (cs, ps) → RppLimits cs ps) {ecp : List FEcp} (hs : EcpSized ecp) :
    ∃ ecp', ftnReadRpp num z ecp recs = .ok ecp' ∧ EcpSized ecp' ∧ (∀ i, i ≠ z - 1 → ecp'[i]? = ecp[i]?) ∧
      ∃ e e', ecp[z - 1]? = some e ∧ ecp'[z - 1]? = some e' ∧ EcpRead es z e' ∧ ∀ cs ps, firstEntry z es = some (cs, ps) →
        ∀ L r, ps.length ≤ L → e.rows[L]? = some r → ∃ r', e'.rows[L]? = some r' ∧ SamePots r r' := by
  obtain ⟨e0, e, a1, a2, a3, a4, a5, a6, a7⟩ := ftnReadRpp_eq hz hs recs (num := num)
  obtain ⟨b1, b2⟩ := rpp_loop_first hz hf a5 a6 recs rfl
  have hi : z - 1 < ecp.length := by rw [hs.elements]; omega
  cases hfe : firstEntry z es with
  | none =>
    refine ⟨_, a7.trans (b1 hfe), a5, fun i hi => by rw [List.getElem?_set_ne (by omega)], e0, e, a1, a6, ⟨fun _ => by rw [a2], fun cs ps h => ?_⟩, fun cs ps h => ?_⟩
    · rw [hfe] at h; cases h
    · cases h
  | some c =>
    obtain ⟨cs, ps⟩ := c
    obtain ⟨rest, q1, q2, T, c1, c2, c3, c4⟩ := b2 cs ps hfe
    obtain ⟨e', d1, d2, d3, d4⟩ := rppEntry_spec (hlim cs ps hfe) c1 c2 c3 a3 a4
    rw [d1] at c4
    refine ⟨(ecp.set (z - 1) e).set (z - 1) e', a7.trans c4, a5.set d2 _, fun i hi => by rw [List.getElem?_set_ne (by omega), List.getElem?_set_ne (by omega)],
      e0, e', a1, List.getElem?_set_self (by rw [List.length_set]; exact hi), ⟨fun h => ?_, fun cs' ps' h => ?_⟩, fun cs' ps' h L r hL hr => ?_⟩
    · rw [hfe] at h; cases h
    · rw [hfe] at h; cases h; exact d3
    · cases h
      obtain ⟨r', f1, f2⟩ := d4 L { r with numOc := 0 } hL (by rw [a2]; simp only [List.getElem?_map, hr, Option.map_some])
      exact ⟨r', f1, f2⟩

theorem main_rpp_spec {num : FtnNum} {es : List (Nat × List BasisBlock × List PotBlock)} {recs : List FRecord} (hf : RppFileRecs num es (nonBlank recs))
    (charges : List Nat) (hz : ∀ z ∈ charges, 1 ≤ z ∧ z ≤ 131) (hlim : ∀ z ∈ charges, ∀ cs ps, firstEntry z es = some (cs, ps) → RppLimits cs ps)
    {ecp : List FEcp} (hs : EcpSized ecp) :
    ∃ ecp', ftnMainRpp num recs charges ecp = .ok ecp' ∧ EcpSized ecp' ∧ ∀ z ∈ charges, ∃ e, ecp'[z - 1]? = some e ∧ EcpRead es z e := by
  unfold ftnMainRpp
  refine forRange_spec (fun m ecp' => EcpSized ecp' ∧ ∀ z ∈ charges.take m, ∃ e, ecp'[z - 1]? = some e ∧ EcpRead es z e) ⟨hs, by simp⟩ ?_ ?_
  · rintro m ecp1 hm ⟨h1, h2⟩
    have hmem : charges[m] ∈ charges := List.getElem_mem hm
    obtain ⟨ecp2, a1, a2, a3, e, e', a4, a5, a6, -⟩ := read_rpp_file (hz _ hmem) hf (hlim _ hmem) h1
    refine ⟨ecp2, by rw [rd_ok hm, Outcome.ok_bind, a1], a2, fun z hzm => ?_⟩
    rw [List.take_add_one, List.mem_append, List.getElem?_eq_getElem hm] at hzm
    by_cases hzz : z = charges[m]
    · exact ⟨e', by rw [hzz]; exact a5, by rw [hzz]; exact a6⟩
    · rcases hzm with hzm | hzm
      · obtain ⟨e1, c1, c2⟩ := h2 z hzm
        refine ⟨e1, ?_, c2⟩
        have := hz z (List.mem_of_mem_take hzm)
        have := hz _ hmem
        rw [a3 _ (by omega)]; exact c1
      · exact absurd (by simpa using hzm) hzz
  · rintro ecp1 ⟨h1, h2⟩
    exact ⟨h1, fun z hzm => h2 z (by rw [List.take_of_length_le le_rfl]; exact hzm)⟩

end Libgrpp
