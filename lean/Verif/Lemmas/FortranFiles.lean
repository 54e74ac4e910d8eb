import Verif.Model.FortranFiles
import Verif.Lemmas.FortranDriver
import Verif.Lemmas.BasisFile
import Verif.Props.Fortran
import Verif.Lemmas.Program

/-! # Lemmas on the input of the Fortran front end (C109) -/

namespace Libgrpp

theorem nextValue_none {recs : List FRecord} (h : nonBlank recs = []) : nextValue [] recs = none := by
  induction recs with
  | nil => rfl
  | cons r recs ih =>
    cases r with
    | nil => rw [nextValue]; exact ih (by simpa [nonBlank] using h)
    | cons t r => simp [nonBlank] at h

/-- The first line that is not blank. -/
theorem nextValue_cons {recs rs : List FRecord} {r : FRecord} (h : nonBlank recs = r :: rs) :
    ∃ rest t c, r = t :: c ∧ nonBlank rest = rs ∧ rest.length < recs.length ∧ nextValue [] recs = some (t, c, rest) := by
  induction recs with
  | nil => simp [nonBlank] at h
  | cons q recs ih =>
    cases q with
    | nil =>
      obtain ⟨rest, t, c, h1, h2, h3, h4⟩ := ih (by simpa [nonBlank] using h)
      exact ⟨rest, t, c, h1, h2, by simp only [List.length_cons]; omega, by rw [nextValue]; exact h4⟩
    | cons t c =>
      have h' : (t :: c) :: nonBlank recs = r :: rs := by simpa [nonBlank] using h
      obtain ⟨rfl, rfl⟩ := List.cons.inj h'
      exact ⟨recs, t, c, rfl, rfl, by simp, by simp [nextValue]⟩

theorem fItem_cons {α : Type} {conv : List Char → Option α} {t : List Char} {c : FRecord} {rs : List FRecord} {a : α} (h : conv t = some a) :
    fItem conv (t :: c, rs) = .ok a (c, rs) := by simp [fItem, nextValue, h]

theorem fItem_chr (n : Nat) (t : List Char) (c : FRecord) (rs : List FRecord) : fItem (fun t => some (t.take n)) (t :: c, rs) = .ok (t.take n) (c, rs) := by
  simp [fItem, nextValue]

theorem fItem_bad {α : Type} {conv : List Char → Option α} {t : List Char} {c : FRecord} {rs : List FRecord} (h : conv t = none) :
    fItem conv (t :: c, rs) = .err rs := by simp [fItem, nextValue, h]

theorem fItem_next {α : Type} {conv : List Char → Option α} {recs rest : List FRecord} {t : List Char} {c : FRecord}
    (h : nextValue [] recs = some (t, c, rest)) : fItem conv ([], recs) = fItem conv (t :: c, rest) := by
  simp [fItem, h, nextValue]

theorem FRes.ok_bind {α β : Type} (a : α) (p : FPos) (f : α → FPos → FRes β) : (FRes.ok a p).bind f = f a p := rfl

theorem FRes.err_bind {α β : Type} (rs : List FRecord) (f : α → FPos → FRes β) : (FRes.err rs : FRes α).bind f = .err rs := rfl

/-- A statement begins with the first line that is not blank. -/
theorem fRead_next {α β : Type} {conv : List Char → Option α} {k : α → FPos → FRes β} {recs rest : List FRecord} {t : List Char} {c : FRecord}
    (h : nextValue [] recs = some (t, c, rest)) :
    fRead (fun p => (fItem conv p).bind k) recs = ((fItem conv (t :: c, rest)).bind k).done := by
  unfold fRead
  simp only [fItem_next h]

theorem fItems_real {num : FtnNum} {xs : List ℝ} {ts : List (List Char)} (h : RealValues num xs ts) (more : FRecord) (rs : List FRecord) :
    fItems num.real xs.length (ts ++ more, rs) = .ok xs (more, rs) := by
  induction h with
  | nil => rfl
  | cons h1 _ ih => rw [List.length_cons, fItems, List.cons_append, fItem_cons h1, FRes.ok_bind, ih, FRes.ok_bind]

/-! ## Statements which stay on one line -/

theorem read_star {num : FtnNum} {z n : Nat} {r : FRecord} {recs rs : List FRecord} (hr : StarRec num z n r) (h : nonBlank recs = r :: rs) :
    ∃ rest, nonBlank rest = rs ∧ rest.length < recs.length ∧ fRead (basisHeader num) recs = .ok (['*'], (z : Int), (n : Int)) rest := by
  obtain ⟨s, t, u, more, rfl, h1, h2⟩ := hr
  obtain ⟨rest, t', c', e, g1, g2, g3⟩ := nextValue_cons h
  obtain ⟨rfl, rfl⟩ := List.cons.inj e
  refine ⟨rest, g1, g2, ?_⟩
  unfold basisHeader
  rw [fRead_next g3, fItem_chr, FRes.ok_bind, fItem_cons h1, FRes.ok_bind, fItem_cons h2, FRes.ok_bind]
  rfl

theorem read_ints {num : FtnNum} {a b : Nat} {r : FRecord} {recs rs : List FRecord} (hr : IntsRec num a b r) (h : nonBlank recs = r :: rs) :
    ∃ rest, nonBlank rest = rs ∧ rest.length < recs.length ∧ fReadStop (twoInts num) recs = .ok (((a : Int), (b : Int)), rest) := by
  obtain ⟨t, u, more, rfl, h1, h2⟩ := hr
  obtain ⟨rest, t', c', e, g1, g2, g3⟩ := nextValue_cons h
  obtain ⟨rfl, rfl⟩ := List.cons.inj e
  refine ⟨rest, g1, g2, ?_⟩
  unfold fReadStop twoInts
  rw [fRead_next g3, fItem_cons h1, FRes.ok_bind, fItem_cons h2, FRes.ok_bind]
  rfl

theorem read_row {num : FtnNum} {e : ℝ} {cs : List ℝ} {r : FRecord} {recs rs : List FRecord} (hr : RowRec num e cs r) (h : nonBlank recs = r :: rs) :
    ∃ rest, nonBlank rest = rs ∧ rest.length < recs.length ∧ fReadStop (basisRow num cs.length) recs = .ok ((e, cs), rest) := by
  obtain ⟨t, ts, more, rfl, h1, h2⟩ := hr
  obtain ⟨rest, t', c', e', g1, g2, g3⟩ := nextValue_cons h
  obtain ⟨rfl, rfl⟩ := List.cons.inj e'
  refine ⟨rest, g1, g2, ?_⟩
  unfold fReadStop basisRow
  rw [fRead_next g3, fItem_cons h1, FRes.ok_bind, fItems_real h2, FRes.ok_bind]
  rfl

/-! ## The search for a header -/

/-- A line of data: it is not blank and does not begin with an asterisk. -/
def DataRec (r : FRecord) : Prop := ∃ t c, r = t :: c ∧ t.head? ≠ some '*'

theorem FtnNum.int_head (num : FtnNum) {t : List Char} {n : Int} (h : num.int t = some n) : t.head? ≠ some '*' := by
  cases t with
  | nil => simp
  | cons c t =>
    intro e
    simp only [List.head?_cons, Option.some.injEq] at e
    rw [e, num.int_star] at h
    cases h

theorem FtnNum.real_head (num : FtnNum) {t : List Char} {x : ℝ} (h : num.real t = some x) : t.head? ≠ some '*' := by
  cases t with
  | nil => simp
  | cons c t =>
    intro e
    simp only [List.head?_cons, Option.some.injEq] at e
    rw [e, num.real_star] at h
    cases h

theorem IntsRec.data {num : FtnNum} {a b : Nat} {r : FRecord} (h : IntsRec num a b r) : DataRec r := by
  obtain ⟨t, u, more, rfl, h1, -⟩ := h
  exact ⟨t, _, rfl, num.int_head h1⟩

theorem RowRec.data {num : FtnNum} {e : ℝ} {cs : List ℝ} {r : FRecord} (h : RowRec num e cs r) : DataRec r := by
  obtain ⟨t, ts, more, rfl, h1, -⟩ := h
  exact ⟨t, _, rfl, num.real_head h1⟩

theorem BlockRecs.data {num : FtnNum} {b : BasisBlock} {rs : List FRecord} (h : BlockRecs num b rs) : ∀ r ∈ rs, DataRec r := by
  obtain ⟨hh, hr⟩ := h
  intro r hm0
  rcases List.mem_cons.1 hm0 with rfl | hm
  · exact hh.data
  · clear hh hm0
    generalize b.rows = l at hr
    induction hr with
    | nil => simp at hm
    | cons h1 _ ih =>
      rcases List.mem_cons.1 hm with rfl | hm
      · exact h1.2.data
      · exact ih hm

theorem BlocksRecs.data {num : FtnNum} {bs : List BasisBlock} {rs : List FRecord} (h : BlocksRecs num bs rs) : ∀ r ∈ rs, DataRec r := by
  induction h with
  | nil => simp
  | cons h1 _ ih =>
    intro r hm
    rcases List.mem_append.1 hm with hm | hm
    · exact h1.data r hm
    · exact ih r hm

theorem take_one_star {t : List Char} (h : t.head? ≠ some '*') : t.take 1 ≠ ['*'] := by
  cases t with
  | nil => simp
  | cons c t => simpa using h

/-- The last line of a list is complete. -/
def LastClosed (num : FtnNum) (D : List FRecord) : Prop := ∀ r, D.getLast? = some r → ClosedRec num r

theorem LastClosed.suffix {num : FtnNum} {D D' : List FRecord} (h : LastClosed num D) (hs : D' <:+ D) : LastClosed num D' := by
  intro r hr
  obtain ⟨p, rfl⟩ := hs
  refine h r ?_
  rw [List.getLast?_append, hr]
  rfl

theorem not_closed_one {num : FtnNum} {t : List Char} : ¬ClosedRec num [t] := by
  rintro (h | ⟨t, u, h, -⟩)
  · simp at h
  · simp at h

theorem not_closed_two {num : FtnNum} {t u : List Char} {n : Int} (h : num.int u = some n) : ¬ClosedRec num [t, u] := by
  rintro (h' | ⟨t, u, h', e⟩)
  · simp at h'
  · simp only [List.cons.injEq, and_true] at h'
    rw [h'.2, e] at h
    cases h

/-- The result of one `read` of a header among lines of data: an error, or values which are no header. -/
def Skips (num : FtnNum) (recs rest : List FRecord) : Prop :=
  fRead (basisHeader num) recs = .err rest ∨ ∃ v, fRead (basisHeader num) recs = .ok v rest ∧ v.1 ≠ ['*']

/-- The three items of a header from a line of data with at least three values, or with an error in the second. -/
theorem skips_three {num : FtnNum} {recs rest : List FRecord} {t u : List Char} {c : FRecord} (ht : t.head? ≠ some '*')
    (h : nextValue [] recs = some (t, u :: c, rest)) (hc : num.int u = none ∨ c ≠ []) : Skips num recs rest := by
  unfold Skips basisHeader
  rw [fRead_next h, fItem_chr, FRes.ok_bind]
  cases hu : num.int u with
  | none => left; rw [fItem_bad hu, FRes.err_bind]; rfl
  | some n =>
    rw [fItem_cons hu, FRes.ok_bind]
    cases c with
    | nil => rcases hc with hc | hc; · rw [hu] at hc; cases hc
             · exact absurd rfl hc
    | cons w c =>
      cases hw : num.int w with
      | none => left; rw [fItem_bad hw, FRes.err_bind]; rfl
      | some m => right; rw [fItem_cons hw, FRes.ok_bind]; exact ⟨_, rfl, take_one_star ht⟩

theorem scan_step {num : FtnNum} {r : FRecord} {D T recs : List FRecord} (hd : ∀ q ∈ r :: D, DataRec q) (hl : LastClosed num (r :: D))
    (h : nonBlank recs = r :: (D ++ T)) :
    ∃ rest D', D' <:+ D ∧ nonBlank rest = D' ++ T ∧ rest.length < recs.length ∧ Skips num recs rest := by
  obtain ⟨rest, t, c, rfl, g1, g2, g3⟩ := nextValue_cons h
  have ht : t.head? ≠ some '*' := by
    obtain ⟨t', c', e, h'⟩ := hd _ (List.mem_cons_self ..)
    rw [(List.cons.inj e).1]; exact h'
  have key : ∀ {r2 : FRecord} {D2 : List FRecord}, D = r2 :: D2 → ∃ u c2, r2 = u :: c2 ∧ ∃ rest2, nonBlank rest2 = D2 ++ T ∧ rest2.length < rest.length ∧
      nextValue [] rest = some (u, c2, rest2) := by
    rintro r2 D2 rfl
    obtain ⟨rest2, u, c2, e, k1, k2, k3⟩ := nextValue_cons (show nonBlank rest = r2 :: (D2 ++ T) from g1)
    exact ⟨u, c2, e, rest2, k1, k2, k3⟩
  cases c with
  | cons u c =>
    by_cases hc : num.int u = none ∨ c ≠ []
    · exact ⟨rest, D, List.suffix_rfl, g1, g2, skips_three ht g3 hc⟩
    · have hc0 : c = [] := by by_contra hn; exact hc (Or.inr hn)
      subst hc0
      cases hu : num.int u with
      | none => exact absurd (Or.inl hu) hc
      | some n =>
        cases D with
        | nil => exact absurd (hl _ rfl) (not_closed_two hu)
        | cons r2 D2 =>
          obtain ⟨w, c2, rfl, rest2, k1, k2, k3⟩ := key rfl
          refine ⟨rest2, D2, List.suffix_cons _ _, k1, by omega, ?_⟩
          unfold Skips basisHeader
          rw [fRead_next g3, fItem_chr, FRes.ok_bind, fItem_cons hu, FRes.ok_bind, fItem_next k3]
          cases hw : num.int w with
          | none => left; rw [fItem_bad hw, FRes.err_bind]; rfl
          | some m => right; rw [fItem_cons hw, FRes.ok_bind]; exact ⟨_, rfl, take_one_star ht⟩
  | nil =>
    cases D with
    | nil => exact absurd (hl _ rfl) not_closed_one
    | cons r2 D2 =>
      obtain ⟨u, c2, rfl, rest2, k1, k2, k3⟩ := key rfl
      cases hu : num.int u with
      | none =>
        refine ⟨rest2, D2, List.suffix_cons _ _, k1, by omega, Or.inl ?_⟩
        unfold basisHeader
        rw [fRead_next g3, fItem_chr, FRes.ok_bind, fItem_next k3, fItem_bad hu, FRes.err_bind]; rfl
      | some n =>
        cases c2 with
        | cons w c3 =>
          refine ⟨rest2, D2, List.suffix_cons _ _, k1, by omega, ?_⟩
          unfold Skips basisHeader
          rw [fRead_next g3, fItem_chr, FRes.ok_bind, fItem_next k3, fItem_cons hu, FRes.ok_bind]
          cases hw : num.int w with
          | none => left; rw [fItem_bad hw, FRes.err_bind]; rfl
          | some m => right; rw [fItem_cons hw, FRes.ok_bind]; exact ⟨_, rfl, take_one_star ht⟩
        | nil =>
          cases D2 with
          | nil => exact absurd (hl [u] rfl) not_closed_one
          | cons r3 D3 =>
            obtain ⟨rest3, w, c3, rfl, m1, m2, m3⟩ := nextValue_cons (show nonBlank rest2 = r3 :: (D3 ++ T) from k1)
            refine ⟨rest3, D3, (List.suffix_cons _ _).trans (List.suffix_cons _ _), m1, by omega, ?_⟩
            unfold Skips basisHeader
            rw [fRead_next g3, fItem_chr, FRes.ok_bind, fItem_next k3, fItem_cons hu, FRes.ok_bind, fItem_next m3]
            cases hw : num.int w with
            | none => left; rw [fItem_bad hw, FRes.err_bind]; rfl
            | some m => right; rw [fItem_cons hw, FRes.ok_bind]; exact ⟨_, rfl, take_one_star ht⟩

theorem Skips.loop {num : FtnNum} {recs rest : List FRecord} (h : Skips num recs rest) (hlen : rest.length < recs.length) (charge : Nat)
    (basis : List FBasis) : ftnBasisLoop num charge basis recs = ftnBasisLoop num charge basis rest := by
  rw [ftnBasisLoop]
  rcases h with h | ⟨v, h, hv⟩
  · rw [h]; simp only; rw [dif_pos hlen]
  · rw [h]; simp only; rw [if_neg fun h => hv h.1, dif_pos hlen]

/-- Lines of data are passed over. -/
theorem scan_data {num : FtnNum} (charge : Nat) (basis : List FBasis) (T : List FRecord) :
    ∀ (n : Nat) (D recs : List FRecord), D.length ≤ n → (∀ q ∈ D, DataRec q) → LastClosed num D → nonBlank recs = D ++ T →
      ∃ rest, nonBlank rest = T ∧ rest.length ≤ recs.length ∧ ftnBasisLoop num charge basis recs = ftnBasisLoop num charge basis rest := by
  intro n
  induction n with
  | zero =>
    intro D recs hn _ _ h
    have : D = [] := List.length_eq_zero_iff.1 (by omega)
    exact ⟨recs, by rw [h, this]; rfl, le_rfl, rfl⟩
  | succ n ih =>
    intro D recs hn hd hl h
    cases D with
    | nil => exact ⟨recs, by rw [h]; rfl, le_rfl, rfl⟩
    | cons r D =>
      obtain ⟨rest, D', hs, g1, g2, g3⟩ := scan_step hd hl h
      have hs' : D' <:+ r :: D := hs.trans (List.suffix_cons _ _)
      obtain ⟨rest', k1, k2, k3⟩ := ih D' rest (by have := hs.length_le; simp only [List.length_cons] at hn; omega) (fun q hq => hd q (hs'.subset hq))
        (hl.suffix hs') g1
      exact ⟨rest', k1, by omega, (g3.loop g2 charge basis).trans k3⟩

/-! ## Storing an entry -/

/-- The sizes of the arrays of a block. -/
structure BlockSized (k : FBlock) : Prop where
  exps : k.exponents.length = 30
  funs : k.coeffs.length = 30
  coeffs : ∀ r ∈ k.coeffs, r.length = 30

theorem storeRow_spec {ip : Nat} (e : ℝ) (cs : List ℝ) {k : FBlock} (hk : BlockSized k) (hip : ip < 30) (hcs : cs.length ≤ 30) :
    ∃ k', storeRow ip e cs k = .ok k' ∧ BlockSized k' ∧ k'.numPrim = k.numPrim ∧ k'.numContr = k.numContr ∧ k'.exponents = k.exponents.set ip e ∧
      ∀ i (_ : i < cs.length), ∃ row, k.coeffs[i]? = some row ∧ k'.coeffs[i]? = some (row.set ip (cs.getD i 0)) := by
  have hloop : ∃ co, forRange cs.length k.coeffs (fun j co => do
      let x ← rd cs j
      let row ← rd co j
      let row ← wr row ip x
      wr co j row) = .ok co ∧ co.length = 30 ∧ (∀ r ∈ co, r.length = 30) ∧
      ∀ i (_ : i < cs.length), ∃ row, k.coeffs[i]? = some row ∧ co[i]? = some (row.set ip (cs.getD i 0)) := by
    refine forRange_spec (fun m co => co.length = 30 ∧ (∀ r ∈ co, r.length = 30) ∧
      (∀ i, i < m → ∃ row, k.coeffs[i]? = some row ∧ co[i]? = some (row.set ip (cs.getD i 0))) ∧ ∀ i, m ≤ i → co[i]? = k.coeffs[i]?) ?_ ?_ ?_
    · exact ⟨hk.funs, hk.coeffs, fun i hi => absurd hi (by omega), fun _ _ => rfl⟩
    · rintro m co hm ⟨h1, h2, h3, h4⟩
      have hmk : m < k.coeffs.length := by rw [hk.funs]; omega
      have hmc : m < co.length := by rw [h1]; omega
      have e1 : co[m]? = some k.coeffs[m] := by rw [h4 m le_rfl, List.getElem?_eq_getElem hmk]
      have hlen : ip < (k.coeffs[m]).length := by rw [hk.coeffs _ (List.getElem_mem hmk)]; exact hip
      have e2 : rd cs m = .ok (cs.getD m 0) := by
        rw [rd_ok hm, List.getD_eq_getElem?_getD, List.getElem?_eq_getElem hm]; rfl
      have e3 : rd co m = .ok k.coeffs[m] := by unfold rd; rw [e1]
      refine ⟨co.set m (k.coeffs[m].set ip (cs.getD m 0)), ?_, by simpa using h1, ?_, ?_, ?_⟩
      · simp only [e2, e3, Outcome.ok_bind, wr_ok _ hlen, wr_ok _ hmc]
      · intro r hr
        rcases List.mem_or_eq_of_mem_set hr with hr | rfl
        · exact h2 r hr
        · rw [List.length_set]; exact hk.coeffs _ (List.getElem_mem hmk)
      · intro i hi
        rcases Nat.lt_succ_iff_lt_or_eq.1 hi with hi | rfl
        · obtain ⟨row, f1, f2⟩ := h3 i hi
          exact ⟨row, f1, by rw [List.getElem?_set_ne (by omega)]; exact f2⟩
        · exact ⟨_, List.getElem?_eq_getElem hmk, by rw [List.getElem?_set_self hmc]⟩
      · intro i hi
        rw [List.getElem?_set_ne (by omega)]
        exact h4 i (by omega)
    · rintro co ⟨h1, h2, h3, -⟩
      exact ⟨h1, h2, h3⟩
  obtain ⟨co, g1, g2, g3, g4⟩ := hloop
  refine ⟨{ k with exponents := k.exponents.set ip e, coeffs := co }, ?_, ⟨by simpa using hk.exps, g2, g3⟩, rfl, rfl, rfl, g4⟩
  unfold storeRow
  rw [wr_ok _ (by rw [hk.exps]; exact hip), Outcome.ok_bind, g1, Outcome.ok_bind]

theorem take_set_snoc {α : Type} {l m : List α} {n : Nat} {x : α} (h : l.take n = m) (hn : n < l.length) : (l.set n x).take (n + 1) = m ++ [x] := by
  rw [← h, List.take_add_one, List.take_set_of_le le_rfl, List.getElem?_set_self hn]
  rfl

theorem take_succ_set {α : Type} {l : List α} {n : Nat} {x : α} : (l.set n x).take n = l.take n := List.take_set_of_le le_rfl

theorem forall₂_get {α β : Type} {R : α → β → Prop} {l : List α} {l' : List β} (h : List.Forall₂ R l l') {i : Nat} (hi : i < l.length) :
    ∃ b, l'[i]? = some b ∧ R l[i] b ∧ l'.drop i = b :: l'.drop (i + 1) := by
  induction h generalizing i with
  | nil => simp at hi
  | @cons a b l l' h1 _ ih =>
    cases i with
    | zero => exact ⟨b, rfl, h1, rfl⟩
    | succ i =>
      obtain ⟨c, f1, f2, f3⟩ := ih (i := i) (by simpa using hi)
      exact ⟨c, by simpa using f1, by simpa using f2, by simpa using f3⟩

theorem ftnReadBlock_spec {num : FtnNum} {b : BasisBlock} {rs T recs : List FRecord} (hb : BlockRecs num b rs) (hnp : b.rows.length ≤ 30) (hnc : b.nc ≤ 30)
    (h : nonBlank recs = rs ++ T) {k : FBlock} (hk : BlockSized k) :
    ∃ k' rest, ftnReadBlock num k recs = .ok (k', rest) ∧ nonBlank rest = T ∧ rest.length ≤ recs.length ∧ BlockSized k' ∧ FBlockIs b k' := by
  obtain ⟨hh, hr⟩ := hb
  rename_i hd rs
  obtain ⟨rest0, g1, g2, g3⟩ := read_ints hh (show nonBlank recs = hd :: (rs ++ T) from h)
  have hloop : ∃ st, forRange b.rows.length (({ k with numPrim := b.rows.length, numContr := b.nc } : FBlock), rest0) (fun ip st => do
      let r ← fReadStop (basisRow num b.nc) st.2
      let b ← storeRow ip r.1.1 r.1.2 st.1
      .ok (b, r.2)) = .ok st ∧ nonBlank st.2 = T ∧ st.2.length ≤ rest0.length ∧ BlockSized st.1 ∧ FBlockIs b st.1 := by
    refine forRange_spec (fun m (st : FBlock × List FRecord) => nonBlank st.2 = rs.drop m ++ T ∧ st.2.length ≤ rest0.length ∧ BlockSized st.1 ∧
      st.1.numPrim = b.rows.length ∧ st.1.numContr = b.nc ∧ st.1.exponents.take m = b.exps.take m ∧
      ∀ i < b.nc, ∃ row, st.1.coeffs[i]? = some row ∧ row.take m = (b.col i).take m) ?_ ?_ ?_
    · exact ⟨g1, le_rfl, ⟨hk.exps, hk.funs, hk.coeffs⟩, rfl, rfl, by simp, fun i hi =>
        ⟨k.coeffs[i]'(by rw [hk.funs]; omega), List.getElem?_eq_getElem _, by simp⟩⟩
    · rintro m ⟨k1, recs1⟩ hm ⟨h1, h2, h3, h4, h5, h6, h7⟩
      obtain ⟨r, f1, ⟨f2, f3⟩, f4⟩ := forall₂_get hr hm
      simp only at h1 h2 h3 h4 h5 h6 h7
      rw [f4] at h1
      obtain ⟨rest1, q1, q2, q3⟩ := read_row f3 (show nonBlank recs1 = r :: (rs.drop (m + 1) ++ T) from h1)
      rw [f2] at q3
      obtain ⟨k2, s1, s2, s3, s4, s5, s6⟩ := storeRow_spec (ip := m) b.rows[m].1 b.rows[m].2 h3 (by omega) (by rw [f2]; exact hnc)
      refine ⟨(k2, rest1), ?_, q1, by simp only; omega, s2, s3.trans h4, s4.trans h5, ?_, fun i hi => ?_⟩
      · simp only [q3, s1, Outcome.ok_bind]
      · simp only
        rw [s5, take_set_snoc h6 (by rw [h3.exps]; omega), List.take_add_one]
        congr 1
        simp [BasisBlock.exps, List.getElem?_eq_getElem hm]
      · obtain ⟨row, t1, t2⟩ := s6 i (by rw [f2]; exact hi)
        obtain ⟨row', u1, u2⟩ := h7 i hi
        rw [t1] at u1
        obtain rfl := Option.some.inj u1
        refine ⟨_, t2, ?_⟩
        have hrl : row.length = 30 := h3.coeffs row (List.mem_of_getElem? t1)
        rw [take_set_snoc u2 (by rw [hrl]; omega), List.take_add_one]
        congr 1
        simp [BasisBlock.col, List.getElem?_eq_getElem hm]
    · rintro ⟨k1, recs1⟩ ⟨h1, h2, h3, h4, h5, h6, h7⟩
      refine ⟨?_, h2, h3, h4, h5, ?_, fun i hi => ?_⟩
      · rw [h1, hr.length_eq, List.drop_length]; rfl
      · rw [h6, List.take_of_length_le (by simp [BasisBlock.exps])]
      · obtain ⟨row, u1, u2⟩ := h7 i hi
        exact ⟨row, u1, by rw [u2, List.take_of_length_le (by simp [BasisBlock.col])]⟩
  obtain ⟨⟨k', rest⟩, e1, e2, e3, e4, e5⟩ := hloop
  refine ⟨k', rest, ?_, e2, by simp only at e3; omega, e4, e5⟩
  unfold ftnReadBlock
  rw [g3, Outcome.ok_bind]
  simp only [Int.toNat_natCast]
  exact e1

/-- The sizes of the arrays of an element. -/
structure ElementSized (b : FBasis) : Prop where
  blocks : b.blocks.length = 10
  sized : ∀ k ∈ b.blocks, BlockSized k

theorem ftnReadEntry_spec {num : FtnNum} {bs : List BasisBlock} {rs T recs : List FRecord} (hb : BlocksRecs num bs rs)
    (hnp : ∀ b ∈ bs, b.rows.length ≤ 30) (hnc : ∀ b ∈ bs, b.nc ≤ 30) (hlen : bs.length ≤ 10) (n : Nat)
    (h : nonBlank recs = rs ++ T) {b : FBasis} (hs : ElementSized b) :
    ∃ b' rest, forRange bs.length (({ b with numBlocks := n } : FBasis), recs) (fun ib st => do
        let blk ← rd st.1.blocks ib
        let r ← ftnReadBlock num blk st.2
        let bs ← wr st.1.blocks ib r.1
        .ok ({ st.1 with blocks := bs }, r.2)) = .ok (b', rest) ∧ nonBlank rest = T ∧ rest.length ≤ recs.length ∧ ElementSized b' ∧ b'.numBlocks = n ∧
      ∀ L (h : L < bs.length), ∃ k, b'.blocks[L]? = some k ∧ FBlockIs bs[L] k := by
  have key : ∀ (bs : List BasisBlock) (rs : List FRecord), BlocksRecs num bs rs → (∀ b ∈ bs, b.rows.length ≤ 30) → (∀ b ∈ bs, b.nc ≤ 30) → bs.length ≤ 10 →
      ∀ (T recs : List FRecord), nonBlank recs = rs ++ T → ∃ b' rest, forRange bs.length (({ b with numBlocks := n } : FBasis), recs) (fun ib st => do
        let blk ← rd st.1.blocks ib
        let r ← ftnReadBlock num blk st.2
        let bs ← wr st.1.blocks ib r.1
        .ok ({ st.1 with blocks := bs }, r.2)) = .ok (b', rest) ∧ nonBlank rest = T ∧ rest.length ≤ recs.length ∧ ElementSized b' ∧ b'.numBlocks = n ∧
      ∀ L (h : L < bs.length), ∃ k, b'.blocks[L]? = some k ∧ FBlockIs bs[L] k := by
    intro bs
    induction bs using List.reverseRecOn with
    | nil =>
      intro rs h1 _ _ _ T recs h
      cases h1
      exact ⟨_, recs, rfl, h, le_rfl, ⟨hs.blocks, hs.sized⟩, rfl, fun L h => absurd h (by simp)⟩
    | append_singleton bs c ih =>
      intro rs h1 hnp hnc hlen T recs h
      obtain ⟨r1, r2, rfl, h2, h3⟩ : ∃ r1 r2, rs = r1 ++ r2 ∧ BlocksRecs num bs r1 ∧ BlockRecs num c r2 := by
        clear ih hnp hnc hlen h
        induction bs generalizing rs with
        | nil =>
          cases h1 with
          | @cons _ _ r1 r2 a b => cases b; exact ⟨[], r1, by simp, .nil, a⟩
        | cons d bs ih' =>
          cases h1 with
          | @cons _ _ r1 r2 a b =>
            obtain ⟨q1, q2, rfl, q3, q4⟩ := ih' r2 b
            exact ⟨r1 ++ q1, q2, by simp, .cons a q3, q4⟩
      rw [List.append_assoc] at h
      rw [List.length_append, List.length_singleton] at hlen
      obtain ⟨b', rest, e1, e2, e3, e4, e5, e6⟩ := ih r1 h2 (fun b hb => hnp b (by simp [hb])) (fun b hb => hnc b (by simp [hb])) (by omega) (r2 ++ T) recs h
      have hbl : bs.length < b'.blocks.length := by rw [e4.blocks]; omega
      obtain ⟨k', rest', f1, f2, f3, f4, f5⟩ := ftnReadBlock_spec h3 (hnp c (by simp)) (hnc c (by simp)) e2 (e4.sized _ (List.getElem_mem hbl))
      refine ⟨{ b' with blocks := b'.blocks.set bs.length k' }, rest', ?_, f2, by omega, ⟨by simpa using e4.blocks, fun k hk => ?_⟩, e5, fun L hL => ?_⟩
      · rw [List.length_append, List.length_singleton, forRange_succ, e1, Outcome.ok_bind]
        simp only [rd_ok hbl, f1, wr_ok _ hbl, Outcome.ok_bind]
      · rcases List.mem_or_eq_of_mem_set hk with hk | rfl
        · exact e4.sized k hk
        · exact f4
      · rw [List.length_append, List.length_singleton] at hL
        rcases Nat.lt_succ_iff_lt_or_eq.1 hL with hL' | rfl
        · obtain ⟨k, q1, q2⟩ := e6 L hL'
          refine ⟨k, by simp only; rw [List.getElem?_set_ne (by omega)]; exact q1, ?_⟩
          rw [List.getElem_append_left hL']; exact q2
        · refine ⟨k', by simp only; rw [List.getElem?_set_self hbl], ?_⟩
          rw [List.getElem_append_right le_rfl]
          simpa using f5
  exact key bs rs hb hnp hnc hlen T recs h

/-! ## A whole file -/

theorem BasisSized.element {basis : List FBasis} (h : BasisSized basis) {b : FBasis} (hb : b ∈ basis) : ElementSized b :=
  ⟨h.blocks b hb, fun k hk => ⟨h.exps b hb k hk, h.funs b hb k hk, h.coeffs b hb k hk⟩⟩

theorem BasisSized.set {basis : List FBasis} (h : BasisSized basis) {b : FBasis} (hb : ElementSized b) (i : Nat) : BasisSized (basis.set i b) := by
  have key : ∀ c ∈ basis.set i b, ElementSized c := fun c hc => by
    rcases List.mem_or_eq_of_mem_set hc with hc | rfl
    · exact h.element hc
    · exact hb
  exact ⟨by simpa using h.elements, fun c hc => (key c hc).blocks, fun c hc k hk => ((key c hc).sized k hk).exps, fun c hc k hk => ((key c hc).sized k hk).funs,
    fun c hc k hk => ((key c hc).sized k hk).coeffs⟩

/-- The entry of another element is passed over. -/
theorem entry_skip {num : FtnNum} {z charge : Nat} (hz : z ≠ charge) {bs : List BasisBlock} {r1 T recs : List FRecord} (he : EntryRecs num z bs r1)
    (hc : ∀ r, r1.getLast? = some r → ClosedRec num r) (h : nonBlank recs = r1 ++ T) (basis : List FBasis) :
    ∃ rest, nonBlank rest = T ∧ ftnBasisLoop num charge basis recs = ftnBasisLoop num charge basis rest := by
  obtain ⟨hd, body, rfl, h1, h2⟩ := he
  obtain ⟨rest0, g1, g2, g3⟩ := read_star h1 (show nonBlank recs = hd :: (body ++ T) from h)
  have hl : LastClosed num body := fun r hr => hc r (by
    cases body with
    | nil => simp at hr
    | cons q body => rw [List.getLast?_cons_cons]; exact hr)
  obtain ⟨rest, k1, -, k3⟩ := scan_data charge basis T body.length body rest0 le_rfl h2.data hl g1
  refine ⟨rest, k1, ?_⟩
  rw [← k3, ftnBasisLoop, g3]
  simp only
  rw [if_neg fun h => hz (by exact_mod_cast h.2), dif_pos g2]

theorem rd1_ok {α : Type} {a : List α} {i : Nat} (h0 : 1 ≤ i) (h : i - 1 < a.length) : rd1 a i = .ok a[i - 1] := by
  unfold rd1
  rw [if_neg (by omega), rd_ok h]

theorem wr1_ok {α : Type} {a : List α} {i : Nat} {x : α} (h0 : 1 ≤ i) (h : i - 1 < a.length) : wr1 a i x = .ok (a.set (i - 1) x) := by
  unfold wr1
  rw [if_neg (by omega), wr_ok _ h]

/-- The entry of the element is stored. -/
theorem entry_store {num : FtnNum} {z : Nat} (hz : 1 ≤ z ∧ z ≤ 131) {bs : List BasisBlock} (hlim : FtnLimits bs) {r1 T recs : List FRecord}
    (he : EntryRecs num z bs r1) (h : nonBlank recs = r1 ++ T) {basis : List FBasis} (hs : BasisSized basis) :
    ∃ rest b, nonBlank rest = T ∧ ElementSized b ∧ FBasisIs bs b ∧
      ftnBasisLoop num z basis recs = ftnBasisLoop num z (basis.set (z - 1) b) rest := by
  obtain ⟨hd, body, rfl, h1, h2⟩ := he
  obtain ⟨rest0, g1, g2, g3⟩ := read_star h1 (show nonBlank recs = hd :: (body ++ T) from h)
  have hi : z - 1 < basis.length := by rw [hs.elements]; omega
  obtain ⟨b', rest, e1, e2, e3, e4, e5, e6⟩ := ftnReadEntry_spec h2 hlim.np hlim.nc hlim.len bs.length g1 (hs.element (List.getElem_mem hi))
  refine ⟨rest, b', e2, e4, ⟨e5, e6⟩, ?_⟩
  have hr : ftnReadEntry num bs.length basis[z - 1] rest0 = .ok (b', rest) := e1
  rw [ftnBasisLoop, g3]
  simp only
  rw [if_pos ⟨trivial, trivial⟩, rd1_ok hz.1 hi, Outcome.ok_bind, Int.toNat_natCast, hr, Outcome.ok_bind, wr1_ok hz.1 hi, Outcome.ok_bind, dif_pos (show rest.length < recs.length by omega)]

theorem loop_end {num : FtnNum} (charge : Nat) (basis : List FBasis) {recs : List FRecord} (h : nonBlank recs = []) :
    ftnBasisLoop num charge basis recs = .ok basis := by
  have : fRead (basisHeader num) recs = .eof := by
    unfold fRead basisHeader fItem
    simp only [nextValue_none h, FRes.bind, FRes.done]
  rw [ftnBasisLoop, this]

theorem lastEntry_cons_ne {z z' : Nat} (h : z' ≠ z) (bs : List BasisBlock) (es : List (Nat × List BasisBlock)) :
    lastEntry z ((z', bs) :: es) = lastEntry z es := by simp [lastEntry, h]

theorem lastEntry_cons_eq (z : Nat) (bs : List BasisBlock) (es : List (Nat × List BasisBlock)) :
    lastEntry z ((z, bs) :: es) = some ((lastEntry z es).getD bs) := by
  simp [lastEntry, List.getLast?_cons]

theorem read_basis_file {num : FtnNum} {z : Nat} (hz : 1 ≤ z ∧ z ≤ 131) {es : List (Nat × List BasisBlock)} {rs : List FRecord}
    (hf : BasisFileRecs num es rs) (hlim : ∀ bs, (z, bs) ∈ es → FtnLimits bs) :
    ∀ (recs : List FRecord) (basis : List FBasis), nonBlank recs = rs → BasisSized basis →
      ∃ basis', ftnBasisLoop num z basis recs = .ok basis' ∧ BasisSized basis' ∧ (∀ i, i ≠ z - 1 → basis'[i]? = basis[i]?) ∧
        (lastEntry z es = none → basis' = basis) ∧ ∀ bs, lastEntry z es = some bs → ∃ b, basis'[z - 1]? = some b ∧ FBasisIs bs b := by
  induction hf with
  | nil =>
    intro recs basis h hs
    exact ⟨basis, loop_end z basis h, hs, fun _ _ => rfl, fun _ => rfl, fun bs h => by simp [lastEntry] at h⟩
  | @cons z' bs es r1 r2 h1 hc h2 ih =>
    intro recs basis h hs
    have hlim' : ∀ bs, (z, bs) ∈ es → FtnLimits bs := fun bs hb => hlim bs (List.mem_cons_of_mem _ hb)
    by_cases hzz : z' = z
    · subst hzz
      obtain ⟨rest, b, g1, g2, g3, g4⟩ := entry_store hz (hlim bs (List.mem_cons_self ..)) h1 h hs
      obtain ⟨basis', k1, k2, k3, k4, k5⟩ := ih hlim' rest _ g1 (hs.set g2 _)
      refine ⟨basis', g4.trans k1, k2, fun i hi => by rw [k3 i hi, List.getElem?_set_ne (by omega)], fun h => ?_, fun cs hcs => ?_⟩
      · rw [lastEntry_cons_eq] at h; cases h
      · rw [lastEntry_cons_eq] at hcs
        cases hl : lastEntry z' es with
        | none =>
          rw [hl] at hcs
          obtain rfl : bs = cs := by simpa using hcs
          refine ⟨b, ?_, g3⟩
          rw [k4 hl, List.getElem?_set_self (by rw [hs.elements]; omega)]
        | some ds =>
          rw [hl] at hcs
          obtain rfl : ds = cs := by simpa using hcs
          exact k5 _ hl
    · obtain ⟨rest, g1, g2⟩ := entry_skip hzz h1 hc h basis
      obtain ⟨basis', k1, k2, k3, k4, k5⟩ := ih hlim' rest _ g1 hs
      rw [lastEntry_cons_ne hzz]
      exact ⟨basis', g2.trans k1, k2, k3, k4, k5⟩

/-! ## Normalisation -/

open MeasureTheory Nat

theorem cgto_take (O : Point) (c : Comp) (num : Nat) (coeffs alpha : List ℝ) (r : Point) :
    cgto O c num (coeffs.take num) (alpha.take num) r = cgto O c num coeffs alpha r := by
  unfold cgto
  refine Finset.sum_congr rfl fun i hi => ?_
  have hi := Finset.mem_range.1 hi
  simp only [List.getD_eq_getElem?_getD, List.getElem?_take_of_lt hi]

theorem contracted_take (O : Point) (c : Comp) (num : Nat) (coeffs alpha : List ℝ) (r : Point) :
    contracted O c num coeffs alpha r = cgto O c num (coeffs.take num) (alpha.take num) r := (cgto_take O c num coeffs alpha r).symm

/-- A row of coefficients: proportional to the column of the file. -/
def RowScaled (b : BasisBlock) (i : Nat) (row : List ℝ) : Prop := ∃ N : ℝ, 0 < N ∧ row.take b.rows.length = (b.col i).map (· * N)

/-- A row of normalised coefficients. -/
def RowNormed (L : Nat) (b : BasisBlock) (i : Nat) (row : List ℝ) : Prop :=
  NormalisedFun L b.exps (b.col i) ⟨L, b.rows.length, row.take b.rows.length, b.exps⟩

theorem RowNormed.scaled {L : Nat} {b : BasisBlock} {i : Nat} {row : List ℝ} (h : RowNormed L b i row) : RowScaled b i row := h.2.2.2.1

/-- The arrays of a block hold the block `b`, with rows for which `P` holds. -/
structure BlockRows (P : Nat → List ℝ → Prop) (b : BasisBlock) (k : FBlock) : Prop where
  prim : k.numPrim = b.rows.length
  contr : k.numContr = b.nc
  exps : k.exponents.take b.rows.length = b.exps
  funs : ∀ i < b.nc, ∃ row, k.coeffs[i]? = some row ∧ P i row

/-- The arrays of an element hold the blocks `bs`, with rows for which `P` holds. -/
structure EntryRows (P : Nat → BasisBlock → Nat → List ℝ → Prop) (bs : List BasisBlock) (b : FBasis) : Prop where
  num : b.numBlocks = bs.length
  block : ∀ L (h : L < bs.length), ∃ k, b.blocks[L]? = some k ∧ BlockRows (P L bs[L]) bs[L] k

theorem EntryRows.mono {P Q : Nat → BasisBlock → Nat → List ℝ → Prop} (hPQ : ∀ L b i row, P L b i row → Q L b i row) {bs : List BasisBlock} {b : FBasis}
    (h : EntryRows P bs b) : EntryRows Q bs b := by
  refine ⟨h.num, fun L hL => ?_⟩
  obtain ⟨k, h1, h2⟩ := h.block L hL
  refine ⟨k, h1, h2.prim, h2.contr, h2.exps, fun i hi => ?_⟩
  obtain ⟨row, g1, g2⟩ := h2.funs i hi
  exact ⟨row, g1, hPQ _ _ _ _ g2⟩

theorem FBasisIs.rows {bs : List BasisBlock} {b : FBasis} (h : FBasisIs bs b) : EntryRows (fun _ => RowScaled) bs b := by
  refine ⟨h.num, fun L hL => ?_⟩
  obtain ⟨k, h1, h2⟩ := h.block L hL
  refine ⟨k, h1, h2.prim, h2.contr, h2.exps, fun i hi => ?_⟩
  obtain ⟨row, g1, g2⟩ := h2.funs i hi
  exact ⟨row, g1, 1, one_pos, by rw [g2]; simp⟩

/-- One row. -/
theorem normalize_row {gen : Nat → List Comp} (hg : DocumentedOrder gen) {L : Nat} (hL : L ≤ 9) {b : BasisBlock} (hb : b.Ok L) {i : Nat} (hi : i < b.nc)
    {row exps : List ℝ} (hrow : RowScaled b i row) (he : exps.take b.rows.length = b.exps) (hl : b.rows.length ≤ row.length) :
    ∃ h' M, ftnNormFactor gen ⟨fun _ => none, 0, []⟩ L b.rows.length row exps = .ok (h', M) ∧ RowNormed L b i (row.map (· * M)) := by
  obtain ⟨N, hN, hrow⟩ := hrow
  have hle : b.rows.length ≤ exps.length := by
    have := congrArg List.length he
    simp only [List.length_take, BasisBlock.exps, List.length_map] at this
    omega
  obtain ⟨r0, hr0⟩ := hb.nonzero i hi
  have hpos : ∀ j < b.rows.length, 0 < exps.getD j 0 := by
    intro j hj
    have : exps.getD j 0 = b.exps.getD j 0 := by rw [← he]; simp only [List.getD_eq_getElem?_getD, List.getElem?_take_of_lt hj]
    rw [this]
    simp only [BasisBlock.exps, List.getD_eq_getElem?_getD, List.getElem?_map, List.getElem?_eq_getElem hj, Option.map_some, Option.getD_some]
    exact hb.pos _ (List.getElem_mem hj)
  have heq : ∀ O c r, contracted O c b.rows.length row exps r = N * contracted O c b.rows.length (b.col i) b.exps r := by
    intro O c r
    rw [contracted_take, hrow, he, cgto_scale]
  obtain ⟨h', M, e1, -, hM, hint⟩ := fortran_norm_factor gen hg ⟨fun _ => none, 0, []⟩ (fun _ _ => rfl) L b.rows.length row exps hl hle hpos hL
    ⟨r0, by rw [heq]; exact mul_ne_zero hN.ne' hr0⟩
  have ht : (row.map (· * M)).take b.rows.length = (b.col i).map (· * (N * M)) := by
    rw [← List.map_take, hrow, List.map_map]
    refine List.map_congr_left fun x _ => ?_
    simp only [Function.comp_apply]
    ring
  refine ⟨h', M, e1, rfl, by simp [BasisBlock.exps], rfl, ⟨N * M, mul_pos hN hM, ht⟩, fun O c hc => ?_⟩
  rw [← hint O c hc]
  simp only
  congr 1
  funext r
  rw [ht, cgto_scale, heq]
  ring

theorem normalize_block {gen : Nat → List Comp} (hg : DocumentedOrder gen) {L : Nat} (hL : L ≤ 9) {b : BasisBlock} (hb : b.Ok L) (hnp : b.rows.length ≤ 30)
    (hnc : b.nc ≤ 30) {k : FBlock} (hs : BlockSized k) (hk : BlockRows (RowScaled b) b k) :
    ∃ k', forRange k.numContr k (fun i blk => do
        let row ← rd blk.coeffs i
        let r ← ftnNormFactor gen ⟨fun _ => none, 0, []⟩ L blk.numPrim row blk.exponents
        let co ← wr blk.coeffs i (row.map (· * r.2))
        .ok { blk with coeffs := co }) = .ok k' ∧ BlockSized k' ∧ BlockRows (RowNormed L b) b k' := by
  refine forRange_spec (fun m k' => BlockSized k' ∧ k'.numPrim = b.rows.length ∧ k'.numContr = b.nc ∧ k'.exponents.take b.rows.length = b.exps ∧
    (∀ i < m, ∃ row, k'.coeffs[i]? = some row ∧ RowNormed L b i row) ∧ ∀ i, m ≤ i → k'.coeffs[i]? = k.coeffs[i]?) ?_ ?_ ?_
  · exact ⟨hs, hk.prim, hk.contr, hk.exps, fun i hi => absurd hi (by omega), fun _ _ => rfl⟩
  · rintro m k1 hm ⟨h1, h2, h3, h4, h5, h6⟩
    rw [hk.contr] at hm
    obtain ⟨row, g1, g2⟩ := hk.funs m hm
    have e1 : k1.coeffs[m]? = some row := by rw [h6 m le_rfl, g1]
    have hlen : m < k1.coeffs.length := by rw [h1.funs]; omega
    have hrl : row.length = 30 := h1.coeffs row (List.mem_of_getElem? e1)
    obtain ⟨h', M, q1, q2⟩ := normalize_row hg hL hb hm g2 h4 (by omega)
    have e2 : rd k1.coeffs m = .ok row := by unfold rd; rw [e1]
    refine ⟨{ k1 with coeffs := k1.coeffs.set m (row.map (· * M)) }, ?_, ⟨h1.exps, by simpa using h1.funs, fun r hr => ?_⟩, h2, h3, h4, fun i hi => ?_, fun i hi => ?_⟩
    · simp only [e2, Outcome.ok_bind, h2, q1, wr_ok _ hlen]
    · rcases List.mem_or_eq_of_mem_set hr with hr | rfl
      · exact h1.coeffs r hr
      · rw [List.length_map, hrl]
    · rcases Nat.lt_succ_iff_lt_or_eq.1 hi with hi | rfl
      · obtain ⟨row', f1, f2⟩ := h5 i hi
        exact ⟨row', by simp only; rw [List.getElem?_set_ne (by omega)]; exact f1, f2⟩
      · exact ⟨_, by simp only; rw [List.getElem?_set_self hlen], q2⟩
    · simp only
      rw [List.getElem?_set_ne (by omega)]
      exact h6 i (by omega)
  · rintro k1 ⟨h1, h2, h3, h4, h5, -⟩
    rw [hk.contr] at h5
    exact ⟨h1, h2, h3, h4, h5⟩

theorem normalize_spec {gen : Nat → List Comp} (hg : DocumentedOrder gen) {z : Nat} (hz : 1 ≤ z ∧ z ≤ 131) {bs : List BasisBlock} (hlim : FtnLimits bs)
    (hok : ∀ L (h : L < bs.length), bs[L].Ok L) {basis : List FBasis} (hs : BasisSized basis) {b : FBasis} (hb : basis[z - 1]? = some b)
    (hr : EntryRows (fun _ => RowScaled) bs b) :
    ∃ basis', ftnNormalize gen z basis = .ok basis' ∧ BasisSized basis' ∧ (∀ i, i ≠ z - 1 → basis'[i]? = basis[i]?) ∧
      ∃ b', basis'[z - 1]? = some b' ∧ EntryRows RowNormed bs b' := by
  have hi : z - 1 < basis.length := by rw [hs.elements]; omega
  have hbm : b ∈ basis := List.mem_of_getElem? hb
  have hbe := hs.element hbm
  have hlen := hlim.len
  have hloop : ∃ b', forRange b.numBlocks b (fun L b => do
      let blk ← rd b.blocks L
      let blk ← forRange blk.numContr blk fun k blk => do
        let row ← rd blk.coeffs k
        let r ← ftnNormFactor gen ⟨fun _ => none, 0, []⟩ L blk.numPrim row blk.exponents
        let co ← wr blk.coeffs k (row.map (· * r.2))
        .ok { blk with coeffs := co }
      let bs ← wr b.blocks L blk
      .ok { b with blocks := bs }) = .ok b' ∧ ElementSized b' ∧ EntryRows RowNormed bs b' := by
    rw [hr.num]
    refine forRange_spec (fun m (b' : FBasis) => ElementSized b' ∧ b'.numBlocks = bs.length ∧
      (∀ L (h : L < bs.length), L < m → ∃ k, b'.blocks[L]? = some k ∧ BlockRows (RowNormed L bs[L]) bs[L] k) ∧ ∀ L, m ≤ L → b'.blocks[L]? = b.blocks[L]?) ?_ ?_ ?_
    · exact ⟨hbe, hr.num, fun L _ h => absurd h (by omega), fun _ _ => rfl⟩
    · rintro m b1 hm ⟨h1, h2, h3, h4⟩
      obtain ⟨k, g1, g2⟩ := hr.block m hm
      have e1 : b1.blocks[m]? = some k := by rw [h4 m le_rfl, g1]
      have hml : m < b1.blocks.length := by rw [h1.blocks]; omega
      obtain ⟨k', q1, q2, q3⟩ := normalize_block hg (by omega) (hok m hm) (hlim.np _ (List.getElem_mem hm)) (hlim.nc _ (List.getElem_mem hm))
        (h1.sized k (List.mem_of_getElem? e1)) g2
      have e2 : rd b1.blocks m = .ok k := by unfold rd; rw [e1]
      refine ⟨{ b1 with blocks := b1.blocks.set m k' }, ?_, ⟨by simpa using h1.blocks, fun c hc => ?_⟩, h2, fun L hL hLm => ?_, fun L hL => ?_⟩
      · simp only [e2, Outcome.ok_bind, q1, wr_ok _ hml]
      · rcases List.mem_or_eq_of_mem_set hc with hc | rfl
        · exact h1.sized c hc
        · exact q2
      · rcases Nat.lt_succ_iff_lt_or_eq.1 hLm with h | rfl
        · obtain ⟨c, f1, f2⟩ := h3 L hL h
          exact ⟨c, by simp only; rw [List.getElem?_set_ne (by omega)]; exact f1, f2⟩
        · exact ⟨k', by simp only; rw [List.getElem?_set_self hml], q3⟩
      · simp only
        rw [List.getElem?_set_ne (by omega)]
        exact h4 L (by omega)
    · rintro b1 ⟨h1, h2, h3, -⟩
      exact ⟨h1, h2, fun L h => h3 L h h⟩
  obtain ⟨b', e1, e2, e3⟩ := hloop
  refine ⟨basis.set (z - 1) b', ?_, hs.set e2 _, fun i hi => List.getElem?_set_ne (by omega), b', List.getElem?_set_self hi, e3⟩
  unfold ftnNormalize
  have e0 : rd1 basis z = .ok b := by rw [rd1_ok hz.1 hi]; rw [List.getElem?_eq_getElem hi] at hb; rw [Option.some.inj hb]
  rw [e0, Outcome.ok_bind, e1, Outcome.ok_bind, wr1_ok hz.1 hi]

/-! ## All atoms -/

theorem main_basis_spec {gen : Nat → List Comp} (hg : DocumentedOrder gen) {num : FtnNum} {es : List (Nat × List BasisBlock)} {recs : List FRecord}
    (hf : BasisFileRecs num es (nonBlank recs)) (charges : List Nat) (entries : Nat → List BasisBlock)
    (hz : ∀ z ∈ charges, 1 ≤ z ∧ z ≤ 131) (he : ∀ z ∈ charges, lastEntry z es = some (entries z))
    (hlim : ∀ z ∈ charges, ∀ bs, (z, bs) ∈ es → FtnLimits bs) (hok : ∀ z ∈ charges, ∀ L (h : L < (entries z).length), (entries z)[L].Ok L)
    (basis : List FBasis) (hs : BasisSized basis) :
    ∃ basis', ftnMainBasis gen num recs charges basis = .ok basis' ∧ BasisSized basis' ∧
      ∀ z ∈ charges, ∃ b, basis'[z - 1]? = some b ∧ EntryRows RowNormed (entries z) b := by
  have hlimz : ∀ z ∈ charges, FtnLimits (entries z) := by
    intro z hzc
    refine hlim z hzc _ ?_
    have := List.mem_of_getLast? (he z hzc)
    simp only [List.mem_map, List.mem_filter, decide_eq_true_eq] at this
    obtain ⟨e, ⟨h1, h2⟩, h3⟩ := this
    rw [← h3, ← h2]; exact h1
  have hinj : ∀ z ∈ charges, ∀ z' ∈ charges, z - 1 = z' - 1 → z = z' := fun z h z' h' e => by
    have := hz z h; have := hz z' h'; omega
  have h1 : ∃ basis', forRange charges.length basis (fun i basis => do
      let z ← rd charges i
      let basis ← ftnBasisLoop num z basis recs
      ftnNormalize gen z basis) = .ok basis' ∧ BasisSized basis' ∧ ∀ z ∈ charges, ∃ b, basis'[z - 1]? = some b ∧ EntryRows RowNormed (entries z) b := by
    refine forRange_spec (fun m b => BasisSized b ∧ ∀ z ∈ charges.take m, ∃ c, b[z - 1]? = some c ∧ EntryRows RowNormed (entries z) c) ?_ ?_ ?_
    · exact ⟨hs, fun z h => by simp at h⟩
    · rintro m b hm ⟨g1, g2⟩
      have hmem : charges[m] ∈ charges := List.getElem_mem hm
      obtain ⟨b1, k1, k2, k3, -, k5⟩ := read_basis_file (hz _ hmem) hf (hlim _ hmem) recs b rfl g1
      obtain ⟨c, q1, q2⟩ := k5 _ (he _ hmem)
      obtain ⟨b2, r1, r2, r3, c', r4, r5⟩ := normalize_spec hg (hz _ hmem) (hlimz _ hmem) (hok _ hmem) k2 q1 q2.rows
      refine ⟨b2, by simp only [rd_ok hm, Outcome.ok_bind, k1, r1], r2, fun z hzm => ?_⟩
      by_cases hzz : z = charges[m]
      · rw [hzz]; exact ⟨c', r4, r5⟩
      · rw [List.take_add_one, List.getElem?_eq_getElem hm, List.mem_append] at hzm
        rcases hzm with hzm | hzm
        · obtain ⟨d, d1, d2⟩ := g2 z hzm
          have hne : z - 1 ≠ charges[m] - 1 := fun e => hzz (hinj _ (List.mem_of_mem_take hzm) _ hmem e)
          exact ⟨d, by rw [r3 _ hne, k3 _ hne]; exact d1, d2⟩
        · exact absurd (by simpa using hzm) hzz
    · rintro b ⟨g1, g2⟩
      rw [List.take_length] at g2
      exact ⟨g1, g2⟩
  obtain ⟨b1, e1, e2, e3⟩ := h1
  have h2 : ∃ basis', forRange charges.length b1 (fun i basis => do
      let z ← rd charges i
      ftnNormalize gen z basis) = .ok basis' ∧ BasisSized basis' ∧ ∀ z ∈ charges, ∃ b, basis'[z - 1]? = some b ∧ EntryRows RowNormed (entries z) b := by
    refine forRange_spec (fun m b => BasisSized b ∧ ∀ z ∈ charges, ∃ c, b[z - 1]? = some c ∧ EntryRows RowNormed (entries z) c) ⟨e2, e3⟩ ?_ fun _ h => h
    rintro m b hm ⟨g1, g2⟩
    have hmem : charges[m] ∈ charges := List.getElem_mem hm
    obtain ⟨c, q1, q2⟩ := g2 _ hmem
    obtain ⟨b2, r1, r2, r3, c', r4, r5⟩ := normalize_spec hg (hz _ hmem) (hlimz _ hmem) (hok _ hmem) g1 q1 (q2.mono fun _ _ _ _ h => h.scaled)
    refine ⟨b2, by simp only [rd_ok hm, Outcome.ok_bind, r1], r2, fun z hzm => ?_⟩
    by_cases hzz : z = charges[m]
    · rw [hzz]; exact ⟨c', r4, r5⟩
    · obtain ⟨d, d1, d2⟩ := g2 z hzm
      exact ⟨d, by rw [r3 _ fun e => hzz (hinj _ hzm _ hmem e)]; exact d1, d2⟩
  obtain ⟨b2, f1, f2, f3⟩ := h2
  refine ⟨b2, ?_, f2, f3⟩
  unfold ftnMainBasis
  rw [e1, Outcome.ok_bind, f1]

/-! ## The functions in the arrays -/

/-- The contracted functions in the arrays of an element. -/
def FBasis.funs (b : FBasis) : List BasisFun :=
  (List.range b.numBlocks).flatMap fun L => (List.range (b.block L).numContr).map fun f =>
    ⟨L, (b.block L).numPrim, ((b.block L).coeffs.getD f []).take (b.block L).numPrim, (b.block L).exponents.take (b.block L).numPrim⟩

theorem shells_of_funs (gen : Nat → List Comp) (mol : FMol) :
    mol.shells.map (FShell.shell gen) = moleculeShells gen mol.atoms fun z => (mol.basisOf z).funs := by
  simp only [FMol.shells, moleculeShells, FBasis.shells, FBasis.funs, List.map_flatMap, List.map_map]
  rfl

theorem forall₂_flatMap_range {α β : Type} {R : α → β → Prop} {f : Nat → List α} {g : Nat → List β} {n : Nat} (h : ∀ i < n, List.Forall₂ R (f i) (g i)) :
    List.Forall₂ R ((List.range n).flatMap f) ((List.range n).flatMap g) := by
  induction n with
  | zero => exact .nil
  | succ n ih =>
    rw [List.range_succ, List.flatMap_append, List.flatMap_append, List.flatMap_singleton, List.flatMap_singleton]
    exact List.rel_append (ih fun i hi => h i (by omega)) (h n (by omega))

theorem forall₂_map_range {α β : Type} {R : α → β → Prop} {f : Nat → α} {g : Nat → β} {n : Nat} (h : ∀ i < n, R (f i) (g i)) :
    List.Forall₂ R ((List.range n).map f) ((List.range n).map g) := by
  rw [List.forall₂_map_left_iff, List.forall₂_map_right_iff, List.forall₂_same]
  exact fun i hi => h i (List.mem_range.1 hi)

theorem blockFuns_range (bs : List BasisBlock) (L0 : Nat) :
    blockFuns L0 bs = (List.range bs.length).flatMap fun i => (List.range (bs.getD i ⟨0, []⟩).nc).map fun k =>
      (L0 + i, (bs.getD i ⟨0, []⟩).exps, (bs.getD i ⟨0, []⟩).col k) := by
  induction bs generalizing L0 with
  | nil => rfl
  | cons b bs ih =>
    rw [blockFuns, ih, List.length_cons, List.range_succ_eq_map, List.flatMap_cons, List.flatMap_map]
    refine congrArg₂ _ rfl ?_
    simp only [List.getD_cons_succ]
    refine List.flatMap_congr fun i _ => List.map_congr_left fun k _ => ?_
    rw [show L0 + 1 + i = L0 + i.succ by omega]

theorem EntryRows.funs {bs : List BasisBlock} {b : FBasis} (h : EntryRows RowNormed bs b) :
    List.Forall₂ (fun p f => NormalisedFun p.1 p.2.1 p.2.2 f) (blockFuns 0 bs) b.funs := by
  rw [blockFuns_range, FBasis.funs, h.num]
  refine forall₂_flatMap_range fun L hL => ?_
  obtain ⟨k, h1, h2⟩ := h.block L hL
  have e1 : b.block L = k := by unfold FBasis.block; rw [List.getD_eq_getElem?_getD, h1]; rfl
  have e2 : bs.getD L ⟨0, []⟩ = bs[L] := by rw [List.getD_eq_getElem?_getD, List.getElem?_eq_getElem hL]; rfl
  rw [e1, e2, h2.contr]
  refine forall₂_map_range fun i hi => ?_
  obtain ⟨row, g1, g2⟩ := h2.funs i hi
  have e3 : k.coeffs.getD i [] = row := by rw [List.getD_eq_getElem?_getD, g1]; rfl
  rw [e3, h2.prim, h2.exps, Nat.zero_add]
  exact g2

/-- The normalised function is unique. -/
theorem NormalisedFun.unique {L : Nat} {alpha coeffs : List ℝ} {f g : BasisFun} (hf : NormalisedFun L alpha coeffs f) (hg : NormalisedFun L alpha coeffs g) :
    f = g := by
  obtain ⟨f1, f2, f3, ⟨N, hN, f4⟩, f5⟩ := hf
  obtain ⟨g1, g2, g3, ⟨M, hM, g4⟩, g5⟩ := hg
  have h1 := f5 ![0, 0, 0] (L, 0, 0) (by simp)
  have h2 := g5 ![0, 0, 0] (L, 0, 0) (by simp)
  rw [f2, f3, f4] at h1
  rw [g2, g3, g4] at h2
  simp only [cgto_scale, mul_pow, integral_const_mul] at h1 h2
  have hd : (0 : ℝ) < ((2 * L - 1)‼ : ℕ) * ((2 * 0 - 1)‼ : ℕ) * ((2 * 0 - 1)‼ : ℕ) := by
    have := Nat.doubleFactorial_pos (2 * L - 1)
    have := Nat.doubleFactorial_pos (2 * 0 - 1)
    positivity
  have hNM : N = M := by
    have hS : ∫ r, contracted ![0, 0, 0] (L, 0, 0) alpha.length coeffs alpha r ^ 2 ≠ 0 := by
      intro h0
      rw [h0, mul_zero] at h1
      exact hd.ne h1
    have : N ^ 2 = M ^ 2 := mul_right_cancel₀ hS (h1.trans h2.symm)
    nlinarith [hN, hM]
  subst hNM
  cases f; cases g
  simp only at f1 f2 f3 f4 g1 g2 g3 g4
  rw [f1, f2, f3, f4, g1, g2, g3, g4]

theorem forall₂_unique {α β : Type} {R : α → β → Prop} (hR : ∀ a b c, R a b → R a c → b = c) {l : List α} {l1 l2 : List β} (h1 : List.Forall₂ R l l1)
    (h2 : List.Forall₂ R l l2) : l1 = l2 := by
  induction h1 generalizing l2 with
  | nil => cases h2; rfl
  | cons h _ ih =>
    cases h2 with
    | cons h' h'' => rw [hR _ _ _ h h', ih h'']

/-! ## Entries outside the limits -/

theorem storeRow_okUb {ip : Nat} (e : ℝ) (cs : List ℝ) {k : FBlock} (hk : BlockSized k) :
    OkUb BlockSized (storeRow ip e cs k) ∧ (30 ≤ ip ∨ 30 < cs.length → storeRow ip e cs k = .ub) := by
  by_cases hip : ip < 30
  · by_cases hcs : cs.length ≤ 30
    · obtain ⟨k', h1, h2, -⟩ := storeRow_spec e cs hk hip hcs
      exact ⟨Or.inl ⟨k', h1, h2⟩, fun h => by omega⟩
    · have hub : storeRow ip e cs k = .ub := by
        unfold storeRow
        rw [wr_ok _ (by rw [hk.exps]; exact hip), Outcome.ok_bind]
        have := (forRange_okUb (n := cs.length) (s := k.coeffs) (body := fun j co => do
          let x ← rd cs j
          let row ← rd co j
          let row ← wr row ip x
          wr co j row) (fun _ co => co.length = 30 ∧ ∀ r ∈ co, r.length = 30) ⟨hk.funs, hk.coeffs⟩ ?_).2 30 (by omega) ?_
        · rw [this]; rfl
        · rintro m co hm ⟨h1, h2⟩
          rw [rd_ok hm, Outcome.ok_bind]
          by_cases hmc : m < co.length
          · left
            have hl : ip < (co[m]).length := by rw [h2 _ (List.getElem_mem hmc)]; exact hip
            refine ⟨co.set m (co[m].set ip cs[m]), ?_, by simpa using h1, fun r hr => ?_⟩
            · simp only [rd_ok hmc, Outcome.ok_bind, wr_ok _ hl, wr_ok _ hmc]
            · rcases List.mem_or_eq_of_mem_set hr with hr | rfl
              · exact h2 r hr
              · rw [List.length_set]; exact h2 _ (List.getElem_mem hmc)
          · right
            rw [rd_ub (by omega)]; rfl
        · rintro co ⟨h1, -⟩
          rw [rd_ok (show 30 < cs.length by omega), Outcome.ok_bind, rd_ub (by omega)]; rfl
      exact ⟨Or.inr hub, fun _ => hub⟩
  · have hub : storeRow ip e cs k = .ub := by
      unfold storeRow
      rw [wr_ub _ (by rw [hk.exps]; omega)]; rfl
    exact ⟨Or.inr hub, fun _ => hub⟩

theorem ftnReadBlock_outside {num : FtnNum} {b : BasisBlock} {rs T recs : List FRecord} (hb : BlockRecs num b rs)
    (hout : 30 < b.rows.length ∨ 30 < b.nc ∧ b.rows ≠ []) (h : nonBlank recs = rs ++ T) {k : FBlock} (hk : BlockSized k) :
    ftnReadBlock num k recs = .ub := by
  obtain ⟨hh, hr⟩ := hb
  rename_i hd rs
  obtain ⟨rest0, g1, g2, g3⟩ := read_ints hh (show nonBlank recs = hd :: (rs ++ T) from h)
  have key : ∀ m (_ : m < b.rows.length) (st : FBlock × List FRecord), nonBlank st.2 = rs.drop m ++ T → BlockSized st.1 →
      ∃ rest1, nonBlank rest1 = rs.drop (m + 1) ++ T ∧ fReadStop (basisRow num b.nc) st.2 = .ok (b.rows[m], rest1) ∧ (b.rows[m]).2.length = b.nc := by
    rintro m hm ⟨k1, recs1⟩ h1 h3
    obtain ⟨r, f1, ⟨f2, f3⟩, f4⟩ := forall₂_get hr hm
    simp only at h1
    rw [f4] at h1
    obtain ⟨rest1, q1, q2, q3⟩ := read_row f3 (show nonBlank recs1 = r :: (rs.drop (m + 1) ++ T) from h1)
    rw [f2] at q3
    exact ⟨rest1, q1, q3, f2⟩
  unfold ftnReadBlock
  rw [g3, Outcome.ok_bind]
  simp only [Int.toNat_natCast]
  have hloop := (forRange_okUb (n := b.rows.length) (s := (({ k with numPrim := b.rows.length, numContr := b.nc } : FBlock), rest0)) (body := fun ip st => do
      let r ← fReadStop (basisRow num b.nc) st.2
      let b ← storeRow ip r.1.1 r.1.2 st.1
      .ok (b, r.2)) (fun m (st : FBlock × List FRecord) => nonBlank st.2 = rs.drop m ++ T ∧ BlockSized st.1) ⟨g1, ⟨hk.exps, hk.funs, hk.coeffs⟩⟩ ?_).2
  · rcases hout with hout | ⟨hout, hne⟩
    · refine hloop 30 hout fun st hst => ?_
      obtain ⟨rest1, q1, q2, q3⟩ := key 30 hout st hst.1 hst.2
      simp only [q2, Outcome.ok_bind, (storeRow_okUb (ip := 30) b.rows[30].1 b.rows[30].2 hst.2).2 (Or.inl le_rfl)]
      rfl
    · have h0 : 0 < b.rows.length := List.length_pos_iff.2 hne
      refine hloop 0 h0 fun st hst => ?_
      obtain ⟨rest1, q1, q2, q3⟩ := key 0 h0 st hst.1 hst.2
      simp only [q2, Outcome.ok_bind, (storeRow_okUb (ip := 0) b.rows[0].1 b.rows[0].2 hst.2).2 (Or.inr (by omega))]
      rfl
  · rintro m st hm ⟨h1, h3⟩
    obtain ⟨rest1, q1, q2, q3⟩ := key m hm st h1 h3
    simp only [q2, Outcome.ok_bind]
    rcases (storeRow_okUb (ip := m) b.rows[m].1 b.rows[m].2 h3).1 with ⟨k2, s1, s2⟩ | s1
    · exact Or.inl ⟨(k2, rest1), by rw [s1, Outcome.ok_bind], q1, s2⟩
    · exact Or.inr (by rw [s1]; rfl)

theorem BlocksRecs.split {num : FtnNum} {bs cs : List BasisBlock} {rs : List FRecord} (h : BlocksRecs num (bs ++ cs) rs) :
    ∃ r1 r2, rs = r1 ++ r2 ∧ BlocksRecs num bs r1 ∧ BlocksRecs num cs r2 := by
  induction bs generalizing rs with
  | nil => exact ⟨[], rs, rfl, .nil, h⟩
  | cons b bs ih =>
    cases h with
    | @cons _ _ q1 q2 h1 h2 =>
      obtain ⟨r1, r2, rfl, h3, h4⟩ := ih h2
      exact ⟨q1 ++ r1, r2, by simp, .cons h1 h3, h4⟩

theorem entry_outside {num : FtnNum} {z : Nat} (hz : 1 ≤ z ∧ z ≤ 131) {bs bs' : List BasisBlock} {b : BasisBlock} (hlim : FtnLimits bs)
    (hout : BlockOutside bs.length b) {r1 T recs : List FRecord} (he : EntryRecs num z (bs ++ b :: bs') r1) (h : nonBlank recs = r1 ++ T) {basis : List FBasis}
    (hs : BasisSized basis) : ftnBasisLoop num z basis recs = .ub := by
  obtain ⟨hd, body, rfl, h1, h2⟩ := he
  obtain ⟨rest0, g1, g2, g3⟩ := read_star h1 (show nonBlank recs = hd :: (body ++ T) from h)
  have hi : z - 1 < basis.length := by rw [hs.elements]; omega
  obtain ⟨q1, q2, rfl, h3, h4⟩ := h2.split
  rw [List.append_assoc] at g1
  obtain ⟨b', rest, e1, e2, e3, e4, e5, e6⟩ := ftnReadEntry_spec h3 hlim.np hlim.nc hlim.len (bs ++ b :: bs').length g1 (hs.element (List.getElem_mem hi))
  have hub : ftnReadEntry num (bs ++ b :: bs').length basis[z - 1] rest0 = .ub := by
    unfold ftnReadEntry
    refine forRange_ub_at e1 ?_ (by simp)
    by_cases h10 : bs.length < 10
    · have hl : bs.length < b'.blocks.length := by rw [e4.blocks]; exact h10
      cases h4 with
      | @cons _ _ v1 v2 h5 h6 =>
        rw [List.append_assoc] at e2
        simp only [rd_ok hl, Outcome.ok_bind]
        rw [ftnReadBlock_outside h5 (by rcases hout with h | h; · omega
                                        · exact h) e2 (e4.sized _ (List.getElem_mem hl))]
        rfl
    · rw [rd_ub (by rw [e4.blocks]; omega)]; rfl
  rw [ftnBasisLoop, g3]
  simp only
  rw [if_pos ⟨trivial, trivial⟩, rd1_ok hz.1 hi, Outcome.ok_bind, Int.toNat_natCast, hub]
  rfl

/-- Entries before. -/
theorem read_basis_prefix {num : FtnNum} {z : Nat} (hz : 1 ≤ z ∧ z ≤ 131) {es : List (Nat × List BasisBlock)} {rs T : List FRecord}
    (hf : BasisFileRecs num es rs) (hlim : ∀ bs, (z, bs) ∈ es → FtnLimits bs) :
    ∀ (recs : List FRecord) (basis : List FBasis), nonBlank recs = rs ++ T → BasisSized basis →
      ∃ basis' rest, BasisSized basis' ∧ nonBlank rest = T ∧ ftnBasisLoop num z basis recs = ftnBasisLoop num z basis' rest := by
  induction hf with
  | nil => intro recs basis h hs; exact ⟨basis, recs, hs, h, rfl⟩
  | @cons z' bs es r1 r2 h1 hc h2 ih =>
    intro recs basis h hs
    rw [List.append_assoc] at h
    have hlim' : ∀ bs, (z, bs) ∈ es → FtnLimits bs := fun bs hb => hlim bs (List.mem_cons_of_mem _ hb)
    by_cases hzz : z' = z
    · subst hzz
      obtain ⟨rest, b, g1, g2, g3, g4⟩ := entry_store hz (hlim bs (List.mem_cons_self ..)) h1 h hs
      obtain ⟨basis', rest', k1, k2, k3⟩ := ih hlim' rest _ g1 (hs.set g2 _)
      exact ⟨basis', rest', k1, k2, g4.trans k3⟩
    · obtain ⟨rest, g1, g2⟩ := entry_skip hzz h1 hc h basis
      obtain ⟨basis', rest', k1, k2, k3⟩ := ih hlim' rest _ g1 hs
      exact ⟨basis', rest', k1, k2, g2.trans k3⟩

/-! ## A header that is lost -/

theorem pair_step {num : FtnNum} {r q : FRecord} {T recs : List FRecord} (hr : PairRec num r) (hq : q ≠ []) (h : nonBlank recs = r :: q :: T) :
    ∃ rest, nonBlank rest = T ∧ rest.length < recs.length ∧ Skips num recs rest := by
  obtain ⟨t, u, n, rfl, ht, hu⟩ := hr
  obtain ⟨rest, t', c, e, g1, g2, g3⟩ := nextValue_cons h
  obtain ⟨rfl, rfl⟩ := List.cons.inj e
  obtain ⟨rest2, w, c2, rfl, k1, k2, k3⟩ := nextValue_cons g1
  refine ⟨rest2, k1, by omega, ?_⟩
  unfold Skips basisHeader
  rw [fRead_next g3, fItem_chr, FRes.ok_bind, fItem_cons hu, FRes.ok_bind, fItem_next k3]
  cases hw : num.int w with
  | none => left; rw [fItem_bad hw, FRes.err_bind]; rfl
  | some m => right; rw [fItem_cons hw, FRes.ok_bind]; exact ⟨_, rfl, take_one_star ht⟩

theorem pairs_scan {num : FtnNum} (z : Nat) (basis : List FBasis) {q : FRecord} (hq : q ≠ []) (T : List FRecord) :
    ∀ (n : Nat) (D recs : List FRecord), D.length = 2 * n + 1 → (∀ r ∈ D, PairRec num r) → nonBlank recs = D ++ q :: T →
      ∃ rest, nonBlank rest = T ∧ rest.length ≤ recs.length ∧ ftnBasisLoop num z basis recs = ftnBasisLoop num z basis rest := by
  intro n
  induction n with
  | zero =>
    intro D recs hn hd h
    obtain ⟨r, rfl⟩ := List.length_eq_one_iff.1 hn
    obtain ⟨rest, g1, g2, g3⟩ := pair_step (hd r (by simp)) hq h
    exact ⟨rest, g1, g2.le, g3.loop g2 z basis⟩
  | succ n ih =>
    intro D recs hn hd h
    match D, hn with
    | r :: r' :: D, hn =>
      have hr' : r' ≠ [] := by obtain ⟨t, u, n, rfl, -⟩ := hd r' (by simp); simp
      obtain ⟨rest, g1, g2, g3⟩ := pair_step (hd r (by simp)) hr' h
      obtain ⟨rest', k1, k2, k3⟩ := ih D rest (by simp only [List.length_cons] at hn; omega) (fun r hr => hd r (by simp [hr])) g1
      exact ⟨rest', k1, by omega, (g3.loop g2 z basis).trans k3⟩

/-! ## xyz.f90 -/

theorem ftnSymbols_table : ftnSymbols = periodicTable.map Element.letters := by decide +kernel

theorem ftnGetCharge_table : ∀ z < 131, ftnGetCharge (ftnSymbols.getD z []) = .ok (if z = 102 then 41 else z) := by
  have : ∀ z < 131, ftnSymbols.findIdx? (fun s => s == ftnSymbols.getD z []) = some (if z = 102 then 41 else z) := by decide +kernel
  intro z hz
  unfold ftnGetCharge
  rw [this z hz]

theorem ftnSymbols_short : ∀ z < 131, (ftnSymbols.getD z []).take 8 = ftnSymbols.getD z [] := by decide +kernel

theorem ftnGetCharge_unknown {l : List Char} (h : l ∉ ftnSymbols) : ftnGetCharge l = .exit := by
  unfold ftnGetCharge
  have : ftnSymbols.findIdx? (fun s => s == l) = none := by
    rw [List.findIdx?_eq_none_iff]
    intro x hx
    simp only [beq_eq_false_iff_ne, ne_eq]
    rintro rfl
    exact h hx
  rw [this]

theorem read_xyz {num : FtnNum} {l : List Char} {p : Point} {recs rs : List FRecord} {r : FRecord}
    (hr : ∃ u1 u2 u3 rest, r = l :: u1 :: u2 :: u3 :: rest ∧ num.real u1 = some (p 0) ∧ num.real u2 = some (p 1) ∧ num.real u3 = some (p 2))
    (h : nonBlank recs = r :: rs) : ∃ rest, nonBlank rest = rs ∧ fReadStop (xyzItems num) recs = .ok ((l.take 8, p), rest) := by
  obtain ⟨u1, u2, u3, more, rfl, h1, h2, h3⟩ := hr
  obtain ⟨rest, t, c, e, g1, g2, g3⟩ := nextValue_cons h
  obtain ⟨rfl, rfl⟩ := List.cons.inj e
  refine ⟨rest, g1, ?_⟩
  have hp : ![p 0, p 1, p 2] = p := by funext i; fin_cases i <;> rfl
  unfold fReadStop xyzItems
  rw [fRead_next g3, fItem_chr, FRes.ok_bind, fItem_cons h1, FRes.ok_bind, fItem_cons h2, FRes.ok_bind, fItem_cons h3, FRes.ok_bind, hp]
  rfl

/-- The loop over the atoms; it stops at the first unknown symbol. -/
theorem xyz_loop {num : FtnNum} {atoms : List (List Char × Point)} {rs1 rs2 recs : List FRecord}
    (hf : List.Forall₂ (fun (a : List Char × Point) r => ∃ u1 u2 u3 rest, r = a.1 :: u1 :: u2 :: u3 :: rest ∧ num.real u1 = some (a.2 0) ∧
      num.real u2 = some (a.2 1) ∧ num.real u3 = some (a.2 2)) atoms rs1)
    (h : nonBlank recs = rs1 ++ rs2) (m : Nat) (l0 : List (Nat × Point)) :
    (∀ zs : List Nat, List.Forall₂ (fun (a : List Char × Point) z => ftnGetCharge (a.1.take 8) = .ok z) atoms zs →
      ∃ rest, nonBlank rest = rs2 ∧ forRange (atoms.length + m) (l0, recs) (fun _ st => do
        let a ← fReadStop (xyzItems num) st.2
        let z ← ftnGetCharge a.1.1
        .ok (st.1 ++ [(z, a.1.2)], a.2)) = forRange m (l0 ++ zs.zip (atoms.map Prod.snd), rest) (fun _ st => do
        let a ← fReadStop (xyzItems num) st.2
        let z ← ftnGetCharge a.1.1
        .ok (st.1 ++ [(z, a.1.2)], a.2))) ∧
    ((∃ a ∈ atoms, ftnGetCharge (a.1.take 8) = .exit) → forRange (atoms.length + m) (l0, recs) (fun _ st => do
        let a ← fReadStop (xyzItems num) st.2
        let z ← ftnGetCharge a.1.1
        .ok (st.1 ++ [(z, a.1.2)], a.2)) = .exit) := by
  induction hf generalizing recs l0 with
  | nil =>
    refine ⟨fun zs hz => ?_, fun ⟨a, ha, _⟩ => by simp at ha⟩
    cases hz
    exact ⟨recs, h, by simp⟩
  | @cons a r atoms rs1 hr _ ih =>
    obtain ⟨rest, g1, g2⟩ := read_xyz hr (show nonBlank recs = r :: (rs1 ++ rs2) from h)
    rw [List.length_cons, show atoms.length + 1 + m = (atoms.length + m) + 1 by omega, forRange_first]
    simp only [g2, Outcome.ok_bind]
    refine ⟨fun zs hz => ?_, fun hex => ?_⟩
    · cases hz with
      | @cons _ z _ zs h1 h2 =>
        obtain ⟨rest', k1, k2⟩ := (ih g1 (l0 ++ [(z, a.2)])).1 zs h2
        refine ⟨rest', k1, ?_⟩
        rw [h1, Outcome.ok_bind, Outcome.ok_bind, k2]
        simp
    · cases hc : ftnGetCharge (a.1.take 8) with
      | ok z =>
        rw [Outcome.ok_bind, Outcome.ok_bind]
        refine (ih g1 _).2 ?_
        obtain ⟨b, hb, hbe⟩ := hex
        rcases List.mem_cons.1 hb with rfl | hb
        · rw [hc] at hbe; cases hbe
        · exact ⟨b, hb, hbe⟩
      | exit => rfl
      | ub => unfold ftnGetCharge at hc; split at hc <;> cases hc
      | abort => unfold ftnGetCharge at hc; split at hc <;> cases hc

end Libgrpp
