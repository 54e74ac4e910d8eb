import Verif.Model.Elements

/-! # Helper lemmas for the periodic table -/

namespace Libgrpp

/-- An ASCII string. -/
def AsciiString (s : List Nat) : Prop := ∀ c ∈ s, 0 < c ∧ c < 128

instance (s : List Nat) : Decidable (AsciiString s) :=
  inferInstanceAs (Decidable (∀ c ∈ s, 0 < c ∧ c < 128))

/-- Capital letter. -/
def upperLetter (c : Nat) : Nat := if 97 ≤ c ∧ c ≤ 122 then c - 32 else c

/-- Small letter. -/
def lowerLetter (c : Nat) : Nat := if 65 ≤ c ∧ c ≤ 90 then c + 32 else c

/-- First letter large, all others small. -/
def properCase : List Nat → List Nat
  | [] => []
  | c :: cs => upperLetter c :: cs.map lowerLetter

theorem toupperC_ok {c : Nat} (h : c < 128) : toupperC c = .ok (upperLetter c) := by
  unfold toupperC
  rw [Outcome.valid_pos (Or.inl h)]
  rfl

theorem tolowerC_ok {c : Nat} (h : c < 128) : tolowerC c = .ok (lowerLetter c) := by
  unfold tolowerC
  rw [Outcome.valid_pos (Or.inl h)]
  rfl

theorem upperLetter_pos {c : Nat} (h : 0 < c) : 0 < upperLetter c := by
  unfold upperLetter; split_ifs <;> omega

theorem lowerLetter_pos {c : Nat} (h : 0 < c) : 0 < lowerLetter c := by
  unfold lowerLetter; split_ifs <;> omega

theorem standard_loop (b : List Nat) (h8 : b.length = 8) (ha : ∀ c ∈ b, c < 128) (h7 : b[7]? = some 0) :
    (do
      let c ← rd b 0
      let u ← toupperC c
      let buf ← wr b 0 u
      forRange (maxElementSymbol - 2) buf fun i buf => do
        let c ← rd buf (i + 1)
        let l ← tolowerC c
        wr buf (i + 1) l : Outcome (List Nat)) = .ok (properCase b) := by
  rcases b with _ | ⟨b0, _ | ⟨b1, _ | ⟨b2, _ | ⟨b3, _ | ⟨b4, _ | ⟨b5, _ | ⟨b6, _ | ⟨b7, _ | ⟨b8, b⟩⟩⟩⟩⟩⟩⟩⟩⟩ <;> simp at h8
  simp only [List.mem_cons, List.not_mem_nil, or_false, forall_eq_or_imp, forall_eq] at ha
  obtain ⟨h0, h1, h2, h3, h4, h5, h6, -⟩ := ha
  simp at h7
  subst h7
  have e : maxElementSymbol - 2 = 6 := rfl
  rw [e]
  simp [forRange_succ, forRange_zero, rd, wr, toupperC_ok, tolowerC_ok, h0, h1, h2, h3, h4, h5, h6, properCase, lowerLetter]

theorem properCase_zeros (t : List Nat) (k : Nat) : properCase (t ++ List.replicate k 0) = properCase t ++ List.replicate k 0 := by
  cases t with
  | nil =>
    cases k with
    | zero => rfl
    | succ k => simp [properCase, List.replicate_succ, upperLetter, lowerLetter]
  | cons c cs => simp [properCase, lowerLetter]

theorem cString_zeros (t : List Nat) (k : Nat) (h : ∀ c ∈ t, 0 < c) : cString (t ++ List.replicate k 0) = t := by
  induction t with
  | nil => cases k <;> simp [cString, List.replicate_succ]
  | cons c cs ih =>
    have hc : c ≠ 0 := (h c (by simp)).ne'
    have := ih fun c hc => h c (by simp [hc])
    unfold cString at this ⊢
    rw [List.cons_append, List.takeWhile_cons_of_pos (by simpa using hc), this]

theorem properCase_pos {t : List Nat} (h : ∀ c ∈ t, 0 < c) : ∀ c ∈ properCase t, 0 < c := by
  cases t with
  | nil => simp [properCase]
  | cons a t =>
    intro c hc
    simp only [properCase, List.mem_cons, List.mem_map] at hc
    rcases hc with rfl | ⟨x, hx, rfl⟩
    · exact upperLetter_pos (h a (by simp))
    · exact lowerLetter_pos (h x (by simp [hx]))

/-- The array holds the first seven characters in proper case. -/
theorem standardForm_spec (s : List Nat) (hs : AsciiString s) :
    ∃ buf, standardForm s = .ok buf ∧ cString buf = properCase (s.take 7) := by
  have hl : (s.take 8).length ≤ 8 := by simp
  have hb : (s.take maxElementSymbol ++ List.replicate (maxElementSymbol - (s.take maxElementSymbol).length) 0).length = 8 := by
    simp [maxElementSymbol]
  have e : (s.take maxElementSymbol ++ List.replicate (maxElementSymbol - (s.take maxElementSymbol).length) 0).set 7 0 =
      s.take 7 ++ List.replicate (8 - (s.take 7).length) 0 := by
    apply List.ext_getElem?
    intro i
    have hm : maxElementSymbol = 8 := rfl
    rw [hm, List.getElem?_set]
    split_ifs with h1 h2
    · subst h1
      rw [List.getElem?_append_right (by simp), List.getElem?_replicate, if_pos]
      simp
      omega
    · rw [hm] at hb; omega
    · by_cases h3 : i < s.length ∧ i < 7
      · rw [List.getElem?_append_left (by simp; omega), List.getElem?_append_left (by simp; omega)]
        simp [h3.2, List.getElem?_take]
        intro; omega
      · by_cases h4 : i < 8
        · rw [List.getElem?_append_right (by simp; omega), List.getElem?_append_right (by simp; omega), List.getElem?_replicate,
            List.getElem?_replicate, if_pos (by simp; omega), if_pos (by simp; omega)]
        · rw [List.getElem?_eq_none (by simp; omega), List.getElem?_eq_none (by simp; omega)]
  refine ⟨properCase (s.take 7) ++ List.replicate (8 - (s.take 7).length) 0, ?_, ?_⟩
  · unfold standardForm
    simp only
    rw [wr_ok _ (by rw [hb]; decide), Outcome.ok_bind]
    have e7 : maxElementSymbol - 1 = 7 := rfl
    rw [e7, e, standard_loop _ (by simp), properCase_zeros]
    · intro c hc
      simp only [List.mem_append, List.mem_replicate] at hc
      rcases hc with hc | ⟨-, rfl⟩
      · exact (hs c (List.mem_of_mem_take hc)).2
      · norm_num
    · rw [List.getElem?_append_right (by simp), List.getElem?_replicate, if_pos]
      simp; omega
  · exact cString_zeros _ _ (properCase_pos fun c hc => (hs c (List.mem_of_mem_take hc)).1)

theorem getElementNucCharge_eq (s : List Nat) (hs : AsciiString s) :
    getElementNucCharge s = .ok (match periodicTable.findIdx? (fun e => e.sym == properCase (s.take 7)) with
      | some i => (i : Int)
      | none => -1) := by
  obtain ⟨buf, h1, h2⟩ := standardForm_spec s hs
  unfold getElementNucCharge
  rw [h1, Outcome.ok_bind, h2]
  rfl

theorem strcpyC_spec (dst src : List Nat) (h : src.length < dst.length) :
    strcpyC dst src = .ok (src ++ 0 :: dst.drop (src.length + 1)) := by
  unfold strcpyC
  obtain ⟨d, h1, h2⟩ := forRange_inv (n := src.length) (s := dst) (body := fun i dst => do
    let c ← rd src i
    wr dst i c) (fun i d => d = src.take i ++ dst.drop i) (by simp) (by
      rintro i d hi rfl
      refine ⟨_, ?_, rfl⟩
      rw [rd_ok hi, Outcome.ok_bind, wr_ok _ (by simp; omega)]
      congr 1
      rw [List.set_append_right _ _ (by simp), List.length_take, Nat.min_eq_left hi.le, Nat.sub_self,
        List.drop_eq_getElem_cons (by omega : i < dst.length), List.set_cons_zero, List.take_succ_eq_append_getElem hi,
        List.append_assoc]
      rfl)
  rw [h1, Outcome.ok_bind, h2, wr_ok _ (by simp; omega)]
  congr 1
  rw [List.take_length, List.set_append_right _ _ (by simp), Nat.sub_self, List.drop_eq_getElem_cons h, List.set_cons_zero]

theorem periodicTable_length : periodicTable.length = 131 := by decide +kernel


/-- Each symbol is in proper case, nonempty, at most four characters long and ASCII; the symbol of each entry other than 102 occurs first there. -/
theorem periodicTable_facts : ∀ z < 131, ∀ e, periodicTable[z]? = some e →
    (properCase e.sym = e.sym ∧ 0 < e.sym.length ∧ e.sym.length ≤ 4 ∧ AsciiString e.sym) ∧
      (z ≠ 102 → periodicTable.findIdx? (fun f => f.sym == e.sym) = some z) ∧ (3 ≤ z → 7 ≤ e.mass) ∧ z ≤ e.mass := by
  have h : ((List.range 131).all fun z => (periodicTable[z]?).all fun e =>
    decide ((properCase e.sym = e.sym ∧ 0 < e.sym.length ∧ e.sym.length ≤ 4 ∧ AsciiString e.sym) ∧
      (z ≠ 102 → periodicTable.findIdx? (fun f => f.sym == e.sym) = some z) ∧ (3 ≤ z → 7 ≤ e.mass) ∧ z ≤ e.mass)) = true := by
    decide +kernel
  intro z hz e he
  have h1 := List.all_eq_true.1 h z (List.mem_range.2 hz)
  rw [he, Option.all_some] at h1
  exact of_decide_eq_true h1

end Libgrpp
