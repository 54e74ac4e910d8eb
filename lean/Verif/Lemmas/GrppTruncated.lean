import Verif.Props.GrppFile

/-! # Lemmas on reading damaged entries of pseudopotentials -/

namespace Libgrpp

/-- After white space, the text does not begin with a digit or a sign. -/
def NoNumber (t : List Char) : Prop := ∀ c, (t.dropWhile isSpaceC).head? = some c → c.isDigit = false ∧ c ≠ '-' ∧ c ≠ '+'

theorem scanInt_noNumber {pre t : List Char} (hpre : AllSpace pre) (h : NoNumber t) : scanInt (pre ++ t) = .ok none := by
  unfold scanInt
  rw [dropWhile_append_all isSpaceC pre t hpre]
  cases hc : t.dropWhile isSpaceC with
  | nil => simp
  | cons c r =>
    obtain ⟨h1, h2, h3⟩ := h c (by rw [hc]; rfl)
    simp [h1, h2, h3]

theorem readTwoInts_noNumber {pre t : List Char} (hpre : AllSpace pre) (h : NoNumber t) : readTwoInts (pre ++ t) = .ub := by
  unfold readTwoInts
  rw [scanInt_noNumber hpre h]
  rfl

/-- Reading the first blocks of potentials, when `n` of them are announced. -/
theorem readPots_prefix (io : DecimalIO) (n : Nat) (hn : n ≤ 100) (ps : List PotBlock) (hlt : ps.length ≤ n) (hnp : ∀ b ∈ ps, b.rows.length ≤ 100 ∧ b.noc ≤ 98)
    (hs : (corePots 0 ps).length ≤ 100) (t : List Char) (ht : PotsText io ps t) (pows : List (Option Int)) (exps coefs : List (Option ℝ))
    (hp : pows.length = 100) (he : exps.length = 100) (hc : coefs.length = 10000) (pre rest : List Char) (hpre : AllSpace pre) :
    ∃ s g pre', forRange ps.length (⟨pows, exps, coefs, pre ++ (t ++ rest)⟩, ⟨none, [], [], []⟩) (fun iblock st => readPotBlock io n iblock st) =
        .ok (s, g) ∧ AllSpace pre' ∧ s.text = pre' ++ rest ∧ s.pows.length = 100 ∧ s.exps.length = 100 ∧ s.coefs.length = 10000 := by
  have key := forRange_spec (n := ps.length) (s := ((⟨pows, exps, coefs, pre ++ (t ++ rest)⟩ : GrppBuf), (⟨none, [], [], []⟩ : GrppParts)))
    (body := fun iblock st => readPotBlock io n iblock st) (Q := fun s => ∃ pre', AllSpace pre' ∧
      s.1.text = pre' ++ rest ∧ s.1.pows.length = 100 ∧ s.1.exps.length = 100 ∧ s.1.coefs.length = 10000)
    (fun m s => (∃ pre' t', AllSpace pre' ∧ PotsText io (ps.drop m) t' ∧ s.1.text = pre' ++ (t' ++ rest)) ∧ s.1.pows.length = 100 ∧ s.1.exps.length = 100 ∧
      s.1.coefs.length = 10000 ∧ PartsOf n (ps.take m) s.2)
    ⟨⟨pre, t, hpre, ht, rfl⟩, hp, he, hc, ?_⟩ ?_ ?_
  · obtain ⟨s, h1, pre', h2, h3⟩ := key
    exact ⟨s.1, s.2, pre', h1, h2, h3⟩
  · refine ⟨?_, by simp, ?_, by simp, ?_, .nil⟩
    · rw [if_neg (by simp only [List.take_zero, List.length_nil]; omega)]
    · intro i p h; simp at h
    · intro i p h; simp at h
  · rintro m ⟨⟨pw, e, c, text⟩, g⟩ hm ⟨⟨pre', t', hp', hr, htext⟩, hpw, he', hc', hg⟩
    simp only at htext hpw he' hc' hg
    subst htext
    rw [List.drop_eq_getElem_cons hm] at hr
    have htake : ps.take (m + 1) = ps.take m ++ [ps[m]] := (List.take_concat_get' ps m hm).symm
    have hle := corePots_take_le 0 ps (m + 1)
    have hlen : (ps.take m).length = m := by rw [List.length_take]; omega
    rw [htake, corePots_append, List.length_append, blockPots, List.length_map, List.length_range] at hle
    obtain ⟨hr1, hr2⟩ := hnp _ (List.getElem_mem hm)
    cases hr with
    | @cons b bs' t1 t2 h1 h2 =>
      obtain ⟨p2, e2, c2, g2, k1, k2, k3, k4, k5⟩ := readPotBlock_spec io n (ps.take m) ps[m] (by omega) hn hr1 hr2 (by omega) t1 h1 g hg
        pw e c hpw he' hc' pre' (t2 ++ rest) hp'
      rw [hlen] at k1
      refine ⟨(⟨p2, e2, c2, t2 ++ rest⟩, g2), ?_, ⟨[], t2, fun c hc => by simp at hc, h2, rfl⟩, k3, k4, k5, ?_⟩
      · rw [show (t1 ++ t2) ++ rest = t1 ++ (t2 ++ rest) by simp, k1]
      · rw [htake]; exact k2
  · rintro s ⟨⟨pre', t', h1, h2, h3⟩, h4, h5, h6, -⟩
    rw [List.drop_length] at h2
    cases h2
    exact ⟨pre', h1, h3, h4, h5, h6⟩

/-! ## More than 100 rows -/

theorem PotRows.split {io : DecimalIO} {noc : Nat} {a b : List PotRow} {t : List Char} (h : PotRows io noc (a ++ b) t) :
    ∃ t1 t2, t = t1 ++ t2 ∧ PotRows io noc a t1 ∧ PotRows io noc b t2 := by
  induction a generalizing t with
  | nil => exact ⟨[], t, rfl, .nil, h⟩
  | cons r a ih =>
    cases h with
    | @cons _ _ u1 u2 h1 h2 h3 h4 =>
      obtain ⟨v1, v2, rfl, g1, g2⟩ := ih h4
      exact ⟨u1 ++ v1, v2, by simp, .cons h1 h2 h3 g1, g2⟩

theorem PotsText.split {io : DecimalIO} {a b : List PotBlock} {t : List Char} (h : PotsText io (a ++ b) t) :
    ∃ t1 t2, t = t1 ++ t2 ∧ PotsText io a t1 ∧ PotsText io b t2 := by
  induction a generalizing t with
  | nil => exact ⟨[], t, rfl, .nil, h⟩
  | cons r a ih =>
    cases h with
    | @cons _ _ u1 u2 h1 h4 =>
      obtain ⟨v1, v2, rfl, g1, g2⟩ := ih h4
      exact ⟨u1 ++ v1, v2, by simp, .cons h1 g1, g2⟩

theorem CoresText.split {io : DecimalIO} {a b : List BasisBlock} {t : List Char} (h : CoresText io (a ++ b) t) :
    ∃ t1 t2, t = t1 ++ t2 ∧ CoresText io a t1 ∧ CoresText io b t2 := by
  induction a generalizing t with
  | nil => exact ⟨[], t, rfl, .nil, h⟩
  | cons r a ih =>
    cases h with
    | @cons _ _ u1 u2 h1 h4 =>
      obtain ⟨v1, v2, rfl, g1, g2⟩ := ih h4
      exact ⟨u1 ++ v1, v2, by simp, .cons h1 g1, g2⟩

theorem CoreRows.split {io : DecimalIO} {nc : Nat} {a b : List (ℝ × List ℝ)} {t : List Char} (h : CoreRows io nc (a ++ b) t) :
    ∃ t1 t2, t = t1 ++ t2 ∧ CoreRows io nc a t1 ∧ CoreRows io nc b t2 := by
  induction a generalizing t with
  | nil => exact ⟨[], t, rfl, .nil, h⟩
  | cons r a ih =>
    cases h with
    | cons hlen hws htok h1 hsep h2 =>
      obtain ⟨v1, v2, rfl, g1, g2⟩ := ih h2
      exact ⟨_, v2, by simp, .cons hlen hws htok h1 hsep g1, g2⟩

/-- The 101st row of a block of potentials is stored outside of the arrays. -/
theorem readPotBlock_outside (io : DecimalIO) (narep L : Nat) (b : PotBlock) (hb : 100 < b.rows.length) (hmax : b.rows.length ≤ intMax) (hnoc : b.noc ≤ 98)
    (t : List Char) (ht : PotText io b t) (g : GrppParts) (pows : List (Option Int)) (exps coefs : List (Option ℝ)) (hp : pows.length = 100)
    (he : exps.length = 100) (hc : coefs.length = 10000) (pre rest : List Char) (hpre : AllSpace pre) :
    readPotBlock io narep L (⟨pows, exps, coefs, pre ++ (t ++ rest)⟩, g) = .ub := by
  obtain ⟨t1, t2, rfl, h1, h2⟩ := ht
  obtain ⟨u, e1, e2⟩ := h1.read hmax (by unfold intMax; omega) pre (t2 ++ rest) hpre
  rw [← List.take_append_drop 100 b.rows] at h2
  obtain ⟨v1, v2, rfl, g1, g2⟩ := h2.split
  have hl : (b.rows.take 100).length = 100 := by rw [List.length_take]; omega
  obtain ⟨p', e', c', k1, k2⟩ := readPotRows_spec io b.noc (b.rows.take 100) v1 g1 (by omega) (by omega) pows exps coefs hp he hc (v2 ++ rest)
  rw [hl] at k1
  unfold readPotBlock
  simp only
  rw [show pre ++ ((t1 ++ (v1 ++ v2)) ++ rest) = pre ++ (t1 ++ ((v1 ++ v2) ++ rest)) by simp, e1]
  simp only [Outcome.ok_bind, Int.toNat_natCast]
  rw [e2, show (v1 ++ v2) ++ rest = v1 ++ (v2 ++ rest) by simp, forRange_ub_at k1 ?_ hb]
  · rfl
  · rw [List.drop_eq_getElem_cons hb] at g2
    cases g2 with
    | @cons _ _ w1 w2 hlen hpow h1 h2 =>
      obtain ⟨ws, x1, x2, rfl, hws, hn, hle⟩ := h1
      unfold readPotRow readPower
      simp only
      have hsb : StartsBlank (x1 ++ (x2 ++ (w2 ++ rest))) := by
        cases hn with
        | @cons _ _ y1 y2 y3 hy _ _ => rw [show (y1 ++ (y2 ++ y3)) ++ (x2 ++ (w2 ++ rest)) = y1 ++ ((y2 ++ y3) ++ (x2 ++ (w2 ++ rest))) by simp]; exact hy.startsBlank _
      rw [show ((ws ++ (Nat.toDigits 10 (b.rows[100]).power ++ (x1 ++ x2))) ++ w2) ++ rest =
        ws ++ (Nat.toDigits 10 (b.rows[100]).power ++ (x1 ++ (x2 ++ (w2 ++ rest)))) by simp, scanInt_token _ _ _ hpow hws hsb]
      simp only [Outcome.ok_bind]
      rw [wr_ub _ (by rw [k2.lp])]
      rfl

/-- The 101st row of a block of outer-core functions is stored outside of the arrays. -/
theorem readCoreBlock_outside (gen : Nat → List Comp) (io : DecimalIO) (L : Nat) (b : BasisBlock) (hb : 100 < b.rows.length) (hmax : b.rows.length ≤ intMax)
    (hnc : b.nc ≤ 100) (t : List Char) (ht : CoreText io b t) (shells : List Shell) (pows : List (Option Int)) (exps coefs : List (Option ℝ))
    (he : exps.length = 100) (hc : coefs.length = 10000) (pre rest : List Char) (hpre : AllSpace pre) :
    readCoreBlock gen io L (⟨pows, exps, coefs, pre ++ (t ++ rest)⟩, shells) = .ub := by
  obtain ⟨t1, t2, rfl, h1, h2⟩ := ht
  obtain ⟨u, e1, e2⟩ := h1.read hmax (by unfold intMax; omega) pre (t2 ++ rest) hpre
  rw [← List.take_append_drop 100 b.rows] at h2
  obtain ⟨v1, v2, rfl, g1, g2⟩ := h2.split
  have hl : (b.rows.take 100).length = 100 := by rw [List.length_take]; omega
  obtain ⟨e', c', pre', k1, k2, k3⟩ := readCoreRows_spec io b.nc (b.rows.take 100) v1 g1 hnc (by omega) pows exps coefs he hc [] (v2 ++ rest) (fun c hc => by simp at hc)
  rw [hl, List.nil_append] at k1
  unfold readCoreBlock
  simp only
  rw [show pre ++ ((t1 ++ (v1 ++ v2)) ++ rest) = pre ++ (t1 ++ ((v1 ++ v2) ++ rest)) by simp, e1]
  simp only [Outcome.ok_bind, Int.toNat_natCast]
  rw [e2, show (v1 ++ v2) ++ rest = v1 ++ (v2 ++ rest) by simp, forRange_ub_at k1 ?_ hb]
  · rfl
  · rw [List.drop_eq_getElem_cons hb] at g2
    generalize b.rows[100] = r at g2
    cases g2 with
    | @cons er cs rs ws tok x1 sep x2 hlen hws htok h1 hsep h2 =>
      unfold readCoreRow
      simp only
      have h : readNum io e' 100 (pre' ++ ((ws ++ (tok ++ (x1 ++ (sep ++ x2)))) ++ rest)) = .ub := by
        rw [show pre' ++ ((ws ++ (tok ++ (x1 ++ (sep ++ x2)))) ++ rest) = (pre' ++ ws) ++ (tok ++ (x1 ++ (sep ++ (x2 ++ rest)))) by simp]
        have hok := readNum_token io (List.replicate 101 none) 100 (pre' ++ ws) tok _ er (by simp) (k2.append hws) htok (h1.startsBlank (hsep.startsBlank (x2 ++ rest)))
        unfold readNum at hok ⊢
        cases hs : scanDbl io ((pre' ++ ws) ++ (tok ++ (x1 ++ (sep ++ (x2 ++ rest))))) with
        | none =>
          rw [hs] at hok
          simp only [Outcome.ok.injEq, Prod.mk.injEq] at hok
          have := congrArg (fun l => l[100]?) hok.1
          simp at this
        | some p =>
          obtain ⟨d, r⟩ := p
          cases d with
          | fin x =>
            simp only
            rw [wr_ub _ (by rw [k3.le])]
            rfl
          | inf _ => rfl
          | nan => rfl
      rw [h]
      rfl

end Libgrpp
