import Verif.Model.FortranMatrix
import Verif.Lemmas.MatrixFile

/-! # Lemmas: the matrix files of the Fortran program -/

namespace Libgrpp

open Classical in
/-- Elements that are not printed by the Fortran program are replaced by zero. -/
noncomputable def cutElement (d : Dbl) : Dbl := if d.AbsGt (1e-10) then d else .fin 0

theorem cutElement_gt (d : Dbl) : (cutElement d).AbsGt (1e-14) ↔ d.AbsGt (1e-10) := by
  classical
  unfold cutElement
  by_cases h : d.AbsGt (1e-10)
  · rw [if_pos h]
    refine ⟨fun _ => h, fun _ => ?_⟩
    cases d with
    | fin x => simp only [Dbl.AbsGt] at h ⊢; exact lt_trans (by norm_num) h
    | inf b => trivial
    | nan => exact h
  · rw [if_neg h]
    refine ⟨fun hc => ?_, fun hc => absurd hc h⟩
    simp only [Dbl.AbsGt, abs_zero] at hc
    norm_num at hc

theorem cutElement_of_gt {d : Dbl} (h : d.AbsGt (1e-10)) : cutElement d = d := by
  classical
  exact if_pos h

theorem ftnField_digits {n : Nat} (h : n ≤ 999999) : ftnField 6 (Nat.toDigits 10 n) = fmtInt 6 n := by
  unfold ftnField fmtInt
  rw [if_pos (toDigits_length_le (by norm_num) (by omega))]

theorem ftnLine_eq (io : DecimalIO) (i j : Nat) (d : Dbl) (hi : i < 999999) (hj : j < 999999) (hl : (io.fmt d).length ≤ 30) :
    ftnLine io i j d = matrixLine io 6 i j d := by
  unfold ftnLine matrixLine
  rw [ftnField_digits (by omega), ftnField_digits (by omega)]
  congr 2
  unfold ftnField
  rw [if_pos hl]

theorem forRange_body_congr {σ : Type} {n : Nat} {s : σ} {f g : Nat → σ → Outcome σ} (h : ∀ i < n, ∀ s, f i s = g i s) : forRange n s f = forRange n s g := by
  induction n with
  | zero => rfl
  | succ n ih =>
    rw [forRange_succ, forRange_succ, ih fun i hi => h i (by omega)]
    cases forRange n s g <;> simp [h n (by omega)]

/-- The file is the one the driver in C writes for the matrix without the elements that are nearly zero. -/
theorem ftnPrint_eq (io : DecimalIO) (dim : Nat) (matrix : List Dbl) (hdim : dim ≤ 46340) (hm : dim * dim ≤ matrix.length)
    (hl : ∀ d ∈ matrix, d.AbsGt (1e-10) → (io.fmt d).length ≤ 30) :
    ftnPrintMatrix io dim matrix = printLower io dim (matrix.map cutElement) := by
  classical
  have hsq : dim * dim ≤ intMax := le_trans (Nat.mul_le_mul hdim hdim) (by unfold intMax; norm_num)
  unfold ftnPrintMatrix printLower
  rw [ftnField_digits (by omega)]
  refine forRange_body_congr fun i hi out => forRange_body_congr fun j hj out => ?_
  have hlt := lower_index hi (show j < dim by omega)
  have h1 : i * dim + j < matrix.length := by omega
  have h2 : i * dim + j < (matrix.map cutElement).length := by rw [List.length_map]; exact h1
  rw [rd_ok h1, rd_ok h2, Outcome.valid_pos (by omega)]
  simp only [Outcome.ok_bind, List.getElem_map]
  by_cases h : (matrix[i * dim + j]'h1).AbsGt (1e-10)
  · rw [if_pos h, if_pos ((cutElement_gt _).2 h), cutElement_of_gt h, ftnLine_eq io i j _ (by omega) (by omega) (hl _ (List.getElem_mem h1) h)]
  · rw [if_neg h, if_neg fun hc => h ((cutElement_gt _).1 hc)]

/-- Reading one line whose number is read as `d'`. -/
theorem scanEntry_near (io : DecimalIO) (i j : Nat) (d d' : Dbl) (ws rest : List Char) (hi : i + 1 ≤ 99999) (hj : j + 1 ≤ 99999) (hd : io.ReadsAs d d')
    (hws : ∀ c ∈ ws, isSpaceC c = true) :
    scanEntry io (ws ++ (matrixLine io 6 i j d ++ rest)) = .ok (some ((i : Int) + 1, (j : Int) + 1, d', '\n' :: rest)) :=
  scanEntry_line ⟨fun _ => io.fmt d, io.scan⟩ i j d' ws rest hi hj hd hws

/-- Reading the lines of a list of entries whose numbers are read as `g d`. -/
theorem readEntries_near (io : DecimalIO) (g : Dbl → Dbl) (dim : Nat) (hdim : dim ≤ 99999) (L : List FileEntry)
    (hL : ∀ e ∈ L, e.1 < dim ∧ e.2.1 < dim ∧ io.ReadsAs e.2.2 (g e.2.2)) (m : List Dbl) (hm : m.length = dim * dim) :
    readEntries io dim m ('\n' :: entryLines io L) = .ok (some (storeEntries dim m (L.map fun e => (e.1, e.2.1, g e.2.2)))) := by
  induction L generalizing m with
  | nil => exact readEntries_stop io dim m _ (scanEntry_end io)
  | cons e L ih =>
    obtain ⟨he1, he2, he3⟩ := hL e (by simp)
    have e1 : ('\n' :: entryLines io (e :: L)) = ['\n'] ++ (matrixLine io 6 e.1 e.2.1 e.2.2 ++ entryLines io L) := by simp [entryLines]
    have hscan := scanEntry_near io e.1 e.2.1 e.2.2 _ ['\n'] (entryLines io L) (by omega) (by omega) he3 (by simp; decide)
    rw [← e1] at hscan
    have hidx : ((dim : Int) * ((e.1 : Int) + 1 - 1) + ((e.2.1 : Int) + 1 - 1)).toNat = dim * e.1 + e.2.1 := by
      rw [show (dim : Int) * ((e.1 : Int) + 1 - 1) + ((e.2.1 : Int) + 1 - 1) = ((dim * e.1 + e.2.1 : Nat) : Int) by push_cast; ring]
      exact Int.toNat_natCast _
    have hlt : dim * e.1 + e.2.1 < dim * dim := by rw [mul_comm dim e.1]; exact lower_index he1 he2
    have hlen : ('\n' :: entryLines io L).length < ('\n' :: entryLines io (e :: L)).length := by
      rw [e1]
      simp [matrixLine]
      omega
    rw [readEntries, hscan]
    simp only [Outcome.ok_bind]
    rw [if_neg (by omega), hidx]
    rw [show wr m (dim * e.1 + e.2.1) (g e.2.2) = .ok (m.set (dim * e.1 + e.2.1) (g e.2.2)) by rw [wr, if_pos (by rw [hm]; exact hlt)]]
    simp only [Outcome.ok_bind]
    rw [dif_pos hlen, ih (fun e' he' => hL e' (by simp [he'])) _ (by simp [hm])]
    rfl

/-- The matrix read from a file whose numbers are read as `g d`. -/
theorem readMatrix_near (io : DecimalIO) (g : Dbl → Dbl) (dim : Nat) (matrix : List Dbl) (hdim : dim ≤ 46340) (hm : dim * dim ≤ matrix.length)
    (hf : ∀ d ∈ matrix, d.AbsGt (1e-14) → io.ReadsAs d (g d)) :
    ∃ text R, printLower io dim matrix = .ok text ∧ readMatrix io text = .ok (some ((dim : Int), R)) ∧ R.length = dim * dim ∧
      ∀ i j, i < dim → j < dim → ∃ d, matrix[i * dim + j]? = some d ∧
        (j ≤ i ∧ d.AbsGt (1e-14) → R[i * dim + j]? = some (g d)) ∧ (¬ (j ≤ i ∧ d.AbsGt (1e-14)) → R[i * dim + j]? = some (.fin 0)) := by
  have hsq : dim * dim ≤ intMax := le_trans (Nat.mul_le_mul hdim hdim) (by unfold intMax; norm_num)
  have hent : ∀ e ∈ lowerEntries dim matrix dim, e.1 < dim ∧ e.2.1 < dim ∧ io.ReadsAs e.2.2 (g e.2.2) := by
    intro e he
    obtain ⟨h1, h2, h3, h4⟩ := mem_lowerEntries.1 he
    have hlt : e.1 * dim + e.2.1 < matrix.length := lt_of_lt_of_le (lower_index h1 (by omega)) hm
    refine ⟨h1, by omega, hf _ ?_ h4⟩
    rw [h3, List.getD_eq_getElem?_getD, List.getElem?_eq_getElem hlt]
    exact List.getElem_mem hlt
  refine ⟨_, storeEntries dim (List.replicate (dim * dim) (.fin 0)) ((lowerEntries dim matrix dim).map fun e => (e.1, e.2.1, g e.2.2)),
    printLower_eq io dim matrix hdim hm, ?_, by rw [storeEntries_length]; simp, fun i j hi hj => ?_⟩
  · have hhead := scanInt_fmtInt 6 dim [] ('\n' :: entryLines io (lowerEntries dim matrix dim)) (by unfold intMax; omega) (by simp)
      (fun c hc => by simp only [List.head?_cons, Option.some.injEq] at hc; rw [← hc]; decide)
    rw [List.nil_append] at hhead
    unfold readMatrix
    rw [hhead]
    simp only [Outcome.ok_bind]
    rw [Outcome.valid_pos (by exact_mod_cast hsq), Outcome.ok_bind,
      show ((dim : Int) * (dim : Int)).toNat = dim * dim by rw [← Nat.cast_mul]; exact Int.toNat_natCast _,
      readEntries_near io g dim (by omega) _ hent _ (by simp)]
    rfl
  · have hlt : i * dim + j < matrix.length := lt_of_lt_of_le (lower_index hi hj) hm
    have hget : matrix[i * dim + j]? = some (matrix.getD (i * dim + j) .nan) := by
      rw [List.getD_eq_getElem?_getD, List.getElem?_eq_getElem hlt]; rfl
    refine ⟨_, hget, ?_⟩
    have hstore := storeEntries_get dim (fun p => g (matrix.getD p .nan)) ((lowerEntries dim matrix dim).map fun e => (e.1, e.2.1, g e.2.2))
      (List.replicate (dim * dim) (.fin 0)) (fun e he => by
        obtain ⟨e', he', rfl⟩ := List.mem_map.1 he
        obtain ⟨h1, h2, _, _⟩ := mem_lowerEntries.1 he'
        rw [List.length_replicate, mul_comm dim]
        exact lower_index h1 (by simp only; omega))
      (fun e he => by
        obtain ⟨e', he', rfl⟩ := List.mem_map.1 he
        simp only
        rw [mul_comm dim, ← (mem_lowerEntries.1 he').2.2.1]) (i * dim + j)
    have hiff : (∃ e ∈ (lowerEntries dim matrix dim).map fun e => (e.1, e.2.1, g e.2.2), dim * e.1 + e.2.1 = i * dim + j) ↔
        j ≤ i ∧ (matrix.getD (i * dim + j) .nan).AbsGt (1e-14) := by
      constructor
      · rintro ⟨e', he', hp⟩
        obtain ⟨e, he, rfl⟩ := List.mem_map.1 he'
        simp only at hp
        obtain ⟨h1, h2, h3, h4⟩ := mem_lowerEntries.1 he
        have hr : e.1 = i := by
          have := congrArg (· / dim) hp
          rwa [Nat.mul_add_div (by omega), Nat.div_eq_of_lt (by omega : e.2.1 < dim), mul_comm i dim, Nat.mul_add_div (by omega),
            Nat.div_eq_of_lt hj, add_zero, add_zero] at this
        have hc : e.2.1 = j := by rw [hr, mul_comm] at hp; omega
        rw [hr, hc] at h3
        exact ⟨by omega, h3 ▸ h4⟩
      · rintro ⟨h1, h2⟩
        exact ⟨_, List.mem_map_of_mem (mem_lowerEntries.2 ⟨hi, h1, rfl, h2⟩ : (i, j, matrix.getD (i * dim + j) .nan) ∈ _), by simp only; rw [mul_comm]⟩
    constructor
    · intro h
      rw [hstore, if_pos (hiff.2 h)]
    · intro h
      rw [hstore, if_neg (fun hc => h (hiff.1 hc)), List.getElem?_replicate, if_pos (lower_index hi hj)]

/-- Reading does not depend on how numbers are printed. -/
theorem readEntries_scan (f1 f2 : Dbl → List Char) (s : List Char → Option Dbl) (dim : Int) : ∀ (k : Nat) (m : List Dbl) (text : List Char), text.length ≤ k →
    readEntries ⟨f1, s⟩ dim m text = readEntries ⟨f2, s⟩ dim m text := by
  intro k
  induction k with
  | zero =>
    intro m text h
    obtain rfl := List.length_eq_zero_iff.1 (Nat.le_zero.1 h)
    rw [readEntries_stop _ _ _ _ rfl, readEntries_stop _ _ _ _ rfl]
  | succ k ih =>
    intro m text h
    rw [readEntries, readEntries]
    have hs : scanEntry ⟨f1, s⟩ text = scanEntry ⟨f2, s⟩ text := rfl
    rw [hs]
    cases scanEntry ⟨f2, s⟩ text with
    | ok v =>
      simp only [Outcome.ok_bind]
      match v with
      | none => rfl
      | some (i, j, d, t) =>
        simp only
        split_ifs with h1 h2
        · rfl
        · cases wr m (dim * (i - 1) + (j - 1)).toNat d with
          | ok m' => exact ih _ _ (by omega)
          | _ => rfl
        · rfl
    | _ => rfl

theorem readMatrix_scan (io io' : DecimalIO) (h : io.scan = io'.scan) (text : List Char) : readMatrix io text = readMatrix io' text := by
  obtain ⟨f1, s⟩ := io
  obtain ⟨f2, s'⟩ := io'
  obtain rfl : s = s' := h
  unfold readMatrix
  cases scanInt text with
  | ok v =>
    simp only [Outcome.ok_bind]
    match v with
    | none => rfl
    | some (dim, t) =>
      simp only
      cases Outcome.valid (dim * dim ≤ intMax) with
      | ok _ =>
        simp only [Outcome.ok_bind]
        rw [readEntries_scan f1 f2 s dim _ _ t le_rfl]
      | _ => rfl
  | _ => rfl

theorem compareProgram_scan (io io' : DecimalIO) (h : io.scan = io'.scan) (t : ℝ) (a b : List Char) : compareProgram io t a b = compareProgram io' t a b := by
  unfold compareProgram
  rw [readMatrix_scan io io' h, readMatrix_scan io io' h b]

/-- The comparison of two files with known contents. -/
theorem compareProgram_read (io : DecimalIO) (t : ℝ) (ta tb : List Char) (dim : Nat) (RA RB : List Dbl) (ha : readMatrix io ta = .ok (some ((dim : Int), RA)))
    (hb : readMatrix io tb = .ok (some ((dim : Int), RB))) (hla : RA.length = dim * dim) (hlb : RB.length = dim * dim) :
    ∃ s, compareProgram io t ta tb = .ok s ∧ (s = 0 ∨ s = 1) ∧
      (s = 0 ↔ ∀ i j a b, i < dim → j < dim → RA[i * dim + j]? = some a → RB[i * dim + j]? = some b → ¬ (a.sub b).AbsGt t) := by
  obtain ⟨r, hr, hnone, hsome⟩ := compareMatrices_eq dim RA RB t hla hlb
  have hg : ∀ (R : List Dbl) p a, R[p]? = some a → R.getD p .nan = a := fun R p a h => by rw [List.getD_eq_getElem?_getD, h]; rfl
  have hprog : compareProgram io t ta tb = .ok (match r with | none => 0 | some _ => 1) := by
    unfold compareProgram
    rw [ha]
    simp only [Outcome.ok_bind]
    rw [hb]
    simp only [Outcome.ok_bind, ne_eq, not_true_eq_false, if_false, Int.toNat_natCast, hr]
    cases r <;> rfl
  refine ⟨_, hprog, by cases r <;> simp, ?_⟩
  cases r with
  | none =>
    simp only [true_iff]
    intro i j a b hi hj ha hb
    rw [← hg _ _ _ ha, ← hg _ _ _ hb]
    exact hnone rfl i hi j hj
  | some p =>
    simp only [one_ne_zero, false_iff]
    intro hall
    obtain ⟨p1, p2, p3, _⟩ := hsome p rfl
    have h1 : p.1 * dim + p.2 < RA.length := by rw [hla]; exact lower_index p1 p2
    have h2 : p.1 * dim + p.2 < RB.length := by rw [hlb]; exact lower_index p1 p2
    have g1 := List.getElem?_eq_getElem h1
    have g2 := List.getElem?_eq_getElem h2
    rw [hg _ _ _ g1, hg _ _ _ g2] at p3
    exact hall p.1 p.2 _ _ p1 p2 g1 g2 p3

end Libgrpp
