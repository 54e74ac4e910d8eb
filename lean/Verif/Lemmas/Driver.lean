import Verif.Model.Driver
import Verif.Lemmas.OneElectronTrue
import Verif.Lemmas.OverlapGradient

/-! # Lemmas: assembling molecular matrices -/

namespace Libgrpp

open MeasureTheory

/-- `M'` is `M` with the matrix `D` added to its first `dim × dim` elements. -/
structure Added (dim : Nat) (D : Nat → Nat → ℝ) (M M' : List ℝ) : Prop where
  len : M'.length = M.length
  val : ∀ p q, p < dim → q < dim → M'[p * dim + q]? = M[p * dim + q]?.map (· + D p q)
  same : ∀ r, dim * dim ≤ r → M'[r]? = M[r]?

theorem Added.refl (dim : Nat) (M : List ℝ) : Added dim (fun _ _ => 0) M M :=
  ⟨rfl, fun p q _ _ => by simp, fun _ _ => rfl⟩

theorem Added.trans {dim : Nat} {D E : Nat → Nat → ℝ} {M M' M'' : List ℝ} (h : Added dim D M M') (h' : Added dim E M' M'') :
    Added dim (fun p q => D p q + E p q) M M'' := by
  refine ⟨h'.len.trans h.len, fun p q hp hq => ?_, fun r hr => (h'.same r hr).trans (h.same r hr)⟩
  rw [h'.val p q hp hq, h.val p q hp hq]
  cases M[p * dim + q]? <;> simp [add_assoc]

theorem Added.congr {dim : Nat} {D E : Nat → Nat → ℝ} {M M' : List ℝ} (h : Added dim D M M')
    (e : ∀ p q, p < dim → q < dim → D p q = E p q) : Added dim E M M' :=
  ⟨h.len, fun p q hp hq => by rw [h.val p q hp hq, e p q hp hq], h.same⟩

/-- Index arithmetic: rows do not overlap. -/
theorem row_inj {dim p q p' q' : Nat} (hq : q < dim) (hq' : q' < dim) (h : p * dim + q = p' * dim + q') : p = p' ∧ q = q' := by
  have hd : 0 < dim := by omega
  have h1 : (p * dim + q) / dim = p := by rw [Nat.mul_comm, Nat.mul_add_div hd, Nat.div_eq_of_lt hq, Nat.add_zero]
  have h2 : (p' * dim + q') / dim = p' := by rw [Nat.mul_comm, Nat.mul_add_div hd, Nat.div_eq_of_lt hq', Nat.add_zero]
  have e : p = p' := by rw [← h1, ← h2, h]
  subst e
  exact ⟨rfl, by omega⟩

theorem row_lt {dim p q : Nat} (hp : p < dim) (hq : q < dim) : p * dim + q < dim * dim := by
  have : (p + 1) * dim ≤ dim * dim := Nat.mul_le_mul_right _ hp
  rw [Nat.succ_mul] at this
  omega

/-- One store `M[p][q] += x`. -/
theorem added_store {dim p0 q0 : Nat} (hp : p0 < dim) (hq : q0 < dim) (x : ℝ) (M : List ℝ) (hM : dim * dim ≤ M.length) :
    ∃ M', (do let v ← rd M (p0 * dim + q0); wr M (p0 * dim + q0) (v + x)) = .ok M' ∧
      Added dim (fun p q => if p = p0 ∧ q = q0 then x else 0) M M' := by
  have hi : p0 * dim + q0 < M.length := lt_of_lt_of_le (row_lt hp hq) hM
  refine ⟨M.set (p0 * dim + q0) (M[p0 * dim + q0] + x), by rw [rd_ok hi, Outcome.ok_bind, wr_ok _ hi], ⟨by simp, ?_, ?_⟩⟩
  · intro p q hp' hq'
    by_cases h : p = p0 ∧ q = q0
    · obtain ⟨rfl, rfl⟩ := h
      rw [List.getElem?_set_self hi, List.getElem?_eq_getElem hi]
      simp
    · rw [if_neg h, List.getElem?_set_ne fun e => h ⟨(row_inj hq hq' e).1.symm, (row_inj hq hq' e).2.symm⟩]
      simp
  · intro r hr
    rw [List.getElem?_set_ne]
    have := row_lt hp hq
    omega

/-- A loop whose iterations add matrices adds their sum. `Inv` is an invariant, `view` selects the matrices of the state. -/
theorem added_loop {σ κ : Type} {dim n : Nat} {body : Nat → σ → Outcome σ} (Inv : Nat → σ → Prop) (view : κ → σ → List ℝ)
    (D : κ → Nat → Nat → Nat → ℝ) (s : σ) (h0 : Inv 0 s)
    (hstep : ∀ i s, i < n → Inv i s → ∃ s', body i s = .ok s' ∧ Inv (i + 1) s' ∧ ∀ k, Added dim (D k i) (view k s) (view k s')) :
    ∃ s', forRange n s body = .ok s' ∧ Inv n s' ∧
      ∀ k, Added dim (fun p q => ∑ i ∈ Finset.range n, D k i p q) (view k s) (view k s') := by
  induction n with
  | zero => exact ⟨s, rfl, h0, fun k => by simpa using Added.refl dim (view k s)⟩
  | succ n ih =>
    obtain ⟨s1, e1, i1, a1⟩ := ih fun i s hi => hstep i s (by omega)
    obtain ⟨s2, e2, i2, a2⟩ := hstep n s1 (by omega) i1
    refine ⟨s2, by rw [forRange_succ, e1]; exact e2, i2, fun k => ?_⟩
    refine ((a1 k).trans (a2 k)).congr fun p q _ _ => ?_
    rw [Finset.sum_range_succ]

/-- The block `g` at the offsets `io`, `jo`. -/
noncomputable def blockAt (io jo bd1 bd2 : Nat) (g : Nat → Nat → ℝ) (p q : Nat) : ℝ :=
  if (io ≤ p ∧ p < io + bd1) ∧ jo ≤ q ∧ q < jo + bd2 then g (p - io) (q - jo) else 0

theorem sum_window (a n : Nat) (f : Nat → ℝ) (p : Nat) :
    ∑ i ∈ Finset.range n, (if p = a + i then f i else 0) = if a ≤ p ∧ p < a + n then f (p - a) else 0 := by
  split_ifs with h
  · rw [Finset.sum_eq_single (p - a)]
    · rw [if_pos (by omega)]
    · intro i _ hi
      rw [if_neg (by omega)]
    · intro hi
      exact absurd (Finset.mem_range.2 (by omega)) hi
  · refine Finset.sum_eq_zero fun i hi => ?_
    have := Finset.mem_range.1 hi
    rw [if_neg (by omega)]

/-- `add_block_to_matrix` adds the block where it belongs. -/
theorem addBlock_spec {dim bd1 bd2 io jo : Nat} (hd : dim * dim ≤ intMax + 1) (h1 : io + bd1 ≤ dim) (h2 : jo + bd2 ≤ dim)
    {block : List ℝ} {g : Nat → Nat → ℝ} (hb : MatIs bd1 bd2 block g) (factor : ℝ) (M : List ℝ) (hM : dim * dim ≤ M.length) :
    ∃ M', addBlock dim M bd1 bd2 block io jo factor = .ok M' ∧
      Added dim (blockAt io jo bd1 bd2 fun m n => factor * g m n) M M' := by
  unfold addBlock
  have inner : ∀ i m, i < bd1 → dim * dim ≤ m.length → ∃ m', (forRange bd2 m fun j m => do
      let e ← rd block (i * bd2 + j)
      Outcome.valid ((io + i) * dim + (jo + j) ≤ intMax)
      let v ← rd m ((io + i) * dim + (jo + j))
      wr m ((io + i) * dim + (jo + j)) (v + factor * e)) = .ok m' ∧ dim * dim ≤ m'.length ∧ ∀ _ : Unit,
      Added dim (fun p q => ∑ j ∈ Finset.range bd2, if p = io + i ∧ q = jo + j then factor * g i j else 0) m m' := by
    intro i m hi hm
    refine added_loop (κ := Unit) (dim := dim) (n := bd2) (fun _ m => dim * dim ≤ m.length) (fun _ m => m)
      (fun _ j p q => if p = io + i ∧ q = jo + j then factor * g i j else 0) m hm fun j m hj hm => ?_
    have hr : rd block (i * bd2 + j) = .ok (g i j) := by simp [rd, hb i j hi hj]
    have hv : (io + i) * dim + (jo + j) ≤ intMax := by
      have := row_lt (dim := dim) (p := io + i) (q := jo + j) (by omega) (by omega)
      omega
    obtain ⟨m', e, a⟩ := added_store (dim := dim) (p0 := io + i) (q0 := jo + j) (by omega) (by omega) (factor * g i j) m hm
    refine ⟨m', ?_, by rw [a.len]; exact hm, fun _ => a⟩
    rw [hr, Outcome.ok_bind, Outcome.valid_pos hv, Outcome.ok_bind]
    exact e
  obtain ⟨M', e, -, a⟩ := added_loop (κ := Unit) (dim := dim) (n := bd1) (fun _ m => dim * dim ≤ m.length) (fun _ m => m)
    (fun _ i p q => ∑ j ∈ Finset.range bd2, if p = io + i ∧ q = jo + j then factor * g i j else 0) M hM inner
  refine ⟨M', e, (a ()).congr fun p q hp hq => ?_⟩
  have : ∀ i, (∑ j ∈ Finset.range bd2, if p = io + i ∧ q = jo + j then factor * g i j else 0) =
      if p = io + i then (if jo ≤ q ∧ q < jo + bd2 then factor * g i (q - jo) else 0) else 0 := by
    intro i
    by_cases hpi : p = io + i
    · simp only [hpi, true_and, if_true]
      exact sum_window jo bd2 (fun j => factor * g i j) q
    · simp [hpi]
  simp only [this]
  rw [sum_window io bd1 (fun i => if jo ≤ q ∧ q < jo + bd2 then factor * g i (q - jo) else 0) p]
  unfold blockAt
  by_cases hA : io ≤ p ∧ p < io + bd1 <;> by_cases hB : jo ≤ q ∧ q < jo + bd2 <;> simp [hA, hB]

/-! ## Offsets -/

/-- Offset of shell `i`. -/
def shellOff (shells : List Shell) (i : Nat) : Nat := ((shells.take i).map Shell.cart_size).sum

/-- Dimension of the basis. -/
def dimOf (shells : List Shell) : Nat := (shells.map Shell.cart_size).sum

theorem shellOff_succ (shells : List Shell) (i : Nat) (h : i < shells.length) :
    shellOff shells (i + 1) = shellOff shells i + shells[i].cart_size := by
  unfold shellOff
  rw [List.take_succ_eq_append_getElem h, List.map_append, List.sum_append]
  simp

theorem shellOff_le (shells : List Shell) : ∀ n i, i ≤ n → n ≤ shells.length → shellOff shells i ≤ shellOff shells n := by
  intro n
  induction n with
  | zero => intro i hi _; rw [Nat.le_zero.1 hi]
  | succ n ih =>
    intro i hi hn
    rcases Nat.lt_or_ge n i with h | h
    · rw [show i = n + 1 by omega]
    · exact (ih i h (by omega)).trans (by rw [shellOff_succ shells n (by omega)]; omega)

theorem shellOff_length (shells : List Shell) : shellOff shells shells.length = dimOf shells := by
  simp [shellOff, dimOf]

theorem shellOff_add_le (shells : List Shell) (i : Nat) (h : i < shells.length) :
    shellOff shells i + shells[i].cart_size ≤ dimOf shells := by
  rw [← shellOff_succ shells i h, ← shellOff_length]
  exact shellOff_le shells _ _ h le_rfl

theorem basisDim_eq (shells : List Shell) : basisDim shells = .ok (dimOf shells) := by
  unfold basisDim
  obtain ⟨d, e, h⟩ := forRange_spec (n := shells.length) (s := 0) (body := fun i dim => do
      let s ← rd shells i
      Outcome.ok (dim + s.cart_size)) (Q := fun d => d = dimOf shells) (fun i d => d = shellOff shells i) (by simp [shellOff])
    (fun i d hi hd => ⟨shellOff shells (i + 1), by rw [rd_ok hi, Outcome.ok_bind, hd, shellOff_succ shells i hi], rfl⟩)
    (fun d hd => by rw [hd, shellOff_length])
  rw [e, h]

/-- Every basis function belongs to exactly one shell. -/
theorem shellOff_locate (shells : List Shell) (p : Nat) (hp : p < dimOf shells) :
    ∃ i, ∃ h : i < shells.length, shellOff shells i ≤ p ∧ p < shellOff shells i + shells[i].cart_size := by
  have : ∀ n, n ≤ shells.length → p < shellOff shells n →
      ∃ i, ∃ h : i < shells.length, shellOff shells i ≤ p ∧ p < shellOff shells i + shells[i].cart_size := by
    intro n
    induction n with
    | zero => intro _ h; simp [shellOff] at h
    | succ n ih =>
      intro hn h
      rcases Nat.lt_or_ge p (shellOff shells n) with h' | h'
      · exact ih (by omega) h'
      · exact ⟨n, by omega, h', by rwa [← shellOff_succ shells n (by omega)]⟩
  exact this shells.length le_rfl (by rwa [shellOff_length])

theorem shellOff_unique (shells : List Shell) {i j p : Nat} (hi : i < shells.length) (hj : j < shells.length)
    (h1 : shellOff shells i ≤ p ∧ p < shellOff shells i + shells[i].cart_size)
    (h2 : shellOff shells j ≤ p ∧ p < shellOff shells j + shells[j].cart_size) : i = j := by
  rcases Nat.lt_trichotomy i j with h | h | h
  · have := shellOff_le shells j (i + 1) h hj.le
    rw [shellOff_succ shells i hi] at this
    omega
  · exact h
  · have := shellOff_le shells i (j + 1) h hi.le
    rw [shellOff_succ shells j hj] at this
    omega

/-- The sum of all blocks at a place is the one block there. -/
theorem sum_blocks (shells : List Shell) (E : Shell → Shell → Nat → Nat → ℝ) (s0 : Shell) {i j m n : Nat} (hi : i < shells.length)
    (hj : j < shells.length) (hm : m < shells[i].cart_size) (hn : n < shells[j].cart_size) :
    ∑ a ∈ Finset.range shells.length, ∑ b ∈ Finset.range shells.length,
      blockAt (shellOff shells a) (shellOff shells b) (shells.getD a s0).cart_size (shells.getD b s0).cart_size
        (E (shells.getD a s0) (shells.getD b s0)) (shellOff shells i + m) (shellOff shells j + n) =
      E shells[i] shells[j] m n := by
  have g : ∀ a, (h : a < shells.length) → shells.getD a s0 = shells[a] := fun a h => by simp [List.getD, h]
  rw [Finset.sum_eq_single i, Finset.sum_eq_single j]
  · rw [g i hi, g j hj]
    unfold blockAt
    rw [if_pos ⟨⟨by omega, by omega⟩, by omega, by omega⟩]
    congr 1 <;> omega
  · intro b hb hne
    have hb' := Finset.mem_range.1 hb
    unfold blockAt
    rw [if_neg]
    rintro ⟨-, h⟩
    rw [g b hb'] at h
    exact hne (shellOff_unique shells hb' hj h ⟨by omega, by omega⟩)
  · intro h; exact absurd (Finset.mem_range.2 hj) h
  · intro a ha hne
    have ha' := Finset.mem_range.1 ha
    refine Finset.sum_eq_zero fun b _ => ?_
    unfold blockAt
    rw [if_neg]
    rintro ⟨h, -⟩
    rw [g a ha'] at h
    exact hne (shellOff_unique shells ha' hi h ⟨by omega, by omega⟩)
  · intro h; exact absurd (Finset.mem_range.2 hi) h

/-- The functions of the list are those of the shells. -/
theorem basisFns_get (shells : List Shell) : ∀ {i m : Nat} (hi : i < shells.length), m < shells[i].cart_size →
    (basisFns shells)[shellOff shells i + m]? = some (basisFn shells[i] m) := by
  induction shells with
  | nil => intro i m hi; simp at hi
  | cons s shells ih =>
    intro i m hi hm
    unfold basisFns
    rw [List.flatMap_cons]
    cases i with
    | zero =>
      simp only [shellOff, List.take_zero, List.map_nil, List.sum_nil, Nat.zero_add, List.getElem_cons_zero] at hm ⊢
      rw [List.getElem?_append_left (by simpa using hm)]
      simp [List.getElem?_range hm]
    | succ i =>
      have hi' : i < shells.length := by simpa using hi
      have : shellOff (s :: shells) (i + 1) = s.cart_size + shellOff shells i := by simp [shellOff]
      rw [this, List.getElem?_append_right (by simp; omega)]
      simp only [List.length_map, List.length_range, List.getElem_cons_succ]
      rw [show s.cart_size + shellOff shells i + m - s.cart_size = shellOff shells i + m by omega]
      exact ih hi' (by simpa using hm)

theorem basisFns_length (shells : List Shell) : (basisFns shells).length = dimOf shells := by
  simp [basisFns, dimOf, List.length_flatMap]

/-- The double loop over shells adds all blocks. -/
theorem forShellPairs_spec {σ κ : Type} (shells : List Shell) (s0 : Shell) {body : Nat → Nat → Shell → Shell → σ → Outcome σ}
    (Inv : σ → Prop) (view : κ → σ → List ℝ) (E : κ → Shell → Shell → Nat → Nat → ℝ) (s : σ) (h0 : Inv s)
    (hstep : ∀ A ∈ shells, ∀ B ∈ shells, ∀ io jo s, io + A.cart_size ≤ dimOf shells → jo + B.cart_size ≤ dimOf shells → Inv s →
      ∃ s', body io jo A B s = .ok s' ∧ Inv s' ∧
        ∀ k, Added (dimOf shells) (blockAt io jo A.cart_size B.cart_size (E k A B)) (view k s) (view k s')) :
    ∃ s', forShellPairs shells s body = .ok s' ∧ Inv s' ∧
      ∀ k, Added (dimOf shells) (fun p q => ∑ a ∈ Finset.range shells.length, ∑ b ∈ Finset.range shells.length,
        blockAt (shellOff shells a) (shellOff shells b) (shells.getD a s0).cart_size (shells.getD b s0).cart_size
          (E k (shells.getD a s0) (shells.getD b s0)) p q) (view k s) (view k s') := by
  have g : ∀ a, (h : a < shells.length) → shells.getD a s0 = shells[a] := fun a h => by simp [List.getD, h]
  unfold forShellPairs
  have inner : ∀ i (st : Nat × σ), i < shells.length → (st.1 = shellOff shells i ∧ Inv st.2) → ∃ st' : Nat × σ, (do
      let bra ← rd shells i
      let r ← forRange shells.length ((0 : Nat), st.2) fun j st2 => do
        let ket ← rd shells j
        let s ← body st.1 st2.1 bra ket st2.2
        Outcome.ok (st2.1 + ket.cart_size, s)
      Outcome.ok (st.1 + bra.cart_size, r.2)) = .ok st' ∧ (st'.1 = shellOff shells (i + 1) ∧ Inv st'.2) ∧
      ∀ k, Added (dimOf shells) (fun p q => ∑ b ∈ Finset.range shells.length,
        blockAt (shellOff shells i) (shellOff shells b) (shells.getD i s0).cart_size (shells.getD b s0).cart_size
          (E k (shells.getD i s0) (shells.getD b s0)) p q) (view k st.2) (view k st'.2) := by
    rintro i ⟨io, s⟩ hi ⟨hio, hI⟩
    simp only at hio hI
    subst hio
    have hj : ∀ j (st2 : Nat × σ), j < shells.length → (st2.1 = shellOff shells j ∧ Inv st2.2) → ∃ st' : Nat × σ, (do
        let ket ← rd shells j
        let s ← body (shellOff shells i) st2.1 shells[i] ket st2.2
        Outcome.ok (st2.1 + ket.cart_size, s)) = .ok st' ∧ (st'.1 = shellOff shells (j + 1) ∧ Inv st'.2) ∧
        ∀ k, Added (dimOf shells) (fun p q => blockAt (shellOff shells i) (shellOff shells j) (shells.getD i s0).cart_size
          (shells.getD j s0).cart_size (E k (shells.getD i s0) (shells.getD j s0)) p q) (view k st2.2) (view k st'.2) := by
      rintro j ⟨jo, s⟩ hj ⟨hjo, hI⟩
      simp only at hjo hI
      subst hjo
      obtain ⟨s', e, hI', a⟩ := hstep shells[i] (List.getElem_mem hi) shells[j] (List.getElem_mem hj) (shellOff shells i)
        (shellOff shells j) s (shellOff_add_le shells i hi) (shellOff_add_le shells j hj) hI
      refine ⟨(shellOff shells j + shells[j].cart_size, s'), ?_, ⟨(shellOff_succ shells j hj).symm, hI'⟩, fun k => ?_⟩
      · rw [rd_ok hj, Outcome.ok_bind]
        simp only [e, Outcome.ok_bind]
      · rw [g i hi, g j hj]
        exact a k
    obtain ⟨r, e, ⟨-, hI'⟩, a⟩ := added_loop (κ := κ) (dim := dimOf shells) (n := shells.length)
      (fun j st => st.1 = shellOff shells j ∧ Inv st.2) (fun k st => view k st.2)
      (fun k b p q => blockAt (shellOff shells i) (shellOff shells b) (shells.getD i s0).cart_size (shells.getD b s0).cart_size
          (E k (shells.getD i s0) (shells.getD b s0)) p q) (0, s) ⟨by simp [shellOff], hI⟩ hj
    refine ⟨(shellOff shells i + shells[i].cart_size, r.2), ?_, ⟨(shellOff_succ shells i hi).symm, hI'⟩, a⟩
    rw [rd_ok hi, Outcome.ok_bind]
    simp only [e, Outcome.ok_bind]
  obtain ⟨r, e, ⟨-, hI⟩, a⟩ := added_loop (κ := κ) (dim := dimOf shells) (n := shells.length)
    (fun i st => st.1 = shellOff shells i ∧ Inv st.2) (fun k st => view k st.2)
    (fun k a p q => ∑ b ∈ Finset.range shells.length,
        blockAt (shellOff shells a) (shellOff shells b) (shells.getD a s0).cart_size (shells.getD b s0).cart_size
          (E k (shells.getD a s0) (shells.getD b s0)) p q) (0, s) ⟨by simp [shellOff], h0⟩ inner
  exact ⟨r.2, by rw [e]; rfl, hI, a⟩

/-- The elements of a matrix to which the blocks `E` of all shell pairs have been added. -/
theorem added_elements {shells : List Shell} {s0 : Shell} {E : Shell → Shell → Nat → Nat → ℝ} {M M' : List ℝ}
    (h : Added (dimOf shells) (fun p q => ∑ a ∈ Finset.range shells.length, ∑ b ∈ Finset.range shells.length,
        blockAt (shellOff shells a) (shellOff shells b) (shells.getD a s0).cart_size (shells.getD b s0).cart_size
          (E (shells.getD a s0) (shells.getD b s0)) p q) M M')
    {i j m n : Nat} (hi : i < shells.length) (hj : j < shells.length) (hm : m < shells[i].cart_size) (hn : n < shells[j].cart_size) :
    M'[(shellOff shells i + m) * dimOf shells + (shellOff shells j + n)]? =
      M[(shellOff shells i + m) * dimOf shells + (shellOff shells j + n)]?.map (· + E shells[i] shells[j] m n) := by
  have hi' := shellOff_add_le shells i hi
  have hj' := shellOff_add_le shells j hj
  rw [h.val _ _ (by omega) (by omega), sum_blocks shells E s0 hi hj hm hn]

/-! ## Kinetic energy as the integral of products of gradients -/

theorem integrable_gfun_deriv_deriv {a b : ℝ} (hp : 0 < a + b) (A B : ℝ) (i j : Nat) :
    Integrable fun x => deriv (gfun a A i) x * deriv (gfun b B j) x := by
  have h := ((integrable_gfun_deriv hp A B (i - 1) j).const_mul (i : ℝ)).sub
    ((integrable_gfun_deriv hp A B (i + 1) j).const_mul (2 * a))
  refine h.congr (Filter.Eventually.of_forall fun x => ?_)
  rw [deriv_gfun a A i]
  simp only [Pi.sub_apply]
  ring

theorem integral_gfun_deriv_deriv {a b : ℝ} (hp : 0 < a + b) (A B : ℝ) (i j : Nat) :
    ∫ x, deriv (gfun a A i) x * deriv (gfun b B j) x = -gauss1dBB a b A B i j := by
  have e : ∀ x, deriv (gfun a A i) x * deriv (gfun b B j) x =
      (i : ℝ) * (gfun a A (i - 1) x * deriv (gfun b B j) x) - 2 * a * (gfun a A (i + 1) x * deriv (gfun b B j) x) := by
    intro x
    rw [deriv_gfun a A i]
    ring
  simp only [e]
  rw [integral_sub ((integrable_gfun_deriv hp A B (i - 1) j).const_mul (i : ℝ))
    ((integrable_gfun_deriv hp A B (i + 1) j).const_mul (2 * a)), integral_const_mul, integral_const_mul,
    integral_gfun_deriv hp, integral_gfun_deriv hp]
  have h1 := gauss1dA_eq hp A B i (j - 1)
  have h2 := gauss1dA_eq hp A B i (j + 1)
  unfold gauss1dBB
  rw [← neg_eq_iff_eq_neg.2 h1, ← neg_eq_iff_eq_neg.2 h2]
  unfold gauss1dB gauss1dA
  ring

/-- Integration by parts: `∫ ∂_k φ_A ∂_k φ_B = -∫ φ_A ∂_k² φ_B`. -/
theorem integral_gradients (k : Fin 3) (A B : Shell) (hA : A.Pos) (hB : B.Pos) (m n : Nat) :
    Integrable (fun r => pderiv k (basisFn A m) r * pderiv k (basisFn B n) r) ∧
    ∫ r, pderiv k (basisFn A m) r * pderiv k (basisFn B n) r = -∫ r, basisFn A m r * pderiv k (pderiv k (basisFn B n)) r := by
  rw [(integral_second k A B hA hB m n).2]
  rw [basisFn_eq A m, basisFn_eq B n]
  beta_reduce
  rw [pderiv_sum_prod3 _ _ _ k (fun i => differentiable_gfun _ _ _), pderiv_sum_prod3 _ _ _ k (fun i => differentiable_gfun _ _ _)]
  have hint : ∀ i ∈ Finset.range A.num, ∀ j ∈ Finset.range B.num, ∀ k', Integrable fun x =>
      Function.update (A.factor m i) k (deriv (A.factor m i k)) k' x *
        Function.update (B.factor n j) k (deriv (B.factor n j k)) k' x := by
    intro i hi j hj k'
    by_cases h : k' = k
    · subst h
      rw [Function.update_self, Function.update_self]
      exact integrable_gfun_deriv_deriv (pos_add hA hB hi hj) _ _ _ _
    · rw [Function.update_of_ne h, Function.update_of_ne h]
      exact integrable_gfun_mul (pos_add hA hB hi hj) _ _ _ _
  refine ⟨(integral_sum_prod3 _ _ _ _ _ _ hint).1, ?_⟩
  rw [(integral_sum_prod3 _ _ _ _ _ _ hint).2, ← Finset.sum_neg_distrib]
  refine Finset.sum_congr rfl fun i hi => ?_
  rw [← Finset.sum_neg_distrib]
  refine Finset.sum_congr rfl fun j hj => ?_
  rw [← mul_neg]
  congr 1
  rw [← Finset.mul_prod_erase _ _ (Finset.mem_univ k), ← Finset.mul_prod_erase _ _ (Finset.mem_univ k)]
  rw [if_pos rfl, ← neg_mul]
  congr 1
  · rw [Function.update_self, Function.update_self]
    exact integral_gfun_deriv_deriv (pos_add hA hB hi hj) _ _ _ _
  · refine Finset.prod_congr rfl fun k' hk' => ?_
    have h := Finset.ne_of_mem_erase hk'
    rw [Function.update_of_ne h, Function.update_of_ne h, if_neg h]
    exact integral_gfun_mul _ _ _ _ _ _

/-- Integration by parts: `∫ φ_B ∂_k φ_A = -∫ φ_A ∂_k φ_B`. -/
theorem integral_antisymm (k : Fin 3) (A B : Shell) (pA : A.Pos) (pB : B.Pos) (m n : Nat) :
    ∫ r, basisFn B n r * pderiv k (basisFn A m) r = -∫ r, basisFn A m r * pderiv k (basisFn B n) r := by
  rw [(integral_momentum k A B pA pB m n).2, (integral_momentum k B A pB pA n m).2]
  rw [Finset.sum_comm, ← Finset.sum_neg_distrib]
  refine Finset.sum_congr rfl fun i hi => ?_
  rw [← Finset.sum_neg_distrib]
  refine Finset.sum_congr rfl fun j hj => ?_
  have hp := pos_add pA pB hi hj
  have sym : ∀ k' i' j', gauss1 (B.alphaAt j) (A.alphaAt i) (B.origin k') (A.origin k') j' i' =
      gauss1 (A.alphaAt i) (B.alphaAt j) (A.origin k') (B.origin k') i' j' := by
    intro k' i' j'
    unfold gauss1
    congr 1
    funext x
    rw [add_comm (-A.alphaAt i * _)]
    ring
  have dsym : ∀ k' i' j', gauss1dB (B.alphaAt j) (A.alphaAt i) (B.origin k') (A.origin k') j' i' =
      -gauss1dB (A.alphaAt i) (B.alphaAt j) (A.origin k') (B.origin k') i' j' := by
    intro k' i' j'
    rw [← gauss1dA_eq hp]
    unfold gauss1dB gauss1dA
    simp only [sym]
  rw [mul_comm (B.weight j)]
  simp only [sym, dsym, Fin.prod_univ_three]
  fin_cases k <;> simp

/-! ## Quadratic forms -/

/-- The quadratic form of a matrix of integrals of products of functions is the integral of a square. -/
theorem quad_form_nonneg {n : Nat} (f : Nat → Point → ℝ) (hi : ∀ p q, p < n → q < n → Integrable fun r => f p r * f q r) (x : Nat → ℝ) :
    0 ≤ ∑ p ∈ Finset.range n, ∑ q ∈ Finset.range n, x p * x q * ∫ r, f p r * f q r := by
  have e : ∑ p ∈ Finset.range n, ∑ q ∈ Finset.range n, x p * x q * ∫ r, f p r * f q r =
      ∫ r, (∑ p ∈ Finset.range n, x p * f p r) ^ 2 := by
    have h : ∀ r, (∑ p ∈ Finset.range n, x p * f p r) ^ 2 =
        ∑ p ∈ Finset.range n, ∑ q ∈ Finset.range n, x p * x q * (f p r * f q r) := by
      intro r
      rw [sq, Finset.sum_mul_sum]
      exact Finset.sum_congr rfl fun p _ => Finset.sum_congr rfl fun q _ => by ring
    simp only [h]
    rw [integral_finsetSum _ fun p hp => integrable_finsetSum _ fun q hq =>
      (hi p q (Finset.mem_range.1 hp) (Finset.mem_range.1 hq)).const_mul _]
    refine Finset.sum_congr rfl fun p hp => ?_
    rw [integral_finsetSum _ fun q hq => (hi p q (Finset.mem_range.1 hp) (Finset.mem_range.1 hq)).const_mul _]
    exact Finset.sum_congr rfl fun q _ => by rw [integral_const_mul]
  rw [e]
  exact integral_nonneg fun r => sq_nonneg _

/-! ## The matrix loop -/

/-- A shell which the driver can handle: made by the constructor, positive exponents, angular momentum below the library's limit. -/
structure Shell.InMolecule (gen : Nat → List Comp) (s : Shell) : Prop where
  made : s.Made gen
  L9 : s.L ≤ 9

theorem cartSize_le {L : Nat} (h : L ≤ 9) : cartSize L ≤ 55 := by
  unfold cartSize
  interval_cases L <;> decide

theorem Shell.InMolecule.size_le {gen : Nat → List Comp} {s : Shell} (h : s.InMolecule gen) : s.cart_size ≤ 55 := by
  rw [h.made.size]; exact cartSize_le h.L9

theorem block_fits {gen : Nat → List Comp} {A B : Shell} (hA : A.InMolecule gen) (hB : B.InMolecule gen) {buf : List ℝ}
    (h : maxBuf ≤ buf.length) : A.cart_size * B.cart_size ≤ buf.length :=
  (Nat.mul_le_mul hA.size_le hB.size_le).trans (by unfold maxBuf at h; omega)

theorem evalMatrix_spec {run : Shell → Shell → List ℝ → Outcome (List ℝ)} {E : Shell → Shell → Nat → Nat → ℝ} {gen : Nat → List Comp}
    (hrun : ∀ A B, A.InMolecule gen → B.InMolecule gen → ∀ buf : List ℝ, A.cart_size * B.cart_size ≤ buf.length →
      ∃ out, run A B buf = .ok out ∧ out.length = buf.length ∧ MatIs A.cart_size B.cart_size out (E A B))
    (shells : List Shell) (hs : ∀ s ∈ shells, s.InMolecule gen) (hd : dimOf shells * dimOf shells ≤ intMax + 1)
    (buf M : List ℝ) (hb : maxBuf ≤ buf.length) (hM : dimOf shells * dimOf shells ≤ M.length) :
    ∃ M', evalMatrix run shells buf M = .ok M' ∧ SameBeyond (dimOf shells * dimOf shells) M' M ∧
      ∀ i j m n, (hi : i < shells.length) → (hj : j < shells.length) → m < shells[i].cart_size → n < shells[j].cart_size →
        M'[(shellOff shells i + m) * dimOf shells + (shellOff shells j + n)]? = some (E shells[i] shells[j] m n) := by
  obtain ⟨M0, e0, z0, s0⟩ := memset0_spec (dimOf shells * dimOf shells) M hM
  obtain ⟨r, e, -, a⟩ := forShellPairs_spec (κ := Unit) shells ⟨0, fun _ => 0, 0, [], 0, [], []⟩
    (body := fun io jo bra ket (st : List ℝ × List ℝ) => do
      let buf ← run bra ket st.1
      let m ← addBlock (dimOf shells) st.2 bra.cart_size ket.cart_size buf io jo 1
      Outcome.ok (buf, m))
    (fun st => maxBuf ≤ st.1.length ∧ dimOf shells * dimOf shells ≤ st.2.length) (fun _ st => st.2) (fun _ => E) (buf, M0)
    ⟨hb, by rw [s0.1]; exact hM⟩ (by
      rintro A hA B hB io jo ⟨buf, m⟩ h1 h2 ⟨hb, hm⟩
      obtain ⟨out, e1, l1, m1⟩ := hrun A B (hs A hA) (hs B hB) buf (block_fits (hs A hA) (hs B hB) hb)
      obtain ⟨m', e2, a2⟩ := addBlock_spec hd h1 h2 m1 1 m hm
      refine ⟨(out, m'), ?_, ⟨by rw [l1]; exact hb, by rw [a2.len]; exact hm⟩, fun _ => ?_⟩
      · simp only [e1, Outcome.ok_bind, e2]
      · simpa using a2)
  refine ⟨r.2, ?_, ⟨(a ()).len.trans s0.1, fun p hp => ((a ()).same p hp).trans (s0.2 p hp)⟩, fun i j m n hi hj hm hn => ?_⟩
  · unfold evalMatrix
    rw [basisDim_eq, Outcome.ok_bind, e0, Outcome.ok_bind, e]
    rfl
  · rw [added_elements (a ()) hi hj hm hn, z0 _ (row_lt _ _)]
    · simp
    · have := shellOff_add_le shells i hi; omega
    · have := shellOff_add_le shells j hj; omega

/-! ## Overflow of the index -/

/-- The outcome is `ok` with the property `P`, or undefined. -/
def OkUb {α : Type} (P : α → Prop) (o : Outcome α) : Prop := (∃ a, o = .ok a ∧ P a) ∨ o = .ub

theorem OkUb.bind {α β : Type} {P : α → Prop} {R : β → Prop} {o : Outcome α} {f : α → Outcome β} (h : OkUb P o)
    (hf : ∀ a, P a → OkUb R (f a)) : OkUb R (o >>= f) := by
  rcases h with ⟨a, rfl, ha⟩ | rfl
  · exact hf a ha
  · exact Or.inr rfl

theorem okUb_rd {α : Type} (l : List α) (i : Nat) : OkUb (fun _ => True) (rd l i) := by
  unfold rd
  cases l[i]? with
  | none => exact Or.inr rfl
  | some a => exact Or.inl ⟨a, rfl, trivial⟩

theorem okUb_wr {α : Type} (l : List α) (i : Nat) (a : α) : OkUb (fun l' => l'.length = l.length) (wr l i a) := by
  unfold wr
  split_ifs
  · exact Or.inl ⟨_, rfl, by simp⟩
  · exact Or.inr rfl

/-- A loop all of whose iterations are defined or undefined; if one of them is undefined, so is the loop. -/
theorem forRange_okUb {σ : Type} {n : Nat} {s : σ} {body : Nat → σ → Outcome σ} (I : Nat → σ → Prop) (h0 : I 0 s)
    (hstep : ∀ i s, i < n → I i s → OkUb (I (i + 1)) (body i s)) :
    OkUb (I n) (forRange n s body) ∧ ∀ k < n, (∀ s, I k s → body k s = .ub) → forRange n s body = .ub := by
  induction n with
  | zero => exact ⟨Or.inl ⟨s, rfl, h0⟩, fun k hk => absurd hk (by omega)⟩
  | succ n ih =>
    obtain ⟨h1, h2⟩ := ih fun i s hi => hstep i s (by omega)
    rw [forRange_succ]
    refine ⟨h1.bind fun s hs => hstep n s (by omega) hs, fun k hk hub => ?_⟩
    rcases Nat.lt_or_ge k n with h | h
    · rw [h2 k h hub]; rfl
    · obtain rfl : k = n := by omega
      rcases h1 with ⟨s', e, hs⟩ | e
      · rw [e]; exact hub s' hs
      · rw [e]; rfl

theorem addBlock_okUb (dim : Nat) (M : List ℝ) (bd1 bd2 : Nat) (block : List ℝ) (io jo : Nat) (factor : ℝ) :
    OkUb (fun M' => M'.length = M.length) (addBlock dim M bd1 bd2 block io jo factor) ∧
      ∀ i < bd1, ∀ j < bd2, intMax < (io + i) * dim + (jo + j) → addBlock dim M bd1 bd2 block io jo factor = .ub := by
  unfold addBlock
  have step : ∀ i j m, OkUb (fun M' => M'.length = m.length) (do
      let e ← rd block (i * bd2 + j)
      Outcome.valid ((io + i) * dim + (jo + j) ≤ intMax)
      let v ← rd m ((io + i) * dim + (jo + j))
      wr m ((io + i) * dim + (jo + j)) (v + factor * e)) := by
    intro i j m
    refine (okUb_rd _ _).bind fun e _ => ?_
    by_cases h : (io + i) * dim + (jo + j) ≤ intMax
    · rw [Outcome.valid_pos h, Outcome.ok_bind]
      exact (okUb_rd _ _).bind fun v _ => okUb_wr _ _ _
    · rw [Outcome.valid_neg h]; exact Or.inr rfl
  have bad : ∀ i j m, intMax < (io + i) * dim + (jo + j) → (do
      let e ← rd block (i * bd2 + j)
      Outcome.valid ((io + i) * dim + (jo + j) ≤ intMax)
      let v ← rd m ((io + i) * dim + (jo + j))
      wr m ((io + i) * dim + (jo + j)) (v + factor * e)) = .ub := by
    intro i j m h
    rcases okUb_rd block (i * bd2 + j) with ⟨e, r, -⟩ | r
    · rw [r, Outcome.ok_bind, Outcome.valid_neg (by omega)]; rfl
    · rw [r]; rfl
  have inner := fun i m => forRange_okUb (n := bd2) (s := m) (body := fun j m => do
      let e ← rd block (i * bd2 + j)
      Outcome.valid ((io + i) * dim + (jo + j) ≤ intMax)
      let v ← rd m ((io + i) * dim + (jo + j))
      wr m ((io + i) * dim + (jo + j)) (v + factor * e)) (fun _ (m' : List ℝ) => m'.length = m.length) rfl
    fun j m' _ hm => by rw [← hm]; exact step i j m'
  have outer := forRange_okUb (n := bd1) (s := M) (body := fun i m => forRange bd2 m fun j m => do
      let e ← rd block (i * bd2 + j)
      Outcome.valid ((io + i) * dim + (jo + j) ≤ intMax)
      let v ← rd m ((io + i) * dim + (jo + j))
      wr m ((io + i) * dim + (jo + j)) (v + factor * e)) (fun _ (m' : List ℝ) => m'.length = M.length) rfl
    fun i m hi hm => by rw [← hm]; exact (inner i m).1
  exact ⟨outer.1, fun i hi j hj h => outer.2 i hi fun m _ => (inner i m).2 j hj fun m' _ => bad i j m' h⟩

theorem Shell.InMolecule.size_pos {gen : Nat → List Comp} {s : Shell} (h : s.InMolecule gen) : 0 < s.cart_size := by
  rw [h.made.size]
  unfold cartSize
  have : 2 ≤ (s.L + 1) * (s.L + 2) := by nlinarith [Nat.zero_le s.L]
  omega

/-- A basis whose matrix has more elements than an `int` can count. -/
theorem evalMatrix_overflow {run : Shell → Shell → List ℝ → Outcome (List ℝ)} {E : Shell → Shell → Nat → Nat → ℝ} {gen : Nat → List Comp}
    (hrun : ∀ A B, A.InMolecule gen → B.InMolecule gen → ∀ buf : List ℝ, A.cart_size * B.cart_size ≤ buf.length →
      ∃ out, run A B buf = .ok out ∧ out.length = buf.length ∧ MatIs A.cart_size B.cart_size out (E A B))
    (shells : List Shell) (hs : ∀ s ∈ shells, s.InMolecule gen) (hd : intMax + 1 < dimOf shells * dimOf shells)
    (buf M : List ℝ) (hb : maxBuf ≤ buf.length) (hM : dimOf shells * dimOf shells ≤ M.length) :
    evalMatrix run shells buf M = .ub := by
  obtain ⟨M0, e0, -, -⟩ := memset0_spec (dimOf shells * dimOf shells) M hM
  unfold evalMatrix
  rw [basisDim_eq, Outcome.ok_bind, e0, Outcome.ok_bind]
  obtain ⟨n, hn⟩ : ∃ n, shells.length = n + 1 := by
    cases shells with
    | nil => simp [dimOf] at hd
    | cons s l => exact ⟨l.length, rfl⟩
  have hlast : n < shells.length := by omega
  have hoff : shellOff shells n + shells[n].cart_size = dimOf shells := by
    rw [← shellOff_succ shells n hlast, ← hn, shellOff_length]
  have hpos := (hs _ (List.getElem_mem hlast)).size_pos
  let body : Nat → Nat → Shell → Shell → List ℝ × List ℝ → Outcome (List ℝ × List ℝ) := fun io jo bra ket st => do
    let buf ← run bra ket st.1
    let m ← addBlock (dimOf shells) st.2 bra.cart_size ket.cart_size buf io jo 1
    .ok (buf, m)
  have hbody : ∀ A ∈ shells, ∀ B ∈ shells, ∀ io jo st, maxBuf ≤ st.1.length → OkUb (fun st' => maxBuf ≤ st'.1.length) (body io jo A B st) := by
    intro A hA B hB io jo st hst
    obtain ⟨out, e, l, -⟩ := hrun A B (hs A hA) (hs B hB) st.1 (block_fits (hs A hA) (hs B hB) hst)
    simp only [body, e, Outcome.ok_bind]
    exact (addBlock_okUb _ _ _ _ _ _ _ _).1.bind fun m _ => Or.inl ⟨_, rfl, by simp only [l]; exact hst⟩
  have hbad : ∀ st : List ℝ × List ℝ, maxBuf ≤ st.1.length →
      body (shellOff shells n) (shellOff shells n) shells[n] shells[n] st = .ub := by
    intro st hst
    have hA := hs _ (List.getElem_mem hlast)
    obtain ⟨out, e, -, -⟩ := hrun _ _ hA hA st.1 (block_fits hA hA hst)
    simp only [body, e, Outcome.ok_bind]
    rw [(addBlock_okUb _ _ _ _ _ _ _ _).2 (shells[n].cart_size - 1) (by omega) (shells[n].cart_size - 1) (by omega)]
    · rfl
    · rw [show shellOff shells n + (shells[n].cart_size - 1) = dimOf shells - 1 by omega]
      have h1 : 1 ≤ dimOf shells := by omega
      obtain ⟨d, hdd⟩ : ∃ d, dimOf shells = d + 1 := ⟨dimOf shells - 1, by omega⟩
      rw [hdd] at hd ⊢
      simp only [Nat.add_sub_cancel]
      nlinarith
  have inner : ∀ i (st : Nat × (List ℝ × List ℝ)), (hi : i < shells.length) → st.1 = shellOff shells i → maxBuf ≤ st.2.1.length →
      OkUb (fun r : Nat × (List ℝ × List ℝ) => maxBuf ≤ r.2.1.length) (forRange shells.length ((0 : Nat), st.2) fun j st2 => do
        let ket ← rd shells j
        let s ← body st.1 st2.1 shells[i] ket st2.2
        Outcome.ok (st2.1 + ket.cart_size, s)) ∧ (i = n → (forRange shells.length ((0 : Nat), st.2) fun j st2 => do
        let ket ← rd shells j
        let s ← body st.1 st2.1 shells[i] ket st2.2
        Outcome.ok (st2.1 + ket.cart_size, s)) = .ub) := by
    intro i st hi h1 h2
    have := forRange_okUb (n := shells.length) (s := ((0 : Nat), st.2)) (body := fun j st2 => do
        let ket ← rd shells j
        let s ← body st.1 st2.1 shells[i] ket st2.2
        Outcome.ok (st2.1 + ket.cart_size, s)) (fun j st2 => st2.1 = shellOff shells j ∧ maxBuf ≤ st2.2.1.length) ⟨by simp [shellOff], h2⟩
      fun j st2 hj hst2 => by
        rw [rd_ok hj, Outcome.ok_bind]
        exact (hbody _ (List.getElem_mem hi) _ (List.getElem_mem hj) _ _ _ hst2.2).bind fun s hs =>
          Or.inl ⟨_, rfl, by rw [shellOff_succ shells j hj, hst2.1], hs⟩
    refine ⟨?_, fun hin => this.2 n hlast fun st2 hst2 => ?_⟩
    · rcases this.1 with ⟨r, e, h⟩ | e
      · exact Or.inl ⟨r, e, h.2⟩
      · exact Or.inr e
    · subst hin
      rw [rd_ok hlast, Outcome.ok_bind, h1, hst2.1, hbad _ hst2.2]
      rfl
  have outer := forRange_okUb (n := shells.length) (s := ((0 : Nat), (buf, M0))) (body := fun i st => do
      let bra ← rd shells i
      let r ← forRange shells.length ((0 : Nat), st.2) fun j st2 => do
        let ket ← rd shells j
        let s ← body st.1 st2.1 bra ket st2.2
        Outcome.ok (st2.1 + ket.cart_size, s)
      Outcome.ok (st.1 + bra.cart_size, r.2)) (fun i st => st.1 = shellOff shells i ∧ maxBuf ≤ st.2.1.length) ⟨by simp [shellOff], hb⟩
    fun i st hi hst => by
      rw [rd_ok hi, Outcome.ok_bind]
      exact (inner i st hi hst.1 hst.2).1.bind fun r hr => Or.inl ⟨_, rfl, by rw [shellOff_succ shells i hi, hst.1], hr⟩
  have := outer.2 n hlast fun st hst => by
    rw [rd_ok hlast, Outcome.ok_bind, (inner n st hlast hst.1 hst.2).2 rfl]
    rfl
  unfold forShellPairs
  simp only [body] at this
  rw [this]
  rfl

/-- Statements about all pairs of functions follow from statements about all pairs of components. -/
theorem basisFns_pairs {shells : List Shell} {P : Nat → Nat → (Point → ℝ) → (Point → ℝ) → Prop}
    (h : ∀ i j m n, (hi : i < shells.length) → (hj : j < shells.length) → m < shells[i].cart_size → n < shells[j].cart_size →
      P (shellOff shells i + m) (shellOff shells j + n) (basisFn shells[i] m) (basisFn shells[j] n)) :
    ∀ p q f g, (basisFns shells)[p]? = some f → (basisFns shells)[q]? = some g → P p q f g := by
  intro p q f g hf hg
  have hp : p < dimOf shells := by rw [← basisFns_length]; exact (List.getElem?_eq_some_iff.1 hf).1
  have hq : q < dimOf shells := by rw [← basisFns_length]; exact (List.getElem?_eq_some_iff.1 hg).1
  obtain ⟨i, hi, h1, h2⟩ := shellOff_locate shells p hp
  obtain ⟨j, hj, h3, h4⟩ := shellOff_locate shells q hq
  have e1 : p = shellOff shells i + (p - shellOff shells i) := by omega
  have e2 : q = shellOff shells j + (q - shellOff shells j) := by omega
  have m1 : p - shellOff shells i < shells[i].cart_size := by omega
  have m2 : q - shellOff shells j < shells[j].cart_size := by omega
  have f1 := basisFns_get shells hi m1
  have g1 := basisFns_get shells hj m2
  rw [← e1, hf] at f1
  rw [← e2, hg] at g1
  have := h i j _ _ hi hj m1 m2
  rw [← e1, ← e2, ← Option.some.inj f1, ← Option.some.inj g1] at this
  exact this

end Libgrpp
