import Verif.Model.DriverGrpp
import Verif.Lemmas.Driver
import Verif.Lemmas.Full

/-! # Lemmas: the GRPP part of the driver -/

namespace Libgrpp

theorem updateVector_eq (size : Nat) (a b : List ℝ) (w : ℝ) : updateVector size a w b = daxpy size w b a := rfl

/-- Loops on states which correspond under `φ`. -/
theorem forRange_map {σ τ : Type} (φ : σ → τ) {body : Nat → σ → Outcome σ} {body' : Nat → τ → Outcome τ} (n : Nat)
    (h : ∀ i, i < n → ∀ s, body' i (φ s) = (body i s >>= fun s' => .ok (φ s'))) (s : σ) :
    forRange n (φ s) body' = (forRange n s body >>= fun s' => .ok (φ s')) := by
  induction n with
  | zero => rfl
  | succ n ih =>
    rw [forRange_succ, forRange_succ, ih (fun i hi => h i (by omega)), bind_assoc, bind_assoc]
    refine bind_congr fun s' => ?_
    rw [Outcome.ok_bind, h n (by omega)]

theorem fin4_ext {α : Type} {f g : Fin 4 → α} (h0 : f 0 = g 0) (h1 : f 1 = g 1) (h2 : f 2 = g 2) (h3 : f 3 = g 3) : f = g := by
  funext k; fin_cases k <;> assumption

/-- The pair routine of the driver is the library's routine without the check that the library is initialised. -/
theorem driverPair_eq (K : Kernels) (A B : Shell) (g : GrppData) (C : Point) (M : Fin 4 → List ℝ) :
    driverPair K A B g C M = fullGrpp K true A B g C M := by
  unfold driverPair fullGrpp
  simp only [Outcome.assert, if_true, Outcome.ok_bind, updateVector_eq]
  refine bind_congr fun m0 => bind_congr fun m1 => bind_congr fun m2 => bind_congr fun m3 => bind_congr fun l => ?_
  set size := A.cart_size * B.cart_size
  unfold FullState.axpy
  simp only [bind_assoc, Outcome.ok_bind]
  have hz : ∀ k : Fin 4, (![m0, m1, m2, m3] : Fin 4 → List ℝ) k = Fin.cases m0 ![m1, m2, m3] k := by
    intro k; fin_cases k <;> rfl
  refine bind_congr fun n0 => ?_
  -- semilocal loop
  have e1 : ∀ b m, forRange g.arep.length
      (⟨![b, List.replicate size 0, List.replicate size 0, List.replicate size 0], ![m, m1, m2, m3]⟩ : FullState) (fun i st => do
        let p ← rd g.arep i
        fullArepStep K A B C size p st) = (forRange g.arep.length (b, m) (fun i st => do
          let p ← rd g.arep i
          let b ← K.type2 A B C p st.1
          let m ← daxpy size 1 b st.2
          Outcome.ok (b, m)) >>= fun r =>
        .ok ⟨![r.1, List.replicate size 0, List.replicate size 0, List.replicate size 0], ![r.2, m1, m2, m3]⟩) := by
    intro b m
    refine forRange_map (fun r : List ℝ × List ℝ =>
      (⟨![r.1, List.replicate size 0, List.replicate size 0, List.replicate size 0], ![r.2, m1, m2, m3]⟩ : FullState)) _
      (fun i _ st => ?_) (b, m)
    simp only [bind_assoc]
    refine bind_congr fun p => ?_
    unfold fullArepStep FullState.axpy FullState.setArep
    refine bind_congr fun b => bind_congr fun m => ?_
    rw [Outcome.ok_bind]
    congr 2 <;> exact fin4_ext rfl rfl rfl rfl
  have e2 : ∀ b0 m0 (b m : Fin 3 → List ℝ), forRange g.esop.length
      (⟨![b0, b 0, b 1, b 2], ![m0, m 0, m 1, m 2]⟩ : FullState) (fun i st => do
        let p ← rd g.esop i
        fullSOStep K A B C size p st) = (forRange g.esop.length (b, m) (fun i st => do
          let p ← rd g.esop i
          let b ← K.so A B C p st.1
          let m1 ← daxpy size (2 / (2 * (p.L : ℝ) + 1)) (b 0) (st.2 0)
          let m2 ← daxpy size (2 / (2 * (p.L : ℝ) + 1)) (b 1) (st.2 1)
          let m3 ← daxpy size (2 / (2 * (p.L : ℝ) + 1)) (b 2) (st.2 2)
          Outcome.ok (b, ![m1, m2, m3])) >>= fun s =>
        .ok ⟨![b0, s.1 0, s.1 1, s.1 2], ![m0, s.2 0, s.2 1, s.2 2]⟩) := by
    intro b0 m0 b m
    refine forRange_map (fun s : (Fin 3 → List ℝ) × (Fin 3 → List ℝ) =>
      (⟨![b0, s.1 0, s.1 1, s.1 2], ![m0, s.2 0, s.2 1, s.2 2]⟩ : FullState)) _ (fun i _ st => ?_) (b, m)
    simp only [bind_assoc]
    refine bind_congr fun p => ?_
    unfold fullSOStep FullState.axpy FullState.setSO
    have hb : (![st.1 0, st.1 1, st.1 2] : Fin 3 → List ℝ) = st.1 := by funext k; fin_cases k <;> rfl
    show (K.so A B C p ![st.1 0, st.1 1, st.1 2] >>= _) = _
    rw [hb]
    refine bind_congr fun b => ?_
    simp only [bind_assoc, Outcome.ok_bind]
    refine bind_congr fun n1 => bind_congr fun n2 => bind_congr fun n3 => ?_
    congr 2
    exact fin4_ext rfl rfl rfl rfl
  have s1 : (⟨Function.update (fun _ => List.replicate size 0) 0 l, Function.update ![m0, m1, m2, m3] 0 n0⟩ : FullState) =
      ⟨![l, List.replicate size 0, List.replicate size 0, List.replicate size 0], ![n0, m1, m2, m3]⟩ := by
    congr 1 <;> exact fin4_ext rfl rfl rfl rfl
  simp only [FullState.setArep]
  rw [s1, e1]
  simp only [bind_assoc, Outcome.ok_bind]
  refine bind_congr fun r => ?_
  have := e2 r.1 r.2 ![List.replicate size 0, List.replicate size 0, List.replicate size 0] ![m1, m2, m3]
  erw [this]
  simp only [bind_assoc, Outcome.ok_bind]
  refine bind_congr fun s => bind_congr fun b => ?_
  refine bind_congr fun k0 => bind_congr fun k1 => bind_congr fun k2 => bind_congr fun k3 => ?_
  congr 1
  exact fin4_ext rfl rfl rfl rfl

/-! ## The auxiliary arrays -/

theorem driverOffsets_spec (shells : List Shell) :
    ∃ l, driverOffsets shells = .ok l ∧ ∀ i < shells.length, l[i]? = some (shellOff shells i) := by
  unfold driverOffsets
  obtain ⟨r, e, -, -, h⟩ := forRange_inv (n := shells.length) (s := (List.replicate shells.length 0, 0)) (body := fun i st => do
      let offsets ← wr st.1 i st.2
      let s ← rd shells i
      Outcome.ok (offsets, st.2 + s.cart_size))
    (fun i st => st.1.length = shells.length ∧ st.2 = shellOff shells i ∧ ∀ j < i, st.1[j]? = some (shellOff shells j))
    ⟨by simp, by simp [shellOff], fun j hj => absurd hj (by omega)⟩ (by
      rintro i ⟨l, o⟩ hi ⟨h1, h2, h3⟩
      simp only at h1 h2 h3
      refine ⟨(l.set i o, o + shells[i].cart_size), ?_, by simpa using h1, ?_, fun j hj => ?_⟩
      · simp only
        rw [wr_ok _ (by omega), Outcome.ok_bind, rd_ok hi, Outcome.ok_bind]
      · rw [shellOff_succ shells i hi, h2]
      · simp only
        rcases Nat.lt_or_ge j i with h | h
        · rw [List.getElem?_set_ne (by omega)]; exact h3 j h
        · have : j = i := by omega
          subst this
          rw [List.getElem?_set_self (by omega), h2])
  exact ⟨r.1, by rw [e]; rfl, h⟩

theorem driverPairs_spec (n : Nat) (hn : n * n * 2 ≤ intMax) :
    ∃ l, driverPairs n = .ok (l, n * n) ∧ ∀ p < n * n, l[2 * p]? = some (p / n) ∧ l[2 * p + 1]? = some (p % n) := by
  unfold driverPairs
  rw [Outcome.valid_pos hn, Outcome.ok_bind]
  have inner : ∀ i (st : List Nat × Nat), i < n → (st.1.length = n * n * 2 ∧ st.2 = i * n ∧ ∀ p < i * n,
      st.1[2 * p]? = some (p / n) ∧ st.1[2 * p + 1]? = some (p % n)) → ∃ st' : List Nat × Nat, (forRange n st fun j st => do
        let l ← wr st.1 (2 * st.2) i
        let l ← wr l (2 * st.2 + 1) j
        Outcome.ok (l, st.2 + 1)) = .ok st' ∧ (st'.1.length = n * n * 2 ∧ st'.2 = i * n + n ∧ ∀ p < i * n + n,
      st'.1[2 * p]? = some (p / n) ∧ st'.1[2 * p + 1]? = some (p % n)) := by
    rintro i ⟨l, c⟩ hi ⟨h1, h2, h3⟩
    simp only at h1 h2 h3
    refine forRange_inv (n := n) (fun j (st : List Nat × Nat) => st.1.length = n * n * 2 ∧ st.2 = i * n + j ∧ ∀ p < i * n + j,
      st.1[2 * p]? = some (p / n) ∧ st.1[2 * p + 1]? = some (p % n)) ⟨h1, h2, h3⟩ ?_
    rintro j ⟨l, c⟩ hj ⟨h1, h2, h3⟩
    simp only at h1 h2 h3
    have hc : c < n * n := by rw [h2]; exact row_lt hi hj
    refine ⟨((l.set (2 * c) i).set (2 * c + 1) j, c + 1), ?_, by simpa using h1, by omega, fun p hp => ?_⟩
    · simp only
      rw [wr_ok _ (by omega), Outcome.ok_bind, wr_ok _ (by simp; omega), Outcome.ok_bind]
    · simp only
      rcases Nat.lt_or_ge p c with h | h
      · rw [List.getElem?_set_ne (by omega), List.getElem?_set_ne (by omega), List.getElem?_set_ne (by omega),
          List.getElem?_set_ne (by omega)]
        exact h3 p (by omega)
      · have : p = c := by omega
        subst this
        rw [List.getElem?_set_ne (by omega), List.getElem?_set_self (by omega), List.getElem?_set_self (by simp; omega), h2]
        constructor
        · rw [Nat.mul_comm, Nat.mul_add_div (by omega), Nat.div_eq_of_lt hj, Nat.add_zero]
        · rw [Nat.mul_comm, Nat.mul_add_mod, Nat.mod_eq_of_lt hj]
  obtain ⟨r, e, h1, h2, h3⟩ := forRange_inv (n := n) (s := (List.replicate (n * n * 2) 0, 0)) (fun i (st : List Nat × Nat) => st.1.length = n * n * 2 ∧ st.2 = i * n ∧
    ∀ p < i * n, st.1[2 * p]? = some (p / n) ∧ st.1[2 * p + 1]? = some (p % n)) ⟨by simp, by simp, fun p hp => absurd hp (by omega)⟩
    (fun i st hi hst => by
      obtain ⟨st', e, h⟩ := inner i st hi hst
      exact ⟨st', e, by rw [Nat.succ_mul]; exact h⟩)
  exact ⟨r.1, by rw [e, ← h2], h3⟩

/-- A sum over pairs numbered row by row. -/
theorem sum_pairs (m n : Nat) (f : Nat → Nat → ℝ) :
    ∑ p ∈ Finset.range (m * n), f (p / n) (p % n) = ∑ a ∈ Finset.range m, ∑ b ∈ Finset.range n, f a b := by
  induction m with
  | zero => simp
  | succ m ih =>
    rw [Nat.succ_mul, Finset.sum_range_add, ih, Finset.sum_range_succ]
    congr 1
    refine Finset.sum_congr rfl fun j hj => ?_
    have hj := Finset.mem_range.1 hj
    rw [Nat.mul_comm m n, Nat.mul_add_div (by omega), Nat.div_eq_of_lt hj, Nat.add_zero, Nat.mul_add_mod, Nat.mod_eq_of_lt hj]

/-! ## The loops -/

/-- A loop over a list whose iterations add matrices adds their sum. -/
theorem added_list {σ κ : Type} {dim : Nat} {body : σ → Nat → Outcome σ} (Inv : σ → Prop) (view : κ → σ → List ℝ)
    (D : κ → Nat → Nat → Nat → ℝ) (order : List Nat) (s : σ) (h0 : Inv s)
    (hstep : ∀ i ∈ order, ∀ s, Inv s → ∃ s', body s i = .ok s' ∧ Inv s' ∧ ∀ k, Added dim (D k i) (view k s) (view k s')) :
    ∃ s', order.foldlM body s = .ok s' ∧ Inv s' ∧
      ∀ k, Added dim (fun p q => (order.map fun i => D k i p q).sum) (view k s) (view k s') := by
  induction order generalizing s with
  | nil => exact ⟨s, rfl, h0, fun k => by simpa using Added.refl dim (view k s)⟩
  | cons a order ih =>
    obtain ⟨s1, e1, i1, a1⟩ := hstep a (by simp) s h0
    obtain ⟨s2, e2, i2, a2⟩ := ih s1 i1 fun i hi => hstep i (by simp [hi])
    refine ⟨s2, by rw [List.foldlM_cons, e1]; exact e2, i2, fun k => ?_⟩
    refine ((a1 k).trans (a2 k)).congr fun p q _ _ => ?_
    simp

theorem blockAt_sum {ι : Type} (io jo b1 b2 : Nat) (l : List ι) (f : ι → Nat → Nat → ℝ) (p q : Nat) :
    (l.map fun i => blockAt io jo b1 b2 (f i) p q).sum = blockAt io jo b1 b2 (fun m n => (l.map fun i => f i m n).sum) p q := by
  unfold blockAt
  split_ifs <;> simp

theorem sum_range_list {α : Type} (l : List α) (d : α) (f : α → ℝ) : ∑ i ∈ Finset.range l.length, f (l.getD i d) = (l.map f).sum := by
  induction l with
  | nil => simp
  | cons a l ih =>
    rw [List.length_cons, Finset.sum_range_succ', List.map_cons, List.sum_cons, ← ih]
    simp [add_comm]

theorem moleculeGrpps_mem {atoms : List (Nat × Point)} {grpps : List (Option GrppData)} {a : Nat × Point} {g : GrppData} (ha : a ∈ atoms)
    (h : grpps[a.1]? = some (some g)) : (g, a.2) ∈ moleculeGrpps atoms grpps := by
  unfold moleculeGrpps
  rw [List.mem_filterMap]
  exact ⟨a, ha, by simp [List.getD, h]⟩

theorem moleculeGrpps_sum (atoms : List (Nat × Point)) (grpps : List (Option GrppData)) (f : GrppData × Point → ℝ) :
    ((moleculeGrpps atoms grpps).map f).sum =
      (atoms.map fun a => (grpps.getD a.1 none).elim 0 fun g => f (g, a.2)).sum := by
  induction atoms with
  | nil => rfl
  | cons a atoms ih =>
    unfold moleculeGrpps at ih ⊢
    rw [List.map_cons, List.sum_cons, List.filterMap_cons]
    cases grpps.getD a.1 none with
    | none => simpa using ih
    | some g => simpa using ih

/-- What is needed of the pair routine: on every pair of shells and every pseudopotential of the molecule it fills the buffers with the values `W`. -/
def PairFills (K : Kernels) (shells : List Shell) (ops : List (GrppData × Point)) (W : Shell → Shell → GrppData × Point → Fin 4 → Nat → Nat → ℝ) : Prop :=
  ∀ A ∈ shells, ∀ B ∈ shells, ∀ o ∈ ops, ∀ M : Fin 4 → List ℝ, (∀ q, A.cart_size * B.cart_size ≤ (M q).length) →
    ∃ M', driverPair K A B o.1 o.2 M = .ok M' ∧ ∀ q, (M' q).length = (M q).length ∧ MatIs A.cart_size B.cart_size (M' q) (W A B o q)

theorem vec4_apply {α : Type} (f : Fin 4 → α) (k : Fin 4) : (![f 0, f 1, f 2, f 3] : Fin 4 → α) k = f k := by
  fin_cases k <;> rfl

/-- One iteration of the parallel loop adds its block to each matrix. -/
theorem driverIteration_spec {K : Kernels} {shells : List Shell} {atoms : List (Nat × Point)} {grpps : List (Option GrppData)}
    {W : Shell → Shell → GrppData × Point → Fin 4 → Nat → Nat → ℝ} (hW : PairFills K shells (moleculeGrpps atoms grpps) W)
    (hz : ∀ a ∈ atoms, a.1 < grpps.length) (hd : dimOf shells * dimOf shells ≤ intMax + 1)
    (hsize : ∀ A ∈ shells, ∀ B ∈ shells, A.cart_size * B.cart_size ≤ maxBuf)
    {offsets pairs : List Nat} (ho : ∀ i < shells.length, offsets[i]? = some (shellOff shells i)) {ip i j : Nat} (hi : i < shells.length)
    (hj : j < shells.length) (h1 : pairs[2 * ip]? = some i) (h2 : pairs[2 * ip + 1]? = some j) {buf : Fin 4 → List ℝ}
    (hbuf : ∀ q, maxBuf ≤ (buf q).length) (M : Fin 4 → List ℝ) (hM : ∀ q, dimOf shells * dimOf shells ≤ (M q).length) :
    ∃ M', driverIteration K shells atoms grpps (dimOf shells) offsets pairs buf ip M = .ok M' ∧
      ∀ q, Added (dimOf shells) (blockAt (shellOff shells i) (shellOff shells j) shells[i].cart_size shells[j].cart_size
        fun m n => ((moleculeGrpps atoms grpps).map fun o => W shells[i] shells[j] o q m n).sum) (M q) (M' q) := by
  have hA := List.getElem_mem hi
  have hB := List.getElem_mem hj
  let d : Nat × Point := (0, fun _ => 0)
  let D : Fin 4 → Nat → Nat → Nat → ℝ := fun q ia => blockAt (shellOff shells i) (shellOff shells j) shells[i].cart_size shells[j].cart_size
    fun m n => (grpps.getD (atoms.getD ia d).1 none).elim 0 fun g => W shells[i] shells[j] (g, (atoms.getD ia d).2) q m n
  obtain ⟨r, e, -, a⟩ := added_loop (κ := Fin 4) (dim := dimOf shells) (n := atoms.length)
    (body := fun ia (st : (Fin 4 → List ℝ) × (Fin 4 → List ℝ)) => do
      let atom ← rd atoms ia
      let g ← rd grpps atom.1
      match g with
      | none => Outcome.ok st
      | some g =>
        let b ← driverPair K shells[i] shells[j] g atom.2 st.1
        let m0 ← addBlock (dimOf shells) (st.2 0) shells[i].cart_size shells[j].cart_size (b 0) (shellOff shells i) (shellOff shells j) 1
        let m1 ← addBlock (dimOf shells) (st.2 1) shells[i].cart_size shells[j].cart_size (b 1) (shellOff shells i) (shellOff shells j) 1
        let m2 ← addBlock (dimOf shells) (st.2 2) shells[i].cart_size shells[j].cart_size (b 2) (shellOff shells i) (shellOff shells j) 1
        let m3 ← addBlock (dimOf shells) (st.2 3) shells[i].cart_size shells[j].cart_size (b 3) (shellOff shells i) (shellOff shells j) 1
        Outcome.ok (b, ![m0, m1, m2, m3]))
    (fun _ st => ∀ q, maxBuf ≤ (st.1 q).length ∧ dimOf shells * dimOf shells ≤ (st.2 q).length) (fun q st => st.2 q) D (buf, M)
    (fun q => ⟨hbuf q, hM q⟩) (by
      rintro ia ⟨b, m⟩ hia hI
      have hat : atoms.getD ia d = atoms[ia] := by simp [List.getD, hia]
      have hzl := hz _ (List.getElem_mem hia)
      rw [rd_ok hia, Outcome.ok_bind, rd_ok hzl, Outcome.ok_bind]
      have hg : grpps.getD (atoms.getD ia d).1 none = grpps[atoms[ia].1] := by rw [hat]; simp [List.getD, hzl]
      simp only [D, hg]
      cases hgr : grpps[atoms[ia].1] with
      | none =>
        refine ⟨(b, m), rfl, hI, fun q => (Added.refl _ _).congr fun p q _ _ => ?_⟩
        unfold blockAt
        split_ifs <;> rfl
      | some g =>
        have hmem : (g, atoms[ia].2) ∈ moleculeGrpps atoms grpps :=
          moleculeGrpps_mem (List.getElem_mem hia) (by rw [List.getElem?_eq_getElem hzl, hgr])
        obtain ⟨b', e1, hb'⟩ := hW _ hA _ hB _ hmem b fun q => (hsize _ hA _ hB).trans (hI q).1
        choose m' e2 a2 using fun q => addBlock_spec hd (shellOff_add_le shells i hi) (shellOff_add_le shells j hj) (hb' q).2 1 (m q) (hI q).2
        refine ⟨(b', ![m' 0, m' 1, m' 2, m' 3]), ?_, fun q => ⟨?_, ?_⟩, fun q => ?_⟩
        · simp only at e1
          simp only [e1, Outcome.ok_bind, e2]
        · simp only [(hb' q).1]; exact (hI q).1
        · simp only [vec4_apply, (a2 q).len]; exact (hI q).2
        · simp only [vec4_apply, hat]
          simpa using a2 q)
  refine ⟨r.2, ?_, fun q => (a q).congr fun p p' _ _ => ?_⟩
  · unfold driverIteration
    have r1 : rd pairs (2 * ip) = .ok i := by simp [rd, h1]
    have r2 : rd pairs (2 * ip + 1) = .ok j := by simp [rd, h2]
    have r3 : rd offsets i = .ok (shellOff shells i) := by simp [rd, ho i hi]
    have r4 : rd offsets j = .ok (shellOff shells j) := by simp [rd, ho j hj]
    rw [r1, Outcome.ok_bind, r2, Outcome.ok_bind, r3, Outcome.ok_bind, r4, Outcome.ok_bind, rd_ok hi, Outcome.ok_bind, rd_ok hj, Outcome.ok_bind]
    erw [e]
    rfl
  · simp only [D]
    rw [sum_range_list atoms d fun a => blockAt (shellOff shells i) (shellOff shells j) shells[i].cart_size shells[j].cart_size
      (fun m n => (grpps.getD a.1 none).elim 0 fun g => W shells[i] shells[j] (g, a.2) q m n) p p', blockAt_sum]
    congr 1
    funext m n
    exact (moleculeGrpps_sum atoms grpps fun o => W shells[i] shells[j] o q m n).symm

/-- The whole routine, with the iterations in any order. -/
theorem evalGrpp_spec {K : Kernels} {shells : List Shell} {atoms : List (Nat × Point)} {grpps : List (Option GrppData)}
    {W : Shell → Shell → GrppData × Point → Fin 4 → Nat → Nat → ℝ} (hW : PairFills K shells (moleculeGrpps atoms grpps) W)
    (hz : ∀ a ∈ atoms, a.1 < grpps.length) (hd : dimOf shells * dimOf shells ≤ intMax + 1) (hn : shells.length * shells.length * 2 ≤ intMax)
    (hsize : ∀ A ∈ shells, ∀ B ∈ shells, A.cart_size * B.cart_size ≤ maxBuf) {order : Nat → List Nat}
    (hord : ∀ n, (order n).Perm (List.range n)) {bufs : Nat → Fin 4 → List ℝ} (hbuf : ∀ ip q, maxBuf ≤ (bufs ip q).length)
    (M : Fin 4 → List ℝ) (hM : ∀ q, dimOf shells * dimOf shells ≤ (M q).length) :
    ∃ M', evalGrpp K shells atoms grpps order bufs M = .ok M' ∧ ∀ q, SameBeyond (dimOf shells * dimOf shells) (M' q) (M q) ∧
      ∀ i j m n, (hi : i < shells.length) → (hj : j < shells.length) → m < shells[i].cart_size → n < shells[j].cart_size →
        (M' q)[(shellOff shells i + m) * dimOf shells + (shellOff shells j + n)]? =
          some ((moleculeGrpps atoms grpps).map fun o => W shells[i] shells[j] o q m n).sum := by
  choose M0 e0 z0 s0 using fun q => memset0_spec (dimOf shells * dimOf shells) (M q) (hM q)
  obtain ⟨offsets, eo, ho⟩ := driverOffsets_spec shells
  obtain ⟨pairs, ep, hp⟩ := driverPairs_spec shells.length hn
  let d : Shell := ⟨0, fun _ => 0, 0, [], 0, [], []⟩
  let n := shells.length
  let E : Fin 4 → Shell → Shell → Nat → Nat → ℝ := fun q A B m n => ((moleculeGrpps atoms grpps).map fun o => W A B o q m n).sum
  let D : Fin 4 → Nat → Nat → Nat → Nat → ℝ := fun q a b => blockAt (shellOff shells a) (shellOff shells b)
    (shells.getD a d).cart_size (shells.getD b d).cart_size (E q (shells.getD a d) (shells.getD b d))
  have hlen : ∀ q, ((![M0 0, M0 1, M0 2, M0 3] : Fin 4 → List ℝ) q).length = (M q).length := by
    intro q; rw [vec4_apply]; exact (s0 q).1
  obtain ⟨M', e, -, a⟩ := added_list (κ := Fin 4) (dim := dimOf shells)
    (body := fun M ipair => driverIteration K shells atoms grpps (dimOf shells) offsets pairs (bufs ipair) ipair M)
    (fun M => ∀ q, dimOf shells * dimOf shells ≤ (M q).length) (fun q M => M q) (fun q ip => D q (ip / n) (ip % n)) (order (n * n))
    ![M0 0, M0 1, M0 2, M0 3] (fun q => by rw [hlen q]; exact hM q) (by
      intro ip hip M hM
      have hip : ip < n * n := List.mem_range.1 ((hord _).mem_iff.1 hip)
      have hn0 : 0 < n := Nat.pos_of_ne_zero fun h => by simp [h] at hip
      have hi : ip / n < shells.length := Nat.div_lt_of_lt_mul hip
      have hj : ip % n < shells.length := Nat.mod_lt _ hn0
      obtain ⟨M', e, a⟩ := driverIteration_spec hW hz hd hsize ho hi hj (hp ip hip).1 (hp ip hip).2 (hbuf ip) M hM
      refine ⟨M', e, fun q => by rw [(a q).len]; exact hM q, fun q => ?_⟩
      have g : ∀ a, (h : a < shells.length) → shells.getD a d = shells[a] := fun a h => by simp [List.getD, h]
      simp only [D, E, g _ hi, g _ hj]
      exact a q)
  have key : ∀ q, Added (dimOf shells) (fun p p' => ∑ a ∈ Finset.range n, ∑ b ∈ Finset.range n, D q a b p p') (M0 q) (M' q) := by
    intro q
    have := (a q).congr (E := fun p p' => ∑ a ∈ Finset.range n, ∑ b ∈ Finset.range n, D q a b p p') fun p p' _ _ => by
      rw [← sum_pairs n n fun a b => D q a b p p', ((hord (n * n)).map _).sum_eq]
      rfl
    rwa [vec4_apply] at this
  refine ⟨M', ?_, fun q => ⟨⟨(key q).len.trans (s0 q).1, fun p hp => ((key q).same p hp).trans ((s0 q).2 p hp)⟩, fun i j m n hi hj hm hn => ?_⟩⟩
  · unfold evalGrpp
    rw [basisDim_eq, Outcome.ok_bind, e0, Outcome.ok_bind, e0, Outcome.ok_bind, e0, Outcome.ok_bind, e0, Outcome.ok_bind, eo, Outcome.ok_bind, ep,
      Outcome.ok_bind]
    exact e
  · rw [added_elements (E := E q) (key q) hi hj hm hn, z0 q _ (row_lt _ _)]
    · simp [E]
    · have := shellOff_add_le shells i hi; omega
    · have := shellOff_add_le shells j hj; omega

/-! ## Components -/

theorem basisComps_get (shells : List Shell) : ∀ {i m : Nat} (hi : i < shells.length), m < shells[i].cart_size →
    (basisComps shells)[shellOff shells i + m]? = some (shells[i], m) := by
  induction shells with
  | nil => intro i m hi; simp at hi
  | cons s shells ih =>
    intro i m hi hm
    unfold basisComps
    rw [List.flatMap_cons]
    cases i with
    | zero =>
      simp only [shellOff, List.take_zero, List.map_nil, List.sum_nil, Nat.zero_add, List.getElem_cons_zero] at hm ⊢
      rw [List.getElem?_append_left (by simpa using hm)]
      simp [List.getElem?_range hm]
    | succ i =>
      have hi' : i < shells.length := by simpa using hi
      have : shellOff (s :: shells) (i + 1) = s.cart_size + shellOff shells i := by simp [shellOff]
      rw [this, List.getElem?_append_right (by simp; omega)]
      simp only [List.length_map, List.length_range, List.getElem_cons_succ]
      rw [show s.cart_size + shellOff shells i + m - s.cart_size = shellOff shells i + m by omega]
      exact ih hi' (by simpa using hm)

theorem basisComps_length (shells : List Shell) : (basisComps shells).length = dimOf shells := by
  simp [basisComps, dimOf, List.length_flatMap]

theorem basisComps_pairs {shells : List Shell} {P : Nat → Nat → Shell × Nat → Shell × Nat → Prop}
    (h : ∀ i j m n, (hi : i < shells.length) → (hj : j < shells.length) → m < shells[i].cart_size → n < shells[j].cart_size →
      P (shellOff shells i + m) (shellOff shells j + n) (shells[i], m) (shells[j], n)) :
    ∀ p q f g, (basisComps shells)[p]? = some f → (basisComps shells)[q]? = some g → P p q f g := by
  intro p q f g hf hg
  have hp : p < dimOf shells := by rw [← basisComps_length]; exact (List.getElem?_eq_some_iff.1 hf).1
  have hq : q < dimOf shells := by rw [← basisComps_length]; exact (List.getElem?_eq_some_iff.1 hg).1
  obtain ⟨i, hi, h1, h2⟩ := shellOff_locate shells p hp
  obtain ⟨j, hj, h3, h4⟩ := shellOff_locate shells q hq
  have e1 : p = shellOff shells i + (p - shellOff shells i) := by omega
  have e2 : q = shellOff shells j + (q - shellOff shells j) := by omega
  have m1 : p - shellOff shells i < shells[i].cart_size := by omega
  have m2 : q - shellOff shells j < shells[j].cart_size := by omega
  have f1 := basisComps_get shells hi m1
  have g1 := basisComps_get shells hj m2
  rw [← e1, hf] at f1
  rw [← e2, hg] at g1
  have := h i j _ _ hi hj m1 m2
  rw [← e1, ← e2, ← Option.some.inj f1, ← Option.some.inj g1] at this
  exact this

end Libgrpp
