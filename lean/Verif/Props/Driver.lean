import Verif.Lemmas.Driver
import Verif.Props.OneElectron
import Verif.Props.OverlapGradient

/-! # C97: molecular matrices of one-electron operators in the driver program

`basisFns shells` (file `Verif/Model/Driver.lean`) is the list of all basis functions of a molecule. -/

namespace Libgrpp

open MeasureTheory

/-! ## C97 -/

/-- What C97 asks of the matrix `M'` made from the array `M`: the element of the functions `f`, `g` is `op f g`; the rest of
the array is as before. -/
def IsMatrixOf (shells : List Shell) (op : (Point → ℝ) → (Point → ℝ) → ℝ) (M M' : List ℝ) : Prop :=
  M'.length = M.length ∧
  (∀ p q f g, (basisFns shells)[p]? = some f → (basisFns shells)[q]? = some g →
    M'[p * (basisFns shells).length + q]? = some (op f g)) ∧
  ∀ r, (basisFns shells).length * (basisFns shells).length ≤ r → M'[r]? = M[r]?

theorem isMatrixOf_of {shells : List Shell} {op : (Point → ℝ) → (Point → ℝ) → ℝ} {M M' : List ℝ}
    (hs : SameBeyond (dimOf shells * dimOf shells) M' M)
    (h : ∀ i j m n, (hi : i < shells.length) → (hj : j < shells.length) → m < shells[i].cart_size → n < shells[j].cart_size →
        M'[(shellOff shells i + m) * dimOf shells + (shellOff shells j + n)]? =
          some (op (basisFn shells[i] m) (basisFn shells[j] n))) : IsMatrixOf shells op M M' := by
  refine ⟨hs.1, ?_, by rw [basisFns_length]; exact hs.2⟩
  rw [basisFns_length]
  exact basisFns_pairs (P := fun p q f g => M'[p * dimOf shells + q]? = some (op f g)) h

/-- **C97** (overlap). For all lists of shells within the library's limits the driver fills the matrix with the overlap
integrals of all pairs of basis functions. -/
theorem molecular_overlap {gen : Nat → List Comp} (ho : DocumentedOrder gen) (shells : List Shell)
    (hs : ∀ s ∈ shells, s.InMolecule gen) (hd : (basisFns shells).length * (basisFns shells).length ≤ 2147483648)
    (buf M : List ℝ) (hb : maxBuf ≤ buf.length) (hM : (basisFns shells).length * (basisFns shells).length ≤ M.length) :
    ∃ M', evalOverlap shells buf M = .ok M' ∧ IsMatrixOf shells (fun f g => ∫ r, f r * g r) M M' := by
  rw [basisFns_length] at hd hM
  obtain ⟨M', e, h1, h2⟩ := evalMatrix_spec (run := overlapIntegrals) (E := fun A B m n => ∫ r, basisFn A m r * basisFn B n r)
    (gen := gen) (fun A B hA hB buf hl => by
      obtain ⟨out, e, l, v, -⟩ := overlap_true A B hA.made.wf hB.made.wf (hA.made.listed ho) (hB.made.listed ho) hA.made.pos
        hB.made.pos hA.L9 hB.L9 buf hl
      exact ⟨out, e, l, v⟩) shells hs hd buf M hb hM
  exact ⟨M', e, isMatrixOf_of h1 h2⟩

/-- **C97** (kinetic energy). -/
theorem molecular_kinetic {gen : Nat → List Comp} (ho : DocumentedOrder gen) (shells : List Shell)
    (hs : ∀ s ∈ shells, s.InMolecule gen) (hd : (basisFns shells).length * (basisFns shells).length ≤ 2147483648)
    (buf M : List ℝ) (hb : maxBuf ≤ buf.length) (hM : (basisFns shells).length * (basisFns shells).length ≤ M.length) :
    ∃ M', evalKinetic shells buf M = .ok M' ∧ IsMatrixOf shells (fun f g => ∫ r, f r * (-(1 / 2) * laplacian g r)) M M' := by
  rw [basisFns_length] at hd hM
  obtain ⟨M', e, h1, h2⟩ := evalMatrix_spec (run := kineticIntegrals)
    (E := fun A B m n => ∫ r, basisFn A m r * (-(1 / 2) * laplacian (basisFn B n) r))
    (gen := gen) (fun A B hA hB buf hl => by
      obtain ⟨out, e, l, v, -⟩ := kinetic_true A B hA.made.wf hB.made.wf (hA.made.listed ho) (hB.made.listed ho) hA.made.pos
        hB.made.pos hA.L9 hB.L9 buf hl
      exact ⟨out, e, l, v⟩) shells hs hd buf M hb hM
  exact ⟨M', e, isMatrixOf_of h1 h2⟩

/-- **C97** (momentum). The three matrices hold the imaginary parts of `⟨f| -i ∂_k |g⟩`. -/
theorem molecular_momentum {gen : Nat → List Comp} (ho : DocumentedOrder gen) (shells : List Shell)
    (hs : ∀ s ∈ shells, s.InMolecule gen) (hd : (basisFns shells).length * (basisFns shells).length ≤ 2147483648)
    (buf M : Fin 3 → List ℝ) (hb : ∀ k, maxBuf ≤ (buf k).length)
    (hM : ∀ k, (basisFns shells).length * (basisFns shells).length ≤ (M k).length) :
    ∃ M', evalMomentum shells buf M = .ok M' ∧
      ∀ k, IsMatrixOf shells (fun f g => (∫ r, (f r : ℂ) * (-Complex.I * (pderiv k g r : ℂ))).im) (M k) (M' k) := by
  rw [basisFns_length] at hd hM
  let E : Fin 3 → Shell → Shell → Nat → Nat → ℝ := fun k A B m n =>
    (∫ r, (basisFn A m r : ℂ) * (-Complex.I * (pderiv k (basisFn B n) r : ℂ))).im
  choose M0 e0 z0 s0 using fun k => memset0_spec (dimOf shells * dimOf shells) (M k) (hM k)
  have hM0 : ∀ k, (![M0 0, M0 1, M0 2] : Fin 3 → List ℝ) k = M0 k := by intro k; fin_cases k <;> rfl
  obtain ⟨r, e, -, a⟩ := forShellPairs_spec (κ := Fin 3) shells ⟨0, fun _ => 0, 0, [], 0, [], []⟩
    (body := fun io jo bra ket (st : (Fin 3 → List ℝ) × (Fin 3 → List ℝ)) => do
      let bx ← momentumIntegrals 0 bra ket (st.1 0)
      let by_ ← momentumIntegrals 1 bra ket (st.1 1)
      let bz ← momentumIntegrals 2 bra ket (st.1 2)
      let mx ← addBlock (dimOf shells) (st.2 0) bra.cart_size ket.cart_size bx io jo 1
      let my ← addBlock (dimOf shells) (st.2 1) bra.cart_size ket.cart_size by_ io jo 1
      let mz ← addBlock (dimOf shells) (st.2 2) bra.cart_size ket.cart_size bz io jo 1
      Outcome.ok ((![bx, by_, bz] : Fin 3 → List ℝ), (![mx, my, mz] : Fin 3 → List ℝ)))
    (fun st => ∀ k, maxBuf ≤ (st.1 k).length ∧ dimOf shells * dimOf shells ≤ (st.2 k).length) (fun k st => st.2 k) E
    (buf, ![M0 0, M0 1, M0 2]) (fun k => ⟨hb k, by
      simp only [hM0, (s0 k).1]; exact hM k⟩) (by
      rintro A hA B hB io jo ⟨buf, m⟩ h1 h2 hI
      have key : ∀ k, ∃ out m', momentumIntegrals k A B (buf k) = .ok out ∧ out.length = (buf k).length ∧
          addBlock (dimOf shells) (m k) A.cart_size B.cart_size out io jo 1 = .ok m' ∧
          Added (dimOf shells) (blockAt io jo A.cart_size B.cart_size (E k A B)) (m k) m' := by
        intro k
        obtain ⟨out, e, l, v, -⟩ := momentum_true k A B (hs A hA).made.wf (hs B hB).made.wf ((hs A hA).made.listed ho)
          ((hs B hB).made.listed ho) (hs A hA).made.pos (hs B hB).made.pos (hs A hA).L9 (hs B hB).L9 (buf k)
          (block_fits (hs A hA) (hs B hB) (hI k).1)
        obtain ⟨m', e2, a2⟩ := addBlock_spec hd h1 h2 (block := out) (g := E k A B) v 1 (m k) (hI k).2
        exact ⟨out, m', e, l, e2, by simpa using a2⟩
      choose out m' k1 k2 k3 k4 using key
      have fo : ∀ k, (![out 0, out 1, out 2] : Fin 3 → List ℝ) k = out k := by intro k; fin_cases k <;> rfl
      have fm : ∀ k, (![m' 0, m' 1, m' 2] : Fin 3 → List ℝ) k = m' k := by intro k; fin_cases k <;> rfl
      refine ⟨(![out 0, out 1, out 2], ![m' 0, m' 1, m' 2]), ?_, fun k => ⟨?_, ?_⟩, fun k => ?_⟩
      · simp only [k1, Outcome.ok_bind, k3]
      · simp only [fo, k2 k]; exact (hI k).1
      · simp only [fm, (k4 k).len]; exact (hI k).2
      · simp only [fm]; exact k4 k)
  refine ⟨r.2, ?_, fun k => isMatrixOf_of ⟨?_, fun p hp => ?_⟩ fun i j m n hi hj hm hn => ?_⟩
  · unfold evalMomentum
    rw [basisDim_eq, Outcome.ok_bind, e0, Outcome.ok_bind, e0, Outcome.ok_bind, e0, Outcome.ok_bind, e]
    rfl
  · rw [(a k).len]
    show (![M0 0, M0 1, M0 2] k).length = _
    rw [hM0, (s0 k).1]
  · rw [(a k).same p hp]
    show (![M0 0, M0 1, M0 2] k)[p]? = _
    rw [hM0, (s0 k).2 p hp]
  · rw [added_elements (a k) hi hj hm hn]
    show Option.map _ (![M0 0, M0 1, M0 2] k)[_]? = _
    rw [hM0, z0 k _ (row_lt _ _)]
    · simp [E]
    · have := shellOff_add_le shells i hi; omega
    · have := shellOff_add_le shells j hj; omega

/-- Symmetric, and the quadratic form is nonnegative. -/
def SymmetricNonneg (n : Nat) (M : List ℝ) : Prop :=
  (∀ p q, p < n → q < n → M[p * n + q]? = M[q * n + p]?) ∧
  ∀ x : Nat → ℝ, 0 ≤ ∑ p ∈ Finset.range n, ∑ q ∈ Finset.range n, x p * x q * M.getD (p * n + q) 0

theorem isMatrixOf_get {shells : List Shell} {op : (Point → ℝ) → (Point → ℝ) → ℝ} {M M' : List ℝ} (h : IsMatrixOf shells op M M')
    {p q : Nat} (hp : p < (basisFns shells).length) (hq : q < (basisFns shells).length) :
    M'[p * (basisFns shells).length + q]? = some (op ((basisFns shells).getD p fun _ => 0) ((basisFns shells).getD q fun _ => 0)) := by
  rw [h.2.1 p q _ _ (List.getElem?_eq_getElem hp) (List.getElem?_eq_getElem hq)]
  simp [List.getD, hp, hq]

/-- **C97.** The overlap matrix of the driver is symmetric and positive semidefinite. -/
theorem molecular_overlap_nonneg {gen : Nat → List Comp} (shells : List Shell) (hs : ∀ s ∈ shells, s.InMolecule gen) (M M' : List ℝ)
    (h : IsMatrixOf shells (fun f g => ∫ r, f r * g r) M M') : SymmetricNonneg (basisFns shells).length M' := by
  have hi : ∀ (p q : Nat) (f g : Point → ℝ), (basisFns shells)[p]? = some f → (basisFns shells)[q]? = some g → Integrable fun r => f r * g r :=
    basisFns_pairs (P := fun _ _ f g => Integrable fun r => f r * g r) fun i j m n hi hj _ _ =>
      (one_electron_integrable 0 shells[i] shells[j] (hs _ (List.getElem_mem hi)).made.pos (hs _ (List.getElem_mem hj)).made.pos m n).1
  refine ⟨fun p q hp hq => ?_, fun x => ?_⟩
  · rw [isMatrixOf_get h hp hq, isMatrixOf_get h hq hp]
    simp only [mul_comm]
  · refine (quad_form_nonneg (n := (basisFns shells).length) (fun p => (basisFns shells).getD p fun _ => 0) (fun p q hp hq => ?_) x).trans_eq ?_
    · refine hi p q _ _ ?_ ?_ <;> simp [List.getD, hp, hq]
    · refine Finset.sum_congr rfl fun p hp => Finset.sum_congr rfl fun q hq => ?_
      have := isMatrixOf_get h (Finset.mem_range.1 hp) (Finset.mem_range.1 hq)
      rw [List.getD_eq_getElem?_getD (l := M'), this]
      rfl

/-- **C97.** The kinetic-energy matrix of the driver is symmetric and positive semidefinite: no combination of basis functions has a
negative kinetic energy. -/
theorem molecular_kinetic_nonneg {gen : Nat → List Comp} (shells : List Shell) (hs : ∀ s ∈ shells, s.InMolecule gen) (M M' : List ℝ)
    (h : IsMatrixOf shells (fun f g => ∫ r, f r * (-(1 / 2) * laplacian g r)) M M') :
    SymmetricNonneg (basisFns shells).length M' := by
  have hg : ∀ (p q : Nat) (f g : Point → ℝ), (basisFns shells)[p]? = some f → (basisFns shells)[q]? = some g →
      (∀ k, Integrable fun r => pderiv k f r * pderiv k g r) ∧
      ∫ r, f r * (-(1 / 2) * laplacian g r) = 1 / 2 * ∑ k, ∫ r, pderiv k f r * pderiv k g r := by
    refine basisFns_pairs (P := fun _ _ f g => (∀ k, Integrable fun r => pderiv k f r * pderiv k g r) ∧
      ∫ r, f r * (-(1 / 2) * laplacian g r) = 1 / 2 * ∑ k, ∫ r, pderiv k f r * pderiv k g r) fun i j m n hi hj _ _ => ?_
    have pA := (hs _ (List.getElem_mem hi)).made.pos
    have pB := (hs _ (List.getElem_mem hj)).made.pos
    refine ⟨fun k => (integral_gradients k _ _ pA pB m n).1, ?_⟩
    have e : ∀ r, basisFn shells[i] m r * (-(1 / 2) * laplacian (basisFn shells[j] n) r) =
        -(1 / 2) * (basisFn shells[i] m r * laplacian (basisFn shells[j] n) r) := by intro r; ring
    simp only [e]
    rw [integral_const_mul, integral_laplacian _ _ pA pB]
    simp only [(integral_gradients _ _ _ pA pB m n).2, Finset.sum_neg_distrib]
    ring
  have f0 : ∀ p : Nat, p < (basisFns shells).length → (basisFns shells)[p]? = some ((basisFns shells).getD p fun _ => 0) := by
    intro p hp
    simp [List.getD, hp]
  refine ⟨fun p q hp hq => ?_, fun x => ?_⟩
  · rw [isMatrixOf_get h hp hq, isMatrixOf_get h hq hp, (hg p q _ _ (f0 p hp) (f0 q hq)).2, (hg q p _ _ (f0 q hq) (f0 p hp)).2]
    simp only [mul_comm (pderiv _ ((basisFns shells).getD p _) _)]
  · have e : ∑ p ∈ Finset.range (basisFns shells).length, ∑ q ∈ Finset.range (basisFns shells).length,
        x p * x q * M'.getD (p * (basisFns shells).length + q) 0 =
        1 / 2 * ∑ k, ∑ p ∈ Finset.range (basisFns shells).length, ∑ q ∈ Finset.range (basisFns shells).length,
          x p * x q * ∫ r, pderiv k ((basisFns shells).getD p fun _ => 0) r * pderiv k ((basisFns shells).getD q fun _ => 0) r := by
      rw [Finset.sum_comm' (s := Finset.univ) (t' := Finset.range (basisFns shells).length) (s' := fun _ => Finset.univ)
        (by simp), Finset.mul_sum]
      refine Finset.sum_congr rfl fun p hp => ?_
      rw [Finset.sum_comm, Finset.mul_sum]
      refine Finset.sum_congr rfl fun q hq => ?_
      have hp' := Finset.mem_range.1 hp
      have hq' := Finset.mem_range.1 hq
      rw [List.getD_eq_getElem?_getD (l := M'), isMatrixOf_get h hp' hq', Option.getD_some, (hg p q _ _ (f0 p hp') (f0 q hq')).2,
        ← Finset.mul_sum]
      ring
    rw [e]
    refine mul_nonneg (by norm_num) (Finset.sum_nonneg fun k _ => ?_)
    exact quad_form_nonneg (n := (basisFns shells).length) (fun p => pderiv k ((basisFns shells).getD p fun _ => 0))
      (fun p q hp hq => (hg p q _ _ (f0 p hp) (f0 q hq)).1 k) x

/-- **C97.** The momentum matrices of the driver are antisymmetric, so the lower triangle which the program prints determines them. -/
theorem molecular_momentum_antisymmetric {gen : Nat → List Comp} (shells : List Shell) (hs : ∀ s ∈ shells, s.InMolecule gen) (k : Fin 3)
    (M M' : List ℝ) (h : IsMatrixOf shells (fun f g => (∫ r, (f r : ℂ) * (-Complex.I * (pderiv k g r : ℂ))).im) M M') :
    ∀ p q, p < (basisFns shells).length → q < (basisFns shells).length →
      ∃ v, M'[p * (basisFns shells).length + q]? = some v ∧ M'[q * (basisFns shells).length + p]? = some (-v) := by
  have e : ∀ (f g : Point → ℝ), (∫ r, (f r : ℂ) * (-Complex.I * (g r : ℂ))).im = -∫ r, f r * g r := by
    intro f g
    have : ∀ r, (f r : ℂ) * (-Complex.I * (g r : ℂ)) = -Complex.I * ((f r * g r : ℝ) : ℂ) := by
      intro r; push_cast; ring
    simp only [this]
    rw [integral_const_mul, integral_complex_ofReal]
    simp
  have ha : ∀ (p q : Nat) (f g : Point → ℝ), (basisFns shells)[p]? = some f → (basisFns shells)[q]? = some g →
      ∫ r, g r * pderiv k f r = -∫ r, f r * pderiv k g r := by
    refine basisFns_pairs (P := fun _ _ f g => ∫ r, g r * pderiv k f r = -∫ r, f r * pderiv k g r) fun i j m n hi hj _ _ => ?_
    have pA := (hs _ (List.getElem_mem hi)).made.pos
    have pB := (hs _ (List.getElem_mem hj)).made.pos
    exact integral_antisymm k _ _ pA pB m n
  intro p q hp hq
  refine ⟨_, isMatrixOf_get h hp hq, ?_⟩
  rw [isMatrixOf_get h hq hp, e, e, ha p q _ _ (by simp [List.getD, hp]) (by simp [List.getD, hq])]

/-- **C97** (negative part). From 46341 basis functions on, the index of the last element of the matrix is no `int`: undefined behaviour, for all lists
of shells, whatever the arrays. -/
theorem molecular_overlap_overflow {gen : Nat → List Comp} (ho : DocumentedOrder gen) (shells : List Shell)
    (hs : ∀ s ∈ shells, s.InMolecule gen) (hd : 46341 ≤ (basisFns shells).length) (buf M : List ℝ) (hb : maxBuf ≤ buf.length)
    (hM : (basisFns shells).length * (basisFns shells).length ≤ M.length) : evalOverlap shells buf M = .ub := by
  rw [basisFns_length] at hd hM
  have : 46341 * 46341 ≤ dimOf shells * dimOf shells := Nat.mul_le_mul hd hd
  refine evalMatrix_overflow (run := overlapIntegrals) (E := fun A B m n => ∫ r, basisFn A m r * basisFn B n r)
    (gen := gen) (fun A B hA hB buf hl => ?_) shells hs (by unfold intMax; omega) buf M hb hM
  obtain ⟨out, e, l, v, -⟩ := overlap_true A B hA.made.wf hB.made.wf (hA.made.listed ho) (hB.made.listed ho) hA.made.pos
    hB.made.pos hA.L9 hB.L9 buf hl
  exact ⟨out, e, l, v⟩

/-- **C97** (negative part), kinetic energy. -/
theorem molecular_kinetic_overflow {gen : Nat → List Comp} (ho : DocumentedOrder gen) (shells : List Shell)
    (hs : ∀ s ∈ shells, s.InMolecule gen) (hd : 46341 ≤ (basisFns shells).length) (buf M : List ℝ) (hb : maxBuf ≤ buf.length)
    (hM : (basisFns shells).length * (basisFns shells).length ≤ M.length) : evalKinetic shells buf M = .ub := by
  rw [basisFns_length] at hd hM
  have : 46341 * 46341 ≤ dimOf shells * dimOf shells := Nat.mul_le_mul hd hd
  refine evalMatrix_overflow (run := kineticIntegrals) (E := fun A B m n => ∫ r, basisFn A m r * (-(1 / 2) * laplacian (basisFn B n) r))
    (gen := gen) (fun A B hA hB buf hl => ?_) shells hs (by unfold intMax; omega) buf M hb hM
  obtain ⟨out, e, l, v, -⟩ := kinetic_true A B hA.made.wf hB.made.wf (hA.made.listed ho) (hB.made.listed ho) hA.made.pos
    hB.made.pos hA.L9 hB.L9 buf hl
  exact ⟨out, e, l, v⟩

example (M : List ℝ) (hM : M.length = 46341 * 46341) :
    evalOverlap (List.replicate 15447 exampleShell) (List.replicate maxBuf 0) M = .ub := by
  have hl : (basisFns (List.replicate 15447 exampleShell)).length = 46341 := by
    rw [basisFns_length, dimOf, List.map_replicate, List.sum_replicate]
    simp [exampleShell]
  exact molecular_overlap_overflow (gen := cartesianDirac) (Or.inl rfl) _
    (fun s hs => by rw [List.eq_of_mem_replicate hs]; exact ⟨exampleShell_made, by simp [exampleShell]⟩) hl.ge _ M
    (by rw [List.length_replicate]) (by rw [hl, hM])

/-! ## Non-vacuity -/

/-- Two p shells in a molecule. -/
example : ∃ M', evalOverlap [exampleShell, exampleShell] (List.replicate 10000 5) (List.replicate 36 7) = .ok M' ∧ M'.length = 36 := by
  have hin : exampleShell.InMolecule cartesianDirac := ⟨exampleShell_made, by simp [exampleShell]⟩
  have hl : (basisFns [exampleShell, exampleShell]).length = 6 := by
    rw [basisFns_length]; simp [dimOf, exampleShell]
  obtain ⟨M', e, h⟩ := molecular_overlap (gen := cartesianDirac) (Or.inl rfl) [exampleShell, exampleShell]
    (by intro s hs; simp at hs; rw [hs]; exact hin) (by rw [hl]; norm_num) (List.replicate 10000 5) (List.replicate 36 7)
    (by rw [List.length_replicate]; exact le_rfl) (by rw [hl, List.length_replicate])
  exact ⟨M', e, by rw [h.1, List.length_replicate]⟩

end Libgrpp
