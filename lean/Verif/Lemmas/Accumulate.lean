import Verif.Model.Gradient
import Verif.Lemmas.OneElectron
import Mathlib.Algebra.BigOperators.Group.Finset.Basic
import Mathlib.Algebra.BigOperators.Group.Finset.Piecewise

/-! Loops that accumulate into a family of arrays. -/

namespace Libgrpp

variable {ι : Type} [DecidableEq ι]

/-- `G'` is `G` with `δ k p` added to element `p` of array `k`. -/
def AddsTo (G G' : ι → List ℝ) (δ : ι → Nat → ℝ) : Prop :=
  ∀ k, (G' k).length = (G k).length ∧ ∀ p x, (G k)[p]? = some x → (G' k)[p]? = some (x + δ k p)

omit [DecidableEq ι] in
theorem AddsTo.refl (G : ι → List ℝ) : AddsTo G G 0 := fun k => ⟨rfl, fun p x h => by simp [h]⟩

omit [DecidableEq ι] in
theorem AddsTo.trans {G G' G'' : ι → List ℝ} {δ δ' : ι → Nat → ℝ} (h : AddsTo G G' δ) (h' : AddsTo G' G'' δ') :
    AddsTo G G'' (δ + δ') := fun k => ⟨(h' k).1.trans (h k).1, fun p x hx => by
  rw [(h' k).2 p _ ((h k).2 p x hx)]; simp only [Pi.add_apply, add_assoc]⟩

omit [DecidableEq ι] in
theorem AddsTo.congr {G G' : ι → List ℝ} {δ δ' : ι → Nat → ℝ} (h : AddsTo G G' δ) (e : δ = δ') : AddsTo G G' δ' := e ▸ h

/-- A single update. -/
def single (k : ι) (p : Nat) (v : ℝ) : ι → Nat → ℝ := fun k' p' => if k' = k ∧ p' = p then v else 0

theorem gadd_ok (G : ι → List ℝ) (k : ι) (p : Nat) (v : ℝ) (h : p < (G k).length) :
    ∃ G', gadd G k p v = .ok G' ∧ AddsTo G G' (single k p v) := by
  unfold gadd
  rw [rd_ok h]
  simp only [Outcome.ok_bind, wr_ok _ h]
  refine ⟨_, rfl, fun k' => ⟨?_, fun p' x hx => ?_⟩⟩
  · by_cases hk : k' = k
    · subst hk; simp
    · rw [Function.update_of_ne hk]
  · by_cases hk : k' = k
    · subst hk
      rw [Function.update_self]
      by_cases hp : p' = p
      · subst hp
        rw [List.getElem?_set_self h]
        rw [List.getElem?_eq_getElem h] at hx
        rw [Option.some.inj hx]
        simp [single]
      · rw [List.getElem?_set_ne (by omega), hx]
        simp [single, hp]
    · rw [Function.update_of_ne hk, hx]
      simp [single, hk]

omit [DecidableEq ι] in
/-- A loop whose iterations each accumulate, for an arbitrary way `R` of viewing the state. -/
theorem forRange_adds {τ : Type} {R : τ → τ → (ι → Nat → ℝ) → Prop} (hrefl : ∀ s, R s s 0)
    (htrans : ∀ {s t u δ δ'}, R s t δ → R t u δ' → R s u (δ + δ')) {n : Nat} {s : τ} {body : Nat → τ → Outcome τ}
    (δ : Nat → ι → Nat → ℝ) (P : τ → Prop) (hP : ∀ {s t δ}, P s → R s t δ → P t) (h0 : P s)
    (hstep : ∀ i s, i < n → P s → ∃ s', body i s = .ok s' ∧ R s s' (δ i)) :
    ∃ s', forRange n s body = .ok s' ∧ R s s' (∑ i ∈ Finset.range n, δ i) := by
  refine forRange_spec (fun k t => R s t (∑ i ∈ Finset.range k, δ i)) (by simpa using hrefl s) ?_ fun _ h => h
  intro i t hi ht
  obtain ⟨t', e, h⟩ := hstep i t hi (hP h0 ht)
  exact ⟨t', e, by rw [Finset.sum_range_succ]; exact htrans ht h⟩

omit [DecidableEq ι] in
/-- The same for the loop over the three coordinates. -/
theorem forCoord_adds {τ : Type} {R : τ → τ → (ι → Nat → ℝ) → Prop}
    (htrans : ∀ {s t u δ δ'}, R s t δ → R t u δ' → R s u (δ + δ')) {s : τ} {body : Fin 3 → τ → Outcome τ}
    (δ : Fin 3 → ι → Nat → ℝ) (P : τ → Prop) (hP : ∀ {s t δ}, P s → R s t δ → P t) (h0 : P s)
    (hstep : ∀ k s, P s → ∃ s', body k s = .ok s' ∧ R s s' (δ k)) :
    ∃ s', forCoord s body = .ok s' ∧ R s s' (∑ k, δ k) := by
  obtain ⟨s1, e1, h1⟩ := hstep 0 s h0
  have p1 := hP h0 h1
  obtain ⟨s2, e2, h2⟩ := hstep 1 s1 p1
  have p2 := hP p1 h2
  obtain ⟨s3, e3, h3⟩ := hstep 2 s2 p2
  refine ⟨s3, ?_, ?_⟩
  · unfold forCoord
    rw [e1, Outcome.ok_bind, e2, Outcome.ok_bind, e3]
  · rw [Fin.sum_univ_three]
    exact htrans (htrans h1 h2) h3

/-- Sum of the updates made by the loops over coordinates and component pairs. -/
theorem sum_single (M N : Nat) (T : Fin 3 → Nat → Nat → ℝ) (k : Fin 3) (i j : Nat) (hi : i < M) (hj : j < N) :
    (∑ k' : Fin 3, ∑ i' ∈ Finset.range M, ∑ j' ∈ Finset.range N, single k' (i' * N + j') (T k' i' j'))
      k (i * N + j) = T k i j := by
  simp only [Finset.sum_apply]
  rw [Finset.sum_eq_single k, Finset.sum_eq_single i, Finset.sum_eq_single j]
  · simp [single]
  · intro j' hj' hne
    simp [single, hne.symm]
  · intro h; exact absurd (Finset.mem_range.mpr hj) h
  · intro i' hi' hne
    refine Finset.sum_eq_zero fun j' hj' => ?_
    have : ¬ (i * N + j = i' * N + j') := fun e =>
      hne (rowMajor_inj hj (Finset.mem_range.mp hj') e).1.symm
    simp [single, this]
  · intro h; exact absurd (Finset.mem_range.mpr hi) h
  · intro k' _ hne
    refine Finset.sum_eq_zero fun i' _ => Finset.sum_eq_zero fun j' _ => ?_
    simp [single, hne.symm]
  · intro h; exact absurd (Finset.mem_univ k) h

/-- No update beyond the matrix. -/
theorem sum_single_beyond (M N : Nat) (T : Fin 3 → Nat → Nat → ℝ) (k : Fin 3) (p : Nat) (hp : M * N ≤ p) :
    (∑ k' : Fin 3, ∑ i' ∈ Finset.range M, ∑ j' ∈ Finset.range N, single k' (i' * N + j') (T k' i' j')) k p = 0 := by
  simp only [Finset.sum_apply]
  refine Finset.sum_eq_zero fun k' _ => Finset.sum_eq_zero fun i' hi' => Finset.sum_eq_zero fun j' hj' => ?_
  have := rowMajor_lt (Finset.mem_range.mp hi') (Finset.mem_range.mp hj')
  have : ¬ p = i' * N + j' := by omega
  simp [single, this]

end Libgrpp
