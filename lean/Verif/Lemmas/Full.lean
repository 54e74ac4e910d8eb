import Verif.Model.Full
import Verif.Lemmas.OneElectron
import Verif.Props.Utils

/-! Accumulation in the full GRPP routine. -/

namespace Libgrpp

/-- A buffer of `size` elements with the values `f`. -/
def BufIs (size : Nat) (l : List ℝ) (f : Nat → ℝ) : Prop := l.length = size ∧ ∀ p < size, l[p]? = some (f p)

/-- State of the routine: buffers have the right size, matrix `q` contains `f q`, nothing beyond was changed. -/
structure FullInv (size : Nat) (M : Fin 4 → List ℝ) (st : FullState) (f : Fin 4 → Nat → ℝ) : Prop where
  buf : ∀ q, (st.buf q).length = size
  len : ∀ q, (st.out q).length = (M q).length
  val : ∀ q p, p < size → (st.out q)[p]? = some (f q p)
  beyond : ∀ q p, size ≤ p → (st.out q)[p]? = (M q)[p]?

theorem FullInv.congr {size : Nat} {M : Fin 4 → List ℝ} {st : FullState} {f f' : Fin 4 → Nat → ℝ}
    (h : FullInv size M st f) (e : ∀ q p, p < size → f q p = f' q p) : FullInv size M st f' :=
  ⟨h.buf, h.len, fun q p hp => by rw [h.val q p hp, e q p hp], h.beyond⟩

theorem axpy_inv {size : Nat} {M : Fin 4 → List ℝ} (hM : ∀ q, size ≤ (M q).length) {st : FullState}
    {f : Fin 4 → Nat → ℝ} (h : FullInv size M st f) (w : ℝ) (q : Fin 4) {b : Nat → ℝ} (hb : BufIs size (st.buf q) b) :
    ∃ st', st.axpy size w q = .ok st' ∧ st'.buf = st.buf ∧
      FullInv size M st' (Function.update f q fun p => f q p + w * b p) := by
  have hl : size ≤ (st.out q).length := by rw [h.len q]; exact hM q
  obtain ⟨y, e, l, v, u⟩ := daxpy_correct size w (st.buf q) (st.out q) (by rw [h.buf q]) hl
  refine ⟨{ st with out := Function.update st.out q y }, ?_, rfl, ⟨h.buf, fun q' => ?_, fun q' p hp => ?_, fun q' p hp => ?_⟩⟩
  · unfold FullState.axpy
    rw [e, Outcome.ok_bind]
  · by_cases hq : q' = q
    · subst hq; simp only [Function.update_self]; rw [l, h.len]
    · simp only [Function.update_of_ne hq]; exact h.len q'
  · by_cases hq : q' = q
    · subst hq
      simp only [Function.update_self]
      rw [v p hp]
      have h1 := h.val q' p hp
      have h2 := hb.2 p hp
      rw [List.getElem?_eq_getElem (by omega)] at h1
      rw [List.getElem?_eq_getElem (by rw [h.buf]; exact hp)] at h2
      rw [Option.some.inj h1, Option.some.inj h2]
    · simp only [Function.update_of_ne hq]; exact h.val q' p hp
  · by_cases hq : q' = q
    · subst hq; simp only [Function.update_self]; rw [u p hp, h.beyond q' p hp]
    · simp only [Function.update_of_ne hq]; exact h.beyond q' p hp

end Libgrpp
