import Verif.Lemmas.OneElectronPrim
import Verif.Props.Cartesian
import Verif.Props.Shell

/-! Shells built by the constructor meet the preconditions; bilinear list form of the contraction. -/

namespace Libgrpp

/-- `gen` is one of the two documented component orders. -/
def DocumentedOrder (gen : Nat → List Comp) : Prop := gen = cartesianDirac ∨ gen = cartesianTurbomole

theorem DocumentedOrder.eq {gen : Nat → List Comp} (h : DocumentedOrder gen) : gen = cartesianTurbomole := by
  rcases h with rfl | rfl
  · funext L; exact cartesian_orders_agree L
  · rfl

/-- Shells made by the constructor satisfy the preconditions used below. -/
theorem newShell_listed {gen : Nat → List Comp} (hg : DocumentedOrder gen) {origin : Point} {L num : Nat}
    {coeffs alpha : List ℝ} (hc : num ≤ coeffs.length) (ha : num ≤ alpha.length) {s : Shell}
    (hs : newShell gen origin L num coeffs alpha = .ok s) : s.WF ∧ s.Listed := by
  rw [new_shell_value gen origin L num coeffs alpha hc ha] at hs
  cases hs
  obtain ⟨h1, -, h3⟩ := cartesian_turbomole_complete L
  rw [hg.eq]
  refine ⟨⟨by simpa using hc, by simpa using ha⟩, h1.symm, ?_⟩
  rintro ⟨n, l, m⟩ hm
  have := (h3 n l m).1 hm
  show n ≤ L ∧ l ≤ L ∧ m ≤ L
  omega

theorem sum_range_prims (s : Shell) (hs : s.WF) (f : ℝ → ℝ → ℝ) :
    ∑ i ∈ Finset.range s.num, f (s.coeffAt i) (s.alphaAt i) = (s.prims.map fun p => f p.1 p.2).sum := by
  unfold Shell.prims Shell.coeffAt Shell.alphaAt
  have key : ∀ n, n ≤ s.coeffs.length → n ≤ s.alpha.length →
      ∑ i ∈ Finset.range n, f (s.coeffs.getD i 0) (s.alpha.getD i 0) =
        (((s.coeffs.take n).zip (s.alpha.take n)).map fun p => f p.1 p.2).sum := by
    intro n h1 h2
    induction n with
    | zero => simp
    | succ n ih =>
      rw [Finset.sum_range_succ, ih (by omega) (by omega), ← List.take_concat_get' s.coeffs n (by omega),
        ← List.take_concat_get' s.alpha n (by omega), List.zip_append (by simp; omega)]
      simp [List.getD, List.getElem?_eq_getElem (show n < s.coeffs.length by omega),
        List.getElem?_eq_getElem (show n < s.alpha.length by omega)]
  exact key s.num hs.1 hs.2

/-- Contraction in list form. -/
def bilin (P Q : List (ℝ × ℝ)) (g : ℝ → ℝ → ℝ) : ℝ :=
  (P.map fun p => (Q.map fun q => p.1 * q.1 * g p.2 q.2).sum).sum

theorem contract_list (A B : Shell) (hA : A.WF) (hB : B.WF) (prim : ℝ → ℝ → List ℝ → Outcome (List ℝ))
    (g : ℝ → ℝ → Nat → Nat → ℝ) (out : List ℝ)
    (hprim : ∀ i j buf, i < A.num → j < B.num → A.cart_size * B.cart_size ≤ buf.length →
      ∃ buf', prim (A.alphaAt i) (B.alphaAt j) buf = .ok buf' ∧
        (MatIs A.cart_size B.cart_size buf' (g (A.alphaAt i) (B.alphaAt j)) ∧
          SameBeyond (A.cart_size * B.cart_size) buf' buf))
    (hlen : A.cart_size * B.cart_size ≤ out.length) :
    ∃ out', contract A B prim out = .ok out' ∧
      MatIs A.cart_size B.cart_size out' (fun m n => bilin A.prims B.prims fun a b => g a b m n) ∧
      SameBeyond (A.cart_size * B.cart_size) out' out := by
  obtain ⟨out', h1, h2, h3⟩ := contract_spec A B hA hB prim g out hprim hlen
  refine ⟨out', h1, ?_, h3⟩
  intro m n hm hn
  rw [h2 m n hm hn]
  congr 1
  unfold bilin
  beta_reduce
  rw [← sum_range_prims A hA fun c a => (B.prims.map fun q => c * q.1 * g a q.2 m n).sum]
  refine Finset.sum_congr rfl fun i _ => ?_
  rw [← sum_range_prims B hB fun c b => A.coeffAt i * c * g (A.alphaAt i) b m n]

theorem bilin_append_left (P1 P2 Q : List (ℝ × ℝ)) (g : ℝ → ℝ → ℝ) :
    bilin (P1 ++ P2) Q g = bilin P1 Q g + bilin P2 Q g := by
  simp [bilin]

theorem bilin_append_right (P Q1 Q2 : List (ℝ × ℝ)) (g : ℝ → ℝ → ℝ) :
    bilin P (Q1 ++ Q2) g = bilin P Q1 g + bilin P Q2 g := by
  simp [bilin, List.sum_map_add]

theorem list_sum_map_mul (l : List (ℝ × ℝ)) (t : ℝ) (f : ℝ × ℝ → ℝ) :
    (l.map fun p => t * f p).sum = t * (l.map f).sum := by
  induction l with
  | nil => simp
  | cons a l ih => simp [ih, mul_add]

theorem bilin_scale_left (t : ℝ) (P Q : List (ℝ × ℝ)) (g : ℝ → ℝ → ℝ) :
    bilin (P.map fun p => (t * p.1, p.2)) Q g = t * bilin P Q g := by
  unfold bilin
  rw [List.map_map, ← list_sum_map_mul]
  congr 1
  refine List.map_congr_left fun p _ => ?_
  show (Q.map fun q => t * p.1 * q.1 * g p.2 q.2).sum = _
  rw [← list_sum_map_mul]
  congr 1
  refine List.map_congr_left fun q _ => ?_
  ring

theorem bilin_scale_right (t : ℝ) (P Q : List (ℝ × ℝ)) (g : ℝ → ℝ → ℝ) :
    bilin P (Q.map fun q => (t * q.1, q.2)) g = t * bilin P Q g := by
  unfold bilin
  rw [← list_sum_map_mul]
  congr 1
  refine List.map_congr_left fun p _ => ?_
  rw [List.map_map, ← list_sum_map_mul]
  congr 1
  refine List.map_congr_left fun q _ => ?_
  show p.1 * (t * q.1) * _ = _
  ring

theorem bilin_perm {P P' Q Q' : List (ℝ × ℝ)} (hP : P.Perm P') (hQ : Q.Perm Q') (g : ℝ → ℝ → ℝ) :
    bilin P Q g = bilin P' Q' g := by
  unfold bilin
  rw [(hP.map _).sum_eq]
  congr 1
  refine List.map_congr_left fun p _ => ?_
  exact (hQ.map _).sum_eq

end Libgrpp
