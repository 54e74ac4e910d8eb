import Verif.Lemmas.LocalNumeric
import Verif.Props.OuterCore
import Verif.Model.FullLib

/-! Outer-core integrals with the library's own special functions. -/

namespace Libgrpp

open MeasureTheory

/-- Bound for the error of the matrix element of a potential between the `i`-th function of `A` and a component of an outer-core shell. -/
noncomputable def ocPotErrA (A : Shell) (C : Point) (p : Potential) (s : Shell) (i mi : ℕ) : ℝ :=
  ∑ k ∈ Finset.range s.cart_size, |slm s.L s mi k| * localErr A (bindOrigin C s) C p i k

/-- The same for the shell on the right. -/
noncomputable def ocPotErrB (B : Shell) (C : Point) (p : Potential) (s : Shell) (j mi : ℕ) : ℝ :=
  ∑ k ∈ Finset.range s.cart_size, |slm s.L s mi k| * localErr (bindOrigin C s) B C p k j

/-- Bound for the error of `U P + P U`. -/
noncomputable def ocOneErr (A B : Shell) (C : Point) (p : Potential) (s : Shell) (q : Fin 4) (i j : ℕ) : ℝ :=
  |spinorWeight s.L p.J q| * (sandwich (2 * s.L + 1) (fun k l => |ocMatrix s.L q k l|) (ocPotErrA A C p s i) (fun l => |ocOverlap B C s j l|) +
    sandwich (2 * s.L + 1) (fun k l => |ocMatrix s.L q k l|) (fun k => |ocOverlap A C s i k|) (ocPotErrB B C p s j))

theorem sandwich_close_left {d : ℕ} (W : ℕ → ℕ → ℝ) {a a' b e : ℕ → ℝ} (h : ∀ k < d, |a k - a' k| ≤ e k) :
    |sandwich d W a b - sandwich d W a' b| ≤ sandwich d (fun k l => |W k l|) e fun l => |b l| := by
  unfold sandwich
  rw [← Finset.sum_sub_distrib]
  refine (Finset.abs_sum_le_sum_abs _ _).trans (Finset.sum_le_sum fun k hk => ?_)
  rw [← Finset.sum_sub_distrib]
  refine (Finset.abs_sum_le_sum_abs _ _).trans (Finset.sum_le_sum fun l _ => ?_)
  rw [← mul_sub, ← sub_mul, abs_mul, abs_mul]
  exact mul_le_mul_of_nonneg_left (mul_le_mul_of_nonneg_right (h k (Finset.mem_range.1 hk)) (abs_nonneg _)) (abs_nonneg _)

theorem sandwich_close_right {d : ℕ} (W : ℕ → ℕ → ℝ) {a b b' e : ℕ → ℝ} (h : ∀ k < d, |b k - b' k| ≤ e k) :
    |sandwich d W a b - sandwich d W a b'| ≤ sandwich d (fun k l => |W k l|) (fun k => |a k|) e := by
  unfold sandwich
  rw [← Finset.sum_sub_distrib]
  refine (Finset.abs_sum_le_sum_abs _ _).trans (Finset.sum_le_sum fun k _ => ?_)
  rw [← Finset.sum_sub_distrib]
  refine (Finset.abs_sum_le_sum_abs _ _).trans (Finset.sum_le_sum fun l hl => ?_)
  rw [← mul_sub, ← mul_sub, abs_mul, abs_mul]
  exact mul_le_mul_of_nonneg_left (mul_le_mul_of_nonneg_left (h l (Finset.mem_range.1 hl)) (abs_nonneg _)) (abs_nonneg _)

theorem sphComp_close (n : ℕ) (u : ℕ → ℕ → ℝ) {x y e : ℕ → ℝ} (h : ∀ k < n, |x k - y k| ≤ e k) (mi : ℕ) :
    |sphComp n u x mi - sphComp n u y mi| ≤ ∑ k ∈ Finset.range n, |u mi k| * e k := by
  unfold sphComp
  rw [← Finset.sum_sub_distrib]
  refine (Finset.abs_sum_le_sum_abs _ _).trans (Finset.sum_le_sum fun k hk => ?_)
  rw [← mul_sub, abs_mul]
  exact mul_le_mul_of_nonneg_left (h k (Finset.mem_range.1 hk)) (abs_nonneg _)

/-- The auxiliary functions for the terms of an outer-core potential are available. -/
def OcRange (A B : Shell) (C : Point) (p : Potential) (s : Shell) : Prop := ∀ k < p.num,
  InRange A (bindOrigin C s) C (p.powers.getD k 0) (p.alpha.getD k 0) ∧ InRange (bindOrigin C s) B C (p.powers.getD k 0) (p.alpha.getD k 0)

theorem ocPart1_numeric {gen : Nat → List Comp} (hg : DocumentedOrder gen) {eps : ℝ} {sf : SpecFun} (hs : LibSpec eps sf) {A B : Shell}
    (sA : A.Supported) (sB : B.Supported) (C : Point) {p : Potential} {s : Shell} (h : OcBase gen p s) (hr : OcRange A B C p s) :
    ∃ one : Fin 4 → ℕ → ℕ → ℝ, (∀ (st : Fin 4 → List ℝ) (o : Fin 4 → ℕ → ℕ → ℝ), (∀ q, Arr A.cart_size B.cart_size (st q) (o q)) →
        ∃ st', ocPart1 sf true A B C p (bindOrigin C s) st = .ok st' ∧ ∀ q, SameBeyond (A.cart_size * B.cart_size) (st' q) (st q) ∧
          Arr A.cart_size B.cart_size (st' q) fun i j => o q i j + one q i j) ∧
      ∀ q i j, i < A.cart_size → j < B.cart_size →
        |one q i j - ocOne A B (dropTiny A) (dropTiny B) C p s (dropTiny s) q i j| ≤ ocOneErr A B C p s q i j := by
  have hm := h.made.bind C
  have hc := hm.complete hg
  have hc0 := h.made.complete hg
  have sS : (bindOrigin C s).Supported := hm.supported hg h.L9
  obtain ⟨VA, gA, eA⟩ := type1_numeric hs sA sS C h.pot fun k hk => (hr k hk).1
  obtain ⟨VB, gB, eB⟩ := type1_numeric hs sS sB C h.pot fun k hk => (hr k hk).2
  have gives : ∀ {S T : Shell} {V : ℕ → ℕ → ℝ}, (∀ out : List ℝ, S.cart_size * T.cart_size ≤ out.length → ∃ out',
      type1Integrals sf true S T C (some p) out = .ok out' ∧ MatIs S.cart_size T.cart_size out' V ∧ SameBeyond (S.cart_size * T.cart_size) out' out) →
      Gives (type1Integrals sf true S T C (some p) (List.replicate (S.cart_size * T.cart_size) 0)) S.cart_size T.cart_size V := by
    intro S T V h
    obtain ⟨R, h1, h2, h3⟩ := h (List.replicate (S.cart_size * T.cart_size) 0) (by simp)
    exact ⟨R, h1, by rw [h3.1]; simp, h2⟩
  refine ⟨fun q i j => spinorWeight s.L p.J q *
      (sandwich (2 * s.L + 1) (ocMatrix s.L q) (sphComp s.cart_size (slm s.L s) (VA i)) (ocOverlap B C s j) +
       sandwich (2 * s.L + 1) (ocMatrix s.L q) (ocOverlap A C s i) (sphComp s.cart_size (slm s.L s) fun k => VB k j)), fun st o ho => ?_, ?_⟩
  · obtain ⟨st', h1, h2⟩ := ocPart1_spec sf true A B C p (bindOrigin C s) (by have := h.L9; show s.L ≤ 14; omega) (hm.listed hg)
      (fun c hc' => (hc.mem c).1 hc') (gives_overlap sS sB) (gives_overlap sA sS) (gives gB) (gives gA) ho
    refine ⟨st', h1, fun q => ⟨(h2 q).1, (h2 q).2.congr fun i j _ _ => ?_⟩⟩
    show o q i j + ocFactor s.L p.J q * _ = _
    rw [ocFactor_eq h.j]
    congr 3
    · refine sandwich_congr (fun _ _ => ocW_eq s.L q) (fun mi hmi => rfl) fun mi hmi => ?_
      rw [← sphComp_overlap sB.pos hc0 h.made.pos C j hmi]
      exact congrArg (fun x => sphComp s.cart_size (slm s.L s) x mi) (funext fun k => integral_congr_ae (.of_forall fun r => mul_comm _ _))
    · exact sandwich_congr (fun _ _ => ocW_eq s.L q) (fun mi hmi => sphComp_overlap sA.pos hc0 h.made.pos C i hmi) fun mi hmi => rfl
  · intro q i j hi hj
    have a1 : ∀ mi < 2 * s.L + 1, |sphComp s.cart_size (slm s.L s) (VA i) mi - ocPotential (dropTiny A) C p (dropTiny s) i mi| ≤
        ocPotErrA A C p s i mi := by
      intro mi hmi
      rw [← sphComp_potential sA.pos hc0 h.made.pos C p h.terms i hmi]
      exact sphComp_close _ _ (fun k hk => eA i k hi hk) mi
    have a2 : ∀ mi < 2 * s.L + 1, |sphComp s.cart_size (slm s.L s) (fun k => VB k j) mi - ocPotential (dropTiny B) C p (dropTiny s) j mi| ≤
        ocPotErrB B C p s j mi := by
      intro mi hmi
      have e : sphComp s.cart_size (slm s.L s) (fun k => ∫ r, basisFn (dropTiny (bindOrigin C s)) k r * potentialFn p C r * basisFn (dropTiny B) j r)
          mi = ocPotential (dropTiny B) C p (dropTiny s) j mi := by
        rw [← sphComp_potential sB.pos hc0 h.made.pos C p h.terms j hmi]
        congr 1
        funext k
        exact integral_congr_ae (.of_forall fun r => by simp only []; ring)
      rw [← e]
      exact sphComp_close _ _ (fun k hk => eB k j hk hj) mi
    rw [ocOne, ocOneErr, ← mul_sub, abs_mul]
    refine mul_le_mul_of_nonneg_left ?_ (abs_nonneg _)
    have b1 := sandwich_close_left (ocMatrix s.L q) (b := ocOverlap B C s j) a1
    have b2 := sandwich_close_right (ocMatrix s.L q) (a := ocOverlap A C s i) a2
    refine le_trans ?_ (add_le_add b1 b2)
    rw [add_sub_add_comm]
    exact abs_add_le _ _

/-- Bound for the error of an element of the outer-core matrices. -/
noncomputable def ocErr (A B : Shell) (C : Point) (oc : List (Potential × Shell)) (q : Fin 4) (i j : ℕ) : ℝ :=
  ∑ a : Fin oc.length, ocOneErr A B C oc[a].1 oc[a].2 q i j +
    3e-15 * ∑ a : Fin oc.length, ∑ b : Fin oc.length, |ocTwo A B C oc[a].1 oc[a].2 oc[b].1 oc[b].2 q i j|

/-- Outer-core integrals with the library's special functions: numbers close to the matrix elements of the exact operator, which the routine
computes whatever the buffers contain. -/
theorem outerCore_numeric {gen : Nat → List Comp} (hg : DocumentedOrder gen) {eps : ℝ} {sf : SpecFun} (hs : LibSpec eps sf) {A B : Shell}
    (sA : A.Supported) (sB : B.Supported) (nA : A.NoTiny) (nB : B.NoTiny) (C : Point) {oc : List (Potential × Shell)}
    (hoc : ∀ e ∈ oc, OcBase gen e.1 e.2 ∧ OcRange A B C e.1 e.2 ∧ e.2.NoTiny) :
    ∃ V : Fin 4 → ℕ → ℕ → ℝ, (∀ out : Fin 4 → List ℝ, (∀ q, A.cart_size * B.cart_size ≤ (out q).length) →
        ∃ out', outerCore sf true A B C oc out = .ok (oc.map fun e => (e.1, bindOrigin C e.2), out') ∧
          ∀ q, SameBeyond (A.cart_size * B.cart_size) (out' q) (out q) ∧ MatIs A.cart_size B.cart_size (out' q) (V q)) ∧
      ∀ q i j, i < A.cart_size → j < B.cart_size → |V q i j - ocElement A B C oc q i j| ≤ ocErr A B C oc q i j := by
  choose! one hone herr using fun (e : Potential × Shell) (he : e ∈ oc) => ocPart1_numeric hg hs sA sB C (hoc e he).1 (hoc e he).2.1
  refine ⟨fun q i j => ∑ a : Fin oc.length, one (oc[a].1, oc[a].2) q i j -
    ∑ a : Fin oc.length, ∑ b : Fin oc.length, gtoErr oc[a].2.L * ocTwo A B C oc[a].1 oc[a].2 oc[b].1 oc[b].2 q i j, fun out hout => ?_, ?_⟩
  · obtain ⟨out', h1, h2⟩ := outerCore_gen hg sf A B sA sB C oc (fun e he => (hoc e he).1) (fun p s => one (p, s)) (fun e he => hone e he) out hout
    exact ⟨out', h1, fun q => ⟨(h2 q).1, (h2 q).2.val⟩⟩
  · intro q i j hi hj
    unfold ocElement ocErr
    beta_reduce
    rw [sub_sub_sub_comm]
    refine (abs_sub _ _).trans (add_le_add ?_ ?_)
    · rw [← Finset.sum_sub_distrib]
      refine (Finset.abs_sum_le_sum_abs _ _).trans (Finset.sum_le_sum fun a _ => ?_)
      have he := List.getElem_mem (l := oc) a.2
      rw [← outer_core_nothing_dropped A B C oc[a].1 oc[a].2 nA nB (hoc _ he).2.2 q i j]
      exact herr _ he q i j hi hj
    · rw [← Finset.sum_sub_distrib, Finset.mul_sum]
      refine (Finset.abs_sum_le_sum_abs _ _).trans (Finset.sum_le_sum fun a _ => ?_)
      rw [← Finset.sum_sub_distrib, Finset.mul_sum]
      refine (Finset.abs_sum_le_sum_abs _ _).trans (Finset.sum_le_sum fun b _ => ?_)
      have he := (hoc _ (List.getElem_mem (l := oc) a.2)).1.L9
      have := gtoErr_bound (L := oc[a].2.L) (by simp only [Fin.getElem_fin]; omega)
      rw [← sub_one_mul, abs_mul]
      exact mul_le_mul_of_nonneg_right this (abs_nonneg _)

end Libgrpp
