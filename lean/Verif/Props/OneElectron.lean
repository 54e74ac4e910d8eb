import Verif.Lemmas.OneElectronTrue
import Verif.Lemmas.OneElectronList
import Mathlib.Analysis.Complex.Basic
import Mathlib.MeasureTheory.Integral.Bochner.ContinuousLinearMap
import Mathlib.MeasureTheory.Integral.IntegralEqImproper

/-! # C12-C19: overlap, kinetic-energy and momentum integrals

`basisFn`, `pderiv`, `laplacian` (file `Verif/Model/Spec.lean`) define what a shell means; nothing there depends on the
algorithm. The hypotheses `WF`, `Listed` hold for every shell built by the constructor with a documented component
order (`newShell_listed`). -/

namespace Libgrpp

open MeasureTheory

/-! ## C12 -/

/-- **C12.** Every element of the overlap matrix is the integral over all space of the product of the two contracted
functions; nothing outside the matrix is written. -/
theorem overlap_true (A B : Shell) (hA : A.WF) (hB : B.WF) (lA : A.Listed) (lB : B.Listed) (pA : A.Pos) (pB : B.Pos)
    (hLA : A.L ≤ 9) (hLB : B.L ≤ 9) (out : List ℝ) (hlen : A.cart_size * B.cart_size ≤ out.length) :
    ∃ out', overlapIntegrals A B out = .ok out' ∧ out'.length = out.length ∧
      (∀ m n, m < A.cart_size → n < B.cart_size →
        out'[m * B.cart_size + n]? = some (∫ r, basisFn A m r * basisFn B n r)) ∧
      (∀ p, A.cart_size * B.cart_size ≤ p → out'[p]? = out[p]?) := by
  obtain ⟨out', h1, h2, h3, h4⟩ := contract_spec A B hA hB (overlapPrim A B)
    (fun a b m n => gaussianNormFactor A.L 0 0 a * gaussianNormFactor B.L 0 0 b *
      gauss1 a b (A.origin 0) (B.origin 0) (A.comp m).1 (B.comp n).1 *
      gauss1 a b (A.origin 1) (B.origin 1) (A.comp m).2.1 (B.comp n).2.1 *
      gauss1 a b (A.origin 2) (B.origin 2) (A.comp m).2.2 (B.comp n).2.2) out
    (fun i j buf hi hj hb => overlapPrim_spec A B lA lB (Nat.lt_succ_of_le hLA) (Nat.lt_succ_of_le hLB) _ _ _
      (gauss1_pairRel (add_pos (pA.at hi) (pB.at hj)) _ _) buf hb) hlen
  refine ⟨out', h1, h3, fun m n hm hn => ?_, h4⟩
  rw [h2 m n hm hn, integral_overlap A B pA pB]

/-! ## C13 -/

/-- The three one-electron operators. -/
inductive Kind where
  | overlap
  | kinetic
  | momentum (k : Fin 3)

/-- The corresponding library routine (for momentum: the matrix of direction `k`). -/
noncomputable def Kind.run : Kind → Shell → Shell → List ℝ → Outcome (List ℝ)
  | .overlap => overlapIntegrals
  | .kinetic => kineticIntegrals
  | .momentum k => momentumIntegrals k

/-- Result in list form for all three operators; the primitive matrix element `g` depends only on the angular parts
and the centres. -/
theorem Kind.run_list (K : Kind) : ∃ G : (Nat × Point × Nat × List Comp) → (Nat × Point × Nat × List Comp) →
      ℝ → ℝ → Nat → Nat → ℝ,
    ∀ (A B : Shell) (_ : A.WF) (_ : B.WF) (_ : A.Listed) (_ : B.Listed)
      (_ : A.L ≤ 9) (_ : B.L ≤ 9) (out : List ℝ) (_ : A.cart_size * B.cart_size ≤ out.length),
      ∃ out', K.run A B out = .ok out' ∧
        MatIs A.cart_size B.cart_size out' (fun m n => bilin A.prims B.prims fun a b =>
          G (A.L, A.origin, A.cart_size, A.cartList) (B.L, B.origin, B.cart_size, B.cartList) a b m n) ∧
        SameBeyond (A.cart_size * B.cart_size) out' out := by
  choose f hf using exists_pairRel
  cases K with
  | overlap =>
    refine ⟨fun x y a b m n => gaussianNormFactor x.1 0 0 a * gaussianNormFactor y.1 0 0 b *
      f a b x.2.1 y.2.1 0 (x.2.2.2.getD m (0, 0, 0)).1 (y.2.2.2.getD n (0, 0, 0)).1 *
      f a b x.2.1 y.2.1 1 (x.2.2.2.getD m (0, 0, 0)).2.1 (y.2.2.2.getD n (0, 0, 0)).2.1 *
      f a b x.2.1 y.2.1 2 (x.2.2.2.getD m (0, 0, 0)).2.2 (y.2.2.2.getD n (0, 0, 0)).2.2, ?_⟩
    intro A B hA hB lA lB hLA hLB out hlen
    exact contract_list A B hA hB _ _ out (fun i j buf hi hj hb => overlapPrim_spec A B lA lB
      (Nat.lt_succ_of_le hLA) (Nat.lt_succ_of_le hLB) _ _ _ (hf _ _ _ _) buf hb) hlen
  | kinetic =>
    let D : ℝ → ℝ → Point → Point → Fin 3 → Nat → Nat → ℝ := fun a b A B c i j =>
      4 * a * a * f a b A B c (i + 2) j - 2 * a * (2 * (i : ℝ) + 1) * f a b A B c i j +
        (i : ℝ) * ((i : ℝ) - 1) * f a b A B c (i - 2) j
    refine ⟨fun x y a b m n => -0.5 * gaussianNormFactor x.1 0 0 a * gaussianNormFactor y.1 0 0 b *
      (D a b x.2.1 y.2.1 0 (x.2.2.2.getD m (0, 0, 0)).1 (y.2.2.2.getD n (0, 0, 0)).1 *
        f a b x.2.1 y.2.1 1 (x.2.2.2.getD m (0, 0, 0)).2.1 (y.2.2.2.getD n (0, 0, 0)).2.1 *
        f a b x.2.1 y.2.1 2 (x.2.2.2.getD m (0, 0, 0)).2.2 (y.2.2.2.getD n (0, 0, 0)).2.2 +
       f a b x.2.1 y.2.1 0 (x.2.2.2.getD m (0, 0, 0)).1 (y.2.2.2.getD n (0, 0, 0)).1 *
        D a b x.2.1 y.2.1 1 (x.2.2.2.getD m (0, 0, 0)).2.1 (y.2.2.2.getD n (0, 0, 0)).2.1 *
        f a b x.2.1 y.2.1 2 (x.2.2.2.getD m (0, 0, 0)).2.2 (y.2.2.2.getD n (0, 0, 0)).2.2 +
       f a b x.2.1 y.2.1 0 (x.2.2.2.getD m (0, 0, 0)).1 (y.2.2.2.getD n (0, 0, 0)).1 *
        f a b x.2.1 y.2.1 1 (x.2.2.2.getD m (0, 0, 0)).2.1 (y.2.2.2.getD n (0, 0, 0)).2.1 *
        D a b x.2.1 y.2.1 2 (x.2.2.2.getD m (0, 0, 0)).2.2 (y.2.2.2.getD n (0, 0, 0)).2.2), ?_⟩
    intro A B hA hB lA lB hLA hLB out hlen
    exact contract_list A B hA hB _ _ out (fun i j buf hi hj hb => kineticPrim_spec A B lA lB
      (Nat.lt_succ_of_le hLA) (Nat.lt_succ_of_le hLB) _ _ _ (hf _ _ _ _) buf hb (D _ _ _ _) fun _ _ _ => rfl) hlen
  | momentum k =>
    let D : ℝ → ℝ → Point → Point → Fin 3 → Nat → Nat → ℝ := fun a b A B c i j =>
      2 * a * f a b A B c (i + 1) j - (i : ℝ) * f a b A B c (i - 1) j
    refine ⟨fun x y a b m n => -gaussianNormFactor x.1 0 0 a * gaussianNormFactor y.1 0 0 b *
      (if k = 0 then D a b x.2.1 y.2.1 0 (x.2.2.2.getD m (0, 0, 0)).1 (y.2.2.2.getD n (0, 0, 0)).1 else
        f a b x.2.1 y.2.1 0 (x.2.2.2.getD m (0, 0, 0)).1 (y.2.2.2.getD n (0, 0, 0)).1) *
      (if k = 1 then D a b x.2.1 y.2.1 1 (x.2.2.2.getD m (0, 0, 0)).2.1 (y.2.2.2.getD n (0, 0, 0)).2.1 else
        f a b x.2.1 y.2.1 1 (x.2.2.2.getD m (0, 0, 0)).2.1 (y.2.2.2.getD n (0, 0, 0)).2.1) *
      (if k = 2 then D a b x.2.1 y.2.1 2 (x.2.2.2.getD m (0, 0, 0)).2.2 (y.2.2.2.getD n (0, 0, 0)).2.2 else
        f a b x.2.1 y.2.1 2 (x.2.2.2.getD m (0, 0, 0)).2.2 (y.2.2.2.getD n (0, 0, 0)).2.2), ?_⟩
    intro A B hA hB lA lB hLA hLB out hlen
    exact contract_list A B hA hB _ _ out (fun i j buf hi hj hb => momentumPrim_spec k A B lA lB
      (Nat.lt_succ_of_le hLA) (Nat.lt_succ_of_le hLB) _ _ _ (hf _ _ _ _) buf hb (D _ _ _ _) fun _ _ _ => rfl) hlen

/-- **C13, partial.** Full statement: for `L_A, L_B ≤ 10` the three routines never access memory outside their work
arrays. That is false for `L = 10` (`one_electron_overflow`); it holds for `L_A, L_B ≤ 9`, for any exponents (also
zero or negative), and they return a matrix. -/
theorem one_electron_in_bounds_partial (K : Kind) (A B : Shell) (hA : A.WF) (hB : B.WF) (lA : A.Listed)
    (lB : B.Listed) (hLA : A.L ≤ 9) (hLB : B.L ≤ 9) (out : List ℝ)
    (hlen : A.cart_size * B.cart_size ≤ out.length) :
    ∃ out', K.run A B out = .ok out' ∧ out'.length = out.length ∧
      ∀ p, A.cart_size * B.cart_size ≤ p → out'[p]? = out[p]? := by
  obtain ⟨G, hG⟩ := K.run_list
  obtain ⟨out', h1, -, h2⟩ := hG A B hA hB lA lB hLA hLB out hlen
  exact ⟨out', h1, h2.1, h2.2⟩

/-- **C13** is false as documented: with `L = 10` (the documented maximum) on either side and at least one primitive on
each side, every one of the three routines writes outside its work array. -/
theorem one_electron_overflow (K : Kind) (A B : Shell) (hA : A.WF) (hB : B.WF) (nA : 0 < A.num) (nB : 0 < B.num)
    (hL : 10 ≤ A.L ∨ 10 ≤ B.L) (out : List ℝ) (hlen : A.cart_size * B.cart_size ≤ out.length) :
    K.run A B out = .ub := by
  have main : ∀ prim : ℝ → ℝ → List ℝ → Outcome (List ℝ), (∀ a b buf, prim a b buf = .ub) →
      contract A B prim out = .ub := by
    intro prim hp
    obtain ⟨out0, hm, -⟩ := memset0_spec (A.cart_size * B.cart_size) out hlen
    unfold contract
    simp only [hm, Outcome.ok_bind]
    rw [forRange_ub (k := 0) (fun _ _ => True) nA trivial (by intro i s hi; omega) ?_]
    · rfl
    · intro st _
      apply forRange_ub (k := 0) (fun _ _ => True) nB trivial (by intro i s hi; omega)
      intro st _
      rw [rd_getD (lt_of_lt_of_le nA hA.2), rd_getD (lt_of_lt_of_le nB hB.2), rd_getD (lt_of_lt_of_le nA hA.1),
        rd_getD (lt_of_lt_of_le nB hB.1)]
      simp only [Outcome.ok_bind, hp, Outcome.ub_bind]
  cases K with
  | overlap =>
    refine main _ fun a b buf => ?_
    obtain ⟨f, hf⟩ := exists_pairRel a b A.origin B.origin
    unfold overlapPrim
    rw [fillS_ub maxBasisL A.L B.L (by unfold maxBasisL; omega) a b _ _ f hf]
    rfl
  | kinetic =>
    refine main _ fun a b buf => ?_
    obtain ⟨f, hf⟩ := exists_pairRel a b A.origin B.origin
    unfold kineticPrim
    rw [fillS_ub (maxBasisL + 2) (A.L + 2) (B.L + 2) (by unfold maxBasisL; omega) a b _ _ f hf]
    rfl
  | momentum k =>
    refine main _ fun a b buf => ?_
    obtain ⟨f, hf⟩ := exists_pairRel a b A.origin B.origin
    unfold momentumPrim
    rw [fillS_ub (maxBasisL + 1) (A.L + 1) (B.L + 1) (by unfold maxBasisL; omega) a b _ _ f hf]
    rfl

/-! ## C14 -/

/-- **C14.** Exchanging the shells transposes the overlap matrix. -/
theorem overlap_transpose (A B : Shell) (hA : A.WF) (hB : B.WF) (lA : A.Listed) (lB : B.Listed) (pA : A.Pos)
    (pB : B.Pos) (hLA : A.L ≤ 9) (hLB : B.L ≤ 9) (out1 out2 : List ℝ)
    (h1 : A.cart_size * B.cart_size ≤ out1.length) (h2 : B.cart_size * A.cart_size ≤ out2.length) :
    ∃ M N, overlapIntegrals A B out1 = .ok M ∧ overlapIntegrals B A out2 = .ok N ∧
      ∀ m n, m < A.cart_size → n < B.cart_size → M[m * B.cart_size + n]? = N[n * A.cart_size + m]? := by
  obtain ⟨M, e1, -, e2, -⟩ := overlap_true A B hA hB lA lB pA pB hLA hLB out1 h1
  obtain ⟨N, e3, -, e4, -⟩ := overlap_true B A hB hA lB lA pB pA hLB hLA out2 h2
  refine ⟨M, N, e1, e3, fun m n hm hn => ?_⟩
  rw [e2 m n hm hn, e4 n m hn hm]
  simp only [mul_comm]

/-! ## C15 -/

/-- A shell moved by the vector `v`. -/
def Shell.shift (s : Shell) (v : Point) : Shell := { s with origin := fun k => s.origin k + v k }

theorem fillS_shift (d iMax jMax : Nat) (a b : ℝ) (hp : a + b ≠ 0) (A B v : Point) :
    fillS d iMax jMax a b (fun k => A k + v k) (fun k => B k + v k) = fillS d iMax jMax a b A B := by
  unfold fillS
  dsimp only
  congr 1
  funext c S
  have e1 : (a * (A c + v c) + b * (B c + v c)) / (a + b) - (A c + v c) = (a * A c + b * B c) / (a + b) - A c := by
    field_simp; ring
  have e2 : (a * (A c + v c) + b * (B c + v c)) / (a + b) - (B c + v c) = (a * A c + b * B c) / (a + b) - B c := by
    field_simp; ring
  have e3 : A c + v c - (B c + v c) = A c - B c := by ring
  simp only [e1, e2, e3]

theorem contract_congr (A B A' B' : Shell) (prim prim' : ℝ → ℝ → List ℝ → Outcome (List ℝ)) (out : List ℝ)
    (hA : A' = { A with origin := A'.origin }) (hB : B' = { B with origin := B'.origin }) (wA : A.WF) (wB : B.WF)
    (h : ∀ i j buf, i < A.num → j < B.num →
      prim (A.alphaAt i) (B.alphaAt j) buf = prim' (A.alphaAt i) (B.alphaAt j) buf) :
    contract A' B' prim' out = contract A B prim out := by
  obtain ⟨LA, oA, sA, clA, nA, cA, aA⟩ := A'
  obtain ⟨LB, oB, sB, clB, nB, cB, aB⟩ := B'
  simp only [Shell.mk.injEq] at hA hB
  obtain ⟨rfl, -, rfl, rfl, rfl, rfl, rfl⟩ := hA
  obtain ⟨rfl, -, rfl, rfl, rfl, rfl, rfl⟩ := hB
  unfold contract
  simp only
  congr 1
  funext out0
  congr 1
  have congrLoop : ∀ {σ : Type} (n : Nat) (s : σ) (f g : Nat → σ → Outcome σ),
      (∀ i s, i < n → f i s = g i s) → forRange n s f = forRange n s g := by
    intro σ n s f g hfg
    induction n with
    | zero => rfl
    | succ n ih =>
      rw [forRange_succ, forRange_succ, ih fun i s hi => hfg i s (by omega)]
      congr 1
      funext s
      exact hfg n s (by omega)
  apply congrLoop
  intro i s hi
  apply congrLoop
  intro j s hj
  rw [rd_getD (lt_of_lt_of_le hi wA.2), rd_getD (lt_of_lt_of_le hj wB.2)]
  simp only [Outcome.ok_bind]
  have := h i j s.1 hi hj
  simp only [Shell.alphaAt] at this
  rw [this]

/-- **C15.** Shifting both shells by the same vector leaves the result of every one-electron routine unchanged
(the complete outcome, for all angular momenta). -/
theorem one_electron_translation (K : Kind) (A B : Shell) (hA : A.WF) (hB : B.WF) (pA : A.Pos) (pB : B.Pos) (v : Point)
    (out : List ℝ) : K.run (A.shift v) (B.shift v) out = K.run A B out := by
  have hp : ∀ i j, i < A.num → j < B.num → A.alphaAt i + B.alphaAt j ≠ 0 := fun i j hi hj =>
    (add_pos (pA.at hi) (pB.at hj)).ne'
  cases K with
  | overlap =>
    refine contract_congr A B _ _ _ _ out rfl rfl hA hB fun i j buf hi hj => ?_
    show _ = overlapPrim (A.shift v) (B.shift v) _ _ buf
    unfold overlapPrim
    simp only [Shell.shift, fillS_shift _ _ _ _ _ (hp i j hi hj), storePairs]
  | kinetic =>
    refine contract_congr A B _ _ _ _ out rfl rfl hA hB fun i j buf hi hj => ?_
    show _ = kineticPrim (A.shift v) (B.shift v) _ _ buf
    unfold kineticPrim
    simp only [Shell.shift, fillS_shift _ _ _ _ _ (hp i j hi hj), storePairs]
  | momentum k =>
    refine contract_congr A B _ _ _ _ out rfl rfl hA hB fun i j buf hi hj => ?_
    show _ = momentumPrim k (A.shift v) (B.shift v) _ _ buf
    unfold momentumPrim
    simp only [Shell.shift, fillS_shift _ _ _ _ _ (hp i j hi hj), storePairs]

/-! ## C16 -/

/-- Two shells differ at most in their contraction. -/
def SameSite (s t : Shell) : Prop :=
  s.L = t.L ∧ s.origin = t.origin ∧ s.cart_size = t.cart_size ∧ s.cartList = t.cartList

/-- Preconditions of the one-electron routines on one shell. -/
structure Shell.Ready (s : Shell) : Prop where
  wf : s.WF
  listed : s.Listed
  small : s.L ≤ 9

/-- **C16** (additivity, left and right). Concatenating contractions adds matrices. -/
theorem one_electron_additive (K : Kind) (A A1 A2 B : Shell) (rA : A.Ready) (r1 : A1.Ready) (r2 : A2.Ready)
    (rB : B.Ready) (s1 : SameSite A1 A) (s2 : SameSite A2 A) (hcat : A.prims = A1.prims ++ A2.prims) (out : List ℝ)
    (hlen : A.cart_size * B.cart_size ≤ out.length) (hlen' : B.cart_size * A.cart_size ≤ out.length) :
    (∃ M M1 M2, K.run A B out = .ok M ∧ K.run A1 B out = .ok M1 ∧ K.run A2 B out = .ok M2 ∧
      ∀ p, p < A.cart_size * B.cart_size → ∃ x y, M1[p]? = some x ∧ M2[p]? = some y ∧ M[p]? = some (x + y)) ∧
    (∃ M M1 M2, K.run B A out = .ok M ∧ K.run B A1 out = .ok M1 ∧ K.run B A2 out = .ok M2 ∧
      ∀ p, p < B.cart_size * A.cart_size → ∃ x y, M1[p]? = some x ∧ M2[p]? = some y ∧ M[p]? = some (x + y)) := by
  obtain ⟨G, hG⟩ := K.run_list
  obtain ⟨a1, a2, a3, a4⟩ := s1
  obtain ⟨b1, b2, b3, b4⟩ := s2
  have split : ∀ {M N p : Nat}, p < M * N → ∃ i j, i < M ∧ j < N ∧ p = i * N + j := by
    intro M N p hp
    have hN : 0 < N := Nat.pos_of_ne_zero (by rintro rfl; simp at hp)
    exact ⟨p / N, p % N, Nat.div_lt_of_lt_mul (by rwa [Nat.mul_comm]), Nat.mod_lt _ hN,
      by rw [Nat.mul_comm]; exact (Nat.div_add_mod p N).symm⟩
  constructor
  · obtain ⟨M, h1, h2, -⟩ := hG A B rA.wf rB.wf rA.listed rB.listed rA.small rB.small out hlen
    obtain ⟨M1, h3, h4, -⟩ := hG A1 B r1.wf rB.wf r1.listed rB.listed r1.small rB.small out (by rw [a3]; exact hlen)
    obtain ⟨M2, h5, h6, -⟩ := hG A2 B r2.wf rB.wf r2.listed rB.listed r2.small rB.small out (by rw [b3]; exact hlen)
    rw [a1, a2, a3, a4] at h4
    rw [b1, b2, b3, b4] at h6
    refine ⟨M, M1, M2, h1, h3, h5, fun p hp => ?_⟩
    obtain ⟨i, j, hi, hj, rfl⟩ := split hp
    refine ⟨_, _, h4 i j hi hj, h6 i j hi hj, ?_⟩
    rw [h2 i j hi hj, hcat]
    exact congrArg some (bilin_append_left _ _ _ _)
  · obtain ⟨M, h1, h2, -⟩ := hG B A rB.wf rA.wf rB.listed rA.listed rB.small rA.small out hlen'
    obtain ⟨M1, h3, h4, -⟩ := hG B A1 rB.wf r1.wf rB.listed r1.listed rB.small r1.small out (by rw [a3]; exact hlen')
    obtain ⟨M2, h5, h6, -⟩ := hG B A2 rB.wf r2.wf rB.listed r2.listed rB.small r2.small out (by rw [b3]; exact hlen')
    rw [a1, a2, a3, a4] at h4
    rw [b1, b2, b3, b4] at h6
    refine ⟨M, M1, M2, h1, h3, h5, fun p hp => ?_⟩
    obtain ⟨i, j, hi, hj, rfl⟩ := split hp
    refine ⟨_, _, h4 i j hi hj, h6 i j hi hj, ?_⟩
    rw [h2 i j hi hj, hcat]
    exact congrArg some (bilin_append_right _ _ _ _)

/-- **C16** (scaling). Scaling the coefficients of both shells by `s` and `t` scales the matrix by `s t`. -/
theorem one_electron_scaling (K : Kind) (A A' B B' : Shell) (rA : A.Ready) (rA' : A'.Ready) (rB : B.Ready)
    (rB' : B'.Ready) (sA : SameSite A' A) (sB : SameSite B' B) (s t : ℝ)
    (hA : A'.prims = A.prims.map fun p => (s * p.1, p.2)) (hB : B'.prims = B.prims.map fun p => (t * p.1, p.2))
    (out : List ℝ) (hlen : A.cart_size * B.cart_size ≤ out.length) :
    ∃ M M', K.run A B out = .ok M ∧ K.run A' B' out = .ok M' ∧
      ∀ m n, m < A.cart_size → n < B.cart_size →
        ∃ x, M[m * B.cart_size + n]? = some x ∧ M'[m * B.cart_size + n]? = some (s * t * x) := by
  obtain ⟨G, hG⟩ := K.run_list
  obtain ⟨a1, a2, a3, a4⟩ := sA
  obtain ⟨b1, b2, b3, b4⟩ := sB
  obtain ⟨M, h1, h2, -⟩ := hG A B rA.wf rB.wf rA.listed rB.listed rA.small rB.small out hlen
  obtain ⟨M', h3, h4, -⟩ := hG A' B' rA'.wf rB'.wf rA'.listed rB'.listed rA'.small rB'.small out
    (by rw [a3, b3]; exact hlen)
  rw [a1, a2, a3, a4, b1, b2, b3, b4] at h4
  refine ⟨M, M', h1, h3, fun m n hm hn => ⟨_, h2 m n hm hn, ?_⟩⟩
  rw [h4 m n hm hn, hA, hB]
  beta_reduce
  rw [bilin_scale_left, bilin_scale_right, mul_assoc]

/-- **C16** (order). The order of the primitives is irrelevant. -/
theorem one_electron_order (K : Kind) (A A' B B' : Shell) (rA : A.Ready) (rA' : A'.Ready) (rB : B.Ready)
    (rB' : B'.Ready) (sA : SameSite A' A) (sB : SameSite B' B) (hA : A'.prims.Perm A.prims)
    (hB : B'.prims.Perm B.prims) (out : List ℝ) (hlen : A.cart_size * B.cart_size ≤ out.length) :
    ∃ M M', K.run A B out = .ok M ∧ K.run A' B' out = .ok M' ∧ M' = M := by
  obtain ⟨G, hG⟩ := K.run_list
  obtain ⟨a1, a2, a3, a4⟩ := sA
  obtain ⟨b1, b2, b3, b4⟩ := sB
  obtain ⟨M, h1, h2, h5, h6⟩ := hG A B rA.wf rB.wf rA.listed rB.listed rA.small rB.small out hlen
  obtain ⟨M', h3, h4, h7, h8⟩ := hG A' B' rA'.wf rB'.wf rA'.listed rB'.listed rA'.small rB'.small out
    (by rw [a3, b3]; exact hlen)
  rw [a3, b3] at h8
  rw [a1, a2, a3, a4, b1, b2, b3, b4] at h4
  refine ⟨M, M', h1, h3, List.ext_getElem? fun p => ?_⟩
  by_cases hp : A.cart_size * B.cart_size ≤ p
  · rw [h6 p hp, h8 p hp]
  · have hp' : p < A.cart_size * B.cart_size := by omega
    have hN : 0 < B.cart_size := Nat.pos_of_ne_zero (by intro h; rw [h] at hp'; simp at hp')
    have e : p = p / B.cart_size * B.cart_size + p % B.cart_size := by
      rw [Nat.mul_comm]; exact (Nat.div_add_mod p _).symm
    have i1 : p / B.cart_size < A.cart_size := Nat.div_lt_of_lt_mul (by rwa [Nat.mul_comm])
    have i2 := Nat.mod_lt p hN
    rw [e, h2 _ _ i1 i2, h4 _ _ i1 i2]
    exact congrArg some (bilin_perm hA hB _)

/-! ## C17, C18 -/

/-- **C17.** Every element of the kinetic-energy matrix is `∫ φ_A (-½∇² φ_B)`. -/
theorem kinetic_true (A B : Shell) (hA : A.WF) (hB : B.WF) (lA : A.Listed) (lB : B.Listed) (pA : A.Pos) (pB : B.Pos)
    (hLA : A.L ≤ 9) (hLB : B.L ≤ 9) (out : List ℝ) (hlen : A.cart_size * B.cart_size ≤ out.length) :
    ∃ out', kineticIntegrals A B out = .ok out' ∧ out'.length = out.length ∧
      (∀ m n, m < A.cart_size → n < B.cart_size →
        out'[m * B.cart_size + n]? = some (∫ r, basisFn A m r * (-(1 / 2) * laplacian (basisFn B n) r))) ∧
      (∀ p, A.cart_size * B.cart_size ≤ p → out'[p]? = out[p]?) := by
  let D : ℝ → ℝ → Fin 3 → Nat → Nat → ℝ := fun a b c i j => gauss1dBB a b (A.origin c) (B.origin c) i j
  let f : ℝ → ℝ → Fin 3 → Nat → Nat → ℝ := fun a b c i j => gauss1 a b (A.origin c) (B.origin c) i j
  obtain ⟨out', h1, h2, h3, h4⟩ := contract_spec A B hA hB (kineticPrim A B)
    (fun a b m n => -0.5 * gaussianNormFactor A.L 0 0 a * gaussianNormFactor B.L 0 0 b *
      (D a b 0 (A.comp m).1 (B.comp n).1 * f a b 1 (A.comp m).2.1 (B.comp n).2.1 *
          f a b 2 (A.comp m).2.2 (B.comp n).2.2 +
        f a b 0 (A.comp m).1 (B.comp n).1 * D a b 1 (A.comp m).2.1 (B.comp n).2.1 *
          f a b 2 (A.comp m).2.2 (B.comp n).2.2 +
        f a b 0 (A.comp m).1 (B.comp n).1 * f a b 1 (A.comp m).2.1 (B.comp n).2.1 *
          D a b 2 (A.comp m).2.2 (B.comp n).2.2)) out
    (fun i j buf hi hj hb => kineticPrim_spec A B lA lB (Nat.lt_succ_of_le hLA) (Nat.lt_succ_of_le hLB) _ _ _
      (gauss1_pairRel (add_pos (pA.at hi) (pB.at hj)) _ _) buf hb (D _ _)
      (fun c i' j' => (gauss1dBB_eq (add_pos (pA.at hi) (pB.at hj)) (A.origin c) (B.origin c) i' j').symm)) hlen
  refine ⟨out', h1, h3, fun m n hm hn => ?_, h4⟩
  rw [h2 m n hm hn]
  have e : ∀ r, basisFn A m r * (-(1 / 2) * laplacian (basisFn B n) r) =
      -(1 / 2) * (basisFn A m r * laplacian (basisFn B n) r) := by intro r; ring
  simp only [e]
  rw [integral_const_mul, integral_laplacian A B pA pB]
  simp only [(integral_second _ A B pA pB m n).2]
  rw [Fin.sum_univ_three]
  simp only [← Finset.sum_add_distrib, Finset.mul_sum]
  congr 1
  refine Finset.sum_congr rfl fun i _ => Finset.sum_congr rfl fun j _ => ?_
  simp only [ Fin.prod_univ_three, Comp.exp_zero, Comp.exp_one, Comp.exp_two, Shell.weight, D, f]
  have q : (0 : Fin 3) ≠ 1 ∧ (0 : Fin 3) ≠ 2 ∧ (1 : Fin 3) ≠ 0 ∧ (1 : Fin 3) ≠ 2 ∧ (2 : Fin 3) ≠ 0 ∧ (2 : Fin 3) ≠ 1 := by
    decide
  simp only [if_true, if_neg q.1, if_neg q.2.1, if_neg q.2.2.1, if_neg q.2.2.2.1, if_neg q.2.2.2.2.1,
    if_neg q.2.2.2.2.2]
  ring

theorem kinetic_hermitian (A B : Shell) (pA : A.Pos) (pB : B.Pos) (m n : Nat) :
    ∫ r, basisFn A m r * laplacian (basisFn B n) r = ∫ r, basisFn B n r * laplacian (basisFn A m) r := by
  rw [integral_laplacian A B pA pB, integral_laplacian B A pB pA]
  refine Finset.sum_congr rfl fun k _ => ?_
  rw [(integral_second k A B pA pB m n).2, (integral_second k B A pB pA n m).2, Finset.sum_comm]
  refine Finset.sum_congr rfl fun j hj => Finset.sum_congr rfl fun i hi => ?_
  have hp := pos_add pA pB hi hj
  rw [mul_comm (A.weight i)]
  congr 1
  refine Finset.prod_congr rfl fun k' _ => ?_
  have sym : ∀ i' j', gauss1 (A.alphaAt i) (B.alphaAt j) (A.origin k') (B.origin k') i' j' =
      gauss1 (B.alphaAt j) (A.alphaAt i) (B.origin k') (A.origin k') j' i' := by
    intro i' j'
    unfold gauss1
    congr 1
    funext x
    rw [add_comm (-A.alphaAt i * _)]
    ring
  split_ifs
  · rw [← gauss1dBB_eq hp, ← gauss1dBB_eq (by rw [add_comm]; exact hp)]
    rw [gauss1dBB_eq hp]
    unfold gauss1dBB gauss1dB
    simp only [sym]
    rcases (B.comp n).exp k' with _ | _ | j'
    · simp; ring
    · simp; ring
    · simp only [Nat.add_sub_cancel]
      have e1 : j' + 1 + 1 - 2 = j' := by omega
      rw [e1]
      push_cast
      ring
  · exact sym _ _

/-- **C18.** Exchanging the shells transposes the kinetic-energy matrix. -/
theorem kinetic_transpose (A B : Shell) (hA : A.WF) (hB : B.WF) (lA : A.Listed) (lB : B.Listed) (pA : A.Pos)
    (pB : B.Pos) (hLA : A.L ≤ 9) (hLB : B.L ≤ 9) (out1 out2 : List ℝ)
    (h1 : A.cart_size * B.cart_size ≤ out1.length) (h2 : B.cart_size * A.cart_size ≤ out2.length) :
    ∃ M N, kineticIntegrals A B out1 = .ok M ∧ kineticIntegrals B A out2 = .ok N ∧
      ∀ m n, m < A.cart_size → n < B.cart_size → M[m * B.cart_size + n]? = N[n * A.cart_size + m]? := by
  obtain ⟨M, e1, -, e2, -⟩ := kinetic_true A B hA hB lA lB pA pB hLA hLB out1 h1
  obtain ⟨N, e3, -, e4, -⟩ := kinetic_true B A hB hA lB lA pB pA hLB hLA out2 h2
  refine ⟨M, N, e1, e3, fun m n hm hn => ?_⟩
  rw [e2 m n hm hn, e4 n m hn hm]
  have c : ∀ (f g : Point → ℝ), ∫ r, f r * (-(1 / 2) * g r) = -(1 / 2) * ∫ r, f r * g r := by
    intro f g
    rw [← integral_const_mul]
    congr 1
    funext r
    ring
  rw [c, c, kinetic_hermitian A B pA pB]

/-! ## C19 -/

/-- **C19** (value). Every element of the matrix of direction `k` is the imaginary part of `⟨A| -i ∂_k |B⟩`. -/
theorem momentum_true (k : Fin 3) (A B : Shell) (hA : A.WF) (hB : B.WF) (lA : A.Listed) (lB : B.Listed) (pA : A.Pos)
    (pB : B.Pos) (hLA : A.L ≤ 9) (hLB : B.L ≤ 9) (out : List ℝ) (hlen : A.cart_size * B.cart_size ≤ out.length) :
    ∃ out', momentumIntegrals k A B out = .ok out' ∧ out'.length = out.length ∧
      (∀ m n, m < A.cart_size → n < B.cart_size → out'[m * B.cart_size + n]? = some
        (∫ r, (basisFn A m r : ℂ) * (-Complex.I * (pderiv k (basisFn B n) r : ℂ))).im) ∧
      (∀ p, A.cart_size * B.cart_size ≤ p → out'[p]? = out[p]?) := by
  let D : ℝ → ℝ → Fin 3 → Nat → Nat → ℝ := fun a b c i j => gauss1dB a b (A.origin c) (B.origin c) i j
  let f : ℝ → ℝ → Fin 3 → Nat → Nat → ℝ := fun a b c i j => gauss1 a b (A.origin c) (B.origin c) i j
  obtain ⟨out', h1, h2, h3, h4⟩ := contract_spec A B hA hB (momentumPrim k A B)
    (fun a b m n => -gaussianNormFactor A.L 0 0 a * gaussianNormFactor B.L 0 0 b *
      (if k = 0 then D a b 0 (A.comp m).1 (B.comp n).1 else f a b 0 (A.comp m).1 (B.comp n).1) *
      (if k = 1 then D a b 1 (A.comp m).2.1 (B.comp n).2.1 else f a b 1 (A.comp m).2.1 (B.comp n).2.1) *
      (if k = 2 then D a b 2 (A.comp m).2.2 (B.comp n).2.2 else f a b 2 (A.comp m).2.2 (B.comp n).2.2)) out
    (fun i j buf hi hj hb => momentumPrim_spec k A B lA lB (Nat.lt_succ_of_le hLA) (Nat.lt_succ_of_le hLB) _ _ _
      (gauss1_pairRel (add_pos (pA.at hi) (pB.at hj)) _ _) buf hb (D _ _)
      (fun c i' j' => by
        have := gauss1dA_eq (add_pos (pA.at hi) (pB.at hj)) (A.origin c) (B.origin c) i' j'
        unfold gauss1dA at this
        show gauss1dB _ _ _ _ _ _ = _
        linarith)) hlen
  refine ⟨out', h1, h3, fun m n hm hn => ?_, h4⟩
  rw [h2 m n hm hn]
  have e : ∀ r, (basisFn A m r : ℂ) * (-Complex.I * (pderiv k (basisFn B n) r : ℂ)) =
      -Complex.I * ((basisFn A m r * pderiv k (basisFn B n) r : ℝ) : ℂ) := by
    intro r; push_cast; ring
  simp only [e]
  rw [integral_const_mul, integral_complex_ofReal, (integral_momentum k A B pA pB m n).2]
  congr 1
  simp only [Complex.mul_im, Complex.neg_re, Complex.neg_im, Complex.I_re, Complex.I_im, neg_zero, zero_mul,
    zero_add]
  rw [Complex.ofReal_re, Finset.mul_sum]
  refine Finset.sum_congr rfl fun i _ => ?_
  rw [Finset.mul_sum]
  refine Finset.sum_congr rfl fun j _ => ?_
  simp only [Fin.prod_univ_three, Comp.exp_zero, Comp.exp_one, Comp.exp_two, Shell.weight, D, f,
    eq_comm (b := k)]
  ring

/-- **C19** (antisymmetry). Exchanging the shells transposes the matrix and changes its sign. -/
theorem momentum_antisymmetric (k : Fin 3) (A B : Shell) (hA : A.WF) (hB : B.WF) (lA : A.Listed) (lB : B.Listed)
    (pA : A.Pos) (pB : B.Pos) (hLA : A.L ≤ 9) (hLB : B.L ≤ 9) (out1 out2 : List ℝ)
    (h1 : A.cart_size * B.cart_size ≤ out1.length) (h2 : B.cart_size * A.cart_size ≤ out2.length) :
    ∃ M N, momentumIntegrals k A B out1 = .ok M ∧ momentumIntegrals k B A out2 = .ok N ∧
      ∀ m n, m < A.cart_size → n < B.cart_size →
        ∃ x, M[m * B.cart_size + n]? = some x ∧ N[n * A.cart_size + m]? = some (-x) := by
  obtain ⟨M, e1, -, e2, -⟩ := momentum_true k A B hA hB lA lB pA pB hLA hLB out1 h1
  obtain ⟨N, e3, -, e4, -⟩ := momentum_true k B A hB hA lB lA pB pA hLB hLA out2 h2
  refine ⟨M, N, e1, e3, fun m n hm hn => ⟨_, e2 m n hm hn, ?_⟩⟩
  rw [e4 n m hn hm]
  have e : ∀ (f g : Point → ℝ), (∫ r, (f r : ℂ) * (-Complex.I * (g r : ℂ))).im = -∫ r, f r * g r := by
    intro f g
    have : ∀ r, (f r : ℂ) * (-Complex.I * (g r : ℂ)) = -Complex.I * ((f r * g r : ℝ) : ℂ) := by
      intro r; push_cast; ring
    simp only [this]
    rw [integral_const_mul, integral_complex_ofReal]
    simp
  rw [e, e, (integral_momentum k A B pA pB m n).2, (integral_momentum k B A pB pA n m).2, neg_neg]
  congr 1
  rw [Finset.sum_comm, ← Finset.sum_neg_distrib]
  refine Finset.sum_congr rfl fun i hi => ?_
  rw [← Finset.sum_neg_distrib]
  refine Finset.sum_congr rfl fun j hj => ?_
  have hp := pos_add pA pB hi hj
  have sym : ∀ k' i' j', gauss1 (B.alphaAt j) (A.alphaAt i) (B.origin k') (A.origin k') j' i' =
      gauss1 (A.alphaAt i) (B.alphaAt j) (A.origin k') (B.origin k') i' j' := by
    intro k' i' j'
    unfold gauss1
    congr 1
    funext x
    rw [add_comm (-A.alphaAt i * _)]
    ring
  have dsym : ∀ k' i' j', gauss1dB (B.alphaAt j) (A.alphaAt i) (B.origin k') (A.origin k') j' i' =
      -gauss1dB (A.alphaAt i) (B.alphaAt j) (A.origin k') (B.origin k') i' j' := by
    intro k' i' j'
    rw [← gauss1dA_eq hp]
    unfold gauss1dB gauss1dA
    simp only [sym]
  rw [mul_comm (B.weight j)]
  simp only [sym, dsym, Fin.prod_univ_three]
  fin_cases k <;> simp

/-- The integrals in C12, C17 and C19 exist (Lean's `∫` is `0` for functions that are not integrable). -/
theorem one_electron_integrable (k : Fin 3) (A B : Shell) (pA : A.Pos) (pB : B.Pos) (m n : Nat) :
    Integrable (fun r => basisFn A m r * basisFn B n r) ∧
    Integrable (fun r => basisFn A m r * pderiv k (basisFn B n) r) ∧
    Integrable (fun r => basisFn A m r * laplacian (basisFn B n) r) := by
  refine ⟨?_, (integral_momentum k A B pA pB m n).1, ?_⟩
  · rw [basisFn_eq A m, basisFn_eq B n]
    exact (integral_sum_prod3 _ _ _ _ (A.factor m) (B.factor n) fun i hi j hj k =>
      integrable_gfun_mul (pos_add pA pB hi hj) _ _ _ _).1
  · unfold laplacian
    simp only [Finset.mul_sum]
    exact integrable_finsetSum _ fun k _ => (integral_second k A B pA pB m n).1

/-! ## Non-vacuity -/

/-- A concrete shell: one p-type contraction of two primitives. -/
noncomputable def exampleShell : Shell where
  L := 1
  origin := ![0, 1, 2]
  cart_size := 3
  cartList := [(1, 0, 0), (0, 1, 0), (0, 0, 1)]
  num := 2
  coeffs := [1, 1 / 2]
  alpha := [2, 3]

theorem exampleShell_ready : exampleShell.Ready ∧ exampleShell.Pos := by
  refine ⟨⟨⟨by simp [exampleShell], by simp [exampleShell]⟩, ⟨by simp [exampleShell], ?_⟩, by simp [exampleShell]⟩, ?_⟩
  · simp [exampleShell]
  · intro i hi
    have : i = 0 ∨ i = 1 := by simp only [exampleShell] at hi; omega
    rcases this with rfl | rfl <;> simp [exampleShell]

example : ∃ A B : Shell, A.WF ∧ B.WF ∧ A.Listed ∧ B.Listed ∧ A.Pos ∧ B.Pos ∧ A.L ≤ 9 ∧ B.L ≤ 9 ∧
    A.cart_size * B.cart_size ≤ (List.replicate 9 (0 : ℝ)).length :=
  ⟨exampleShell, exampleShell, exampleShell_ready.1.wf, exampleShell_ready.1.wf, exampleShell_ready.1.listed,
    exampleShell_ready.1.listed, exampleShell_ready.2, exampleShell_ready.2, exampleShell_ready.1.small,
    exampleShell_ready.1.small, by simp [exampleShell]⟩

/-- The overflow is reached from the public constructor with the documented maximum `L = 10`. -/
example (out : List ℝ) (h : 66 * 66 ≤ out.length) :
    ∃ s, newShell cartesianDirac ![0, 0, 0] 10 1 [1] [1] = .ok s ∧ overlapIntegrals s s out = .ub := by
  have e := new_shell_value cartesianDirac ![0, 0, 0] 10 1 [1] [1] (by simp) (by simp)
  refine ⟨_, e, one_electron_overflow .overlap _ _ ⟨by simp, by simp⟩ ⟨by simp, by simp⟩ (by simp) (by simp)
    (by simp) out ?_⟩
  simpa [cartSize] using h

end Libgrpp
