import Verif.Lemmas.FloatPrim
import Verif.Lemmas.FloatIeee
import Verif.Props.OneElectron
import Verif.Lemmas.FloatExact

/-! # C94-C96: rounding errors of the routines in `double` arithmetic

`F.Rounds u e`: every operation of the arithmetic `F` returns its exact result up to the relative error `u`, the library functions `exp` and
`pow` up to the relative error `e`, or ends the program (trap on overflow, underflow, invalid operation); `F.pi` is `π` up to `u`. -/

namespace Libgrpp

open MeasureTheory

/-! ## C94 -/

/-- **C94.** IEEE 754 `double` arithmetic satisfies the assumption with `u = 2^(-53)`; `round53` returns a nearest number with 53 binary
digits, and such numbers themselves unchanged. -/
theorem ieee_rounds {exp : ℝ → Outcome ℝ} {pow : ℝ → ℝ → Outcome ℝ} {e : ℝ}
    (hexp : ∀ x, exp x = .abort ∨ ∃ v, exp x = .ok v ∧ |v - Real.exp x| ≤ e * Real.exp x)
    (hpow : ∀ x y, 0 < x → pow x y = .abort ∨ ∃ v, pow x y = .ok v ∧ |v - x ^ y| ≤ e * x ^ y) :
    (Arith.ieee exp pow).Rounds (2 ^ (-53 : ℤ)) e ∧
      (∀ (x : ℝ) (m k : ℤ), |m| < 2 ^ 53 → |round53 x - x| ≤ 2 ^ (Int.log 2 |x| - 53) ∧ round53 ((m : ℝ) * 2 ^ k) = m * 2 ^ k) :=
  ⟨ieee_rounds_aux hexp hpow, fun x m k hm => ⟨round53_abs x, round53_exact m k hm⟩⟩

/-- The overlap integral of two normalised primitives as a product of one-dimensional integrals (`T = gauss1`), or the same product of other functions. -/
noncomputable def overlapPair (T : ℝ → ℝ → ℝ → ℝ → Nat → Nat → ℝ) (A B : Shell) (a b : ℝ) (m n : Nat) : ℝ :=
  gaussianNormFactor A.L 0 0 a * gaussianNormFactor B.L 0 0 b * T a b (A.origin 0) (B.origin 0) (A.comp m).1 (B.comp n).1 *
    T a b (A.origin 1) (B.origin 1) (A.comp m).2.1 (B.comp n).2.1 * T a b (A.origin 2) (B.origin 2) (A.comp m).2.2 (B.comp n).2.2

/-- The kinetic-energy integral of two primitives; `c` is the factor before the normalisation, `D` the one-dimensional second derivative. -/
noncomputable def kineticPair (c : ℝ) (D T : ℝ → ℝ → ℝ → ℝ → Nat → Nat → ℝ) (A B : Shell) (a b : ℝ) (m n : Nat) : ℝ :=
  c * gaussianNormFactor A.L 0 0 a * gaussianNormFactor B.L 0 0 b *
    (D a b (A.origin 0) (B.origin 0) (A.comp m).1 (B.comp n).1 * T a b (A.origin 1) (B.origin 1) (A.comp m).2.1 (B.comp n).2.1 *
        T a b (A.origin 2) (B.origin 2) (A.comp m).2.2 (B.comp n).2.2 +
      T a b (A.origin 0) (B.origin 0) (A.comp m).1 (B.comp n).1 * D a b (A.origin 1) (B.origin 1) (A.comp m).2.1 (B.comp n).2.1 *
        T a b (A.origin 2) (B.origin 2) (A.comp m).2.2 (B.comp n).2.2 +
      T a b (A.origin 0) (B.origin 0) (A.comp m).1 (B.comp n).1 * T a b (A.origin 1) (B.origin 1) (A.comp m).2.1 (B.comp n).2.1 *
        D a b (A.origin 2) (B.origin 2) (A.comp m).2.2 (B.comp n).2.2)

/-- The momentum integral of two primitives; `D` is the one-dimensional first derivative. -/
noncomputable def momentumPair (k : Fin 3) (N : ℝ) (D T : ℝ → ℝ → ℝ → ℝ → Nat → Nat → ℝ) (A B : Shell) (a b : ℝ) (m n : Nat) : ℝ :=
  N * gaussianNormFactor B.L 0 0 b *
    (if k = 0 then D a b (A.origin 0) (B.origin 0) (A.comp m).1 (B.comp n).1 else T a b (A.origin 0) (B.origin 0) (A.comp m).1 (B.comp n).1) *
    (if k = 1 then D a b (A.origin 1) (B.origin 1) (A.comp m).2.1 (B.comp n).2.1 else T a b (A.origin 1) (B.origin 1) (A.comp m).2.1 (B.comp n).2.1) *
    (if k = 2 then D a b (A.origin 2) (B.origin 2) (A.comp m).2.2 (B.comp n).2.2 else T a b (A.origin 2) (B.origin 2) (A.comp m).2.2 (B.comp n).2.2)

/-- Majorant for the overlap integral of two contracted functions: absolute values of the coefficients, and the one-dimensional integrals
replaced by `osMaj`, the recursion with the absolute values of the numbers it adds. -/
noncomputable def overlapMaj (A B : Shell) (m n : Nat) : ℝ :=
  ∑ i ∈ Finset.range A.num, ∑ j ∈ Finset.range B.num, |A.coeffAt i * B.coeffAt j| * overlapPair osMaj A B (A.alphaAt i) (B.alphaAt j) m n

/-- Majorant for the kinetic-energy integral. -/
noncomputable def kineticMaj (A B : Shell) (m n : Nat) : ℝ :=
  ∑ i ∈ Finset.range A.num, ∑ j ∈ Finset.range B.num, |A.coeffAt i * B.coeffAt j| * kineticPair 0.5 osMaj2 osMaj A B (A.alphaAt i) (B.alphaAt j) m n

/-- Majorant for the momentum integral of direction `k`. -/
noncomputable def momentumMaj (k : Fin 3) (A B : Shell) (m n : Nat) : ℝ :=
  ∑ i ∈ Finset.range A.num, ∑ j ∈ Finset.range B.num, |A.coeffAt i * B.coeffAt j| *
    momentumPair k (gaussianNormFactor A.L 0 0 (A.alphaAt i)) osMaj1 osMaj A B (A.alphaAt i) (B.alphaAt j) m n

/-- The shells a rounding theorem speaks about: lengths of the arrays, components of degree at most `L ≤ 9`, positive exponents. -/
structure Shell.FloatReady (s : Shell) : Prop where
  wf : s.WF
  listed : s.Listed
  sumLe : s.SumLe
  pos : s.Pos
  le : s.L ≤ 9

theorem w_le {u : ℝ} (hu : 0 ≤ u) (hu1 : u ≤ 1 / 50) : u / (1 - u) ≤ 1 / 49 := by
  rw [div_le_div_iff₀ (by linarith) (by norm_num)]
  linarith

/-- **C94.** Every element of the overlap matrix computed in floating-point arithmetic differs from the integral over all space by at most
`exp ε - 1` times the majorant, `ε` linear in the unit roundoffs; nothing outside the matrix is written; or a trap ends the program.
`Θ` bounds the exponents `α β / (α + β) |A - B|²`. -/
theorem overlap_rounding (F : Arith) {u e Θ : ℝ} (hF : F.Rounds u e) (hu : 0 ≤ u) (hu1 : u ≤ 1 / 50) (he : 0 ≤ e) (he1 : e < 1) (A B : Shell)
    (hA : A.FloatReady) (hB : B.FloatReady) (hΘ0 : 0 ≤ Θ)
    (hΘ : ∀ i j, i < A.num → j < B.num → A.alphaAt i * B.alphaAt j / (A.alphaAt i + B.alphaAt j) * ∑ c, (A.origin c - B.origin c) ^ 2 ≤ Θ)
    (out : List ℝ) (hlen : A.cart_size * B.cart_size ≤ out.length) :
    flOverlap F A B out = .abort ∨ ∃ out', flOverlap F A B out = .ok out' ∧ out'.length = out.length ∧
      (∀ m n, m < A.cart_size → n < B.cart_size → ∃ v, out'[m * B.cart_size + n]? = some v ∧
        |v - ∫ r, basisFn A m r * basisFn B n r| ≤
          (Real.exp ((26 + 8 * Θ + 19 / 2 * (A.L + B.L) + A.num * B.num) * (u / (1 - u)) + 7 * (e / (1 - e))) - 1) * overlapMaj A B m n) ∧
      (∀ p, A.cart_size * B.cart_size ≤ p → out'[p]? = out[p]?) := by
  have hacc := hF.acc hu (by linarith) he he1
  have hw1 := w_le hu hu1
  have h := orTrap_contract_pairs hacc A B hA.wf hB.wf (flOverlapPrim F A B) (overlapPair gauss1 A B) (overlapPair osMaj A B)
    ((24 + 8 * Θ + 19 / 2 * (A.L + B.L)) * (u / (1 - u)) + 7 * (e / (1 - e)))
    (by have := hacc.nonneg; have := hacc.nonneg'; positivity) out
    (fun i j buf hi hj hb => flOverlapPrim_ok hacc hw1 A B hA.listed hB.listed hA.sumLe hB.sumLe (Nat.lt_succ_of_le hA.le) (Nat.lt_succ_of_le hB.le)
      (hA.pos.at hi) (hB.pos.at hj) (hΘ i j hi hj) buf hb) hlen
  refine h.mono ?_
  rintro out' ⟨h1, h2⟩
  refine ⟨h2.1, fun m n hm hn => ?_, h2.2⟩
  obtain ⟨v, e1, e2⟩ := h1 m n hm hn
  refine ⟨v, e1, ?_⟩
  rw [integral_overlap A B hA.pos hB.pos]
  exact (e2.mono (e' := (26 + 8 * Θ + 19 / 2 * (A.L + B.L) + A.num * B.num) * (u / (1 - u)) + 7 * (e / (1 - e))) (le_of_eq (by ring))).err

/-- **C94.** The same for the kinetic-energy integrals. -/
theorem kinetic_rounding (F : Arith) {u e Θ : ℝ} (hF : F.Rounds u e) (hu : 0 ≤ u) (hu1 : u ≤ 1 / 50) (he : 0 ≤ e) (he1 : e < 1) (A B : Shell)
    (hA : A.FloatReady) (hB : B.FloatReady) (hΘ0 : 0 ≤ Θ)
    (hΘ : ∀ i j, i < A.num → j < B.num → A.alphaAt i * B.alphaAt j / (A.alphaAt i + B.alphaAt j) * ∑ c, (A.origin c - B.origin c) ^ 2 ≤ Θ)
    (out : List ℝ) (hlen : A.cart_size * B.cart_size ≤ out.length) :
    flKinetic F A B out = .abort ∨ ∃ out', flKinetic F A B out = .ok out' ∧ out'.length = out.length ∧
      (∀ m n, m < A.cart_size → n < B.cart_size → ∃ v, out'[m * B.cart_size + n]? = some v ∧
        |v - ∫ r, basisFn A m r * (-(1 / 2) * laplacian (basisFn B n) r)| ≤
          (Real.exp ((53 + 8 * Θ + 19 / 2 * (A.L + B.L) + A.num * B.num) * (u / (1 - u)) + 7 * (e / (1 - e))) - 1) * kineticMaj A B m n) ∧
      (∀ p, A.cart_size * B.cart_size ≤ p → out'[p]? = out[p]?) := by
  have hacc := hF.acc hu (by linarith) he he1
  have hw1 := w_le hu hu1
  let D : ℝ → ℝ → ℝ → ℝ → Nat → Nat → ℝ := fun a b x y i j =>
    4 * a * a * gauss1 a b x y (i + 2) j - 2 * a * (2 * (i : ℝ) + 1) * gauss1 a b x y i j + (i : ℝ) * ((i : ℝ) - 1) * gauss1 a b x y (i - 2) j
  obtain ⟨ex, x1, x2, x3, x4⟩ := contract_spec A B hA.wf hB.wf (kineticPrim A B) (kineticPair (-0.5) D gauss1 A B) out
    (fun i j buf hi hj hb => kineticPrim_spec A B hA.listed hB.listed (Nat.lt_succ_of_le hA.le) (Nat.lt_succ_of_le hB.le) _ _ _
      (gauss1_pairRel (add_pos (hA.pos.at hi) (hB.pos.at hj)) _ _) buf hb (fun c => D _ _ (A.origin c) (B.origin c)) (fun c i' j' => rfl)) hlen
  obtain ⟨ex', y1, -, y3, -⟩ := kinetic_true A B hA.wf hB.wf hA.listed hB.listed hA.pos hB.pos hA.le hB.le out hlen
  have exx : ex = ex' := by
    have := x1.symm.trans y1
    injection this
  subst exx
  have h := orTrap_contract_pairs hacc A B hA.wf hB.wf (flKineticPrim F A B) (kineticPair (-0.5) D gauss1 A B) (kineticPair 0.5 osMaj2 osMaj A B)
    ((51 + 8 * Θ + 19 / 2 * (A.L + B.L)) * (u / (1 - u)) + 7 * (e / (1 - e)))
    (by have := hacc.nonneg; have := hacc.nonneg'; positivity) out
    (fun i j buf hi hj hb => flKineticPrim_ok hacc hw1 A B hA.listed hB.listed hA.sumLe hB.sumLe (Nat.lt_succ_of_le hA.le) (Nat.lt_succ_of_le hB.le)
      (hA.pos.at hi) (hB.pos.at hj) (hΘ i j hi hj) buf hb (fun c => D _ _ (A.origin c) (B.origin c)) (fun c i' j' => rfl)) hlen
  refine h.mono ?_
  rintro out' ⟨h1, h2⟩
  refine ⟨h2.1, fun m n hm hn => ?_, h2.2⟩
  obtain ⟨v, e1, e2⟩ := h1 m n hm hn
  refine ⟨v, e1, ?_⟩
  have e4 := (x2 m n hm hn).symm.trans (y3 m n hm hn)
  rw [← Option.some.inj e4]
  exact (e2.mono (e' := (53 + 8 * Θ + 19 / 2 * (A.L + B.L) + A.num * B.num) * (u / (1 - u)) + 7 * (e / (1 - e))) (le_of_eq (by ring))).err

/-- **C94.** The same for the momentum integrals of direction `k`. -/
theorem momentum_rounding (F : Arith) {u e Θ : ℝ} (hF : F.Rounds u e) (hu : 0 ≤ u) (hu1 : u ≤ 1 / 50) (he : 0 ≤ e) (he1 : e < 1) (k : Fin 3) (A B : Shell)
    (hA : A.FloatReady) (hB : B.FloatReady) (hΘ0 : 0 ≤ Θ)
    (hΘ : ∀ i j, i < A.num → j < B.num → A.alphaAt i * B.alphaAt j / (A.alphaAt i + B.alphaAt j) * ∑ c, (A.origin c - B.origin c) ^ 2 ≤ Θ)
    (out : List ℝ) (hlen : A.cart_size * B.cart_size ≤ out.length) :
    flMomentum F k A B out = .abort ∨ ∃ out', flMomentum F k A B out = .ok out' ∧ out'.length = out.length ∧
      (∀ m n, m < A.cart_size → n < B.cart_size → ∃ v, out'[m * B.cart_size + n]? = some v ∧
        |v - (∫ r, (basisFn A m r : ℂ) * (-Complex.I * (pderiv k (basisFn B n) r : ℂ))).im| ≤
          (Real.exp ((39 + 8 * Θ + 19 / 2 * (A.L + B.L) + A.num * B.num) * (u / (1 - u)) + 7 * (e / (1 - e))) - 1) * momentumMaj k A B m n) ∧
      (∀ p, A.cart_size * B.cart_size ≤ p → out'[p]? = out[p]?) := by
  have hacc := hF.acc hu (by linarith) he he1
  have hw1 := w_le hu hu1
  let D : ℝ → ℝ → ℝ → ℝ → Nat → Nat → ℝ := fun a b x y i j => 2 * a * gauss1 a b x y (i + 1) j - (i : ℝ) * gauss1 a b x y (i - 1) j
  obtain ⟨ex, x1, x2, x3, x4⟩ := contract_spec A B hA.wf hB.wf (momentumPrim k A B) (fun a b => momentumPair k (-gaussianNormFactor A.L 0 0 a) D gauss1 A B a b) out
    (fun i j buf hi hj hb => momentumPrim_spec k A B hA.listed hB.listed (Nat.lt_succ_of_le hA.le) (Nat.lt_succ_of_le hB.le) _ _ _
      (gauss1_pairRel (add_pos (hA.pos.at hi) (hB.pos.at hj)) _ _) buf hb (fun c => D _ _ (A.origin c) (B.origin c)) (fun c i' j' => rfl)) hlen
  obtain ⟨ex', y1, -, y3, -⟩ := momentum_true k A B hA.wf hB.wf hA.listed hB.listed hA.pos hB.pos hA.le hB.le out hlen
  have exx : ex = ex' := by
    have := x1.symm.trans y1
    injection this
  subst exx
  have h := orTrap_contract_pairs hacc A B hA.wf hB.wf (flMomentumPrim F k A B) (fun a b => momentumPair k (-gaussianNormFactor A.L 0 0 a) D gauss1 A B a b)
    (fun a b => momentumPair k (gaussianNormFactor A.L 0 0 a) osMaj1 osMaj A B a b)
    ((37 + 8 * Θ + 19 / 2 * (A.L + B.L)) * (u / (1 - u)) + 7 * (e / (1 - e)))
    (by have := hacc.nonneg; have := hacc.nonneg'; positivity) out
    (fun i j buf hi hj hb => flMomentumPrim_ok hacc hw1 k A B hA.listed hB.listed hA.sumLe hB.sumLe (Nat.lt_succ_of_le hA.le) (Nat.lt_succ_of_le hB.le)
      (hA.pos.at hi) (hB.pos.at hj) (hΘ i j hi hj) buf hb (fun c => D _ _ (A.origin c) (B.origin c)) (fun c i' j' => rfl)) hlen
  refine h.mono ?_
  rintro out' ⟨h1, h2⟩
  refine ⟨h2.1, fun m n hm hn => ?_, h2.2⟩
  obtain ⟨v, e1, e2⟩ := h1 m n hm hn
  refine ⟨v, e1, ?_⟩
  have e4 := (x2 m n hm hn).symm.trans (y3 m n hm hn)
  rw [← Option.some.inj e4]
  exact (e2.mono (e' := (39 + 8 * Θ + 19 / 2 * (A.L + B.L) + A.num * B.num) * (u / (1 - u)) + 7 * (e / (1 - e))) (le_of_eq (by ring))).err

/-! ## Consequences for `double` -/

/-- For shells of s type with non-negative coefficients the majorant is the integral itself. -/
theorem overlapMaj_s (A B : Shell) (hA : A.FloatReady) (hB : B.FloatReady) (lA : A.L = 0) (lB : B.L = 0)
    (cA : ∀ i < A.num, 0 ≤ A.coeffAt i) (cB : ∀ j < B.num, 0 ≤ B.coeffAt j) {m n : Nat} (hm : m < A.cart_size) (hn : n < B.cart_size) :
    overlapMaj A B m n = ∫ r, basisFn A m r * basisFn B n r := by
  rw [integral_overlap A B hA.pos hB.pos]
  unfold overlapMaj overlapPair
  obtain ⟨a1, a2, a3⟩ := A.comp_le hA.listed hm
  obtain ⟨b1, b2, b3⟩ := B.comp_le hB.listed hn
  refine Finset.sum_congr rfl fun i hi => Finset.sum_congr rfl fun j hj => ?_
  rw [Finset.mem_range] at hi hj
  rw [abs_of_nonneg (mul_nonneg (cA i hi) (cB j hj))]
  have hp : 0 < A.alphaAt i + B.alphaAt j := add_pos (hA.pos i hi) (hB.pos j hj)
  have key : ∀ c, osMaj (A.alphaAt i) (B.alphaAt j) (A.origin c) (B.origin c) 0 0 = gauss1 (A.alphaAt i) (B.alphaAt j) (A.origin c) (B.origin c) 0 0 := by
    intro c
    rw [(gauss1_os hp (A.origin c) (B.origin c)).zero]
    exact (gaussMaj_os hp _ _ _).zero
  rw [show (A.comp m).1 = 0 by omega, show (A.comp m).2.1 = 0 by omega, show (A.comp m).2.2 = 0 by omega,
    show (B.comp n).1 = 0 by omega, show (B.comp n).2.1 = 0 by omega, show (B.comp n).2.2 = 0 by omega, key, key, key]

/-- **C94.** IEEE `double` with `exp` and `pow` accurate to one unit in the last place: for contractions of at most 10 primitives and exponents
`α β / (α + β) |A - B|²` up to 100, every overlap integral is computed with an error below `2·10⁻¹³` times the majorant; for s shells with
non-negative coefficients, with a relative error below `2·10⁻¹³`. -/
theorem overlap_double {exp : ℝ → Outcome ℝ} {pow : ℝ → ℝ → Outcome ℝ}
    (hexp : ∀ x, exp x = .abort ∨ ∃ v, exp x = .ok v ∧ |v - Real.exp x| ≤ 2 ^ (-52 : ℤ) * Real.exp x)
    (hpow : ∀ x y, 0 < x → pow x y = .abort ∨ ∃ v, pow x y = .ok v ∧ |v - x ^ y| ≤ 2 ^ (-52 : ℤ) * x ^ y)
    (A B : Shell) (hA : A.FloatReady) (hB : B.FloatReady) (nA : A.num ≤ 10) (nB : B.num ≤ 10)
    (hΘ : ∀ i j, i < A.num → j < B.num → A.alphaAt i * B.alphaAt j / (A.alphaAt i + B.alphaAt j) * ∑ c, (A.origin c - B.origin c) ^ 2 ≤ 100)
    (out : List ℝ) (hlen : A.cart_size * B.cart_size ≤ out.length) :
    flOverlap (Arith.ieee exp pow) A B out = .abort ∨ ∃ out', flOverlap (Arith.ieee exp pow) A B out = .ok out' ∧
      ∀ m n, m < A.cart_size → n < B.cart_size → ∃ v, out'[m * B.cart_size + n]? = some v ∧
        |v - ∫ r, basisFn A m r * basisFn B n r| ≤ 2e-13 * overlapMaj A B m n ∧
        (A.L = 0 → B.L = 0 → (∀ i < A.num, 0 ≤ A.coeffAt i) → (∀ j < B.num, 0 ≤ B.coeffAt j) →
          |v - ∫ r, basisFn A m r * basisFn B n r| ≤ 2e-13 * ∫ r, basisFn A m r * basisFn B n r) := by
  have hF := (ieee_rounds hexp hpow).1
  have hmain := overlap_rounding (Arith.ieee exp pow) hF (by positivity) (by norm_num) (by positivity) (by norm_num) A B hA hB
    (Θ := 100) (by norm_num) hΘ out hlen
  rcases hmain with h | ⟨out', h1, h2, h3, h4⟩
  · exact .inl h
  refine .inr ⟨out', h1, fun m n hm hn => ?_⟩
  obtain ⟨v, e1, e2⟩ := h3 m n hm hn
  have hmaj : 0 ≤ overlapMaj A B m n := by
    by_contra hneg
    have : 0 < Real.exp ((26 + 8 * 100 + 19 / 2 * (A.L + B.L) + A.num * B.num) * ((2 : ℝ) ^ (-53 : ℤ) / (1 - 2 ^ (-53 : ℤ))) + 7 * (2 ^ (-52 : ℤ) / (1 - 2 ^ (-52 : ℤ)))) - 1 := by
      have := Real.add_one_lt_exp (x := (26 + 8 * 100 + 19 / 2 * ((A.L : ℝ) + B.L) + A.num * B.num) * ((2 : ℝ) ^ (-53 : ℤ) / (1 - 2 ^ (-53 : ℤ))) + 7 * (2 ^ (-52 : ℤ) / (1 - 2 ^ (-52 : ℤ)))) (by
        have h1 : (0 : ℝ) < 2 ^ (-53 : ℤ) / (1 - 2 ^ (-53 : ℤ)) := by norm_num
        have h2 : (0 : ℝ) < 2 ^ (-52 : ℤ) / (1 - 2 ^ (-52 : ℤ)) := by norm_num
        positivity)
      have h1 : (0 : ℝ) < 2 ^ (-53 : ℤ) / (1 - 2 ^ (-53 : ℤ)) := by norm_num
      have h2 : (0 : ℝ) < 2 ^ (-52 : ℤ) / (1 - 2 ^ (-52 : ℤ)) := by norm_num
      have h3 : 0 ≤ (26 + 8 * 100 + 19 / 2 * ((A.L : ℝ) + B.L) + A.num * B.num) * ((2 : ℝ) ^ (-53 : ℤ) / (1 - 2 ^ (-53 : ℤ))) + 7 * (2 ^ (-52 : ℤ) / (1 - 2 ^ (-52 : ℤ))) := by positivity
      linarith
    have := (abs_nonneg _).trans e2
    nlinarith
  have hbound : Real.exp ((26 + 8 * 100 + 19 / 2 * (A.L + B.L) + A.num * B.num) * ((2 : ℝ) ^ (-53 : ℤ) / (1 - 2 ^ (-53 : ℤ))) + 7 * (2 ^ (-52 : ℤ) / (1 - 2 ^ (-52 : ℤ)))) - 1 ≤ 2e-13 := by
    have hL : (A.L : ℝ) + B.L ≤ 18 := by
      have := hA.le; have := hB.le
      exact_mod_cast (by omega : A.L + B.L ≤ 18)
    have hN : (A.num : ℝ) * B.num ≤ 100 := by
      exact_mod_cast (Nat.mul_le_mul nA nB : A.num * B.num ≤ 10 * 10)
    have h1 : (0 : ℝ) < 2 ^ (-53 : ℤ) / (1 - 2 ^ (-53 : ℤ)) := by norm_num
    have hx : (26 + 8 * 100 + 19 / 2 * ((A.L : ℝ) + B.L) + A.num * B.num) * ((2 : ℝ) ^ (-53 : ℤ) / (1 - 2 ^ (-53 : ℤ))) + 7 * (2 ^ (-52 : ℤ) / (1 - 2 ^ (-52 : ℤ))) ≤ 13 / 10 ^ 14 := by
      have : (26 + 8 * 100 + 19 / 2 * ((A.L : ℝ) + B.L) + A.num * B.num) * ((2 : ℝ) ^ (-53 : ℤ) / (1 - 2 ^ (-53 : ℤ))) ≤ 1097 * ((2 : ℝ) ^ (-53 : ℤ) / (1 - 2 ^ (-53 : ℤ))) :=
        mul_le_mul_of_nonneg_right (by linarith) h1.le
      have h2 : (1097 : ℝ) * ((2 : ℝ) ^ (-53 : ℤ) / (1 - 2 ^ (-53 : ℤ))) + 7 * (2 ^ (-52 : ℤ) / (1 - 2 ^ (-52 : ℤ))) ≤ 13 / 10 ^ 14 := by norm_num
      linarith
    have h3 := Real.abs_exp_sub_one_sub_id_le (x := (13 : ℝ) / 10 ^ 14) (by rw [abs_of_nonneg (by norm_num)]; norm_num)
    have h4 := (abs_le.1 h3).2
    have h5 := Real.exp_le_exp.2 hx
    norm_num at h4 ⊢
    linarith
  have e3 := e2.trans (mul_le_mul_of_nonneg_right hbound hmaj)
  refine ⟨v, e1, e3, fun l1 l2 c1 c2 => ?_⟩
  rwa [overlapMaj_s A B hA hB l1 l2 c1 c2 hm hn] at e3

/-! ## C95 -/

/-- **C95.** The value of a radial potential in floating-point arithmetic: error at most `exp ε - 1` times the sum of the absolute values of
the terms. `Θ` bounds the exponents `|α| r²`. -/
theorem potential_rounding (F : Arith) {u e Θ : ℝ} (hF : F.Rounds u e) (hu : 0 ≤ u) (hu1 : u ≤ 1 / 50) (he : 0 ≤ e) (he1 : e < 1) (pot : Potential)
    (h1 : pot.num ≤ pot.powers.length) (h2 : pot.num ≤ pot.coeffs.length) (h3 : pot.num ≤ pot.alpha.length)
    {r : ℝ} (hr : 0 < r) (hΘ0 : 0 ≤ Θ) (hΘ : ∀ i, i < pot.num → |pot.alpha.getD i 0| * r ^ 2 ≤ Θ) :
    flPotentialValue F pot r = .abort ∨ ∃ v, flPotentialValue F pot r = .ok v ∧
      |v - ∑ i ∈ Finset.range pot.num, pot.coeffs.getD i 0 * r ^ (pot.powers.getD i 0 - 2) * Real.exp (-pot.alpha.getD i 0 * r ^ 2)| ≤
        (Real.exp ((2 + 3 * Θ + pot.num) * (u / (1 - u)) + 2 * (e / (1 - e))) - 1) *
          ∑ i ∈ Finset.range pot.num, |pot.coeffs.getD i 0| * r ^ (pot.powers.getD i 0 - 2) * Real.exp (-pot.alpha.getD i 0 * r ^ 2) := by
  have hacc := hF.acc hu (by linarith) he he1
  have hw1 := w_le hu hu1
  exact (orTrap_flPotential hacc (by linarith) pot h1 h2 h3 hr hΘ hΘ0).mono fun v hv => hv.err

/-! ## C96 -/

/-- **C96.** Matrix multiplication in floating-point arithmetic, `C ← C + A B`. -/
theorem matmul_rounding (F : Arith) {u e : ℝ} (hF : F.Rounds u e) (hu : 0 ≤ u) (hu1 : u < 1) (he : 0 ≤ e) (he1 : e < 1) (M N K : Nat) (A B C : List ℝ)
    (hA : M * K ≤ A.length) (hB : K * N ≤ B.length) (hC : M * N ≤ C.length) :
    flMultiplyMatrices F M N K A B C = .abort ∨ ∃ C', flMultiplyMatrices F M N K A B C = .ok C' ∧ C'.length = C.length ∧
      (∀ i j, i < M → j < N → ∃ v, C'[i * N + j]? = some v ∧
        |v - (C.getD (i * N + j) 0 + ∑ k ∈ Finset.range K, A.getD (i * K + k) 0 * B.getD (k * N + j) 0)| ≤
          (Real.exp ((K + 2) * (u / (1 - u))) - 1) *
            (|C.getD (i * N + j) 0| + ∑ k ∈ Finset.range K, |A.getD (i * K + k) 0 * B.getD (k * N + j) 0|)) ∧
      (∀ p, M * N ≤ p → C'[p]? = C[p]?) := by
  have hacc := hF.acc hu hu1 he he1
  refine (orTrap_flMatMul hacc M N K A B C hA hB hC).mono ?_
  rintro C' ⟨h1, h2⟩
  refine ⟨h2.1, fun i j hi hj => ?_, h2.2⟩
  obtain ⟨v, e1, e2⟩ := h1 _ (rowMajor_lt hi hj)
  exact ⟨v, e1, (e2 i j hi hj rfl).err⟩

/-- **C96.** The update of a vector, `y ← y + a x`. -/
theorem daxpy_rounding (F : Arith) {u e : ℝ} (hF : F.Rounds u e) (hu : 0 ≤ u) (hu1 : u < 1) (he : 0 ≤ e) (he1 : e < 1) (n : Nat) (a : ℝ) (x y : List ℝ)
    (hx : n ≤ x.length) (hy : n ≤ y.length) :
    flDaxpy F n a x y = .abort ∨ ∃ y', flDaxpy F n a x y = .ok y' ∧ y'.length = y.length ∧
      (∀ p, p < n → ∃ v, y'[p]? = some v ∧
        |v - (y.getD p 0 + a * x.getD p 0)| ≤ (Real.exp (2 * (u / (1 - u))) - 1) * (|y.getD p 0| + |a * x.getD p 0|)) ∧
      (∀ p, n ≤ p → y'[p]? = y[p]?) := by
  have hacc := hF.acc hu hu1 he he1
  have hw := hacc.nonneg
  have vec : ∀ l : List ℝ, n ≤ l.length → VecQ n l fun p v => v = l.getD p 0 := by
    intro l hl p hp
    exact ⟨l.getD p 0, by simp [List.getD, List.getElem?_eq_getElem (show p < l.length by omega)], rfl⟩
  refine (orTrap_flDaxpy F n a x y _ _ (fun p v => |v - (y.getD p 0 + a * x.getD p 0)| ≤
    (Real.exp (2 * (u / (1 - u))) - 1) * (|y.getD p 0| + |a * x.getD p 0|)) (vec x hx) (vec y hy) ?_).mono ?_
  · rintro p v b hp rfl rfl
    refine (hacc.mul _ _).bind fun t ht => ?_
    refine (hacc.addC ((Close.refl le_rfl _).mono hw) (ht.close le_rfl)).mono fun v hv => ?_
    rw [two_mul]
    exact hv.err
  · rintro y' ⟨h1, h2⟩
    exact ⟨h2.1, h1, h2.2⟩

/-- **C96.** No relative accuracy: in IEEE arithmetic `2^53 · 1 + 1 · 1 + (-2^53) · 1` is computed as 0; the exact value is 1. -/
theorem matmul_cancellation (exp : ℝ → Outcome ℝ) (pow : ℝ → ℝ → Outcome ℝ) :
    flMultiplyMatrices (Arith.ieee exp pow) 1 1 3 [2 ^ 53, 1, -2 ^ 53] [1, 1, 1] [0] = .ok [0] ∧
      multiplyMatrices 1 1 3 [2 ^ 53, 1, -2 ^ 53] [1, 1, 1] [0] = .ok [1] := by
  constructor
  · have a1 : double (2 ^ 53 * 1) = .ok (2 ^ 53) := by
      have := double_exact 1 53 (by norm_num) (by norm_num) (by norm_num)
      norm_num at this ⊢
      exact this
    have a2 : double (0 + 2 ^ 53) = .ok (2 ^ 53) := by rw [zero_add]; rwa [mul_one] at a1
    have a3 : double (1 * 1) = .ok 1 := by
      have := double_exact 1 0 (by norm_num) (by norm_num) (by norm_num)
      norm_num at this ⊢
      exact this
    have a4 : double (2 ^ 53 + 1) = .ok (2 ^ 53) := double_tie
    have a5 : double (-2 ^ 53 * 1) = .ok (-2 ^ 53) := by
      have := double_exact (-1) 53 (by norm_num) (by norm_num) (by norm_num)
      norm_num at this ⊢
      exact this
    have a6 : double 0 = .ok 0 := double_zero
    simp only [flMultiplyMatrices, flMatMulSum, forRange, show List.range 1 = [0] from rfl, show List.range 3 = [0, 1, 2] from rfl, List.foldlM_cons, List.foldlM_nil,
      Arith.ieee, rd, List.getElem?_cons_zero, List.getElem?_cons_succ, Outcome.ok_bind, a1, a2, a3, a4, a5,
      Nat.zero_mul, Nat.zero_add, Nat.mul_one, Nat.one_mul, show (2 : ℝ) ^ 53 + -2 ^ 53 = 0 by ring, add_zero, a6, show (pure 0 : Outcome ℝ) = .ok 0 from rfl]
    rfl
  · simp only [multiplyMatrices, matMulSum, forRange, show List.range 1 = [0] from rfl, show List.range 3 = [0, 1, 2] from rfl, List.foldlM_cons, List.foldlM_nil,
      rd, List.getElem?_cons_zero, List.getElem?_cons_succ, Outcome.ok_bind,
      Nat.zero_mul, Nat.zero_add, Nat.mul_one, Nat.one_mul]
    norm_num [wr]

/-! ## The models in real and in floating-point arithmetic -/

/-- **C94-C96.** With exact arithmetic the floating-point models are the models of the other claims. -/
theorem float_model_exact (A B : Shell) (k : Fin 3) (out : List ℝ) (pot : Potential) (r : ℝ) (M N K n : Nat) (x y z : List ℝ) (a : ℝ) :
    flOverlap Arith.exact A B out = overlapIntegrals A B out ∧ flKinetic Arith.exact A B out = kineticIntegrals A B out ∧
      flMomentum Arith.exact k A B out = momentumIntegrals k A B out ∧ flPotentialValue Arith.exact pot r = potentialValue pot r ∧
      flMultiplyMatrices Arith.exact M N K x y z = multiplyMatrices M N K x y z ∧ flDaxpy Arith.exact n a x y = daxpy n a x y ∧
      Arith.exact.Rounds 0 0 :=
  ⟨flOverlap_exact A B out, flKinetic_exact A B out, flMomentum_exact k A B out, flPotential_exact pot r, flMatMul_exact M N K x y z, flDaxpy_exact n a x y,
    exact_rounds⟩

/-! ## Non-vacuity -/

/-- The contracted p shell of the other examples, and an arithmetic that satisfies the assumption and does not trap. -/
example : exampleShell.FloatReady ∧ Arith.exact.Rounds 0 0 ∧
    ∃ out', flOverlap Arith.exact exampleShell exampleShell (List.replicate 9 0) = .ok out' := by
  refine ⟨⟨exampleShell_ready.1.wf, exampleShell_ready.1.listed, by simp [Shell.SumLe, exampleShell], exampleShell_ready.2, by simp [exampleShell]⟩, exact_rounds, ?_⟩
  rw [flOverlap_exact]
  obtain ⟨out', h, -⟩ := overlap_true exampleShell exampleShell exampleShell_ready.1.wf exampleShell_ready.1.wf exampleShell_ready.1.listed
    exampleShell_ready.1.listed exampleShell_ready.2 exampleShell_ready.2 (by simp [exampleShell]) (by simp [exampleShell]) (List.replicate 9 0) (by simp [exampleShell])
  exact ⟨out', h⟩

/-- Accurate library functions exist: correctly rounded `exp` and `pow`. -/
example : ∃ (exp : ℝ → Outcome ℝ) (pow : ℝ → ℝ → Outcome ℝ), (Arith.ieee exp pow).Rounds (2 ^ (-53 : ℤ)) (2 ^ (-53 : ℤ)) :=
  ⟨fun x => double (Real.exp x), fun x y => double (x ^ y), ieee_rounds_aux
    (fun x => by have := double_or (Real.exp x); rwa [abs_of_pos (Real.exp_pos x)] at this)
    (fun x y hx => by have := double_or (x ^ y); rwa [abs_of_pos (Real.rpow_pos_of_pos hx y)] at this)⟩

/-- A step of the vector update in IEEE arithmetic that does not trap. -/
example (exp : ℝ → Outcome ℝ) (pow : ℝ → ℝ → Outcome ℝ) : flDaxpy (Arith.ieee exp pow) 1 2 [3] [4] = .ok [10] := by
  have a1 : double (2 * 3) = .ok 6 := by
    have := double_exact 6 0 (by norm_num) (by norm_num) (by norm_num)
    norm_num at this ⊢
    exact this
  have a2 : double (4 + 6) = .ok 10 := by
    have := double_exact 10 0 (by norm_num) (by norm_num) (by norm_num)
    norm_num at this ⊢
    exact this
  simp only [flDaxpy, forRange, show List.range 1 = [0] from rfl, List.foldlM_cons, List.foldlM_nil, Arith.ieee, rd, List.getElem?_cons_zero, Outcome.ok_bind, a1, a2]
  rfl

end Libgrpp
