import Verif.Lemmas.GaussianIntegral
import Mathlib.Analysis.Calculus.IteratedDeriv.Defs

/-! Hermite Gaussians on the line: expansion of `x_A^i x_B^j` times three Gaussians, and integrals against a fourth. -/

namespace Libgrpp

open MeasureTheory Polynomial

/-- Effect on the expansion coefficients of multiplication by `x - Q + X`. -/
noncomputable def raiseOp (q X : ℝ) (e : ℕ → ℝ) : ℕ → ℝ
  | 0 => X * e 0 + e 1
  | t + 1 => e t / (2 * q) + X * e (t + 1) + ((t : ℝ) + 2) * e (t + 2)

/-- Expansion coefficients `E^{ij}_t`. -/
noncomputable def hermE (q XA XB K : ℝ) : ℕ → ℕ → ℕ → ℝ
  | 0, 0 => fun t => if t = 0 then K else 0
  | 0, j + 1 => raiseOp q XB (hermE q XA XB K 0 j)
  | i + 1, j => raiseOp q XA (hermE q XA XB K i j)

theorem raiseOp_comm (q X Y : ℝ) (e : ℕ → ℝ) : raiseOp q X (raiseOp q Y e) = raiseOp q Y (raiseOp q X e) := by
  funext t
  rcases t with _ | _ | t
  · simp only [raiseOp]; push_cast; ring
  · simp only [raiseOp]; push_cast; ring
  · simp only [raiseOp]; push_cast; ring

theorem hermE_succ_right (q XA XB K : ℝ) (i j : ℕ) :
    hermE q XA XB K i (j + 1) = raiseOp q XB (hermE q XA XB K i j) := by
  induction i with
  | zero => rw [hermE]
  | succ i ih => rw [hermE, ih, raiseOp_comm, ← hermE]

theorem hermE_succ_left (q XA XB K : ℝ) (i j : ℕ) :
    hermE q XA XB K (i + 1) j = raiseOp q XA (hermE q XA XB K i j) := by rw [hermE]

theorem raiseOp_lower {q : ℝ} (hq : q ≠ 0) (X : ℝ) (e : ℕ → ℝ) (t : ℕ) :
    2 * q * ((t : ℝ) + 1) * raiseOp q X e (t + 1) = e t + raiseOp q X (fun t => 2 * q * ((t : ℝ) + 1) * e (t + 1)) t := by
  rcases t with _ | t
  · simp only [raiseOp]; push_cast; field_simp; ring
  · simp only [raiseOp]; push_cast; field_simp; ring

theorem raiseOp_lin (q X : ℝ) (c d : ℝ) (e f : ℕ → ℝ) (t : ℕ) :
    raiseOp q X (fun t => c * e t + d * f t) t = c * raiseOp q X e t + d * raiseOp q X f t := by
  rcases t with _ | t
  · simp only [raiseOp]; ring
  · simp only [raiseOp]; ring

theorem hermE_lower {q : ℝ} (hq : q ≠ 0) (XA XB K : ℝ) (i j t : ℕ) :
    2 * q * ((t : ℝ) + 1) * hermE q XA XB K i j (t + 1) =
      (i : ℝ) * hermE q XA XB K (i - 1) j t + (j : ℝ) * hermE q XA XB K i (j - 1) t := by
  induction i generalizing t with
  | zero =>
    induction j generalizing t with
    | zero => simp [hermE]
    | succ j ih =>
      rw [hermE_succ_right, raiseOp_lower hq]
      have : (fun t : ℕ => 2 * q * ((t : ℝ) + 1) * hermE q XA XB K 0 j (t + 1)) =
          fun t => (j : ℝ) * hermE q XA XB K 0 (j - 1) t + 0 * hermE q XA XB K 0 0 t := by
        funext t; rw [ih]; push_cast; ring
      rw [this, raiseOp_lin]
      rcases j with _ | j
      · simp
      · rw [show j + 1 - 1 = j from rfl, ← hermE_succ_right]; push_cast; ring
  | succ i ih =>
    rw [hermE_succ_left, raiseOp_lower hq]
    have : (fun t : ℕ => 2 * q * ((t : ℝ) + 1) * hermE q XA XB K i j (t + 1)) =
        fun t => (i : ℝ) * hermE q XA XB K (i - 1) j t + (j : ℝ) * hermE q XA XB K i (j - 1) t := by
      funext t; rw [ih]
    rw [this, raiseOp_lin, ← hermE_succ_left q XA XB K i (j - 1)]
    rcases i with _ | i
    · simp
    · rw [show i + 1 - 1 = i from rfl, ← hermE_succ_left]; push_cast; ring

theorem hermE_beyond (q XA XB K : ℝ) (i j t : ℕ) (h : i + j < t) : hermE q XA XB K i j t = 0 := by
  have raise0 : ∀ (X : ℝ) (e : ℕ → ℝ) (N : ℕ), (∀ t, N < t → e t = 0) → ∀ t, N + 1 < t → raiseOp q X e t = 0 := by
    intro X e N he t ht
    rcases t with _ | t
    · omega
    · simp only [raiseOp, he t (by omega), he (t + 1) (by omega), he (t + 2) (by omega)]; ring
  revert t
  induction i with
  | zero =>
    induction j with
    | zero => intro t h; simp only [hermE]; rw [if_neg (by omega)]
    | succ j ih => intro t h; rw [hermE_succ_right]; exact raise0 _ _ (0 + j) (fun t => ih t) t (by omega)
  | succ i ih => intro t h; rw [hermE_succ_left]; exact raise0 _ _ (i + j) (fun t => ih t) t (by omega)

/-! ## Hermite Gaussians -/

/-- `(∂/∂Q)^t exp(-q(x-Q)²)` as a function of `y = x - Q`. -/
noncomputable def herG (q : ℝ) : ℕ → ℝ → ℝ
  | 0, y => Real.exp (-q * y ^ 2)
  | t + 1, y => 2 * q * (y * herG q t y - (t : ℝ) * herG q (t - 1) y)
termination_by t => t
decreasing_by all_goals simp_wf; try omega

theorem herG_zero (q y : ℝ) : herG q 0 y = Real.exp (-q * y ^ 2) := by rw [herG]

theorem herG_succ (q : ℝ) (t : ℕ) (y : ℝ) :
    herG q (t + 1) y = 2 * q * (y * herG q t y - (t : ℝ) * herG q (t - 1) y) := by rw [herG]

theorem herG_hasDerivAt (q : ℝ) (t : ℕ) (y : ℝ) : HasDerivAt (herG q t) (-herG q (t + 1) y) y := by
  induction t using Nat.strong_induction_on generalizing y with
  | _ t ih =>
    rcases t with _ | t
    · have h : HasDerivAt (fun y : ℝ => Real.exp (-q * y ^ 2)) (Real.exp (-q * y ^ 2) * (-q * (2 * y))) y := by
        have := (((hasDerivAt_id y).pow 2).const_mul (-q)).exp
        simpa using this
      have e : herG q 0 = fun y => Real.exp (-q * y ^ 2) := funext fun y => herG_zero q y
      rw [e]
      refine h.congr_deriv ?_
      rw [herG_succ, herG_zero]; push_cast; ring
    · have e : herG q (t + 1) = fun y => 2 * q * (y * herG q t y - (t : ℝ) * herG q (t - 1) y) :=
        funext fun y => herG_succ q t y
      have h1 := ih t (by omega) y
      rcases t with _ | t
      · have h := ((hasDerivAt_id y).mul h1).const_mul (2 * q)
        have e' : herG q (0 + 1) = fun y => 2 * q * (((id : ℝ → ℝ) * herG q 0) y) := by
          rw [e]; funext y; simp
        rw [e']
        refine h.congr_deriv ?_
        rw [herG_succ q (0 + 1)]
        simp only [id, zero_add, Nat.sub_self]
        push_cast; ring
      · have h2 := ih t (by omega) y
        have h := (((hasDerivAt_id y).mul h1).sub (h2.const_mul (((t + 1 : ℕ) : ℝ)))).const_mul (2 * q)
        rw [e]
        refine h.congr_deriv ?_
        rw [herG_succ q (t + 1 + 1)]
        simp only [id, Nat.add_sub_cancel]
        push_cast; ring

theorem herG_center_deriv (q x : ℝ) (t : ℕ) :
    iteratedDeriv t (fun Q => Real.exp (-q * (x - Q) ^ 2)) = fun Q => herG q t (x - Q) := by
  induction t with
  | zero => funext Q; rw [iteratedDeriv_zero, herG_zero]
  | succ t ih =>
    rw [iteratedDeriv_succ, ih]
    funext Q
    have h := (herG_hasDerivAt q t (x - Q)).comp Q ((hasDerivAt_id Q).const_sub x)
    have := h.deriv
    rw [show (fun Q => herG q t (x - Q)) = herG q t ∘ HSub.hSub x from rfl, this]
    ring

theorem herG_expand {q : ℝ} (hq : q ≠ 0) (X y : ℝ) (e : ℕ → ℝ) (M : ℕ) :
    ∑ t ∈ Finset.range (M + 1), raiseOp q X e t * herG q t y =
      (y + X) * (∑ t ∈ Finset.range (M + 1), e t * herG q t y) + ((M : ℝ) + 1) * e (M + 1) * herG q M y
        - e M * herG q (M + 1) y / (2 * q) := by
  induction M with
  | zero =>
    simp only [zero_add, Finset.sum_range_one, raiseOp, herG_succ]
    field_simp
    simp
    ring
  | succ M ih =>
    rw [Finset.sum_range_succ, ih, Finset.sum_range_succ _ (M + 1), herG_succ q (M + 1)]
    simp only [raiseOp, Nat.add_sub_cancel]
    push_cast
    field_simp
    ring

theorem hermE_expand {q : ℝ} (hq : q ≠ 0) (A B Q K x : ℝ) (i j M : ℕ) (hM : i + j < M) :
    (x - A) ^ i * (x - B) ^ j * (K * Real.exp (-q * (x - Q) ^ 2)) =
      ∑ t ∈ Finset.range M, hermE q (Q - A) (Q - B) K i j t * herG q t (x - Q) := by
  have step : ∀ (X : ℝ) (e : ℕ → ℝ) (N : ℕ), (∀ t, N < t → e t = 0) →
      (∀ M, N < M → ∀ f : ℝ, f = ∑ t ∈ Finset.range M, e t * herG q t (x - Q) →
        ∀ M', N + 1 < M' → (x - Q + X) * f = ∑ t ∈ Finset.range M', raiseOp q X e t * herG q t (x - Q)) := by
    intro X e N he M hM f hf M' hM'
    obtain ⟨M'', rfl⟩ : ∃ M'', M' = M'' + 1 := ⟨M' - 1, by omega⟩
    rw [herG_expand hq, he M'' (by omega), he (M'' + 1) (by omega), hf]
    have : ∑ t ∈ Finset.range M, e t * herG q t (x - Q) = ∑ t ∈ Finset.range (M'' + 1), e t * herG q t (x - Q) := by
      have aux : ∀ n, N < n → ∑ t ∈ Finset.range n, e t * herG q t (x - Q) =
          ∑ t ∈ Finset.range (N + 1), e t * herG q t (x - Q) := by
        intro n hn
        refine (Finset.sum_subset (Finset.range_subset_range.2 (by omega)) ?_).symm
        intro t _ ht
        rw [he t (by simp at ht; omega)]; ring
      rw [aux M hM, aux (M'' + 1) (by omega)]
    rw [this]; ring
  induction i generalizing M with
  | zero =>
    induction j generalizing M with
    | zero =>
      simp only [pow_zero, one_mul, hermE]
      rw [Finset.sum_eq_single 0]
      · rw [if_pos rfl, herG_zero]
      · intro t _ ht; rw [if_neg ht]; ring
      · intro h; exact absurd (Finset.mem_range.2 (by omega)) h
    | succ j ih =>
      rw [hermE_succ_right]
      have := step (Q - B) _ (0 + j) (fun t ht => hermE_beyond q (Q - A) (Q - B) K 0 j t ht) (0 + j + 1) (by omega) _
        (ih (0 + j + 1) (by omega)) M (by omega)
      rw [← this]; ring
  | succ i ih =>
    rw [hermE_succ_left]
    have := step (Q - A) _ (i + j) (fun t ht => hermE_beyond q (Q - A) (Q - B) K i j t ht) (i + j + 1) (by omega) _
      (ih (i + j + 1) (by omega)) M (by omega)
    rw [← this]; ring

/-- The product of three Gaussians is a multiple of a Gaussian. -/
theorem gauss_product3 {a b c : ℝ} (hq : a + b + c ≠ 0) (A B C x : ℝ) :
    Real.exp (-a * (x - A) ^ 2 + -b * (x - B) ^ 2 + -c * (x - C) ^ 2) =
      Real.exp (-(a * b / (a + b + c)) * (A - B) * (A - B)) * Real.exp (-(a * c / (a + b + c)) * (A - C) * (A - C)) *
        Real.exp (-(b * c / (a + b + c)) * (B - C) * (B - C)) *
        Real.exp (-(a + b + c) * (x - (a * A + b * B + c * C) / (a + b + c)) ^ 2) := by
  rw [← Real.exp_add, ← Real.exp_add, ← Real.exp_add]
  congr 1
  field_simp
  ring

/-! ## Integrals against a Gaussian -/

/-- `herG q t` is a polynomial times the Gaussian. -/
theorem herG_poly (q : ℝ) (t : ℕ) : ∃ P : ℝ[X], ∀ y, herG q t y = P.eval y * Real.exp (-q * y ^ 2) := by
  induction t using Nat.strong_induction_on with
  | _ t ih =>
    rcases t with _ | t
    · exact ⟨1, fun y => by rw [herG_zero]; simp⟩
    · obtain ⟨P, hP⟩ := ih t (by omega)
      obtain ⟨P', hP'⟩ := ih (t - 1) (by omega)
      refine ⟨C (2 * q) * (X * P - C (t : ℝ) * P'), fun y => ?_⟩
      rw [herG_succ, hP, hP']
      simp only [eval_mul, eval_sub, eval_C, eval_X]
      ring

/-- `(∂/∂X)^t exp(-pX²)`. -/
noncomputable def dgs (p : ℝ) : ℕ → ℝ → ℝ
  | 0, X => Real.exp (-p * X ^ 2)
  | t + 1, X => -2 * p * (X * dgs p t X + (t : ℝ) * dgs p (t - 1) X)
termination_by t => t
decreasing_by all_goals simp_wf; try omega

theorem dgs_zero (p X : ℝ) : dgs p 0 X = Real.exp (-p * X ^ 2) := by rw [dgs]

theorem dgs_succ (p : ℝ) (t : ℕ) (X : ℝ) :
    dgs p (t + 1) X = -2 * p * (X * dgs p t X + (t : ℝ) * dgs p (t - 1) X) := by rw [dgs]

theorem integrable_herG_mul {q s : ℝ} (h : 0 < q + s) (t : ℕ) (Q C : ℝ) :
    Integrable fun x => herG q t (x - Q) * Real.exp (-s * (x - C) ^ 2) := by
  obtain ⟨P, hP⟩ := herG_poly q t
  have := integrable_poly_gauss2 (P.comp (X - Polynomial.C Q)) h Q C
  refine this.congr (Filter.Eventually.of_forall fun x => ?_)
  simp only [eval_comp, eval_sub, eval_X, eval_C]
  rw [hP, Real.exp_add]; ring

theorem integrable_herG_mul_x {q s : ℝ} (h : 0 < q + s) (t : ℕ) (Q C : ℝ) :
    Integrable fun x => (x - C) * (herG q t (x - Q) * Real.exp (-s * (x - C) ^ 2)) := by
  obtain ⟨P, hP⟩ := herG_poly q t
  have := integrable_poly_gauss2 ((X - Polynomial.C C) * P.comp (X - Polynomial.C Q)) h Q C
  refine this.congr (Filter.Eventually.of_forall fun x => ?_)
  simp only [eval_mul, eval_comp, eval_sub, eval_X, eval_C]
  rw [hP, Real.exp_add]; ring

theorem integral_herG_mul {q s : ℝ} (hq : 0 < q) (hs : 0 ≤ s) (t : ℕ) (Q C : ℝ) :
    ∫ x, herG q t (x - Q) * Real.exp (-s * (x - C) ^ 2) =
      Real.sqrt (Real.pi / (q + s)) * dgs (q * s / (q + s)) t (Q - C) := by
  have hp : 0 < q + s := by linarith
  induction t using Nat.strong_induction_on with
  | _ t ih =>
    rcases t with _ | t
    · have := gauss1_zero hp Q C
      unfold gauss1 at this
      simp only [pow_zero, one_mul] at this
      simp only [herG_zero, ← Real.exp_add, dgs_zero]
      rw [this]
      congr 2; ring
    · have hI := integrable_herG_mul hp
      have hd : ∀ x, HasDerivAt (fun x => herG q t (x - Q) * Real.exp (-s * (x - C) ^ 2))
          (-(herG q (t + 1) (x - Q) * Real.exp (-s * (x - C) ^ 2)) +
            -2 * s * ((x - C) * (herG q t (x - Q) * Real.exp (-s * (x - C) ^ 2)))) x := by
        intro x
        have h1 := (herG_hasDerivAt q t (x - Q)).comp x ((hasDerivAt_id x).sub_const Q)
        have h2 := ((((hasDerivAt_id x).sub_const C).pow 2).const_mul (-s)).exp
        refine (h1.mul h2).congr_deriv ?_
        simp only [Function.comp, id, Pi.pow_apply]
        push_cast; ring
      have hint := (hI (t + 1) Q C).neg.add ((integrable_herG_mul_x hp t Q C).const_mul (-2 * s))
      have h0 := integral_eq_zero_of_hasDerivAt_of_integrable hd hint (hI t Q C)
      rw [integral_add (f := fun x => -(herG q (t + 1) (x - Q) * Real.exp (-s * (x - C) ^ 2))) (hI (t + 1) Q C).neg
        ((integrable_herG_mul_x hp t Q C).const_mul (-2 * s)), integral_neg, integral_const_mul] at h0
      have hx : ∫ x, (x - C) * (herG q t (x - Q) * Real.exp (-s * (x - C) ^ 2)) =
          1 / (2 * q) * (∫ x, herG q (t + 1) (x - Q) * Real.exp (-s * (x - C) ^ 2)) +
            (t : ℝ) * (∫ x, herG q (t - 1) (x - Q) * Real.exp (-s * (x - C) ^ 2)) +
            (Q - C) * ∫ x, herG q t (x - Q) * Real.exp (-s * (x - C) ^ 2) := by
        have k1 := (hI (t + 1) Q C).const_mul (1 / (2 * q))
        have k2 := (hI (t - 1) Q C).const_mul (t : ℝ)
        rw [← integral_const_mul, ← integral_const_mul, ← integral_const_mul, ← integral_add k1 k2,
          ← integral_add (f := fun x => 1 / (2 * q) * (herG q (t + 1) (x - Q) * Real.exp (-s * (x - C) ^ 2)) +
            (t : ℝ) * (herG q (t - 1) (x - Q) * Real.exp (-s * (x - C) ^ 2))) (k1.add k2) ((hI t Q C).const_mul _)]
        congr 1
        funext x
        rw [herG_succ]
        field_simp
        ring
      rw [hx] at h0
      have i1 := ih t (by omega)
      have i2 := ih (t - 1) (by omega)
      rw [i1, i2] at h0
      rw [dgs_succ]
      have hne := hq.ne'
      have hne2 := hp.ne'
      field_simp at h0 ⊢
      linear_combination (-1) * h0

/-- The one-dimensional integrals of the McMurchie-Davidson scheme. -/
theorem integral_herm {a b c s : ℝ} (hq : 0 < a + b + c) (hs : 0 ≤ s) (A B C : ℝ) (i j M : ℕ) (hM : i + j < M) :
    Integrable (fun x => (x - A) ^ i * (x - B) ^ j *
      Real.exp (-a * (x - A) ^ 2 + -b * (x - B) ^ 2 + -c * (x - C) ^ 2) * Real.exp (-s * (x - C) ^ 2)) ∧
    ∫ x, (x - A) ^ i * (x - B) ^ j *
        Real.exp (-a * (x - A) ^ 2 + -b * (x - B) ^ 2 + -c * (x - C) ^ 2) * Real.exp (-s * (x - C) ^ 2) =
      Real.sqrt (Real.pi / (a + b + c + s)) * ∑ t ∈ Finset.range M,
        hermE (a + b + c) ((a * A + b * B + c * C) / (a + b + c) - A) ((a * A + b * B + c * C) / (a + b + c) - B)
          (Real.exp (-(a * b / (a + b + c)) * (A - B) * (A - B)) * Real.exp (-(a * c / (a + b + c)) * (A - C) * (A - C)) *
            Real.exp (-(b * c / (a + b + c)) * (B - C) * (B - C))) i j t *
          dgs ((a + b + c) * s / (a + b + c + s)) t ((a * A + b * B + c * C) / (a + b + c) - C) := by
  have e : ∀ x, (x - A) ^ i * (x - B) ^ j *
        Real.exp (-a * (x - A) ^ 2 + -b * (x - B) ^ 2 + -c * (x - C) ^ 2) * Real.exp (-s * (x - C) ^ 2) =
      ∑ t ∈ Finset.range M,
        hermE (a + b + c) ((a * A + b * B + c * C) / (a + b + c) - A) ((a * A + b * B + c * C) / (a + b + c) - B)
          (Real.exp (-(a * b / (a + b + c)) * (A - B) * (A - B)) * Real.exp (-(a * c / (a + b + c)) * (A - C) * (A - C)) *
            Real.exp (-(b * c / (a + b + c)) * (B - C) * (B - C))) i j t *
          (herG (a + b + c) t (x - (a * A + b * B + c * C) / (a + b + c)) * Real.exp (-s * (x - C) ^ 2)) := by
    intro x
    rw [gauss_product3 hq.ne', hermE_expand hq.ne' A B _ _ x i j M hM, Finset.sum_mul]
    refine Finset.sum_congr rfl fun t _ => by ring
  have hI : ∀ t, Integrable fun x => herG (a + b + c) t (x - (a * A + b * B + c * C) / (a + b + c)) *
      Real.exp (-s * (x - C) ^ 2) := fun t => integrable_herG_mul (by linarith) t _ _
  simp only [e]
  refine ⟨integrable_finsetSum _ fun t _ => (hI t).const_mul _, ?_⟩
  rw [integral_finsetSum _ fun t _ => (hI t).const_mul _, Finset.mul_sum]
  refine Finset.sum_congr rfl fun t _ => ?_
  rw [integral_const_mul, integral_herG_mul hq hs]
  ring

end Libgrpp
