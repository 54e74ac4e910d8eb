import Verif.Lemmas.Type1
import Mathlib.Analysis.Calculus.ParametricIntegral

/-! The tables of the `r⁻¹` and `r⁻²` routines are repeated partial derivatives of the auxiliary functions. -/

namespace Libgrpp

open MeasureTheory Set

theorem dgs_hasDerivAt (p : ℝ) (t : ℕ) (X : ℝ) : HasDerivAt (dgs p t) (dgs p (t + 1) X) X := by
  induction t using Nat.strong_induction_on generalizing X with
  | _ t ih =>
    rcases t with _ | t
    · have h : HasDerivAt (fun y : ℝ => Real.exp (-p * y ^ 2)) (Real.exp (-p * X ^ 2) * (-p * (2 * X))) X := by
        have := (((hasDerivAt_id X).pow 2).const_mul (-p)).exp
        simpa using this
      have e : dgs p 0 = fun y => Real.exp (-p * y ^ 2) := funext fun y => dgs_zero p y
      rw [e]
      refine h.congr_deriv ?_
      rw [dgs_succ, dgs_zero]; push_cast; ring
    · have e : dgs p (t + 1) = fun X => -2 * p * (X * dgs p t X + (t : ℝ) * dgs p (t - 1) X) :=
        funext fun X => dgs_succ p t X
      rw [e]
      have h1 := ih t (by omega) X
      have h2 : HasDerivAt (fun X => (t : ℝ) * dgs p (t - 1) X) ((t : ℝ) * dgs p t X) X := by
        rcases t with _ | t
        · simpa using hasDerivAt_const X (0 : ℝ)
        · simpa using (ih t (by omega) X).const_mul ((t + 1 : ℕ) : ℝ)
      have h3 := (((hasDerivAt_id X).mul h1).add h2).const_mul (-2 * p)
      refine h3.congr_deriv ?_
      rw [dgs_succ p (t + 1)]
      simp only [id, Nat.add_sub_cancel]
      push_cast
      ring

theorem continuous_dgs2 {p : ℝ → ℝ} (hp : Continuous p) (t : ℕ) : Continuous fun z : ℝ × ℝ => dgs (p z.1) t z.2 := by
  induction t using Nat.strong_induction_on with
  | _ t ih =>
    rcases t with _ | t
    · simp only [dgs_zero]; fun_prop
    · simp only [dgs_succ]
      have h1 := ih t (by omega)
      have h2 := ih (t - 1) (by omega)
      fun_prop

theorem hasDerivAt_integral_dgs {p a : ℝ → ℝ} (hp : Continuous p) (ha : Continuous a) (t : ℕ) (X : ℝ) :
    HasDerivAt (fun X => ∫ s in Ioo (0 : ℝ) 1, a s * dgs (p s) t X) (∫ s in Ioo (0 : ℝ) 1, a s * dgs (p s) (t + 1) X) X := by
  have hc : Continuous fun z : ℝ × ℝ => a z.1 * dgs (p z.1) (t + 1) z.2 :=
    (ha.comp continuous_fst).mul (continuous_dgs2 hp (t + 1))
  obtain ⟨M, hM⟩ := ((isCompact_Icc (a := (0 : ℝ)) (b := 1)).prod (isCompact_Icc (a := X - 1) (b := X + 1))).bddAbove_image
    hc.norm.continuousOn
  refine (hasDerivAt_integral_of_dominated_loc_of_deriv_le (μ := volume.restrict (Ioo (0 : ℝ) 1))
    (F := fun X s => a s * dgs (p s) t X) (F' := fun X s => a s * dgs (p s) (t + 1) X) (bound := fun _ => M)
    (s := Icc (X - 1) (X + 1)) (Icc_mem_nhds (by linarith) (by linarith)) ?_ ?_ ?_ ?_ ?_ ?_).2
  · exact Filter.Eventually.of_forall fun Y => (ha.mul (continuous_dgs hp t Y)).aestronglyMeasurable
  · exact integrableOn_unit (ha.mul (continuous_dgs hp t X))
  · exact (ha.mul (continuous_dgs hp (t + 1) X)).aestronglyMeasurable
  · refine (ae_restrict_iff' measurableSet_Ioo).2 (Filter.Eventually.of_forall fun s hs Y hY => ?_)
    exact hM ⟨(s, Y), ⟨⟨hs.1.le, hs.2.le⟩, hY⟩, rfl⟩
  · exact integrableOn_unit continuous_const
  · exact Filter.Eventually.of_forall fun s Y _ => (dgs_hasDerivAt (p s) t Y).const_mul (a s)

/-- Partial derivatives of a superposition of Gaussians. -/
theorem pderiv_dgs3 {p : ℝ → ℝ} (hp : Continuous p) (C : Point) (t u v : ℕ) :
    (pderiv 0 fun P => ∫ s in Ioo (0 : ℝ) 1, dgs3 (p s) t u v fun k => P k - C k) =
      (fun P => ∫ s in Ioo (0 : ℝ) 1, dgs3 (p s) (t + 1) u v fun k => P k - C k) ∧
    (pderiv 1 fun P => ∫ s in Ioo (0 : ℝ) 1, dgs3 (p s) t u v fun k => P k - C k) =
      (fun P => ∫ s in Ioo (0 : ℝ) 1, dgs3 (p s) t (u + 1) v fun k => P k - C k) ∧
    (pderiv 2 fun P => ∫ s in Ioo (0 : ℝ) 1, dgs3 (p s) t u v fun k => P k - C k) =
      (fun P => ∫ s in Ioo (0 : ℝ) 1, dgs3 (p s) t u (v + 1) fun k => P k - C k) := by
  have key : ∀ (a : ℝ → ℝ), Continuous a → ∀ (t : ℕ) (c x : ℝ),
      deriv (fun τ => ∫ s in Ioo (0 : ℝ) 1, a s * dgs (p s) t (τ - c)) x =
        ∫ s in Ioo (0 : ℝ) 1, a s * dgs (p s) (t + 1) (x - c) := by
    intro a ha t c x
    have h := (hasDerivAt_integral_dgs hp ha t (x - c)).comp x ((hasDerivAt_id x).sub_const c)
    have := h.deriv
    simp only [mul_one] at this
    exact this
  have c := fun k (P : Point) t => continuous_dgs hp t (P k - C k)
  refine ⟨funext fun P => ?_, funext fun P => ?_, funext fun P => ?_⟩
  · have h := key (fun s => dgs (p s) u (P 1 - C 1) * dgs (p s) v (P 2 - C 2)) ((c 1 P u).mul (c 2 P v)) t (C 0) (P 0)
    unfold pderiv dgs3
    simp only [Function.update_self, ne_eq, show (1 : Fin 3) ≠ 0 by decide, show (2 : Fin 3) ≠ 0 by decide,
      not_false_eq_true, Function.update_of_ne]
    rw [show (fun τ => ∫ s in Ioo (0 : ℝ) 1, dgs (p s) t (τ - C 0) * dgs (p s) u (P 1 - C 1) * dgs (p s) v (P 2 - C 2)) =
      fun τ => ∫ s in Ioo (0 : ℝ) 1, dgs (p s) u (P 1 - C 1) * dgs (p s) v (P 2 - C 2) * dgs (p s) t (τ - C 0) from
        funext fun τ => by congr 1; funext s; ring, h]
    congr 1; funext s; ring
  · have h := key (fun s => dgs (p s) t (P 0 - C 0) * dgs (p s) v (P 2 - C 2)) ((c 0 P t).mul (c 2 P v)) u (C 1) (P 1)
    unfold pderiv dgs3
    simp only [Function.update_self, ne_eq, show (0 : Fin 3) ≠ 1 by decide, show (2 : Fin 3) ≠ 1 by decide,
      not_false_eq_true, Function.update_of_ne]
    rw [show (fun τ => ∫ s in Ioo (0 : ℝ) 1, dgs (p s) t (P 0 - C 0) * dgs (p s) u (τ - C 1) * dgs (p s) v (P 2 - C 2)) =
      fun τ => ∫ s in Ioo (0 : ℝ) 1, dgs (p s) t (P 0 - C 0) * dgs (p s) v (P 2 - C 2) * dgs (p s) u (τ - C 1) from
        funext fun τ => by congr 1; funext s; ring, h]
    congr 1; funext s; ring
  · have h := key (fun s => dgs (p s) t (P 0 - C 0) * dgs (p s) u (P 1 - C 1)) ((c 0 P t).mul (c 1 P u)) v (C 2) (P 2)
    unfold pderiv dgs3
    simp only [Function.update_self, ne_eq, show (0 : Fin 3) ≠ 2 by decide, show (1 : Fin 3) ≠ 2 by decide,
      not_false_eq_true, Function.update_of_ne]
    rw [h]

/-- Repeated partial derivatives. -/
theorem iterate_pderiv_dgs3 {p : ℝ → ℝ} (hp : Continuous p) (C : Point) (t u v : ℕ) :
    (pderiv 0)^[t] ((pderiv 1)^[u] ((pderiv 2)^[v] fun P => ∫ s in Ioo (0 : ℝ) 1, dgs3 (p s) 0 0 0 fun k => P k - C k)) =
      fun P => ∫ s in Ioo (0 : ℝ) 1, dgs3 (p s) t u v fun k => P k - C k := by
  have h2 : ∀ v, ((pderiv 2)^[v] fun P => ∫ s in Ioo (0 : ℝ) 1, dgs3 (p s) 0 0 0 fun k => P k - C k) =
      fun P => ∫ s in Ioo (0 : ℝ) 1, dgs3 (p s) 0 0 v fun k => P k - C k := by
    intro v
    induction v with
    | zero => rfl
    | succ v ih => rw [Function.iterate_succ_apply', ih, (pderiv_dgs3 hp C 0 0 v).2.2]
  have h1 : ∀ u, ((pderiv 1)^[u] fun P => ∫ s in Ioo (0 : ℝ) 1, dgs3 (p s) 0 0 v fun k => P k - C k) =
      fun P => ∫ s in Ioo (0 : ℝ) 1, dgs3 (p s) 0 u v fun k => P k - C k := by
    intro u
    induction u with
    | zero => rfl
    | succ u ih => rw [Function.iterate_succ_apply', ih, (pderiv_dgs3 hp C 0 u v).2.1]
  rw [h2, h1]
  induction t with
  | zero => rfl
  | succ t ih => rw [Function.iterate_succ_apply', ih, (pderiv_dgs3 hp C t u v).1]

theorem boysF_superposition (q : ℝ) (C P : Point) :
    boysF 0 (q * ∑ k, (P k - C k) ^ 2) = ∫ s in Ioo (0 : ℝ) 1, dgs3 (q * s ^ 2) 0 0 0 fun k => P k - C k := by
  unfold boysF
  rw [← unit_integral]
  congr 1; funext s
  rw [dgs3_zero]
  simp only [mul_zero, pow_zero, one_mul]
  congr 1; ring

theorem gF_superposition (q : ℝ) (C P : Point) :
    gF 0 (q * ∑ k, (P k - C k) ^ 2) = ∫ s in Ioo (0 : ℝ) 1, dgs3 (q * (1 - s ^ 2)) 0 0 0 fun k => P k - C k := by
  unfold gF
  rw [← unit_integral]
  congr 1; funext s
  rw [dgs3_zero]
  simp only [mul_zero, pow_zero, one_mul]
  congr 1; ring

/-- The exact solution of the recursion with Boys values. -/
theorem rSol_boys (q : ℝ) (X : Fin 3 → ℝ) (t u v n : ℕ) :
    rSol (-2 * q) 0 X (fun k => boysF k (q * ∑ k, X k ^ 2)) t u v n =
      ∫ s in Ioo (0 : ℝ) 1, (-2 * q * s ^ 2) ^ n * dgs3 (q * s ^ 2) t u v X :=
  rSol_integral (-2 * q) 0 X (fun u => -2 * q * u ^ 2) (fun u => q * u ^ 2) (by fun_prop) (by fun_prop) (fun u => by ring)
    _ (by
      intro n
      unfold boysF
      rw [← unit_integral, ← integral_const_mul]
      refine integral_congr_ae (Filter.Eventually.of_forall fun s => ?_)
      beta_reduce
      rw [dgs3_zero, mul_pow _ (s ^ 2), pow_mul, mul_assoc]
      congr 3
      ring) t u v n

theorem rSol_g (q : ℝ) (X : Fin 3 → ℝ) (t u v n : ℕ) :
    rSol (2 * q) (-2 * q) X (fun k => gF k (q * ∑ k, X k ^ 2)) t u v n =
      ∫ s in Ioo (0 : ℝ) 1, (2 * q * s ^ 2) ^ n * dgs3 (q * (1 - s ^ 2)) t u v X :=
  rSol_integral (2 * q) (-2 * q) X (fun u => 2 * q * u ^ 2) (fun u => q * (1 - u ^ 2)) (by fun_prop) (by fun_prop)
    (fun u => by ring) _ (by
      intro n
      unfold gF
      rw [← unit_integral, ← integral_const_mul]
      refine integral_congr_ae (Filter.Eventually.of_forall fun s => ?_)
      beta_reduce
      rw [dgs3_zero, mul_pow _ (s ^ 2), pow_mul, mul_assoc]
      congr 3
      ring) t u v n

end Libgrpp
