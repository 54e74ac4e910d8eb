import Verif.Lemmas.GaussTransform
import Verif.Lemmas.MmdTable

/-! True values of the primitive local-potential integrals. -/

namespace Libgrpp

open MeasureTheory Polynomial Set

theorem continuous_dgs {p : ℝ → ℝ} (hp : Continuous p) (t : ℕ) (X : ℝ) : Continuous fun u => dgs (p u) t X := by
  induction t using Nat.strong_induction_on with
  | _ t ih =>
    rcases t with _ | t
    · simp only [dgs_zero]; fun_prop
    · have h1 := ih t (by omega)
      have h2 := ih (t - 1) (by omega)
      simp only [dgs_succ]
      fun_prop

theorem integrableOn_unit {f : ℝ → ℝ} (hf : Continuous f) : IntegrableOn f (Ioo (0 : ℝ) 1) :=
  (hf.continuousOn.integrableOn_compact isCompact_Icc).mono_set Ioo_subset_Icc_self

/-- The ladder acts on integrals by differentiating the Gaussian factor. -/
theorem ladder_integral (κ X : ℝ) (θ W p : ℝ → ℝ) (hθ : Continuous θ) (hW : Continuous W) (hp : Continuous p)
    (h : ∀ u, θ u + κ = -2 * p u) (t n : ℕ) :
    ladder κ X (fun n => ∫ u in Ioo (0 : ℝ) 1, θ u ^ n * (W u * dgs (p u) 0 X)) t n =
      ∫ u in Ioo (0 : ℝ) 1, θ u ^ n * (W u * dgs (p u) t X) := by
  have hI : ∀ n t, IntegrableOn (fun u => θ u ^ n * (W u * dgs (p u) t X)) (Ioo (0 : ℝ) 1) := fun n t =>
    integrableOn_unit ((hθ.pow n).mul (hW.mul (continuous_dgs hp t X)))
  induction t using Nat.strong_induction_on generalizing n with
  | _ t ih =>
    rcases t with _ | t
    · rw [ladder_zero]
    · rw [ladder_succ, ih t (by omega), ih t (by omega), ih (t - 1) (by omega), ih (t - 1) (by omega)]
      have two : ∀ t, IntegrableOn (fun u => θ u ^ (n + 1) * (W u * dgs (p u) t X) + κ * (θ u ^ n * (W u * dgs (p u) t X)))
          (Ioo (0 : ℝ) 1) := fun t => (hI (n + 1) t).add ((hI n t).const_mul κ)
      have two' : ∀ t, (∫ u in Ioo (0 : ℝ) 1, θ u ^ (n + 1) * (W u * dgs (p u) t X)) +
          κ * (∫ u in Ioo (0 : ℝ) 1, θ u ^ n * (W u * dgs (p u) t X)) =
          ∫ u in Ioo (0 : ℝ) 1, (θ u ^ (n + 1) * (W u * dgs (p u) t X) + κ * (θ u ^ n * (W u * dgs (p u) t X))) := by
        intro t
        rw [← integral_const_mul, ← integral_add (hI _ _) ((hI _ _).const_mul _)]
      rw [two', two', ← integral_const_mul, ← integral_const_mul,
        ← integral_add ((two t).const_mul X) ((two (t - 1)).const_mul (t : ℝ))]
      refine integral_congr_ae (Filter.Eventually.of_forall fun u => ?_)
      beta_reduce
      rw [dgs_succ, ← h u]
      ring

/-- Product of the Gaussian derivatives in the three directions. -/
noncomputable def dgs3 (p : ℝ) (t u v : ℕ) (X : Fin 3 → ℝ) : ℝ := dgs p t (X 0) * dgs p u (X 1) * dgs p v (X 2)

theorem rSol_integral (base κ : ℝ) (X : Fin 3 → ℝ) (θ p : ℝ → ℝ) (hθ : Continuous θ) (hp : Continuous p)
    (h : ∀ u, θ u + κ = -2 * p u) (b : ℕ → ℝ)
    (hb : ∀ n, base ^ n * b n = ∫ s in Ioo (0 : ℝ) 1, θ s ^ n * dgs3 (p s) 0 0 0 X) (t u v n : ℕ) :
    rSol base κ X b t u v n = ∫ s in Ioo (0 : ℝ) 1, θ s ^ n * dgs3 (p s) t u v X := by
  have c : ∀ k t, Continuous fun s => dgs (p s) t (X k) := fun k t => continuous_dgs hp t _
  unfold rSol
  have e0 : (fun n => base ^ n * b n) =
      fun n => ∫ s in Ioo (0 : ℝ) 1, θ s ^ n * ((dgs (p s) 0 (X 0) * dgs (p s) 0 (X 1)) * dgs (p s) 0 (X 2)) :=
    funext fun n => by rw [hb]; rfl
  rw [e0]
  have e1 : ladder κ (X 2) (fun n => ∫ s in Ioo (0 : ℝ) 1, θ s ^ n * ((dgs (p s) 0 (X 0) * dgs (p s) 0 (X 1)) *
      dgs (p s) 0 (X 2))) v = fun n => ∫ s in Ioo (0 : ℝ) 1, θ s ^ n * ((dgs (p s) 0 (X 0) * dgs (p s) v (X 2)) *
        dgs (p s) 0 (X 1)) := by
    funext n
    rw [ladder_integral κ (X 2) θ (fun s => dgs (p s) 0 (X 0) * dgs (p s) 0 (X 1)) p hθ ((c 0 0).mul (c 1 0)) hp h]
    refine integral_congr_ae (Filter.Eventually.of_forall fun s => by ring)
  rw [e1]
  have e2 : ladder κ (X 1) (fun n => ∫ s in Ioo (0 : ℝ) 1, θ s ^ n * ((dgs (p s) 0 (X 0) * dgs (p s) v (X 2)) *
        dgs (p s) 0 (X 1))) u = fun n => ∫ s in Ioo (0 : ℝ) 1, θ s ^ n * ((dgs (p s) u (X 1) * dgs (p s) v (X 2)) *
        dgs (p s) 0 (X 0)) := by
    funext n
    rw [ladder_integral κ (X 1) θ (fun s => dgs (p s) 0 (X 0) * dgs (p s) v (X 2)) p hθ ((c 0 0).mul (c 2 v)) hp h]
    refine integral_congr_ae (Filter.Eventually.of_forall fun s => by ring)
  rw [e2, ladder_integral κ (X 0) θ (fun s => dgs (p s) u (X 1) * dgs (p s) v (X 2)) p hθ ((c 1 u).mul (c 2 v)) hp h]
  refine integral_congr_ae (Filter.Eventually.of_forall fun s => by unfold dgs3; ring)

/-! ## Linearity in the starting values -/

theorem ladder_sum (κ X : ℝ) (S : Finset ℕ) (c : ℕ → ℝ) (s : ℕ → ℕ → ℝ) (t n : ℕ) :
    ladder κ X (fun n => ∑ m ∈ S, c m * s m n) t n = ∑ m ∈ S, c m * ladder κ X (s m) t n := by
  induction t using Nat.strong_induction_on generalizing n with
  | _ t ih =>
    rcases t with _ | t
    · simp only [ladder_zero]
    · simp only [ladder_succ]
      rw [ih t (by omega), ih t (by omega), ih (t - 1) (by omega), ih (t - 1) (by omega)]
      simp only [Finset.mul_sum, ← Finset.sum_add_distrib]
      refine Finset.sum_congr rfl fun m _ => by ring

theorem ladder_local (κ X : ℝ) (s s' : ℕ → ℝ) (t N : ℕ) (h : ∀ n ≤ N + t, s n = s' n) :
    ∀ n ≤ N, ladder κ X s t n = ladder κ X s' t n := by
  induction t using Nat.strong_induction_on generalizing N with
  | _ t ih =>
    intro n hn
    rcases t with _ | t
    · simp only [ladder_zero]; exact h n (by omega)
    · have h1 := ih t (by omega) (N + 1) (fun n hn => h n (by omega))
      have h2 := ih (t - 1) (by omega) (N + 1) (fun n hn => h n (by omega))
      rw [ladder_succ, ladder_succ, h1 (n + 1) (by omega), h1 n (by omega), h2 (n + 1) (by omega), h2 n (by omega)]

/-- Weight of the `k`-th starting value in `R^0_{tuv}`. -/
noncomputable def rWeight (base κ : ℝ) (X : Fin 3 → ℝ) (k t u v : ℕ) : ℝ :=
  rSol base κ X (fun m => if m = k then 1 else 0) t u v 0

theorem rSol_linear (base κ : ℝ) (X : Fin 3 → ℝ) (b : ℕ → ℝ) (t u v L : ℕ) (hL : t + u + v ≤ L) :
    rSol base κ X b t u v 0 = ∑ k ∈ Finset.range (L + 1), b k * rWeight base κ X k t u v := by
  have e : ∀ n ≤ L, base ^ n * b n = ∑ k ∈ Finset.range (L + 1), b k * (base ^ n * if n = k then 1 else 0) := by
    intro n hn
    rw [Finset.sum_eq_single n]
    · simp; ring
    · intro m _ hm; rw [if_neg (Ne.symm hm)]; ring
    · intro h; exact absurd (Finset.mem_range.2 (by omega)) h
  have e1 : ∀ n ≤ t + u, ladder κ (X 2) (fun n => base ^ n * b n) v n =
      ∑ k ∈ Finset.range (L + 1), b k * ladder κ (X 2) (fun n => base ^ n * if n = k then 1 else 0) v n := by
    intro n hn
    rw [ladder_local κ (X 2) _ (fun n => ∑ k ∈ Finset.range (L + 1), b k * (base ^ n * if n = k then 1 else 0)) v (t + u)
      (fun n hn => e n (by omega)) n hn, ladder_sum κ (X 2) _ b (fun k n => base ^ n * if n = k then 1 else 0)]
  have e2 : ∀ n ≤ t, ladder κ (X 1) (ladder κ (X 2) (fun n => base ^ n * b n) v) u n =
      ∑ k ∈ Finset.range (L + 1), b k *
        ladder κ (X 1) (ladder κ (X 2) (fun n => base ^ n * if n = k then 1 else 0) v) u n := by
    intro n hn
    rw [ladder_local κ (X 1) _ _ u t e1 n hn, ladder_sum κ (X 1) _ b
      (fun k => ladder κ (X 2) (fun n => base ^ n * if n = k then 1 else 0) v)]
  unfold rWeight rSol
  rw [ladder_local κ (X 0) _ _ t 0 (fun n hn => e2 n (by omega)) 0 le_rfl, ladder_sum κ (X 0) _ b
      (fun k => ladder κ (X 1) (ladder κ (X 2) (fun n => base ^ n * if n = k then 1 else 0) v) u)]

/-! ## Primitive integrals -/

/-- One-dimensional factor of a primitive pair with the Gaussian of the operator. -/
noncomputable def mmdFactor (a b c : ℝ) (A B C : Point) (x y : Comp) (k : Fin 3) (z : ℝ) : ℝ :=
  (z - A k) ^ x.exp k * (z - B k) ^ y.exp k * Real.exp (-a * (z - A k) ^ 2 + -b * (z - B k) ^ 2 + -c * (z - C k) ^ 2)

theorem continuous_mmdFactor (a b c : ℝ) (A B C : Point) (x y : Comp) (k : Fin 3) :
    Continuous (mmdFactor a b c A B C x y k) := by
  unfold mmdFactor; fun_prop

/-- `∑_t E_t ∂^t exp(-pX²)` for coordinate `k`. -/
noncomputable def hermSum (d : Mmd) (x y : Comp) (p : ℝ) (k : Fin 3) : ℝ :=
  ∑ t ∈ Finset.range (x.exp k + y.exp k + 1), eVal d k (x.exp k) (y.exp k) t * dgs p t (d.Q k - d.C k)

theorem mmdData_q (A : Point) (a : ℝ) (B : Point) (b : ℝ) (C : Point) (c : ℝ) : (mmdData A a B b C c).q = a + b + c := rfl

theorem integral_mmdFactor {a b c s : ℝ} (hq : 0 < a + b + c) (hs : 0 ≤ s) (A B C : Point) (x y : Comp) (k : Fin 3) :
    Integrable (fun z => mmdFactor a b c A B C x y k z * Real.exp (-s * (z - C k) ^ 2)) ∧
    ∫ z, mmdFactor a b c A B C x y k z * Real.exp (-s * (z - C k) ^ 2) =
      Real.sqrt (Real.pi / (a + b + c + s)) *
        hermSum (mmdData A a B b C c) x y ((a + b + c) * s / (a + b + c + s)) k :=
  integral_herm hq hs (A k) (B k) (C k) (x.exp k) (y.exp k) (x.exp k + y.exp k + 1) (Nat.lt_succ_self _)

/-- The factor is bounded by a Gaussian of half the total exponent. -/
theorem mmdFactor_bounded {a b c : ℝ} (hq : 0 < a + b + c) (A B C : Point) (x y : Comp) :
    ∃ M, ∀ k z, |mmdFactor a b c A B C x y k z| ≤
      M * Real.exp (-((a + b + c) / 2) * (z - (mmdData A a B b C c).Q k) ^ 2) := by
  have one : ∀ k, ∃ M, 0 ≤ M ∧ ∀ z, |mmdFactor a b c A B C x y k z| ≤
      M * Real.exp (-((a + b + c) / 2) * (z - (mmdData A a B b C c).Q k) ^ 2) := by
    intro k
    let Q := (mmdData A a B b C c).Q k
    obtain ⟨M, hM⟩ := poly_gauss_bounded ((X + Polynomial.C (Q - A k)) ^ x.exp k *
      (X + Polynomial.C (Q - B k)) ^ y.exp k) (half_pos hq)
    let K := (mmdData A a B b C c).K k
    have hK : 0 < K := by
      show 0 < Real.exp _ * Real.exp _ * Real.exp _
      positivity
    have hM0 : 0 ≤ M := le_trans (by positivity) (hM 0)
    refine ⟨K * M, by positivity, fun z => ?_⟩
    have hz := hM (z - Q)
    simp only [eval_mul, eval_pow, eval_add, eval_X, eval_C] at hz
    rw [show z - Q + (Q - A k) = z - A k by ring, show z - Q + (Q - B k) = z - B k by ring] at hz
    unfold mmdFactor
    rw [gauss_product3 hq.ne', abs_mul]
    have e : |Real.exp (-(a * b / (a + b + c)) * (A k - B k) * (A k - B k)) *
        Real.exp (-(a * c / (a + b + c)) * (A k - C k) * (A k - C k)) *
        Real.exp (-(b * c / (a + b + c)) * (B k - C k) * (B k - C k)) *
        Real.exp (-(a + b + c) * (z - (a * A k + b * B k + c * C k) / (a + b + c)) ^ 2)| =
        K * (Real.exp (-((a + b + c) / 2) * (z - Q) ^ 2) * Real.exp (-((a + b + c) / 2) * (z - Q) ^ 2)) := by
      rw [abs_of_pos (by positivity), ← Real.exp_add (-((a + b + c) / 2) * (z - Q) ^ 2),
        show -((a + b + c) / 2) * (z - Q) ^ 2 + -((a + b + c) / 2) * (z - Q) ^ 2 = -(a + b + c) * (z - Q) ^ 2 by ring]
      rfl
    rw [e]
    have h3 := mul_le_mul_of_nonneg_right hz (mul_pos hK (Real.exp_pos (-((a + b + c) / 2) * (z - Q) ^ 2))).le
    calc _ = |(z - A k) ^ x.exp k * (z - B k) ^ y.exp k| * Real.exp (-((a + b + c) / 2) * (z - Q) ^ 2) *
          (K * Real.exp (-((a + b + c) / 2) * (z - Q) ^ 2)) := by ring
      _ ≤ M * (K * Real.exp (-((a + b + c) / 2) * (z - Q) ^ 2)) := h3
      _ = _ := by ring
  choose M hM0 hM using one
  refine ⟨∑ k, M k, fun k z => (hM k z).trans ?_⟩
  exact mul_le_mul_of_nonneg_right (Finset.single_le_sum (fun k _ => hM0 k) (Finset.mem_univ k)) (Real.exp_pos _).le

theorem prim_gauss {a b c : ℝ} (hq : 0 < a + b + c) (A B C : Point) (x y : Comp) :
    Integrable (prod3 (mmdFactor a b c A B C x y)) ∧
    ∫ r, prod3 (mmdFactor a b c A B C x y) r = Real.sqrt (Real.pi / (a + b + c)) ^ 3 *
      ∏ k, eVal (mmdData A a B b C c) k (x.exp k) (y.exp k) 0 := by
  have h := fun k => integral_mmdFactor hq le_rfl A B C x y k
  have e : ∀ k, (fun z => mmdFactor a b c A B C x y k z * Real.exp (-0 * (z - C k) ^ 2)) = mmdFactor a b c A B C x y k :=
    fun k => funext fun z => by simp
  refine ⟨integrable_prod3 _ fun k => by rw [← e k]; exact (h k).1, ?_⟩
  have dz : ∀ t X, dgs 0 t X = if t = 0 then 1 else 0 := by
    intro t X
    rcases t with _ | t
    · rw [dgs_zero]; simp
    · rw [dgs_succ]; simp
  have h2 : ∀ k, ∫ z, mmdFactor a b c A B C x y k z =
      Real.sqrt (Real.pi / (a + b + c)) * eVal (mmdData A a B b C c) k (x.exp k) (y.exp k) 0 := by
    intro k
    rw [← e k, (h k).2]
    simp only [add_zero, mul_zero, zero_div, hermSum, dz]
    congr 1
    rw [Finset.sum_eq_single 0]
    · simp
    · intro t _ ht; rw [if_neg ht]; ring
    · intro h; exact absurd (Finset.mem_range.2 (by omega)) h
  rw [integral_prod3]
  simp only [h2]
  rw [Finset.prod_mul_distrib, Finset.prod_const, Finset.card_univ, Fintype.card_fin]

theorem prim_coulomb {a b c : ℝ} (hq : 0 < a + b + c) (A B C : Point) (x y : Comp) :
    Integrable (fun r => prod3 (mmdFactor a b c A B C x y) r * (Real.sqrt (dist2 C r))⁻¹) ∧
    ∫ r, prod3 (mmdFactor a b c A B C x y) r * (Real.sqrt (dist2 C r))⁻¹ =
      2 * Real.pi / (a + b + c) * ∫ u in Ioo (0 : ℝ) 1,
        ∏ k, hermSum (mmdData A a B b C c) x y ((a + b + c) * u ^ 2) k := by
  obtain ⟨M, hM⟩ := mmdFactor_bounded hq A B C x y
  obtain ⟨h1, h2⟩ := gauss_transform _ (continuous_mmdFactor a b c A B C x y) (half_pos hq) _ C hM (fun s => s ^ 2)
    (by fun_prop) (fun s _ => sq_nonneg s) (integrableOn_gt2 (half_pos hq))
  have e : ∀ r, prod3 (mmdFactor a b c A B C x y) r * (Real.sqrt (dist2 C r))⁻¹ = 2 / Real.sqrt Real.pi *
      (prod3 (mmdFactor a b c A B C x y) r * ∫ s in Ioi (0 : ℝ), Real.exp (-s ^ 2 * dist2 C r)) := by
    intro r; rw [inv_sqrt_eq]; ring
  simp only [e]
  refine ⟨h1.const_mul _, ?_⟩
  rw [integral_const_mul, h2]
  have e2 : ∫ s in Ioi (0 : ℝ), ∏ k, ∫ z, mmdFactor a b c A B C x y k z * Real.exp (-s ^ 2 * (z - C k) ^ 2) =
      ∫ s in Ioi (0 : ℝ), Real.sqrt (Real.pi / (a + b + c + s ^ 2)) ^ 3 *
        (fun p => ∏ k, hermSum (mmdData A a B b C c) x y p k) ((a + b + c) * s ^ 2 / (a + b + c + s ^ 2)) := by
    refine integral_congr_ae (Filter.Eventually.of_forall fun s => ?_)
    beta_reduce
    rw [Finset.prod_congr rfl fun k _ => (integral_mmdFactor hq (sq_nonneg s) A B C x y k).2, Finset.prod_mul_distrib,
      Finset.prod_const, Finset.card_univ, Fintype.card_fin]
  rw [e2, subst_coulomb hq (fun p => ∏ k, hermSum (mmdData A a B b C c) x y p k), ← mul_assoc]
  congr 1
  have hp := Real.sqrt_pos.2 Real.pi_pos
  have := Real.sq_sqrt Real.pi_pos.le
  field_simp
  rw [this]

theorem prim_inverse_square {a b c : ℝ} (hq : 0 < a + b + c) (A B C : Point) (x y : Comp) :
    Integrable (fun r => prod3 (mmdFactor a b c A B C x y) r * (dist2 C r)⁻¹) ∧
    ∫ r, prod3 (mmdFactor a b c A B C x y) r * (dist2 C r)⁻¹ =
      2 * Real.sqrt Real.pi ^ 3 / Real.sqrt (a + b + c) * ∫ u in Ioo (0 : ℝ) 1,
        ∏ k, hermSum (mmdData A a B b C c) x y ((a + b + c) * (1 - u ^ 2)) k := by
  obtain ⟨M, hM⟩ := mmdFactor_bounded hq A B C x y
  obtain ⟨h1, h2⟩ := gauss_transform _ (continuous_mmdFactor a b c A B C x y) (half_pos hq) _ C hM (fun s => s)
    (by fun_prop) (fun s hs => hs.le) (integrableOn_gt1 (half_pos hq))
  have e : ∀ r, prod3 (mmdFactor a b c A B C x y) r * (dist2 C r)⁻¹ =
      prod3 (mmdFactor a b c A B C x y) r * ∫ s in Ioi (0 : ℝ), Real.exp (-s * dist2 C r) := by
    intro r; rw [inv_eq_integral (dist2_nonneg C r)]
  simp only [e]
  refine ⟨h1, ?_⟩
  rw [h2]
  have e2 : ∫ s in Ioi (0 : ℝ), ∏ k, ∫ z, mmdFactor a b c A B C x y k z * Real.exp (-s * (z - C k) ^ 2) =
      ∫ s in Ioi (0 : ℝ), Real.sqrt (Real.pi / (a + b + c + s)) ^ 3 *
        (fun p => ∏ k, hermSum (mmdData A a B b C c) x y p k) ((a + b + c) * s / (a + b + c + s)) := by
    refine setIntegral_congr_fun measurableSet_Ioi fun s hs => ?_
    have hs' : 0 < s := hs
    beta_reduce
    rw [Finset.prod_congr rfl fun k _ => (integral_mmdFactor hq hs'.le A B C x y k).2, Finset.prod_mul_distrib,
      Finset.prod_const, Finset.card_univ, Fintype.card_fin]
  rw [e2, subst_inverse_square hq (fun p => ∏ k, hermSum (mmdData A a B b C c) x y p k)]

/-! ## The sum over Hermite indices -/

/-- What the triple loop computes. -/
noncomputable def tuvSum (d : Mmd) (x y : Comp) (f : ℕ → ℕ → ℕ → ℝ) : ℝ :=
  ∑ t ∈ Finset.range (x.1 + y.1 + 1), ∑ u ∈ Finset.range (x.2.1 + y.2.1 + 1), ∑ v ∈ Finset.range (x.2.2 + y.2.2 + 1),
    eVal d 0 x.1 y.1 t * eVal d 1 x.2.1 y.2.1 u * eVal d 2 x.2.2 y.2.2 v * f t u v

theorem integral_hermSum (d : Mmd) (x y : Comp) (p : ℝ → ℝ) (hp : Continuous p) :
    ∫ s in Ioo (0 : ℝ) 1, ∏ k, hermSum d x y (p s) k =
      tuvSum d x y fun t u v => ∫ s in Ioo (0 : ℝ) 1, dgs3 (p s) t u v (fun k => d.Q k - d.C k) := by
  have c : ∀ k t, Continuous fun s => dgs (p s) t (d.Q k - d.C k) := fun k t => continuous_dgs hp t _
  have hI : ∀ t u v (w : ℝ), IntegrableOn (fun s => w * dgs3 (p s) t u v fun k => d.Q k - d.C k) (Ioo (0 : ℝ) 1) :=
    fun t u v w => integrableOn_unit (continuous_const.mul (((c 0 t).mul (c 1 u)).mul (c 2 v)))
  have e : ∀ s, ∏ k, hermSum d x y (p s) k = ∑ t ∈ Finset.range (x.1 + y.1 + 1),
      ∑ u ∈ Finset.range (x.2.1 + y.2.1 + 1), ∑ v ∈ Finset.range (x.2.2 + y.2.2 + 1),
        eVal d 0 x.1 y.1 t * eVal d 1 x.2.1 y.2.1 u * eVal d 2 x.2.2 y.2.2 v *
          dgs3 (p s) t u v (fun k => d.Q k - d.C k) := by
    intro s
    rw [Fin.prod_univ_three]
    unfold hermSum
    rw [show x.exp 0 = x.1 from rfl, show x.exp 1 = x.2.1 from rfl, show x.exp 2 = x.2.2 from rfl,
      show y.exp 0 = y.1 from rfl, show y.exp 1 = y.2.1 from rfl, show y.exp 2 = y.2.2 from rfl,
      Finset.sum_mul_sum, Finset.sum_mul]
    refine Finset.sum_congr rfl fun t _ => ?_
    rw [Finset.sum_mul]
    refine Finset.sum_congr rfl fun u _ => ?_
    rw [Finset.mul_sum]
    refine Finset.sum_congr rfl fun v _ => ?_
    unfold dgs3; ring
  simp only [e]
  unfold tuvSum
  rw [integral_finsetSum _ fun t _ => integrable_finsetSum _ fun u _ => integrable_finsetSum _ fun v _ => hI t u v _]
  refine Finset.sum_congr rfl fun t _ => ?_
  rw [integral_finsetSum _ fun u _ => integrable_finsetSum _ fun v _ => hI t u v _]
  refine Finset.sum_congr rfl fun u _ => ?_
  rw [integral_finsetSum _ fun v _ => hI t u v _]
  refine Finset.sum_congr rfl fun v _ => ?_
  rw [integral_const_mul]

theorem sumTUV_spec (d : Mmd) (LA LB : Nat) (hA : LA ≤ 9) (hB : LB ≤ 9) (E R : Tab4) (f : ℕ → ℕ → ℕ → ℝ) (x y : Comp)
    (hx : x.1 + x.2.1 + x.2.2 ≤ LA) (hy : y.1 + y.2.1 + y.2.2 ≤ LB)
    (hE : ∀ (c : Fin 3) (i j t : Nat), i ≤ LA → j ≤ LB → t ≤ i + j → E c.val i j t = some (eVal d c i j t))
    (hR : ∀ t u v, t + u + v ≤ LA + LB → R t u v 0 = some (f t u v)) :
    sumTUV E R x y = .ok (tuvSum d x y f) := by
  unfold sumTUV
  have g : ∀ (c : Fin 3) (i j t : Nat), i ≤ LA → j ≤ LB → t ≤ i + j → eGet E c.val i j t = .ok (eVal d c i j t) :=
    fun c i j t h1 h2 h3 => eGet_ok c.isLt (by omega) (by omega) (by omega) (hE c i j t h1 h2 h3)
  suffices h : ∃ s, (forRange (x.1 + y.1 + 1) (0 : ℝ) fun t s => do
      let ex ← eGet E 0 x.1 y.1 t
      forRange (x.2.1 + y.2.1 + 1) s fun u s => do
        let ey ← eGet E 1 x.2.1 y.2.1 u
        forRange (x.2.2 + y.2.2 + 1) s fun v s => do
          let ez ← eGet E 2 x.2.2 y.2.2 v
          let r ← rGet R t u v 0
          .ok (s + ex * ey * ez * r)) = .ok s ∧ s = tuvSum d x y f by
    obtain ⟨s, h1, h2⟩ := h
    rw [h1, h2]
  let T : ℕ → ℕ → ℕ → ℝ := fun t u v =>
    eVal d 0 x.1 y.1 t * eVal d 1 x.2.1 y.2.1 u * eVal d 2 x.2.2 y.2.2 v * f t u v
  refine forRange_spec (fun t s => s = ∑ t ∈ Finset.range t, ∑ u ∈ Finset.range (x.2.1 + y.2.1 + 1),
    ∑ v ∈ Finset.range (x.2.2 + y.2.2 + 1), T t u v) (by simp) ?_ (fun s hs => hs)
  intro t s ht hs
  have g0 : eGet E 0 x.1 y.1 t = .ok (eVal d 0 x.1 y.1 t) := g 0 x.1 y.1 t (by omega) (by omega) (by omega)
  rw [g0]
  simp only [Outcome.ok_bind]
  refine forRange_spec (fun k s' => s' = s + ∑ u ∈ Finset.range k,
    ∑ v ∈ Finset.range (x.2.2 + y.2.2 + 1), T t u v) (by simp) ?_ ?_
  · intro u s' hu hs'
    have g1 : eGet E 1 x.2.1 y.2.1 u = .ok (eVal d 1 x.2.1 y.2.1 u) :=
      g 1 x.2.1 y.2.1 u (by omega) (by omega) (by omega)
    rw [g1]
    simp only [Outcome.ok_bind]
    refine forRange_spec (fun k s'' => s'' = s' + ∑ v ∈ Finset.range k, T t u v) (by simp) ?_ ?_
    · intro v s'' hv hs''
      have g2 : eGet E 2 x.2.2 y.2.2 v = .ok (eVal d 2 x.2.2 y.2.2 v) :=
        g 2 x.2.2 y.2.2 v (by omega) (by omega) (by omega)
      have g3 : rGet R t u v 0 = .ok (f t u v) := rGet_ok (by omega) (by omega) (by omega) (by omega)
        (hR t u v (by omega))
      refine ⟨s'' + T t u v, ?_, ?_⟩
      · simp only [g2, g3, Outcome.ok_bind]
        rfl
      · rw [hs'', Finset.sum_range_succ, add_assoc]
    · intro s'' hs''
      rw [hs'', hs', Finset.sum_range_succ _ u, add_assoc]
  · intro s' hs'
    rw [hs', hs, Finset.sum_range_succ _ t]

end Libgrpp
