import Verif.Lemmas.Basis
import Verif.Lemmas.OneElectronPrim
import Mathlib.Algebra.BigOperators.Fin

/-! The loops of the one-electron routines meet the analytic integrals. -/

namespace Libgrpp

open MeasureTheory

theorem gauss1_pairRel {a b : ℝ} (hp : 0 < a + b) (A B : Point) :
    PairRel a b A B (fun c => gauss1 a b (A c) (B c)) := fun c => gauss1_os hp (A c) (B c)

theorem Comp.exp_zero (c : Comp) : c.exp 0 = c.1 := rfl
theorem Comp.exp_one (c : Comp) : c.exp 1 = c.2.1 := rfl
theorem Comp.exp_two (c : Comp) : c.exp 2 = c.2.2 := rfl

theorem pos_add {A B : Shell} (hA : A.Pos) (hB : B.Pos) {i j : Nat} (hi : i ∈ Finset.range A.num)
    (hj : j ∈ Finset.range B.num) : 0 < A.alphaAt i + B.alphaAt j :=
  add_pos (hA.at (Finset.mem_range.mp hi)) (hB.at (Finset.mem_range.mp hj))

/-- The overlap of two contracted functions, in terms of one-dimensional integrals. -/
theorem integral_overlap (A B : Shell) (hA : A.Pos) (hB : B.Pos) (m n : Nat) :
    ∫ r, basisFn A m r * basisFn B n r =
      ∑ i ∈ Finset.range A.num, ∑ j ∈ Finset.range B.num, A.coeffAt i * B.coeffAt j *
        (gaussianNormFactor A.L 0 0 (A.alphaAt i) * gaussianNormFactor B.L 0 0 (B.alphaAt j) *
          gauss1 (A.alphaAt i) (B.alphaAt j) (A.origin 0) (B.origin 0) (A.comp m).1 (B.comp n).1 *
          gauss1 (A.alphaAt i) (B.alphaAt j) (A.origin 1) (B.origin 1) (A.comp m).2.1 (B.comp n).2.1 *
          gauss1 (A.alphaAt i) (B.alphaAt j) (A.origin 2) (B.origin 2) (A.comp m).2.2 (B.comp n).2.2) := by
  rw [basisFn_eq A m, basisFn_eq B n]
  beta_reduce
  rw [(integral_sum_prod3 _ _ _ _ (A.factor m) (B.factor n) fun i hi j hj k =>
    integrable_gfun_mul (pos_add hA hB hi hj) _ _ _ _).2]
  refine Finset.sum_congr rfl fun i _ => Finset.sum_congr rfl fun j _ => ?_
  simp only [Shell.factor, integral_gfun_mul, Fin.prod_univ_three, Comp.exp_zero, Comp.exp_one, Comp.exp_two,
    Shell.weight]
  ring

/-- `∫ u_i v_j'` for one-dimensional Gaussians. -/
noncomputable def gauss1dB (a b A B : ℝ) (i j : Nat) : ℝ :=
  (j : ℝ) * gauss1 a b A B i (j - 1) - 2 * b * gauss1 a b A B i (j + 1)

/-- `∫ u_i' v_j`. -/
noncomputable def gauss1dA (a b A B : ℝ) (i j : Nat) : ℝ :=
  (i : ℝ) * gauss1 a b A B (i - 1) j - 2 * a * gauss1 a b A B (i + 1) j

theorem gauss1dA_eq {a b : ℝ} (hp : 0 < a + b) (A B : ℝ) (i j : Nat) :
    gauss1dA a b A B i j = -gauss1dB a b A B i j := by
  unfold gauss1dA gauss1dB
  linear_combination gauss1_parts hp A B i j

theorem integrable_gfun_deriv {a b : ℝ} (hp : 0 < a + b) (A B : ℝ) (i j : Nat) :
    Integrable fun x => gfun a A i x * deriv (gfun b B j) x := by
  rw [deriv_gfun]
  have h := ((integrable_gfun_mul hp A B i (j - 1)).const_mul (j : ℝ)).sub
    ((integrable_gfun_mul hp A B i (j + 1)).const_mul (2 * b))
  refine h.congr (Filter.Eventually.of_forall fun x => ?_)
  simp only [Pi.sub_apply]
  ring

theorem integral_gfun_deriv {a b : ℝ} (hp : 0 < a + b) (A B : ℝ) (i j : Nat) :
    ∫ x, gfun a A i x * deriv (gfun b B j) x = gauss1dB a b A B i j := by
  rw [deriv_gfun]
  have e : ∀ x, gfun a A i x * ((j : ℝ) * gfun b B (j - 1) x - 2 * b * gfun b B (j + 1) x) =
      (j : ℝ) * (gfun a A i x * gfun b B (j - 1) x) - 2 * b * (gfun a A i x * gfun b B (j + 1) x) := by
    intro x; ring
  simp only [e]
  rw [integral_sub ((integrable_gfun_mul hp A B i (j - 1)).const_mul (j : ℝ))
    ((integrable_gfun_mul hp A B i (j + 1)).const_mul (2 * b)), integral_const_mul, integral_const_mul,
    integral_gfun_mul, integral_gfun_mul]
  rfl

/-- `∫ u_i v_j''`. -/
noncomputable def gauss1dBB (a b A B : ℝ) (i j : Nat) : ℝ :=
  (j : ℝ) * gauss1dB a b A B i (j - 1) - 2 * b * gauss1dB a b A B i (j + 1)

theorem gfun_deriv2_split (a b A B : ℝ) (i j : Nat) (x : ℝ) :
    gfun a A i x * deriv (deriv (gfun b B j)) x =
      (j : ℝ) * (gfun a A i x * deriv (gfun b B (j - 1)) x) - 2 * b * (gfun a A i x * deriv (gfun b B (j + 1)) x) := by
  rw [deriv2_gfun, deriv_gfun, deriv_gfun]
  ring

theorem integrable_gfun_deriv2 {a b : ℝ} (hp : 0 < a + b) (A B : ℝ) (i j : Nat) :
    Integrable fun x => gfun a A i x * deriv (deriv (gfun b B j)) x := by
  simp only [gfun_deriv2_split]
  exact ((integrable_gfun_deriv hp A B i (j - 1)).const_mul (j : ℝ)).sub
    ((integrable_gfun_deriv hp A B i (j + 1)).const_mul (2 * b))

theorem integral_gfun_deriv2 {a b : ℝ} (hp : 0 < a + b) (A B : ℝ) (i j : Nat) :
    ∫ x, gfun a A i x * deriv (deriv (gfun b B j)) x = gauss1dBB a b A B i j := by
  simp only [gfun_deriv2_split]
  rw [integral_sub ((integrable_gfun_deriv hp A B i (j - 1)).const_mul (j : ℝ))
    ((integrable_gfun_deriv hp A B i (j + 1)).const_mul (2 * b)), integral_const_mul, integral_const_mul,
    integral_gfun_deriv hp, integral_gfun_deriv hp]
  rfl

/-- The two-fold derivative may be moved to the other function (integration by parts twice): this is the
combination tabulated as `D2` in kinetic.c. -/
theorem gauss1dBB_eq {a b : ℝ} (hp : 0 < a + b) (A B : ℝ) (i j : Nat) :
    4 * a * a * gauss1 a b A B (i + 2) j - 2 * a * (2 * (i : ℝ) + 1) * gauss1 a b A B i j +
      (i : ℝ) * ((i : ℝ) - 1) * gauss1 a b A B (i - 2) j = gauss1dBB a b A B i j := by
  have h1 : ∀ i j, gauss1dA a b A B i j = -gauss1dB a b A B i j := gauss1dA_eq hp A B
  -- left-hand side is the derivative of the left function applied twice
  have h2 : 4 * a * a * gauss1 a b A B (i + 2) j - 2 * a * (2 * (i : ℝ) + 1) * gauss1 a b A B i j +
      (i : ℝ) * ((i : ℝ) - 1) * gauss1 a b A B (i - 2) j =
      (i : ℝ) * gauss1dA a b A B (i - 1) j - 2 * a * gauss1dA a b A B (i + 1) j := by
    unfold gauss1dA
    rcases i with _ | _ | i
    · simp; ring
    · simp; ring
    · simp only [Nat.add_sub_cancel]
      have e1 : i + 1 + 1 - 2 = i := by omega
      rw [e1]
      push_cast
      ring
  rw [h2, h1, h1]
  unfold gauss1dBB
  have h3 : ∀ i, gauss1dB a b A B i j = -gauss1dA a b A B i j := fun i => by rw [h1, neg_neg]
  have k1 := h1 i (j - 1)
  have k2 := h1 i (j + 1)
  unfold gauss1dA at k1 k2
  have k3 : gauss1dB a b A B i (j - 1) = -((i : ℝ) * gauss1 a b A B (i - 1) (j - 1) -
      2 * a * gauss1 a b A B (i + 1) (j - 1)) := by rw [k1, neg_neg]
  have k4 : gauss1dB a b A B i (j + 1) = -((i : ℝ) * gauss1 a b A B (i - 1) (j + 1) -
      2 * a * gauss1 a b A B (i + 1) (j + 1)) := by rw [k2, neg_neg]
  rw [k3, k4]
  unfold gauss1dB
  ring

/-- The integral of `φ_A ∂_k φ_B`. -/
theorem integral_momentum (k : Fin 3) (A B : Shell) (hA : A.Pos) (hB : B.Pos) (m n : Nat) :
    Integrable (fun r => basisFn A m r * pderiv k (basisFn B n) r) ∧
    ∫ r, basisFn A m r * pderiv k (basisFn B n) r =
      ∑ i ∈ Finset.range A.num, ∑ j ∈ Finset.range B.num, A.weight i * B.weight j *
        ∏ k', if k' = k then gauss1dB (A.alphaAt i) (B.alphaAt j) (A.origin k') (B.origin k')
            ((A.comp m).exp k') ((B.comp n).exp k')
          else gauss1 (A.alphaAt i) (B.alphaAt j) (A.origin k') (B.origin k')
            ((A.comp m).exp k') ((B.comp n).exp k') := by
  rw [basisFn_eq A m, basisFn_eq B n]
  beta_reduce
  rw [pderiv_sum_prod3 _ _ _ k (fun i => differentiable_gfun _ _ _)]
  have hint : ∀ i ∈ Finset.range A.num, ∀ j ∈ Finset.range B.num, ∀ k', Integrable fun x =>
      A.factor m i k' x * Function.update (B.factor n j) k (deriv (B.factor n j k)) k' x := by
    intro i hi j hj k'
    by_cases h : k' = k
    · subst h
      rw [Function.update_self]
      exact integrable_gfun_deriv (pos_add hA hB hi hj) _ _ _ _
    · rw [Function.update_of_ne h]
      exact integrable_gfun_mul (pos_add hA hB hi hj) _ _ _ _
  refine ⟨(integral_sum_prod3 _ _ _ _ _ _ hint).1, ?_⟩
  rw [(integral_sum_prod3 _ _ _ _ _ _ hint).2]
  refine Finset.sum_congr rfl fun i hi => Finset.sum_congr rfl fun j hj => ?_
  congr 1
  refine Finset.prod_congr rfl fun k' _ => ?_
  by_cases h : k' = k
  · subst h
    rw [Function.update_self, if_pos rfl]
    exact integral_gfun_deriv (pos_add hA hB hi hj) _ _ _ _
  · rw [Function.update_of_ne h, if_neg h]
    exact integral_gfun_mul _ _ _ _ _ _

/-- The integral of `φ_A ∂_k² φ_B`. -/
theorem integral_second (k : Fin 3) (A B : Shell) (hA : A.Pos) (hB : B.Pos) (m n : Nat) :
    Integrable (fun r => basisFn A m r * pderiv k (pderiv k (basisFn B n)) r) ∧
    ∫ r, basisFn A m r * pderiv k (pderiv k (basisFn B n)) r =
      ∑ i ∈ Finset.range A.num, ∑ j ∈ Finset.range B.num, A.weight i * B.weight j *
        ∏ k', if k' = k then gauss1dBB (A.alphaAt i) (B.alphaAt j) (A.origin k') (B.origin k')
            ((A.comp m).exp k') ((B.comp n).exp k')
          else gauss1 (A.alphaAt i) (B.alphaAt j) (A.origin k') (B.origin k')
            ((A.comp m).exp k') ((B.comp n).exp k') := by
  rw [basisFn_eq A m, basisFn_eq B n]
  beta_reduce
  rw [pderiv_sum_prod3 _ _ _ k (fun i => differentiable_gfun _ _ _),
    pderiv_sum_prod3 _ _ _ k (fun i => by rw [Function.update_self]; exact differentiable_deriv_gfun _ _ _)]
  simp only [Function.update_self, Function.update_idem]
  have hint : ∀ i ∈ Finset.range A.num, ∀ j ∈ Finset.range B.num, ∀ k', Integrable fun x =>
      A.factor m i k' x * Function.update (B.factor n j) k (deriv (deriv (B.factor n j k))) k' x := by
    intro i hi j hj k'
    by_cases h : k' = k
    · subst h
      rw [Function.update_self]
      exact integrable_gfun_deriv2 (pos_add hA hB hi hj) _ _ _ _
    · rw [Function.update_of_ne h]
      exact integrable_gfun_mul (pos_add hA hB hi hj) _ _ _ _
  refine ⟨(integral_sum_prod3 _ _ _ _ _ _ hint).1, ?_⟩
  rw [(integral_sum_prod3 _ _ _ _ _ _ hint).2]
  refine Finset.sum_congr rfl fun i hi => Finset.sum_congr rfl fun j hj => ?_
  congr 1
  refine Finset.prod_congr rfl fun k' _ => ?_
  by_cases h : k' = k
  · subst h
    rw [Function.update_self, if_pos rfl]
    exact integral_gfun_deriv2 (pos_add hA hB hi hj) _ _ _ _
  · rw [Function.update_of_ne h, if_neg h]
    exact integral_gfun_mul _ _ _ _ _ _

/-- The integral of `φ_A ∇² φ_B`. -/
theorem integral_laplacian (A B : Shell) (hA : A.Pos) (hB : B.Pos) (m n : Nat) :
    ∫ r, basisFn A m r * laplacian (basisFn B n) r =
      ∑ k, ∫ r, basisFn A m r * pderiv k (pderiv k (basisFn B n)) r := by
  unfold laplacian
  simp only [Finset.mul_sum]
  exact integral_finsetSum _ fun k _ => (integral_second k A B hA hB m n).1

end Libgrpp
