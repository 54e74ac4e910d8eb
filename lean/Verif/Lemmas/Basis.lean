import Verif.Model.Spec
import Verif.Lemmas.GaussianIntegral

/-! Integrals of products of contracted functions reduce to products of one-dimensional integrals. -/

namespace Libgrpp

open MeasureTheory

/-- `∏_k F_k(r_k)` -/
noncomputable def prod3 (F : Fin 3 → ℝ → ℝ) (r : Point) : ℝ := ∏ k, F k (r k)

theorem integrable_prod3 (F : Fin 3 → ℝ → ℝ) (hF : ∀ k, Integrable (F k)) : Integrable (prod3 F) :=
  Integrable.fintype_prod_dep hF

theorem integral_prod3 (F : Fin 3 → ℝ → ℝ) : ∫ r, prod3 F r = ∏ k, ∫ x, F k x :=
  integral_fintype_prod_volume_eq_prod F

theorem integral_sum_prod3 (I J : Finset ℕ) (w : ℕ → ℝ) (v : ℕ → ℝ) (F G : ℕ → Fin 3 → ℝ → ℝ)
    (h : ∀ i ∈ I, ∀ j ∈ J, ∀ k, Integrable fun x => F i k x * G j k x) :
    Integrable (fun r => (∑ i ∈ I, w i * prod3 (F i) r) * ∑ j ∈ J, v j * prod3 (G j) r) ∧
    ∫ r, (∑ i ∈ I, w i * prod3 (F i) r) * (∑ j ∈ J, v j * prod3 (G j) r) =
      ∑ i ∈ I, ∑ j ∈ J, w i * v j * ∏ k, ∫ x, F i k x * G j k x := by
  have e : ∀ r, (∑ i ∈ I, w i * prod3 (F i) r) * (∑ j ∈ J, v j * prod3 (G j) r) =
      ∑ i ∈ I, ∑ j ∈ J, w i * v j * prod3 (fun k x => F i k x * G j k x) r := by
    intro r
    rw [Finset.sum_mul_sum]
    refine Finset.sum_congr rfl fun i _ => Finset.sum_congr rfl fun j _ => ?_
    unfold prod3
    rw [Finset.prod_mul_distrib]
    ring
  simp only [e]
  have hint : ∀ i ∈ I, ∀ j ∈ J, Integrable fun r => w i * v j * prod3 (fun k x => F i k x * G j k x) r :=
    fun i hi j hj => (integrable_prod3 _ (h i hi j hj)).const_mul _
  refine ⟨integrable_finsetSum _ fun i hi => integrable_finsetSum _ fun j hj => hint i hi j hj, ?_⟩
  rw [integral_finsetSum _ fun i hi => integrable_finsetSum _ fun j hj => hint i hi j hj]
  refine Finset.sum_congr rfl fun i hi => ?_
  rw [integral_finsetSum _ fun j hj => hint i hi j hj]
  refine Finset.sum_congr rfl fun j hj => ?_
  rw [integral_const_mul, integral_prod3]

/-- `(x-O)^n exp(-a(x-O)²)` -/
noncomputable def gfun (a O : ℝ) (n : Nat) (x : ℝ) : ℝ := (x - O) ^ n * Real.exp (-a * (x - O) ^ 2)

theorem gfun_mul (a b A B : ℝ) (i j : Nat) (x : ℝ) :
    gfun a A i x * gfun b B j x = (x - A) ^ i * (x - B) ^ j * Real.exp (-a * (x - A) ^ 2 + -b * (x - B) ^ 2) := by
  unfold gfun; rw [Real.exp_add]; ring

theorem integrable_gfun_mul {a b : ℝ} (hp : 0 < a + b) (A B : ℝ) (i j : Nat) :
    Integrable fun x => gfun a A i x * gfun b B j x := by
  simp only [gfun_mul]; exact integrable_gauss1 hp A B i j

theorem integral_gfun_mul (a b A B : ℝ) (i j : Nat) :
    ∫ x, gfun a A i x * gfun b B j x = gauss1 a b A B i j := by
  simp only [gfun_mul]; rfl

theorem hasDerivAt_gfun (a O : ℝ) (n : Nat) (x : ℝ) :
    HasDerivAt (gfun a O n) ((n : ℝ) * gfun a O (n - 1) x - 2 * a * gfun a O (n + 1) x) x := by
  have hA : HasDerivAt (fun x : ℝ => x - O) 1 x := (hasDerivAt_id x).sub_const O
  have h := (hA.pow n).mul ((hA.pow 2).const_mul (-a)).exp
  refine h.congr_deriv ?_
  simp only [gfun, Pi.pow_apply]
  push_cast
  ring

theorem deriv_gfun (a O : ℝ) (n : Nat) :
    deriv (gfun a O n) = fun x => (n : ℝ) * gfun a O (n - 1) x - 2 * a * gfun a O (n + 1) x :=
  funext fun x => (hasDerivAt_gfun a O n x).deriv

theorem differentiable_gfun (a O : ℝ) (n : Nat) : Differentiable ℝ (gfun a O n) :=
  fun x => (hasDerivAt_gfun a O n x).differentiableAt

theorem deriv2_gfun (a O : ℝ) (n : Nat) :
    deriv (deriv (gfun a O n)) = fun x => (n : ℝ) * (((n - 1 : ℕ) : ℝ) * gfun a O (n - 1 - 1) x -
      2 * a * gfun a O (n - 1 + 1) x) - 2 * a * (((n + 1 : ℕ) : ℝ) * gfun a O (n + 1 - 1) x - 2 * a * gfun a O (n + 1 + 1) x) := by
  rw [deriv_gfun]
  funext x
  exact (((hasDerivAt_gfun a O (n - 1) x).const_mul (n : ℝ)).sub
    ((hasDerivAt_gfun a O (n + 1) x).const_mul (2 * a))).deriv

theorem differentiable_deriv_gfun (a O : ℝ) (n : Nat) : Differentiable ℝ (deriv (gfun a O n)) := by
  rw [deriv_gfun]
  exact ((differentiable_gfun a O _).const_mul _).sub ((differentiable_gfun a O _).const_mul _)

/-! ## Partial derivatives of sums of products -/

theorem prod3_update (F : Fin 3 → ℝ → ℝ) (r : Point) (k : Fin 3) (t : ℝ) :
    prod3 F (Function.update r k t) = (∏ k' ∈ Finset.univ.erase k, F k' (r k')) * F k t := by
  unfold prod3
  rw [← Finset.mul_prod_erase _ _ (Finset.mem_univ k), mul_comm]
  congr 1
  · refine Finset.prod_congr rfl fun k' hk' => ?_
    rw [Function.update_of_ne (Finset.ne_of_mem_erase hk')]
  · rw [Function.update_self]

theorem prod3_replace (F : Fin 3 → ℝ → ℝ) (k : Fin 3) (g : ℝ → ℝ) (r : Point) :
    prod3 (Function.update F k g) r = (∏ k' ∈ Finset.univ.erase k, F k' (r k')) * g (r k) := by
  unfold prod3
  rw [← Finset.mul_prod_erase _ _ (Finset.mem_univ k), mul_comm, Function.update_self]
  congr 1
  refine Finset.prod_congr rfl fun k' hk' => ?_
  rw [Function.update_of_ne (Finset.ne_of_mem_erase hk')]

theorem pderiv_sum_prod3 (I : Finset ℕ) (w : ℕ → ℝ) (F : ℕ → Fin 3 → ℝ → ℝ) (k : Fin 3)
    (h : ∀ i, Differentiable ℝ (F i k)) :
    pderiv k (fun r => ∑ i ∈ I, w i * prod3 (F i) r) =
      fun r => ∑ i ∈ I, w i * prod3 (Function.update (F i) k (deriv (F i k))) r := by
  funext r
  unfold pderiv
  simp only [prod3_update, prod3_replace]
  have hd : HasDerivAt (fun t => ∑ i ∈ I, w i * ((∏ k' ∈ Finset.univ.erase k, F i k' (r k')) * F i k t))
      (∑ i ∈ I, w i * ((∏ k' ∈ Finset.univ.erase k, F i k' (r k')) * deriv (F i k) (r k))) (r k) :=
    HasDerivAt.fun_sum fun i _ => ((h i (r k)).hasDerivAt.const_mul _).const_mul _
  exact hd.deriv

/-! ## Contracted functions as sums of products -/

theorem primFn_eq (L : Nat) (O : Point) (c : Comp) (α : ℝ) (r : Point) :
    primFn L O c α r = gaussianNormFactor L 0 0 α * prod3 (fun k => gfun α (O k) (c.exp k)) r := by
  unfold primFn gaussianNormFactor prod3 gfun
  rw [Finset.prod_mul_distrib, ← Real.exp_sum, ← Finset.mul_sum]
  congr 2
  · norm_num
  · congr 1
    push_cast
    ring

/-- Weights of the primitives in the unnormalised product form. -/
noncomputable def Shell.weight (s : Shell) (i : Nat) : ℝ :=
  s.coeffAt i * gaussianNormFactor s.L 0 0 (s.alphaAt i)

noncomputable def Shell.factor (s : Shell) (m i : Nat) (k : Fin 3) : ℝ → ℝ :=
  gfun (s.alphaAt i) (s.origin k) ((s.comp m).exp k)

theorem basisFn_eq (s : Shell) (m : Nat) :
    basisFn s m = fun r => ∑ i ∈ Finset.range s.num, s.weight i * prod3 (s.factor m i) r := by
  funext r
  unfold basisFn
  refine Finset.sum_congr rfl fun i _ => ?_
  rw [primFn_eq]
  unfold Shell.weight Shell.factor Shell.coeffAt Shell.alphaAt Shell.comp
  ring

/-- All exponents of a shell are positive. -/
def Shell.Pos (s : Shell) : Prop := ∀ i, i < s.num → 0 < s.alpha.getD i 0

theorem Shell.Pos.at {s : Shell} (h : s.Pos) {i : Nat} (hi : i < s.num) : 0 < s.alphaAt i := h i hi

end Libgrpp
