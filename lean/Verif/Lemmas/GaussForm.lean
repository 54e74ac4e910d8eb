import Verif.Lemmas.DiffShell
import Mathlib.Analysis.Calculus.MeanValue
import Mathlib.Analysis.Calculus.FDeriv.Prod
import Mathlib.Analysis.Asymptotics.Lemmas

/-! Functions which decay like Gaussians, forms which are bounded on them, and derivatives with respect to centres. -/

namespace Libgrpp

open MeasureTheory Set

/-! ## One variable -/

theorem taylor_two {f f' f'' : ℝ → ℝ} (h1 : ∀ t, HasDerivAt f (f' t) t) (h2 : ∀ t, HasDerivAt f' (f'' t) t) {s t M : ℝ}
    (hM : ∀ u, |u - s| ≤ |t - s| → |f'' u| ≤ M) : |f t - f s - (t - s) * f' s| ≤ M * (t - s) ^ 2 := by
  set B := Metric.closedBall s |t - s| with hB
  have hs : s ∈ B := Metric.mem_closedBall_self (abs_nonneg _)
  have ht : t ∈ B := by rw [hB, Metric.mem_closedBall, Real.dist_eq]
  have hconv : Convex ℝ B := convex_closedBall s _
  have d1 : ∀ u ∈ B, |f' u - f' s| ≤ M * |t - s| := by
    intro u hu
    have hu' : |u - s| ≤ |t - s| := by rwa [hB, Metric.mem_closedBall, Real.dist_eq] at hu
    have hM0 : 0 ≤ M := (abs_nonneg _).trans (hM u hu')
    have := hconv.norm_image_sub_le_of_norm_hasDerivWithin_le (f := f') (f' := f'') (C := M) (fun x _ => (h2 x).hasDerivWithinAt)
      (fun x hx => by rw [Real.norm_eq_abs]; exact hM x (by rwa [hB, Metric.mem_closedBall, Real.dist_eq] at hx)) hs hu
    rw [Real.norm_eq_abs, Real.norm_eq_abs] at this
    exact this.trans (mul_le_mul_of_nonneg_left hu' hM0)
  have := hconv.norm_image_sub_le_of_norm_hasDerivWithin_le (f := fun u => f u - u * f' s) (f' := fun u => f' u - f' s) (C := M * |t - s|)
    (fun x _ => by
      have := (h1 x).sub ((hasDerivAt_id x).mul_const (f' s))
      rw [one_mul] at this
      exact this.hasDerivWithinAt)
    (fun x hx => by rw [Real.norm_eq_abs]; exact d1 x hx) hs ht
  rw [Real.norm_eq_abs, Real.norm_eq_abs, mul_assoc, abs_mul_abs_self] at this
  rw [show f t - f s - (t - s) * f' s = f t - t * f' s - (f s - s * f' s) by ring, pow_two]
  exact this

theorem gfun_decay {a : ℝ} (ha : 0 < a) (n : ℕ) : ∃ K, 0 ≤ K ∧ ∀ O x, |gfun a O n x| ≤ K * Real.exp (-(a / 2) * (x - O) ^ 2) := by
  refine ⟨(n.factorial : ℝ) * Real.exp (1 / (2 * a)), by positivity, fun O x => ?_⟩
  unfold gfun
  set y := x - O
  have h1 : |y| ^ n ≤ n.factorial * Real.exp |y| := by
    have := Real.pow_div_factorial_le_exp |y| (abs_nonneg _) n
    rw [div_le_iff₀ (by positivity)] at this
    linarith
  have h2 : |y| + -a * y ^ 2 ≤ 1 / (2 * a) + -(a / 2) * y ^ 2 := by
    rw [← sq_abs y]
    have : 1 / (2 * a) + -(a / 2) * |y| ^ 2 - (|y| + -a * |y| ^ 2) = (a * |y| - 1) ^ 2 / (2 * a) := by field_simp; ring
    have := div_nonneg (sq_nonneg (a * |y| - 1)) (by linarith : 0 ≤ 2 * a)
    linarith
  have h3 := Real.exp_le_exp.2 h2
  rw [Real.exp_add, Real.exp_add] at h3
  rw [abs_mul, abs_pow, Real.abs_exp]
  calc |y| ^ n * Real.exp (-a * y ^ 2) ≤ (n.factorial * Real.exp |y|) * Real.exp (-a * y ^ 2) := by gcongr
    _ = n.factorial * (Real.exp |y| * Real.exp (-a * y ^ 2)) := by ring
    _ ≤ n.factorial * (Real.exp (1 / (2 * a)) * Real.exp (-(a / 2) * y ^ 2)) := by gcongr
    _ = _ := by ring

theorem gfun_decay4 {a : ℝ} (ha : 0 < a) (n : ℕ) : ∃ K, 0 ≤ K ∧ ∀ O x, |gfun a O n x| ≤ K * Real.exp (-(a / 4) * (x - O) ^ 2) := by
  obtain ⟨K, hK, h⟩ := gfun_decay ha n
  refine ⟨K, hK, fun O x => (h O x).trans (mul_le_mul_of_nonneg_left (Real.exp_le_exp.2 ?_) hK)⟩
  nlinarith [sq_nonneg (x - O)]

/-- The derivative of `(x-t)^n exp(-a(x-t)²)` with respect to `t`. -/
noncomputable def dgfun (a t : ℝ) (n : ℕ) (x : ℝ) : ℝ := 2 * a * gfun a t (n + 1) x - (n : ℝ) * gfun a t (n - 1) x

theorem dgfun_decay4 {a : ℝ} (ha : 0 < a) (n : ℕ) : ∃ K, 0 ≤ K ∧ ∀ O x, |dgfun a O n x| ≤ K * Real.exp (-(a / 4) * (x - O) ^ 2) := by
  obtain ⟨K1, h1, d1⟩ := gfun_decay4 ha (n + 1)
  obtain ⟨K2, h2, d2⟩ := gfun_decay4 ha (n - 1)
  refine ⟨2 * a * K1 + n * K2, by positivity, fun O x => ?_⟩
  unfold dgfun
  refine (abs_sub _ _).trans ?_
  rw [abs_mul (2 * a), abs_mul (Nat.cast _ : ℝ), abs_of_pos (by linarith : 0 < 2 * a), Nat.abs_cast, add_mul]
  refine add_le_add ?_ ?_
  · rw [mul_assoc (2 * a) K1]; exact mul_le_mul_of_nonneg_left (d1 O x) (by linarith)
  · rw [mul_assoc]; exact mul_le_mul_of_nonneg_left (d2 O x) (Nat.cast_nonneg n)

theorem gfun_taylor {a : ℝ} (ha : 0 < a) (n : ℕ) : ∃ K, 0 ≤ K ∧ ∀ O t x, |t - O| ≤ 1 →
    |gfun a t n x - gfun a O n x - (t - O) * dgfun a O n x| ≤ K * (t - O) ^ 2 * Real.exp (-(a / 4) * (x - O) ^ 2) := by
  choose K hK hd using fun n => gfun_decay ha n
  refine ⟨(2 * a * (2 * a * K (n + 1 + 1) + (n + 1 : ℕ) * K (n + 1 - 1)) + n * (2 * a * K (n - 1 + 1) + (n - 1 : ℕ) * K (n - 1 - 1))) * Real.exp (a / 2),
    ?_, fun O t x ht => ?_⟩
  · have h1 := hK (n + 1 + 1); have h2 := hK (n + 1 - 1); have h3 := hK (n - 1 + 1); have h4 := hK (n - 1 - 1)
    positivity
  have h1 : ∀ u, HasDerivAt (fun u => gfun a u n x) (dgfun a u n x) u := fun u => hasDerivAt_gfun_centre a x u n
  have h2 : ∀ u, HasDerivAt (fun u => dgfun a u n x) (2 * a * dgfun a u (n + 1) x - n * dgfun a u (n - 1) x) u := fun u =>
    ((hasDerivAt_gfun_centre a x u (n + 1)).const_mul (2 * a)).sub ((hasDerivAt_gfun_centre a x u (n - 1)).const_mul (n : ℝ))
  have hb : ∀ u m, |dgfun a u m x| ≤ (2 * a * K (m + 1) + m * K (m - 1)) * Real.exp (-(a / 2) * (x - u) ^ 2) := by
    intro u m
    unfold dgfun
    refine (abs_sub _ _).trans ?_
    rw [abs_mul (2 * a), abs_mul (Nat.cast _ : ℝ), abs_of_pos (by linarith : 0 < 2 * a), Nat.abs_cast, add_mul]
    refine add_le_add ?_ ?_
    · rw [mul_assoc (2 * a) (K _)]; exact mul_le_mul_of_nonneg_left (hd _ u x) (by linarith)
    · rw [mul_assoc]; exact mul_le_mul_of_nonneg_left (hd _ u x) (Nat.cast_nonneg m)
  have := taylor_two h1 h2 (s := O) (t := t) (M := (2 * a * (2 * a * K (n + 1 + 1) + (n + 1 : ℕ) * K (n + 1 - 1)) +
    n * (2 * a * K (n - 1 + 1) + (n - 1 : ℕ) * K (n - 1 - 1))) * Real.exp (a / 2) * Real.exp (-(a / 4) * (x - O) ^ 2)) fun u hu => ?_
  · refine this.trans (le_of_eq ?_)
    ring
  have hu1 : |u - O| ≤ 1 := hu.trans ht
  have he : Real.exp (-(a / 2) * (x - u) ^ 2) ≤ Real.exp (a / 2) * Real.exp (-(a / 4) * (x - O) ^ 2) := by
    rw [← Real.exp_add, Real.exp_le_exp]
    have h3 : (u - O) ^ 2 ≤ 1 := by rw [← sq_abs]; exact pow_le_one₀ (abs_nonneg _) hu1
    have h4 : (x - O) ^ 2 ≤ 2 * (x - u) ^ 2 + 2 := by nlinarith [sq_nonneg (x - u - (u - O))]
    nlinarith
  refine (abs_sub _ _).trans ?_
  rw [abs_mul (2 * a), abs_mul (Nat.cast _ : ℝ), abs_of_pos (by linarith : 0 < 2 * a), Nat.abs_cast]
  have k1 := hb u (n + 1)
  have k2 := hb u (n - 1)
  have hp1 : 0 ≤ 2 * a * K (n + 1 + 1) + (n + 1 : ℕ) * K (n + 1 - 1) := by
    have h1 := hK (n + 1 + 1); have h2 := hK (n + 1 - 1); positivity
  have hp2 : 0 ≤ 2 * a * K (n - 1 + 1) + (n - 1 : ℕ) * K (n - 1 - 1) := by
    have h1 := hK (n - 1 + 1); have h2 := hK (n - 1 - 1); positivity
  calc 2 * a * |dgfun a u (n + 1) x| + n * |dgfun a u (n - 1) x|
      ≤ 2 * a * ((2 * a * K (n + 1 + 1) + (n + 1 : ℕ) * K (n + 1 - 1)) * (Real.exp (a / 2) * Real.exp (-(a / 4) * (x - O) ^ 2))) +
        n * ((2 * a * K (n - 1 + 1) + (n - 1 : ℕ) * K (n - 1 - 1)) * (Real.exp (a / 2) * Real.exp (-(a / 4) * (x - O) ^ 2))) := by
        refine add_le_add ?_ ?_
        · exact mul_le_mul_of_nonneg_left (k1.trans (mul_le_mul_of_nonneg_left he hp1)) (by linarith)
        · exact mul_le_mul_of_nonneg_left (k2.trans (mul_le_mul_of_nonneg_left he hp2)) (Nat.cast_nonneg n)
    _ = _ := by ring

/-! ## Decaying functions -/

/-- `exp(-β |r - C|²)` -/
noncomputable def gw (C : Point) (β : ℝ) (r : Point) : ℝ := Real.exp (-β * ∑ k, (r k - C k) ^ 2)

theorem gw_pos (C : Point) (β : ℝ) (r : Point) : 0 < gw C β r := Real.exp_pos _

theorem gw_mono (C : Point) {β β' : ℝ} (h : β' ≤ β) (r : Point) : gw C β r ≤ gw C β' r := by
  unfold gw
  rw [Real.exp_le_exp]
  have : 0 ≤ ∑ k, (r k - C k) ^ 2 := Finset.sum_nonneg fun _ _ => sq_nonneg _
  nlinarith

theorem gw_move (O C : Point) {β : ℝ} (hβ : 0 ≤ β) (r : Point) : gw O β r ≤ Real.exp (β * ∑ k, (O k - C k) ^ 2) * gw C (β / 2) r := by
  unfold gw
  rw [← Real.exp_add, Real.exp_le_exp]
  have : ∑ k, (r k - C k) ^ 2 ≤ 2 * ∑ k, (r k - O k) ^ 2 + 2 * ∑ k, (O k - C k) ^ 2 := by
    rw [Finset.mul_sum, Finset.mul_sum, ← Finset.sum_add_distrib]
    exact Finset.sum_le_sum fun k _ => by nlinarith [sq_nonneg (r k - O k - (O k - C k))]
  nlinarith

/-- A continuous function bounded by `K exp(-β |r - C|²)`. -/
structure Decays (C : Point) (β K : ℝ) (f : Point → ℝ) : Prop where
  cont : Continuous f
  le : ∀ r, |f r| ≤ K * gw C β r

theorem Decays.nonneg {C : Point} {β K : ℝ} {f : Point → ℝ} (h : Decays C β K f) : 0 ≤ K :=
  nonneg_of_mul_nonneg_left ((abs_nonneg _).trans (h.le C)) (gw_pos C β C)

theorem Decays.weaken {C : Point} {β β' K K' : ℝ} {f : Point → ℝ} (h : Decays C β K f) (hβ : β' ≤ β) (hK : K ≤ K') : Decays C β' K' f :=
  ⟨h.cont, fun r => (h.le r).trans (mul_le_mul hK (gw_mono C hβ r) (gw_pos C β r).le (h.nonneg.trans hK))⟩

theorem Decays.add {C : Point} {β K K' : ℝ} {f g : Point → ℝ} (h : Decays C β K f) (h' : Decays C β K' g) :
    Decays C β (K + K') fun r => f r + g r :=
  ⟨h.cont.add h'.cont, fun r => (abs_add_le _ _).trans (by rw [add_mul]; exact add_le_add (h.le r) (h'.le r))⟩

theorem Decays.const_mul {C : Point} {β K : ℝ} {f : Point → ℝ} (h : Decays C β K f) (c : ℝ) : Decays C β (|c| * K) fun r => c * f r :=
  ⟨continuous_const.mul h.cont, fun r => by rw [abs_mul, mul_assoc]; exact mul_le_mul_of_nonneg_left (h.le r) (abs_nonneg c)⟩

theorem Decays.sub_mul {C : Point} {β K K' : ℝ} {f g : Point → ℝ} (h : Decays C β K f) (h' : Decays C β K' g) (c : ℝ) :
    Decays C β (K + |c| * K') fun r => f r - c * g r := by
  have := h.add (h'.const_mul (-c))
  rw [abs_neg] at this
  exact ⟨by simpa [sub_eq_add_neg] using this.cont, fun r => by have := this.le r; rwa [neg_mul, ← sub_eq_add_neg] at this⟩

/-! ## Curves of functions -/

/-- `f t` is differentiable at `s`, uniformly with Gaussian weight. -/
def GCurve (C : Point) (f : ℝ → Point → ℝ) (f' : Point → ℝ) (s : ℝ) : Prop :=
  ∃ β K : ℝ, 0 < β ∧ (∀ t, Continuous (f t)) ∧ Decays C β K (f s) ∧ Decays C β K f' ∧
    ∀ t, |t - s| ≤ 1 → ∀ r, |f t r - f s r - (t - s) * f' r| ≤ K * (t - s) ^ 2 * gw C β r

theorem GCurve.zero (C : Point) (s : ℝ) : GCurve C (fun _ _ => 0) (fun _ => 0) s :=
  ⟨1, 0, one_pos, fun _ => continuous_const, ⟨continuous_const, by simp⟩, ⟨continuous_const, by simp⟩, by simp⟩

theorem GCurve.add {C : Point} {f g : ℝ → Point → ℝ} {f' g' : Point → ℝ} {s : ℝ} (hf : GCurve C f f' s) (hg : GCurve C g g' s) :
    GCurve C (fun t r => f t r + g t r) (fun r => f' r + g' r) s := by
  obtain ⟨β, K, hβ, c, d, d', T⟩ := hf
  obtain ⟨γ, L, hγ, c2, e, e', S⟩ := hg
  have k1 := min_le_left β γ
  have k2 := min_le_right β γ
  refine ⟨min β γ, K + L, lt_min hβ hγ, fun t => (c t).add (c2 t), (d.weaken k1 le_rfl).add (e.weaken k2 le_rfl),
    (d'.weaken k1 le_rfl).add (e'.weaken k2 le_rfl), fun t ht r => ?_⟩
  have h1 := T t ht r
  have h2 := S t ht r
  have hK := d.nonneg
  have hL := e.nonneg
  have g1 := mul_le_mul_of_nonneg_left (gw_mono C k1 r) (mul_nonneg hK (sq_nonneg (t - s)))
  have g2 := mul_le_mul_of_nonneg_left (gw_mono C k2 r) (mul_nonneg hL (sq_nonneg (t - s)))
  calc |f t r + g t r - (f s r + g s r) - (t - s) * (f' r + g' r)| =
      |(f t r - f s r - (t - s) * f' r) + (g t r - g s r - (t - s) * g' r)| := by congr 1; ring
    _ ≤ _ := (abs_add_le _ _).trans (add_le_add (h1.trans g1) (h2.trans g2))
    _ = _ := by ring

theorem GCurve.const_mul {C : Point} {f : ℝ → Point → ℝ} {f' : Point → ℝ} {s : ℝ} (hf : GCurve C f f' s) (c : ℝ) :
    GCurve C (fun t r => c * f t r) (fun r => c * f' r) s := by
  obtain ⟨β, K, hβ, h1, h2, h3, T⟩ := hf
  refine ⟨β, |c| * K, hβ, fun t => continuous_const.mul (h1 t), h2.const_mul c, h3.const_mul c, fun t ht r => ?_⟩
  rw [show c * f t r - c * f s r - (t - s) * (c * f' r) = c * (f t r - f s r - (t - s) * f' r) by ring, abs_mul]
  refine (mul_le_mul_of_nonneg_left (T t ht r) (abs_nonneg c)).trans (le_of_eq ?_)
  ring

theorem GCurve.sum {C : Point} {ι : Type*} (I : Finset ι) {f : ι → ℝ → Point → ℝ} {f' : ι → Point → ℝ} {s : ℝ}
    (h : ∀ i ∈ I, GCurve C (f i) (f' i) s) : GCurve C (fun t r => ∑ i ∈ I, f i t r) (fun r => ∑ i ∈ I, f' i r) s := by
  classical
  induction I using Finset.induction_on with
  | empty => simpa using GCurve.zero C s
  | insert a I ha ih =>
    simp only [Finset.sum_insert ha]
    exact (h a (Finset.mem_insert_self a I)).add (ih fun i hi => h i (Finset.mem_insert_of_mem hi))

theorem GCurve.hasDerivAt {C : Point} {f : ℝ → Point → ℝ} {f' : Point → ℝ} {s : ℝ} (hf : GCurve C f f' s) (r : Point) :
    HasDerivAt (fun t => f t r) (f' r) s := by
  obtain ⟨β, K, hβ, -, -, -, T⟩ := hf
  rw [hasDerivAt_iff_isLittleO]
  have : (fun t => f t r - f s r - (t - s) • f' r) =O[nhds s] fun t => (t - s) ^ 2 := by
    refine Asymptotics.IsBigO.of_bound (K * gw C β r) ?_
    filter_upwards [Metric.closedBall_mem_nhds s one_pos] with t ht
    rw [Metric.mem_closedBall, Real.dist_eq] at ht
    rw [Real.norm_eq_abs, Real.norm_eq_abs, abs_of_nonneg (sq_nonneg (t - s)), smul_eq_mul]
    refine (T t ht r).trans (le_of_eq ?_)
    ring
  refine this.trans_isLittleO ?_
  have := Asymptotics.isLittleO_pow_sub_sub s (one_lt_two (α := ℕ))
  simpa only [Real.norm_eq_abs, sq_abs] using this

theorem GCurve.decays {C : Point} {f : ℝ → Point → ℝ} {f' : Point → ℝ} {s : ℝ} (hf : GCurve C f f' s) :
    ∃ β K, 0 < β ∧ Decays C β K (f s) := by
  obtain ⟨β, K, hβ, -, h, -⟩ := hf
  exact ⟨β, K, hβ, h⟩

/-! ## Contracted functions -/

theorem continuous_gfun (a O : ℝ) (n : ℕ) : Continuous (gfun a O n) := (differentiable_gfun a O n).continuous

theorem continuous_prod3 {F : Fin 3 → ℝ → ℝ} (h : ∀ k, Continuous (F k)) : Continuous (prod3 F) := by
  unfold prod3
  exact continuous_finset_prod _ fun k _ => (h k).comp (continuous_apply k)

theorem exp_split (β : ℝ) (O r : Point) (k : Fin 3) :
    gw O β r = (∏ k' ∈ Finset.univ.erase k, Real.exp (-β * (r k' - O k') ^ 2)) * Real.exp (-β * (r k - O k) ^ 2) := by
  unfold gw
  rw [Finset.mul_sum, Real.exp_sum, ← Finset.mul_prod_erase _ _ (Finset.mem_univ k), mul_comm]

theorem prim_curve (C O : Point) {a : ℝ} (ha : 0 < a) (e : Fin 3 → ℕ) (k : Fin 3) :
    GCurve C (fun t => prod3 (Function.update (fun k' => gfun a (O k') (e k')) k (gfun a t (e k))))
      (prod3 (Function.update (fun k' => gfun a (O k') (e k')) k (dgfun a (O k) (e k)))) (O k) := by
  choose Q hQ hq using fun n => gfun_decay4 ha n
  obtain ⟨K2, hK2, h2⟩ := dgfun_decay4 ha (e k)
  obtain ⟨K3, hK3, h3⟩ := gfun_taylor ha (e k)
  set P := ∏ k' ∈ Finset.univ.erase k, Q (e k') with hP
  have hP0 : 0 ≤ P := Finset.prod_nonneg fun _ _ => hQ _
  have rest : ∀ r : Point, |∏ k' ∈ Finset.univ.erase k, gfun a (O k') (e k') (r k')| ≤
      P * ∏ k' ∈ Finset.univ.erase k, Real.exp (-(a / 4) * (r k' - O k') ^ 2) := by
    intro r
    rw [Finset.abs_prod, hP, ← Finset.prod_mul_distrib]
    exact Finset.prod_le_prod (fun _ _ => abs_nonneg _) fun k' _ => hq _ _ _
  set E := Real.exp (a / 4 * ∑ k, (O k - C k) ^ 2) with hE
  have hE0 : 0 < E := Real.exp_pos _
  -- a product with last factor `v`
  have main : ∀ (r : Point) (v c : ℝ), 0 ≤ c → |v| ≤ c * Real.exp (-(a / 4) * (r k - O k) ^ 2) →
      |(∏ k' ∈ Finset.univ.erase k, gfun a (O k') (e k') (r k')) * v| ≤ P * c * E * gw C (a / 4 / 2) r := by
    intro r v c hc hv
    rw [abs_mul]
    have hpp : 0 ≤ ∏ k' ∈ Finset.univ.erase k, Real.exp (-(a / 4) * (r k' - O k') ^ 2) := Finset.prod_nonneg fun _ _ => (Real.exp_pos _).le
    calc _ ≤ (P * ∏ k' ∈ Finset.univ.erase k, Real.exp (-(a / 4) * (r k' - O k') ^ 2)) * (c * Real.exp (-(a / 4) * (r k - O k) ^ 2)) :=
          mul_le_mul (rest r) hv (abs_nonneg _) (mul_nonneg hP0 hpp)
      _ = P * c * gw O (a / 4) r := by rw [exp_split (a / 4) O r k]; ring
      _ ≤ P * c * (E * gw C (a / 4 / 2) r) := mul_le_mul_of_nonneg_left (gw_move O C (by linarith) r) (mul_nonneg hP0 hc)
      _ = _ := by ring
  set M := max (Q (e k)) (max K2 K3) with hM
  have m1 : Q (e k) ≤ M := le_max_left _ _
  have m2 : K2 ≤ M := (le_max_left _ _).trans (le_max_right _ _)
  have m3 : K3 ≤ M := (le_max_right _ _).trans (le_max_right _ _)
  have hM0 : 0 ≤ M := hK2.trans m2
  have cont : ∀ v : ℝ → ℝ, Continuous v → Continuous (prod3 (Function.update (fun k' => gfun a (O k') (e k')) k v)) := by
    intro v hv
    refine continuous_prod3 fun k' => ?_
    by_cases h : k' = k
    · subst h; rw [Function.update_self]; exact hv
    · rw [Function.update_of_ne h]; exact continuous_gfun _ _ _
  refine ⟨a / 4 / 2, P * M * E, by linarith, fun t => cont _ (continuous_gfun _ _ _), ⟨cont _ (continuous_gfun _ _ _), fun r => ?_⟩,
    ⟨cont _ ?_, fun r => ?_⟩, fun t ht r => ?_⟩
  · beta_reduce
    rw [prod3_replace]
    exact main r _ M hM0 ((hq _ _ _).trans (mul_le_mul_of_nonneg_right m1 (Real.exp_pos _).le))
  · unfold dgfun
    exact (continuous_const.mul (continuous_gfun _ _ _)).sub (continuous_const.mul (continuous_gfun _ _ _))
  · rw [prod3_replace]
    exact main r _ M hM0 ((h2 _ _).trans (mul_le_mul_of_nonneg_right m2 (Real.exp_pos _).le))
  · simp only [prod3_replace]
    rw [show ∀ p x y z w : ℝ, p * x - p * y - w * (p * z) = p * (x - y - w * z) by intros; ring]
    refine (main r _ (M * (t - O k) ^ 2) (by positivity) ?_).trans (le_of_eq (by ring))
    refine (h3 (O k) t (r k) ht).trans ?_
    gcongr

theorem basis_curve (C : Point) {s : Shell} (hs : s.Pos) (k : Fin 3) (m : ℕ) :
    ∃ f', GCurve C (fun t => basisFn (s.moveTo k t) m) f' (s.origin k) := by
  refine ⟨fun r => ∑ i ∈ Finset.range s.num, s.weight i *
      prod3 (Function.update (s.factor m i) k (dgfun (s.alphaAt i) (s.origin k) ((s.comp m).exp k))) r, ?_⟩
  have e : (fun t => basisFn (s.moveTo k t) m) = fun t r => ∑ i ∈ Finset.range s.num, s.weight i *
      prod3 (Function.update (s.factor m i) k (gfun (s.alphaAt i) t ((s.comp m).exp k))) r := by
    funext t r
    rw [basisFn_eq (s.moveTo k t) m]
    simp only [factor_moveTo]
    rfl
  rw [e]
  exact GCurve.sum _ fun i hi => (prim_curve C s.origin (hs.at (Finset.mem_range.1 hi)) (s.comp m).exp k).const_mul _

theorem moveTo_self (s : Shell) (k : Fin 3) : s.moveTo k (s.origin k) = s := by
  unfold Shell.moveTo
  rw [Function.update_eq_self]

end Libgrpp
