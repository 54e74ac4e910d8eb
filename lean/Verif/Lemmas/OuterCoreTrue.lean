import Verif.Lemmas.OuterCoreParts
import Verif.Props.Type1
import Verif.Props.OneElectron
import Verif.Lemmas.Type2Limit
import Verif.Lemmas.PlaneWaveDir
import Mathlib.Analysis.Real.Pi.Bounds

/-! Helper lemmas for the outer-core integrals: from Cartesian components to the functions of the outer-core shells. -/

namespace Libgrpp

open MeasureTheory Set
open scoped Nat

/-- The components of a shell are all the components of its degree, each once. -/
structure Complete (s : Shell) : Prop where
  size : s.cart_size = s.cartList.length
  nodup : s.cartList.Nodup
  mem : ∀ c : Comp, c ∈ s.cartList ↔ c.1 + c.2.1 + c.2.2 = s.L

theorem Shell.Made.complete {gen : Nat → List Comp} (hg : DocumentedOrder gen) {s : Shell} (h : s.Made gen) : Complete s := by
  have e : s.cartList = cartesianTurbomole s.L := by rw [h.list, hg.eq]
  obtain ⟨h1, h2, h3⟩ := cartesian_turbomole_complete s.L
  exact ⟨by rw [e, h1, h.size], by rw [e]; exact h2, fun c => by rw [e]; exact h3 c.1 c.2.1 c.2.2⟩

theorem sum_comp {s : Shell} (h : Complete s) (f : ℕ → ℕ → ℕ → ℝ) :
    ∑ ic ∈ Finset.range s.cart_size, f (s.comp ic).1 (s.comp ic).2.1 (s.comp ic).2.2 = cartSum s.L f := by
  rw [← cartSum_triple]
  have e1 : ∑ ic ∈ Finset.range s.cart_size, f (s.comp ic).1 (s.comp ic).2.1 (s.comp ic).2.2 =
      ∑ c ∈ (Finset.range (s.L + 1) ×ˢ Finset.range (s.L + 1) ×ˢ Finset.range (s.L + 1)).filter (fun c : Comp => c.1 + c.2.1 + c.2.2 = s.L),
        f c.1 c.2.1 c.2.2 := by
    refine Finset.sum_bij (fun ic _ => s.comp ic) ?_ ?_ ?_ fun _ _ => rfl
    · intro ic hic
      have hl : ic < s.cartList.length := by rw [← h.size]; exact Finset.mem_range.1 hic
      have hm := (h.mem (s.comp ic)).1 (by
        unfold Shell.comp
        rw [List.getD_eq_getElem _ _ hl]
        exact List.getElem_mem hl)
      simp only [Finset.mem_filter, Finset.mem_product, Finset.mem_range]
      omega
    · intro i hi j hj e
      have hi : i < s.cartList.length := by rw [← h.size]; exact Finset.mem_range.1 hi
      have hj : j < s.cartList.length := by rw [← h.size]; exact Finset.mem_range.1 hj
      unfold Shell.comp at e
      rw [List.getD_eq_getElem _ _ hi, List.getD_eq_getElem _ _ hj] at e
      exact (List.Nodup.getElem_inj_iff h.nodup).1 e
    · intro c hc
      obtain ⟨i, hi, e⟩ := List.mem_iff_getElem.1 ((h.mem c).2 (Finset.mem_filter.1 hc).2)
      refine ⟨i, by rw [Finset.mem_range, h.size]; exact hi, ?_⟩
      unfold Shell.comp
      rw [List.getD_eq_getElem _ _ hi, e]
  rw [e1, Finset.sum_filter, Finset.sum_product]
  refine Finset.sum_congr rfl fun a _ => ?_
  rw [Finset.sum_product]

theorem angNorm_pos (L : ℕ) : 0 < angNorm L := by
  have hd : (0:ℝ) < ((2 * L + 1)‼ : ℕ) := by exact_mod_cast Nat.doubleFactorial_pos _
  have hp := Real.pi_pos
  unfold angNorm
  positivity

theorem angNorm_sq (L : ℕ) : angNorm L ^ 2 = ((2 * L + 1)‼ : ℕ) / (4 * Real.pi) := by
  unfold angNorm
  rw [mul_pow, Real.sq_sqrt (Nat.cast_nonneg _), div_pow, mul_pow, Real.sq_sqrt Real.pi_pos.le]
  ring

theorem primNorm_sq (L : ℕ) {α : ℝ} (hα : 0 < α) :
    ((2 * α / Real.pi) ^ ((3:ℝ) / 4) * (4 * α) ^ ((L : ℝ) / 2)) ^ 2 = 2 * α / Real.pi * Real.sqrt (2 * α / Real.pi) * (4 * α) ^ L := by
  have hp := Real.pi_pos
  have h0 : 0 < 2 * α / Real.pi := by positivity
  rw [mul_pow, ← Real.rpow_natCast, ← Real.rpow_natCast, ← Real.rpow_mul h0.le, ← Real.rpow_mul (by positivity)]
  congr 1
  · rw [show (3:ℝ) / 4 * ((2:ℕ):ℝ) = 1 + 1 / 2 by push_cast; norm_num, Real.rpow_add h0, Real.rpow_one, Real.sqrt_eq_rpow]
  · rw [show (L:ℝ) / 2 * ((2:ℕ):ℝ) = (L : ℝ) by push_cast; ring, Real.rpow_natCast]

theorem radialNorm_sq (L : ℕ) {α : ℝ} (hα : 0 < α) :
    radialNorm L α ^ 2 = (((2 * L + 1)‼ : ℕ) / (2 ^ (L + 2) * (2 * α) ^ (L + 1)) * Real.sqrt (Real.pi / (2 * α)))⁻¹ := by
  have hI : ∫ r in Ioi (0:ℝ), r ^ 2 * (r ^ L * Real.exp (-α * r ^ 2)) ^ 2 = ∫ r in Ioi (0:ℝ), r ^ (2 * (L + 1)) * Real.exp (-(2 * α) * r ^ 2) := by
    refine setIntegral_congr_fun measurableSet_Ioi fun r _ => ?_
    have : Real.exp (-(2 * α) * r ^ 2) = Real.exp (-α * r ^ 2) ^ 2 := by rw [← Real.exp_nat_mul]; congr 1; push_cast; ring
    simp only [this]
    ring
  unfold radialNorm
  rw [hI, moment_even (L + 1) (by linarith : 0 < 2 * α), show 2 * (L + 1) - 1 = 2 * L + 1 by omega, inv_pow, Real.sq_sqrt (by positivity)]

theorem radialNorm_nonneg (L : ℕ) (α : ℝ) : 0 ≤ radialNorm L α := by unfold radialNorm; positivity

theorem radialNorm_eq (L : ℕ) {α : ℝ} (hα : 0 < α) :
    radialNorm L α = (2 * α / Real.pi) ^ ((3:ℝ) / 4) * (4 * α) ^ ((L : ℝ) / 2) / angNorm L := by
  have hp := Real.pi_pos
  have hd : (0:ℝ) < ((2 * L + 1)‼ : ℕ) := by exact_mod_cast Nat.doubleFactorial_pos _
  have hang := angNorm_pos L
  refine (pow_left_inj₀ (radialNorm_nonneg _ _) (by positivity) two_ne_zero).1 ?_
  rw [radialNorm_sq L hα, div_pow, primNorm_sq L hα, angNorm_sq]
  have e : Real.sqrt (Real.pi / (2 * α)) = (Real.sqrt (2 * α / Real.pi))⁻¹ := by rw [← Real.sqrt_inv, inv_div]
  have h0 : 0 < Real.sqrt (2 * α / Real.pi) := Real.sqrt_pos.2 (by positivity)
  rw [e]
  generalize Real.sqrt (2 * α / Real.pi) = q at h0 ⊢
  have e4 : (4 * α) ^ L = 2 ^ L * 2 ^ L * α ^ L := by rw [show (4:ℝ) * α = 2 * 2 * α by ring, mul_pow, mul_pow]
  rw [e4, mul_pow 2 α]
  field_simp
  ring

/-- The Cartesian components, combined, are the components of the outer-core shell. -/
theorem sum_slm_basis {s : Shell} (h : Complete s) (hpos : s.Pos) (C : Point) {mi : ℕ} (hmi : mi < 2 * s.L + 1) (x : Point) :
    ∑ ic ∈ Finset.range s.cart_size, slm s.L s mi ic * basisFn (bindOrigin C s) ic x = ocFn s C mi x := by
  have hr : radius C x ^ 2 = ∑ k, (x k - C k) ^ 2 := by unfold radius; rw [Real.sq_sqrt (Finset.sum_nonneg fun _ _ => sq_nonneg _)]
  have hm : ((mi : ℤ) - s.L).natAbs ≤ s.L := by omega
  -- the angular part
  have hang : cartSum s.L (fun a b c => sphVal s.L ((mi : ℤ) - s.L) a b * ((x 0 - C 0) ^ a * (x 1 - C 1) ^ b * (x 2 - C 2) ^ c)) =
      radius C x ^ s.L * rsh s.L ((mi : ℤ) - s.L) fun k => (x k - C k) / radius C x := by
    by_cases h0 : radius C x = 0
    · have hz : ∀ k, x k - C k = 0 := by
        rw [h0, zero_pow two_ne_zero] at hr
        intro k
        have := (Finset.sum_eq_zero_iff_of_nonneg fun i _ => sq_nonneg (x i - C i)).1 hr.symm k (Finset.mem_univ k)
        exact pow_eq_zero_iff two_ne_zero |>.1 this
      simp only [hz, h0]
      rcases Nat.eq_zero_or_pos s.L with e | e
      · have e2 := sphVal_sum s.L ((mi : ℤ) - s.L) hm ![1, 0, 0] (by simp [Fin.sum_univ_three])
        rw [e] at e2 hm ⊢
        have : (mi : ℤ) - (0 : ℕ) = 0 := by omega
        rw [this] at e2 ⊢
        rw [rsh_zero_zero] at e2 ⊢
        rw [pow_zero, one_mul, ← e2]
        unfold cartSum
        simp
      · rw [zero_pow (by omega), zero_mul]
        refine (cartSum_congr s.L (g := fun _ _ _ => 0) fun a b c habc => ?_).trans ?_
        · have : a ≠ 0 ∨ b ≠ 0 ∨ c ≠ 0 := by omega
          rcases this with h | h | h <;> simp [h]
        · unfold cartSum; simp
    · rw [← sphVal_sum s.L ((mi : ℤ) - s.L) hm (fun k => (x k - C k) / radius C x) (by
        simp only [div_pow, ← Finset.sum_div, ← hr]
        exact div_self (pow_ne_zero 2 h0)), ← cartSum_mul_left]
      refine cartSum_congr s.L fun a b c habc => ?_
      rw [← habc, pow_add, pow_add, div_pow, div_pow, div_pow]
      field_simp
  unfold ocFn
  unfold ocRadial
  rw [Finset.sum_mul]
  have e1 : ∀ ic ∈ Finset.range s.cart_size, slm s.L s mi ic * basisFn (bindOrigin C s) ic x = ∑ i ∈ Finset.range s.num,
      s.coeffs.getD i 0 * (radialNorm s.L (s.alpha.getD i 0) * Real.exp (-s.alpha.getD i 0 * radius C x ^ 2)) *
        (sphVal s.L ((mi : ℤ) - s.L) (s.comp ic).1 (s.comp ic).2.1 *
          ((x 0 - C 0) ^ (s.comp ic).1 * (x 1 - C 1) ^ (s.comp ic).2.1 * (x 2 - C 2) ^ (s.comp ic).2.2)) := by
    intro ic _
    unfold basisFn slm
    rw [Finset.mul_sum]
    refine Finset.sum_congr rfl fun i hi => ?_
    rw [radialNorm_eq s.L (hpos i (Finset.mem_range.1 hi)), hr]
    unfold primFn
    rw [Fin.prod_univ_three]
    show sphVal s.L ((mi : ℤ) - s.L) (s.comp ic).1 (s.comp ic).2.1 / angNorm s.L * (s.coeffs.getD i 0 * (_ * _ *
      ((x 0 - C 0) ^ (s.comp ic).1 * (x 1 - C 1) ^ (s.comp ic).2.1 * (x 2 - C 2) ^ (s.comp ic).2.2 * _))) = _
    show sphVal s.L ((mi : ℤ) - s.L) (s.comp ic).1 (s.comp ic).2.1 / angNorm s.L * (s.coeffs.getD i 0 *
      ((2 * s.alpha.getD i 0 / Real.pi) ^ ((3 : ℝ) / 4) * (4 * s.alpha.getD i 0) ^ ((s.L : ℝ) / 2) *
      ((x 0 - C 0) ^ (s.comp ic).1 * (x 1 - C 1) ^ (s.comp ic).2.1 * (x 2 - C 2) ^ (s.comp ic).2.2 *
        Real.exp (-s.alpha.getD i 0 * ∑ k, (x k - C k) ^ 2)))) = _
    ring
  rw [Finset.sum_congr rfl e1, Finset.sum_comm]
  refine Finset.sum_congr rfl fun i _ => ?_
  rw [← Finset.mul_sum, sum_comp h (fun a b c => sphVal s.L ((mi : ℤ) - s.L) a b * ((x 0 - C 0) ^ a * (x 1 - C 1) ^ b * (x 2 - C 2) ^ c)), hang]
  ring

theorem Complete.dropTiny {s : Shell} (h : Complete s) : Complete (dropTiny s) := ⟨h.size, h.nodup, h.mem⟩

theorem sphComp_overlap {A s : Shell} (pA : A.Pos) (h : Complete s) (hp : s.Pos) (C : Point) (m : ℕ) {mi : ℕ} (hmi : mi < 2 * s.L + 1) :
    sphComp s.cart_size (slm s.L s) (fun k => ∫ r, basisFn A m r * basisFn (bindOrigin C s) k r) mi = ocOverlap A C s m mi := by
  have hp' : (bindOrigin C s).Pos := hp
  unfold sphComp ocOverlap
  simp only [← integral_const_mul]
  rw [← integral_finsetSum _ fun k _ => (one_electron_integrable 0 A _ pA hp' m k).1.const_mul _]
  refine integral_congr_ae (.of_forall fun x => ?_)
  simp only []
  rw [← sum_slm_basis h hp C hmi x, Finset.mul_sum]
  exact Finset.sum_congr rfl fun _ _ => by ring

theorem potential_integrable (A B : Shell) (pA : A.Pos) (pB : B.Pos) (C : Point) (p : Potential)
    (hterm : ∀ k < p.num, (p.powers.getD k 0 = 0 ∨ p.powers.getD k 0 = 1 ∨ p.powers.getD k 0 = 2) ∧ 0 ≤ p.alpha.getD k 0) (m n : ℕ) :
    Integrable fun r => basisFn (dropTiny A) m r * potentialFn p C r * basisFn (dropTiny B) n r := by
  have : (fun r => basisFn (dropTiny A) m r * potentialFn p C r * basisFn (dropTiny B) n r) = fun r => ∑ k ∈ Finset.range p.num,
      p.coeffs.getD k 0 * (basisFn (dropTiny A) m r * localTerm (p.powers.getD k 0) (p.alpha.getD k 0) C r * basisFn (dropTiny B) n r) := by
    funext r
    unfold potentialFn
    rw [Finset.mul_sum, Finset.sum_mul]
    exact Finset.sum_congr rfl fun _ _ => by ring
  rw [this]
  refine integrable_finsetSum _ fun k hk => ?_
  obtain ⟨h1, h2⟩ := hterm k (Finset.mem_range.1 hk)
  exact ((termValue_exact _ h1 A B pA pB C _ h2 m n).1).const_mul _

theorem sphComp_potential {A s : Shell} (pA : A.Pos) (h : Complete s) (hp : s.Pos) (C : Point) (p : Potential)
    (hterm : ∀ k < p.num, (p.powers.getD k 0 = 0 ∨ p.powers.getD k 0 = 1 ∨ p.powers.getD k 0 = 2) ∧ 0 ≤ p.alpha.getD k 0)
    (m : ℕ) {mi : ℕ} (hmi : mi < 2 * s.L + 1) :
    sphComp s.cart_size (slm s.L s) (fun k => ∫ r, basisFn (dropTiny A) m r * potentialFn p C r * basisFn (dropTiny (bindOrigin C s)) k r) mi =
      ocPotential (dropTiny A) C p (dropTiny s) m mi := by
  have hp' : (bindOrigin C s).Pos := hp
  unfold sphComp ocPotential
  simp only [← integral_const_mul]
  rw [← integral_finsetSum _ fun k _ => (potential_integrable A _ pA hp' C p hterm m k).const_mul _]
  refine integral_congr_ae (.of_forall fun x => ?_)
  simp only []
  rw [← sum_slm_basis h.dropTiny hp C hmi x, Finset.mul_sum]
  exact Finset.sum_congr rfl fun k _ => mul_left_comm _ _ _

theorem oneCenterPrim_eq (L n : ℕ) (a1 a2 z : ℝ) : oneCenterPrim L a1 a2 n z = gaussMoment ((2 * L + n : ℕ) : ℤ) (a1 + a2 + z) := by
  unfold oneCenterPrim gaussMoment
  simp only []
  rcases Nat.even_or_odd' n with ⟨k, hk | hk⟩
  · rw [if_pos (by rw [Int.tmod_eq_emod_of_nonneg (by omega)]; omega), if_pos (by rw [Int.tmod_eq_emod_of_nonneg (by omega)]; omega),
      show (L : ℤ) + Int.tdiv (n : ℤ) 2 = Int.tdiv ((2 * L + n : ℕ) : ℤ) 2 by
        rw [Int.tdiv_eq_ediv_of_nonneg (by omega), Int.tdiv_eq_ediv_of_nonneg (by omega)]; omega]
  · rw [if_neg (by rw [Int.tmod_eq_emod_of_nonneg (by omega)]; omega), if_neg (by rw [Int.tmod_eq_emod_of_nonneg (by omega)]; omega),
      show (L : ℤ) + Int.tdiv ((n : ℤ) - 1) 2 = Int.tdiv (((2 * L + n : ℕ) : ℤ) - 1) 2 by
        rw [Int.tdiv_eq_ediv_of_nonneg (by omega), Int.tdiv_eq_ediv_of_nonneg (by omega)]; omega]

/-- The number in the table of norms for `L`. -/
noncomputable def gtoF (L : ℕ) : ℝ := ((gtoFactors.getD L (0, 0)).1 : ℝ) / 10 ^ (gtoFactors.getD L (0, 0)).2

theorem radialGtoNorm_eq {L : ℕ} (hL : L < 20) (α : ℝ) : radialGtoNorm L α = .ok (gtoF L * α ^ (0.75 + (L : ℝ) / 2)) := by
  unfold radialGtoNorm rdInt gtoF
  have h : L < gtoFactors.length := hL
  rw [if_neg (by omega), Int.toNat_natCast, rd_ok h, Outcome.ok_bind, List.getD_eq_getElem _ _ h]
  simp

theorem radialNorm_scale (L : ℕ) {α : ℝ} (hα : 0 < α) : radialNorm L α = radialNorm L 1 * α ^ (0.75 + (L : ℝ) / 2) := by
  have hp := Real.pi_pos
  rw [radialNorm_eq L hα, radialNorm_eq L one_pos, Real.rpow_add hα, show (2 * α / Real.pi) = 2 * 1 / Real.pi * α by ring,
    Real.mul_rpow (by positivity) hα.le, show 4 * α = 4 * 1 * α by ring, Real.mul_rpow (by positivity) hα.le,
    show (0.75 : ℝ) = 3 / 4 by norm_num]
  ring

theorem radialNorm_one_pos (L : ℕ) : 0 < radialNorm L 1 := by
  have := angNorm_pos L
  have hp := Real.pi_pos
  rw [radialNorm_eq L one_pos]
  positivity

/-- How far the table of norms is off, squared. -/
noncomputable def gtoErr (L : ℕ) : ℝ := (gtoF L / radialNorm L 1) ^ 2

theorem gtoErr_sq (L : ℕ) : gtoErr L ^ 2 = gtoF L ^ 4 * ((2 * L + 1)‼ : ℕ) ^ 2 / 2 ^ (4 * L + 7) * Real.pi := by
  unfold gtoErr
  have hp := Real.pi_pos
  have h := radialNorm_sq L one_pos
  have hd : (0:ℝ) < ((2 * L + 1)‼ : ℕ) := by exact_mod_cast Nat.doubleFactorial_pos _
  rw [← pow_mul, div_pow, show radialNorm L 1 ^ (2 * 2) = (radialNorm L 1 ^ 2) ^ 2 by ring, h, inv_pow, mul_pow, Real.sq_sqrt (by positivity)]
  simp only [mul_one, show 4 * L + 7 = (L + 2) * 2 + (L + 1) * 2 + 1 by ring, pow_add, pow_mul]
  field_simp

theorem gtoErr_bound {L : ℕ} (hL : L < 20) : |gtoErr L - 1| ≤ 3e-15 := by
  have h0 : 0 ≤ gtoErr L := sq_nonneg _
  have h1 := Real.pi_gt_d20
  have h2 := Real.pi_lt_d20
  have key : (1 - 3e-15 : ℝ) ^ 2 ≤ gtoErr L ^ 2 ∧ gtoErr L ^ 2 ≤ (1 + 3e-15) ^ 2 := by
    rw [gtoErr_sq]
    unfold gtoF gtoFactors
    interval_cases L <;> simp [Nat.doubleFactorial] <;> constructor <;> linarith
  have k1 := (pow_le_pow_iff_left₀ (by norm_num) h0 two_ne_zero).1 key.1
  have k2 := (pow_le_pow_iff_left₀ h0 (by norm_num) two_ne_zero).1 key.2
  rw [abs_le]
  constructor <;> linarith

/-- The terms of a potential which the local integrals support. -/
def Potential.Terms (p : Potential) : Prop :=
  ∀ k < p.num, (p.powers.getD k 0 = 0 ∨ p.powers.getD k 0 = 1 ∨ p.powers.getD k 0 = 2) ∧ 0 ≤ p.alpha.getD k 0

/-- The radial matrix element of a potential between two outer-core shells. -/
noncomputable def ocRadialElement (s1 s2 : Shell) (p : Potential) : ℝ :=
  ∫ r in Ioi (0:ℝ), r ^ 2 * (ocRadial s1 r * potentialRadial p r * ocRadial s2 r)

theorem radial_expand {s1 s2 : Shell} {p : Potential} (hp : p.Terms) {r : ℝ} (hr : 0 < r) (eL : s2.L = s1.L) :
    r ^ 2 * (ocRadial s1 r * potentialRadial p r * ocRadial s2 r) = ∑ i ∈ Finset.range s1.num, ∑ j ∈ Finset.range s2.num, ∑ k ∈ Finset.range p.num,
      radialNorm s1.L (s1.alpha.getD i 0) * radialNorm s1.L (s2.alpha.getD j 0) * s1.coeffs.getD i 0 * s2.coeffs.getD j 0 * p.coeffs.getD k 0 *
        (r ^ (2 * s1.L + (p.powers.getD k 0).toNat) * Real.exp (-(s1.alpha.getD i 0 + s2.alpha.getD j 0 + p.alpha.getD k 0) * r ^ 2)) := by
  unfold ocRadial potentialRadial
  rw [eL, mul_right_comm (∑ i ∈ Finset.range s1.num, _), Finset.sum_mul_sum, Finset.sum_mul, Finset.mul_sum]
  refine Finset.sum_congr rfl fun i _ => ?_
  rw [Finset.sum_mul, Finset.mul_sum]
  refine Finset.sum_congr rfl fun j _ => ?_
  rw [Finset.mul_sum, Finset.mul_sum]
  refine Finset.sum_congr rfl fun k hk => ?_
  have hn : 0 ≤ p.powers.getD k 0 := by rcases (hp k (Finset.mem_range.1 hk)).1 with h | h | h <;> rw [h] <;> norm_num
  have e1 : r ^ (p.powers.getD k 0 - 2) * r ^ 2 = r ^ (p.powers.getD k 0).toNat := by
    rw [← zpow_natCast r (p.powers.getD k 0).toNat, Int.toNat_of_nonneg hn, zpow_sub₀ hr.ne']
    norm_cast
    field_simp
  have e2 : Real.exp (-(s1.alpha.getD i 0 + s2.alpha.getD j 0 + p.alpha.getD k 0) * r ^ 2) =
      Real.exp (-s1.alpha.getD i 0 * r ^ 2) * Real.exp (-s2.alpha.getD j 0 * r ^ 2) * Real.exp (-p.alpha.getD k 0 * r ^ 2) := by
    rw [← Real.exp_add, ← Real.exp_add]; congr 1; ring
  rw [pow_add, ← e1, e2, two_mul, pow_add]
  ring

theorem radial_integrable {s1 s2 : Shell} {p : Potential} (hp : p.Terms) (eL : s2.L = s1.L) (p1 : s1.Pos) (p2 : s2.Pos) :
    IntegrableOn (fun r => r ^ 2 * (ocRadial s1 r * potentialRadial p r * ocRadial s2 r)) (Ioi 0) := by
  refine IntegrableOn.congr_fun ?_ (fun r (hr : 0 < r) => (radial_expand hp hr eL).symm) measurableSet_Ioi
  refine integrable_finsetSum _ fun i hi => integrable_finsetSum _ fun j hj => integrable_finsetSum _ fun k hk => ?_
  refine (semiIntegral_monomial_integrable _ ?_).const_mul _
  have := p1 i (Finset.mem_range.1 hi)
  have := p2 j (Finset.mem_range.1 hj)
  have := (hp k (Finset.mem_range.1 hk)).2
  linarith

theorem oneCenterContracted_eq {s1 s2 : Shell} {p : Potential} (hp : p.Terms) (hpL : p.L = s1.L) (eL : s2.L = s1.L) (hL : s1.L ≤ 14) (w1 : s1.WF)
    (w2 : s2.WF) (wp : p.WF) (p1 : s1.Pos) (p2 : s2.Pos) :
    oneCenterContracted s1 s2 p = .ok (gtoErr s1.L * ocRadialElement s1 s2 p) := by
  have hval : ocRadialElement s1 s2 p = ∑ i ∈ Finset.range s1.num, ∑ j ∈ Finset.range s2.num, ∑ k ∈ Finset.range p.num,
      radialNorm s1.L (s1.alpha.getD i 0) * radialNorm s1.L (s2.alpha.getD j 0) * s1.coeffs.getD i 0 * s2.coeffs.getD j 0 * p.coeffs.getD k 0 *
        ∫ r in Ioi (0:ℝ), r ^ (2 * s1.L + (p.powers.getD k 0).toNat) * Real.exp (-(s1.alpha.getD i 0 + s2.alpha.getD j 0 + p.alpha.getD k 0) * r ^ 2) := by
    have hint : ∀ i ∈ Finset.range s1.num, ∀ j ∈ Finset.range s2.num, ∀ k ∈ Finset.range p.num, IntegrableOn (fun r : ℝ =>
        radialNorm s1.L (s1.alpha.getD i 0) * radialNorm s1.L (s2.alpha.getD j 0) * s1.coeffs.getD i 0 * s2.coeffs.getD j 0 * p.coeffs.getD k 0 *
        (r ^ (2 * s1.L + (p.powers.getD k 0).toNat) * Real.exp (-(s1.alpha.getD i 0 + s2.alpha.getD j 0 + p.alpha.getD k 0) * r ^ 2))) (Ioi 0) := by
      intro i hi j hj k hk
      refine (semiIntegral_monomial_integrable _ ?_).const_mul _
      have := p1 i (Finset.mem_range.1 hi)
      have := p2 j (Finset.mem_range.1 hj)
      have := (hp k (Finset.mem_range.1 hk)).2
      linarith
    unfold ocRadialElement
    rw [setIntegral_congr_fun measurableSet_Ioi fun r (hr : 0 < r) => radial_expand hp hr eL]
    rw [integral_finsetSum _ fun i hi => integrable_finsetSum _ fun j hj => integrable_finsetSum _ fun k hk => hint i hi j hj k hk]
    refine Finset.sum_congr rfl fun i hi => ?_
    rw [integral_finsetSum _ fun j hj => integrable_finsetSum _ fun k hk => hint i hi j hj k hk]
    refine Finset.sum_congr rfl fun j hj => ?_
    rw [integral_finsetSum _ fun k hk => hint i hi j hj k hk]
    exact Finset.sum_congr rfl fun k hk => integral_const_mul _ _
  have hNN : ∀ {a b : ℝ}, 0 < a → 0 < b → gtoF s1.L * a ^ (0.75 + (s1.L : ℝ) / 2) * (gtoF s1.L * b ^ (0.75 + (s1.L : ℝ) / 2)) =
      gtoErr s1.L * (radialNorm s1.L a * radialNorm s1.L b) := by
    intro a b ha hb
    rw [radialNorm_scale _ ha, radialNorm_scale _ hb, gtoErr]
    have := (radialNorm_one_pos s1.L).ne'
    field_simp
  rw [hval, Finset.mul_sum]
  unfold oneCenterContracted
  refine (forRange_sum (fun i => gtoErr s1.L * ∑ j ∈ Finset.range s2.num, ∑ k ∈ Finset.range p.num,
      radialNorm s1.L (s1.alpha.getD i 0) * radialNorm s1.L (s2.alpha.getD j 0) * s1.coeffs.getD i 0 * s2.coeffs.getD j 0 * p.coeffs.getD k 0 *
        ∫ r in Ioi (0:ℝ), r ^ (2 * s1.L + (p.powers.getD k 0).toNat) *
          Real.exp (-(s1.alpha.getD i 0 + s2.alpha.getD j 0 + p.alpha.getD k 0) * r ^ 2)) fun i hi s => ?_).trans (by rw [zero_add])
  rw [rd_getD (by have := w1.1; omega), Outcome.ok_bind, rd_getD (by have := w1.2; omega), Outcome.ok_bind, hpL, radialGtoNorm_eq (by omega), Outcome.ok_bind,
    Finset.mul_sum]
  refine forRange_sum _ fun j hj s => ?_
  rw [rd_getD (by have := w2.1; omega), Outcome.ok_bind, rd_getD (by have := w2.2; omega), Outcome.ok_bind, radialGtoNorm_eq (by omega), Outcome.ok_bind,
    Finset.mul_sum]
  simp only []
  refine forRange_sum _ fun k hk s => ?_
  have hn : 0 ≤ p.powers.getD k 0 ∧ p.powers.getD k 0 ≤ 2 := by rcases (hp k hk).1 with h | h | h <;> rw [h] <;> norm_num
  have hrd : rd p.powers k = .ok (((p.powers.getD k 0).toNat : ℕ) : ℤ) := by
    rw [Int.toNat_of_nonneg hn.1, rd_ok (by have := wp.1; omega), List.getD_eq_getElem _ _ (by have := wp.1; omega)]
  rw [rd_getD (by have := wp.2.1; omega), Outcome.ok_bind, rd_getD (by have := wp.2.2; omega), Outcome.ok_bind, hrd, Outcome.ok_bind,
    oneCenterPrim_eq, gaussMoment_ok (Or.inr (by omega)) (by
      have := p1 i hi
      have := p2 j hj
      have := (hp k hk).2
      linarith), Outcome.ok_bind, hNN (p1 i hi) (p2 j hj)]
  congr 1
  ring

theorem deltaIntegral_eq {s1 s2 : Shell} {p1 p2 : Potential} (h1 : p1.Terms) (h2 : p2.Terms) (eL : p1.L = p2.L) (eJ : p1.J = p2.J) (hpL : p1.L = s1.L)
    (eS : s2.L = s1.L) (hL : s1.L ≤ 14) (w1 : s1.WF) (w2 : s2.WF) (wp1 : p1.WF) (wp2 : p2.WF) (q1 : s1.Pos) (q2 : s2.Pos) :
    deltaIntegral p1 s1 p2 s2 = .ok (gtoErr s1.L * ocDelta p1 s1 p2 s2) := by
  unfold deltaIntegral
  rw [if_neg (by simp [eL, eJ]), oneCenterContracted_eq h1 hpL eS hL w1 w2 wp1 q1 q2, Outcome.ok_bind,
    oneCenterContracted_eq h2 (eL ▸ hpL) eS hL w1 w2 wp2 q1 q2, Outcome.ok_bind, ← mul_add]
  unfold ocRadialElement ocDelta
  rw [← integral_add (radial_integrable h1 eS q1 q2) (radial_integrable h2 eS q1 q2), mul_left_comm, ← integral_const_mul]
  congr 2
  refine setIntegral_congr_fun measurableSet_Ioi fun r _ => ?_
  ring

end Libgrpp
