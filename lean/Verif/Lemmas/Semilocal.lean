import Verif.Lemmas.Addition
import Verif.Lemmas.RadialLocalTrue
import Verif.Model.SpecSemilocal

/-! The exact partial-wave form of the matrix elements of semilocal potentials. -/

namespace Libgrpp

open MeasureTheory Set

/-- The degree of a monomial. -/
def cdeg (p : Comp) : ℕ := p.1 + p.2.1 + p.2.2

/-- The vector whose direction the code uses for the spherical harmonics. -/
noncomputable def kDir (s : Shell) (C : Point) : Point := fun i => -2 * (s.alphaAt 0 * toC s C i)

/-- The exact radial function of order `lam` of a shell. -/
noncomputable def radF (s : Shell) (C : Point) (lam : ℕ) (r : ℝ) : ℝ :=
  ∑ i ∈ Finset.range s.num, s.weight i *
    (Real.exp (-s.alphaAt i * (r ^ 2 + ∑ k, toC s C k ^ 2)) * besselI lam (r * (2 * s.alphaAt i * vnorm (toC s C))))

theorem vnorm_smul {c : ℝ} (hc : 0 ≤ c) (k : Point) : vnorm (fun i => -c * k i) = c * vnorm k := by
  unfold vnorm
  have : ∑ i, (-c * k i) ^ 2 = c ^ 2 * ∑ i, k i ^ 2 := by
    rw [Finset.mul_sum]
    exact Finset.sum_congr rfl fun i _ => by ring
  rw [this, Real.sqrt_mul (sq_nonneg c), Real.sqrt_sq hc]

theorem monoAt_scale (p : Comp) (r : ℝ) (ω : Point) : monoAt p (fun i => r * ω i) = r ^ cdeg p * monoAt p ω := by
  unfold monoAt cdeg
  ring

/-- Projection of a primitive Gaussian. -/
theorem project_gauss (L : ℕ) (m : ℤ) (hm : m.natAbs ≤ L) (x : Comp) {a a0 : ℝ} (ha : 0 ≤ a) (ha0 : 0 < a0) (t : Point)
    (hk : VecOk fun i => -2 * (a0 * t i)) (r : ℝ) :
    sphInt (fun ω => rsh L m ω * (monoAt x (fun i => r * ω i + t i) * Real.exp (-a * ∑ i, (r * ω i + t i) ^ 2))) =
      4 * Real.pi * ∑ p ∈ box x, boxCoef x t p * (r ^ cdeg p * ∑ l ∈ Finset.range (L + cdeg p + 1),
        Real.exp (-a * (r ^ 2 + ∑ i, t i ^ 2)) * besselI l (r * (2 * a * vnorm t)) * angOmega2 L m l p fun i => -2 * (a0 * t i)) := by
  set k0 : Point := fun i => -2 * (a0 * t i) with hk0
  have hv : vnorm k0 = 2 * a0 * vnorm t := by
    rw [← vnorm_smul (by linarith) t]
    congr 1
    funext i
    rw [hk0]
    ring
  have e1 : sphInt (fun ω => rsh L m ω * (monoAt x (fun i => r * ω i + t i) * Real.exp (-a * ∑ i, (r * ω i + t i) ^ 2))) =
      sphInt fun ω => ∑ p ∈ box x, (boxCoef x t p * (r ^ cdeg p * Real.exp (-a * (r ^ 2 + ∑ i, t i ^ 2)))) *
        (rsh L m ω * monoAt p ω * Real.exp (r * a / a0 * ∑ i, k0 i * ω i)) := by
    refine sphInt_congr fun ω hω => ?_
    have h1 : Real.exp (-a * ∑ i, (r * ω i + t i) ^ 2) = Real.exp (-a * (r ^ 2 + ∑ i, t i ^ 2)) *
        Real.exp (r * a / a0 * ∑ i, k0 i * ω i) := by
      rw [← Real.exp_add]
      congr 1
      rw [Fin.sum_univ_three] at hω
      simp only [Fin.sum_univ_three, hk0]
      field_simp
      linear_combination (-a * r ^ 2) * hω
    rw [monoAt_add x (fun i => r * ω i) t, h1, Finset.sum_mul, Finset.mul_sum]
    refine Finset.sum_congr rfl fun p _ => ?_
    rw [monoAt_scale]
    ring
  rw [e1]
  have hc : ∀ p : Comp, Continuous fun ω : Point => rsh L m ω * monoAt p ω * Real.exp (r * a / a0 * ∑ i, k0 i * ω i) := by
    intro p
    have h1 := continuous_rsh L m
    have h2 := continuous_monoAt p
    fun_prop
  rw [sphInt_sum (f := fun p ω => (boxCoef x t p * (r ^ cdeg p * Real.exp (-a * (r ^ 2 + ∑ i, t i ^ 2)))) *
    (rsh L m ω * monoAt p ω * Real.exp (r * a / a0 * ∑ i, k0 i * ω i))) _ fun p _ => continuous_const.mul (hc p), Finset.mul_sum]
  refine Finset.sum_congr rfl fun p _ => ?_
  rw [sphInt_const_mul_real]
  have hs : RSpanned (L + cdeg p) fun ω => rsh L m ω * monoAt p ω := rspanned_rsh_monomial L m hm _ _ _
  rw [hs.exp_dir (r * a / a0) k0 hk]
  have e2 : r * a / a0 * vnorm k0 = r * (2 * a * vnorm t) := by
    rw [hv]
    field_simp
  rw [e2]
  have e3 : ∀ l ∈ Finset.range (L + cdeg p + 1), ∑ mi ∈ Finset.range (2 * l + 1),
      sphInt (fun ν => rsh L m ν * monoAt p ν * rsh l ((mi : ℤ) - l) ν) * (4 * Real.pi * besselI l (r * (2 * a * vnorm t)) *
        rshDir l ((mi : ℤ) - l) k0) = 4 * Real.pi * (besselI l (r * (2 * a * vnorm t)) * angOmega2 L m l p k0) := by
    intro l _
    unfold angOmega2 gaunt
    rw [Finset.mul_sum, Finset.mul_sum]
    refine Finset.sum_congr rfl fun mi _ => ?_
    have : (fun ν => rsh L m ν * monoAt p ν * rsh l ((mi : ℤ) - l) ν) = fun ν => rsh L m ν * (rsh l ((mi : ℤ) - l) ν * monoAt p ν) := by
      funext ν
      ring
    rw [this]
    ring
  rw [Finset.sum_congr rfl e3, ← Finset.mul_sum]
  have e4 : ∀ (b rp E c S : ℝ), b * (rp * E) * (c * S) = c * (b * (rp * (E * S))) := fun b rp E c S => by ring
  rw [e4, Finset.mul_sum _ _ (Real.exp _)]
  simp only [mul_assoc]

/-- Projection of a contracted function. -/
theorem project_basis (L : ℕ) (m : ℤ) (hm : m.natAbs ≤ L) (s : Shell) (hs : s.Pos) (h0 : 0 < s.num) (C : Point) (hk : VecOk (kDir s C))
    (n : ℕ) (r : ℝ) : project L m C (basisFn s n) r =
      4 * Real.pi * ∑ p ∈ box (s.comp n), boxCoef (s.comp n) (toC s C) p * (r ^ cdeg p * ∑ l ∈ Finset.range (L + cdeg p + 1),
        radF s C l r * angOmega2 L m l p (kDir s C)) := by
  have e1 : ∀ ω : Point, rsh L m ω * basisFn s n (fun i => C i + r * ω i) = ∑ i ∈ Finset.range s.num, s.weight i *
      (rsh L m ω * (monoAt (s.comp n) (fun k => r * ω k + toC s C k) * Real.exp (-s.alphaAt i * ∑ k, (r * ω k + toC s C k) ^ 2))) := by
    intro ω
    unfold basisFn
    rw [Finset.mul_sum]
    refine Finset.sum_congr rfl fun i _ => ?_
    have : (fun k => C k + r * ω k) = (fun k => r * ω k) + C := by
      funext k
      simp only [Pi.add_apply]
      ring
    rw [this, primFn_shift]
    unfold Shell.weight Shell.coeffAt Shell.alphaAt Shell.comp toC
    ring
  unfold project
  simp only [e1]
  have hc : ∀ i, Continuous fun ω : Point => rsh L m ω * (monoAt (s.comp n) (fun k => r * ω k + toC s C k) *
      Real.exp (-s.alphaAt i * ∑ k, (r * ω k + toC s C k) ^ 2)) := by
    intro i
    have h1 := continuous_rsh L m
    have h2 : Continuous fun ω : Point => monoAt (s.comp n) (fun k => r * ω k + toC s C k) :=
      (continuous_monoAt (s.comp n)).comp (by fun_prop)
    fun_prop
  rw [sphInt_sum (f := fun i ω => s.weight i * (rsh L m ω * (monoAt (s.comp n) (fun k => r * ω k + toC s C k) *
      Real.exp (-s.alphaAt i * ∑ k, (r * ω k + toC s C k) ^ 2)))) _ fun i _ => continuous_const.mul (hc i)]
  have e2 : ∀ i ∈ Finset.range s.num, sphInt (fun ω => s.weight i * (rsh L m ω * (monoAt (s.comp n) (fun k => r * ω k + toC s C k) *
      Real.exp (-s.alphaAt i * ∑ k, (r * ω k + toC s C k) ^ 2)))) = 4 * Real.pi * ∑ p ∈ box (s.comp n), boxCoef (s.comp n) (toC s C) p *
        (r ^ cdeg p * ∑ l ∈ Finset.range (L + cdeg p + 1), (s.weight i * (Real.exp (-s.alphaAt i * (r ^ 2 + ∑ k, toC s C k ^ 2)) *
          besselI l (r * (2 * s.alphaAt i * vnorm (toC s C))))) * angOmega2 L m l p (kDir s C)) := by
    intro i hi
    rw [Finset.mem_range] at hi
    rw [sphInt_const_mul_real, project_gauss L m hm (s.comp n) (hs.at hi).le (hs.at h0) (toC s C) hk r, mul_left_comm, Finset.mul_sum]
    congr 1
    refine Finset.sum_congr rfl fun p _ => ?_
    rw [mul_left_comm, mul_left_comm (s.weight i), Finset.mul_sum]
    congr 2
    refine Finset.sum_congr rfl fun l _ => ?_
    unfold kDir
    ring
  rw [Finset.sum_congr rfl e2, ← Finset.mul_sum, Finset.sum_comm]
  congr 1
  refine Finset.sum_congr rfl fun p _ => ?_
  rw [← Finset.mul_sum, ← Finset.mul_sum, Finset.sum_comm]
  congr 2
  refine Finset.sum_congr rfl fun l _ => ?_
  unfold radF
  rw [Finset.sum_mul]

/-- A radial potential that is continuous for positive distances and bounded by a polynomial divided by `r²`. -/
def Mild (V : ℝ → ℝ) : Prop := ContinuousOn V (Ioi 0) ∧ ∃ (K : ℝ) (M : ℕ), ∀ r, 0 < r → |V r| ≤ K * ((r ^ 2)⁻¹ * (1 + r ^ M))

theorem continuous_besselI (l : ℕ) : Continuous (besselI l) :=
  continuous_iff_continuousAt.2 fun x => (besselI_hasDerivAt l x).continuousAt

/-- The radial functions are integrable. -/
theorem mild_integrable {V : ℝ → ℝ} (hV : Mild V) (n l l' : ℕ) {β : ℝ} (hβ : 0 < β) {κ κ' : ℝ} (hκ : 0 ≤ κ) (hκ' : 0 ≤ κ') :
    IntegrableOn (fun r => r ^ 2 * (V r * (r ^ n * (Real.exp (-β * r ^ 2) * (besselI l (r * κ) * besselI l' (r * κ')))))) (Ioi 0) := by
  obtain ⟨hm, K, M, hK⟩ := hV
  have base : ∀ m : ℕ, IntegrableOn (fun r : ℝ => r ^ m * Real.exp (-(β / 2) * r ^ 2)) (Ioi 0) := by
    intro m
    have := integrableOn_rpow_mul_exp_neg_mul_sq (b := β / 2) (by linarith) (s := (m : ℝ)) (by
      have : (0 : ℝ) ≤ m := Nat.cast_nonneg m
      linarith)
    refine this.congr_fun (fun r _ => ?_) measurableSet_Ioi
    simp only [Real.rpow_natCast]
  have hmaj : IntegrableOn (fun r : ℝ => Real.exp ((κ + κ') ^ 2 / (2 * β)) * |K| *
      (r ^ n * Real.exp (-(β / 2) * r ^ 2) + r ^ (n + M) * Real.exp (-(β / 2) * r ^ 2))) (Ioi 0) :=
    ((base n).add (base (n + M))).const_mul _
  refine hmaj.mono' ?_ ?_
  · have hb : ∀ (l : ℕ) (κ : ℝ), Continuous fun r : ℝ => besselI l (r * κ) := fun l κ => (continuous_besselI l).comp (by fun_prop)
    refine ContinuousOn.aestronglyMeasurable ?_ measurableSet_Ioi
    exact (by fun_prop : ContinuousOn (fun r : ℝ => r ^ 2) (Ioi 0)).mul (hm.mul ((by fun_prop : ContinuousOn (fun r : ℝ => r ^ n) (Ioi 0)).mul
      ((by fun_prop : ContinuousOn (fun r : ℝ => Real.exp (-β * r ^ 2)) (Ioi 0)).mul ((hb l κ).continuousOn.mul (hb l' κ').continuousOn))))
  · refine (ae_restrict_iff' measurableSet_Ioi).2 (Filter.Eventually.of_forall fun r hr => ?_)
    have hr : 0 < r := hr
    have h1 := hK r hr
    have hx : 0 ≤ r * κ := mul_nonneg hr.le hκ
    have hx' : 0 ≤ r * κ' := mul_nonneg hr.le hκ'
    have hb := besselI_le_exp l hx
    have hb0 := besselI_nonneg l hx
    have hb' := besselI_le_exp l' hx'
    have hb0' := besselI_nonneg l' hx'
    have hw : 0 ≤ (r ^ 2)⁻¹ * (1 + r ^ M) := by positivity
    have h3 : |V r| ≤ |K| * ((r ^ 2)⁻¹ * (1 + r ^ M)) := h1.trans (mul_le_mul_of_nonneg_right (le_abs_self K) hw)
    have h4 : Real.exp (-β * r ^ 2) * (Real.exp (r * κ) * Real.exp (r * κ')) ≤
        Real.exp ((κ + κ') ^ 2 / (2 * β)) * Real.exp (-(β / 2) * r ^ 2) := by
      rw [← Real.exp_add, ← Real.exp_add, ← Real.exp_add, Real.exp_le_exp]
      have e : (κ + κ') ^ 2 / (2 * β) + -(β / 2) * r ^ 2 - (-β * r ^ 2 + (r * κ + r * κ')) = (β * r - (κ + κ')) ^ 2 / (2 * β) := by
        field_simp
        ring
      have := div_nonneg (sq_nonneg (β * r - (κ + κ'))) (by linarith : 0 ≤ 2 * β)
      linarith
    have h5 : besselI l (r * κ) * besselI l' (r * κ') ≤ Real.exp (r * κ) * Real.exp (r * κ') := mul_le_mul hb hb' hb0' (Real.exp_pos _).le
    rw [Real.norm_eq_abs, abs_mul, abs_mul, abs_mul, abs_mul, Real.abs_exp, abs_of_nonneg (mul_nonneg hb0 hb0'), abs_of_nonneg (by positivity : 0 ≤ r ^ 2),
      abs_of_nonneg (by positivity : 0 ≤ r ^ n)]
    calc r ^ 2 * (|V r| * (r ^ n * (Real.exp (-β * r ^ 2) * (besselI l (r * κ) * besselI l' (r * κ')))))
        ≤ r ^ 2 * ((|K| * ((r ^ 2)⁻¹ * (1 + r ^ M))) * (r ^ n * (Real.exp (-β * r ^ 2) * (Real.exp (r * κ) * Real.exp (r * κ'))))) := by
          gcongr
      _ ≤ r ^ 2 * ((|K| * ((r ^ 2)⁻¹ * (1 + r ^ M))) * (r ^ n * (Real.exp ((κ + κ') ^ 2 / (2 * β)) * Real.exp (-(β / 2) * r ^ 2)))) := by
          gcongr
      _ = _ := by
          field_simp
          ring

/-- The exact radial integral of orders `l1`, `l2` and power `n`. -/
noncomputable def semiExact (U : ℝ → ℝ) (A B : Shell) (C : Point) (l1 l2 n : ℕ) : ℝ :=
  ∫ r in Ioi (0:ℝ), r ^ 2 * (U r * (r ^ n * (radF A C l1 r * radF B C l2 r)))

theorem semiExact_integrable {U : ℝ → ℝ} (hU : Mild U) (A B : Shell) (hA : A.Pos) (hB : B.Pos) (C : Point) (l1 l2 n : ℕ) :
    IntegrableOn (fun r => r ^ 2 * (U r * (r ^ n * (radF A C l1 r * radF B C l2 r)))) (Ioi 0) := by
  have e : (fun r => r ^ 2 * (U r * (r ^ n * (radF A C l1 r * radF B C l2 r)))) = fun r => ∑ i ∈ Finset.range A.num, ∑ j ∈ Finset.range B.num,
      (A.weight i * B.weight j * Real.exp (-A.alphaAt i * (∑ k, toC A C k ^ 2) - B.alphaAt j * ∑ k, toC B C k ^ 2)) *
      (r ^ 2 * (U r * (r ^ n * (Real.exp (-(A.alphaAt i + B.alphaAt j) * r ^ 2) *
        (besselI l1 (r * (2 * A.alphaAt i * vnorm (toC A C))) * besselI l2 (r * (2 * B.alphaAt j * vnorm (toC B C)))))))) := by
    funext r
    unfold radF
    rw [Finset.sum_mul_sum, Finset.mul_sum, Finset.mul_sum, Finset.mul_sum]
    refine Finset.sum_congr rfl fun i _ => ?_
    rw [Finset.mul_sum, Finset.mul_sum, Finset.mul_sum]
    refine Finset.sum_congr rfl fun j _ => ?_
    have h : Real.exp (-A.alphaAt i * (r ^ 2 + ∑ k, toC A C k ^ 2)) * Real.exp (-B.alphaAt j * (r ^ 2 + ∑ k, toC B C k ^ 2)) =
        Real.exp (-A.alphaAt i * (∑ k, toC A C k ^ 2) - B.alphaAt j * ∑ k, toC B C k ^ 2) *
          Real.exp (-(A.alphaAt i + B.alphaAt j) * r ^ 2) := by
      rw [← Real.exp_add, ← Real.exp_add]
      congr 1
      ring
    linear_combination (r ^ 2 * U r * r ^ n * A.weight i * B.weight j * besselI l1 (r * (2 * A.alphaAt i * vnorm (toC A C))) *
      besselI l2 (r * (2 * B.alphaAt j * vnorm (toC B C)))) * h
  rw [e]
  refine integrable_finsetSum _ fun i hi => integrable_finsetSum _ fun j hj => Integrable.const_mul ?_ _
  rw [Finset.mem_range] at hi hj
  have h1 := hA.at hi
  have h2 := hB.at hj
  exact mild_integrable hU n l1 l2 (by linarith) (mul_nonneg (by linarith) (vnorm_nonneg _)) (mul_nonneg (by linarith) (vnorm_nonneg _))

/-- The sum over the monomials and the orders of the Bessel functions, with radial integrals `Q` and angular sums `G`. -/
noncomputable def semiSum (L : ℕ) (CA CB : Point) (Q : ℕ → ℕ → ℕ → ℝ) (G : ℕ → Comp → ℕ → Comp → ℝ) (x y : Comp) : ℝ :=
  ∑ p ∈ box x, ∑ q ∈ box y, boxCoef x CA p * boxCoef y CB q * ∑ l1 ∈ Finset.range (L + cdeg p + 1), ∑ l2 ∈ Finset.range (L + cdeg q + 1),
    Q l1 l2 (cdeg p + cdeg q) * G l1 p l2 q

/-- The exact angular sum. -/
noncomputable def angSum (L : ℕ) (W : ℕ → ℕ → ℝ) (kA kB : Point) (l1 : ℕ) (p : Comp) (l2 : ℕ) (q : Comp) : ℝ :=
  ∑ i ∈ Finset.range (2 * L + 1), ∑ j ∈ Finset.range (2 * L + 1),
    W i j * (angOmega2 L ((i : ℤ) - L) l1 p kA * angOmega2 L ((j : ℤ) - L) l2 q kB)

/-- **The partial-wave expansion is exact.** -/
theorem semilocal_exact {U : ℝ → ℝ} (hU : Mild U) (L : ℕ) (W : ℕ → ℕ → ℝ) (A B : Shell) (hA : A.Pos) (hB : B.Pos) (hA0 : 0 < A.num)
    (hB0 : 0 < B.num) (C : Point) (hkA : VecOk (kDir A C)) (hkB : VecOk (kDir B C)) (m n : ℕ) :
    semilocal L W C U (basisFn A m) (basisFn B n) =
      16 * Real.pi ^ 2 * semiSum L (toC A C) (toC B C) (semiExact U A B C) (angSum L W (kDir A C) (kDir B C)) (A.comp m) (B.comp n) := by
  have hint := semiExact_integrable hU A B hA hB C
  have e : ∀ r, r ^ 2 * (U r * ∑ i ∈ Finset.range (2 * L + 1), ∑ j ∈ Finset.range (2 * L + 1),
      W i j * (project L ((i : ℤ) - L) C (basisFn A m) r * project L ((j : ℤ) - L) C (basisFn B n) r)) =
      16 * Real.pi ^ 2 * ∑ p ∈ box (A.comp m), ∑ q ∈ box (B.comp n), boxCoef (A.comp m) (toC A C) p * boxCoef (B.comp n) (toC B C) q *
        ∑ l1 ∈ Finset.range (L + cdeg p + 1), ∑ l2 ∈ Finset.range (L + cdeg q + 1),
          angSum L W (kDir A C) (kDir B C) l1 p l2 q * (r ^ 2 * (U r * (r ^ (cdeg p + cdeg q) * (radF A C l1 r * radF B C l2 r)))) := by
    intro r
    have e1 : ∀ i ∈ Finset.range (2 * L + 1), ∀ j ∈ Finset.range (2 * L + 1), W i j * (project L ((i : ℤ) - L) C (basisFn A m) r *
        project L ((j : ℤ) - L) C (basisFn B n) r) = 16 * Real.pi ^ 2 * ∑ p ∈ box (A.comp m), ∑ q ∈ box (B.comp n),
          ∑ l1 ∈ Finset.range (L + cdeg p + 1), ∑ l2 ∈ Finset.range (L + cdeg q + 1),
          (boxCoef (A.comp m) (toC A C) p * boxCoef (B.comp n) (toC B C) q * (r ^ (cdeg p + cdeg q) * (radF A C l1 r * radF B C l2 r))) *
            (W i j * (angOmega2 L ((i : ℤ) - L) l1 p (kDir A C) * angOmega2 L ((j : ℤ) - L) l2 q (kDir B C))) := by
      intro i hi j hj
      rw [Finset.mem_range] at hi hj
      rw [project_basis L _ (by omega) A hA hA0 C hkA m r, project_basis L _ (by omega) B hB hB0 C hkB n r]
      have c : ∀ (w P S T : ℝ), w * (4 * P * S * (4 * P * T)) = 16 * P ^ 2 * (w * (S * T)) := fun w P S T => by ring
      rw [c, Finset.sum_mul_sum, Finset.mul_sum]
      congr 1
      refine Finset.sum_congr rfl fun p _ => ?_
      rw [Finset.mul_sum]
      refine Finset.sum_congr rfl fun q _ => ?_
      have c2 : ∀ (w a rp S b rq T : ℝ), w * (a * (rp * S) * (b * (rq * T))) = (w * (a * (rp * (b * rq)))) * (S * T) :=
        fun w a rp S b rq T => by ring
      rw [c2, Finset.sum_mul_sum, Finset.mul_sum]
      refine Finset.sum_congr rfl fun l1 _ => ?_
      rw [Finset.mul_sum]
      refine Finset.sum_congr rfl fun l2 _ => ?_
      rw [pow_add]
      ring
    rw [Finset.sum_congr rfl fun i hi => Finset.sum_congr rfl fun j hj => e1 i hi j hj]
    simp only [← Finset.mul_sum]
    have comm2 : ∀ (s : Finset Comp) (f : ℕ → ℕ → Comp → ℝ), ∑ i ∈ Finset.range (2 * L + 1), ∑ j ∈ Finset.range (2 * L + 1), ∑ p ∈ s, f i j p =
        ∑ p ∈ s, ∑ i ∈ Finset.range (2 * L + 1), ∑ j ∈ Finset.range (2 * L + 1), f i j p := by
      intro s f
      rw [Finset.sum_congr rfl fun i _ => Finset.sum_comm]
      exact Finset.sum_comm
    have comm3 : ∀ (s : Finset ℕ) (f : ℕ → ℕ → ℕ → ℝ), ∑ i ∈ Finset.range (2 * L + 1), ∑ j ∈ Finset.range (2 * L + 1), ∑ p ∈ s, f i j p =
        ∑ p ∈ s, ∑ i ∈ Finset.range (2 * L + 1), ∑ j ∈ Finset.range (2 * L + 1), f i j p := by
      intro s f
      rw [Finset.sum_congr rfl fun i _ => Finset.sum_comm]
      exact Finset.sum_comm
    rw [comm2, mul_left_comm (U r), mul_left_comm (r ^ 2), Finset.mul_sum, Finset.mul_sum]
    congr 1
    refine Finset.sum_congr rfl fun p _ => ?_
    rw [comm2, Finset.mul_sum, Finset.mul_sum]
    refine Finset.sum_congr rfl fun q _ => ?_
    rw [comm3, Finset.mul_sum, Finset.mul_sum, Finset.mul_sum]
    refine Finset.sum_congr rfl fun l1 _ => ?_
    rw [comm3, Finset.mul_sum, Finset.mul_sum, Finset.mul_sum]
    refine Finset.sum_congr rfl fun l2 _ => ?_
    simp only [← Finset.mul_sum]
    unfold angSum
    ring
  unfold semilocal semiSum
  simp only [e]
  rw [integral_const_mul]
  congr 1
  rw [integral_finsetSum _ fun p _ => integrable_finsetSum _ fun q _ => (integrable_finsetSum _ fun l1 _ => integrable_finsetSum _ fun l2 _ =>
    (hint l1 l2 (cdeg p + cdeg q)).const_mul _).const_mul _]
  refine Finset.sum_congr rfl fun p _ => ?_
  rw [integral_finsetSum _ fun q _ => (integrable_finsetSum _ fun l1 _ => integrable_finsetSum _ fun l2 _ =>
    (hint l1 l2 (cdeg p + cdeg q)).const_mul _).const_mul _]
  refine Finset.sum_congr rfl fun q _ => ?_
  rw [integral_const_mul]
  congr 1
  rw [integral_finsetSum _ fun l1 _ => integrable_finsetSum _ fun l2 _ => (hint l1 l2 (cdeg p + cdeg q)).const_mul _]
  refine Finset.sum_congr rfl fun l1 _ => ?_
  rw [integral_finsetSum _ fun l2 _ => (hint l1 l2 (cdeg p + cdeg q)).const_mul _]
  refine Finset.sum_congr rfl fun l2 _ => ?_
  rw [integral_const_mul, mul_comm]
  rfl

end Libgrpp
