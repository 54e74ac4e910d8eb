import Verif.Model.LMatrix
import Verif.Lemmas.RadialLocal
import Mathlib.LinearAlgebra.Matrix.NonsingularInverse
import Mathlib.LinearAlgebra.Matrix.ConjTranspose

/-! Value of the angular momentum matrices, and the algebra of the matrices in the basis of complex harmonics. -/

namespace Libgrpp

open Matrix

/-! ## What the loops store -/

def LMatIs (n : ℕ) (M : LMat) (gx gy gz : ℕ → ℕ → ℝ) : Prop := MatIs n n M.x gx ∧ MatIs n n M.y gy ∧ MatIs n n M.z gz

def LSame (n : ℕ) (M' M : LMat) : Prop := SameBeyond n M'.x M.x ∧ SameBeyond n M'.y M.y ∧ SameBeyond n M'.z M.z

theorem lmatZero_spec (n : ℕ) (M : LMat) (hx : n ≤ M.x.length) (hy : n ≤ M.y.length) (hz : n ≤ M.z.length) :
    ∃ M', lmatZero n M = .ok M' ∧ LSame n M' M := by
  obtain ⟨x, h1, -, h2⟩ := memset0_spec n M.x hx
  obtain ⟨y, h3, -, h4⟩ := memset0_spec n M.y hy
  obtain ⟨z, h5, -, h6⟩ := memset0_spec n M.z hz
  exact ⟨⟨x, y, z⟩, by simp only [lmatZero, h1, h3, h5, Outcome.ok_bind], h2, h4, h6⟩

/-- Storing a matrix element by element in the three arrays. -/
theorem lmat_store (n : ℕ) (val : ℕ → ℕ → Outcome (ℝ × ℝ × ℝ)) (gx gy gz : ℕ → ℕ → ℝ) (M : LMat)
    (hval : ∀ i j, i < n → j < n → val i j = .ok (gx i j, gy i j, gz i j))
    (hx : n * n ≤ M.x.length) (hy : n * n ≤ M.y.length) (hz : n * n ≤ M.z.length) :
    ∃ M', (forRange n M fun i M => forRange n M fun j M => do
        let v ← val i j
        lmatSet M (i * n + j) v.1 v.2.1 v.2.2) = .ok M' ∧ (LMatIs n M' gx gy gz ∧ LSame (n * n) M' M) := by
  refine forRange_spec (fun k (s : LMat) => (s.x.length = M.x.length ∧ s.y.length = M.y.length ∧ s.z.length = M.z.length) ∧
    (∀ i j, i < k → i < n → j < n → s.x[i * n + j]? = some (gx i j) ∧ s.y[i * n + j]? = some (gy i j) ∧ s.z[i * n + j]? = some (gz i j)) ∧
    (∀ p, n * n ≤ p → s.x[p]? = M.x[p]? ∧ s.y[p]? = M.y[p]? ∧ s.z[p]? = M.z[p]?))
    ⟨⟨rfl, rfl, rfl⟩, by intro i j h; omega, fun _ _ => ⟨rfl, rfl, rfl⟩⟩ ?_ ?_
  · rintro i s hi ⟨hl, hd, hu⟩
    refine forRange_spec (fun k (t : LMat) => (t.x.length = M.x.length ∧ t.y.length = M.y.length ∧ t.z.length = M.z.length) ∧
      (∀ i' j, i' < i → i' < n → j < n → t.x[i' * n + j]? = some (gx i' j) ∧ t.y[i' * n + j]? = some (gy i' j) ∧ t.z[i' * n + j]? = some (gz i' j)) ∧
      (∀ j, j < k → j < n → t.x[i * n + j]? = some (gx i j) ∧ t.y[i * n + j]? = some (gy i j) ∧ t.z[i * n + j]? = some (gz i j)) ∧
      (∀ p, n * n ≤ p → t.x[p]? = M.x[p]? ∧ t.y[p]? = M.y[p]? ∧ t.z[p]? = M.z[p]?))
      ⟨hl, hd, by intro j h; omega, hu⟩ ?_ ?_
    · rintro j t hj ⟨⟨lx, ly, lz⟩, hd, he, hu⟩
      have hp : i * n + j < n * n := rowMajor_lt hi hj
      have h1 : i * n + j < t.x.length := by omega
      have h2 : i * n + j < t.y.length := by omega
      have h3 : i * n + j < t.z.length := by omega
      refine ⟨⟨t.x.set (i * n + j) (gx i j), t.y.set (i * n + j) (gy i j), t.z.set (i * n + j) (gz i j)⟩, ?_,
        ⟨by simp [lx], by simp [ly], by simp [lz]⟩, ?_, ?_, ?_⟩
      · rw [hval i j hi hj]
        simp only [Outcome.ok_bind, lmatSet, wr_ok _ h1, wr_ok _ h2, wr_ok _ h3]
      · intro i' j' h4 h5 h6
        have hne : i * n + j ≠ i' * n + j' := by
          intro h
          have := (rowMajor_inj hj h6 h).1
          omega
        simp only [List.getElem?_set_ne hne]
        exact hd i' j' h4 h5 h6
      · intro j' h4 h5
        by_cases h6 : j' = j
        · subst h6
          simp only [List.getElem?_set_self h1, List.getElem?_set_self h2, List.getElem?_set_self h3, and_self]
        · have hne : i * n + j ≠ i * n + j' := by omega
          simp only [List.getElem?_set_ne hne]
          exact he j' (by omega) h5
      · intro p h4
        have hne : i * n + j ≠ p := by omega
        simp only [List.getElem?_set_ne hne]
        exact hu p h4
    · rintro t ⟨hl, hd, he, hu⟩
      refine ⟨hl, fun i' j h1 h2 h3 => ?_, hu⟩
      by_cases h4 : i' = i
      · subst h4; exact he j h3 h3
      · exact hd i' j (by omega) h2 h3
  · rintro s ⟨⟨lx, ly, lz⟩, hd, hu⟩
    exact ⟨⟨fun i j hi hj => (hd i j hi hi hj).1, fun i j hi hj => (hd i j hi hi hj).2.1, fun i j hi hj => (hd i j hi hi hj).2.2⟩,
      ⟨lx, fun p hp => (hu p hp).1⟩, ⟨ly, fun p hp => (hu p hp).2.1⟩, lz, fun p hp => (hu p hp).2.2⟩

/-- The matrices in the basis of complex harmonics. -/
noncomputable def cX (L : ℕ) (m1 m2 : ℤ) : ℝ := 0.5 * (cshLp L m1 m2 + cshLm L m1 m2)
noncomputable def cY (L : ℕ) (m1 m2 : ℤ) : ℝ := 0.5 * (cshLp L m1 m2 - cshLm L m1 m2)
noncomputable def cZ (_L : ℕ) (m1 m2 : ℤ) : ℝ := (m2 : ℝ) * if m1 = m2 then 1 else 0

theorem lmatCsh_spec (L : ℕ) (M : LMat) (hx : (2 * L + 1) * (2 * L + 1) ≤ M.x.length) (hy : (2 * L + 1) * (2 * L + 1) ≤ M.y.length)
    (hz : (2 * L + 1) * (2 * L + 1) ≤ M.z.length) :
    ∃ M', lmatCsh L M = .ok M' ∧ (LMatIs (2 * L + 1) M' (fun i j => cX L (mOf L i) (mOf L j)) (fun i j => cY L (mOf L i) (mOf L j))
      (fun i j => cZ L (mOf L i) (mOf L j)) ∧ LSame ((2 * L + 1) * (2 * L + 1)) M' M) := by
  obtain ⟨M0, h1, h2⟩ := lmatZero_spec _ M hx hy hz
  obtain ⟨M', h3, h4, h5⟩ := lmat_store (2 * L + 1) (fun i j => .ok (cX L (mOf L i) (mOf L j), cY L (mOf L i) (mOf L j), cZ L (mOf L i) (mOf L j)))
    _ _ _ M0 (fun _ _ _ _ => rfl) (by rw [h2.1.1]; exact hx) (by rw [h2.2.1.1]; exact hy) (by rw [h2.2.2.1]; exact hz)
  refine ⟨M', ?_, h4, ⟨h5.1.1.trans h2.1.1, fun p hp => (h5.1.2 p hp).trans (h2.1.2 p hp)⟩,
    ⟨h5.2.1.1.trans h2.2.1.1, fun p hp => (h5.2.1.2 p hp).trans (h2.2.1.2 p hp)⟩,
    ⟨h5.2.2.1.trans h2.2.2.1, fun p hp => (h5.2.2.2 p hp).trans (h2.2.2.2 p hp)⟩⟩
  unfold lmatCsh
  simp only [h1, Outcome.ok_bind]
  simp only [Outcome.ok_bind] at h3
  exact h3

/-- The transformed matrix element. -/
noncomputable def rEl (g : ℤ → ℤ → ℝ) (m1 m2 : ℤ) : ℂ :=
  (starRingEnd ℂ) (cshToRsh m1).1 * (cshToRsh m2).1 * (g (-(m1.natAbs : ℤ)) (-(m2.natAbs : ℤ)) : ℂ) +
  (starRingEnd ℂ) (cshToRsh m1).1 * (cshToRsh m2).2 * (g (-(m1.natAbs : ℤ)) m2.natAbs : ℂ) +
  (starRingEnd ℂ) (cshToRsh m1).2 * (cshToRsh m2).1 * (g m1.natAbs (-(m2.natAbs : ℤ)) : ℂ) +
  (starRingEnd ℂ) (cshToRsh m1).2 * (cshToRsh m2).2 * (g m1.natAbs m2.natAbs : ℂ)

theorem rshElement_eq (L : ℕ) (src : List ℝ) (g : ℤ → ℤ → ℝ) (h : MatIs (2 * L + 1) (2 * L + 1) src fun i j => g (mOf L i) (mOf L j))
    (m1 m2 : ℤ) (h1 : m1.natAbs ≤ L) (h2 : m2.natAbs ≤ L) : rshElement L src m1 m2 = .ok (rEl g m1 m2) := by
  have key : ∀ a b : ℤ, a.natAbs ≤ L → b.natAbs ≤ L → rd src ((2 * L + 1) * (a + L).toNat + (b + L).toNat) = .ok (g a b) := by
    intro a b ha hb
    have := h (a + L).toNat (b + L).toNat (by omega) (by omega)
    rw [mul_comm (2 * L + 1)]
    rw [rd_some this]
    have e1 : mOf L (a + L).toNat = a := by unfold mOf; omega
    have e2 : mOf L (b + L).toNat = b := by unfold mOf; omega
    beta_reduce
    rw [e1, e2]
  unfold rshElement
  simp only [key (-(m1.natAbs : ℤ)) (-(m2.natAbs : ℤ)) (by omega) (by omega), key (-(m1.natAbs : ℤ)) m2.natAbs (by omega) (by omega),
    key m1.natAbs (-(m2.natAbs : ℤ)) (by omega) (by omega), key m1.natAbs m2.natAbs (by omega) (by omega), Outcome.ok_bind, rEl, zero_add]

theorem lmatRsh_spec (L : ℕ) (M : LMat) (hx : (2 * L + 1) * (2 * L + 1) ≤ M.x.length) (hy : (2 * L + 1) * (2 * L + 1) ≤ M.y.length)
    (hz : (2 * L + 1) * (2 * L + 1) ≤ M.z.length) :
    ∃ M', lmatRsh L M = .ok M' ∧ (LMatIs (2 * L + 1) M' (fun i j => (rEl (cX L) (mOf L i) (mOf L j)).im)
      (fun i j => -(rEl (cY L) (mOf L i) (mOf L j)).re) (fun i j => (rEl (cZ L) (mOf L i) (mOf L j)).im) ∧
      LSame ((2 * L + 1) * (2 * L + 1)) M' M) := by
  obtain ⟨M0, h1, h2⟩ := lmatZero_spec _ M hx hy hz
  obtain ⟨c, hc, hcm, -⟩ := lmatCsh_spec L ⟨List.replicate ((2 * L + 1) * (2 * L + 1)) 0, List.replicate ((2 * L + 1) * (2 * L + 1)) 0,
    List.replicate ((2 * L + 1) * (2 * L + 1)) 0⟩ (by simp) (by simp) (by simp)
  obtain ⟨M', h3, h4, h5⟩ := lmat_store (2 * L + 1) (fun i j => do
      let lx ← rshElement L c.x (mOf L i) (mOf L j)
      let ly ← rshElement L c.y (mOf L i) (mOf L j)
      let lz ← rshElement L c.z (mOf L i) (mOf L j)
      .ok (lx.im, -ly.re, lz.im)) (fun i j => (rEl (cX L) (mOf L i) (mOf L j)).im)
      (fun i j => -(rEl (cY L) (mOf L i) (mOf L j)).re) (fun i j => (rEl (cZ L) (mOf L i) (mOf L j)).im) M0 (by
      intro i j hi hj
      have a1 : (mOf L i).natAbs ≤ L := by unfold mOf; omega
      have a2 : (mOf L j).natAbs ≤ L := by unfold mOf; omega
      rw [rshElement_eq L c.x (cX L) hcm.1 _ _ a1 a2, rshElement_eq L c.y (cY L) hcm.2.1 _ _ a1 a2, rshElement_eq L c.z (cZ L) hcm.2.2 _ _ a1 a2]
      rfl) (by rw [h2.1.1]; exact hx) (by rw [h2.2.1.1]; exact hy) (by rw [h2.2.2.1]; exact hz)
  refine ⟨M', ?_, h4, ⟨h5.1.1.trans h2.1.1, fun p hp => (h5.1.2 p hp).trans (h2.1.2 p hp)⟩,
    ⟨h5.2.1.1.trans h2.2.1.1, fun p hp => (h5.2.1.2 p hp).trans (h2.2.1.2 p hp)⟩,
    ⟨h5.2.2.1.trans h2.2.2.1, fun p hp => (h5.2.2.2 p hp).trans (h2.2.2.2 p hp)⟩⟩
  unfold lmatRsh
  simp only [h1, hc, Outcome.ok_bind]
  rw [← h3]
  simp only [bind_assoc, Outcome.ok_bind]

/-! ## Transformation to real harmonics -/

theorem cshToRsh_b (m : ℤ) : (cshToRsh m).2 = (-1) ^ m.natAbs * (starRingEnd ℂ) (cshToRsh m).1 := by
  unfold cshToRsh
  split_ifs with h1 h2
  · subst h1
    have : (starRingEnd ℂ) (0.5 : ℂ) = 0.5 := by rw [show (0.5 : ℂ) = ((0.5 : ℝ) : ℂ) by norm_num, Complex.conj_ofReal]
    simp [this]
  · simp
    ring
  · simp
    ring

theorem sq_half : (1 / (Real.sqrt 2 : ℝ) : ℂ) * (1 / (Real.sqrt 2 : ℝ) : ℂ) = 1 / 2 := by
  rw [div_mul_div_comm, ← Complex.ofReal_mul, Real.mul_self_sqrt (by norm_num)]
  norm_num

/-- The unitary matrix of the coefficients. -/
noncomputable def uMat (L : ℕ) : Matrix (Fin (2 * L + 1)) (Fin (2 * L + 1)) ℂ := fun i j =>
  (if mOf L i = -((mOf L j).natAbs : ℤ) then (cshToRsh (mOf L j)).1 else 0) +
  (if mOf L i = ((mOf L j).natAbs : ℤ) then (cshToRsh (mOf L j)).2 else 0)

theorem mOf_abs {L i : ℕ} (h : i < 2 * L + 1) : (mOf L i).natAbs ≤ L := by unfold mOf; omega

/-- The sum over an index against an indicator. -/
theorem sum_mOf (L : ℕ) (c : ℤ) (f : ℤ → ℂ) :
    ∑ i : Fin (2 * L + 1), (if mOf L i = c then f (mOf L i) else 0) = if c.natAbs ≤ L then f c else 0 := by
  by_cases h : c.natAbs ≤ L
  · rw [if_pos h, Finset.sum_eq_single (⟨(c + L).toNat, by omega⟩ : Fin (2 * L + 1))]
    · have e : mOf L (c + L).toNat = c := by unfold mOf; omega
      simp only [e, if_pos]
    · intro b _ hb
      rw [if_neg]
      intro hc
      apply hb
      apply Fin.ext
      simp only [mOf] at hc
      show (b : ℕ) = (c + L).toNat
      omega
    · intro h'
      exact absurd (Finset.mem_univ _) h'
  · rw [if_neg h]
    refine Finset.sum_eq_zero fun i _ => if_neg ?_
    have := mOf_abs i.2
    intro hc
    rw [hc] at this
    exact h this

theorem sum_uMat (L : ℕ) (i : Fin (2 * L + 1)) (f : ℤ → ℂ) : ∑ k : Fin (2 * L + 1), f (mOf L k) * uMat L k i =
    f (-((mOf L i).natAbs : ℤ)) * (cshToRsh (mOf L i)).1 + f ((mOf L i).natAbs : ℤ) * (cshToRsh (mOf L i)).2 := by
  have h := mOf_abs i.2
  have e : ∀ k : Fin (2 * L + 1), f (mOf L k) * uMat L k i =
      (if mOf L k = -((mOf L i).natAbs : ℤ) then f (mOf L k) * (cshToRsh (mOf L i)).1 else 0) +
      (if mOf L k = ((mOf L i).natAbs : ℤ) then f (mOf L k) * (cshToRsh (mOf L i)).2 else 0) := by
    intro k
    unfold uMat
    split_ifs <;> ring
  simp only [e]
  rw [Finset.sum_add_distrib, sum_mOf L _ fun m => f m * (cshToRsh (mOf L i)).1, sum_mOf L _ fun m => f m * (cshToRsh (mOf L i)).2,
    if_pos (by omega), if_pos (by omega)]

theorem sum_uMat_conj (L : ℕ) (i : Fin (2 * L + 1)) (f : ℤ → ℂ) : ∑ k : Fin (2 * L + 1), (starRingEnd ℂ) (uMat L k i) * f (mOf L k) =
    (starRingEnd ℂ) (cshToRsh (mOf L i)).1 * f (-((mOf L i).natAbs : ℤ)) + (starRingEnd ℂ) (cshToRsh (mOf L i)).2 * f ((mOf L i).natAbs : ℤ) := by
  have h := congrArg (starRingEnd ℂ) (sum_uMat L i fun m => (starRingEnd ℂ) (f m))
  simp only [map_sum, map_mul, map_add, Complex.conj_conj] at h
  rw [mul_comm _ (f _), mul_comm _ (f _), ← h]
  exact Finset.sum_congr rfl fun k _ => mul_comm _ _

/-- A matrix of numbers `g m m'`. -/
noncomputable def gMat (L : ℕ) (g : ℤ → ℤ → ℝ) : Matrix (Fin (2 * L + 1)) (Fin (2 * L + 1)) ℂ := fun i j => (g (mOf L i) (mOf L j) : ℂ)

theorem uMat_transform (L : ℕ) (g : ℤ → ℤ → ℝ) (i j : Fin (2 * L + 1)) :
    ((uMat L)ᴴ * gMat L g * uMat L) i j = rEl g (mOf L i) (mOf L j) := by
  rw [Matrix.mul_assoc, Matrix.mul_apply]
  have e : ∀ k, (gMat L g * uMat L) k j = (g (mOf L k) (-((mOf L j).natAbs : ℤ)) : ℂ) * (cshToRsh (mOf L j)).1 +
      (g (mOf L k) ((mOf L j).natAbs : ℤ) : ℂ) * (cshToRsh (mOf L j)).2 := by
    intro k
    rw [Matrix.mul_apply]
    exact sum_uMat L j fun m => (g (mOf L k) m : ℂ)
  simp only [e, Matrix.conjTranspose_apply]
  have := sum_uMat_conj L i fun m => (g m (-((mOf L j).natAbs : ℤ)) : ℂ) * (cshToRsh (mOf L j)).1 +
      (g m ((mOf L j).natAbs : ℤ) : ℂ) * (cshToRsh (mOf L j)).2
  refine this.trans ?_
  unfold rEl
  ring

theorem uMat_unitary (L : ℕ) : (uMat L)ᴴ * uMat L = 1 := by
  ext i j
  rw [Matrix.mul_apply]
  simp only [Matrix.conjTranspose_apply]
  have := sum_uMat_conj L i fun m => (if m = -((mOf L j).natAbs : ℤ) then (cshToRsh (mOf L j)).1 else 0) +
    (if m = ((mOf L j).natAbs : ℤ) then (cshToRsh (mOf L j)).2 else 0)
  refine this.trans ?_
  have hij : i = j ↔ mOf L i = mOf L j := by
    constructor
    · intro h; rw [h]
    · intro h
      simp only [mOf] at h
      exact Fin.ext (by omega)
  rw [Matrix.one_apply, if_congr hij rfl rfl]
  generalize mOf L i = a
  generalize mOf L j = b
  have h2 := sq_half
  set q : ℂ := 1 / (Real.sqrt 2 : ℝ) with hq
  have hqc : (starRingEnd ℂ) q = q := by rw [hq]; simp
  have hA : ∀ m : ℤ, m ≠ 0 → (cshToRsh m).1 = if m < 0 then Complex.I * q else q := by
    intro m hm
    unfold cshToRsh
    rw [if_neg hm]
    split_ifs <;> simp [hq]
    ring
  by_cases h0 : a.natAbs = b.natAbs
  · by_cases ha : a = 0
    · have hb : b = 0 := by omega
      subst ha hb
      norm_num [cshToRsh, map_ofNat]
    · have hb : b ≠ 0 := by omega
      rw [h0, if_pos rfl, if_neg (by omega), if_neg (by omega), if_pos rfl, cshToRsh_b a, cshToRsh_b b, h0, hA a ha, hA b hb]
      have hs : ((-1 : ℂ) ^ b.natAbs) * (-1) ^ b.natAbs = 1 := by rw [← pow_add, ← two_mul, pow_mul]; simp
      have hsc : (starRingEnd ℂ) ((-1 : ℂ) ^ b.natAbs) = (-1) ^ b.natAbs := by simp
      generalize (-1 : ℂ) ^ b.natAbs = s at *
      by_cases ha' : a < 0 <;> by_cases hb' : b < 0
      · rw [if_pos ha', if_pos hb', if_pos (by omega)]
        simp only [map_mul, hqc, Complex.conj_I, hsc, map_neg]
        linear_combination (-Complex.I ^ 2 * (1 + s * s)) * h2 + (-Complex.I ^ 2 / 2) * hs - Complex.I_sq
      · rw [if_pos ha', if_neg hb', if_neg (by omega)]
        simp only [map_mul, hqc, Complex.conj_I, hsc, map_neg]
        linear_combination Complex.I * q * q * hs
      · rw [if_neg ha', if_pos hb', if_neg (by omega)]
        simp only [map_mul, hqc, Complex.conj_I, hsc]
        linear_combination -Complex.I * q * q * hs
      · rw [if_neg ha', if_neg hb', if_pos (by omega)]
        simp only [map_mul, hqc, hsc]
        linear_combination (1 + s * s) * h2 + 1 / 2 * hs
  · rw [if_neg (by omega), if_neg (by omega), if_neg (by omega), if_neg (by omega), if_neg (by omega)]
    ring

theorem uMat_unitary' (L : ℕ) : uMat L * (uMat L)ᴴ = 1 := mul_eq_one_comm.1 (uMat_unitary L)

theorem rEl_conj (g : ℤ → ℤ → ℝ) (ε : ℝ) (h : ∀ a b : ℤ, g (-a) (-b) = ε * ((-1) ^ a.natAbs * (-1) ^ b.natAbs * g a b)) (m1 m2 : ℤ) :
    (starRingEnd ℂ) (rEl g m1 m2) = ε * rEl g m1 m2 := by
  unfold rEl
  rw [cshToRsh_b m1, cshToRsh_b m2]
  have h1 := h m1.natAbs m2.natAbs
  have h2 := h m1.natAbs (-(m2.natAbs : ℤ))
  have hε := h (-(m1.natAbs : ℤ)) (-(m2.natAbs : ℤ))
  have hε' := h (-(m1.natAbs : ℤ)) m2.natAbs
  rw [neg_neg] at h2 hε'
  rw [neg_neg, neg_neg] at hε
  simp only [Int.natAbs_neg, Int.natAbs_natCast] at h1 h2 hε hε'
  simp only [map_add, map_mul, Complex.conj_conj, Complex.conj_ofReal, map_pow, map_neg, map_one]
  have c1 := congrArg (fun x : ℝ => (x : ℂ)) h1
  have c2 := congrArg (fun x : ℝ => (x : ℂ)) h2
  have c3 := congrArg (fun x : ℝ => (x : ℂ)) hε
  have c4 := congrArg (fun x : ℝ => (x : ℂ)) hε'
  simp only [Complex.ofReal_mul, Complex.ofReal_pow, Complex.ofReal_neg, Complex.ofReal_one] at c1 c2 c3 c4
  have hs1 : ((-1 : ℂ) ^ m1.natAbs) * (-1) ^ m1.natAbs = 1 := by rw [← pow_add, ← two_mul, pow_mul]; simp
  have hs2 : ((-1 : ℂ) ^ m2.natAbs) * (-1) ^ m2.natAbs = 1 := by rw [← pow_add, ← two_mul, pow_mul]; simp
  generalize (-1 : ℂ) ^ m1.natAbs = s1 at *
  generalize (-1 : ℂ) ^ m2.natAbs = s2 at *
  generalize (g (-(m1.natAbs : ℤ)) (-(m2.natAbs : ℤ)) : ℂ) = gmm at *
  generalize (g m1.natAbs m2.natAbs : ℂ) = gpp at *
  generalize (g (-(m1.natAbs : ℤ)) m2.natAbs : ℂ) = gmp at *
  generalize (g m1.natAbs (-(m2.natAbs : ℤ)) : ℂ) = gpm at *
  generalize (cshToRsh m1).1 = a1 at *
  generalize (cshToRsh m2).1 = a2 at *
  generalize (starRingEnd ℂ) a1 = b1
  generalize (starRingEnd ℂ) a2 = b2
  linear_combination a1 * b2 * c1 + a1 * s2 * a2 * c2 + s1 * b1 * b2 * c4 + s1 * s2 * b1 * a2 * c3 + a1 * a2 * ε * s1 * gpm * hs2 +
    b1 * b2 * ε * s2 * gmp * hs1 + b1 * a2 * ε * gmm * (s2 ^ 2 * hs1 + hs2)

/-! ## The algebra in the basis of complex harmonics -/

theorem sum_lm (L : ℕ) (k : Fin (2 * L + 1)) (f : ℤ → ℂ) : ∑ j : Fin (2 * L + 1), f (mOf L j) * (cshLm L (mOf L j) (mOf L k) : ℂ) =
    f (mOf L k - 1) * (Real.sqrt ((((L : ℤ) + mOf L k) * (L - mOf L k + 1) : ℤ) : ℝ) : ℝ) := by
  have h := mOf_abs k.2
  have e : ∀ j : Fin (2 * L + 1), f (mOf L j) * (cshLm L (mOf L j) (mOf L k) : ℂ) = if mOf L j = mOf L k - 1 then
      f (mOf L j) * (Real.sqrt ((((L : ℤ) + mOf L k) * (L - mOf L k + 1) : ℤ) : ℝ) : ℝ) else 0 := by
    intro j
    unfold cshLm
    split_ifs <;> simp
  simp only [e]
  rw [sum_mOf L _ fun m => f m * (Real.sqrt ((((L : ℤ) + mOf L k) * (L - mOf L k + 1) : ℤ) : ℝ) : ℝ)]
  split_ifs with h1
  · rfl
  · have : (L : ℤ) + mOf L k = 0 := by omega
    rw [this]
    simp

theorem sum_lp (L : ℕ) (k : Fin (2 * L + 1)) (f : ℤ → ℂ) : ∑ j : Fin (2 * L + 1), f (mOf L j) * (cshLp L (mOf L j) (mOf L k) : ℂ) =
    f (mOf L k + 1) * (Real.sqrt ((((L : ℤ) - mOf L k) * (L + mOf L k + 1) : ℤ) : ℝ) : ℝ) := by
  have h := mOf_abs k.2
  have e : ∀ j : Fin (2 * L + 1), f (mOf L j) * (cshLp L (mOf L j) (mOf L k) : ℂ) = if mOf L j = mOf L k + 1 then
      f (mOf L j) * (Real.sqrt ((((L : ℤ) - mOf L k) * (L + mOf L k + 1) : ℤ) : ℝ) : ℝ) else 0 := by
    intro j
    unfold cshLp
    split_ifs <;> simp
  simp only [e]
  rw [sum_mOf L _ fun m => f m * (Real.sqrt ((((L : ℤ) - mOf L k) * (L + mOf L k + 1) : ℤ) : ℝ) : ℝ)]
  split_ifs with h1
  · rfl
  · have : (L : ℤ) - mOf L k = 0 := by omega
    rw [this]
    simp

theorem sum_lz (L : ℕ) (k : Fin (2 * L + 1)) (f : ℤ → ℂ) : ∑ j : Fin (2 * L + 1), f (mOf L j) * (cZ L (mOf L j) (mOf L k) : ℂ) =
    f (mOf L k) * ((mOf L k : ℝ) : ℂ) := by
  have h := mOf_abs k.2
  have e : ∀ j : Fin (2 * L + 1), f (mOf L j) * (cZ L (mOf L j) (mOf L k) : ℂ) = if mOf L j = mOf L k then
      f (mOf L j) * ((mOf L k : ℝ) : ℂ) else 0 := by
    intro j
    unfold cZ
    split_ifs <;> simp
  simp only [e]
  rw [sum_mOf L _ fun m => f m * ((mOf L k : ℝ) : ℂ), if_pos h]

theorem mOf_inj {L : ℕ} {i j : Fin (2 * L + 1)} (h : mOf L i = mOf L j) : i = j := by
  simp only [mOf] at h
  exact Fin.ext (by omega)

theorem pn_eq (L : ℕ) : gMat L (cshLp L) * gMat L (cshLm L) = Matrix.diagonal fun i : Fin (2 * L + 1) =>
    (((((L : ℤ) + mOf L i) * (L - mOf L i + 1) : ℤ) : ℝ) : ℂ) := by
  ext i k
  rw [Matrix.mul_apply]
  refine (sum_lm L k fun m => (cshLp L (mOf L i) m : ℂ)).trans ?_
  have h := mOf_abs k.2
  have h0 : (0 : ℝ) ≤ ((((L : ℤ) + mOf L k) * (L - mOf L k + 1) : ℤ) : ℝ) := by
    exact_mod_cast mul_nonneg (by omega) (by omega)
  unfold cshLp
  rw [show ((L : ℤ) - (mOf L k - 1)) * (L + (mOf L k - 1) + 1) = (L + mOf L k) * (L - mOf L k + 1) by ring, sub_add_cancel]
  by_cases hik : i = k
  · subst hik
    rw [Matrix.diagonal_apply_eq, if_pos rfl, mul_one, ← Complex.ofReal_mul, Real.mul_self_sqrt h0]
  · rw [Matrix.diagonal_apply_ne _ hik, if_neg fun h => hik (mOf_inj h)]
    simp

theorem np_eq (L : ℕ) : gMat L (cshLm L) * gMat L (cshLp L) = Matrix.diagonal fun i : Fin (2 * L + 1) =>
    (((((L : ℤ) - mOf L i) * (L + mOf L i + 1) : ℤ) : ℝ) : ℂ) := by
  ext i k
  rw [Matrix.mul_apply]
  refine (sum_lp L k fun m => (cshLm L (mOf L i) m : ℂ)).trans ?_
  have h := mOf_abs k.2
  have h0 : (0 : ℝ) ≤ ((((L : ℤ) - mOf L k) * (L + mOf L k + 1) : ℤ) : ℝ) := by
    exact_mod_cast mul_nonneg (by omega) (by omega)
  unfold cshLm
  rw [show ((L : ℤ) + (mOf L k + 1)) * (L - (mOf L k + 1) + 1) = (L - mOf L k) * (L + mOf L k + 1) by ring, add_sub_cancel_right]
  by_cases hik : i = k
  · subst hik
    rw [Matrix.diagonal_apply_eq, if_pos rfl, mul_one, ← Complex.ofReal_mul, Real.mul_self_sqrt h0]
  · rw [Matrix.diagonal_apply_ne _ hik, if_neg fun h => hik (mOf_inj h)]
    simp

theorem zMat_eq (L : ℕ) : gMat L (cZ L) = Matrix.diagonal fun i : Fin (2 * L + 1) => ((mOf L i : ℝ) : ℂ) := by
  ext i k
  unfold gMat cZ
  by_cases hik : i = k
  · subst hik
    simp
  · rw [Matrix.diagonal_apply_ne _ hik, if_neg fun h => hik (mOf_inj h)]
    simp

theorem zp_comm (L : ℕ) : gMat L (cZ L) * gMat L (cshLp L) - gMat L (cshLp L) * gMat L (cZ L) = gMat L (cshLp L) := by
  rw [zMat_eq]
  ext i k
  rw [Matrix.sub_apply, Matrix.diagonal_mul, Matrix.mul_diagonal]
  unfold gMat cshLp
  split_ifs with h
  · rw [h]
    push_cast
    ring
  · simp

theorem zn_comm (L : ℕ) : gMat L (cZ L) * gMat L (cshLm L) - gMat L (cshLm L) * gMat L (cZ L) = -gMat L (cshLm L) := by
  rw [zMat_eq]
  ext i k
  rw [Matrix.sub_apply, Matrix.neg_apply, Matrix.diagonal_mul, Matrix.mul_diagonal]
  unfold gMat cshLm
  split_ifs with h
  · rw [h]
    push_cast
    ring
  · simp

theorem pn_comm (L : ℕ) : gMat L (cshLp L) * gMat L (cshLm L) - gMat L (cshLm L) * gMat L (cshLp L) = (2 : ℂ) • gMat L (cZ L) := by
  rw [pn_eq, np_eq, zMat_eq, Matrix.diagonal_sub, ← Matrix.diagonal_smul]
  congr 1
  funext i
  simp only [Pi.smul_apply, smul_eq_mul]
  push_cast
  ring

theorem casimir (L : ℕ) : gMat L (cshLp L) * gMat L (cshLm L) + gMat L (cshLm L) * gMat L (cshLp L) +
    (2 : ℂ) • (gMat L (cZ L) * gMat L (cZ L)) = (2 * ((L : ℂ) * (L + 1))) • (1 : Matrix (Fin (2 * L + 1)) (Fin (2 * L + 1)) ℂ) := by
  rw [pn_eq, np_eq, zMat_eq, Matrix.diagonal_mul_diagonal, Matrix.diagonal_add, ← Matrix.diagonal_smul, Matrix.diagonal_add,
    ← Matrix.diagonal_one, ← Matrix.diagonal_smul]
  congr 1
  funext i
  simp only [Pi.smul_apply, smul_eq_mul]
  push_cast
  ring

theorem xMat_eq (L : ℕ) : gMat L (cX L) = (1 / 2 : ℂ) • (gMat L (cshLp L) + gMat L (cshLm L)) := by
  ext i k
  simp only [gMat, cX, Matrix.smul_apply, Matrix.add_apply, smul_eq_mul]
  push_cast
  norm_num

theorem yMat_eq (L : ℕ) : gMat L (cY L) = (1 / 2 : ℂ) • (gMat L (cshLp L) - gMat L (cshLm L)) := by
  ext i k
  simp only [gMat, cY, Matrix.smul_apply, Matrix.sub_apply, smul_eq_mul]
  push_cast
  norm_num

theorem csh_algebra (L : ℕ) :
    gMat L (cX L) * gMat L (cY L) - gMat L (cY L) * gMat L (cX L) = -gMat L (cZ L) ∧
    gMat L (cY L) * gMat L (cZ L) - gMat L (cZ L) * gMat L (cY L) = -gMat L (cX L) ∧
    gMat L (cZ L) * gMat L (cX L) - gMat L (cX L) * gMat L (cZ L) = gMat L (cY L) ∧
    gMat L (cX L) * gMat L (cX L) - gMat L (cY L) * gMat L (cY L) + gMat L (cZ L) * gMat L (cZ L) =
      ((L : ℂ) * (L + 1)) • (1 : Matrix (Fin (2 * L + 1)) (Fin (2 * L + 1)) ℂ) := by
  have h1 := zp_comm L
  have h2 := zn_comm L
  have h3 := pn_comm L
  have h4 := casimir L
  rw [xMat_eq, yMat_eq]
  generalize gMat L (cshLp L) = P at *
  generalize gMat L (cshLm L) = N at *
  generalize gMat L (cZ L) = Z at *
  simp only [Matrix.smul_mul, Matrix.mul_smul, smul_smul, Matrix.add_mul, Matrix.mul_add, Matrix.sub_mul, Matrix.mul_sub]
  have e1 : Z * P = P + P * Z := sub_eq_iff_eq_add.1 h1
  have e2 : Z * N = -N + N * Z := sub_eq_iff_eq_add.1 h2
  have e3 : P * N = (2 : ℂ) • Z + N * P := sub_eq_iff_eq_add.1 h3
  refine ⟨?_, ?_, ?_, ?_⟩
  · rw [e3]
    module
  · rw [e1, e2]
    module
  · rw [e1, e2]
    module
  · have e4 : (2 : ℂ)⁻¹ • (P * N + N * P + (2 : ℂ) • (Z * Z)) = (2 : ℂ)⁻¹ • ((2 * ((L : ℂ) * (L + 1))) • (1 : Matrix (Fin (2 * L + 1)) (Fin (2 * L + 1)) ℂ)) := by
      rw [h4]
    rw [smul_smul, inv_mul_cancel_left₀ (by norm_num)] at e4
    rw [← e4]
    module

/-! ## The real matrices -/

theorem negOnePow_flip (a b : ℤ) (h : a = b + 1 ∨ a = b - 1) : ((-1 : ℝ) ^ a.natAbs * (-1) ^ b.natAbs) = -1 := by
  rw [← pow_add]
  exact Odd.neg_one_pow (by rw [Nat.odd_iff]; omega)

theorem negOnePow_same (a : ℤ) : ((-1 : ℝ) ^ a.natAbs * (-1) ^ a.natAbs) = 1 := by
  rw [← pow_add, ← two_mul]
  exact Even.neg_one_pow ⟨a.natAbs, by ring⟩

theorem lp_neg (L : ℕ) (a b : ℤ) : cshLp L (-a) (-b) = cshLm L a b := by
  unfold cshLp cshLm
  rw [show ((L : ℤ) - -b) * (L + -b + 1) = (L + b) * (L - b + 1) by ring]
  congr 1
  exact if_congr (by omega) rfl rfl

theorem lm_neg (L : ℕ) (a b : ℤ) : cshLm L (-a) (-b) = cshLp L a b := by
  have := lp_neg L (-a) (-b)
  rw [neg_neg, neg_neg] at this
  exact this.symm

theorem lp_symm (L : ℕ) (a b : ℤ) : cshLp L a b = cshLm L b a := by
  unfold cshLp cshLm
  by_cases h : a = b + 1
  · subst h
    rw [if_pos rfl, if_pos (by omega), show ((L : ℤ) + (b + 1)) * (L - (b + 1) + 1) = (L - b) * (L + b + 1) by ring]
  · rw [if_neg h, if_neg (by omega), mul_zero, mul_zero]

theorem cX_neg (L : ℕ) (a b : ℤ) : cX L (-a) (-b) = -1 * ((-1) ^ a.natAbs * (-1) ^ b.natAbs * cX L a b) := by
  have e : cX L (-a) (-b) = cX L a b := by
    unfold cX
    rw [lp_neg, lm_neg, add_comm]
  rw [e]
  by_cases h : a = b + 1 ∨ a = b - 1
  · rw [negOnePow_flip a b h]
    ring
  · push Not at h
    have : cX L a b = 0 := by
      unfold cX cshLp cshLm
      rw [if_neg h.1, if_neg h.2]
      ring
    rw [this]
    ring

theorem cY_neg (L : ℕ) (a b : ℤ) : cY L (-a) (-b) = 1 * ((-1) ^ a.natAbs * (-1) ^ b.natAbs * cY L a b) := by
  have e : cY L (-a) (-b) = -cY L a b := by
    unfold cY
    rw [lp_neg, lm_neg]
    ring
  rw [e]
  by_cases h : a = b + 1 ∨ a = b - 1
  · rw [negOnePow_flip a b h]
    ring
  · push Not at h
    have : cY L a b = 0 := by
      unfold cY cshLp cshLm
      rw [if_neg h.1, if_neg h.2]
      ring
    rw [this]
    ring

theorem cZ_neg (L : ℕ) (a b : ℤ) : cZ L (-a) (-b) = -1 * ((-1) ^ a.natAbs * (-1) ^ b.natAbs * cZ L a b) := by
  unfold cZ
  by_cases h : a = b
  · subst h
    rw [negOnePow_same]
    push_cast
    simp
  · rw [if_neg h, if_neg (by omega)]
    ring

/-- The stored matrices. -/
noncomputable def rX (L : ℕ) : Matrix (Fin (2 * L + 1)) (Fin (2 * L + 1)) ℝ := fun i j => (rEl (cX L) (mOf L i) (mOf L j)).im
noncomputable def rY (L : ℕ) : Matrix (Fin (2 * L + 1)) (Fin (2 * L + 1)) ℝ := fun i j => -(rEl (cY L) (mOf L i) (mOf L j)).re
noncomputable def rZ (L : ℕ) : Matrix (Fin (2 * L + 1)) (Fin (2 * L + 1)) ℝ := fun i j => (rEl (cZ L) (mOf L i) (mOf L j)).im

theorem im_of_conj {z : ℂ} (h : (starRingEnd ℂ) z = ((-1 : ℝ) : ℂ) * z) : z = Complex.I * (z.im : ℂ) := by
  have h1 := congrArg Complex.re h
  simp at h1
  apply Complex.ext <;> simp
  linarith

theorem re_of_conj {z : ℂ} (h : (starRingEnd ℂ) z = ((1 : ℝ) : ℂ) * z) : z = (z.re : ℂ) := by
  have h1 := congrArg Complex.im h
  simp at h1
  apply Complex.ext <;> simp
  linarith

theorem rX_eq (L : ℕ) : (uMat L)ᴴ * gMat L (cX L) * uMat L = Complex.I • (rX L).map Complex.ofReal := by
  ext i j
  rw [uMat_transform]
  exact im_of_conj (rEl_conj _ _ (cX_neg L) _ _)

theorem rY_eq (L : ℕ) : (uMat L)ᴴ * gMat L (cY L) * uMat L = -(rY L).map Complex.ofReal := by
  ext i j
  rw [uMat_transform]
  have := re_of_conj (rEl_conj _ _ (cY_neg L) (mOf L i) (mOf L j))
  simp only [Matrix.neg_apply, Matrix.map_apply, rY, Complex.ofReal_neg, neg_neg]
  exact this

theorem rZ_eq (L : ℕ) : (uMat L)ᴴ * gMat L (cZ L) * uMat L = Complex.I • (rZ L).map Complex.ofReal := by
  ext i j
  rw [uMat_transform]
  exact im_of_conj (rEl_conj _ _ (cZ_neg L) _ _)

theorem conj_mul (L : ℕ) (G H : Matrix (Fin (2 * L + 1)) (Fin (2 * L + 1)) ℂ) :
    (uMat L)ᴴ * (G * H) * uMat L = (uMat L)ᴴ * G * uMat L * ((uMat L)ᴴ * H * uMat L) := by
  have h := uMat_unitary' L
  calc _ = (uMat L)ᴴ * G * 1 * H * uMat L := by rw [Matrix.mul_one, ← Matrix.mul_assoc]
    _ = _ := by rw [← h]; simp only [Matrix.mul_assoc]

theorem ofReal_map_injective (L : ℕ) {A B : Matrix (Fin (2 * L + 1)) (Fin (2 * L + 1)) ℝ} (h : A.map Complex.ofReal = B.map Complex.ofReal) :
    A = B := Matrix.map_injective Complex.ofReal_injective h

theorem map_mul' (L : ℕ) (A B : Matrix (Fin (2 * L + 1)) (Fin (2 * L + 1)) ℝ) :
    (A * B).map Complex.ofReal = A.map Complex.ofReal * B.map Complex.ofReal := by
  ext i j
  simp [Matrix.mul_apply]

theorem rsh_algebra (L : ℕ) :
    rX L * rY L - rY L * rX L = rZ L ∧ rY L * rZ L - rZ L * rY L = rX L ∧ rZ L * rX L - rX L * rZ L = rY L ∧
    rX L * rX L + rY L * rY L + rZ L * rZ L = -(((L : ℝ) * (L + 1)) • (1 : Matrix (Fin (2 * L + 1)) (Fin (2 * L + 1)) ℝ)) := by
  obtain ⟨h1, h2, h3, h4⟩ := csh_algebra L
  have tr : ∀ {G H : Matrix (Fin (2 * L + 1)) (Fin (2 * L + 1)) ℂ}, G = H → (uMat L)ᴴ * G * uMat L = (uMat L)ᴴ * H * uMat L :=
    fun h => by rw [h]
  have h1 := tr h1
  have h2 := tr h2
  have h3 := tr h3
  have h4 := tr h4
  simp only [Matrix.mul_sub, Matrix.sub_mul, Matrix.mul_add, Matrix.add_mul, Matrix.mul_neg, Matrix.neg_mul, conj_mul, rX_eq, rY_eq, rZ_eq,
    Matrix.mul_smul, Matrix.smul_mul, Matrix.mul_one, uMat_unitary, smul_smul, Complex.I_mul_I, ← map_mul', neg_neg] at h1 h2 h3 h4
  refine ⟨?_, ?_, ?_, ?_⟩ <;> ext i j
  · have h := congrArg Complex.im (congrFun (congrFun h1 i) j)
    simp at h ⊢
    linarith
  · have h := congrArg Complex.im (congrFun (congrFun h2 i) j)
    simp at h ⊢
    linarith
  · have h := congrArg Complex.re (congrFun (congrFun h3 i) j)
    simp at h ⊢
    linarith
  · have h := congrArg Complex.re (congrFun (congrFun h4 i) j)
    by_cases hij : i = j
    · subst hij
      simp at h ⊢
      linarith
    · simp [Matrix.one_apply_ne hij] at h ⊢
      linarith

theorem rsh_antisymm (L : ℕ) : (rX L).transpose = -rX L ∧ (rY L).transpose = -rY L ∧ (rZ L).transpose = -rZ L := by
  have hX : (gMat L (cX L))ᴴ = gMat L (cX L) := by
    ext i j
    simp only [gMat, Matrix.conjTranspose_apply, Complex.star_def, Complex.conj_ofReal, cX]
    rw [lp_symm L (mOf L j), ← lp_symm L (mOf L i), add_comm]
  have hY : (gMat L (cY L))ᴴ = -gMat L (cY L) := by
    ext i j
    simp only [gMat, Matrix.conjTranspose_apply, Matrix.neg_apply, Complex.star_def, Complex.conj_ofReal, cY]
    rw [lp_symm L (mOf L j), ← lp_symm L (mOf L i)]
    push_cast
    ring
  have hZ : (gMat L (cZ L))ᴴ = gMat L (cZ L) := by
    ext i j
    simp only [gMat, Matrix.conjTranspose_apply, Complex.star_def, Complex.conj_ofReal, cZ]
    by_cases h : mOf L i = mOf L j
    · rw [if_pos h, if_pos h.symm, h]
    · rw [if_neg h, if_neg fun h' => h h'.symm]
      simp
  have tr : ∀ G : Matrix (Fin (2 * L + 1)) (Fin (2 * L + 1)) ℂ, ((uMat L)ᴴ * G * uMat L)ᴴ = (uMat L)ᴴ * Gᴴ * uMat L := by
    intro G
    rw [Matrix.conjTranspose_mul, Matrix.conjTranspose_mul, Matrix.conjTranspose_conjTranspose, Matrix.mul_assoc]
  have h1 := tr (gMat L (cX L))
  have h2 := tr (gMat L (cY L))
  have h3 := tr (gMat L (cZ L))
  rw [hX, rX_eq] at h1
  rw [hY, Matrix.mul_neg, Matrix.neg_mul, rY_eq] at h2
  rw [hZ, rZ_eq] at h3
  refine ⟨?_, ?_, ?_⟩ <;> ext i j
  · have h := congrArg Complex.im (congrFun (congrFun h1 i) j)
    simp at h ⊢
    linarith
  · have h := congrArg Complex.re (congrFun (congrFun h2 i) j)
    simp at h ⊢
    linarith
  · have h := congrArg Complex.im (congrFun (congrFun h3 i) j)
    simp at h ⊢
    linarith

theorem memset0_ub (n : ℕ) (m : List ℝ) (h : m.length < n) : memset0 n m = .ub := by
  unfold memset0
  refine forRange_ub (I := fun _ a => a.length = m.length) h rfl (fun i s hi hs => ?_) fun s hs => wr_ub _ (by omega)
  exact ⟨_, wr_ok _ (by omega), by rw [List.length_set, hs]⟩

end Libgrpp
