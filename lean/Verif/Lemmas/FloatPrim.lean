import Verif.Lemmas.FloatMatrix
import Verif.Lemmas.Mmd

/-! # Auxiliary lemmas for Props/Float: one pair of primitives -/

namespace Libgrpp

/-- Square of the distance of the centres. -/
noncomputable def sqDist (A B : Point) : ℝ := ∑ c, (A c - B c) ^ 2

/-- `μ |A - B|²`. -/
noncomputable def pairExp (a b : ℝ) (A B : Point) : ℝ := a * b / (a + b) * sqDist A B

theorem gaussianNormFactor_nonneg (L : Nat) {a : ℝ} (ha : 0 < a) : 0 ≤ gaussianNormFactor L 0 0 a := by
  unfold gaussianNormFactor
  positivity

/-- Error exponent of a product of three elements of the table. -/
theorem tabExp_three (w z a b : ℝ) (A B : Point) (n : Fin 3 → Nat) :
    tabExp w z (a * b / (a + b) * (A 0 - B 0) ^ 2) (n 0) + tabExp w z (a * b / (a + b) * (A 1 - B 1) ^ 2) (n 1) +
      tabExp w z (a * b / (a + b) * (A 2 - B 2) ^ 2) (n 2) = (12 + 8 * pairExp a b A B + 9 * (n 0 + n 1 + n 2 : ℕ)) * w + 3 * z := by
  unfold tabExp pairExp sqDist
  rw [Fin.sum_univ_three]
  push_cast
  ring

section
variable {F : Arith} {w z : ℝ} (hF : F.Acc w z)
include hF

theorem flProd5_ok {e1 e2 e3 e4 e5 v1 v2 v3 v4 v5 x1 x2 x3 x4 x5 a1 a2 a3 a4 a5 : ℝ} (h1 : Close e1 v1 x1 a1) (h2 : Close e2 v2 x2 a2)
    (h3 : Close e3 v3 x3 a3) (h4 : Close e4 v4 x4 a4) (h5 : Close e5 v5 x5 a5) :
    OrTrap (flProd5 F v1 v2 v3 v4 v5) fun v => Close (e1 + e2 + e3 + e4 + e5 + 4 * w) v (x1 * x2 * x3 * x4 * x5) (a1 * a2 * a3 * a4 * a5) := by
  unfold flProd5
  refine (hF.mulC h1 h2).bind fun t ht => ?_
  refine (hF.mulC ht h3).bind fun t ht => ?_
  refine (hF.mulC ht h4).bind fun t ht => ?_
  exact (hF.mulC ht h5).mono fun v hv => hv.mono (by linarith)

theorem flNormFactor_close (L : Nat) {a : ℝ} (ha : 0 < a) :
    OrTrap (flNormFactor F L 0 0 a) fun v => Close ((4 + L / 2) * w + 2 * z) v (gaussianNormFactor L 0 0 a) (gaussianNormFactor L 0 0 a) :=
  (flNormFactor_near hF L ha).mono fun v hv => hv.close (by rw [abs_of_nonneg (gaussianNormFactor_nonneg L ha)])

theorem flOverlapPrim_ok (hw1 : w ≤ 1 / 49) (A B : Shell) (lA : A.Listed) (lB : B.Listed) (sA : A.SumLe) (sB : B.SumLe) (hLA : A.L < maxBasisL) (hLB : B.L < maxBasisL)
    {a b Θ : ℝ} (ha : 0 < a) (hb : 0 < b) (hΘ : pairExp a b A.origin B.origin ≤ Θ) (buf : List ℝ) (hlen : A.cart_size * B.cart_size ≤ buf.length) :
    OrTrap (flOverlapPrim F A B a b buf) fun buf' =>
      VecQ (A.cart_size * B.cart_size) buf' (fun p v => ∀ m n, n < B.cart_size → m < A.cart_size → p = m * B.cart_size + n →
        Close ((24 + 8 * Θ + 19 / 2 * (A.L + B.L)) * w + 7 * z) v
          (gaussianNormFactor A.L 0 0 a * gaussianNormFactor B.L 0 0 b * gauss1 a b (A.origin 0) (B.origin 0) (A.comp m).1 (B.comp n).1 *
            gauss1 a b (A.origin 1) (B.origin 1) (A.comp m).2.1 (B.comp n).2.1 * gauss1 a b (A.origin 2) (B.origin 2) (A.comp m).2.2 (B.comp n).2.2)
          (gaussianNormFactor A.L 0 0 a * gaussianNormFactor B.L 0 0 b * osMaj a b (A.origin 0) (B.origin 0) (A.comp m).1 (B.comp n).1 *
            osMaj a b (A.origin 1) (B.origin 1) (A.comp m).2.1 (B.comp n).2.1 * osMaj a b (A.origin 2) (B.origin 2) (A.comp m).2.2 (B.comp n).2.2)) ∧
      SameBeyond (A.cart_size * B.cart_size) buf' buf := by
  have hw := hF.nonneg
  unfold flOverlapPrim
  refine (flNormFactor_close hF A.L ha).bind fun nA hnA => ?_
  refine (flNormFactor_close hF B.L hb).bind fun nB hnB => ?_
  refine (flFillS_ok hF hw1 maxBasisL A.L B.L hLA hLB ha hb A.origin B.origin).bind fun S hS => ?_
  refine orTrap_storePairs A B lA lB _ _ buf ?_ hlen
  intro m n hm hn
  obtain ⟨a1, a2, a3⟩ := A.comp_le lA hm
  obtain ⟨b1, b2, b3⟩ := B.comp_le lB hn
  have sa := A.comp_sum lA sA hm
  have sb := B.comp_sum lB sB hn
  obtain ⟨vx, ex, hx⟩ := hS 0 _ _ a1 b1
  obtain ⟨vy, ey, hy⟩ := hS 1 _ _ a2 b2
  obtain ⟨vz, ez, hz⟩ := hS 2 _ _ a3 b3
  rw [tget_ok (by omega) (by omega) ex, tget_ok (by omega) (by omega) ey, tget_ok (by omega) (by omega) ez]
  simp only [Outcome.ok_bind]
  refine (flProd5_ok hF hnA hnB hx hy hz).mono fun v hv m' n' hn' hm' he => ?_
  obtain ⟨rfl, rfl⟩ := rowMajor_inj hn hn' he
  refine hv.mono ?_
  have h3 := tabExp_three w z a b A.origin B.origin ![(A.comp m).1 + (B.comp n).1, (A.comp m).2.1 + (B.comp n).2.1, (A.comp m).2.2 + (B.comp n).2.2]
  simp only [Matrix.cons_val_zero, Matrix.cons_val_one, Matrix.cons_val] at h3
  have hsum : (((A.comp m).1 + (B.comp n).1 + ((A.comp m).2.1 + (B.comp n).2.1) + ((A.comp m).2.2 + (B.comp n).2.2) : ℕ) : ℝ) ≤ A.L + B.L := by
    rw [← Nat.cast_add, Nat.cast_le]; omega
  have h4 : (12 + 8 * pairExp a b A.origin B.origin + 9 * (((A.comp m).1 + (B.comp n).1 + ((A.comp m).2.1 + (B.comp n).2.1) + ((A.comp m).2.2 + (B.comp n).2.2) : ℕ) : ℝ)) * w ≤
      (12 + 8 * Θ + 9 * (A.L + B.L)) * w := mul_le_mul_of_nonneg_right (by linarith) hw
  linarith

/-! ## Kinetic energy -/

theorem flFillD2_ok (iMax jMax : Nat) (hi : iMax < maxBasisL) (hj : jMax < maxBasisL) {a : ℝ} (ha : 0 < a) (S : Table) (f T : Fin 3 → Nat → Nat → ℝ) (e : Fin 3 → Nat → ℝ)
    (he : ∀ c n, 0 ≤ e c n ∧ e c n ≤ e c (n + 1))
    (hS : ∀ (c : Fin 3) (i j : Nat), i ≤ iMax + 2 → j ≤ jMax + 2 → ∃ v, S c i j = some v ∧ Close (e c (i + j)) v (f c i j) (T c i j)) :
    OrTrap (flFillD2 F iMax jMax a S) fun D => ∀ (c : Fin 3) (i j : Nat), i ≤ iMax → j ≤ jMax → ∃ v, D c i j = some v ∧
      Close (e c (i + j + 2) + 6 * w) v
        (4 * a * a * f c (i + 2) j - 2 * a * (2 * (i : ℝ) + 1) * f c i j + (i : ℝ) * ((i : ℝ) - 1) * f c (i - 2) j)
        (4 * a * a * T c (i + 2) j + 2 * a * (2 * (i : ℝ) + 1) * T c i j + (i : ℝ) * ((i : ℝ) - 1) * T c (i - 2) j) := by
  have hw := hF.nonneg
  unfold flFillD2
  let Q : Fin 3 → Nat → Nat → ℝ → Prop := fun c i j v => Close (e c (i + j + 2) + 6 * w) v
        (4 * a * a * f c (i + 2) j - 2 * a * (2 * (i : ℝ) + 1) * f c i j + (i : ℝ) * ((i : ℝ) - 1) * f c (i - 2) j)
        (4 * a * a * T c (i + 2) j + 2 * a * (2 * (i : ℝ) + 1) * T c i j + (i : ℝ) * ((i : ℝ) - 1) * T c (i - 2) j)
  refine orTrap_forCoord (fun k S => FilledQ S Q iMax jMax k 0 0) (filledQ_uninit Q iMax jMax) ?_ ?_
  · intro c D hD
    refine fill_rows iMax jMax Q c _ ?_ D hD
    intro i j D h1 h2 hD
    obtain ⟨v1, e1, c1⟩ := hS c (i + 2) j (by omega) (by omega)
    obtain ⟨v2, e2, c2⟩ := hS c i j (by omega) (by omega)
    rw [tget_ok (by omega) (by omega) e1, tget_ok (by omega) (by omega) e2]
    simp only [Outcome.ok_bind]
    rw [show i + 2 + j = i + j + 2 by omega] at c1
    have g1 := he c (i + j)
    have g2 := he c (i + j + 1)
    refine (hF.mulN (Near.refl le_rfl 4) (Near.refl le_rfl a)).bind fun t ht => ?_
    refine (hF.mulN ht (Near.refl le_rfl a)).bind fun t ht => ?_
    have ht := ht.close (a := 4 * a * a) (by rw [abs_of_pos (by positivity)])
    refine (hF.mulC ht c1).bind fun t ht => ?_
    refine (hF.addC (Close.zero (by have := ht.nonneg; exact this)) ht).bind fun acc hacc => ?_
    have hacc := hacc.mono (e' := e c (i + j + 2) + 4 * w) (by linarith)
    rw [zero_add, zero_add] at hacc
    refine (hF.mulN (Near.refl le_rfl 2) (Near.refl le_rfl a)).bind fun t ht => ?_
    refine (hF.mulN ht (Near.refl le_rfl (2 * (i : ℝ) + 1))).bind fun t ht => ?_
    have ht := ht.close (a := 2 * a * (2 * (i : ℝ) + 1)) (by rw [abs_of_pos (by positivity)])
    refine (hF.mulC ht c2).bind fun t ht => ?_
    refine (hF.subC (hacc.mono (e' := e c (i + j + 2) + 4 * w) (by linarith)) (ht.mono (by linarith))).bind fun acc2 hacc2 => ?_
    by_cases h2i : i ≥ 2
    · rw [if_pos h2i]
      obtain ⟨v3, e3, c3⟩ := hS c (i - 2) j (by omega) (by omega)
      rw [tget_ok (by omega) (by omega) e3]
      simp only [Outcome.ok_bind]
      have hi2 : (0 : ℝ) ≤ (i : ℝ) * ((i : ℝ) - 1) := by
        have : (2 : ℝ) ≤ i := by exact_mod_cast h2i
        nlinarith
      have k1 : Close 0 ((i : ℝ) * ((i : ℝ) - 1)) ((i : ℝ) * ((i : ℝ) - 1)) ((i : ℝ) * ((i : ℝ) - 1)) :=
        (Near.refl le_rfl _).close (by rw [abs_of_nonneg hi2])
      refine (hF.mulC k1 c3).bind fun t ht => ?_
      have g3 := he c (i - 2 + j)
      have g4 := he c (i - 2 + j + 1)
      rw [show i - 2 + j + 1 + 1 = i + j by omega] at g4
      refine (hF.addC hacc2 (ht.mono (by linarith [g1.2, g2.2, g3.2, g4.2]))).bind fun acc3 hacc3 => ?_
      exact orTrap_tset (by omega) (by omega) hD (hacc3.mono (by linarith))
    · rw [if_neg h2i]
      refine orTrap_tset (by omega) (by omega) hD ?_
      have hi0 : (i : ℝ) * ((i : ℝ) - 1) = 0 := by
        have : i = 0 ∨ i = 1 := by omega
        rcases this with rfl | rfl <;> norm_num
      change Close _ _ _ _
      rw [hi0, zero_mul, zero_mul, add_zero, add_zero]
      exact hacc2.mono (by linarith)
  · intro S hS c i j hi hj
    exact hS c i j hi hj (Or.inl c.isLt)

/-- Majorant of the second derivative. -/
noncomputable def osMaj2 (a b A B : ℝ) (i j : Nat) : ℝ :=
  4 * a * a * osMaj a b A B (i + 2) j + 2 * a * (2 * (i : ℝ) + 1) * osMaj a b A B i j + (i : ℝ) * ((i : ℝ) - 1) * osMaj a b A B (i - 2) j

theorem flKineticPrim_ok (hw1 : w ≤ 1 / 49) (A B : Shell) (lA : A.Listed) (lB : B.Listed) (sA : A.SumLe) (sB : B.SumLe) (hLA : A.L < maxBasisL) (hLB : B.L < maxBasisL)
    {a b Θ : ℝ} (ha : 0 < a) (hb : 0 < b) (hΘ : pairExp a b A.origin B.origin ≤ Θ) (buf : List ℝ) (hlen : A.cart_size * B.cart_size ≤ buf.length)
    (D : Fin 3 → Nat → Nat → ℝ)
    (hD : ∀ c i j, D c i j = 4 * a * a * gauss1 a b (A.origin c) (B.origin c) (i + 2) j - 2 * a * (2 * (i : ℝ) + 1) * gauss1 a b (A.origin c) (B.origin c) i j +
      (i : ℝ) * ((i : ℝ) - 1) * gauss1 a b (A.origin c) (B.origin c) (i - 2) j) :
    OrTrap (flKineticPrim F A B a b buf) fun buf' =>
      VecQ (A.cart_size * B.cart_size) buf' (fun p v => ∀ m n, n < B.cart_size → m < A.cart_size → p = m * B.cart_size + n →
        Close ((51 + 8 * Θ + 19 / 2 * (A.L + B.L)) * w + 7 * z) v
          (-0.5 * gaussianNormFactor A.L 0 0 a * gaussianNormFactor B.L 0 0 b *
            (D 0 (A.comp m).1 (B.comp n).1 * gauss1 a b (A.origin 1) (B.origin 1) (A.comp m).2.1 (B.comp n).2.1 * gauss1 a b (A.origin 2) (B.origin 2) (A.comp m).2.2 (B.comp n).2.2 +
             gauss1 a b (A.origin 0) (B.origin 0) (A.comp m).1 (B.comp n).1 * D 1 (A.comp m).2.1 (B.comp n).2.1 * gauss1 a b (A.origin 2) (B.origin 2) (A.comp m).2.2 (B.comp n).2.2 +
             gauss1 a b (A.origin 0) (B.origin 0) (A.comp m).1 (B.comp n).1 * gauss1 a b (A.origin 1) (B.origin 1) (A.comp m).2.1 (B.comp n).2.1 * D 2 (A.comp m).2.2 (B.comp n).2.2))
          (0.5 * gaussianNormFactor A.L 0 0 a * gaussianNormFactor B.L 0 0 b *
            (osMaj2 a b (A.origin 0) (B.origin 0) (A.comp m).1 (B.comp n).1 * osMaj a b (A.origin 1) (B.origin 1) (A.comp m).2.1 (B.comp n).2.1 * osMaj a b (A.origin 2) (B.origin 2) (A.comp m).2.2 (B.comp n).2.2 +
             osMaj a b (A.origin 0) (B.origin 0) (A.comp m).1 (B.comp n).1 * osMaj2 a b (A.origin 1) (B.origin 1) (A.comp m).2.1 (B.comp n).2.1 * osMaj a b (A.origin 2) (B.origin 2) (A.comp m).2.2 (B.comp n).2.2 +
             osMaj a b (A.origin 0) (B.origin 0) (A.comp m).1 (B.comp n).1 * osMaj a b (A.origin 1) (B.origin 1) (A.comp m).2.1 (B.comp n).2.1 * osMaj2 a b (A.origin 2) (B.origin 2) (A.comp m).2.2 (B.comp n).2.2))) ∧
      SameBeyond (A.cart_size * B.cart_size) buf' buf := by
  have hw := hF.nonneg
  have hz0 := hF.nonneg'
  unfold flKineticPrim
  refine (flNormFactor_close hF A.L ha).bind fun nA hnA => ?_
  refine (flNormFactor_close hF B.L hb).bind fun nB hnB => ?_
  refine (flFillS_ok hF hw1 (maxBasisL + 2) (A.L + 2) (B.L + 2) (by omega) (by omega) ha hb A.origin B.origin).bind fun S hS => ?_
  have hmono : ∀ (c : Fin 3) n, 0 ≤ tabExp w z (a * b / (a + b) * (A.origin c - B.origin c) ^ 2) n ∧
      tabExp w z (a * b / (a + b) * (A.origin c - B.origin c) ^ 2) n ≤ tabExp w z (a * b / (a + b) * (A.origin c - B.origin c) ^ 2) (n + 1) := by
    intro c n
    refine ⟨?_, by rw [tabExp_succ]; linarith⟩
    unfold tabExp
    positivity
  refine (flFillD2_ok hF A.L B.L hLA hLB ha S (fun c => gauss1 a b (A.origin c) (B.origin c)) (fun c => osMaj a b (A.origin c) (B.origin c))
    (fun c => tabExp w z (a * b / (a + b) * (A.origin c - B.origin c) ^ 2)) hmono hS).bind fun D2 hD2 => ?_
  refine orTrap_storePairs A B lA lB _ _ buf ?_ hlen
  intro m n hm hn
  obtain ⟨a1, a2, a3⟩ := A.comp_le lA hm
  obtain ⟨b1, b2, b3⟩ := B.comp_le lB hn
  have sa := A.comp_sum lA sA hm
  have sb := B.comp_sum lB sB hn
  obtain ⟨vx, ex, hx⟩ := hS 0 (A.comp m).1 (B.comp n).1 (by omega) (by omega)
  obtain ⟨vy, ey, hy⟩ := hS 1 (A.comp m).2.1 (B.comp n).2.1 (by omega) (by omega)
  obtain ⟨vz, ez, hz⟩ := hS 2 (A.comp m).2.2 (B.comp n).2.2 (by omega) (by omega)
  obtain ⟨dx, fx, kx⟩ := hD2 0 _ _ a1 b1
  obtain ⟨dy, fy, ky⟩ := hD2 1 _ _ a2 b2
  obtain ⟨dz, fz, kz⟩ := hD2 2 _ _ a3 b3
  rw [← hD] at kx ky kz
  rw [tget_ok (by omega) (by omega) ex, tget_ok (by omega) (by omega) ey, tget_ok (by omega) (by omega) ez,
    tget_ok (by omega) (by omega) fx, tget_ok (by omega) (by omega) fy, tget_ok (by omega) (by omega) fz]
  simp only [Outcome.ok_bind]
  have h3 := tabExp_three w z a b A.origin B.origin ![(A.comp m).1 + (B.comp n).1, (A.comp m).2.1 + (B.comp n).2.1, (A.comp m).2.2 + (B.comp n).2.2]
  simp only [Matrix.cons_val_zero, Matrix.cons_val_one, Matrix.cons_val] at h3
  have hsum : (((A.comp m).1 + (B.comp n).1 + ((A.comp m).2.1 + (B.comp n).2.1) + ((A.comp m).2.2 + (B.comp n).2.2) : ℕ) : ℝ) ≤ A.L + B.L := by
    rw [← Nat.cast_add, Nat.cast_le]; omega
  have h4 : (12 + 8 * pairExp a b A.origin B.origin + 9 * (((A.comp m).1 + (B.comp n).1 + ((A.comp m).2.1 + (B.comp n).2.1) + ((A.comp m).2.2 + (B.comp n).2.2) : ℕ) : ℝ)) * w ≤
      (12 + 8 * Θ + 9 * (A.L + B.L)) * w := mul_le_mul_of_nonneg_right (by linarith) hw
  simp only [tabExp_succ] at kx ky kz
  refine (hF.mulC ((Near.refl le_rfl (-0.5 : ℝ)).close (a := 0.5) (by norm_num)) hnA).bind fun f hf => ?_
  refine (hF.mulC hf hnB).bind fun f hf => ?_
  have cm : ∀ {e v x a : ℝ}, Close e v x a → e ≤ (38 + 8 * Θ + 9 * (A.L + B.L)) * w + 3 * z → Close ((38 + 8 * Θ + 9 * (A.L + B.L)) * w + 3 * z) v x a :=
    fun h he => h.mono he
  refine (hF.mulC kx hy).bind fun t ht => ?_
  refine (hF.mulC ht hz).bind fun t1 ht1 => ?_
  refine (hF.mulC hx ky).bind fun t ht => ?_
  refine (hF.mulC ht hz).bind fun t2 ht2 => ?_
  refine (hF.mulC hx hy).bind fun t ht => ?_
  refine (hF.mulC ht kz).bind fun t3 ht3 => ?_
  refine (hF.addC (cm ht1 (by linarith)) (cm ht2 (by linarith))).bind fun t ht => ?_
  refine (hF.addC ht ((cm ht3 (by linarith)).mono (by linarith))).bind fun t ht => ?_
  refine (hF.mulC hf ht).mono fun v hv m' n' hn' hm' he => ?_
  obtain ⟨rfl, rfl⟩ := rowMajor_inj hn hn' he
  refine hv.mono ?_
  linarith

/-! ## Momentum -/

theorem flFillD1_ok (iMax jMax : Nat) (hi : iMax < maxBasisL) (hj : jMax < maxBasisL) {a : ℝ} (ha : 0 < a) (S : Table) (f T : Fin 3 → Nat → Nat → ℝ) (e : Fin 3 → Nat → ℝ)
    (he : ∀ c n, 0 ≤ e c n ∧ e c n ≤ e c (n + 1))
    (hS : ∀ (c : Fin 3) (i j : Nat), i ≤ iMax + 1 → j ≤ jMax + 1 → ∃ v, S c i j = some v ∧ Close (e c (i + j)) v (f c i j) (T c i j)) :
    OrTrap (flFillD1 F iMax jMax a S) fun D => ∀ (c : Fin 3) (i j : Nat), i ≤ iMax → j ≤ jMax → ∃ v, D c i j = some v ∧
      Close (e c (i + j + 1) + 4 * w) v (2 * a * f c (i + 1) j - (i : ℝ) * f c (i - 1) j) (2 * a * T c (i + 1) j + (i : ℝ) * T c (i - 1) j) := by
  have hw := hF.nonneg
  unfold flFillD1
  let Q : Fin 3 → Nat → Nat → ℝ → Prop := fun c i j v => Close (e c (i + j + 1) + 4 * w) v
        (2 * a * f c (i + 1) j - (i : ℝ) * f c (i - 1) j) (2 * a * T c (i + 1) j + (i : ℝ) * T c (i - 1) j)
  refine orTrap_forCoord (fun k S => FilledQ S Q iMax jMax k 0 0) (filledQ_uninit Q iMax jMax) ?_ ?_
  · intro c D hD
    refine fill_rows iMax jMax Q c _ ?_ D hD
    intro i j D h1 h2 hD
    obtain ⟨v1, e1, c1⟩ := hS c (i + 1) j (by omega) (by omega)
    rw [tget_ok (by omega) (by omega) e1]
    simp only [Outcome.ok_bind]
    rw [show i + 1 + j = i + j + 1 by omega] at c1
    refine (hF.mulN (Near.refl le_rfl 2) (Near.refl le_rfl a)).bind fun t ht => ?_
    have ht := ht.close (a := 2 * a) (by rw [abs_of_pos (by positivity)])
    refine (hF.mulC ht c1).bind fun t ht => ?_
    refine (hF.addC (Close.zero (by have := ht.nonneg; exact this)) ht).bind fun acc hacc => ?_
    have hacc := hacc.mono (e' := e c (i + j + 1) + 3 * w) (by linarith)
    rw [zero_add, zero_add] at hacc
    by_cases h1i : i ≥ 1
    · rw [if_pos h1i]
      obtain ⟨v3, e3, c3⟩ := hS c (i - 1) j (by omega) (by omega)
      rw [tget_ok (by omega) (by omega) e3]
      simp only [Outcome.ok_bind]
      refine (hF.mulC ((Near.refl le_rfl (i : ℝ)).close (a := (i : ℝ)) (by simp)) c3).bind fun t ht => ?_
      have g3 := he c (i - 1 + j)
      rw [show i - 1 + j + 1 = i + j by omega] at g3
      have g4 := he c (i + j)
      refine (hF.subC (hacc.mono (e' := e c (i + j + 1) + 3 * w) (by linarith)) (ht.mono (by linarith [g3.2, g4.2]))).bind fun acc3 hacc3 => ?_
      exact orTrap_tset (by omega) (by omega) hD (hacc3.mono (by linarith))
    · rw [if_neg h1i]
      refine orTrap_tset (by omega) (by omega) hD ?_
      obtain rfl : i = 0 := by omega
      change Close _ _ _ _
      rw [Nat.cast_zero, zero_mul, zero_mul, add_zero, sub_zero]
      exact hacc.mono (by linarith)
  · intro S hS c i j hi hj
    exact hS c i j hi hj (Or.inl c.isLt)

/-- Majorant of the first derivative. -/
noncomputable def osMaj1 (a b A B : ℝ) (i j : Nat) : ℝ := 2 * a * osMaj a b A B (i + 1) j + (i : ℝ) * osMaj a b A B (i - 1) j

theorem flMomentumPrim_ok (hw1 : w ≤ 1 / 49) (k : Fin 3) (A B : Shell) (lA : A.Listed) (lB : B.Listed) (sA : A.SumLe) (sB : B.SumLe) (hLA : A.L < maxBasisL) (hLB : B.L < maxBasisL)
    {a b Θ : ℝ} (ha : 0 < a) (hb : 0 < b) (hΘ : pairExp a b A.origin B.origin ≤ Θ) (buf : List ℝ) (hlen : A.cart_size * B.cart_size ≤ buf.length)
    (D : Fin 3 → Nat → Nat → ℝ)
    (hD : ∀ c i j, D c i j = 2 * a * gauss1 a b (A.origin c) (B.origin c) (i + 1) j - (i : ℝ) * gauss1 a b (A.origin c) (B.origin c) (i - 1) j) :
    OrTrap (flMomentumPrim F k A B a b buf) fun buf' =>
      VecQ (A.cart_size * B.cart_size) buf' (fun p v => ∀ m n, n < B.cart_size → m < A.cart_size → p = m * B.cart_size + n →
        Close ((37 + 8 * Θ + 19 / 2 * (A.L + B.L)) * w + 7 * z) v
          (-gaussianNormFactor A.L 0 0 a * gaussianNormFactor B.L 0 0 b *
            (if k = 0 then D 0 (A.comp m).1 (B.comp n).1 else gauss1 a b (A.origin 0) (B.origin 0) (A.comp m).1 (B.comp n).1) *
            (if k = 1 then D 1 (A.comp m).2.1 (B.comp n).2.1 else gauss1 a b (A.origin 1) (B.origin 1) (A.comp m).2.1 (B.comp n).2.1) *
            (if k = 2 then D 2 (A.comp m).2.2 (B.comp n).2.2 else gauss1 a b (A.origin 2) (B.origin 2) (A.comp m).2.2 (B.comp n).2.2))
          (gaussianNormFactor A.L 0 0 a * gaussianNormFactor B.L 0 0 b *
            (if k = 0 then osMaj1 a b (A.origin 0) (B.origin 0) (A.comp m).1 (B.comp n).1 else osMaj a b (A.origin 0) (B.origin 0) (A.comp m).1 (B.comp n).1) *
            (if k = 1 then osMaj1 a b (A.origin 1) (B.origin 1) (A.comp m).2.1 (B.comp n).2.1 else osMaj a b (A.origin 1) (B.origin 1) (A.comp m).2.1 (B.comp n).2.1) *
            (if k = 2 then osMaj1 a b (A.origin 2) (B.origin 2) (A.comp m).2.2 (B.comp n).2.2 else osMaj a b (A.origin 2) (B.origin 2) (A.comp m).2.2 (B.comp n).2.2))) ∧
      SameBeyond (A.cart_size * B.cart_size) buf' buf := by
  have hw := hF.nonneg
  have hz0 := hF.nonneg'
  unfold flMomentumPrim
  refine (flNormFactor_close hF A.L ha).bind fun nA hnA => ?_
  refine (flNormFactor_close hF B.L hb).bind fun nB hnB => ?_
  refine (flFillS_ok hF hw1 (maxBasisL + 1) (A.L + 1) (B.L + 1) (by omega) (by omega) ha hb A.origin B.origin).bind fun S hS => ?_
  have hmono : ∀ (c : Fin 3) n, 0 ≤ tabExp w z (a * b / (a + b) * (A.origin c - B.origin c) ^ 2) n ∧
      tabExp w z (a * b / (a + b) * (A.origin c - B.origin c) ^ 2) n ≤ tabExp w z (a * b / (a + b) * (A.origin c - B.origin c) ^ 2) (n + 1) := by
    intro c n
    refine ⟨?_, by rw [tabExp_succ]; linarith⟩
    unfold tabExp
    positivity
  refine (flFillD1_ok hF A.L B.L hLA hLB ha S (fun c => gauss1 a b (A.origin c) (B.origin c)) (fun c => osMaj a b (A.origin c) (B.origin c))
    (fun c => tabExp w z (a * b / (a + b) * (A.origin c - B.origin c) ^ 2)) hmono hS).bind fun D1 hD1 => ?_
  refine orTrap_storePairs A B lA lB _ _ buf ?_ hlen
  intro m n hm hn
  obtain ⟨a1, a2, a3⟩ := A.comp_le lA hm
  obtain ⟨b1, b2, b3⟩ := B.comp_le lB hn
  have sa := A.comp_sum lA sA hm
  have sb := B.comp_sum lB sB hn
  have key : ∀ (c : Fin 3) (i j : Nat), i ≤ A.L → j ≤ B.L →
      OrTrap (if k = c then tget maxBasisL D1 c i j else tget (maxBasisL + 1) S c i j) fun v =>
        Close (tabExp w z (a * b / (a + b) * (A.origin c - B.origin c) ^ 2) (i + j) + if k = c then 13 * w else 0) v
          (if k = c then D c i j else gauss1 a b (A.origin c) (B.origin c) i j)
          (if k = c then osMaj1 a b (A.origin c) (B.origin c) i j else osMaj a b (A.origin c) (B.origin c) i j) := by
    intro c i j hi hj
    by_cases hk : k = c
    · simp only [if_pos hk]
      obtain ⟨v, e, h⟩ := hD1 c i j hi hj
      rw [tget_ok (by omega) (by omega) e]
      rw [← hD, tabExp_succ] at h
      exact .ok (h.mono (by linarith))
    · simp only [if_neg hk]
      obtain ⟨v, e, h⟩ := hS c i j (by omega) (by omega)
      rw [tget_ok (by omega) (by omega) e]
      exact .ok (h.mono (by linarith))
  have main : OrTrap ((if k = 0 then tget maxBasisL D1 0 (A.comp m).1 (B.comp n).1 else tget (maxBasisL + 1) S 0 (A.comp m).1 (B.comp n).1) >>= fun fx =>
      (if k = 1 then tget maxBasisL D1 1 (A.comp m).2.1 (B.comp n).2.1 else tget (maxBasisL + 1) S 1 (A.comp m).2.1 (B.comp n).2.1) >>= fun fy =>
      (if k = 2 then tget maxBasisL D1 2 (A.comp m).2.2 (B.comp n).2.2 else tget (maxBasisL + 1) S 2 (A.comp m).2.2 (B.comp n).2.2) >>= fun fz =>
      flProd5 F (-nA) nB fx fy fz) fun v => ∀ m' n', n' < B.cart_size → m' < A.cart_size → m * B.cart_size + n = m' * B.cart_size + n' →
        Close ((37 + 8 * Θ + 19 / 2 * (A.L + B.L)) * w + 7 * z) v
          (-gaussianNormFactor A.L 0 0 a * gaussianNormFactor B.L 0 0 b *
            (if k = 0 then D 0 (A.comp m').1 (B.comp n').1 else gauss1 a b (A.origin 0) (B.origin 0) (A.comp m').1 (B.comp n').1) *
            (if k = 1 then D 1 (A.comp m').2.1 (B.comp n').2.1 else gauss1 a b (A.origin 1) (B.origin 1) (A.comp m').2.1 (B.comp n').2.1) *
            (if k = 2 then D 2 (A.comp m').2.2 (B.comp n').2.2 else gauss1 a b (A.origin 2) (B.origin 2) (A.comp m').2.2 (B.comp n').2.2))
          (gaussianNormFactor A.L 0 0 a * gaussianNormFactor B.L 0 0 b *
            (if k = 0 then osMaj1 a b (A.origin 0) (B.origin 0) (A.comp m').1 (B.comp n').1 else osMaj a b (A.origin 0) (B.origin 0) (A.comp m').1 (B.comp n').1) *
            (if k = 1 then osMaj1 a b (A.origin 1) (B.origin 1) (A.comp m').2.1 (B.comp n').2.1 else osMaj a b (A.origin 1) (B.origin 1) (A.comp m').2.1 (B.comp n').2.1) *
            (if k = 2 then osMaj1 a b (A.origin 2) (B.origin 2) (A.comp m').2.2 (B.comp n').2.2 else osMaj a b (A.origin 2) (B.origin 2) (A.comp m').2.2 (B.comp n').2.2)) := by
    refine (key 0 _ _ a1 b1).bind fun fx hx => ?_
    refine (key 1 _ _ a2 b2).bind fun fy hy => ?_
    refine (key 2 _ _ a3 b3).bind fun fz hz => ?_
    refine (flProd5_ok hF hnA.neg hnB hx hy hz).mono fun v hv m' n' hn' hm' he => ?_
    obtain ⟨rfl, rfl⟩ := rowMajor_inj hn hn' he
    refine hv.mono ?_
    have h3 := tabExp_three w z a b A.origin B.origin ![(A.comp m).1 + (B.comp n).1, (A.comp m).2.1 + (B.comp n).2.1, (A.comp m).2.2 + (B.comp n).2.2]
    simp only [Matrix.cons_val_zero, Matrix.cons_val_one, Matrix.cons_val] at h3
    have hsum : (((A.comp m).1 + (B.comp n).1 + ((A.comp m).2.1 + (B.comp n).2.1) + ((A.comp m).2.2 + (B.comp n).2.2) : ℕ) : ℝ) ≤ A.L + B.L := by
      rw [← Nat.cast_add, Nat.cast_le]; omega
    have h4 : (12 + 8 * pairExp a b A.origin B.origin + 9 * (((A.comp m).1 + (B.comp n).1 + ((A.comp m).2.1 + (B.comp n).2.1) + ((A.comp m).2.2 + (B.comp n).2.2) : ℕ) : ℝ)) * w ≤
        (12 + 8 * Θ + 9 * (A.L + B.L)) * w := mul_le_mul_of_nonneg_right (by linarith) hw
    have h5 : ((if k = 0 then 13 * w else 0) + (if k = 1 then 13 * w else 0) + (if k = 2 then 13 * w else 0) : ℝ) = 13 * w := by
      fin_cases k <;> simp
    linarith
  refine Eq.mp (congrArg (fun x => OrTrap x _) ?_) main
  by_cases h0 : k = 0 <;> by_cases h1 : k = 1 <;> by_cases h2 : k = 2 <;> simp only [h0, h1, h2, if_true, if_false] <;> rfl

/-- The contraction, with the indices of the components. -/
theorem orTrap_contract_pairs (A B : Shell) (hA : A.WF) (hB : B.WF) (prim : ℝ → ℝ → List ℝ → Outcome (List ℝ)) (g G : ℝ → ℝ → Nat → Nat → ℝ) (e : ℝ) (he : 0 ≤ e)
    (out : List ℝ)
    (hprim : ∀ i j buf, i < A.num → j < B.num → A.cart_size * B.cart_size ≤ buf.length →
      OrTrap (prim (A.alphaAt i) (B.alphaAt j) buf) fun buf' =>
        VecQ (A.cart_size * B.cart_size) buf' (fun p v => ∀ m n, n < B.cart_size → m < A.cart_size → p = m * B.cart_size + n →
          Close e v (g (A.alphaAt i) (B.alphaAt j) m n) (G (A.alphaAt i) (B.alphaAt j) m n)) ∧
          SameBeyond (A.cart_size * B.cart_size) buf' buf)
    (hlen : A.cart_size * B.cart_size ≤ out.length) :
    OrTrap (flContract F A B prim out) fun out' =>
      (∀ m n, m < A.cart_size → n < B.cart_size → ∃ v, out'[m * B.cart_size + n]? = some v ∧ Close (e + (2 + A.num * B.num) * w) v
        (∑ i ∈ Finset.range A.num, ∑ j ∈ Finset.range B.num, A.coeffAt i * B.coeffAt j * g (A.alphaAt i) (B.alphaAt j) m n)
        (∑ i ∈ Finset.range A.num, ∑ j ∈ Finset.range B.num, |A.coeffAt i * B.coeffAt j| * G (A.alphaAt i) (B.alphaAt j) m n)) ∧
      SameBeyond (A.cart_size * B.cart_size) out' out := by
  refine (orTrap_flContract hF A B hA hB prim (fun a b p => g a b (p / B.cart_size) (p % B.cart_size)) (fun a b p => G a b (p / B.cart_size) (p % B.cart_size)) e he out ?_ hlen).mono ?_
  · intro i j buf hi hj hb
    refine (hprim i j buf hi hj hb).mono fun buf' h => ⟨fun p hp => ?_, h.2⟩
    obtain ⟨v, h1, h2⟩ := h.1 p hp
    have hN : 0 < B.cart_size := by
      rcases Nat.eq_zero_or_pos B.cart_size with h0 | h0
      · rw [h0, Nat.mul_zero] at hp; omega
      · exact h0
    exact ⟨v, h1, h2 _ _ (Nat.mod_lt _ hN) (by rw [Nat.div_lt_iff_lt_mul hN]; exact hp) (by rw [Nat.mul_comm]; exact (Nat.div_add_mod _ _).symm)⟩
  · rintro out' ⟨h1, h2⟩
    refine ⟨fun m n hm hn => ?_, h2⟩
    obtain ⟨v, e1, e2⟩ := h1 _ (rowMajor_lt hm hn)
    refine ⟨v, e1, ?_⟩
    beta_reduce at e2
    have hN : 0 < B.cart_size := by omega
    have d1 : (m * B.cart_size + n) / B.cart_size = m := by
      rw [Nat.mul_comm, Nat.mul_add_div hN, Nat.div_eq_of_lt hn, Nat.add_zero]
    have d2 : (m * B.cart_size + n) % B.cart_size = n := by
      rw [Nat.mul_comm, Nat.mul_add_mod, Nat.mod_eq_of_lt hn]
    rw [d1, d2] at e2
    exact e2

/-! ## Matrix product and potential -/

theorem orTrap_flMatMul (M N K : Nat) (A B C : List ℝ) (hA : M * K ≤ A.length) (hB : K * N ≤ B.length) (hC : M * N ≤ C.length) :
    OrTrap (flMultiplyMatrices F M N K A B C) fun C' => VecQ (M * N) C' (fun p v => ∀ i j, i < M → j < N → p = i * N + j →
        Close ((K + 2) * w) v (C.getD (i * N + j) 0 + ∑ k ∈ Finset.range K, A.getD (i * K + k) 0 * B.getD (k * N + j) 0)
          (|C.getD (i * N + j) 0| + ∑ k ∈ Finset.range K, |A.getD (i * K + k) 0 * B.getD (k * N + j) 0|)) ∧ SameBeyond (M * N) C' C := by
  have hw := hF.nonneg
  unfold flMultiplyMatrices
  set P : Nat → ℝ → Prop := fun p v => ∀ i j, i < M → j < N → p = i * N + j →
        Close ((K + 2) * w) v (C.getD (i * N + j) 0 + ∑ k ∈ Finset.range K, A.getD (i * K + k) 0 * B.getD (k * N + j) 0)
          (|C.getD (i * N + j) 0| + ∑ k ∈ Finset.range K, |A.getD (i * K + k) 0 * B.getD (k * N + j) 0|)
  refine orTrap_forRange (fun i s => VecQ (i * N) s P ∧ SameBeyond (M * N) s C ∧ ∀ p, i * N ≤ p → s[p]? = C[p]?)
    ⟨by intro p hp; omega, .refl _ _, fun _ _ => rfl⟩ ?_ (fun s h => ⟨h.1, h.2.1⟩)
  rintro i s hi ⟨h1, h2, h3⟩
  refine orTrap_forRange (fun j s => VecQ (i * N + j) s P ∧ SameBeyond (M * N) s C ∧ ∀ p, i * N + j ≤ p → s[p]? = C[p]?)
    ⟨h1, h2, h3⟩ ?_ (fun s h => by rw [Nat.succ_mul]; exact h)
  rintro j s hj ⟨h1, h2, h3⟩
  have hp : i * N + j < M * N := rowMajor_lt hi hj
  refine OrTrap.bind (P := fun v => Close ((K + 1) * w) v (∑ k ∈ Finset.range K, A.getD (i * K + k) 0 * B.getD (k * N + j) 0)
      (∑ k ∈ Finset.range K, |A.getD (i * K + k) 0 * B.getD (k * N + j) 0|)) ?_ fun sum hsum => ?_
  · unfold flMatMulSum
    refine orTrap_forRange (fun k v => Close ((k + 1) * w) v (∑ k ∈ Finset.range k, A.getD (i * K + k) 0 * B.getD (k * N + j) 0)
      (∑ k ∈ Finset.range k, |A.getD (i * K + k) 0 * B.getD (k * N + j) 0|)) ?_ ?_ (fun v h => h)
    · simp only [Finset.range_zero, Finset.sum_empty]
      exact Close.zero (by positivity)
    · intro k v hk hv
      have q1 : i * K + k < M * K := rowMajor_lt hi hk
      have q2 : k * N + j < K * N := rowMajor_lt hk hj
      rw [rd_getD (by omega), rd_getD (by omega)]
      simp only [Outcome.ok_bind]
      refine (hF.mul _ _).bind fun t ht => ?_
      refine (hF.addC hv ((ht.close le_rfl).mono (by nlinarith [mul_nonneg (Nat.cast_nonneg (α := ℝ) k) hw]))).mono fun v hv => ?_
      rw [Finset.sum_range_succ, Finset.sum_range_succ]
      refine hv.mono (le_of_eq ?_)
      push_cast
      ring
  · have hl : i * N + j < s.length := by rw [h2.1]; omega
    have ec : rd s (i * N + j) = .ok (C.getD (i * N + j) 0) := by
      rw [rd_getD hl, List.getD, List.getD, h3 _ le_rfl]
    rw [ec]
    simp only [Outcome.ok_bind]
    refine (hF.addC ((Close.refl le_rfl _).mono (by positivity)) hsum).bind fun v hv => ?_
    rw [wr_ok v hl]
    refine .ok ⟨h1.set hl ?_, h2.set hp v, fun p hp' => ?_⟩
    · intro i' j' hi' hj' e
      obtain ⟨rfl, rfl⟩ := rowMajor_inj hj hj' e
      exact hv.mono (by linarith)
    · rw [List.getElem?_set_ne (by omega)]
      exact h3 p (by omega)

theorem orTrap_flPotential (hw1 : w ≤ 1 / 4) (pot : Potential) (h1 : pot.num ≤ pot.powers.length) (h2 : pot.num ≤ pot.coeffs.length) (h3 : pot.num ≤ pot.alpha.length)
    {r Θ : ℝ} (hr : 0 < r) (hΘ : ∀ i, i < pot.num → |pot.alpha.getD i 0| * r ^ 2 ≤ Θ) (hΘ0 : 0 ≤ Θ) :
    OrTrap (flPotentialValue F pot r) fun v => Close ((2 + 3 * Θ + pot.num) * w + 2 * z) v
      (∑ i ∈ Finset.range pot.num, pot.coeffs.getD i 0 * r ^ (pot.powers.getD i 0 - 2) * Real.exp (-pot.alpha.getD i 0 * r ^ 2))
      (∑ i ∈ Finset.range pot.num, |pot.coeffs.getD i 0| * r ^ (pot.powers.getD i 0 - 2) * Real.exp (-pot.alpha.getD i 0 * r ^ 2)) := by
  have hw := hF.nonneg
  have hz := hF.nonneg'
  unfold flPotentialValue
  refine (hF.mul r r).bind fun r2 hr2 => ?_
  refine orTrap_forRange (fun k v => Close ((2 + 3 * Θ + k) * w + 2 * z) v
      (∑ i ∈ Finset.range k, pot.coeffs.getD i 0 * r ^ (pot.powers.getD i 0 - 2) * Real.exp (-pot.alpha.getD i 0 * r ^ 2))
      (∑ i ∈ Finset.range k, |pot.coeffs.getD i 0| * r ^ (pot.powers.getD i 0 - 2) * Real.exp (-pot.alpha.getD i 0 * r ^ 2))) ?_ ?_ (fun v h => h)
  · simp only [Finset.range_zero, Finset.sum_empty]
    exact Close.zero (by positivity)
  · intro k v hk hv
    have e0 : rd pot.powers k = .ok (pot.powers.getD k 0) := by
      have hl : k < pot.powers.length := by omega
      rw [rd_ok hl]
      simp [List.getD, List.getElem?_eq_getElem hl]
    rw [e0, rd_getD (by omega), rd_getD (by omega)]
    simp only [Outcome.ok_bind]
    refine (hF.pow r _ hr).bind fun p hp => ?_
    rw [Real.rpow_intCast] at hp
    refine (hF.mulN (Near.refl le_rfl (pot.coeffs.getD k 0)) hp).bind fun t ht => ?_
    refine (hF.mulN (Near.refl le_rfl (-pot.alpha.getD k 0)) hr2).bind fun x hx => ?_
    refine (hF.exp x).bind fun ex hex => ?_
    have hx' : Near (2 * w) x (-pot.alpha.getD k 0 * (r * r)) := hx.mono (by linarith)
    have hb : |-pot.alpha.getD k 0 * (r * r)| ≤ Θ := by
      rw [abs_mul, abs_neg, abs_of_nonneg (by positivity : 0 ≤ r * r), ← pow_two]
      exact hΘ k hk
    have hex := hex.trans (hx'.exp (by linarith) hb)
    refine (hF.mulN ht hex).bind fun t ht => ?_
    have e1 : Real.exp (2 * w) - 1 ≤ 3 * w := by
      have := Real.abs_exp_sub_one_sub_id_le (x := 2 * w) (by rw [abs_of_nonneg (by linarith)]; linarith)
      have := (abs_le.1 this).2
      nlinarith
    have e2 : Θ * (Real.exp (2 * w) - 1) ≤ 3 * Θ * w := by nlinarith
    rw [← pow_two] at ht
    have ht := ht.close (a := |pot.coeffs.getD k 0| * r ^ (pot.powers.getD k 0 - 2) * Real.exp (-pot.alpha.getD k 0 * r ^ 2)) (by
      rw [abs_mul, abs_mul, abs_of_pos (Real.exp_pos _), abs_of_pos (zpow_pos hr _)])
    refine (hF.addC hv (ht.mono ?_)).mono fun v hv => ?_
    · have : 0 ≤ (k : ℝ) * w := by positivity
      nlinarith
    · rw [Finset.sum_range_succ, Finset.sum_range_succ]
      refine hv.mono (le_of_eq ?_)
      push_cast
      ring

end

end Libgrpp
