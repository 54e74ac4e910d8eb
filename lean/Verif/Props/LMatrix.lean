import Verif.Lemmas.Rotation

/-! # Angular momentum matrices: C45, C76

The property is stated for `matrixOf`, which reads a row-major array, and not for the formulas of the model. -/

namespace Libgrpp

/-- The `n × n` matrix stored row by row in an array. -/
noncomputable def matrixOf (n : ℕ) (a : List ℝ) : Matrix (Fin n) (Fin n) ℝ := fun i j => a.getD (i * n + j) 0

theorem matrixOf_eq {n : ℕ} {a : List ℝ} {g : ℕ → ℕ → ℝ} (h : MatIs n n a g) : matrixOf n a = fun i j : Fin n => g i j := by
  funext i j
  unfold matrixOf
  rw [List.getD_eq_getElem?_getD, h i j i.2 j.2, Option.getD_some]

/-- **C45.** For every `L`, and for arrays of at least `(2L+1)²` elements each, the routine succeeds and leaves three antisymmetric matrices
`x`, `y`, `z` with `xy - yx = z` and its cyclic images and `x² + y² + z² = -L(L+1)`: `ix`, `iy`, `iz` obey the algebra of angular momentum, for
quantum number `L`. Elements of the arrays beyond the first `(2L+1)²` are left alone. -/
theorem angular_momentum_algebra (L : ℕ) (M : LMat) (hx : (2 * L + 1) * (2 * L + 1) ≤ M.x.length)
    (hy : (2 * L + 1) * (2 * L + 1) ≤ M.y.length) (hz : (2 * L + 1) * (2 * L + 1) ≤ M.z.length) :
    ∃ M', lmatRsh L M = .ok M' ∧
      (let x := matrixOf (2 * L + 1) M'.x
       let y := matrixOf (2 * L + 1) M'.y
       let z := matrixOf (2 * L + 1) M'.z
       (x.transpose = -x ∧ y.transpose = -y ∧ z.transpose = -z) ∧
       (x * y - y * x = z ∧ y * z - z * y = x ∧ z * x - x * z = y) ∧
       x * x + y * y + z * z = -(((L : ℝ) * (L + 1)) • (1 : Matrix (Fin (2 * L + 1)) (Fin (2 * L + 1)) ℝ))) ∧
      (SameBeyond ((2 * L + 1) * (2 * L + 1)) M'.x M.x ∧ SameBeyond ((2 * L + 1) * (2 * L + 1)) M'.y M.y ∧
        SameBeyond ((2 * L + 1) * (2 * L + 1)) M'.z M.z) := by
  obtain ⟨M', h1, ⟨h2, h3, h4⟩, h5⟩ := lmatRsh_spec L M hx hy hz
  refine ⟨M', h1, ?_, h5⟩
  rw [matrixOf_eq h2, matrixOf_eq h3, matrixOf_eq h4]
  obtain ⟨e1, e2, e3, e4⟩ := rsh_algebra L
  exact ⟨rsh_antisymm L, ⟨e1, e2, e3⟩, e4⟩

/-- **C45.** The routine writes outside an array which is shorter than `(2L+1)²`. -/
theorem angular_momentum_short (L : ℕ) (M : LMat) (hx : M.x.length < (2 * L + 1) * (2 * L + 1)) : lmatRsh L M = .ub := by
  unfold lmatRsh lmatZero
  simp only []
  rw [memset0_ub _ _ hx]
  rfl

/-- Arrays longer than needed, for `L = 2`. -/
example : (2 * 2 + 1) * (2 * 2 + 1) ≤ (⟨List.replicate 25 7, List.replicate 26 1, List.replicate 27 0⟩ : LMat).x.length := by
  rw [List.length_replicate]

/-- For `L = 1` the element of `x` in the row of `m = 0` and the column of `m = -1` is `1`. -/
example (M : LMat) (hx : 9 ≤ M.x.length) (hy : 9 ≤ M.y.length) (hz : 9 ≤ M.z.length) : ∃ M', lmatRsh 1 M = .ok M' ∧ matrixOf 3 M'.x 1 0 = 1 := by
  obtain ⟨M', h1, ⟨h2, -, -⟩, -⟩ := lmatRsh_spec 1 M hx hy hz
  refine ⟨M', h1, ?_⟩
  rw [matrixOf_eq (n := 3) h2]
  have h : (Real.sqrt 2 : ℝ) ≠ 0 := by positivity
  have e1 : mOf 1 ((1 : Fin 3) : ℕ) = 0 := rfl
  have e2 : mOf 1 ((0 : Fin 3) : ℕ) = -1 := rfl
  beta_reduce
  rw [e1, e2]
  have c1 : cX 1 0 (-1) = Real.sqrt 2 / 2 := by
    unfold cX cshLp cshLm
    norm_num
    ring
  have c2 : cX 1 0 1 = Real.sqrt 2 / 2 := by
    unfold cX cshLp cshLm
    norm_num
    ring
  have c3 : (starRingEnd ℂ) (0.5 : ℂ) = 0.5 := by rw [show (0.5 : ℂ) = ((0.5 : ℝ) : ℂ) by norm_num, Complex.conj_ofReal]
  have h' : ((Real.sqrt 2 : ℝ) : ℂ) ≠ 0 := by exact_mod_cast h
  have : rEl (cX 1) 0 (-1) = Complex.I := by
    unfold rEl cshToRsh
    simp only [Int.natAbs_zero, Int.reduceNeg, Int.natAbs_neg, Int.natAbs_one, Nat.cast_zero, neg_zero, Nat.cast_one, c1, c2, if_pos]
    norm_num [c3]
    field_simp
    rw [Complex.conj_ofNat]
    norm_num
  rw [this]
  simp

/-- **C76.** The three matrices are those of the angular momentum operators in the basis of the real spherical harmonics which the angular
integrals use. Turning the argument of a harmonic about the `x` axis changes it at the rate `-Σ_m' x_{m'm} S_{Lm'}`, and likewise for the `y` axis
with `y` and the `z` axis with `z`: the rate of change is `(ω × ∇) S`, so that `-i (ω × ∇) S_m = Σ_m' (i x)_{m'm} S_m'`. This holds for all `L`,
all `m`, all points of the unit sphere and at all angles. -/
theorem angular_momentum_generates (L : ℕ) (M : LMat) (hx : (2 * L + 1) * (2 * L + 1) ≤ M.x.length)
    (hy : (2 * L + 1) * (2 * L + 1) ≤ M.y.length) (hz : (2 * L + 1) * (2 * L + 1) ≤ M.z.length) :
    ∃ M', lmatRsh L M = .ok M' ∧ ∀ (ω : Point), ∑ k, ω k ^ 2 = 1 → ∀ (t : ℝ) (j : Fin (2 * L + 1)),
      HasDerivAt (fun s => rsh L ((j : ℤ) - L) (turn 0 s ω))
        (-∑ k : Fin (2 * L + 1), matrixOf (2 * L + 1) M'.x k j * rsh L ((k : ℤ) - L) (turn 0 t ω)) t ∧
      HasDerivAt (fun s => rsh L ((j : ℤ) - L) (turn 1 s ω))
        (-∑ k : Fin (2 * L + 1), matrixOf (2 * L + 1) M'.y k j * rsh L ((k : ℤ) - L) (turn 1 t ω)) t ∧
      HasDerivAt (fun s => rsh L ((j : ℤ) - L) (turn 2 s ω))
        (-∑ k : Fin (2 * L + 1), matrixOf (2 * L + 1) M'.z k j * rsh L ((k : ℤ) - L) (turn 2 t ω)) t := by
  obtain ⟨M', h1, ⟨h2, h3, h4⟩, h5⟩ := lmatRsh_spec L M hx hy hz
  refine ⟨M', h1, fun ω hω t j => ?_⟩
  rw [matrixOf_eq h2, matrixOf_eq h3, matrixOf_eq h4]
  exact ⟨rsh_turn_x L ω hω t j, rsh_turn_y L ω hω t j, rsh_turn_z L ω t j⟩

/-- A point of the unit sphere which is on no axis. -/
example : ∑ k, (![1 / 3, 2 / 3, 2 / 3] : Point) k ^ 2 = 1 := by
  simp [Fin.sum_univ_three]
  norm_num

end Libgrpp
