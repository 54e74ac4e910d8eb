import Verif.Lemmas.OuterCoreMain

/-! Helper lemmas for the outer-core integrals: symmetry, and the projectors on total angular momentum. -/

namespace Libgrpp

open scoped Kronecker

theorem rotationMatrix_mat (L : ℕ) : (fun i j : Fin (2 * L + 1) => rotationMatrix L 0 i j) = rX L ∧
    (fun i j : Fin (2 * L + 1) => rotationMatrix L 1 i j) = rY L ∧ (fun i j : Fin (2 * L + 1) => rotationMatrix L 2 i j) = rZ L :=
  ⟨funext fun i => funext fun j => (lEntry_eq L 0 i.2 j.2).symm, funext fun i => funext fun j => (lEntry_eq L 1 i.2 j.2).symm,
    funext fun i => funext fun j => (lEntry_eq L 2 i.2 j.2).symm⟩

theorem rotationMatrix_antisymm (L : ℕ) (c : Fin 3) {i j : ℕ} (hi : i < 2 * L + 1) (hj : j < 2 * L + 1) :
    rotationMatrix L c j i = -rotationMatrix L c i j := by
  obtain ⟨h1, h2, h3⟩ := rotationMatrix_mat L
  obtain ⟨a1, a2, a3⟩ := rsh_antisymm L
  match c with
  | 0 => rw [← h1] at a1; exact congrFun (congrFun a1 ⟨i, hi⟩) ⟨j, hj⟩
  | 1 => rw [← h2] at a2; exact congrFun (congrFun a2 ⟨i, hi⟩) ⟨j, hj⟩
  | 2 => rw [← h3] at a3; exact congrFun (congrFun a3 ⟨i, hi⟩) ⟨j, hj⟩

/-- `1` for the scalar part, `-1` for the spin-orbit parts. -/
def ocSign (q : Fin 4) : ℝ := if q = 0 then 1 else -1

theorem sandwich_swap (L : ℕ) (q : Fin 4) (a b : ℕ → ℝ) :
    sandwich (2 * L + 1) (ocMatrix L q) b a = ocSign q * sandwich (2 * L + 1) (ocMatrix L q) a b := by
  unfold sandwich
  rw [Finset.sum_comm, Finset.mul_sum]
  refine Finset.sum_congr rfl fun i hi => ?_
  rw [Finset.mul_sum]
  refine Finset.sum_congr rfl fun j hj => ?_
  rw [Finset.mem_range] at hi hj
  have : ocMatrix L q j i = ocSign q * ocMatrix L q i j := by
    unfold ocSign
    refine Fin.cases ?_ (fun c => ?_) q
    · rw [if_pos rfl, one_mul]
      show projector j i = projector i j
      unfold projector
      simp only [eq_comm]
    · rw [if_neg (Fin.succ_ne_zero c)]
      show rotationMatrix L c j i = -1 * rotationMatrix L c i j
      rw [rotationMatrix_antisymm L c hi hj]; ring
  rw [this]; ring

theorem ocOne_swap (A B A' B' : Shell) (C : Point) (p : Potential) (s s' : Shell) (q : Fin 4) (i j : ℕ) :
    ocOne B A B' A' C p s s' q j i = ocSign q * ocOne A B A' B' C p s s' q i j := by
  unfold ocOne
  rw [sandwich_swap s.L q (ocOverlap A C s i), sandwich_swap s.L q (ocPotential A' C p s' i)]
  ring

theorem ocDelta_swap (p1 : Potential) (s1 : Shell) (p2 : Potential) (s2 : Shell) : ocDelta p2 s2 p1 s1 = ocDelta p1 s1 p2 s2 := by
  unfold ocDelta
  congr 1
  funext r
  ring

theorem ocTwo_swap (A B : Shell) (C : Point) (p1 : Potential) (s1 : Shell) (p2 : Potential) (s2 : Shell) (h1 : p1.L = s1.L) (h2 : p2.L = s2.L)
    (q : Fin 4) (i j : ℕ) : ocTwo B A C p2 s2 p1 s1 q j i = ocSign q * ocTwo A B C p1 s1 p2 s2 q i j := by
  unfold ocTwo
  by_cases h : p1.L = p2.L ∧ p1.J = p2.J
  · rw [if_pos h, if_pos ⟨h.1.symm, h.2.symm⟩, ocDelta_swap, ← h.2, show s2.L = s1.L by have := h.1; omega, sandwich_swap]
    ring
  · rw [if_neg h, if_neg (fun h' => h ⟨h'.1.symm, h'.2.symm⟩), mul_zero]

/-- `x = (Σ a_c b_c)/2` with `a` an angular momentum and `b` Pauli matrices. -/
theorem ls_sq {R : Type*} [Ring R] [Algebra ℂ R] {a b : Fin 3 → R} (hab : ∀ c d, b d * a c = a c * b d)
    (a01 : a 0 * a 1 - a 1 * a 0 = Complex.I • a 2) (a12 : a 1 * a 2 - a 2 * a 1 = Complex.I • a 0) (a20 : a 2 * a 0 - a 0 * a 2 = Complex.I • a 1)
    {l : ℂ} (ha : a 0 * a 0 + a 1 * a 1 + a 2 * a 2 = l • 1) (hb : ∀ c, b c * b c = 1)
    (b01 : b 0 * b 1 = Complex.I • b 2) (b10 : b 1 * b 0 = -(Complex.I • b 2)) (b12 : b 1 * b 2 = Complex.I • b 0) (b21 : b 2 * b 1 = -(Complex.I • b 0))
    (b20 : b 2 * b 0 = Complex.I • b 1) (b02 : b 0 * b 2 = -(Complex.I • b 1)) :
    (a 0 * b 0 + a 1 * b 1 + a 2 * b 2) * (a 0 * b 0 + a 1 * b 1 + a 2 * b 2) = l • 1 - (a 0 * b 0 + a 1 * b 1 + a 2 * b 2) := by
  have e : ∀ c d, a c * b c * (a d * b d) = a c * a d * (b c * b d) := by
    intro c d
    rw [mul_assoc, ← mul_assoc (b c), hab d c, mul_assoc (a d), ← mul_assoc]
  simp only [mul_add, add_mul, e, hb, b01, b10, b12, b21, b20, b02, mul_one, mul_neg, mul_smul_comm]
  have z : ∀ (x y w : R), x - y = Complex.I • w → ∀ v, Complex.I • (x * v) + -(Complex.I • (y * v)) = -(w * v) := by
    intro x y w h v
    rw [← sub_eq_add_neg, ← smul_sub, ← sub_mul, h, smul_mul_assoc, smul_smul, Complex.I_mul_I, neg_one_smul]
  have z1 := z _ _ _ a01 (b 2)
  have z2 := z _ _ _ a12 (b 0)
  have z3 := z _ _ _ a20 (b 1)
  calc _ = (a 0 * a 0 + a 1 * a 1 + a 2 * a 2) + (Complex.I • (a 0 * a 1 * b 2) + -(Complex.I • (a 1 * a 0 * b 2)))
      + (Complex.I • (a 1 * a 2 * b 0) + -(Complex.I • (a 2 * a 1 * b 0))) + (Complex.I • (a 2 * a 0 * b 1) + -(Complex.I • (a 0 * a 2 * b 1))) := by abel
    _ = _ := by rw [z1, z2, z3, ha]; abel

theorem orbitalL_eq (L : ℕ) : orbitalL L 0 = Complex.I • (rX L).map Complex.ofReal ∧ orbitalL L 1 = Complex.I • (rY L).map Complex.ofReal ∧
    orbitalL L 2 = Complex.I • (rZ L).map Complex.ofReal := by
  obtain ⟨h1, h2, h3⟩ := rotationMatrix_mat L
  rw [← h1, ← h2, ← h3]
  exact ⟨rfl, rfl, rfl⟩

theorem orbitalL_algebra (L : ℕ) :
    orbitalL L 0 * orbitalL L 1 - orbitalL L 1 * orbitalL L 0 = Complex.I • orbitalL L 2 ∧
    orbitalL L 1 * orbitalL L 2 - orbitalL L 2 * orbitalL L 1 = Complex.I • orbitalL L 0 ∧
    orbitalL L 2 * orbitalL L 0 - orbitalL L 0 * orbitalL L 2 = Complex.I • orbitalL L 1 ∧
    orbitalL L 0 * orbitalL L 0 + orbitalL L 1 * orbitalL L 1 + orbitalL L 2 * orbitalL L 2 = ((L : ℂ) * (L + 1)) • 1 := by
  obtain ⟨h1, h2, h3⟩ := orbitalL_eq L
  obtain ⟨e1, e2, e3, e4⟩ := rsh_algebra L
  have m : ∀ (x y : Matrix (Fin (2 * L + 1)) (Fin (2 * L + 1)) ℝ), Complex.I • x.map Complex.ofReal * Complex.I • y.map Complex.ofReal =
      -((x * y).map Complex.ofReal) := by
    intro x y
    rw [Matrix.smul_mul, Matrix.mul_smul, smul_smul, Complex.I_mul_I, neg_one_smul, map_mul']
  have sub : ∀ (x y z : Matrix (Fin (2 * L + 1)) (Fin (2 * L + 1)) ℝ), x * y - y * x = z →
      -((x * y).map Complex.ofReal) - -((y * x).map Complex.ofReal) = Complex.I • Complex.I • z.map Complex.ofReal := by
    intro x y z h
    rw [smul_smul, Complex.I_mul_I, neg_one_smul, ← h, Matrix.map_sub _ Complex.ofReal_sub]
    abel
  rw [h1, h2, h3, m, m, m, m, m, m, m, m, m]
  refine ⟨sub _ _ _ e1, sub _ _ _ e2, sub _ _ _ e3, ?_⟩
  rw [← neg_add, ← neg_add, ← Matrix.map_add _ Complex.ofReal_add, ← Matrix.map_add _ Complex.ofReal_add, e4]
  ext i j
  by_cases h : i = j <;> simp [h, Matrix.one_apply]

theorem orbitalL_herm (L : ℕ) (c : Fin 3) : (orbitalL L c).conjTranspose = orbitalL L c := by
  ext i j
  rw [Matrix.conjTranspose_apply]
  unfold orbitalL
  rw [rotationMatrix_antisymm L c i.2 j.2]
  simp

theorem pauli_herm (c : Fin 3) : (pauli c).conjTranspose = pauli c := by
  ext i j
  fin_cases c <;> fin_cases i <;> fin_cases j <;> simp [pauli, Matrix.conjTranspose_apply]

theorem pauli_algebra : (∀ c, pauli c * pauli c = 1) ∧ pauli 0 * pauli 1 = Complex.I • pauli 2 ∧ pauli 1 * pauli 0 = -(Complex.I • pauli 2) ∧
    pauli 1 * pauli 2 = Complex.I • pauli 0 ∧ pauli 2 * pauli 1 = -(Complex.I • pauli 0) ∧ pauli 2 * pauli 0 = Complex.I • pauli 1 ∧
    pauli 0 * pauli 2 = -(Complex.I • pauli 1) := by
  refine ⟨fun c => ?_, ?_, ?_, ?_, ?_, ?_, ?_⟩
  · ext i j
    fin_cases c <;> fin_cases i <;> fin_cases j <;> simp [pauli]
  all_goals
    ext i j
    fin_cases i <;> fin_cases j <;> simp [pauli]

theorem sub_kron {m n : Type*} (A B : Matrix m m ℂ) (D : Matrix n n ℂ) : (A - B) ⊗ₖ D = A ⊗ₖ D - B ⊗ₖ D := by
  ext i j
  simp [Matrix.kronecker_apply, sub_mul]

theorem kron_neg {m n : Type*} (A : Matrix m m ℂ) (D : Matrix n n ℂ) : A ⊗ₖ (-D) = -(A ⊗ₖ D) := by
  ext i j
  simp [Matrix.kronecker_apply]

/-- Twice `l·s`. -/
noncomputable def ls2 (L : ℕ) : Matrix (Fin (2 * L + 1) × Fin 2) (Fin (2 * L + 1) × Fin 2) ℂ :=
  (orbitalL L 0 ⊗ₖ 1) * (1 ⊗ₖ pauli 0) + (orbitalL L 1 ⊗ₖ 1) * (1 ⊗ₖ pauli 1) + (orbitalL L 2 ⊗ₖ 1) * (1 ⊗ₖ pauli 2)

theorem ls2_sq (L : ℕ) : ls2 L * ls2 L = ((L : ℂ) * (L + 1)) • 1 - ls2 L := by
  obtain ⟨l1, l2, l3, l4⟩ := orbitalL_algebra L
  obtain ⟨p0, p1, p2, p3, p4, p5, p6⟩ := pauli_algebra
  refine ls_sq (a := fun c => orbitalL L c ⊗ₖ 1) (b := fun c => 1 ⊗ₖ pauli c) (fun c d => ?_) ?_ ?_ ?_ ?_ (fun c => ?_) ?_ ?_ ?_ ?_ ?_ ?_
  · rw [← Matrix.mul_kronecker_mul, ← Matrix.mul_kronecker_mul, one_mul, mul_one, one_mul, mul_one]
  · rw [← Matrix.mul_kronecker_mul, ← Matrix.mul_kronecker_mul, one_mul, ← sub_kron, l1, Matrix.smul_kronecker]
  · rw [← Matrix.mul_kronecker_mul, ← Matrix.mul_kronecker_mul, one_mul, ← sub_kron, l2, Matrix.smul_kronecker]
  · rw [← Matrix.mul_kronecker_mul, ← Matrix.mul_kronecker_mul, one_mul, ← sub_kron, l3, Matrix.smul_kronecker]
  · rw [← Matrix.mul_kronecker_mul, ← Matrix.mul_kronecker_mul, ← Matrix.mul_kronecker_mul, one_mul, ← Matrix.add_kronecker, ← Matrix.add_kronecker, l4,
      Matrix.smul_kronecker, Matrix.one_kronecker_one]
  · rw [← Matrix.mul_kronecker_mul, one_mul, p0, Matrix.one_kronecker_one]
  · rw [← Matrix.mul_kronecker_mul, one_mul, p1, Matrix.kronecker_smul]
  · rw [← Matrix.mul_kronecker_mul, one_mul, p2, kron_neg, Matrix.kronecker_smul]
  · rw [← Matrix.mul_kronecker_mul, one_mul, p3, Matrix.kronecker_smul]
  · rw [← Matrix.mul_kronecker_mul, one_mul, p4, kron_neg, Matrix.kronecker_smul]
  · rw [← Matrix.mul_kronecker_mul, one_mul, p5, Matrix.kronecker_smul]
  · rw [← Matrix.mul_kronecker_mul, one_mul, p6, kron_neg, Matrix.kronecker_smul]

theorem ls2_herm (L : ℕ) : (ls2 L).conjTranspose = ls2 L := by
  unfold ls2
  simp only [← Matrix.mul_kronecker_mul, one_mul, mul_one, Matrix.conjTranspose_add, Matrix.conjTranspose_kronecker, orbitalL_herm, pauli_herm]

theorem spinorProjector_eq (L : ℕ) (J2 : ℤ) :
    spinorProjector L J2 = (spinorWeight L J2 0 : ℂ) • 1 + ((spinorWeight L J2 1 : ℂ) / 2) • ls2 L := by
  have e : ∀ c : Fin 3, spinorWeight L J2 c.succ = spinorWeight L J2 1 := by
    intro c
    unfold spinorWeight
    rw [if_neg (Fin.succ_ne_zero c), if_neg (by decide)]
  unfold spinorProjector ls2
  simp only [e, Fin.sum_univ_three, Matrix.kronecker_smul, ← Matrix.mul_kronecker_mul, one_mul, mul_one]
  module

theorem totalJ_sq (L : ℕ) : totalJ L 0 * totalJ L 0 + totalJ L 1 * totalJ L 1 + totalJ L 2 * totalJ L 2 =
    ((L : ℂ) * (L + 1) + 3 / 4) • 1 + ls2 L := by
  obtain ⟨-, -, -, l4⟩ := orbitalL_algebra L
  obtain ⟨p0, -⟩ := pauli_algebra
  have e : ∀ c, totalJ L c * totalJ L c = (orbitalL L c * orbitalL L c) ⊗ₖ 1 + (1 / 4 : ℂ) • 1 + orbitalL L c ⊗ₖ pauli c := by
    intro c
    unfold totalJ
    rw [add_mul, mul_add, mul_add, ← Matrix.mul_kronecker_mul, ← Matrix.mul_kronecker_mul, ← Matrix.mul_kronecker_mul, ← Matrix.mul_kronecker_mul]
    simp only [one_mul, mul_one, Matrix.smul_mul, Matrix.mul_smul, p0, Matrix.kronecker_smul, Matrix.one_kronecker_one]
    module
  rw [e, e, e]
  have h : (orbitalL L 0 * orbitalL L 0) ⊗ₖ (1 : Matrix (Fin 2) (Fin 2) ℂ) + (orbitalL L 1 * orbitalL L 1) ⊗ₖ 1 + (orbitalL L 2 * orbitalL L 2) ⊗ₖ 1 =
      ((L : ℂ) * (L + 1)) • 1 := by
    rw [← Matrix.add_kronecker, ← Matrix.add_kronecker, l4, Matrix.smul_kronecker, Matrix.one_kronecker_one]
  have h' : ls2 L = orbitalL L 0 ⊗ₖ pauli 0 + orbitalL L 1 ⊗ₖ pauli 1 + orbitalL L 2 ⊗ₖ pauli 2 := by
    unfold ls2
    simp only [← Matrix.mul_kronecker_mul, one_mul, mul_one]
  rw [h', add_smul, ← h]
  module

theorem spinorWeight_vals (L : ℕ) :
    ((spinorWeight L (2 * L - 1) 0 : ℂ) = L / (2 * L + 1) ∧ (spinorWeight L (2 * L - 1) 1 : ℂ) = -2 / (2 * L + 1)) ∧
    ((spinorWeight L (2 * L + 1) 0 : ℂ) = (L + 1) / (2 * L + 1) ∧ (spinorWeight L (2 * L + 1) 1 : ℂ) = 2 / (2 * L + 1)) := by
  have hp : (2 * (L:ℂ) + 1) ≠ 0 := by exact_mod_cast (by omega : 2 * L + 1 ≠ 0)
  unfold spinorWeight
  rw [if_pos rfl, if_neg (by decide), if_pos rfl, if_neg (by decide)]
  refine ⟨⟨?_, ?_⟩, ?_, ?_⟩ <;> push_cast <;> field_simp <;> ring

theorem spinorProjector_algebra (L : ℕ) {J2 : ℤ} (h : J2 = 2 * L - 1 ∨ J2 = 2 * L + 1) :
    (spinorProjector L J2).conjTranspose = spinorProjector L J2 ∧ spinorProjector L J2 * spinorProjector L J2 = spinorProjector L J2 ∧
    (totalJ L 0 * totalJ L 0 + totalJ L 1 * totalJ L 1 + totalJ L 2 * totalJ L 2) * spinorProjector L J2 =
      ((J2 : ℂ) / 2 * (J2 / 2 + 1)) • spinorProjector L J2 := by
  have hp : (2 * (L:ℂ) + 1) ≠ 0 := by exact_mod_cast (by omega : 2 * L + 1 ≠ 0)
  obtain ⟨⟨a1, a2⟩, b1, b2⟩ := spinorWeight_vals L
  rw [totalJ_sq, spinorProjector_eq]
  refine ⟨?_, ?_, ?_⟩
  · simp [Matrix.conjTranspose_add, Matrix.conjTranspose_smul, ls2_herm]
  · simp only [add_mul, mul_add, Matrix.smul_mul, Matrix.mul_smul, one_mul, mul_one, ls2_sq]
    have hu : (2 * (L:ℂ) + 1) * (2 * (L:ℂ) + 1)⁻¹ = 1 := mul_inv_cancel₀ hp
    rcases h with h | h <;> subst h
    · rw [a1, a2, div_eq_mul_inv, div_eq_mul_inv (-2 : ℂ)]
      generalize (2 * (L:ℂ) + 1)⁻¹ = u at hu
      match_scalars
      · linear_combination (L * u) * hu
      · linear_combination (-u) * hu
    · rw [b1, b2, div_eq_mul_inv, div_eq_mul_inv (2 : ℂ)]
      generalize (2 * (L:ℂ) + 1)⁻¹ = u at hu
      match_scalars
      · linear_combination ((L + 1) * u) * hu
      · linear_combination u * hu
  · simp only [add_mul, mul_add, Matrix.smul_mul, Matrix.mul_smul, one_mul, mul_one, ls2_sq]
    rcases h with h | h <;> subst h
    · rw [a1, a2]
      push_cast
      match_scalars <;> field_simp <;> ring
    · rw [b1, b2]
      push_cast
      match_scalars <;> field_simp <;> ring

theorem spinorProjector_add (L : ℕ) : spinorProjector L (2 * L - 1) + spinorProjector L (2 * L + 1) = 1 := by
  have hp : (2 * (L:ℂ) + 1) ≠ 0 := by exact_mod_cast (by omega : 2 * L + 1 ≠ 0)
  obtain ⟨⟨a1, a2⟩, b1, b2⟩ := spinorWeight_vals L
  have hu : (2 * (L:ℂ) + 1) * (2 * (L:ℂ) + 1)⁻¹ = 1 := mul_inv_cancel₀ hp
  rw [spinorProjector_eq, spinorProjector_eq, a1, a2, b1, b2]
  simp only [div_eq_mul_inv _ (2 * (L:ℂ) + 1)]
  generalize (2 * (L:ℂ) + 1)⁻¹ = u at hu
  match_scalars
  · linear_combination hu
  · ring

theorem withSpin_sandwich (L : ℕ) (J2 : ℤ) (a b : ℕ → ℝ) (σ τ : Fin 2) :
    withSpin (fun q => spinorWeight L J2 q * sandwich (2 * L + 1) (ocMatrix L q) a b) σ τ = spinSandwich L J2 a b σ τ := by
  have key : ∀ (q : Fin 4), ((sandwich (2 * L + 1) (ocMatrix L q) a b : ℝ) : ℂ) =
      ∑ k : Fin (2 * L + 1), ∑ l : Fin (2 * L + 1), (ocMatrix L q k l : ℂ) * (a k * b l) := by
    intro q
    unfold sandwich
    rw [Finset.sum_range]
    push_cast
    refine Finset.sum_congr rfl fun k _ => ?_
    rw [Finset.sum_range]
  unfold withSpin spinSandwich spinorProjector
  push_cast
  simp only [key]
  simp only [Matrix.add_apply, Matrix.sum_apply, Matrix.smul_apply, Matrix.kronecker_apply, smul_eq_mul, orbitalL, Fin.sum_univ_three, Matrix.one_apply,
    Prod.mk.injEq]
  have o0 : ∀ k l : ℕ, ocMatrix L 0 k l = projector k l := fun _ _ => rfl
  have oc : ∀ (c : Fin 3) (k l : ℕ), ocMatrix L c.succ k l = rotationMatrix L c k l := fun _ _ _ => rfl
  simp only [o0, oc, projector]
  by_cases h : σ = τ
  · simp only [h, if_true, and_true, Finset.mul_sum, Finset.sum_mul, ← Finset.sum_add_distrib]
    refine Finset.sum_congr rfl fun k _ => Finset.sum_congr rfl fun l _ => ?_
    by_cases e : k = l
    · subst e; simp; ring
    · have e' : (k : ℕ) ≠ l := fun h => e (Fin.ext h)
      simp [e, e']; ring
  · simp only [h, if_false, and_false, Finset.mul_sum, Finset.sum_mul, ← Finset.sum_add_distrib, zero_add, mul_zero]
    refine Finset.sum_congr rfl fun k _ => Finset.sum_congr rfl fun l _ => ?_
    ring

end Libgrpp
