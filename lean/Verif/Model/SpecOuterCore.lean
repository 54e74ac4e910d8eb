import Verif.Model.SpecSemilocal
import Verif.Model.SpecRotation
import Mathlib.LinearAlgebra.Matrix.Kronecker
import Mathlib.LinearAlgebra.Matrix.ConjTranspose

/-! # Specification: matrix elements of the non-local outer-core operators

Outer-core pseudospinors `|nljm⟩` are a contracted radial Gaussian times a real spherical harmonic; the operators are
`Σ_nlj (U_nlj P_nlj + P_nlj U_nlj) - Σ_nn'lj P_nlj (U_nlj + U_n'lj)/2 P_n'lj` with `P_nlj = |nlj⟩⟨nlj|` (README, "generalized pseudopotentials").
Nothing here refers to how the library computes anything. -/

namespace Libgrpp

open MeasureTheory Set

/-- `Σ_k Σ_l W_kl a_k b_l` -/
noncomputable def sandwich (d : ℕ) (W : ℕ → ℕ → ℝ) (a b : ℕ → ℝ) : ℝ :=
  ∑ k ∈ Finset.range d, ∑ l ∈ Finset.range d, W k l * (a k * b l)

/-- The constant which normalises `r^L exp(-α r²)` with respect to `r² dr`. -/
noncomputable def radialNorm (L : ℕ) (α : ℝ) : ℝ := (Real.sqrt (∫ r in Ioi (0:ℝ), r ^ 2 * (r ^ L * Real.exp (-α * r ^ 2)) ^ 2))⁻¹

/-- The radial part of an outer-core shell: a contraction of normalised radial Gaussians. -/
noncomputable def ocRadial (s : Shell) (r : ℝ) : ℝ :=
  ∑ i ∈ Finset.range s.num, s.coeffs.getD i 0 * (radialNorm s.L (s.alpha.getD i 0) * (r ^ s.L * Real.exp (-s.alpha.getD i 0 * r ^ 2)))

/-- The component of an outer-core shell centred at `C` with index `mi = 0, …, 2L` for `m = -L, …, L`. -/
noncomputable def ocFn (s : Shell) (C : Point) (mi : ℕ) (x : Point) : ℝ :=
  ocRadial s (radius C x) * rsh s.L ((mi : ℤ) - s.L) fun k => (x k - C k) / radius C x

/-- The overlap of the `m`-th function of `A` with a component of an outer-core shell. -/
noncomputable def ocOverlap (A : Shell) (C : Point) (s : Shell) (m mi : ℕ) : ℝ := ∫ x, basisFn A m x * ocFn s C mi x

/-- The matrix element of the potential between the `m`-th function of `A` and a component of an outer-core shell. -/
noncomputable def ocPotential (A : Shell) (C : Point) (p : Potential) (s : Shell) (m mi : ℕ) : ℝ :=
  ∫ x, basisFn A m x * potentialFn p C x * ocFn s C mi x

/-- The matrix element of the mean of the two potentials between the radial parts of two shells. -/
noncomputable def ocDelta (p1 : Potential) (s1 : Shell) (p2 : Potential) (s2 : Shell) : ℝ :=
  ∫ r in Ioi (0:ℝ), r ^ 2 * (ocRadial s1 r * ((potentialRadial p1 r + potentialRadial p2 r) / 2) * ocRadial s2 r)

/-- The rate of change of the real harmonics under rotation about an axis, with the opposite sign, between real harmonics with
`m = -L, …, L`: `i` times this is the matrix of the component `c` of angular momentum. -/
noncomputable def rotationMatrix (L : ℕ) (c : Fin 3) (i j : ℕ) : ℝ :=
  -sphInt fun ω => rsh L ((i : ℤ) - L) ω * deriv (fun t => rsh L ((j : ℤ) - L) (turn c t ω)) 0

/-- The matrix between the components of two shells: the unit matrix for the scalar part, rotation matrices for the spin-orbit parts. -/
noncomputable def ocMatrix (L : ℕ) (q : Fin 4) (i j : ℕ) : ℝ := Fin.cases (projector i j) (fun c => rotationMatrix L c i j) q

/-- The projector on `j = L ± 1/2` is `w + s l·s` with these `w` (for `q = 0`) and `s` (for `q = 1, 2, 3`); `J2 = 2j`. -/
noncomputable def spinorWeight (L : ℕ) (J2 : ℤ) (q : Fin 4) : ℝ :=
  if q = 0 then ((J2 : ℝ) + 1) / (2 * (2 * L + 1)) else ((J2 : ℝ) - 2 * L) * 2 / (2 * L + 1)

/-- The contribution of one shell: `U P + P U`. The potential is taken between the functions of `A'` and `s'`, or `B'` and `s'`. -/
noncomputable def ocOne (A B A' B' : Shell) (C : Point) (p : Potential) (s s' : Shell) (q : Fin 4) (i j : ℕ) : ℝ :=
  spinorWeight s.L p.J q * (sandwich (2 * s.L + 1) (ocMatrix s.L q) (ocPotential A' C p s' i) (ocOverlap B C s j) +
    sandwich (2 * s.L + 1) (ocMatrix s.L q) (ocOverlap A C s i) (ocPotential B' C p s' j))

/-- The contribution of two shells with equal `L` and `J`: `P (U + U')/2 P'`. -/
noncomputable def ocTwo (A B : Shell) (C : Point) (p1 : Potential) (s1 : Shell) (p2 : Potential) (s2 : Shell) (q : Fin 4) (i j : ℕ) : ℝ :=
  if p1.L = p2.L ∧ p1.J = p2.J then
    ocDelta p1 s1 p2 s2 * spinorWeight s1.L p1.J q * sandwich (2 * s1.L + 1) (ocMatrix s1.L q) (ocOverlap A C s1 i) (ocOverlap B C s2 j)
  else 0

/-- Pauli matrices. -/
noncomputable def pauli (c : Fin 3) : Matrix (Fin 2) (Fin 2) ℂ :=
  match c with
  | 0 => !![0, 1; 1, 0]
  | 1 => !![0, -Complex.I; Complex.I, 0]
  | 2 => !![1, 0; 0, -1]

/-- The matrices of orbital angular momentum between real harmonics with `m = -L, …, L`. -/
noncomputable def orbitalL (L : ℕ) (c : Fin 3) : Matrix (Fin (2 * L + 1)) (Fin (2 * L + 1)) ℂ := fun i j => Complex.I * rotationMatrix L c i j

open scoped Kronecker in
/-- Total angular momentum: `l + σ/2`. -/
noncomputable def totalJ (L : ℕ) (c : Fin 3) : Matrix (Fin (2 * L + 1) × Fin 2) (Fin (2 * L + 1) × Fin 2) ℂ :=
  orbitalL L c ⊗ₖ 1 + 1 ⊗ₖ ((1 / 2 : ℂ) • pauli c)

open scoped Kronecker in
/-- `w + s l·σ/2`, with the weights of the scalar and spin-orbit parts. -/
noncomputable def spinorProjector (L : ℕ) (J2 : ℤ) : Matrix (Fin (2 * L + 1) × Fin 2) (Fin (2 * L + 1) × Fin 2) ℂ :=
  (spinorWeight L J2 0 : ℂ) • 1 + ∑ c : Fin 3, (spinorWeight L J2 c.succ : ℂ) • (orbitalL L c ⊗ₖ ((1 / 2 : ℂ) • pauli c))

/-- A matrix element, with spins `σ` and `τ`, of the four matrices of an operator: `v_0 + Σ_c i v_c σ_c/2`. -/
noncomputable def withSpin (v : Fin 4 → ℝ) (σ τ : Fin 2) : ℂ :=
  (if σ = τ then (v 0 : ℂ) else 0) + ∑ c : Fin 3, Complex.I * (v c.succ : ℂ) * (pauli c σ τ / 2)

/-- `Σ_kl a_k P_{kσ,lτ} b_l` with the projector on `j = J2/2`. -/
noncomputable def spinSandwich (L : ℕ) (J2 : ℤ) (a b : ℕ → ℝ) (σ τ : Fin 2) : ℂ :=
  ∑ k : Fin (2 * L + 1), ∑ l : Fin (2 * L + 1), (a k : ℂ) * spinorProjector L J2 (k, σ) (l, τ) * (b l : ℂ)

end Libgrpp
