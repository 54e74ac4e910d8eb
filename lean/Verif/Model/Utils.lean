import Verif.Model.Memory
import Mathlib.Data.Real.Basic

/-! # Model of `libgrpp/utils.c` -/

namespace Libgrpp

/-- A point in space (`double[3]`). -/
abbrev Point := Fin 3 → ℝ

/-- `points_are_equal`, utils.c:96-107. -/
def pointsAreEqual (a b : Point) : Prop :=
  |a 0 - b 0| < 1e-12 ∧ |a 1 - b 1| < 1e-12 ∧ |a 2 - b 2| < 1e-12

noncomputable instance (a b : Point) : Decidable (pointsAreEqual a b) := Classical.dec _

/-- `libgrpp_daxpy`, utils.c:53-58. -/
noncomputable def daxpy (n : Nat) (a : ℝ) (x y : List ℝ) : Outcome (List ℝ) :=
  forRange n y fun i y => do
    let xi ← rd x i
    let yi ← rd y i
    wr y i (yi + a * xi)

/-- Inner loop of `libgrpp_multiply_matrices`, utils.c:68-71. -/
noncomputable def matMulSum (i j N K : Nat) (A B : List ℝ) : Outcome ℝ :=
  forRange K 0 fun k sum => do
    let a ← rd A (i * K + k)
    let b ← rd B (k * N + j)
    .ok (sum + a * b)

/-- `libgrpp_multiply_matrices`, utils.c:64-75. -/
noncomputable def multiplyMatrices (M N K : Nat) (A B C : List ℝ) : Outcome (List ℝ) :=
  forRange M C fun i C =>
    forRange N C fun j C => do
      let sum ← matMulSum i j N K A B
      let c ← rd C (i * N + j)
      wr C (i * N + j) (c + sum)

/-- `distance_squared`, utils.c:78-84. -/
def distanceSquared (A B : Point) : ℝ :=
  (A 0 - B 0) * (A 0 - B 0) + (A 1 - B 1) * (A 1 - B 1) + (A 2 - B 2) * (A 2 - B 2)

end Libgrpp
