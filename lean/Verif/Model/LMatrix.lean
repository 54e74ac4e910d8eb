import Verif.Model.OneElectron
import Mathlib.Analysis.SpecialFunctions.Pow.Real
import Mathlib.Analysis.Complex.Basic

/-! # Model of `libgrpp/lmatrix.c`

Indices `m` from `-L` to `L` are represented by `m + L`, which the code computes for every access. -/

namespace Libgrpp

/-- `m`, for the index `m + L`. -/
def mOf (L i : Nat) : Int := (i : Int) - L

/-- The three arrays `lx_matrix`, `ly_matrix`, `lz_matrix`. -/
structure LMat where
  x : List ℝ
  y : List ℝ
  z : List ℝ

/-- The three `memset`s, lmatrix.c:33-35, 97-99. -/
noncomputable def lmatZero (n : Nat) (M : LMat) : Outcome LMat := do
  let x ← memset0 n M.x
  let y ← memset0 n M.y
  let z ← memset0 n M.z
  .ok ⟨x, y, z⟩

/-- The three assignments, lmatrix.c:75-77, 110-112. -/
noncomputable def lmatSet (M : LMat) (i : Nat) (vx vy vz : ℝ) : Outcome LMat := do
  let x ← wr M.x i vx
  let y ← wr M.y i vy
  let z ← wr M.z i vz
  .ok ⟨x, y, z⟩

/-- `lp`, lmatrix.c:105. The product under the root is an `int`. -/
noncomputable def cshLp (L : Nat) (m1 m2 : Int) : ℝ := Real.sqrt ((((L : Int) - m2) * (L + m2 + 1) : Int) : ℝ) * if m1 = m2 + 1 then 1 else 0

/-- `lm`, lmatrix.c:106. -/
noncomputable def cshLm (L : Nat) (m1 m2 : Int) : ℝ := Real.sqrt ((((L : Int) + m2) * (L - m2 + 1) : Int) : ℝ) * if m1 = m2 - 1 then 1 else 0

/-- `construct_angular_momentum_matrices_csh`, lmatrix.c:92-115. -/
noncomputable def lmatCsh (L : Nat) (M : LMat) : Outcome LMat := do
  let dim := 2 * L + 1
  let M ← lmatZero (dim * dim) M
  forRange dim M fun i1 M => forRange dim M fun i2 M =>
    let m1 := mOf L i1
    let m2 := mOf L i2
    let lz : ℝ := (m2 : ℝ) * if m1 = m2 then 1 else 0
    let lp := cshLp L m1 m2
    let lm := cshLm L m1 m2
    let lx := 0.5 * (lp + lm)
    let ly := 0.5 * (lp - lm)
    lmatSet M (i1 * dim + i2) lx ly lz

/-- `get_transformation_coeffs_csh_to_rsh`, lmatrix.c:127-141: the pair `a`, `b`. -/
noncomputable def cshToRsh (m : Int) : ℂ × ℂ :=
  if m = 0 then (0.5, 0.5)
  else if m < 0 then (1 * Complex.I / (Real.sqrt 2 : ℝ), -1 * Complex.I / (Real.sqrt 2 : ℝ) * (-1) ^ m.natAbs)
  else (1 / (Real.sqrt 2 : ℝ), 1 / (Real.sqrt 2 : ℝ) * (-1) ^ m.natAbs)

/-- One of the sums of four terms, lmatrix.c:57-61, 63-67, 69-73; `src` is the matrix in the basis of complex harmonics. -/
noncomputable def rshElement (L : Nat) (src : List ℝ) (m1 m2 : Int) : Outcome ℂ := do
  let c1 := cshToRsh m1
  let c2 := cshToRsh m2
  let dim := 2 * L + 1
  let m1m := (-(m1.natAbs : Int) + L).toNat
  let m1p := ((m1.natAbs : Int) + L).toNat
  let m2m := (-(m2.natAbs : Int) + L).toNat
  let m2p := ((m2.natAbs : Int) + L).toNat
  let vmm ← rd src (dim * m1m + m2m)
  let vmp ← rd src (dim * m1m + m2p)
  let vpm ← rd src (dim * m1p + m2m)
  let vpp ← rd src (dim * m1p + m2p)
  .ok (0 + (starRingEnd ℂ) c1.1 * c2.1 * (vmm : ℂ) + (starRingEnd ℂ) c1.1 * c2.2 * (vmp : ℂ) + (starRingEnd ℂ) c1.2 * c2.1 * (vpm : ℂ) +
    (starRingEnd ℂ) c1.2 * c2.2 * (vpp : ℂ))

/-- `construct_angular_momentum_matrices_rsh`, lmatrix.c:28-84. -/
noncomputable def lmatRsh (L : Nat) (M : LMat) : Outcome LMat := do
  let dim := 2 * L + 1
  let M ← lmatZero (dim * dim) M
  let zero := List.replicate (dim * dim) (0 : ℝ)
  let c ← lmatCsh L ⟨zero, zero, zero⟩
  forRange dim M fun i1 M => forRange dim M fun i2 M => do
    let m1 := mOf L i1
    let m2 := mOf L i2
    let lx ← rshElement L c.x m1 m2
    let ly ← rshElement L c.y m1 m2
    let lz ← rshElement L c.z m1 m2
    lmatSet M (i1 * dim + i2) lx.im (-ly.re) lz.im

end Libgrpp
