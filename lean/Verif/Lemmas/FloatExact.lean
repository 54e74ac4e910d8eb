import Verif.Lemmas.FloatIeee
import Verif.Lemmas.OneElectronPrim

/-! # Auxiliary lemmas for Props/Float: exact arithmetic, single roundings -/

namespace Libgrpp

theorem flDaxpy_exact (n : Nat) (a : ℝ) (x y : List ℝ) : flDaxpy Arith.exact n a x y = daxpy n a x y := rfl

theorem flMatMul_exact (M N K : Nat) (x y z : List ℝ) : flMultiplyMatrices Arith.exact M N K x y z = multiplyMatrices M N K x y z := rfl

theorem flPotential_exact (pot : Potential) (r : ℝ) : flPotentialValue Arith.exact pot r = potentialValue pot r := by
  unfold flPotentialValue potentialValue
  simp only [Arith.exact, Outcome.ok_bind, Real.rpow_intCast]

theorem flNormFactor_exact (n l m : Nat) (a : ℝ) : flNormFactor Arith.exact n l m a = .ok (gaussianNormFactor n l m a) := rfl

theorem flOsStep_exact (d : Nat) (c : Fin 3) (p mu xab xpa xpb pfac : ℝ) (i j : Nat) (S : Table) :
    flOsStep Arith.exact d c p mu xab xpa xpb pfac i j S = osStep d c p mu xab xpa xpb pfac i j S := by
  unfold flOsStep osStep
  rfl

theorem flFillS_exact (d iMax jMax : Nat) (a b : ℝ) (A B : Point) : flFillS Arith.exact d iMax jMax a b A B = fillS d iMax jMax a b A B := by
  unfold flFillS fillS
  simp only [flOsStep_exact]
  rfl

theorem flContract_exact (A B : Shell) (prim prim' : ℝ → ℝ → List ℝ → Outcome (List ℝ)) (h : ∀ a b buf, prim a b buf = prim' a b buf) (out : List ℝ) :
    flContract Arith.exact A B prim out = contract A B prim' out := by
  obtain rfl : prim = prim' := by funext a b buf; exact h a b buf
  rfl

theorem flOverlap_exact (A B : Shell) (out : List ℝ) : flOverlap Arith.exact A B out = overlapIntegrals A B out := by
  refine flContract_exact A B _ _ (fun a b buf => ?_) out
  unfold flOverlapPrim overlapPrim
  simp only [flNormFactor_exact, flFillS_exact, Outcome.ok_bind]
  rfl

theorem flFillD2_exact (iMax jMax : Nat) (a : ℝ) (S : Table) : flFillD2 Arith.exact iMax jMax a S = fillD2 iMax jMax a S := by
  unfold flFillD2 fillD2
  rfl

theorem flKinetic_exact (A B : Shell) (out : List ℝ) : flKinetic Arith.exact A B out = kineticIntegrals A B out := by
  refine flContract_exact A B _ _ (fun a b buf => ?_) out
  unfold flKineticPrim kineticPrim
  simp only [flNormFactor_exact, flFillS_exact, flFillD2_exact, Outcome.ok_bind]
  rfl

theorem flFillD1_exact (iMax jMax : Nat) (a : ℝ) (S : Table) : flFillD1 Arith.exact iMax jMax a S = fillD1 iMax jMax a S := by
  unfold flFillD1 fillD1
  rfl

theorem flMomentum_exact (k : Fin 3) (A B : Shell) (out : List ℝ) : flMomentum Arith.exact k A B out = momentumIntegrals k A B out := by
  refine flContract_exact A B _ _ (fun a b buf => ?_) out
  unfold flMomentumPrim momentumPrim
  simp only [flNormFactor_exact, flFillS_exact, flFillD1_exact, Outcome.ok_bind]
  rfl

theorem exact_rounds : Arith.exact.Rounds 0 0 where
  add x y := .ok (by simp)
  sub x y := .ok (by simp)
  mul x y := .ok (by simp)
  div x y _ := .ok (by simp)
  sqrt x _ := .ok (by simp)
  exp x := .ok (by simp)
  pow x y _ := .ok (by simp)
  pi := by simp [Arith.exact]

theorem double_zero : double 0 = .ok 0 := by
  unfold double
  rw [if_pos (Or.inl rfl), round53_zero]

theorem normal_range {x : ℝ} (h1 : 1 ≤ |x|) (h2 : |x| < 2 ^ 54) : (2 : ℝ) ^ (-1022 : ℤ) ≤ |x| ∧ |x| < 2 ^ (1024 : ℤ) := by
  constructor
  · have : (2 : ℝ) ^ (-1022 : ℤ) ≤ 2 ^ (0 : ℤ) := zpow_le_zpow_right₀ (by norm_num) (by norm_num)
    rw [zpow_zero] at this
    linarith
  · have : (2 : ℝ) ^ (54 : ℤ) ≤ 2 ^ (1024 : ℤ) := zpow_le_zpow_right₀ (by norm_num) (by norm_num)
    have h3 : (2 : ℝ) ^ (54 : ℤ) = 2 ^ 54 := by norm_num
    rw [h3] at this
    exact h2.trans_le this

theorem double_exact (m k : ℤ) (hm : |m| < 2 ^ 53) (h1 : 1 ≤ |(m : ℝ) * 2 ^ k|) (h2 : |(m : ℝ) * 2 ^ k| < 2 ^ 54) :
    double ((m : ℝ) * 2 ^ k) = .ok (m * 2 ^ k) := by
  unfold double
  rw [round53_exact m k hm, if_pos (Or.inr (normal_range h1 h2))]

/-- `2^53 + 1` lies half-way between two numbers of the format. -/
theorem double_tie : double (2 ^ 53 + 1) = .ok (2 ^ 53) := by
  have hlog : Int.log 2 |(2 : ℝ) ^ 53 + 1| = 53 := by
    have hpos : (0 : ℝ) < |(2 : ℝ) ^ 53 + 1| := by norm_num
    have h1 : ((2 : ℕ) : ℝ) ^ Int.log 2 |(2 : ℝ) ^ 53 + 1| ≤ |(2 : ℝ) ^ 53 + 1| := Int.zpow_log_le_self (by norm_num) hpos
    have h2 : |(2 : ℝ) ^ 53 + 1| < ((2 : ℕ) : ℝ) ^ (Int.log 2 |(2 : ℝ) ^ 53 + 1| + 1) := Int.lt_zpow_succ_log_self (by norm_num) _
    generalize Int.log 2 |(2 : ℝ) ^ 53 + 1| = k at h1 h2
    push_cast at h1 h2
    have h3 : (2 : ℝ) ^ k < 2 ^ (54 : ℤ) := h1.trans_lt (by norm_num)
    have h4 : (2 : ℝ) ^ (53 : ℤ) < 2 ^ (k + 1) := lt_of_le_of_lt (by norm_num) h2
    have h5 := (zpow_lt_zpow_iff_right₀ (by norm_num : (1 : ℝ) < 2)).1 h3
    have h6 := (zpow_lt_zpow_iff_right₀ (by norm_num : (1 : ℝ) < 2)).1 h4
    omega
  have hr : round53 (2 ^ 53 + 1) = 2 ^ 53 := by
    unfold round53
    rw [hlog]
    have hx : ((2 : ℝ) ^ 53 + 1) / 2 ^ ((53 : ℤ) - 52) = 2 ^ 52 + 1 / 2 := by norm_num
    have hfl : ⌊(2 : ℝ) ^ 52 + 1 / 2⌋ = 2 ^ 52 := by
      rw [Int.floor_eq_iff]
      norm_num
    rw [hx]
    unfold roundEven
    rw [hfl, if_neg (by norm_num), if_neg (by norm_num), if_pos (by decide)]
    norm_num
  unfold double
  rw [hr, if_pos (Or.inr (normal_range (by norm_num) (by norm_num)))]

end Libgrpp
