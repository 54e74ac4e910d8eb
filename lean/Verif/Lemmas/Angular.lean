import Verif.Model.Angular
import Verif.Lemmas.SphericalHarmonics

/-! Helper lemmas for `angular_integrals.c`. -/

namespace Libgrpp

open scoped Nat

/-- Surface integral of a monomial. -/
noncomputable def monoInt (a b c : ℕ) : ℝ := sphInt fun ω => ω 0 ^ a * ω 1 ^ b * ω 2 ^ c

theorem monoInt_eq (a b c : ℕ) : monoInt a b c = if a % 2 = 0 ∧ b % 2 = 0 ∧ c % 2 = 0 then
    4 * Real.pi * ((a - 1)‼ : ℝ) * ((b - 1)‼ : ℝ) * ((c - 1)‼ : ℝ) / ((a + b + c + 1)‼ : ℝ) else 0 := by
  have h := sph_moment ![a, b, c]
  simp only [Fin.prod_univ_three, Fin.sum_univ_three, Matrix.cons_val_zero, Matrix.cons_val_one, Matrix.cons_val_two, Matrix.head_cons,
    Matrix.tail_cons, Fin.forall_fin_succ, Fin.succ_zero_eq_one, Fin.succ_one_eq_two, IsEmpty.forall_iff, and_true, Nat.even_iff] at h
  rw [monoInt, h]
  refine if_congr Iff.rfl ?_ rfl
  ring

theorem doubleFactorialC_pred (i : ℕ) (h : i ≤ 31) : doubleFactorialC ((i : ℤ) - 1) = .ok ((i - 1)‼ : ℝ) := by
  rcases Nat.eq_zero_or_pos i with rfl | hi
  · simp [double_factorial_minus_one]
  · rw [show (i : ℤ) - 1 = ((i - 1 : ℕ) : ℤ) by omega, double_factorial_correct _ (by omega)]

theorem uspInt_eq (i j k : ℕ) (h : i + j + k ≤ 29 ∨ (i + j + k) % 2 = 1) : uspInt i j k = .ok (monoInt i j k) := by
  rw [monoInt_eq]
  unfold uspInt
  split_ifs with q
  · rw [doubleFactorialC_pred _ (by omega), doubleFactorialC_pred _ (by omega), doubleFactorialC_pred _ (by omega),
      show ((i : ℤ) + j + k + 1) = ((i + j + k + 1 : ℕ) : ℤ) by push_cast; ring, double_factorial_correct _ (by omega)]
    simp only [Outcome.ok_bind]
  · rfl

theorem uspInt_abort_iff (i j k : ℕ) : uspInt i j k = .abort ↔ (i % 2 = 0 ∧ j % 2 = 0 ∧ k % 2 = 0) ∧ 30 ≤ i + j + k := by
  constructor
  · intro h
    by_contra hc
    rw [not_and_or] at hc
    by_cases q : i % 2 = 0 ∧ j % 2 = 0 ∧ k % 2 = 0
    · rw [uspInt_eq i j k (by omega)] at h
      exact absurd h (by simp)
    · unfold uspInt at h
      rw [if_neg q] at h
      exact absurd h (by simp)
  · rintro ⟨q, h⟩
    unfold uspInt
    rw [if_pos q]
    have hd : ∀ z : ℤ, -1 ≤ z → doubleFactorialC z = .abort ∨ ∃ v, doubleFactorialC z = .ok v := by
      intro z hz
      by_cases h30 : 30 < z
      · exact Or.inl ((double_factorial_abort_iff z).2 (Or.inr h30))
      · rcases eq_or_lt_of_le hz with e | e
        · exact Or.inr ⟨1, by rw [← e, double_factorial_minus_one]⟩
        · obtain ⟨n, rfl⟩ : ∃ n : ℕ, z = n := ⟨z.toNat, by omega⟩
          exact Or.inr ⟨_, double_factorial_correct n (by omega)⟩
    have hlast : doubleFactorialC ((i : ℤ) + j + k + 1) = .abort := (double_factorial_abort_iff _).2 (Or.inr (by omega))
    rcases hd ((i : ℤ) - 1) (by omega) with e1 | ⟨v1, e1⟩
    · rw [e1]; rfl
    rcases hd ((j : ℤ) - 1) (by omega) with e2 | ⟨v2, e2⟩
    · rw [e1, e2]; rfl
    rcases hd ((k : ℤ) - 1) (by omega) with e3 | ⟨v3, e3⟩
    · rw [e1, e2, e3]; rfl
    rw [e1, e2, e3, hlast]
    rfl

theorem uspInt_cases (i j k : ℕ) : uspInt i j k = .ok (monoInt i j k) ∨ uspInt i j k = .abort := by
  by_cases h : (i % 2 = 0 ∧ j % 2 = 0 ∧ k % 2 = 0) ∧ 30 ≤ i + j + k
  · exact Or.inr ((uspInt_abort_iff i j k).2 h)
  · left
    by_cases q : i % 2 = 0 ∧ j % 2 = 0 ∧ k % 2 = 0
    · exact uspInt_eq i j k (by omega)
    · rw [monoInt_eq, uspInt, if_neg q, if_neg q]

theorem cartSum_triple (l : ℕ) (f : ℕ → ℕ → ℕ → ℝ) :
    ∑ r ∈ Finset.range (l + 1), ∑ s ∈ Finset.range (l + 1), ∑ t ∈ Finset.range (l + 1), (if r + s + t = l then f r s t else 0) = cartSum l f := by
  unfold cartSum
  refine Finset.sum_congr rfl fun a _ => Finset.sum_congr rfl fun b _ => ?_
  split_ifs with h
  · rw [Finset.sum_eq_single (l - a - b)]
    · rw [if_pos (by omega)]
    · intro k _ hk
      rw [if_neg (by omega)]
    · intro hk
      simp only [Finset.mem_range] at hk
      omega
  · exact Finset.sum_eq_zero fun k _ => if_neg (by omega)

theorem continuous_mono (a b c : ℕ) : Continuous fun ω : Point => ω 0 ^ a * ω 1 ^ b * ω 2 ^ c := by fun_prop

theorem sphInt_cartSum (l : ℕ) (f : ℕ → ℕ → ℕ → Point → ℝ) (hf : ∀ a b c, Continuous (f a b c)) :
    sphInt (fun ω => cartSum l fun a b c => f a b c ω) = cartSum l fun a b c => sphInt (f a b c) := by
  unfold cartSum
  have hite : ∀ a b, Continuous fun ω : Point => if a + b ≤ l then f a b (l - a - b) ω else 0 := by
    intro a b
    by_cases q : a + b ≤ l
    · simpa only [if_pos q] using hf a b _
    · simpa only [if_neg q] using continuous_const
  have h1 := sphInt_sum (s := Finset.range (l + 1)) (f := fun a ω => ∑ b ∈ Finset.range (l + 1), if a + b ≤ l then f a b (l - a - b) ω else 0)
    (fun a _ => continuous_finsetSum _ fun b _ => hite a b)
  beta_reduce at h1
  rw [h1]
  refine Finset.sum_congr rfl fun a _ => ?_
  have h2 := sphInt_sum (s := Finset.range (l + 1)) (f := fun b ω => if a + b ≤ l then f a b (l - a - b) ω else 0) (fun b _ => hite a b)
  beta_reduce at h2
  rw [h2]
  refine Finset.sum_congr rfl fun b _ => ?_
  by_cases q : a + b ≤ l
  · simp only [if_pos q]
  · simp only [if_neg q]
    simp [sphInt]

/-- Expanding a harmonic under the integral sign. -/
theorem sphVal_int (l : ℕ) (m : ℤ) (hm : m.natAbs ≤ l) (g : Point → ℝ) (hg : Continuous g) :
    cartSum l (fun a b c => sphVal l m a b * sphInt (fun ω => ω 0 ^ a * ω 1 ^ b * ω 2 ^ c * g ω)) = sphInt fun ω => rsh l m ω * g ω := by
  have h : sphInt (fun ω => rsh l m ω * g ω) = sphInt (fun ω => cartSum l fun a b c => sphVal l m a b * (ω 0 ^ a * ω 1 ^ b * ω 2 ^ c * g ω)) := by
    apply sphInt_congr
    intro ω hω
    rw [← sphVal_sum l m hm ω hω, mul_comm, ← cartSum_mul_left]
    exact cartSum_congr l fun a b c _ => by ring
  rw [h, sphInt_cartSum l (fun a b c ω => sphVal l m a b * (ω 0 ^ a * ω 1 ^ b * ω 2 ^ c * g ω))
    (fun a b c => continuous_const.mul ((continuous_mono a b c).mul hg))]
  exact cartSum_congr l fun a b c _ => (sphInt_const_mul_real _ _).symm

theorem monoInt_add (I J K a b c : ℕ) : monoInt (I + a) (J + b) (K + c) =
    sphInt (fun ω : Point => ω 0 ^ a * ω 1 ^ b * ω 2 ^ c * (ω 0 ^ I * ω 1 ^ J * ω 2 ^ K)) := by
  unfold monoInt
  congr 1
  funext ω
  ring

/-- `angular_type1_integral` without its final harmonic. -/
theorem angType1_inner (lam II JJ KK : ℕ) (mu : ℤ) (hl : lam ≤ 40) (hm : mu.natAbs ≤ lam)
    (h : II + JJ + KK + lam ≤ 29 ∨ (II + JJ + KK + lam) % 2 = 1) :
    (forRange (lam + 1) (0 : ℝ) fun r sum2 =>
      forRange (lam + 1) sum2 fun s sum2 =>
        forRange (lam + 1) sum2 fun t sum2 =>
          if r + s + t = lam then do
            let y ← sphCoef lam mu r s t
            let u ← uspInt (II + r) (JJ + s) (KK + t)
            .ok (sum2 + y * u)
          else .ok sum2) = .ok (sphInt fun ω => rsh lam mu ω * (ω 0 ^ II * ω 1 ^ JJ * ω 2 ^ KK)) := by
  have h3 : ∀ r s t : ℕ, ∀ sum2 : ℝ, (if r + s + t = lam then do
            let y ← sphCoef lam mu r s t
            let u ← uspInt (II + r) (JJ + s) (KK + t)
            .ok (sum2 + y * u)
          else .ok sum2) = .ok (sum2 + if r + s + t = lam then sphVal lam mu r s * monoInt (II + r) (JJ + s) (KK + t) else 0) := by
    intro r s t sum2
    split_ifs with q
    · rw [sphCoef_eq lam mu r s t hl hm (by omega), uspInt_eq _ _ _ (by omega)]
      rfl
    · rw [add_zero]
  rw [forRange_sum (fun r => ∑ s ∈ Finset.range (lam + 1), ∑ t ∈ Finset.range (lam + 1),
    if r + s + t = lam then sphVal lam mu r s * monoInt (II + r) (JJ + s) (KK + t) else 0)]
  · rw [zero_add, cartSum_triple lam fun r s t => sphVal lam mu r s * monoInt (II + r) (JJ + s) (KK + t)]
    simp only [monoInt_add]
    rw [sphVal_int lam mu hm _ (continuous_mono II JJ KK)]
  · intro r _ s0
    rw [forRange_sum (fun s => ∑ t ∈ Finset.range (lam + 1),
      if r + s + t = lam then sphVal lam mu r s * monoInt (II + r) (JJ + s) (KK + t) else 0)]
    intro s _ s0
    rw [forRange_sum (fun t => if r + s + t = lam then sphVal lam mu r s * monoInt (II + r) (JJ + s) (KK + t) else 0)]
    intro t _ s0
    exact h3 r s t s0

/-! ### Small coefficients -/

theorem outerC_int (l M j i : ℕ) (hM : M ≤ l) (hi : 2 * i ≤ l - M) : outerC l M j i =
    ((l + M)! : ℝ) * (((l.choose i * i.choose j * (2 * l - 2 * i).choose (l + M) : ℕ) : ℤ) * (-1) ^ i : ℤ) := by
  have h := Nat.choose_mul_factorial_mul_factorial (show l + M ≤ 2 * l - 2 * i by omega)
  rw [show 2 * l - 2 * i - (l + M) = l - M - 2 * i by omega] at h
  have h' : ((2 * l - 2 * i)! : ℝ) = ((2 * l - 2 * i).choose (l + M) : ℝ) * ((l + M)! : ℝ) * ((l - M - 2 * i)! : ℝ) := by
    exact_mod_cast h.symm
  have hne : ((l - M - 2 * i)! : ℝ) ≠ 0 := by exact_mod_cast (Nat.factorial_pos _).ne'
  rw [outerC, h', mul_div_assoc, div_self hne]
  push_cast
  ring

theorem sphVal_int_multiple (l : ℕ) (m : ℤ) (lx ly : ℕ) (hm : m.natAbs ≤ l) :
    ∃ N : ℤ, sphVal l m lx ly = rshNorm l m.natAbs * (((l + m.natAbs)! : ℝ) / (2 ^ l * (l ! : ℝ))) * N := by
  set M := m.natAbs
  have hA : ∀ j, ∃ N : ℤ, cA l M j = ((l + M)! : ℝ) / (2 ^ l * (l ! : ℝ)) * N := by
    intro j
    refine ⟨∑ i ∈ Finset.range ((l - M) / 2 + 1), ((l.choose i * i.choose j * (2 * l - 2 * i).choose (l + M) : ℕ) : ℤ) * (-1) ^ i, ?_⟩
    rw [cA, Int.cast_sum, Finset.mul_sum, Finset.mul_sum]
    refine Finset.sum_congr rfl fun i hi => ?_
    rw [outerC_int l M j i hm (by have := Finset.mem_range.1 hi; omega)]
    ring
  have hI : ∀ n : ℕ, ∃ a b : ℤ, Complex.I ^ n = (a : ℂ) + b * Complex.I := by
    intro n
    induction n with
    | zero => exact ⟨1, 0, by simp⟩
    | succ n ih =>
      obtain ⟨a, b, h⟩ := ih
      refine ⟨-b, a, ?_⟩
      rw [pow_succ, h]
      push_cast
      linear_combination (b : ℂ) * Complex.I_mul_I
  have hD : ∀ j, ∃ a b : ℤ, cD j M lx = (a : ℂ) + b * Complex.I := by
    intro j
    choose p q hpq using hI
    refine ⟨∑ k ∈ Finset.range (j + 1), (innerC M lx j k : ℤ) * p (M - (lx - 2 * k)), ∑ k ∈ Finset.range (j + 1), (innerC M lx j k : ℤ) * q (M - (lx - 2 * k)), ?_⟩
    rw [cD]
    push_cast
    rw [Finset.sum_mul, ← Finset.sum_add_distrib]
    refine Finset.sum_congr rfl fun k _ => ?_
    rw [hpq]
    ring
  unfold sphVal coefC
  by_cases hc : M ≤ lx + ly ∧ (lx + ly - M) % 2 = 0
  · rw [if_pos hc]
    obtain ⟨NA, hNA⟩ := hA ((lx + ly - M) / 2)
    obtain ⟨a, b, hab⟩ := hD ((lx + ly - M) / 2)
    have hre : (cD ((lx + ly - M) / 2) M lx).re = a := by rw [hab]; simp
    have him : (cD ((lx + ly - M) / 2) M lx).im = b := by rw [hab]; simp
    split_ifs
    · refine ⟨NA * a, ?_⟩
      rw [Complex.re_ofReal_mul, hre, hNA]
      push_cast
      ring
    · refine ⟨NA * b, ?_⟩
      rw [Complex.im_ofReal_mul, him, hNA]
      push_cast
      ring
  · rw [if_neg hc]
    exact ⟨0, by simp⟩

theorem factorial_log_convex (l M : ℕ) (hM : M ≤ l) : l ! * l ! ≤ (l - M)! * (l + M)! := by
  have h1 : l ! ≤ (l - M)! * l ^ M := by
    rw [← Nat.factorial_mul_descFactorial hM]
    exact Nat.mul_le_mul_left _ (Nat.descFactorial_le_pow _ _)
  have h2 : l ! * (l + 1) ^ M ≤ (l + M)! := Nat.factorial_mul_pow_le_factorial
  have h3 : l ^ M ≤ (l + 1) ^ M := Nat.pow_le_pow_left (by omega) _
  calc l ! * l ! ≤ ((l - M)! * l ^ M) * l ! := Nat.mul_le_mul_right _ h1
    _ = (l - M)! * (l ! * l ^ M) := by ring
    _ ≤ (l - M)! * (l ! * (l + 1) ^ M) := by gcongr
    _ ≤ (l - M)! * (l + M)! := Nat.mul_le_mul_left _ h2

/-- No non-zero coefficient of the tables is below the threshold of the code. -/
theorem sphVal_large (l : ℕ) (m : ℤ) (lx ly : ℕ) (hl : l ≤ 40) (hm : m.natAbs ≤ l) (h : sphVal l m lx ly ≠ 0) :
    ¬ |sphVal l m lx ly| < zeroThresh := by
  obtain ⟨N, hN⟩ := sphVal_int_multiple l m lx ly hm
  set M := m.natAbs
  have hN0 : N ≠ 0 := by
    rintro rfl
    rw [Int.cast_zero, mul_zero] at hN
    exact h hN
  have hN1 : (1 : ℝ) ≤ |(N : ℝ)| := by
    rw [← Int.cast_abs]
    exact_mod_cast Int.one_le_abs hN0
  have p1 : (0 : ℝ) < (l ! : ℝ) := by exact_mod_cast Nat.factorial_pos _
  have p2 : (0 : ℝ) < ((l + M)! : ℝ) := by exact_mod_cast Nat.factorial_pos _
  have p3 : (0 : ℝ) < ((l - M)! : ℝ) := by exact_mod_cast Nat.factorial_pos _
  set c : ℝ := rshNorm l M * (((l + M)! : ℝ) / (2 ^ l * (l ! : ℝ))) with hc
  have hcpos : 0 < c := mul_pos (rshNorm_pos l M) (by positivity)
  have hsq : 1 / (13 * 4 ^ l) ≤ c ^ 2 := by
    have hn : 1 / (13 : ℝ) * (((l - M)! : ℝ) / ((l + M)! : ℝ)) ≤ rshNorm l M ^ 2 := by
      have hpi := Real.pi_lt_d2
      have hpi0 := Real.pi_pos
      have q0 : 0 ≤ ((l - M)! : ℝ) / ((l + M)! : ℝ) := by positivity
      have q1 : 1 / (13 : ℝ) ≤ (2 * l + 1) / (2 * Real.pi) * (1 / 2) := by
        rw [div_mul_div_comm, div_le_div_iff₀ (by norm_num) (by positivity)]
        have : (0 : ℝ) ≤ l := Nat.cast_nonneg l
        nlinarith
      have q2 : (2 * (l : ℝ) + 1) / (2 * Real.pi) * (((l - M)! : ℝ) / ((l + M)! : ℝ)) * (1 / 2) ≤ rshNorm l M ^ 2 := by
        rw [rshNorm, mul_pow, Real.sq_sqrt (by positivity)]
        gcongr
        split_ifs
        · rw [div_pow, Real.sq_sqrt (by norm_num)]
          norm_num
        · norm_num
      calc _ ≤ (2 * l + 1) / (2 * Real.pi) * (1 / 2) * (((l - M)! : ℝ) / ((l + M)! : ℝ)) := by gcongr
        _ = (2 * (l : ℝ) + 1) / (2 * Real.pi) * (((l - M)! : ℝ) / ((l + M)! : ℝ)) * (1 / 2) := by ring
        _ ≤ _ := q2
    have hlc : (l ! : ℝ) * (l ! : ℝ) ≤ ((l - M)! : ℝ) * ((l + M)! : ℝ) := by exact_mod_cast factorial_log_convex l M hm
    rw [hc, mul_pow]
    calc 1 / (13 * 4 ^ l) = 1 / 13 * (((l ! : ℝ) * (l ! : ℝ)) / ((l ! : ℝ) * (l ! : ℝ) * 4 ^ l)) := by
          field_simp
      _ ≤ 1 / 13 * ((((l - M)! : ℝ) * ((l + M)! : ℝ)) / ((l ! : ℝ) * (l ! : ℝ) * 4 ^ l)) := by gcongr
      _ = 1 / 13 * (((l - M)! : ℝ) / ((l + M)! : ℝ)) * (((l + M)! : ℝ) / (2 ^ l * (l ! : ℝ))) ^ 2 := by
          have : (4 : ℝ) ^ l = 2 ^ l * 2 ^ l := by rw [← mul_pow]; norm_num
          rw [this]
          field_simp
      _ ≤ _ := by gcongr
  have h4 : (4 : ℝ) ^ l ≤ 4 ^ 40 := pow_le_pow_right₀ (by norm_num) hl
  have hth : zeroThresh ^ 2 ≤ 1 / (13 * 4 ^ l) := by
    rw [le_div_iff₀ (by positivity)]
    calc zeroThresh ^ 2 * (13 * 4 ^ l) ≤ zeroThresh ^ 2 * (13 * 4 ^ 40) := by gcongr
      _ ≤ 1 := by norm_num [zeroThresh]
  have hcz : zeroThresh ≤ c := by
    exact (sq_le_sq₀ (by norm_num [zeroThresh]) hcpos.le).1 (hth.trans hsq)
  rw [hN, abs_mul, abs_of_pos hcpos, not_lt]
  calc zeroThresh ≤ c := hcz
    _ = c * 1 := (mul_one _).symm
    _ ≤ c * |(N : ℝ)| := by gcongr

theorem sphVal_thresh (l : ℕ) (m : ℤ) (lx ly : ℕ) (hl : l ≤ 40) (hm : m.natAbs ≤ l) (h : |sphVal l m lx ly| < zeroThresh) :
    sphVal l m lx ly = 0 := by
  by_contra hc
  exact sphVal_large l m lx ly hl hm hc h

/-- The value used in place of a number that is skipped when it is below the threshold. -/
noncomputable def dropSmall (x : ℝ) : ℝ := if |x| < zeroThresh then 0 else x

theorem continuous_rsh_mono (l : ℕ) (m : ℤ) (a b c : ℕ) : Continuous fun ω : Point => rsh l m ω * (ω 0 ^ a * ω 1 ^ b * ω 2 ^ c) :=
  (continuous_rsh l m).mul (continuous_mono a b c)

theorem cartSum_double (lam L : ℕ) (mu m : ℤ) (hmu : mu.natAbs ≤ lam) (hm : m.natAbs ≤ L) (a b c : ℕ) :
    cartSum L (fun u v w => sphVal L m u v * cartSum lam fun r s t => sphVal lam mu r s * monoInt (a + r + u) (b + s + v) (c + t + w)) =
      sphInt fun ω => rsh L m ω * (rsh lam mu ω * (ω 0 ^ a * ω 1 ^ b * ω 2 ^ c)) := by
  rw [← sphVal_int L m hm _ (continuous_rsh_mono lam mu a b c)]
  refine cartSum_congr L fun u v w _ => ?_
  congr 1
  have h := sphVal_int lam mu hmu (fun ω => ω 0 ^ (a + u) * ω 1 ^ (b + v) * ω 2 ^ (c + w)) (continuous_mono _ _ _)
  have e : (fun ω : Point => ω 0 ^ u * ω 1 ^ v * ω 2 ^ w * (rsh lam mu ω * (ω 0 ^ a * ω 1 ^ b * ω 2 ^ c))) =
      fun ω => rsh lam mu ω * (ω 0 ^ (a + u) * ω 1 ^ (b + v) * ω 2 ^ (c + w)) := by
    funext ω
    ring
  rw [e, ← h]
  refine cartSum_congr lam fun r s t _ => ?_
  rw [← monoInt_add, show a + r + u = a + u + r by omega, show b + s + v = b + v + s by omega, show c + t + w = c + w + t by omega]

theorem zeroThresh_pos : 0 < zeroThresh := by norm_num [zeroThresh]

theorem angType2_eq' (lam L : ℕ) (m : ℤ) (a b c : ℕ) (vals : List ℝ) (hlam : lam ≤ 40) (hL : L ≤ 40) (hm : m.natAbs ≤ L)
    (hv : 2 * lam + 1 ≤ vals.length) (h : ∀ mi < 2 * lam + 1, ¬ |vals.getD mi 0| < zeroThresh → ∀ u v w, u + v + w = L → sphVal L m u v ≠ 0 →
      ∀ r s t, r + s + t = lam → sphVal lam ((mi : ℤ) - lam) r s ≠ 0 → uspInt (a + r + u) (b + s + v) (c + t + w) ≠ .abort) :
    angType2 lam L m a b c vals = .ok (∑ mi ∈ Finset.range (2 * lam + 1),
      sphInt (fun ω => rsh L m ω * (rsh lam ((mi : ℤ) - lam) ω * (ω 0 ^ a * ω 1 ^ b * ω 2 ^ c))) * dropSmall (vals.getD mi 0)) := by
  unfold angType2
  obtain ⟨t1, e1, I1⟩ := rshTable_ok lam hlam
  obtain ⟨t2, e2, I2⟩ := rshTable_ok L hL
  simp only [e1, e2, Outcome.ok_bind, I1.ncart, I1.comb, I2.ncart, I2.comb]
  rw [forRange_sum (fun mi => sphInt (fun ω => rsh L m ω * (rsh lam ((mi : ℤ) - lam) ω * (ω 0 ^ a * ω 1 ^ b * ω 2 ^ c))) * dropSmall (vals.getD mi 0)), zero_add]
  intro mi hmi sum
  rw [rd_ok (by omega)]
  simp only [Outcome.ok_bind]
  have hval : vals[mi] = vals.getD mi 0 := by rw [List.getD_eq_getElem]
  rw [hval]
  unfold dropSmall
  by_cases q : |vals.getD mi 0| < zeroThresh
  · rw [if_pos q, if_pos q, mul_zero, add_zero]
  rw [if_neg q, if_neg q]
  set mu : ℤ := (mi : ℤ) - lam with hmu
  have hmu' : mu.natAbs ≤ lam := by omega
  rw [forRange_sum (fun iu => (fun q : Comp => sphVal L m q.1 q.2.1 * cartSum lam fun r s t => sphVal lam mu r s *
    monoInt (a + r + q.1) (b + s + q.2.1) (c + t + q.2.2)) (ascComp L iu))]
  · simp only [Outcome.ok_bind]
    rw [asc_sum L (fun q : Comp => sphVal L m q.1 q.2.1 * cartSum lam fun r s t => sphVal lam mu r s *
      monoInt (a + r + q.1) (b + s + q.2.1) (c + t + q.2.2)), zero_add, cartSum_double lam L mu m hmu' hm]
  · intro iu hiu s2
    rw [rd_ascComp hiu]
    simp only [Outcome.ok_bind]
    rw [I2.rdInt_coef hm hiu]
    simp only [Outcome.ok_bind]
    have hs := ascComp_sum hiu
    split_ifs with q2
    · rw [sphVal_thresh L m _ _ hL hm q2, zero_mul, add_zero]
    · rw [forRange_sum (fun ir => (fun p : Comp => sphVal L m (ascComp L iu).1 (ascComp L iu).2.1 * (sphVal lam mu p.1 p.2.1 *
        monoInt (a + p.1 + (ascComp L iu).1) (b + p.2.1 + (ascComp L iu).2.1) (c + p.2.2 + (ascComp L iu).2.2))) (ascComp lam ir))]
      · rw [asc_sum lam (fun p : Comp => sphVal L m (ascComp L iu).1 (ascComp L iu).2.1 * (sphVal lam mu p.1 p.2.1 *
          monoInt (a + p.1 + (ascComp L iu).1) (b + p.2.1 + (ascComp L iu).2.1) (c + p.2.2 + (ascComp L iu).2.2))), cartSum_mul_left]
      · intro ir hir s3
        rw [rd_ascComp hir]
        simp only [Outcome.ok_bind]
        rw [I1.rd_coef (by omega) hir]
        simp only [Outcome.ok_bind]
        have hs' := ascComp_sum hir
        split_ifs with q3
        · rw [sphVal_thresh lam _ _ _ hlam (by omega) q3]
          simp
        · have hab := h mi hmi q _ _ _ hs (fun h0 => q2 (by rw [h0, abs_zero]; exact zeroThresh_pos)) _ _ _ hs'
            (fun h0 => q3 (by rw [h0, abs_zero]; exact zeroThresh_pos))
          rw [(uspInt_cases _ _ _).resolve_right hab]
          simp only [Outcome.ok_bind]
          congr 2
          ring

theorem angType2_eq (lam L : ℕ) (m : ℤ) (a b c : ℕ) (vals : List ℝ) (hlam : lam ≤ 40) (hL : L ≤ 40) (hm : m.natAbs ≤ L)
    (hv : 2 * lam + 1 ≤ vals.length) (h : a + b + c + lam + L ≤ 29 ∨ (a + b + c + lam + L) % 2 = 1) :
    angType2 lam L m a b c vals = .ok (∑ mi ∈ Finset.range (2 * lam + 1),
      sphInt (fun ω => rsh L m ω * (rsh lam ((mi : ℤ) - lam) ω * (ω 0 ^ a * ω 1 ^ b * ω 2 ^ c))) * dropSmall (vals.getD mi 0)) := by
  refine angType2_eq' lam L m a b c vals hlam hL hm hv ?_
  intro mi _ _ u v w huvw _ r s t hrst _ hab
  have := (uspInt_abort_iff _ _ _).1 hab
  omega

/-- A loop whose iterations return or abort. -/
theorem forRange_ok_or_abort {σ : Type _} {n : ℕ} {s : σ} {body : ℕ → σ → Outcome σ} (I : σ → Prop) (h0 : I s)
    (hstep : ∀ i s, i < n → I s → (∃ s', body i s = .ok s' ∧ I s') ∨ body i s = .abort) :
    (∃ s', forRange n s body = .ok s' ∧ I s') ∨ forRange n s body = .abort := by
  induction n with
  | zero => exact Or.inl ⟨s, rfl, h0⟩
  | succ n ih =>
    rw [forRange_succ]
    rcases ih fun i s hi => hstep i s (by omega) with ⟨s1, h1, hI⟩ | h1
    · rw [h1, Outcome.ok_bind]
      exact hstep n s1 (by omega) hI
    · rw [h1]
      exact Or.inr rfl

/-- A loop with an aborting iteration whose other iterations return or abort. -/
theorem forRange_abort_some {σ : Type _} {n : ℕ} {s : σ} {body : ℕ → σ → Outcome σ} (I : σ → Prop) (h0 : I s)
    (hstep : ∀ i s, i < n → I s → (∃ s', body i s = .ok s' ∧ I s') ∨ body i s = .abort)
    {k : ℕ} (hk : k < n) (hab : ∀ s, I s → body k s = .abort) : forRange n s body = .abort := by
  obtain ⟨d, rfl⟩ : ∃ d, n = k + 1 + d := ⟨n - (k + 1), by omega⟩
  have hk1 : forRange (k + 1) s body = .abort := by
    rw [forRange_succ]
    rcases forRange_ok_or_abort (n := k) I h0 (fun i s hi => hstep i s (by omega)) with ⟨s1, h1, hI⟩ | h1
    · rw [h1, Outcome.ok_bind]
      exact hab s1 hI
    · rw [h1]
      rfl
  clear hstep
  induction d with
  | zero => exact hk1
  | succ d ih =>
    rw [show k + 1 + (d + 1) = (k + 1 + d) + 1 by omega, forRange_succ, ih (by omega)]
    rfl

theorem angType2_abort (lam L : ℕ) (m : ℤ) (a b c : ℕ) (vals : List ℝ) (hlam : lam ≤ 40) (hL : L ≤ 40) (hm : m.natAbs ≤ L)
    (hv : 2 * lam + 1 ≤ vals.length) (mi : ℕ) (hmi : mi < 2 * lam + 1) (hbig : ¬ |vals.getD mi 0| < zeroThresh)
    (u v w : ℕ) (huvw : u + v + w = L) (hu : sphVal L m u v ≠ 0)
    (r s t : ℕ) (hrst : r + s + t = lam) (hr : sphVal lam ((mi : ℤ) - lam) r s ≠ 0)
    (hab : uspInt (a + r + u) (b + s + v) (c + t + w) = .abort) : angType2 lam L m a b c vals = .abort := by
  unfold angType2
  obtain ⟨t1, e1, I1⟩ := rshTable_ok lam hlam
  obtain ⟨t2, e2, I2⟩ := rshTable_ok L hL
  simp only [e1, e2, Outcome.ok_bind, I1.ncart, I1.comb, I2.ncart, I2.comb]
  have idx : ∀ (L u v w : ℕ), u + v + w = L → ∃ i < cartSize L, ascComp L i = (u, v, w) := by
    intro L u v w h
    obtain ⟨i, hi, e⟩ := List.mem_iff_getElem.1 (mem_cartesianAsc.2 h)
    refine ⟨i, by rwa [length_cartesianAsc] at hi, ?_⟩
    rw [ascComp, List.getD_eq_getElem _ _ hi, e]
  -- every innermost loop
  have inner : ∀ mj < 2 * lam + 1, ∀ q : Comp, ∀ y s2 : ℝ,
      (∃ v, (forRange (cartSize lam) s2 fun ir sum2 => do
            let p ← rd (cartesianAsc lam) ir
            let yl ← rd t1.coeffs (mj * cartSize lam + ir)
            if |yl| < zeroThresh then .ok sum2
            else do
              let u ← uspInt (a + p.1 + q.1) (b + p.2.1 + q.2.1) (c + p.2.2 + q.2.2)
              .ok (sum2 + yl * y * u)) = .ok v ∧ True) ∨
      (forRange (cartSize lam) s2 fun ir sum2 => do
            let p ← rd (cartesianAsc lam) ir
            let yl ← rd t1.coeffs (mj * cartSize lam + ir)
            if |yl| < zeroThresh then .ok sum2
            else do
              let u ← uspInt (a + p.1 + q.1) (b + p.2.1 + q.2.1) (c + p.2.2 + q.2.2)
              .ok (sum2 + yl * y * u)) = .abort := by
    intro mj hmj q y s2
    refine forRange_ok_or_abort (fun _ => True) trivial ?_
    intro ir s3 hir _
    rw [rd_ascComp hir]
    simp only [Outcome.ok_bind]
    rw [I1.rd_coef hmj hir]
    simp only [Outcome.ok_bind]
    split_ifs
    · exact Or.inl ⟨_, rfl, trivial⟩
    · rcases uspInt_cases (a + (ascComp lam ir).1 + q.1) (b + (ascComp lam ir).2.1 + q.2.1) (c + (ascComp lam ir).2.2 + q.2.2) with e | e
      · rw [e]
        exact Or.inl ⟨_, rfl, trivial⟩
      · rw [e]
        exact Or.inr rfl
  have middle : ∀ mj < 2 * lam + 1, ∀ iu < cartSize L, ∀ s2 : ℝ,
      (∃ v, (do
        let q ← rd (cartesianAsc L) iu
        let yL ← rdInt t2.coeffs ((m + L) * (cartSize L : ℕ) + iu)
        if |yL| < zeroThresh then .ok s2
        else
          forRange (cartSize lam) s2 fun ir sum2 => do
            let p ← rd (cartesianAsc lam) ir
            let yl ← rd t1.coeffs (mj * cartSize lam + ir)
            if |yl| < zeroThresh then .ok sum2
            else do
              let u ← uspInt (a + p.1 + q.1) (b + p.2.1 + q.2.1) (c + p.2.2 + q.2.2)
              .ok (sum2 + yl * yL * u)) = .ok v ∧ True) ∨ (do
        let q ← rd (cartesianAsc L) iu
        let yL ← rdInt t2.coeffs ((m + L) * (cartSize L : ℕ) + iu)
        if |yL| < zeroThresh then .ok s2
        else
          forRange (cartSize lam) s2 fun ir sum2 => do
            let p ← rd (cartesianAsc lam) ir
            let yl ← rd t1.coeffs (mj * cartSize lam + ir)
            if |yl| < zeroThresh then .ok sum2
            else do
              let u ← uspInt (a + p.1 + q.1) (b + p.2.1 + q.2.1) (c + p.2.2 + q.2.2)
              .ok (sum2 + yl * yL * u)) = Outcome.abort := by
    intro mj hmj iu hiu s2
    rw [rd_ascComp hiu]
    simp only [Outcome.ok_bind]
    rw [I2.rdInt_coef hm hiu]
    simp only [Outcome.ok_bind]
    split_ifs
    · exact Or.inl ⟨_, rfl, trivial⟩
    · exact inner mj hmj _ _ _
  refine forRange_abort_some (fun _ => True) trivial ?_ hmi ?_
  · intro mj s0 hmj _
    rw [rd_ok (by omega)]
    simp only [Outcome.ok_bind]
    split_ifs
    · exact Or.inl ⟨_, rfl, trivial⟩
    · rcases forRange_ok_or_abort (n := cartSize L) (s := (0 : ℝ)) (fun _ => True) trivial (fun iu s2 hiu _ => middle mj hmj iu hiu s2) with ⟨w, e, _⟩ | e
      · rw [e]
        exact Or.inl ⟨_, rfl, trivial⟩
      · rw [e]
        exact Or.inr rfl
  · intro s0 _
    rw [rd_ok (by omega)]
    simp only [Outcome.ok_bind]
    have hval : vals[mi] = vals.getD mi 0 := by rw [List.getD_eq_getElem]
    rw [hval, if_neg hbig]
    obtain ⟨iu, hiu, eu⟩ := idx L u v w huvw
    obtain ⟨ir, hir, er⟩ := idx lam r s t hrst
    have : (forRange (cartSize L) (0 : ℝ) fun iu sum2 => do
        let q ← rd (cartesianAsc L) iu
        let yL ← rdInt t2.coeffs ((m + L) * (cartSize L : ℕ) + iu)
        if |yL| < zeroThresh then .ok sum2
        else
          forRange (cartSize lam) sum2 fun ir sum2 => do
            let p ← rd (cartesianAsc lam) ir
            let yl ← rd t1.coeffs (mi * cartSize lam + ir)
            if |yl| < zeroThresh then .ok sum2
            else do
              let u ← uspInt (a + p.1 + q.1) (b + p.2.1 + q.2.1) (c + p.2.2 + q.2.2)
              .ok (sum2 + yl * yL * u)) = Outcome.abort := by
      refine forRange_abort_some (fun _ => True) trivial (fun iu s2 hiu _ => middle mi hmi iu hiu s2) hiu ?_
      intro s2 _
      rw [rd_ascComp hiu]
      simp only [Outcome.ok_bind]
      rw [I2.rdInt_coef hm hiu]
      simp only [Outcome.ok_bind]
      rw [eu, if_neg (sphVal_large L m u v hL hm hu)]
      refine forRange_abort_some (fun _ => True) trivial ?_ hir ?_
      · intro ir s3 hir _
        rw [rd_ascComp hir]
        simp only [Outcome.ok_bind]
        rw [I1.rd_coef hmi hir]
        simp only [Outcome.ok_bind]
        split_ifs
        · exact Or.inl ⟨_, rfl, trivial⟩
        · rcases uspInt_cases (a + (ascComp lam ir).1 + u) (b + (ascComp lam ir).2.1 + v) (c + (ascComp lam ir).2.2 + w) with e | e
          · rw [e]
            exact Or.inl ⟨_, rfl, trivial⟩
          · rw [e]
            exact Or.inr rfl
      · intro s3 _
        rw [rd_ascComp hir]
        simp only [Outcome.ok_bind]
        rw [I1.rd_coef hmi hir]
        simp only [Outcome.ok_bind]
        rw [er, if_neg (sphVal_large lam _ r s hlam (by omega) hr), hab]
        rfl
    rw [this]
    rfl

theorem sphVal_top (l : ℕ) : sphVal l l l 0 ≠ 0 := by
  have h : sphVal l l l 0 = rshNorm l l * cA l l 0 := by
    simp [sphVal, coefC, cD, innerC]
  rw [h]
  refine mul_ne_zero (rshNorm_pos l l).ne' ?_
  simp [cA, outerC]
  exact ⟨Nat.factorial_ne_zero l, Nat.factorial_ne_zero _⟩

end Libgrpp
