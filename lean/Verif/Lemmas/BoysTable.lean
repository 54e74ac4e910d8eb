import Verif.Model.BoysTable
import Verif.Lemmas.SpecFun

/-! The numbers of `boys_table` are the values of the Boys function to within `4e-15`.

The proof encloses the Boys function by integer arithmetic: the relation `(2n+1) F_n = 2x F_{n+1} + exp(-x)` is run downwards
from order 120, where only `0 ≤ F ≤ 1` is used. The kernel evaluates the enclosures for the whole table. -/

namespace Libgrpp

open MeasureTheory

/-- Three-term relation of the Boys function. -/
theorem boysF_rec (n : ℕ) (x : ℝ) : (2 * (n : ℝ) + 1) * boysF n x = 2 * x * boysF (n + 1) x + Real.exp (-x) := by
  have hd : ∀ t : ℝ, HasDerivAt (fun t : ℝ => t ^ (2 * n + 1) * Real.exp (-x * t ^ 2))
      ((2 * (n : ℝ) + 1) * (t ^ (2 * n) * Real.exp (-x * t ^ 2)) -
        2 * x * (t ^ (2 * (n + 1)) * Real.exp (-x * t ^ 2))) t := by
    intro t
    have h1 := (hasDerivAt_id t).pow (2 * n + 1)
    have h2 := (((hasDerivAt_id t).pow 2).const_mul (-x)).exp
    refine (h1.mul h2).congr_deriv ?_
    simp only [id, Pi.pow_apply, Nat.add_sub_cancel]
    push_cast
    ring
  have hI : ∀ k, IntervalIntegrable (fun t : ℝ => t ^ (2 * k) * Real.exp (-x * t ^ 2)) volume 0 1 :=
    fun k => (continuous_boys_integrand k x).intervalIntegrable _ _
  have key := intervalIntegral.integral_eq_sub_of_hasDerivAt (fun t _ => hd t)
    (((hI n).const_mul (2 * (n : ℝ) + 1)).sub ((hI (n + 1)).const_mul (2 * x)))
  rw [intervalIntegral.integral_sub ((hI n).const_mul _) ((hI (n + 1)).const_mul _), intervalIntegral.integral_const_mul,
    intervalIntegral.integral_const_mul] at key
  unfold boysF
  norm_num at key ⊢
  linarith

theorem boysF_bounds (n : ℕ) {x : ℝ} (hx : 0 ≤ x) : 0 ≤ boysF n x ∧ boysF n x ≤ 1 := by
  unfold boysF
  constructor
  · exact intervalIntegral.integral_nonneg zero_le_one fun t ht => mul_nonneg (pow_nonneg ht.1 _) (Real.exp_pos _).le
  · have : ∫ t in (0 : ℝ)..1, t ^ (2 * n) * Real.exp (-x * t ^ 2) ≤ ∫ t in (0 : ℝ)..1, (1 : ℝ) := by
      refine intervalIntegral.integral_mono_on zero_le_one ((continuous_boys_integrand n x).intervalIntegrable _ _)
        (continuous_const.intervalIntegrable _ _) fun t ht => ?_
      have a1 : t ^ (2 * n) ≤ 1 := pow_le_one₀ ht.1 ht.2
      have a2 : Real.exp (-x * t ^ 2) ≤ 1 := Real.exp_le_one_iff.2 (by nlinarith [sq_nonneg t])
      calc _ ≤ (1 : ℝ) * 1 := mul_le_mul a1 a2 (Real.exp_pos _).le zero_le_one
        _ = 1 := by ring
    simpa using this

/-! ## Enclosures by integers, scale `10^50` -/

/-- `lo/10^50 ≤ v ≤ hi/10^50` -/
def Encl (v : ℝ) (p : ℕ × ℕ) : Prop := (p.1 : ℝ) ≤ v * 10 ^ 50 ∧ v * 10 ^ 50 ≤ (p.2 : ℝ)

/-- From order `n+1` to order `n` for `x = i/10`; `e` encloses `exp(-x)`. -/
def boysStep (i : ℕ) (e : ℕ × ℕ) (n : ℕ) (p : ℕ × ℕ) : ℕ × ℕ :=
  ((i * p.1 + 5 * e.1) / (5 * (2 * n + 1)), (i * p.2 + 5 * e.2) / (5 * (2 * n + 1)) + 1)

theorem boysStep_encl {i n : ℕ} {e p : ℕ × ℕ} (he : Encl (Real.exp (-((i : ℝ) * 0.1))) e)
    (hp : Encl (boysF (n + 1) ((i : ℝ) * 0.1)) p) : Encl (boysF n ((i : ℝ) * 0.1)) (boysStep i e n p) := by
  have hr := boysF_rec n ((i : ℝ) * 0.1)
  generalize boysF n ((i : ℝ) * 0.1) = F at hr ⊢
  generalize boysF (n + 1) ((i : ℝ) * 0.1) = G at hr hp
  generalize Real.exp (-((i : ℝ) * 0.1)) = X at hr he
  obtain ⟨e1, e2⟩ := he
  obtain ⟨p1, p2⟩ := hp
  have hd : (0 : ℝ) < 5 * (2 * (n : ℝ) + 1) := by positivity
  have hi : (0 : ℝ) ≤ i := Nat.cast_nonneg i
  have hF : F * 10 ^ 50 = ((i : ℝ) * (G * 10 ^ 50) + 5 * (X * 10 ^ 50)) / (5 * (2 * (n : ℝ) + 1)) := by
    rw [eq_div_iff hd.ne']
    linear_combination (5 * 10 ^ 50) * hr
  have h1 := mul_le_mul_of_nonneg_left p1 hi
  have h2 := mul_le_mul_of_nonneg_left p2 hi
  unfold boysStep Encl
  rw [hF]
  constructor
  · refine (Nat.cast_div_le (α := ℝ)).trans ?_
    push_cast
    exact div_le_div_of_nonneg_right (by linarith) hd.le
  · have h3 : (((i * p.2 + 5 * e.2 : ℕ) : ℝ)) / ((5 * (2 * n + 1) : ℕ) : ℝ) <
        (((i * p.2 + 5 * e.2) / (5 * (2 * n + 1)) : ℕ) : ℝ) + 1 := by
      have hlt := Nat.lt_div_mul_add (a := i * p.2 + 5 * e.2) (b := 5 * (2 * n + 1)) (by omega)
      rw [div_lt_iff₀ (by push_cast; exact hd)]
      have : (((i * p.2 + 5 * e.2 : ℕ) : ℝ)) < (((i * p.2 + 5 * e.2) / (5 * (2 * n + 1)) * (5 * (2 * n + 1)) +
        5 * (2 * n + 1) : ℕ) : ℝ) := by exact_mod_cast hlt
      push_cast at this ⊢
      linarith
    push_cast at h3 ⊢
    refine le_trans ?_ h3.le
    exact div_le_div_of_nonneg_right (by linarith) hd.le

/-- Enclosure of order `120 - d`. -/
def boysTop (i : ℕ) (e : ℕ × ℕ) : ℕ → ℕ × ℕ
  | 0 => (0, 10 ^ 50)
  | d + 1 => boysStep i e (119 - d) (boysTop i e d)

theorem boysTop_encl {i : ℕ} {e : ℕ × ℕ} (he : Encl (Real.exp (-((i : ℝ) * 0.1))) e) (d : ℕ) (hd : d ≤ 120) :
    Encl (boysF (120 - d) ((i : ℝ) * 0.1)) (boysTop i e d) := by
  induction d with
  | zero =>
    obtain ⟨h1, h2⟩ := boysF_bounds 120 (x := (i : ℝ) * 0.1) (by positivity)
    constructor
    · simp only [boysTop]; push_cast; positivity
    · simp only [boysTop]; push_cast; nlinarith
  | succ d ih =>
    have := ih (by omega)
    rw [show 120 - d = 119 - d + 1 by omega] at this
    rw [show 120 - (d + 1) = 119 - d by omega]
    exact boysStep_encl he this

/-- Compare a reversed row, whose head is order `n`. -/
def checkRev (i : ℕ) (e : ℕ × ℕ) : List ℕ → ℕ → ℕ × ℕ → Bool
  | [], _, _ => true
  | t :: ts, n, p => Nat.ble (t * 10 ^ 18) (p.1 + 4 * 10 ^ 35) && Nat.ble p.2 (t * 10 ^ 18 + 4 * 10 ^ 35) &&
      checkRev i e ts (n - 1) (boysStep i e (n - 1) p)

theorem checkRev_sound {i : ℕ} {e : ℕ × ℕ} (he : Encl (Real.exp (-((i : ℝ) * 0.1))) e) (l : List ℕ) (n : ℕ) (p : ℕ × ℕ)
    (hn : l.length ≤ n + 1) (hp : Encl (boysF n ((i : ℝ) * 0.1)) p) (h : checkRev i e l n p = true) (k : ℕ)
    (hk : k < l.length) : |(l.getD k 0 : ℝ) / 10 ^ 32 - boysF (n - k) ((i : ℝ) * 0.1)| ≤ 4e-15 := by
  induction l generalizing n p k with
  | nil => simp at hk
  | cons t ts ih =>
    simp only [checkRev, Bool.and_eq_true, Nat.ble_eq] at h
    obtain ⟨⟨h1, h2⟩, h3⟩ := h
    rcases k with _ | k
    · simp only [List.getD_cons_zero, Nat.sub_zero]
      obtain ⟨p1, p2⟩ := hp
      have h1' : ((t * 10 ^ 18 : ℕ) : ℝ) ≤ ((p.1 + 4 * 10 ^ 35 : ℕ) : ℝ) := by exact_mod_cast h1
      have h2' : (p.2 : ℝ) ≤ ((t * 10 ^ 18 + 4 * 10 ^ 35 : ℕ) : ℝ) := by exact_mod_cast h2
      push_cast at h1' h2'
      generalize boysF n ((i : ℝ) * 0.1) = F at p1 p2 ⊢
      rw [abs_le]
      constructor
      · rw [le_sub_iff_add_le, le_div_iff₀ (by positivity)]; norm_num at *; linarith
      · rw [sub_le_iff_le_add, div_le_iff₀ (by positivity)]; norm_num at *; linarith
    · simp only [List.length_cons] at hk hn
      simp only [List.getD_cons_succ]
      have hn' : n = n - 1 + 1 := by omega
      rw [hn'] at hp
      have := ih (n - 1) _ (by omega) (boysStep_encl he hp) h3 k (by omega)
      rw [show n - (k + 1) = n - 1 - k by omega]
      exact this

/-- Lower bound of `exp(-0.1)`, scale `10^50`; the upper bound is one more. -/
def expTenth : ℕ := 90483741803595957316424905944643662119470536098040

/-- Enclosure of `exp(-0.1 i)`. -/
def expStep (e : ℕ × ℕ) : ℕ × ℕ := (e.1 * expTenth / 10 ^ 50, e.2 * (expTenth + 1) / 10 ^ 50 + 1)

/-- Check all rows from row `i` on. -/
def checkRows : List (List ℕ) → ℕ → ℕ × ℕ → Bool
  | [], _, _ => true
  | r :: rs, i, e => Nat.beq r.length 40 && checkRev i e r.reverse 39 (boysTop i e 81) && checkRows rs (i + 1) (expStep e)

theorem expTenth_encl : Encl (Real.exp (-0.1)) (expTenth, expTenth + 1) := by
  have h := Real.exp_bound (x := -0.1) (n := 32) (by norm_num) (by norm_num)
  rw [abs_le] at h
  simp only [Finset.sum_range_succ, Finset.range_zero, Finset.sum_empty] at h
  norm_num [Nat.factorial] at h
  rw [show (-0.1 : ℝ) = -(1 / 10) by norm_num]
  unfold Encl expTenth
  obtain ⟨h1, h2⟩ := h
  generalize Real.exp (-(1 / 10)) = X at *
  norm_num
  constructor <;> linarith

theorem natDiv_encl {S a b c d : ℕ} (hS : 0 < S) {X Y : ℝ} (hX : 0 ≤ X) (hY : 0 ≤ Y) (h1 : (a : ℝ) ≤ X * S)
    (h2 : X * S ≤ (b : ℝ)) (h3 : (c : ℝ) ≤ Y * S) (h4 : Y * S ≤ (d : ℝ)) :
    ((a * c / S : ℕ) : ℝ) ≤ X * Y * S ∧ X * Y * S ≤ ((b * d / S + 1 : ℕ) : ℝ) := by
  have hS' : (0 : ℝ) < S := by exact_mod_cast hS
  constructor
  · refine (Nat.cast_div_le (α := ℝ)).trans ?_
    push_cast
    rw [div_le_iff₀ hS']
    calc (a : ℝ) * c ≤ X * S * (Y * S) := mul_le_mul h1 h3 (Nat.cast_nonneg _) (by positivity)
      _ = _ := by ring
  · have hlt := Nat.lt_div_mul_add (a := b * d) (b := S) hS
    have h5 : ((b * d : ℕ) : ℝ) < ((b * d / S * S + S : ℕ) : ℝ) := by exact_mod_cast hlt
    have h6 : X * S * (Y * S) ≤ (b : ℝ) * d := mul_le_mul h2 h4 (by positivity) (Nat.cast_nonneg _)
    generalize b * d / S = D at *
    push_cast at h5 ⊢
    have h7 : X * Y * S * S ≤ ((D : ℝ) + 1) * S := by nlinarith
    exact le_of_mul_le_mul_right h7 hS'

theorem expStep_encl {i : ℕ} {e : ℕ × ℕ} (he : Encl (Real.exp (-((i : ℝ) * 0.1))) e) :
    Encl (Real.exp (-(((i + 1 : ℕ) : ℝ) * 0.1))) (expStep e) := by
  have ha := expTenth_encl
  have hx : Real.exp (-(((i + 1 : ℕ) : ℝ) * 0.1)) = Real.exp (-((i : ℝ) * 0.1)) * Real.exp (-0.1) := by
    rw [← Real.exp_add]; congr 1; push_cast; ring
  rw [hx]
  unfold expStep
  unfold Encl at he ha ⊢
  rw [show (10 : ℝ) ^ 50 = ((10 ^ 50 : ℕ) : ℝ) by norm_cast] at he ha ⊢
  have hS : 0 < 10 ^ 50 := by positivity
  generalize 10 ^ 50 = S at *
  exact natDiv_encl hS (Real.exp_pos _).le (Real.exp_pos _).le he.1 he.2 ha.1 ha.2

theorem checkRows_sound (rs : List (List ℕ)) (i : ℕ) (e : ℕ × ℕ) (he : Encl (Real.exp (-((i : ℝ) * 0.1))) e)
    (h : checkRows rs i e = true) (j : ℕ) (hj : j < rs.length) (k : ℕ) (hk : k < 40) :
    |((rs.getD j []).getD k 0 : ℝ) / 10 ^ 32 - boysF k (((i + j : ℕ) : ℝ) * 0.1)| ≤ 4e-15 := by
  induction rs generalizing i e j with
  | nil => simp at hj
  | cons r rs ih =>
    simp only [checkRows, Bool.and_eq_true] at h
    obtain ⟨⟨h1, h2⟩, h3⟩ := h
    have h1 := Nat.eq_of_beq_eq_true h1
    rcases j with _ | j
    · have := checkRev_sound he r.reverse 39 _ (by simp [h1]) (boysTop_encl he 81 (by norm_num)) h2 (39 - k)
        (by simp [h1]; omega)
      rw [show 39 - (39 - k) = k by omega] at this
      have e' : r.reverse.getD (39 - k) 0 = r.getD k 0 := by
        have hl : r.reverse.length = 40 := by simp [h1]
        have a1 : 39 - k < r.reverse.length := by omega
        have a2 : k < r.length := by omega
        simp only [List.getD, List.getElem?_eq_getElem a1, List.getElem?_eq_getElem a2, Option.getD_some,
          List.getElem_reverse]
        congr 1
        omega
      rw [e'] at this
      simpa using this
    · have := ih (i + 1) _ (expStep_encl he) h3 j (by simpa using hj)
      rw [show i + (j + 1) = i + 1 + j by ring]
      simpa using this

theorem boysRows_checked : checkRows boysRows 0 (10 ^ 50, 10 ^ 50) = true := by decide +kernel

theorem boysRows_length : boysRows.length = 301 := by decide +kernel

/-- Every number of the table. -/
theorem boysLiteral_close (i : Fin 301) (k : Fin 40) : |boysLiteral i k - boysF k.val ((i.val : ℝ) * 0.1)| ≤ 4e-15 := by
  have h0 : Encl (Real.exp (-(((0 : ℕ) : ℝ) * 0.1))) (10 ^ 50, 10 ^ 50) := by
    unfold Encl; norm_num
  have := checkRows_sound boysRows 0 _ h0 boysRows_checked i.val (by rw [boysRows_length]; exact i.isLt) k.val k.isLt
  rw [Nat.zero_add] at this
  exact this

/-- Error of the Taylor polynomial when the tabulated values have errors. -/
theorem boysTaylor_perturb {f g : ℕ → ℝ} {n : ℕ} {dx ε : ℝ} (hdx : |dx| ≤ 0.05) (hε : 0 ≤ ε)
    (h : ∀ k, k ≤ n + 6 → |f k - g k| ≤ ε) : |boysTaylor f n dx - boysTaylor g n dx| ≤ 1.06 * ε := by
  have e : boysTaylor f n dx - boysTaylor g n dx = ∑ m ∈ Finset.range 7, (f (n + m) - g (n + m)) * ((-dx) ^ m / (m.factorial : ℝ)) := by
    simp only [Finset.sum_range_succ, Finset.range_zero, Finset.sum_empty, boysTaylor]
    norm_num [Nat.factorial]
    ring
  rw [e]
  calc _ ≤ ∑ m ∈ Finset.range 7, |(f (n + m) - g (n + m)) * ((-dx) ^ m / (m.factorial : ℝ))| :=
        Finset.abs_sum_le_sum_abs _ _
    _ ≤ ∑ m ∈ Finset.range 7, ε * (0.05 ^ m / (m.factorial : ℝ)) := by
        refine Finset.sum_le_sum fun m hm => ?_
        rw [Finset.mem_range] at hm
        rw [abs_mul, abs_div, abs_pow, abs_neg, abs_of_nonneg (Nat.cast_nonneg (α := ℝ) m.factorial)]
        refine mul_le_mul (h _ (by omega)) ?_ (by positivity) hε
        exact div_le_div_of_nonneg_right (pow_le_pow_left₀ (abs_nonneg _) hdx m) (Nat.cast_nonneg _)
    _ = ε * ∑ m ∈ Finset.range 7, (0.05 ^ m / (m.factorial : ℝ)) := by rw [Finset.mul_sum]
    _ ≤ ε * 1.06 := by
        refine mul_le_mul_of_nonneg_left ?_ hε
        simp only [Finset.sum_range_succ, Finset.range_zero, Finset.sum_empty]
        norm_num [Nat.factorial]
    _ = _ := by ring

/-- Accuracy of the Boys function with a table of given accuracy. -/
theorem boysFunction_close (tab : BoysTable) {ε : ℝ} (hε : 0 ≤ ε)
    (htab : ∀ (i : Fin 301) (k : Fin 40), |tab i k - boysF k.val ((i.val : ℝ) * 0.1)| ≤ ε)
    (n : Nat) (x : ℝ) (hx : 0 ≤ x) (h : x ≤ 30 ∧ n ≤ 33 ∨ n ≤ 15) :
    ∃ v, boysFunction tab n x = .ok v ∧ |v - boysF n x| ≤ 1.2e-14 + 1.06 * ε := by
  by_cases h30 : x ≤ 30
  · have hn : n ≤ 33 := by rcases h with h | h <;> omega
    refine ⟨_, boysFunction_small tab hx h30 hn, ?_⟩
    obtain ⟨r0, r1⟩ := boysRow_range hx h30
    have hc := boysRow_close hx
    have e : ∀ k, k ≤ n + 6 → |boysAt tab (boysRow x) k - boysF k ((boysRow x : ℝ) * 0.1)| ≤ ε := by
      intro k hk
      have hk' : k < 40 := by omega
      unfold boysAt
      rw [dif_pos ⟨r0, r1, hk'⟩]
      have h1 := htab ⟨(boysRow x).toNat, by omega⟩ ⟨k, hk'⟩
      have h2 : (((boysRow x).toNat : ℕ) : ℝ) = (boysRow x : ℝ) := by
        have : ((boysRow x).toNat : ℤ) = boysRow x := Int.toNat_of_nonneg r0
        exact_mod_cast this
      simp only [h2] at h1
      exact h1
    have h1 := boysTaylor_perturb (g := fun k => boysF k ((boysRow x : ℝ) * 0.1)) hc hε e
    have h2 := boysTaylor_close n (x0 := (boysRow x : ℝ) * 0.1)
      (by have : (0 : ℝ) ≤ boysRow x := by exact_mod_cast r0
          positivity) hc
    rw [add_sub_cancel] at h2
    have := abs_sub_le (boysTaylor (boysAt tab (boysRow x)) n (x - (boysRow x : ℝ) * 0.1))
      (boysTaylor (fun k => boysF k ((boysRow x : ℝ) * 0.1)) n (x - (boysRow x : ℝ) * 0.1)) (boysF n x)
    linarith
  · have hn : n ≤ 15 := by
      rcases h with h | h
      · exact absurd h.1 h30
      · exact h
    refine ⟨_, boysFunction_large tab (not_le.1 h30) hn, (boysAsym_close hn (not_le.1 h30)).trans ?_⟩
    norm_num
    linarith

end Libgrpp
