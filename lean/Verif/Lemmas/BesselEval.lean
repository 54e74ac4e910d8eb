import Verif.Lemmas.BesselSound

/-! # Evaluation of the scaled modified spherical Bessel functions -/

namespace Libgrpp

theorem btGet_ok {t : BesselTab} {i l k : ℕ} (h : i < 2000 ∧ l < 60 ∧ k < 10) : btGet t i l k = .ok (t i l k) := if_pos h

theorem besselDerivative_eq {t : BesselTab} {n lam ix : ℕ} (hi : ix < 2000) (hl : lam + 1 < 60) (hn : n < 10) :
    besselDerivative t (n + 1) lam ix = .ok (besDer (fun l => t ix l n) lam) := by
  unfold besselDerivative
  rw [if_neg (by omega), Nat.add_sub_cancel]
  rw [btGet_ok ⟨hi, hl, hn⟩, btGet_ok (l := lam) ⟨hi, by omega, hn⟩]
  by_cases h : 0 < lam
  · simp only [if_pos h, btGet_ok (t := t) (l := lam - 1) ⟨hi, by omega, hn⟩, Outcome.ok_bind]
    unfold besDer
    congr 1
    ring
  · have : lam = 0 := by omega
    subst this
    simp only [if_neg h, Outcome.ok_bind]
    unfold besDer
    congr 1
    simp

/-- What `pretabulate_bessel` leaves in row `i`. -/
def RowDone (t : BesselTab) (i : ℕ) : Prop :=
  (∀ l < 60, t i l 0 = besselLiteral i l) ∧ ∀ k < 4, ∀ l < 55, t i l (k + 1) = besDer (fun l => t i l k) l

theorem pretabulateRow_spec (i : ℕ) (hi : i < 1601) (t : BesselTab) :
    ∃ t', pretabulateRow i t = .ok t' ∧ (∀ a, a ≠ i → t' a = t a) ∧ RowDone t' i := by
  unfold pretabulateRow
  have h1 : ∃ t1, (forRange 60 t fun lam t => do
      let v ← besselLitGet i lam
      btSet t i lam 0 v) = .ok t1 ∧ (∀ a, a ≠ i → t1 a = t a) ∧ ∀ l < 60, t1 i l 0 = besselLiteral i l := by
    refine forRange_spec (fun n t1 => (∀ a, a ≠ i → t1 a = t a) ∧ ∀ l < n, t1 i l 0 = besselLiteral i l) ?_ ?_ ?_
    · exact ⟨fun _ _ => rfl, fun l hl => by omega⟩
    · rintro n s hn ⟨a1, a2⟩
      simp only [besselLitGet, if_pos (show i < 1601 ∧ n < 60 from ⟨hi, hn⟩), Outcome.ok_bind, btSet,
        if_pos (show i < 2000 ∧ n < 60 ∧ 0 < 10 from ⟨by omega, hn, by norm_num⟩)]
      refine ⟨_, rfl, fun a ha => ?_, fun l hl => ?_⟩
      · funext b c
        rw [if_neg (by simp [ha]), a1 a ha]
      · by_cases hln : l = n
        · subst hln; simp
        · rw [if_neg (by simp [hln])]
          exact a2 l (by omega)
    · intro s hs; exact hs
  obtain ⟨t1, e1, b1, b2⟩ := h1
  rw [e1, Outcome.ok_bind]
  refine forRange_spec (fun n s => (∀ a, a ≠ i → s a = t a) ∧ (∀ l < 60, s i l 0 = besselLiteral i l) ∧
    ∀ k < n, ∀ l < 55, s i l (k + 1) = besDer (fun l => s i l k) l) ?_ ?_ ?_
  · exact ⟨b1, b2, fun k hk => by omega⟩
  · rintro n s hn ⟨a1, a2, a3⟩
    refine forRange_spec (fun m u => (∀ a, a ≠ i → u a = t a) ∧ (∀ l k, k ≤ n → u i l k = s i l k) ∧
      ∀ l < m, u i l (n + 1) = besDer (fun l => s i l n) l) ?_ ?_ ?_
    · exact ⟨a1, fun _ _ _ => rfl, fun l hl => by omega⟩
    · rintro m u hm ⟨c1, c2, c3⟩
      rw [besselDerivative_eq (by omega) (by omega) (by omega), Outcome.ok_bind]
      unfold btSet
      rw [if_pos ⟨by omega, by omega, by omega⟩]
      refine ⟨_, rfl, fun a ha => ?_, fun l k hk => ?_, fun l hl => ?_⟩
      · funext b c
        rw [if_neg (by simp [ha]), c1 a ha]
      · rw [if_neg (by omega)]
        exact c2 l k hk
      · by_cases hlm : l = m
        · subst hlm
          rw [if_pos ⟨rfl, rfl, rfl⟩]
          congr 1
          funext l
          exact c2 l n le_rfl
        · rw [if_neg (by simp [hlm])]
          exact c3 l (by omega)
    · rintro u ⟨c1, c2, c3⟩
      refine ⟨c1, fun l hl => by rw [c2 l 0 (by omega)]; exact a2 l hl, fun k hk l hl => ?_⟩
      rcases Nat.lt_succ_iff_lt_or_eq.1 hk with hk | rfl
      · rw [c2 l (k + 1) (by omega), a3 k hk l hl]
        congr 1
        funext l
        exact (c2 l k (by omega)).symm
      · rw [c3 l hl]
        congr 1
        funext l
        exact (c2 l k le_rfl).symm
  · rintro s ⟨a1, a2, a3⟩
    exact ⟨a1, a2, a3⟩

theorem pretabulateBessel_spec (t : BesselTab) : ∃ t', pretabulateBessel t = .ok t' ∧ ∀ i < 1601, RowDone t' i := by
  unfold pretabulateBessel
  refine forRange_spec (fun n s => ∀ i < n, RowDone s i) (fun i hi => by omega) ?_ (fun s hs => hs)
  intro n s hn hs
  obtain ⟨u, e, h1, h2⟩ := pretabulateRow_spec n hn s
  refine ⟨u, e, fun i hi => ?_⟩
  rcases Nat.lt_succ_iff_lt_or_eq.1 hi with hi | rfl
  · unfold RowDone
    rw [h1 i (by omega)]
    exact hs i hi
  · exact h2

/-- Error of the tabulated derivatives. -/
theorem rowDone_close {t : BesselTab} {i : ℕ} (hi : i ≤ 1600) (h : RowDone t i) (k l : ℕ) (hk : k ≤ 4) (hl : l + k ≤ 55) :
    |t i l k - besChain k l ((i : ℝ) * 0.01)| ≤ 2 ^ k * 7e-15 := by
  induction k generalizing l with
  | zero =>
    rw [h.1 l (by omega), pow_zero, one_mul]
    exact (besselLiteral_close i l hi (by omega)).2
  | succ k ih =>
    rw [h.2 k (by omega) l (by omega)]
    simp only [besChain]
    rw [besDer_sub, pow_succ]
    have := besDer_abs (f := fun l => t i l k - besChain k l ((i : ℝ) * 0.01)) l (ih (l - 1) (by omega) (by omega))
      (ih (l + 1) (by omega) (by omega)) (ih l (by omega) (by omega))
    refine this.trans (le_of_eq ?_)
    ring

/-- The grid point. -/
theorem besIndex {x : ℝ} (hx : 0 ≤ x) (hx2 : x ≤ 16) :
    (truncInt ((roundC (x * 100) : ℝ) + 1e-5)).toNat ≤ 1600 ∧ |x - ((truncInt ((roundC (x * 100) : ℝ) + 1e-5)).toNat : ℝ) * 0.01| ≤ 0.005 := by
  have h0 : 0 ≤ x * 100 := by linarith
  have e1 : roundC (x * 100) = ⌊x * 100 + 1 / 2⌋ := if_pos h0
  have hf : 0 ≤ ⌊x * 100 + 1 / 2⌋ := Int.floor_nonneg.2 (by linarith)
  have e2 : truncInt ((roundC (x * 100) : ℝ) + 1e-5) = ⌊x * 100 + 1 / 2⌋ := by
    rw [e1, truncInt, if_pos (by have : (0 : ℝ) ≤ (⌊x * 100 + 1 / 2⌋ : ℤ) := by exact_mod_cast hf
                                 linarith)]
    rw [Int.floor_intCast_add, show ⌊(1e-5 : ℝ)⌋ = 0 by rw [Int.floor_eq_zero_iff]; norm_num, add_zero]
  rw [e2]
  have a1 := Int.floor_le (x * 100 + 1 / 2)
  have a2 := Int.lt_floor_add_one (x * 100 + 1 / 2)
  have hc : ((⌊x * 100 + 1 / 2⌋.toNat : ℕ) : ℝ) = ((⌊x * 100 + 1 / 2⌋ : ℤ) : ℝ) := by
    rw [← Int.cast_natCast, Int.toNat_of_nonneg hf]
  constructor
  · have : ⌊x * 100 + 1 / 2⌋ < 1601 := by
      rw [Int.floor_lt]; push_cast; linarith
    omega
  · rw [hc, abs_le]
    constructor <;> linarith

theorem besselScaled_mid {t : BesselTab} (ht : ∀ i < 1601, RowDone t i) {n : ℕ} (hn : n ≤ 51) {x : ℝ} (h1 : 1e-7 < x) (h2 : x ≤ 16) :
    ∃ v, besselScaled t n x = .ok v ∧ |v - besselK n x| ≤ 4.3e-13 := by
  have hx : 0 ≤ x := by linarith
  obtain ⟨hi, hd⟩ := besIndex hx h2
  unfold besselScaled
  rw [if_neg (by linarith), if_pos h2]
  generalize (truncInt ((roundC (x * 100) : ℝ) + 1e-5)).toNat = i at *
  have hb : ∀ k < 10, btGet t i n k = .ok (t i n k) := fun k hk => btGet_ok ⟨by omega, by omega, hk⟩
  simp only [hb 0 (by norm_num), hb 1 (by norm_num), hb 2 (by norm_num), hb 3 (by norm_num), hb 4 (by norm_num), Outcome.ok_bind]
  refine ⟨_, rfl, ?_⟩
  have hT := besChain_taylor n 4 (x := (i : ℝ) * 0.01) (y := x) (by positivity) hx
  have c0 := rowDone_close hi (ht i (by omega)) 0 n (by norm_num) (by omega)
  have c1 := rowDone_close hi (ht i (by omega)) 1 n (by norm_num) (by omega)
  have c2 := rowDone_close hi (ht i (by omega)) 2 n (by norm_num) (by omega)
  have c3 := rowDone_close hi (ht i (by omega)) 3 n (by norm_num) (by omega)
  have c4 := rowDone_close hi (ht i (by omega)) 4 n (by norm_num) (by omega)
  generalize (i : ℝ) * 0.01 = x0 at *
  simp only [Finset.sum_range_succ, Finset.sum_range_zero, Nat.factorial] at hT
  norm_num only [Nat.cast_one, Nat.cast_ofNat] at hT
  generalize besselK n x = K at *
  generalize besChain 0 n x0 = b0 at *
  generalize besChain 1 n x0 = b1 at *
  generalize besChain 2 n x0 = b2 at *
  generalize besChain 3 n x0 = b3 at *
  generalize besChain 4 n x0 = b4 at *
  generalize t i n 0 = d0 at *
  generalize t i n 1 = d1 at *
  generalize t i n 2 = d2 at *
  generalize t i n 3 = d3 at *
  generalize t i n 4 = d4 at *
  have hdx : ∀ h, x - x0 = h → |h| ≤ 0.005 → |d0 + d1 * h + d2 * (h * h) * 0.5 + d3 * (h * h * h) * (1 / 6) + d4 * (h * h * h * h) * (1 / 24) - K| ≤ 4.3e-13 := by
    intro h hh hb
    rw [hh] at hT
    have p2 : |h| ^ 2 ≤ 0.005 ^ 2 := pow_le_pow_left₀ (abs_nonneg _) hb 2
    have p3 : |h| ^ 3 ≤ 0.005 ^ 3 := pow_le_pow_left₀ (abs_nonneg _) hb 3
    have p4 : |h| ^ 4 ≤ 0.005 ^ 4 := pow_le_pow_left₀ (abs_nonneg _) hb 4
    have p5 : |h| ^ 5 ≤ 0.005 ^ 5 := pow_le_pow_left₀ (abs_nonneg _) hb 5
    have q1 : |(d1 - b1) * h| ≤ (2 ^ 1 * 7e-15) * 0.005 := by rw [abs_mul]; exact mul_le_mul c1 hb (abs_nonneg _) (by norm_num)
    have q2 : |(d2 - b2) * h ^ 2| ≤ (2 ^ 2 * 7e-15) * 0.005 ^ 2 := by rw [abs_mul, abs_pow]; exact mul_le_mul c2 p2 (by positivity) (by norm_num)
    have q3 : |(d3 - b3) * h ^ 3| ≤ (2 ^ 3 * 7e-15) * 0.005 ^ 3 := by rw [abs_mul, abs_pow]; exact mul_le_mul c3 p3 (by positivity) (by norm_num)
    have q4 : |(d4 - b4) * h ^ 4| ≤ (2 ^ 4 * 7e-15) * 0.005 ^ 4 := by rw [abs_mul, abs_pow]; exact mul_le_mul c4 p4 (by positivity) (by norm_num)
    have e : d0 + d1 * h + d2 * (h * h) * 0.5 + d3 * (h * h * h) * (1 / 6) + d4 * (h * h * h * h) * (1 / 24) - K =
      (d0 - b0) + (d1 - b1) * h + (d2 - b2) * h ^ 2 / 2 + (d3 - b3) * h ^ 3 / 6 + (d4 - b4) * h ^ 4 / 24 -
        (K - (b0 + b1 * h + b2 * h ^ 2 / 2 + b3 * h ^ 3 / 6 + b4 * h ^ 4 / 24)) := by ring
    rw [e]
    have hT' : |K - (b0 + b1 * h + b2 * h ^ 2 / 2 + b3 * h ^ 3 / 6 + b4 * h ^ 4 / 24)| ≤ 16 * (|h| ^ 5 / 120) := by
      refine le_of_eq_of_le ?_ hT
      congr 1
      ring
    generalize K - (b0 + b1 * h + b2 * h ^ 2 / 2 + b3 * h ^ 3 / 6 + b4 * h ^ 4 / 24) = R at *
    generalize (d1 - b1) * h = r1 at *
    generalize (d2 - b2) * h ^ 2 = r2 at *
    generalize (d3 - b3) * h ^ 3 = r3 at *
    generalize (d4 - b4) * h ^ 4 = r4 at *
    generalize |h| ^ 5 = h5 at *
    rw [abs_le] at *
    norm_num at *
    constructor <;> linarith
  exact hdx _ rfl hd

theorem besselScaled_small (t : BesselTab) (n : ℕ) {x : ℝ} (h0 : 0 ≤ x) (h1 : x ≤ 1e-7) :
    ∃ v, besselScaled t n x = .ok v ∧ |v - besselK n x| ≤ 1.4e-14 := by
  have hT := besChain_taylor n 1 (x := 0) (y := x) le_rfl h0
  simp only [Finset.sum_range_succ, Finset.sum_range_zero, sub_zero, besChain, besDer, besselK_zero_arg] at hT
  norm_num [Nat.factorial] at hT
  have hx2 : x ^ 2 ≤ 1e-14 := by nlinarith
  have hx2' : 0 ≤ x ^ 2 := sq_nonneg x
  unfold besselScaled
  rw [if_pos h1]
  rcases n with _ | _ | _ | n
  · refine ⟨_, rfl, ?_⟩
    norm_num at hT
    rw [abs_le] at hT ⊢
    constructor <;> nlinarith
  · refine ⟨_, rfl, ?_⟩
    norm_num at hT
    rw [abs_le] at hT ⊢
    constructor <;> nlinarith
  · refine ⟨_, rfl, ?_⟩
    norm_num at hT
    rw [abs_le] at hT ⊢
    have : x * x ^ 2 ≤ 1 * 1e-14 := mul_le_mul (by linarith) hx2 hx2' (by norm_num)
    have : 0 ≤ x * x ^ 2 := by positivity
    constructor <;> nlinarith
  · refine ⟨_, rfl, ?_⟩
    norm_num at hT
    rw [abs_le] at hT ⊢
    constructor <;> nlinarith

/-! ## Large arguments -/

/-- Check a row of `rfun_coeffs`. -/
def rfunRowOk (n r : ℕ) : ℕ → Bool
  | 0 => true
  | k + 1 => (let e := r / 10 ^ (20 * k) % 10 ^ 20
    let c := rCoef n k
    let v := e / 1000 * 10 ^ (e % 1000)
    Nat.ble (v * 10 ^ 18) (c * 10 ^ 16 * 1000000000000000140 ) && Nat.ble (c * 10 ^ 16 * 999999999999999860) (v * 10 ^ 18)) && rfunRowOk n r k

/-- Rows of `rfun_coeffs` from `n` on, with the exact rows. -/
def rfunOk : ℕ → Bool
  | 0 => true
  | n + 1 => rfunRowOk n (rfunRows.getD n 0) (n + 1) && rfunOk n

theorem rfunRowOk_sound (n r m : ℕ) (h : rfunRowOk n r m = true) (k : ℕ) (hk : k < m) :
    |((r / 10 ^ (20 * k) % 10 ^ 20 / 1000 : ℕ) : ℝ) * 10 ^ (r / 10 ^ (20 * k) % 10 ^ 20 % 1000) / 10 ^ 16 - (rCoef n k : ℝ)| ≤ 1.4e-16 * (rCoef n k : ℝ) := by
  induction m with
  | zero => omega
  | succ m ih =>
    simp only [rfunRowOk, Bool.and_eq_true, Nat.ble_eq] at h
    rcases Nat.lt_succ_iff_lt_or_eq.1 hk with hk | rfl
    · exact ih h.2 hk
    · obtain ⟨⟨h1, h2⟩, -⟩ := h
      generalize r / 10 ^ (20 * k) % 10 ^ 20 = e at *
      have h1' : (((e / 1000 * 10 ^ (e % 1000) : ℕ) : ℝ)) * 10 ^ 18 ≤ (rCoef n k : ℝ) * 10 ^ 16 * 1000000000000000140 := by exact_mod_cast h1
      have h2' : (rCoef n k : ℝ) * 10 ^ 16 * 999999999999999860 ≤ (((e / 1000 * 10 ^ (e % 1000) : ℕ) : ℝ)) * 10 ^ 18 := by exact_mod_cast h2
      push_cast at h1' h2'
      generalize ((e / 1000 : ℕ) : ℝ) * 10 ^ (e % 1000) = v at *
      generalize (rCoef n k : ℝ) = c at *
      rw [abs_le]
      norm_num at *
      constructor <;> linarith

theorem rfunOk_all : rfunOk 50 = true := by decide +kernel

theorem rfunOk_sound (N : ℕ) (h : rfunOk N = true) (n : ℕ) (hn : n < N) : rfunRowOk n (rfunRows.getD n 0) (n + 1) = true := by
  induction N with
  | zero => omega
  | succ N ih =>
    simp only [rfunOk, Bool.and_eq_true] at h
    rcases Nat.lt_succ_iff_lt_or_eq.1 hn with hn | rfl
    · exact ih h.2 hn
    · exact h.1

theorem rfunLiteral_close {n k : ℕ} (hn : n < 50) (hk : k ≤ n) : |rfunLiteral n k - rCoef n k| ≤ 1.4e-16 * rCoef n k :=
  rfunRowOk_sound n _ _ (rfunOk_sound 50 rfunOk_all n hn) k (by omega)

theorem besselR_eq {n : ℕ} (hn : n < 50) (x : ℝ) : besselR n x = .ok (∑ k ∈ Finset.range (n + 1), rfunLiteral n k * (1 / x) ^ k) := by
  unfold besselR
  have h : ∃ s, (forRange (n + 1) ((0, 1) : ℝ × ℝ) fun k s => do
      let c ← rfunGet n k
      .ok (s.1 + c * s.2, s.2 * (1 / x))) = .ok s ∧ s.1 = ∑ k ∈ Finset.range (n + 1), rfunLiteral n k * (1 / x) ^ k := by
    refine forRange_spec (fun m s => s = (∑ k ∈ Finset.range m, rfunLiteral n k * (1 / x) ^ k, (1 / x) ^ m)) (by simp) ?_
      (fun s hs => by rw [hs])
    rintro m s hm rfl
    simp only [rfunGet, if_pos (show n < 50 ∧ m < 50 from ⟨hn, by omega⟩), Outcome.ok_bind]
    exact ⟨_, rfl, by rw [Finset.sum_range_succ, pow_succ]⟩
  obtain ⟨s, e, h⟩ := h
  simp only [e, Outcome.ok_bind, h]

theorem besR_nonneg (n : ℕ) {x : ℝ} (hx : 0 < x) : 0 ≤ besR n x := Finset.sum_nonneg fun k _ => by positivity

/-- Error for `x > 16`, for all orders within the array. -/
theorem besselScaled_large (t : BesselTab) {n : ℕ} (hn : n < 50) {x : ℝ} (hx : 16 < x) :
    ∃ v, besselScaled t n x = .ok v ∧
      |v - besselK n x - (-1) ^ n * Real.exp (-(2 * x)) * besR n x / (2 * x)| ≤ 1.4e-16 * (besR n x / (2 * x)) := by
  have hx0 : 0 < x := by linarith
  unfold besselScaled
  rw [if_neg (by norm_num; linarith), if_neg (by linarith), besselR_eq hn]
  refine ⟨_, rfl, ?_⟩
  rw [besselK_closed n hx0.ne', show ∀ a b c d : ℝ, a / d - (b / d - c) - c = (a - b) / d by intros; ring, abs_div,
    abs_of_pos (by positivity : 0 < 2 * x), ← mul_div_assoc]
  refine div_le_div_of_nonneg_right ?_ (by positivity)
  unfold besR
  rw [← Finset.sum_sub_distrib, Finset.mul_sum]
  refine (Finset.abs_sum_le_sum_abs _ _).trans (Finset.sum_le_sum fun k hk => ?_)
  rw [← sub_mul, abs_mul, abs_pow, one_div, one_div, inv_neg, abs_neg, abs_of_pos (inv_pos.2 hx0), ← mul_assoc]
  exact mul_le_mul_of_nonneg_right (rfunLiteral_close hn (by simpa [Nat.lt_succ_iff] using hk)) (by positivity)

theorem besR_anti (n : ℕ) {x y : ℝ} (hx : 0 < x) (hxy : x ≤ y) : besR n y ≤ besR n x := by
  unfold besR
  refine Finset.sum_le_sum fun k _ => mul_le_mul_of_nonneg_left ?_ (Nat.cast_nonneg _)
  exact pow_le_pow_left₀ (one_div_nonneg.2 (hx.le.trans hxy)) (one_div_le_one_div_of_le hx hxy) k

/-- `q^n R_n(q/p)` -/
def rAt (p q n : ℕ) : ℕ → ℕ
  | 0 => 0
  | k + 1 => rCoef n k * (p ^ k * q ^ (n - k)) + rAt p q n k

theorem rAt_eq (p q n : ℕ) (hq : 0 < q) : besR n ((q : ℝ) / p) = (rAt p q n (n + 1) : ℝ) / (q : ℝ) ^ n := by
  have hq' : (0 : ℝ) < q := by exact_mod_cast hq
  have : ∀ m ≤ n + 1, (rAt p q n m : ℝ) / (q : ℝ) ^ n = ∑ k ∈ Finset.range m, (rCoef n k : ℝ) * (1 / ((q : ℝ) / p)) ^ k := by
    intro m
    induction m with
    | zero => intro _; simp [rAt]
    | succ m ih =>
      intro hm
      rw [Finset.sum_range_succ, ← ih (by omega), rAt]
      push_cast
      rw [add_div, add_comm, mul_div_assoc]
      congr 2
      rw [one_div_div, div_pow, mul_div_assoc, div_eq_mul_inv ((p : ℝ) ^ m)]
      congr 1
      rw [div_eq_iff (by positivity), ← div_eq_inv_mul, eq_div_iff (by positivity), ← pow_add]
      congr 1
      omega
  rw [this _ le_rfl]
  rfl

/-- `R_n(16) ≤ b` for all `n < N`. -/
def rBound (b : ℕ) : ℕ → Bool
  | 0 => true
  | n + 1 => Nat.ble (rAt 1 16 n (n + 1)) (b * 16 ^ n) && rBound b n

theorem rBound_sound {b N : ℕ} (h : rBound b N = true) {n : ℕ} (hn : n < N) : besR n 16 ≤ b := by
  induction N with
  | zero => omega
  | succ N ih =>
    simp only [rBound, Bool.and_eq_true, Nat.ble_eq] at h
    rcases Nat.lt_succ_iff_lt_or_eq.1 hn with hn | rfl
    · exact ih h.2 hn
    · have e := rAt_eq 1 16 n (by norm_num)
      norm_num at e
      rw [e, div_le_iff₀ (by positivity)]
      exact_mod_cast h.1

theorem exp_32 : Real.exp (-32) ≤ 1.27e-14 := by
  have h := Real.exp_one_gt_d9
  have e : Real.exp (-32) = (Real.exp 1 ^ 32)⁻¹ := by
    rw [Real.exp_neg, ← Real.exp_nat_mul]; norm_num
  rw [e]
  have h2 : (2.7182818283 : ℝ) ^ 32 ≤ Real.exp 1 ^ 32 := pow_le_pow_left₀ (by norm_num) h.le 32
  refine (inv_anti₀ (by norm_num) h2).trans ?_
  norm_num

theorem besselScaled_large_bound (t : BesselTab) {n : ℕ} (hn : n < 50) {x : ℝ} (hx : 16 < x) {b : ℝ} (hb : besR n 16 ≤ b) :
    ∃ v, besselScaled t n x = .ok v ∧ |v - besselK n x| ≤ 1.285e-14 * b / 32 := by
  obtain ⟨v, e, h⟩ := besselScaled_large t hn hx
  refine ⟨v, e, ?_⟩
  have hx0 : 0 < x := by linarith
  have r0 := besR_nonneg n hx0
  have hr : besR n x / (2 * x) ≤ b / 32 := by
    refine div_le_div₀ (r0.trans ((besR_anti n (by norm_num) hx.le).trans hb)) ((besR_anti n (by norm_num) hx.le).trans hb) (by norm_num) (by linarith)
  have he : Real.exp (-(2 * x)) ≤ 1.27e-14 := (Real.exp_le_exp.2 (by linarith)).trans exp_32
  have e2 : |(-1) ^ n * Real.exp (-(2 * x)) * besR n x / (2 * x)| ≤ 1.27e-14 * (b / 32) := by
    rw [mul_div_assoc, abs_mul, abs_mul, abs_pow, abs_neg, abs_one, one_pow, one_mul, abs_of_pos (Real.exp_pos _),
      abs_of_nonneg (by positivity)]
    exact mul_le_mul he hr (by positivity) (by norm_num)
  have h3 : |v - besselK n x - (-1) ^ n * Real.exp (-(2 * x)) * besR n x / (2 * x)| ≤ 1.4e-16 * (b / 32) :=
    h.trans (mul_le_mul_of_nonneg_left hr (by norm_num))
  generalize (-1) ^ n * Real.exp (-(2 * x)) * besR n x / (2 * x) = c at *
  have hb0 : 0 ≤ b / 32 := le_trans (by positivity) hr
  rw [mul_div_assoc]
  generalize b / 32 = d at *
  rw [abs_le] at *
  constructor <;> linarith

theorem rBound_14 : rBound 425 15 = true := by decide +kernel

theorem rBound_20 : rBound 112000 21 = true := by decide +kernel

theorem exp_33 : 4.65e-15 ≤ Real.exp (-33) := by
  have h := Real.exp_one_lt_d9
  have e : Real.exp (-33) = (Real.exp 1 ^ 33)⁻¹ := by
    rw [Real.exp_neg, ← Real.exp_nat_mul]; norm_num
  rw [e]
  have h2 : Real.exp 1 ^ 33 ≤ (2.7182818286 : ℝ) ^ 33 := pow_le_pow_left₀ (Real.exp_pos _).le h.le 33
  refine le_trans ?_ (inv_anti₀ (by positivity) h2)
  norm_num

theorem rLower_40 : Nat.ble (4 * 10 ^ 16 * 33 ^ 40) (rAt 2 33 40 41) = true := by decide +kernel

theorem besselScaled_40 (t : BesselTab) {x : ℝ} (h1 : 16 < x) (h2 : x ≤ 16.5) : ∃ v, besselScaled t 40 x = .ok v ∧ 5 < v := by
  obtain ⟨v, e, h⟩ := besselScaled_large t (n := 40) (by norm_num) h1
  refine ⟨v, e, ?_⟩
  have hx0 : 0 < x := by linarith
  have hk := besselK_nonneg 40 hx0.le
  have hR : 4e16 ≤ besR 40 x := by
    refine le_trans ?_ (besR_anti 40 hx0 h2)
    have e := rAt_eq 2 33 40 (by norm_num)
    have hl := Nat.ble_eq.mp rLower_40
    have hl' : (((4 * 10 ^ 16 * 33 ^ 40 : ℕ) : ℝ)) ≤ ((rAt 2 33 40 41 : ℕ) : ℝ) := by exact_mod_cast hl
    rw [show (16.5 : ℝ) = ((33 : ℕ) : ℝ) / ((2 : ℕ) : ℝ) by norm_num, e, le_div_iff₀ (by positivity)]
    refine le_trans (le_of_eq ?_) hl'
    norm_num
  have hE : 4.65e-15 ≤ Real.exp (-(2 * x)) := exp_33.trans (Real.exp_le_exp.2 (by linarith))
  rw [mul_div_assoc] at h
  have hq : 1.2e15 ≤ besR 40 x / (2 * x) := by
    rw [le_div_iff₀ (by positivity)]
    norm_num at h2 ⊢
    nlinarith
  generalize besR 40 x / (2 * x) = q at *
  have hm : 4.65e-15 * q ≤ Real.exp (-(2 * x)) * q := mul_le_mul_of_nonneg_right hE (by norm_num at hq ⊢; linarith)
  rw [abs_le] at h
  norm_num at h hm hq ⊢
  linarith [h.1]

end Libgrpp
