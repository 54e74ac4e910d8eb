import Verif.Lemmas.BesselRows

/-! # Soundness of the check of `bessel_table_0` -/

namespace Libgrpp

theorem cmpRows_append (a b : List ℕ) (i : ℕ) (e : ℕ × ℕ) :
    cmpRows (a ++ b) i e = (cmpRows a i e && cmpRows b (i + a.length) (expAt e a.length)) := by
  induction a generalizing i e with
  | nil => simp [cmpRows, expAt]
  | cons r rs ih =>
    simp only [List.cons_append, cmpRows, ih, List.length_cons, expAt, Bool.and_assoc]
    rw [show i + 1 + rs.length = i + (rs.length + 1) by omega]

theorem besselRows_length : besselRows0.length = 100 ∧ besselRows1.length = 100 ∧ besselRows2.length = 100 ∧ besselRows3.length = 100 ∧ besselRows4.length = 100 ∧ besselRows5.length = 100 ∧ besselRows6.length = 100 ∧ besselRows7.length = 100 ∧ besselRows8.length = 100 ∧ besselRows9.length = 100 ∧ besselRows10.length = 100 ∧ besselRows11.length = 100 ∧ besselRows12.length = 100 ∧ besselRows13.length = 100 ∧ besselRows14.length = 100 ∧ besselRows15.length = 100 ∧ besselRows16.length = 1 := by
  refine ⟨?_, ?_, ?_, ?_, ?_, ?_, ?_, ?_, ?_, ?_, ?_, ?_, ?_, ?_, ?_, ?_, ?_⟩ <;> decide +kernel

theorem cmpRows_all : cmpRows (besselRows.drop 1) 1 expStart = true := by
  obtain ⟨h0, h1, h2, h3, h4, h5, h6, h7, h8, h9, h10, h11, h12, h13, h14, h15, h16⟩ := besselRows_length
  unfold besselRows
  iterate 16 rw [List.drop_append_of_le_length (by first | omega | (simp only [List.length_append]; omega))]
  simp only [cmpRows_append, List.length_append, List.length_drop, h0, h1, h2, h3, h4, h5, h6, h7, h8, h9, h10, h11, h12, h13, h14, h15, Bool.and_eq_true]
  exact ⟨⟨⟨⟨⟨⟨⟨⟨⟨⟨⟨⟨⟨⟨⟨⟨cmpRows_0, cmpRows_1⟩, cmpRows_2⟩, cmpRows_3⟩, cmpRows_4⟩, cmpRows_5⟩, cmpRows_6⟩, cmpRows_7⟩, cmpRows_8⟩, cmpRows_9⟩, cmpRows_10⟩, cmpRows_11⟩, cmpRows_12⟩, cmpRows_13⟩, cmpRows_14⟩, cmpRows_15⟩, cmpRows_16⟩


theorem besselI_pos (l : ℕ) {x : ℝ} (hx : 0 < x) : 0 < besselI l x := by
  rw [besselI_series]
  refine (besCoef_bounded l).summable x |>.tsum_pos (fun n => mul_nonneg (besCoef_nonneg l n) (by positivity)) l ?_
  have h := besCoef_even l 0
  rw [Nat.mul_zero, Nat.add_zero] at h
  rw [h]
  positivity

/-- `i_{l+1}/i_l` -/
noncomputable def besRho (l : ℕ) (x : ℝ) : ℝ := besselI (l + 1) x / besselI l x

theorem besRho_pos (l : ℕ) {x : ℝ} (hx : 0 < x) : 0 < besRho l x := div_pos (besselI_pos _ hx) (besselI_pos _ hx)

theorem besRho_rec (l : ℕ) {x : ℝ} (hx : 0 < x) : besRho l x = x / ((2 * (l : ℝ) + 3) + x * besRho (l + 1) x) := by
  have h := besselI_rec l x
  have h0 := besselI_pos l hx
  have h1 := besselI_pos (l + 1) hx
  have h2 := besselI_pos (l + 2) hx
  unfold besRho
  rw [show l + 1 + 1 = l + 2 by omega]
  rw [div_eq_div_iff h0.ne' (by positivity)]
  field_simp
  linear_combination h

theorem besselK_succ (l : ℕ) {x : ℝ} (hx : 0 < x) : besselK (l + 1) x = besselK l x * besRho l x := by
  unfold besselK besRho
  have h0 := besselI_pos l hx
  field_simp

theorem rhoStep_encl {i n : ℕ} (hi : 0 < i) {p : ℕ × ℕ} (hp : EnclS (10 ^ 40) (besRho (n + 1) ((i : ℝ) * 0.01)) p) :
    EnclS (10 ^ 40) (besRho n ((i : ℝ) * 0.01)) (rhoStep i (n + 1) p) := by
  have hi' : (0 : ℝ) < i := by exact_mod_cast hi
  have hx : (0 : ℝ) < (i : ℝ) * 0.01 := by positivity
  have hr := besRho_rec n hx
  have h0 := besRho_pos (n + 1) hx
  obtain ⟨p1, p2⟩ := hp
  generalize besRho n ((i : ℝ) * 0.01) = F at *
  generalize besRho (n + 1) ((i : ℝ) * 0.01) = G at *
  have hS : (0 : ℝ) < ((10 ^ 40 : ℕ) : ℝ) := by positivity
  have hS2 : ((10 ^ 80 : ℕ) : ℝ) = ((10 ^ 40 : ℕ) : ℝ) * ((10 ^ 40 : ℕ) : ℝ) := by norm_num
  have hF : F * ((10 ^ 40 : ℕ) : ℝ) = (i : ℝ) * ((10 ^ 80 : ℕ) : ℝ) / ((2 * ((n : ℝ) + 1) + 1) * 100 * ((10 ^ 40 : ℕ) : ℝ) + i * (G * ((10 ^ 40 : ℕ) : ℝ))) := by
    rw [hr, hS2]
    generalize ((10 ^ 40 : ℕ) : ℝ) = S at *
    field_simp
    ring
  unfold EnclS rhoStep
  rw [hF]
  have q0 : (0 : ℝ) ≤ ((10 ^ 80 : ℕ) : ℝ) := Nat.cast_nonneg _
  have hG : 0 ≤ G * ((10 ^ 40 : ℕ) : ℝ) := by positivity
  have hm1 := mul_le_mul_of_nonneg_left p1 hi'.le
  have hm2 := mul_le_mul_of_nonneg_left p2 hi'.le
  have hd : (0 : ℝ) < (2 * ((n : ℝ) + 1) + 1) * 100 * ((10 ^ 40 : ℕ) : ℝ) := by positivity
  have hg0 : (0 : ℝ) ≤ i * (G * ((10 ^ 40 : ℕ) : ℝ)) := by positivity
  have hp1 : (0 : ℝ) ≤ (i : ℝ) * p.1 := by positivity
  constructor
  · refine (Nat.cast_div_le (α := ℝ)).trans ?_
    rw [Nat.cast_mul, Nat.cast_add, Nat.cast_mul, Nat.cast_mul, Nat.cast_mul]
    push_cast [-Nat.cast_pow] at *
    refine div_le_div_of_nonneg_left (by positivity) (by positivity) (by linarith)
  · have hlt := Nat.lt_div_mul_add (a := i * 10 ^ 80) (b := (2 * (n + 1) + 1) * 100 * 10 ^ 40 + i * p.1) (by positivity)
    have hlt' : ((i * 10 ^ 80 : ℕ) : ℝ) < ((i * 10 ^ 80 / ((2 * (n + 1) + 1) * 100 * 10 ^ 40 + i * p.1) + 1 : ℕ) : ℝ) *
        (((2 * (n + 1) + 1) * 100 * 10 ^ 40 + i * p.1 : ℕ) : ℝ) := by
      rw [← Nat.cast_mul]
      refine Nat.cast_lt.2 (lt_of_lt_of_eq hlt ?_)
      ring
    rw [div_le_iff₀ (by positivity)]
    rw [Nat.cast_mul] at hlt'
    refine hlt'.le.trans ?_
    refine mul_le_mul_of_nonneg_left ?_ (Nat.cast_nonneg _)
    rw [Nat.cast_add, Nat.cast_mul, Nat.cast_mul, Nat.cast_mul]
    push_cast [-Nat.cast_pow]
    push_cast [-Nat.cast_pow] at hm1
    linarith

theorem rhoGo_encl {i : ℕ} (hi : 0 < i) : ∀ (n : ℕ) (p : ℕ × ℕ) (acc : List (ℕ × ℕ)),
    EnclS (10 ^ 40) (besRho n ((i : ℝ) * 0.01)) p →
    (∀ j (h : j < acc.length), EnclS (10 ^ 40) (besRho (n + j) ((i : ℝ) * 0.01)) acc[j]) →
    ∀ j (h : j < (rhoGo i n p acc).length), EnclS (10 ^ 40) (besRho j ((i : ℝ) * 0.01)) (rhoGo i n p acc)[j]
  | 0, _, acc, _, ha, j, h => by
    simp only [rhoGo] at h ⊢
    have := ha j h
    rwa [Nat.zero_add] at this
  | n + 1, p, acc, hp, ha, j, h => by
    simp only [rhoGo] at h ⊢
    have hq := rhoStep_encl hi hp
    refine rhoGo_encl hi n _ _ hq ?_ j h
    intro j hj
    rcases j with _ | j
    · exact hq
    · rw [show n + (j + 1) = n + 1 + j by omega]
      exact ha j (by simpa using hj)

theorem rhoAll_encl {i : ℕ} (hi : 0 < i) (j : ℕ) (h : j < (rhoAll i).length) :
    EnclS (10 ^ 40) (besRho j ((i : ℝ) * 0.01)) (rhoAll i)[j] := by
  unfold rhoAll at h ⊢
  refine rhoGo_encl hi 80 _ [] ?_ (fun j hj => absurd hj (by simp)) j h
  have hi' : (0 : ℝ) < i := by exact_mod_cast hi
  have hx : (0 : ℝ) < (i : ℝ) * 0.01 := by positivity
  have h0 := besRho_pos 80 hx
  have h1 := besRho_pos 81 hx
  have hr := besRho_rec 80 hx
  constructor
  · simp only [Nat.cast_zero]; positivity
  · have hlt := Nat.lt_div_mul_add (a := 10 ^ 40 * i) (b := 16300) (by norm_num)
    have hlt' : ((10 ^ 40 * i : ℕ) : ℝ) < ((10 ^ 40 * i / 16300 + 1 : ℕ) : ℝ) * 16300 := by
      rw [show (16300 : ℝ) = ((16300 : ℕ) : ℝ) by norm_num, ← Nat.cast_mul]
      refine Nat.cast_lt.2 (lt_of_lt_of_eq hlt ?_)
      ring
    simp only []
    have : besRho 80 ((i : ℝ) * 0.01) ≤ (i : ℝ) / 16300 := by
      rw [hr, div_le_div_iff₀ (by positivity) (by positivity)]
      have : (0 : ℝ) ≤ (i : ℝ) * (((i : ℝ) * 0.01) * besRho (80 + 1) ((i : ℝ) * 0.01)) := by positivity
      push_cast
      nlinarith
    have hS : (0 : ℝ) < ((10 ^ 40 : ℕ) : ℝ) := by positivity
    rw [Nat.cast_mul] at hlt'
    generalize ((10 ^ 40 * i / 16300 + 1 : ℕ) : ℝ) = D at *
    generalize ((10 ^ 40 : ℕ) : ℝ) = S at *
    have h3 := mul_le_mul_of_nonneg_right this hS.le
    have h4 : (i : ℝ) / 16300 * S = S * i / 16300 := by ring
    have h5 : S * i / 16300 ≤ D := by rw [div_le_iff₀ (by norm_num)]; exact hlt'.le
    linarith

theorem rhoAll_length (i : ℕ) : (rhoAll i).length = 80 := by
  have : ∀ (n : ℕ) (p : ℕ × ℕ) (acc : List (ℕ × ℕ)), (rhoGo i n p acc).length = n + acc.length := by
    intro n
    induction n with
    | zero => intro p acc; simp [rhoGo]
    | succ n ih => intro p acc; simp only [rhoGo, ih, List.length_cons]; omega
  rw [rhoAll, this]
  rfl

/-- Value of an encoded number. -/
noncomputable def besVal (e : ℕ) : ℝ := ((e / 1000 : ℕ) : ℝ) / 10 ^ (16 + e % 1000)

theorem cmpEntry_sound {e : ℕ} {v : ℝ} {p : ℕ × ℕ} (hv : EnclS (10 ^ 250) v p) (h : cmpEntry e p = true) :
    |besVal e - v| ≤ 2e-12 * v ∧ |besVal e - v| ≤ 7e-15 := by
  unfold cmpEntry at h
  simp only [Bool.and_eq_true, Nat.ble_eq] at h
  obtain ⟨⟨⟨⟨hq, h1⟩, h2⟩, h3⟩, h4⟩ := h
  have hval : besVal e * ((10 ^ 250 : ℕ) : ℝ) = ((e / 1000 * 10 ^ (234 - e % 1000) : ℕ) : ℝ) := by
    unfold besVal
    rw [div_mul_eq_mul_div, div_eq_iff (by positivity), Nat.cast_mul, mul_assoc]
    congr 1
    push_cast
    rw [← pow_add, show 234 - e % 1000 + (16 + e % 1000) = 250 by omega]
    norm_num
  have hb : ((7 * 10 ^ 235 : ℕ) : ℝ) = 7e-15 * ((10 ^ 250 : ℕ) : ℝ) := by norm_num
  obtain ⟨p1, p2⟩ := hv
  generalize besVal e = T at *
  have h1' : ((e / 1000 * 10 ^ (234 - e % 1000) : ℕ) : ℝ) * 1000000000000 ≤ (p.1 : ℝ) * 1000000000002 := by exact_mod_cast h1
  have h2' : (p.2 : ℝ) * 999999999998 ≤ ((e / 1000 * 10 ^ (234 - e % 1000) : ℕ) : ℝ) * 1000000000000 := by exact_mod_cast h2
  have h3' : ((e / 1000 * 10 ^ (234 - e % 1000) : ℕ) : ℝ) ≤ (p.1 : ℝ) + ((7 * 10 ^ 235 : ℕ) : ℝ) := by
    rw [← Nat.cast_add]; exact Nat.cast_le.2 h3
  have h4' : (p.2 : ℝ) ≤ ((e / 1000 * 10 ^ (234 - e % 1000) : ℕ) : ℝ) + ((7 * 10 ^ 235 : ℕ) : ℝ) := by
    rw [← Nat.cast_add]; exact Nat.cast_le.2 h4
  rw [← hval] at h1' h2' h3' h4'
  rw [hb] at h3' h4'
  have hS : (0 : ℝ) < ((10 ^ 250 : ℕ) : ℝ) := by positivity
  generalize ((10 ^ 250 : ℕ) : ℝ) = S at *
  clear hval h1 h2 h3 h4 hb
  have a1 : T * 1000000000000 ≤ v * 1000000000002 := by
    have : (T * 1000000000000) * S ≤ (v * 1000000000002) * S := by linarith
    exact le_of_mul_le_mul_right this hS
  have a2 : v * 999999999998 ≤ T * 1000000000000 := by
    have : (v * 999999999998) * S ≤ (T * 1000000000000) * S := by linarith
    exact le_of_mul_le_mul_right this hS
  have a3 : T ≤ v + 7e-15 := by
    have : T * S ≤ (v + 7e-15) * S := by linarith
    exact le_of_mul_le_mul_right this hS
  have a4 : v ≤ T + 7e-15 := by
    have : v * S ≤ (T + 7e-15) * S := by linarith
    exact le_of_mul_le_mul_right this hS
  constructor
  · rw [abs_le]
    constructor <;> norm_num <;> linarith
  · rw [abs_le]
    constructor <;> linarith

theorem cmpGo_sound {i : ℕ} (hi : 0 < i) : ∀ (n r l : ℕ) (rho : List (ℕ × ℕ)) (p : ℕ × ℕ),
    (∀ j (h : j < rho.length), EnclS (10 ^ 40) (besRho (l + j) ((i : ℝ) * 0.01)) rho[j]) →
    EnclS (10 ^ 250) (besselK l ((i : ℝ) * 0.01)) p → cmpGo n r rho p = true → ∀ k < n,
    |besVal (r / 10 ^ (20 * k) % 10 ^ 20) - besselK (l + k) ((i : ℝ) * 0.01)| ≤ 2e-12 * besselK (l + k) ((i : ℝ) * 0.01) ∧
      |besVal (r / 10 ^ (20 * k) % 10 ^ 20) - besselK (l + k) ((i : ℝ) * 0.01)| ≤ 7e-15
  | 0, _, _, _, _, _, _, _, k, hk => absurd hk (by omega)
  | n + 1, r, l, rho, p, hr, hp, h, k, hk => by
    simp only [cmpGo, Bool.and_eq_true] at h
    obtain ⟨h1, h2⟩ := h
    rcases k with _ | k
    · rw [Nat.mul_zero, pow_zero, Nat.div_one, Nat.add_zero]
      exact cmpEntry_sound hp h1
    · rcases rho with _ | ⟨q, rho⟩
      · simp at h2
      · simp only [] at h2
        have hi' : (0 : ℝ) < i := by exact_mod_cast hi
        have hx : (0 : ℝ) < (i : ℝ) * 0.01 := by positivity
        have hq : EnclS (10 ^ 40) (besRho l ((i : ℝ) * 0.01)) q := hr 0 (by simp)
        have hp' : EnclS (10 ^ 250) (besselK (l + 1) ((i : ℝ) * 0.01)) (p.1 * q.1 / 10 ^ 40, p.2 * q.2 / 10 ^ 40 + 1) := by
          rw [besselK_succ l hx]
          have k0 : 0 ≤ besselK l ((i : ℝ) * 0.01) * ((10 ^ 250 : ℕ) : ℝ) := mul_nonneg (besselK_nonneg l hx.le) (Nat.cast_nonneg _)
          have r0 := besRho_pos l hx
          obtain ⟨p1, p2⟩ := hp
          obtain ⟨q1, q2⟩ := hq
          unfold EnclS
          have e : besselK l ((i : ℝ) * 0.01) * besRho l ((i : ℝ) * 0.01) * ((10 ^ 250 : ℕ) : ℝ) =
            besselK l ((i : ℝ) * 0.01) * ((10 ^ 250 : ℕ) : ℝ) * besRho l ((i : ℝ) * 0.01) := by ring
          rw [e]
          generalize besselK l ((i : ℝ) * 0.01) * ((10 ^ 250 : ℕ) : ℝ) = A at *
          generalize besRho l ((i : ℝ) * 0.01) = R at *
          have hS : (0 : ℝ) < ((10 ^ 40 : ℕ) : ℝ) := by positivity
          constructor
          · refine (Nat.cast_div_le (α := ℝ)).trans ?_
            rw [div_le_iff₀ hS, Nat.cast_mul, mul_assoc]
            exact mul_le_mul p1 q1 (Nat.cast_nonneg _) k0
          · have hlt := Nat.lt_div_mul_add (a := p.2 * q.2) (b := 10 ^ 40) (by positivity)
            have hlt' : ((p.2 * q.2 : ℕ) : ℝ) < ((p.2 * q.2 / 10 ^ 40 + 1 : ℕ) : ℝ) * ((10 ^ 40 : ℕ) : ℝ) := by
              rw [← Nat.cast_mul]
              refine Nat.cast_lt.2 (lt_of_lt_of_eq hlt ?_)
              ring
            have h3 : A * (R * ((10 ^ 40 : ℕ) : ℝ)) ≤ (p.2 : ℝ) * q.2 := mul_le_mul p2 q2 (by positivity) (Nat.cast_nonneg _)
            rw [Nat.cast_mul] at hlt'
            refine le_of_mul_le_mul_right ?_ hS
            refine le_trans (le_of_eq ?_) (h3.trans hlt'.le)
            ring
        have ih := cmpGo_sound hi n (r / 10 ^ 20) (l + 1) rho _ (fun j hj => by
          have := hr (j + 1) (by simpa using hj)
          rw [show l + (j + 1) = l + 1 + j by omega] at this
          exact this) hp' h2 k (by omega)
        rw [show l + (k + 1) = l + 1 + k by omega, show 20 * (k + 1) = 20 + 20 * k by ring, pow_add, ← Nat.div_div_eq_div_mul]
        exact ih

theorem besselK_zero_eq {x : ℝ} (hx : x ≠ 0) : besselK 0 x = (1 - Real.exp (-(2 * x))) / (2 * x) := by
  rw [besselK_closed 0 hx]
  simp [besR, rCoef]
  ring

theorem cmpRow_sound {i r : ℕ} (hi : 0 < i) {e : ℕ × ℕ} (he : EnclS (10 ^ 50) (Real.exp (-((i : ℝ) * 0.02))) e)
    (h : cmpRow i r e = true) (k : ℕ) (hk : k < 60) :
    |besVal (r / 10 ^ (20 * k) % 10 ^ 20) - besselK k ((i : ℝ) * 0.01)| ≤ 2e-12 * besselK k ((i : ℝ) * 0.01) ∧
      |besVal (r / 10 ^ (20 * k) % 10 ^ 20) - besselK k ((i : ℝ) * 0.01)| ≤ 7e-15 := by
  have key := cmpGo_sound hi 60 r 0 (rhoAll i) _ (fun j hj => by rw [Nat.zero_add]; exact rhoAll_encl hi j hj) ?_ h k hk
  · rw [Nat.zero_add] at key
    exact key
  have hi' : (0 : ℝ) < i := by exact_mod_cast hi
  rw [besselK_zero_eq (by positivity)]
  obtain ⟨e1, e2⟩ := he
  rw [show 2 * ((i : ℝ) * 0.01) = (i : ℝ) * 0.02 by ring]
  have hX : Real.exp (-((i : ℝ) * 0.02)) ≤ 1 := Real.exp_le_one_iff.2 (by have := hi'.le; linarith)
  generalize Real.exp (-((i : ℝ) * 0.02)) = X at *
  have hsplit : ((10 ^ 250 : ℕ) : ℝ) = ((10 ^ 50 : ℕ) : ℝ) * ((10 ^ 200 : ℕ) : ℝ) := by norm_num
  have hK : (1 - X) / ((i : ℝ) * 0.02) * ((10 ^ 250 : ℕ) : ℝ) = (((10 ^ 50 : ℕ) : ℝ) - X * ((10 ^ 50 : ℕ) : ℝ)) * 50 * ((10 ^ 200 : ℕ) : ℝ) / i := by
    rw [hsplit]
    generalize ((10 ^ 50 : ℕ) : ℝ) = S at *
    generalize ((10 ^ 200 : ℕ) : ℝ) = S' at *
    field_simp
    ring
  unfold EnclS
  rw [hK]
  have hS' : (0 : ℝ) ≤ ((10 ^ 200 : ℕ) : ℝ) := Nat.cast_nonneg _
  have hnn : 0 ≤ ((10 ^ 50 : ℕ) : ℝ) - X * ((10 ^ 50 : ℕ) : ℝ) := by
    have : (0 : ℝ) ≤ ((10 ^ 50 : ℕ) : ℝ) := Nat.cast_nonneg _
    nlinarith
  constructor
  · refine (Nat.cast_div_le (α := ℝ)).trans ?_
    refine div_le_div_of_nonneg_right ?_ hi'.le
    rw [Nat.cast_mul, Nat.cast_mul]
    refine mul_le_mul_of_nonneg_right (mul_le_mul_of_nonneg_right ?_ (by norm_num)) hS'
    rcases le_total e.2 (10 ^ 50) with hle | hle
    · rw [Nat.cast_sub hle]; linarith
    · rw [Nat.sub_eq_zero_of_le hle, Nat.cast_zero]; exact hnn
  · have hlt := Nat.lt_div_mul_add (a := (10 ^ 50 - e.1) * 50 * 10 ^ 200) (b := i) hi
    have hlt' : (((10 ^ 50 - e.1) * 50 * 10 ^ 200 : ℕ) : ℝ) < (((10 ^ 50 - e.1) * 50 * 10 ^ 200 / i + 1 : ℕ) : ℝ) * (i : ℝ) := by
      rw [← Nat.cast_mul]
      refine Nat.cast_lt.2 (lt_of_lt_of_eq hlt ?_)
      ring
    rw [div_le_iff₀ hi']
    refine le_trans ?_ hlt'.le
    rw [Nat.cast_mul, Nat.cast_mul]
    refine mul_le_mul_of_nonneg_right (mul_le_mul_of_nonneg_right ?_ (by norm_num)) hS'
    have : ((10 ^ 50 : ℕ) : ℝ) ≤ ((10 ^ 50 - e.1 : ℕ) : ℝ) + e.1 := by
      rw [← Nat.cast_add]; exact Nat.cast_le.2 (by omega)
    linarith

theorem expFiftieth_encl : EnclS (10 ^ 50) (Real.exp (-0.02)) (expFiftieth, expFiftieth + 1) := by
  have h := Real.exp_bound (x := -0.02) (n := 26) (by norm_num) (by norm_num)
  rw [abs_le] at h
  simp only [Finset.sum_range_succ, Finset.range_zero, Finset.sum_empty] at h
  norm_num [Nat.factorial] at h
  rw [show (-0.02 : ℝ) = -(1 / 50) by norm_num]
  unfold EnclS expFiftieth
  obtain ⟨h1, h2⟩ := h
  generalize Real.exp (-(1 / 50)) = X at *
  norm_num
  constructor <;> linarith

theorem expStep50_encl {i : ℕ} {e : ℕ × ℕ} (he : EnclS (10 ^ 50) (Real.exp (-((i : ℝ) * 0.02))) e) :
    EnclS (10 ^ 50) (Real.exp (-(((i + 1 : ℕ) : ℝ) * 0.02))) (expStep50 e) := by
  have ha := expFiftieth_encl
  have hx : Real.exp (-(((i + 1 : ℕ) : ℝ) * 0.02)) = Real.exp (-((i : ℝ) * 0.02)) * Real.exp (-0.02) := by
    rw [← Real.exp_add]; congr 1; push_cast; ring
  rw [hx]
  unfold expStep50
  unfold EnclS at he ha ⊢
  have hS : 0 < 10 ^ 50 := by positivity
  generalize 10 ^ 50 = S at *
  exact natDiv_encl hS (Real.exp_pos _).le (Real.exp_pos _).le he.1 he.2 ha.1 ha.2

theorem cmpRows_sound (rs : List ℕ) (i : ℕ) (hi : 0 < i) (e : ℕ × ℕ) (he : EnclS (10 ^ 50) (Real.exp (-((i : ℝ) * 0.02))) e)
    (h : cmpRows rs i e = true) (j : ℕ) (hj : j < rs.length) (k : ℕ) (hk : k < 60) :
    |besVal (rs.getD j 0 / 10 ^ (20 * k) % 10 ^ 20) - besselK k (((i + j : ℕ) : ℝ) * 0.01)| ≤ 2e-12 * besselK k (((i + j : ℕ) : ℝ) * 0.01) ∧
      |besVal (rs.getD j 0 / 10 ^ (20 * k) % 10 ^ 20) - besselK k (((i + j : ℕ) : ℝ) * 0.01)| ≤ 7e-15 := by
  induction rs generalizing i e j with
  | nil => simp at hj
  | cons r rs ih =>
    simp only [cmpRows, Bool.and_eq_true] at h
    rcases j with _ | j
    · exact cmpRow_sound hi he h.1 k hk
    · rw [show i + (j + 1) = i + 1 + j by omega, List.getD_cons_succ]
      exact ih (i + 1) (by omega) _ (expStep50_encl he) h.2 j (by simpa using hj)

theorem besselRows_len : besselRows.length = 1601 := by
  obtain ⟨h0, h1, h2, h3, h4, h5, h6, h7, h8, h9, h10, h11, h12, h13, h14, h15, h16⟩ := besselRows_length
  unfold besselRows
  simp only [List.length_append, h0, h1, h2, h3, h4, h5, h6, h7, h8, h9, h10, h11, h12, h13, h14, h15, h16]

theorem besselK_zero_arg (k : ℕ) : besselK k 0 = if k = 0 then 1 else 0 := by
  unfold besselK besselI
  split_ifs with hk
  · subst hk
    rw [tsum_eq_single 0 fun j hj => by simp [hj]]
    simp
  · have : ∀ j : ℕ, (0 : ℝ) ^ (k + 2 * j) = 0 := fun j => zero_pow (by omega)
    simp [this]

/-- Row 0, exactly. -/
def cmpZero (r : ℕ) : ℕ → Bool
  | 0 => true
  | n + 1 => Nat.beq (r / 10 ^ (20 * n) % 10 ^ 20) (if n = 0 then 10000000000000000000 else 0) && cmpZero r n

theorem cmpZero_ok : cmpZero (besselRows.getD 0 0) 60 = true := by decide +kernel

theorem cmpZero_sound (r n : ℕ) (h : cmpZero r n = true) (k : ℕ) (hk : k < n) :
    r / 10 ^ (20 * k) % 10 ^ 20 = if k = 0 then 10000000000000000000 else 0 := by
  induction n with
  | zero => omega
  | succ n ih =>
    simp only [cmpZero, Bool.and_eq_true] at h
    rcases Nat.lt_succ_iff_lt_or_eq.1 hk with hk | rfl
    · exact ih h.2 hk
    · exact Nat.eq_of_beq_eq_true h.1

/-- Every number of the table. -/
theorem besselLiteral_close (i k : ℕ) (hi : i ≤ 1600) (hk : k < 60) :
    |besselLiteral i k - besselK k ((i : ℝ) * 0.01)| ≤ 2e-12 * besselK k ((i : ℝ) * 0.01) ∧
      |besselLiteral i k - besselK k ((i : ℝ) * 0.01)| ≤ 7e-15 := by
  rcases i with _ | i
  · have h := cmpZero_sound _ 60 cmpZero_ok k hk
    have e : besselLiteral 0 k = besselK k ((0 : ℕ) * 0.01) := by
      rw [Nat.cast_zero, zero_mul, besselK_zero_arg]
      unfold besselLiteral
      simp only [h]
      split_ifs <;> norm_num
    rw [e, sub_self, abs_zero]
    have := besselK_nonneg k (x := (0 : ℕ) * 0.01) (by simp)
    exact ⟨by linarith, by norm_num⟩
  · have h := cmpRows_sound (besselRows.drop 1) 1 (by norm_num) expStart (by
      have := expFiftieth_encl
      rw [show (-0.02 : ℝ) = -(((1 : ℕ) : ℝ) * 0.02) by norm_num] at this
      exact this) cmpRows_all i (by rw [List.length_drop, besselRows_len]; omega) k hk
    rw [show (besselRows.drop 1).getD i 0 = besselRows.getD (i + 1) 0 by
      simp only [List.getD_eq_getElem?_getD, List.getElem?_drop]
      rw [Nat.add_comm 1 i]] at h
    rw [Nat.add_comm 1 i] at h
    exact h

end Libgrpp
