import Verif.Lemmas.SkStates

/-! # Soundness of the check of the table -/

namespace Libgrpp

/-- The point of row `i`. -/
noncomputable def skX (i : ℕ) : ℝ := -10 + (i : ℝ) * 0.005

theorem ediv_close (a : ℤ) {b : ℤ} (hb : 0 < b) : ((a / b : ℤ) : ℝ) ≤ (a : ℝ) / b ∧ (a : ℝ) / b < ((a / b : ℤ) : ℝ) + 1 := by
  have hb' : (0 : ℝ) < b := by exact_mod_cast hb
  have h1 := Int.ediv_mul_le a hb.ne'
  have h2 := Int.lt_ediv_add_one_mul_self a hb
  constructor
  · rw [le_div_iff₀ hb']
    exact_mod_cast h1
  · rw [div_lt_iff₀ hb']
    exact_mod_cast h2

theorem evalI_err {Y : ℤ} {y : ℝ} (hY : |(Y : ℝ) - 10 ^ 50 * y| ≤ 10 ^ 21) (hY0 : 0 ≤ Y) (hY1 : Y ≤ 10 ^ 50) (hy0 : 0 ≤ y)
    (hy1 : y ≤ 1) (l : List ℤ) : |(evalI Y l : ℝ) - 10 ^ 50 * evalL l y| ≤ (evalErr l : ℝ) := by
  induction l with
  | nil => simp [evalI, evalL, evalErr]
  | cons c l ih =>
    simp only [evalI, evalL, evalErr]
    have hd := ediv_close (Y * evalI Y l) (b := 10 ^ 50) (by positivity)
    have ha := evalL_abs l hy0 hy1
    generalize evalI Y l = A at *
    generalize evalL l y = a at *
    generalize ((l.map Int.natAbs).sum) = B at *
    have hY0' : (0 : ℝ) ≤ Y := by exact_mod_cast hY0
    have hY1' : (Y : ℝ) ≤ 10 ^ 50 := by exact_mod_cast hY1
    have hS2 : ((10 ^ 50 : ℤ) : ℝ) = 10 ^ 50 := by norm_cast
    rw [hS2, Int.cast_mul] at hd
    rw [Int.cast_add, Int.cast_mul, hS2, Nat.cast_add, Nat.cast_add, Nat.cast_mul, Nat.cast_pow, Nat.cast_ofNat, Nat.cast_one]
    generalize ((Y * A / 10 ^ 50 : ℤ) : ℝ) = D at *
    have hS : (0 : ℝ) < 10 ^ 50 := by positivity
    generalize (10 : ℝ) ^ 50 = S at *
    have e : (Y : ℝ) * A / S - S * (y * a) = (Y / S) * (A - S * a) + a * (Y - S * y) := by
      field_simp
      ring
    have h1 : |(Y : ℝ) * A / S - S * (y * a)| ≤ evalErr l + B * 10 ^ 21 := by
      rw [e]
      refine (abs_add_le _ _).trans ?_
      rw [abs_mul, abs_mul, abs_of_nonneg (by positivity : (0 : ℝ) ≤ Y / S)]
      have hq : (Y : ℝ) / S ≤ 1 := (div_le_one hS).2 hY1'
      have p1 : (Y : ℝ) / S * |(A : ℝ) - S * a| ≤ 1 * |(A : ℝ) - S * a| := mul_le_mul_of_nonneg_right hq (abs_nonneg _)
      have p2 : |a| * |(Y : ℝ) - S * y| ≤ B * 10 ^ 21 := mul_le_mul ha hY (abs_nonneg _) (Nat.cast_nonneg _)
      linarith
    have h2 : (c : ℝ) * S + D - S * (c + y * a) = D - S * (y * a) := by ring
    rw [h2]
    rw [abs_le] at h1 ⊢
    constructor <;> linarith [h1.1, h1.2, hd.1, hd.2]

/-- Taylor polynomial with step 1/200 in nested form. -/
noncomputable def taylorR : ℕ → List ℝ → ℝ
  | _, [] => 0
  | m, w :: ws => w + taylorR (m + 1) ws / (200 * m)

theorem taylorI_err {e : ℝ} (he : 0 ≤ e) : ∀ (ws : List ℤ) (rs : List ℝ) (m : ℕ), 1 ≤ m → ws.length = rs.length →
    (∀ i < ws.length, |((ws.getD i 0 : ℤ) : ℝ) - 10 ^ 50 * rs.getD i 0| ≤ e) →
    |(taylorI m ws : ℝ) - 10 ^ 50 * taylorR m rs| ≤ (e + 1) * (200 / 199)
  | [], [], m, _, _, _ => by
    simp [taylorI, taylorR]
    positivity
  | [], r :: rs, _, _, h, _ => by simp at h
  | w :: ws, [], _, _, h, _ => by simp at h
  | w :: ws, r :: rs, m, hm, hl, h => by
    have ih := taylorI_err he ws rs (m + 1) (by omega) (by simpa using hl) fun i hi => by
      have := h (i + 1) (by simpa using hi)
      simpa using this
    have h0 := h 0 (by simp)
    simp only [List.getD_cons_zero] at h0
    simp only [taylorI, taylorR]
    have hd := ediv_close (taylorI (m + 1) ws) (b := ((200 * m : ℕ) : ℤ)) (by positivity)
    have hm' : (1 : ℝ) ≤ m := by exact_mod_cast hm
    push_cast at *
    generalize ((taylorI (m + 1) ws / (200 * (m : ℤ)) : ℤ) : ℝ) = D at *
    generalize (taylorI (m + 1) ws : ℝ) = A at *
    generalize taylorR (m + 1) rs = a at *
    generalize (10 : ℝ) ^ 50 = S at *
    have h1 : |A / (200 * m) - S * (a / (200 * m))| ≤ (e + 1) * (200 / 199) / 200 := by
      rw [show A / (200 * (m : ℝ)) - S * (a / (200 * m)) = (A - S * a) / (200 * m) by ring, abs_div,
        abs_of_nonneg (by positivity : (0 : ℝ) ≤ 200 * m)]
      refine div_le_div₀ (by positivity) ih (by norm_num) (by linarith)
    rw [abs_le] at *
    constructor <;> linarith [h1.1, h1.2, hd.1, hd.2, h0.1, h0.2]

theorem taylorR_nine (w : ℕ → ℝ) : taylorR 1 [w 0, w 1, w 2, w 3, w 4, w 5, w 6, w 7, w 8] =
    ∑ m ∈ Finset.range 9, w m * ((1 / 200 : ℝ) ^ m / (m.factorial : ℝ)) := by
  simp only [taylorR, Finset.sum_range_succ, Finset.range_zero, Finset.sum_empty]
  norm_num [Nat.factorial]
  ring

/-- The state approximates the chain at row `i`. -/
def SkState (i : ℕ) (V : List ℤ) (e : ℕ × ℕ) (err : ℕ) : Prop :=
  V.length = 7 ∧ (∀ j < 7, |((V.getD j 0 : ℤ) : ℝ) - 10 ^ 50 * qChain j (skX i)| ≤ (err : ℝ)) ∧ Encl (Real.exp (skX i)) e ∧ 10 ^ 28 ≤ err

theorem logiI_err {x : ℝ} {e : ℕ × ℕ} (he : Encl (Real.exp x) e) (hw : e.2 ≤ e.1 + 10 ^ 20) :
    |(((logiI e.1 : ℕ) : ℤ) : ℝ) - 10 ^ 50 * logi x| ≤ 10 ^ 21 ∧ ((logiI e.1 : ℕ) : ℤ) ≤ 10 ^ 50 := by
  obtain ⟨h1, h2⟩ := he
  have hw' : (e.2 : ℝ) ≤ e.1 + 10 ^ 20 := by exact_mod_cast hw
  have hX := Real.exp_pos x
  constructor
  · have hd1 : (((logiI e.1 : ℕ)) : ℝ) ≤ (e.1 : ℝ) * 10 ^ 50 / (10 ^ 50 + e.1) := by
      unfold logiI
      refine (Nat.cast_div_le (α := ℝ)).trans (le_of_eq ?_)
      rw [Nat.cast_mul, Nat.cast_add, Nat.cast_pow, Nat.cast_ofNat]
    have hd2 : (e.1 : ℝ) * 10 ^ 50 / (10 ^ 50 + e.1) ≤ ((logiI e.1 : ℕ) : ℝ) + 1 := by
      have hlt := Nat.lt_div_mul_add (a := e.1 * 10 ^ 50) (b := 10 ^ 50 + e.1) (by positivity)
      rw [div_le_iff₀ (by positivity)]
      have : ((e.1 * 10 ^ 50 : ℕ) : ℝ) < ((e.1 * 10 ^ 50 / (10 ^ 50 + e.1) * (10 ^ 50 + e.1) + (10 ^ 50 + e.1) : ℕ) : ℝ) := by
        exact_mod_cast hlt
      unfold logiI
      generalize e.1 * 10 ^ 50 / (10 ^ 50 + e.1) = D at *
      push_cast at this
      nlinarith
    unfold logi
    generalize Real.exp x = X at *
    rw [Int.cast_natCast]
    generalize ((logiI e.1 : ℕ) : ℝ) = L at *
    have he0 : (0 : ℝ) ≤ e.1 := Nat.cast_nonneg _
    generalize (e.1 : ℝ) = a at *
    generalize (e.2 : ℝ) = b at *
    have hS : (0 : ℝ) < 10 ^ 50 := by positivity
    have h20 : (10 : ℝ) ^ 20 + 1 ≤ 10 ^ 21 := by norm_num
    generalize (10 : ℝ) ^ 20 = w at *
    generalize (10 : ℝ) ^ 21 = w' at *
    generalize (10 : ℝ) ^ 50 = S at *
    have e1 : S * (X / (1 + X)) - a * S / (S + a) = S * (X * S - a) / ((1 + X) * (S + a)) := by
      have : S + a ≠ 0 := by positivity
      field_simp
      ring
    have hn : 0 ≤ X * S - a := by linarith
    have e2 : 0 ≤ S * (X / (1 + X)) - a * S / (S + a) := by rw [e1]; positivity
    have e3 : S * (X / (1 + X)) - a * S / (S + a) ≤ X * S - a := by
      rw [e1, div_le_iff₀ (by positivity)]
      have : S ≤ (1 + X) * (S + a) := by nlinarith
      nlinarith
    rw [abs_le]
    constructor <;> linarith
  · have : logiI e.1 ≤ 10 ^ 50 := by
      unfold logiI
      generalize 10 ^ 50 = S
      exact Nat.div_le_of_le_mul (Nat.mul_le_mul_right _ (Nat.le_add_left _ _))
    exact_mod_cast this

theorem evalErr_low (p : ℕ) (hp : p ≤ 7) : evalErr (lowC p) ≤ 10 ^ 28 := by
  interval_cases p <;> decide +kernel

theorem map_low_getD (f : List ℤ → ℤ) (p : ℕ) (hp : p < 8) :
    ([0, 1, 2, 3, 4, 5, 6, 7].map fun p => f (lowC p)).getD p 0 = f (lowC p) := by
  interval_cases p <;> rfl

theorem wList_err {i : ℕ} {V : List ℤ} {e : ℕ × ℕ} {err : ℕ} (h : SkState i V e err) (hw : e.2 ≤ e.1 + 10 ^ 20) (j : ℕ)
    (hj : j < 15) : |(((wList V (logiI e.1 : ℤ)).getD j 0 : ℤ) : ℝ) - 10 ^ 50 * qChain j (skX i)| ≤ (err : ℝ) := by
  obtain ⟨hl, hV, he, herr⟩ := h
  obtain ⟨y1, y2⟩ := logiI_err he hw
  rcases lt_or_ge j 7 with h7 | h7
  · have : (wList V (logiI e.1 : ℤ)).getD j 0 = V.getD j 0 := by
      unfold wList
      rw [List.getD_append _ _ _ _ (by omega)]
    rw [this]
    exact hV j h7
  · have : (wList V (logiI e.1 : ℤ)).getD j 0 = evalI (logiI e.1 : ℤ) (lowC (j - 7)) := by
      unfold wList
      rw [List.getD_append_right _ _ _ _ (by omega), hl]
      obtain ⟨p, rfl⟩ : ∃ p, j = p + 7 := ⟨j - 7, by omega⟩
      have : p < 8 := by omega
      rw [Nat.add_sub_cancel]
      exact map_low_getD (evalI (logiI e.1 : ℤ)) p this
    rw [this, qChain, if_neg (by omega)]
    refine (evalI_err y1 (by positivity) y2 (logi_bounds _).1 (logi_bounds _).2 _).trans ?_
    have h1 := evalErr_low (j - 7) (by omega)
    exact_mod_cast h1.trans herr

theorem nine_getD (W : List ℤ) (hW : W.length = 15) (j : ℕ) (hj : j ≤ 6) :
    (W.drop j).take 9 = [W.getD j 0, W.getD (j + 1) 0, W.getD (j + 2) 0, W.getD (j + 3) 0, W.getD (j + 4) 0, W.getD (j + 5) 0,
      W.getD (j + 6) 0, W.getD (j + 7) 0, W.getD (j + 8) 0] := by
  match W, hW with
  | [a0, a1, a2, a3, a4, a5, a6, a7, a8, a9, a10, a11, a12, a13, a14], _ =>
    interval_cases j <;> rfl

theorem wList_length {V : List ℤ} (h : V.length = 7) (Y : ℤ) : (wList V Y).length = 15 := by
  simp [wList, h]

theorem next_err {i : ℕ} {V : List ℤ} {e : ℕ × ℕ} {err : ℕ} (h : SkState i V e err) (hw : e.2 ≤ e.1 + 10 ^ 20) (j : ℕ)
    (hj : j ≤ 6) : |(taylorI 1 (((wList V (logiI e.1 : ℤ)).drop j).take 9) : ℝ) - 10 ^ 50 * qChain j (skX (i + 1))| ≤ (nextErr err : ℝ) := by
  have hW := wList_err h hw
  have hl := wList_length h.1 (logiI e.1 : ℤ)
  generalize wList V (logiI e.1 : ℤ) = W at *
  rw [nine_getD W hl j hj]
  have h1 := taylorI_err (e := err) (Nat.cast_nonneg _)
    [W.getD j 0, W.getD (j + 1) 0, W.getD (j + 2) 0, W.getD (j + 3) 0, W.getD (j + 4) 0, W.getD (j + 5) 0,
      W.getD (j + 6) 0, W.getD (j + 7) 0, W.getD (j + 8) 0]
    [qChain (j + 0) (skX i), qChain (j + 1) (skX i), qChain (j + 2) (skX i), qChain (j + 3) (skX i), qChain (j + 4) (skX i),
      qChain (j + 5) (skX i), qChain (j + 6) (skX i), qChain (j + 7) (skX i), qChain (j + 8) (skX i)] 1 le_rfl rfl (by
    intro m hm
    have hm' : m < 9 := hm
    have := hW (j + m) (by omega)
    interval_cases m <;> exact this)
  rw [taylorR_nine fun m => qChain (j + m) (skX i)] at h1
  have h2 := chain_taylor 9 (fun m => qChain (j + m)) (skX i) 1091670 (fun m hm t => qChain_hasDerivAt (j + m) (by omega) t)
    (1 / 200) (by norm_num) fun t _ _ => qChain_bound (j + 9) (by omega) (by omega) t
  have hx : skX i + 1 / 200 = skX (i + 1) := by
    unfold skX
    push_cast
    ring
  rw [hx, add_zero] at h2
  generalize (taylorI 1 _ : ℝ) = A at *
  generalize ∑ m ∈ Finset.range 9, qChain (j + m) (skX i) * ((1 / 200 : ℝ) ^ m / (m.factorial : ℝ)) = Q at *
  generalize qChain j (skX (i + 1)) = q at *
  have h3 : (1091670 : ℝ) * ((1 / 200) ^ 9 / ((Nat.factorial 9 : ℕ) : ℝ)) * 10 ^ 50 ≤ 10 ^ 30 := by norm_num [Nat.factorial]
  have h4 : ((err : ℝ) + 1) * (200 / 199) ≤ ((err + (err + 1) / 199 + 1 + 1 : ℕ) : ℝ) := by
    have hlt := Nat.lt_div_mul_add (a := err + 1) (b := 199) (by norm_num)
    have : ((err + 1 : ℕ) : ℝ) < (((err + 1) / 199 * 199 + 199 : ℕ) : ℝ) := by exact_mod_cast hlt
    generalize (err + 1) / 199 = D at *
    push_cast at *
    linarith
  have h5 : ((nextErr err : ℕ) : ℝ) = ((err + (err + 1) / 199 + 1 + 1 : ℕ) : ℝ) + (10 ^ 30 - 1) := by
    unfold nextErr
    push_cast
    ring
  have h6 : (1091670 : ℝ) * ((1 / 200) ^ 9 / ((Nat.factorial 9 : ℕ) : ℝ)) * 10 ^ 50 ≤ 10 ^ 30 - 1 := by norm_num [Nat.factorial]
  rw [h5]
  generalize ((err + (err + 1) / 199 + 1 + 1 : ℕ) : ℝ) = N at *
  generalize (1091670 : ℝ) * ((1 / 200) ^ 9 / ((Nat.factorial 9 : ℕ) : ℝ)) = R at *
  have hS : (0 : ℝ) < 10 ^ 50 := by positivity
  generalize (10 : ℝ) ^ 50 = S at *
  generalize (10 : ℝ) ^ 30 - 1 = M at *
  have h7 : |S * Q - S * q| ≤ R * S := by
    rw [← mul_sub, abs_mul, abs_of_pos hS, abs_sub_comm, mul_comm]
    exact mul_le_mul_of_nonneg_right h2 hS.le
  have := abs_sub_le A (S * Q) (S * q)
  linarith

theorem expStepUp_encl : Encl (Real.exp 0.005) (expStepUp, expStepUp + 1) := by
  have h := Real.exp_bound (x := 0.005) (n := 22) (by norm_num) (by norm_num)
  rw [abs_le] at h
  simp only [Finset.sum_range_succ, Finset.range_zero, Finset.sum_empty] at h
  norm_num [Nat.factorial] at h
  rw [show (0.005 : ℝ) = 1 / 200 by norm_num]
  unfold Encl expStepUp
  obtain ⟨h1, h2⟩ := h
  generalize Real.exp (1 / 200) = X at *
  norm_num
  constructor <;> linarith

theorem expUp_encl {i : ℕ} {e : ℕ × ℕ} (he : Encl (Real.exp (skX i)) e) : Encl (Real.exp (skX (i + 1))) (expUp e) := by
  have ha := expStepUp_encl
  have hx : Real.exp (skX (i + 1)) = Real.exp (skX i) * Real.exp 0.005 := by
    rw [← Real.exp_add]; congr 1; unfold skX; push_cast; ring
  rw [hx]
  unfold expUp
  unfold Encl at he ha ⊢
  rw [show (10 : ℝ) ^ 50 = ((10 ^ 50 : ℕ) : ℝ) by norm_cast] at he ha ⊢
  have hS : 0 < 10 ^ 50 := by positivity
  generalize 10 ^ 50 = S at *
  exact natDiv_encl hS (Real.exp_pos _).le (Real.exp_pos _).le he.1 he.2 ha.1 ha.2

theorem rowOk_sound (err : ℕ) : ∀ (rs : List ℕ) (ws : List ℤ), rowOk err rs ws = true → ∀ m, m < rs.length → m < ws.length →
    ((((rs.getD m 0 : ℕ) : ℤ) * 10 ^ 29 - ws.getD m 0).natAbs) + err ≤ 2 * 10 ^ 38
  | [], _, _, m, hm, _ => by simp at hm
  | _ :: _, [], _, m, _, hm => by simp at hm
  | r :: rs, w :: ws, h, m, h1, h2 => by
    simp only [rowOk, Bool.and_eq_true, decide_eq_true_eq] at h
    rcases m with _ | m
    · simpa using h.1
    · have := rowOk_sound err rs ws h.2 m (by simpa using h1) (by simpa using h2)
      simpa using this

/-- All columns of a row which are checked are close. -/
def RowClose (n i : ℕ) (r : List ℕ) : Prop :=
  ∀ m < n, |((r.getD (9 - m) 0 : ℕ) : ℝ) / 10 ^ 21 - qChain m (skX i)| ≤ 2e-12

theorem skRun_sound (n : ℕ) (hn : n ≤ 10) : ∀ (rs : List (List ℕ)) (i : ℕ) (V : List ℤ) (e : ℕ × ℕ) (err : ℕ) (V' : List ℤ)
    (e' : ℕ × ℕ) (err' : ℕ), SkState i V e err → skRun n rs V e err V' e' err' = true →
    SkState (i + rs.length) V' e' err' ∧ ∀ j < rs.length, RowClose n (i + j) (rs.getD j [])
  | [], i, V, e, err, V', e', err', h, hr => by
    simp only [skRun, Bool.and_eq_true, decide_eq_true_eq] at hr
    obtain ⟨⟨rfl, rfl⟩, rfl⟩ := hr
    exact ⟨h, fun j hj => by simp at hj⟩
  | r :: rs, i, V, e, err, V', e', err', h, hr => by
    simp only [skRun, Bool.and_eq_true] at hr
    obtain ⟨⟨⟨h1, h2⟩, h3⟩, h4⟩ := hr
    have h1 := Nat.eq_of_beq_eq_true h1
    have h2 := Nat.le_of_ble_eq_true h2
    have hs : SkState (i + 1) (nextV (wList V (logiI e.1 : ℤ))) (expUp e) (nextErr err) := by
      refine ⟨rfl, fun j hj => ?_, expUp_encl h.2.2.1, ?_⟩
      · have := next_err h h2 j (by omega)
        interval_cases j <;> exact this
      · have := h.2.2.2
        unfold nextErr
        omega
    obtain ⟨s1, s2⟩ := skRun_sound n hn rs (i + 1) _ _ _ V' e' err' hs h4
    refine ⟨by rw [List.length_cons, show i + (rs.length + 1) = i + 1 + rs.length by ring]; exact s1, ?_⟩
    intro j hj
    rcases j with _ | j
    · intro m hm
      have hlen : (r.reverse.take n).length = n := by simp [h1]; omega
      have hW := wList_err h h2 m
      have hWl := wList_length h.1 (logiI e.1 : ℤ)
      have hc := rowOk_sound err _ _ h3 m (by omega) (by omega)
      have hW := hW (by omega)
      generalize wList V (logiI e.1 : ℤ) = W at *
      have e1 : (r.reverse.take n).getD m 0 = r.getD (9 - m) 0 := by
        have a1 : m < (r.reverse.take n).length := by omega
        have a2 : 9 - m < r.length := by omega
        simp only [List.getD, List.getElem?_eq_getElem a1, List.getElem?_eq_getElem a2, Option.getD_some,
          List.getElem_take, List.getElem_reverse]
        congr 1
        omega
      rw [e1] at hc
      simp only [List.getD_cons_zero, add_zero] at *
      generalize r.getD (9 - m) 0 = t at *
      generalize W.getD m 0 = w at *
      generalize qChain m (skX i) = q at *
      have hc' : |((t : ℤ) : ℝ) * 10 ^ 29 - (w : ℝ)| + (err : ℝ) ≤ 2 * 10 ^ 38 := by
        have h5 : (((((t : ℤ) * 10 ^ 29 - w).natAbs : ℕ) : ℤ) : ℝ) + ((err : ℤ) : ℝ) ≤ 2 * 10 ^ 38 := by exact_mod_cast hc
        rw [Int.natCast_natAbs, Int.cast_abs, Int.cast_sub, Int.cast_mul, Int.cast_pow, Int.cast_natCast err, Int.cast_ofNat] at h5
        exact h5
      have h6 := abs_sub_le (((t : ℤ) : ℝ) * 10 ^ 29) (w : ℝ) (10 ^ 50 * q)
      have h7 : |((t : ℤ) : ℝ) * 10 ^ 29 - 10 ^ 50 * q| ≤ 2 * 10 ^ 38 := by linarith
      have h8 : ((t : ℤ) : ℝ) * 10 ^ 29 - 10 ^ 50 * q = 10 ^ 50 * ((t : ℝ) / 10 ^ 21 - q) := by
        push_cast
        ring
      rw [h8, abs_mul, abs_of_pos (by positivity)] at h7
      have h9 : (2 * 10 ^ 38 : ℝ) = 10 ^ 50 * 2e-12 := by norm_num
      rw [h9] at h7
      exact le_of_mul_le_mul_left h7 (by positivity)
    · have := s2 j (by simpa using hj)
      rw [show i + (j + 1) = i + 1 + j by ring]
      simpa using this

theorem exp_ten_encl : Encl (Real.exp (-10)) skE0 := by
  have h : ∀ n : ℕ, Encl (Real.exp (-((n : ℝ) * 0.1))) (expStep^[n] (10 ^ 50, 10 ^ 50)) := by
    intro n
    induction n with
    | zero =>
      unfold Encl
      norm_num
    | succ n ih =>
      rw [Function.iterate_succ_apply']
      exact expStep_encl ih
  have h100 := h 100
  have e : expStep^[100] (10 ^ 50, 10 ^ 50) = skE0 := by decide +kernel
  rw [e] at h100
  norm_num at h100
  exact h100

theorem start_values (k : ℕ) (h1 : 1 ≤ k) (h7 : k ≤ 7) :
    |((skV0.getD (7 - k) 0 : ℤ) : ℝ) - 10 ^ 50 * qChain (7 - k) (-10)| ≤ 10 ^ 28 := by
  have hq : qChain (7 - k) (-10) = -fermiS k (-10) := by
    rcases Nat.lt_or_ge k 2 with h | h
    · have : k = 1 := by omega
      subst this
      exact qChain_one (by norm_num)
    · exact qChain_fermiS h h7 (by norm_num)
  have hp := fermiS_partial k (x := -10) (by norm_num) 5
  have hE := exp_ten_encl
  unfold Encl skE0 at hE
  have he : ∀ n : ℕ, Real.exp (((n : ℝ) + 1) * -10) = Real.exp (-10) ^ (n + 1) := by
    intro n
    rw [← Real.exp_nat_mul]
    push_cast
    rfl
  simp only [he] at hp
  rw [hq]
  have hpos := Real.exp_pos (-10)
  generalize Real.exp (-10) = E at *
  generalize fermiS k (-10) = F at *
  obtain ⟨l1, l2⟩ := hE
  simp only at l1 l2
  have hElo : (4539992976248485153559151556055061023791808880 : ℝ) / 10 ^ 50 ≤ E := by
    rw [div_le_iff₀ (by positivity)]
    exact_mod_cast l1
  have hEhi : E ≤ (4539992976248485153559151556055061023791808891 : ℝ) / 10 ^ 50 := by
    rw [le_div_iff₀ (by positivity)]
    exact_mod_cast l2
  have pw : ∀ n : ℕ, ((4539992976248485153559151556055061023791808880 : ℝ) / 10 ^ 50) ^ n ≤ E ^ n ∧
      E ^ n ≤ ((4539992976248485153559151556055061023791808891 : ℝ) / 10 ^ 50) ^ n := fun n =>
    ⟨pow_le_pow_left₀ (by positivity) hElo n, pow_le_pow_left₀ hpos.le hEhi n⟩
  have p1 := pw 1
  have p2 := pw 2
  have p3 := pw 3
  have p4 := pw 4
  have p5 := pw 5
  have p6 := pw 6
  clear pw l1 l2 hElo hEhi
  simp only [Finset.sum_range_succ, Finset.range_zero, Finset.sum_empty] at hp
  generalize hE1 : E ^ 1 = E1 at *
  generalize hE2 : E ^ 2 = E2 at *
  generalize hE3 : E ^ 3 = E3 at *
  generalize hE4 : E ^ 4 = E4 at *
  generalize hE5 : E ^ 5 = E5 at *
  generalize hE6 : E ^ 6 = E6 at *
  norm_num at hp p1 p2 p3 p4 p5 p6
  rw [abs_le] at hp ⊢
  interval_cases k <;> norm_num [skV0, List.getD] at hp ⊢ <;> constructor <;> linarith [hp.1, hp.2, p1.1, p1.2, p2.1, p2.2, p3.1, p3.2, p4.1, p4.2, p5.1, p5.2, p6.1, p6.2]

theorem skState_start : SkState 0 skV0 skE0 skErr0 := by
  have hx : skX 0 = -10 := by
    unfold skX
    norm_num
  refine ⟨rfl, fun j hj => ?_, by rw [hx]; exact exp_ten_encl, by unfold skErr0; norm_num⟩
  have := start_values (7 - j) (by omega) (by omega)
  rw [show 7 - (7 - j) = j by omega, ← hx] at this
  refine this.trans ?_
  unfold skErr0
  norm_num

theorem RowClose.mono {n n' i : ℕ} {r : List ℕ} (h : RowClose n i r) (hn : n' ≤ n) : RowClose n' i r :=
  fun m hm => h m (by omega)

theorem sk_append {n i l : ℕ} (hn : n ≤ 10) {A B : List (List ℕ)} {V V' : List ℤ} {e e' : ℕ × ℕ} {err err' : ℕ}
    (hA : A.length = i ∧ (∀ j < i, RowClose n j (A.getD j [])) ∧ SkState i V e err)
    (hr : skRun n B V e err V' e' err' = true) (hB : B.length = l) :
    (A ++ B).length = i + l ∧ (∀ j < i + l, RowClose n j ((A ++ B).getD j [])) ∧ SkState (i + l) V' e' err' := by
  obtain ⟨h1, h2, h3⟩ := hA
  obtain ⟨s1, s2⟩ := skRun_sound n hn B i V e err V' e' err' h3 hr
  rw [hB] at s1
  refine ⟨by simp [h1, hB], fun j hj => ?_, s1⟩
  rcases lt_or_ge j i with h | h
  · rw [List.getD_append _ _ _ _ (by omega)]
    exact h2 j h
  · rw [List.getD_append_right _ _ _ _ (by omega), h1]
    have := s2 (j - i) (by omega)
    rw [show i + (j - i) = j by omega] at this
    exact this

/-- The first hundred rows. -/
def skU0 : List (List ℕ) := skRows0

/-- The first 200 rows. -/
def skU1 : List (List ℕ) := skU0 ++ skRows1

/-- The first 300 rows. -/
def skU2 : List (List ℕ) := skU1 ++ skRows2

/-- The first 400 rows. -/
def skU3 : List (List ℕ) := skU2 ++ skRows3

/-- The first 500 rows. -/
def skU4 : List (List ℕ) := skU3 ++ skRows4

/-- The first 600 rows. -/
def skU5 : List (List ℕ) := skU4 ++ skRows5

/-- The first 700 rows. -/
def skU6 : List (List ℕ) := skU5 ++ skRows6

/-- The first 800 rows. -/
def skU7 : List (List ℕ) := skU6 ++ skRows7

/-- The first 900 rows. -/
def skU8 : List (List ℕ) := skU7 ++ skRows8

/-- The first 1000 rows. -/
def skU9 : List (List ℕ) := skU8 ++ skRows9

/-- The first 1100 rows. -/
def skU10 : List (List ℕ) := skU9 ++ skRows10

/-- The first 1200 rows. -/
def skU11 : List (List ℕ) := skU10 ++ skRows11

/-- The first 1300 rows. -/
def skU12 : List (List ℕ) := skU11 ++ skRows12

/-- The first 1400 rows. -/
def skU13 : List (List ℕ) := skU12 ++ skRows13

/-- The first 1500 rows. -/
def skU14 : List (List ℕ) := skU13 ++ skRows14

/-- The first 1600 rows. -/
def skU15 : List (List ℕ) := skU14 ++ skRows15

/-- The first 1700 rows. -/
def skU16 : List (List ℕ) := skU15 ++ skRows16

/-- The first 1800 rows. -/
def skU17 : List (List ℕ) := skU16 ++ skRows17

/-- The first 1900 rows. -/
def skU18 : List (List ℕ) := skU17 ++ skRows18

/-- The first 2000 rows. -/
def skU19 : List (List ℕ) := skU18 ++ skRows19

theorem sk_upto_0 : skU0.length = 100 ∧ (∀ j < 100, RowClose 9 j (skU0.getD j [])) ∧ SkState 100 skV1 skE1 skErr1 := by
  have h := sk_append (n := 9) (i := 0) (A := []) (by norm_num) ⟨rfl, fun j hj => absurd hj (by omega), skState_start⟩ skRun0
    (show skRows0.length = 100 by decide +kernel)
  rw [Nat.zero_add] at h
  exact h

theorem sk_upto_1 : skU1.length = 200 ∧ (∀ j < 200, RowClose 9 j (skU1.getD j [])) ∧
    SkState 200 skV2 skE2 skErr2 :=
  sk_append (l := 100) (by norm_num) sk_upto_0 skRun1 (by decide +kernel)

theorem sk_upto_2 : skU2.length = 300 ∧ (∀ j < 300, RowClose 9 j (skU2.getD j [])) ∧
    SkState 300 skV3 skE3 skErr3 :=
  sk_append (l := 100) (by norm_num) sk_upto_1 skRun2 (by decide +kernel)

theorem sk_upto_3 : skU3.length = 400 ∧ (∀ j < 400, RowClose 9 j (skU3.getD j [])) ∧
    SkState 400 skV4 skE4 skErr4 :=
  sk_append (l := 100) (by norm_num) sk_upto_2 skRun3 (by decide +kernel)

theorem sk_upto_4 : skU4.length = 500 ∧ (∀ j < 500, RowClose 9 j (skU4.getD j [])) ∧
    SkState 500 skV5 skE5 skErr5 :=
  sk_append (l := 100) (by norm_num) sk_upto_3 skRun4 (by decide +kernel)

theorem sk_upto_5 : skU5.length = 600 ∧ (∀ j < 600, RowClose 9 j (skU5.getD j [])) ∧
    SkState 600 skV6 skE6 skErr6 :=
  sk_append (l := 100) (by norm_num) sk_upto_4 skRun5 (by decide +kernel)

theorem sk_upto_6 : skU6.length = 700 ∧ (∀ j < 700, RowClose 9 j (skU6.getD j [])) ∧
    SkState 700 skV7 skE7 skErr7 :=
  sk_append (l := 100) (by norm_num) sk_upto_5 skRun6 (by decide +kernel)

theorem sk_upto_7 : skU7.length = 800 ∧ (∀ j < 800, RowClose 9 j (skU7.getD j [])) ∧
    SkState 800 skV8 skE8 skErr8 :=
  sk_append (l := 100) (by norm_num) sk_upto_6 skRun7 (by decide +kernel)

theorem sk_upto_8 : skU8.length = 900 ∧ (∀ j < 900, RowClose 9 j (skU8.getD j [])) ∧
    SkState 900 skV9 skE9 skErr9 :=
  sk_append (l := 100) (by norm_num) sk_upto_7 skRun8 (by decide +kernel)

theorem sk_upto_9 : skU9.length = 1000 ∧ (∀ j < 1000, RowClose 9 j (skU9.getD j [])) ∧
    SkState 1000 skV10 skE10 skErr10 :=
  sk_append (l := 100) (by norm_num) sk_upto_8 skRun9 (by decide +kernel)

theorem sk_upto_10 : skU10.length = 1100 ∧ (∀ j < 1100, RowClose 9 j (skU10.getD j [])) ∧
    SkState 1100 skV11 skE11 skErr11 :=
  sk_append (l := 100) (by norm_num) sk_upto_9 skRun10 (by decide +kernel)

theorem sk_upto_11 : skU11.length = 1200 ∧ (∀ j < 1200, RowClose 9 j (skU11.getD j [])) ∧
    SkState 1200 skV12 skE12 skErr12 :=
  sk_append (l := 100) (by norm_num) sk_upto_10 skRun11 (by decide +kernel)

theorem sk_upto_12 : skU12.length = 1300 ∧ (∀ j < 1300, RowClose 9 j (skU12.getD j [])) ∧
    SkState 1300 skV13 skE13 skErr13 :=
  sk_append (l := 100) (by norm_num) sk_upto_11 skRun12 (by decide +kernel)

theorem sk_upto_13 : skU13.length = 1400 ∧ (∀ j < 1400, RowClose 9 j (skU13.getD j [])) ∧
    SkState 1400 skV14 skE14 skErr14 :=
  sk_append (l := 100) (by norm_num) sk_upto_12 skRun13 (by decide +kernel)

theorem sk_upto_14 : skU14.length = 1500 ∧ (∀ j < 1500, RowClose 9 j (skU14.getD j [])) ∧
    SkState 1500 skV15 skE15 skErr15 :=
  sk_append (l := 100) (by norm_num) sk_upto_13 skRun14 (by decide +kernel)

theorem sk_upto_15 : skU15.length = 1600 ∧ (∀ j < 1600, RowClose 9 j (skU15.getD j [])) ∧
    SkState 1600 skV16 skE16 skErr16 :=
  sk_append (l := 100) (by norm_num) sk_upto_14 skRun15 (by decide +kernel)

theorem sk_upto_16 : skU16.length = 1700 ∧ (∀ j < 1700, RowClose 9 j (skU16.getD j [])) ∧
    SkState 1700 skV17 skE17 skErr17 :=
  sk_append (l := 100) (by norm_num) sk_upto_15 skRun16 (by decide +kernel)

theorem sk_upto_17 : skU17.length = 1800 ∧ (∀ j < 1800, RowClose 9 j (skU17.getD j [])) ∧
    SkState 1800 skV18 skE18 skErr18 :=
  sk_append (l := 100) (by norm_num) sk_upto_16 skRun17 (by decide +kernel)

theorem sk_upto_18 : skU18.length = 1900 ∧ (∀ j < 1900, RowClose 9 j (skU18.getD j [])) ∧
    SkState 1900 skV19 skE19 skErr19 :=
  sk_append (l := 100) (by norm_num) sk_upto_17 skRun18 (by decide +kernel)

theorem sk_upto_19 : skU19.length = 2000 ∧ (∀ j < 2000, RowClose 9 j (skU19.getD j [])) ∧
    SkState 2000 skV20 skE20 skErr20 :=
  sk_append (l := 100) (by norm_num) sk_upto_18 skRun19 (by decide +kernel)

theorem skRows_length : skRows.length = 2001 := by decide +kernel

/-- Every row of the table. -/
theorem skRows_close (i : ℕ) (hi : i ≤ 2000) : RowClose 6 i (skRows.getD i []) ∧ (i < 2000 → RowClose 9 i (skRows.getD i [])) := by
  have h := sk_upto_19
  obtain ⟨h1, h2, h3⟩ := h
  have h6 := sk_append (n := 6) (by norm_num) ⟨h1, fun j hj => (h2 j hj).mono (by norm_num), h3⟩ skRun20
    (show skRows20.length = 1 by decide +kernel)
  have e : skRows = skU19 ++ skRows20 := rfl
  rw [e]
  refine ⟨h6.2.1 i (by omega), fun hi' => ?_⟩
  rw [List.getD_append _ _ _ _ (by rw [h1]; exact hi')]
  exact h2 i hi'

end Libgrpp
