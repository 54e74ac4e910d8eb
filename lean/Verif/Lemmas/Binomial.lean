import Verif.Model.Binomial
import Mathlib.Data.Nat.Choose.Basic
import Mathlib.Data.Nat.GCD.Basic
import Mathlib.Tactic.Ring

namespace Libgrpp

theorem gcdLoop_eq (x y : Nat) : gcdLoop x y = Nat.gcd x y := by
  induction y using Nat.strong_induction_on generalizing x with
  | _ y ih =>
    rw [gcdLoop]
    split
    · rename_i h
      rw [ih _ (Nat.mod_lt _ h), Nat.gcd_comm x y, Nat.gcd_rec y x, Nat.gcd_comm]
    · rename_i h
      have : y = 0 := by omega
      simp [this]

theorem gcdUi_eq (x y : Nat) : gcdUi x y = Nat.gcd x y := by
  unfold gcdUi
  split
  · rw [gcdLoop_eq, Nat.gcd_comm]
  · rw [gcdLoop_eq]

theorem choose_mono_half {n d k : Nat} (hdk : d ≤ k) (hk : k ≤ n / 2) :
    n.choose d ≤ n.choose k := by
  induction k, hdk using Nat.le_induction with
  | base => exact le_rfl
  | succ k hdk ih =>
    exact (ih (by omega)).trans (Nat.choose_le_succ_of_lt_half_left (by omega))

/-- What the reduction by greatest common divisors achieves: the denominator disappears. -/
theorem reduced_product {r n d c : Nat} (hd : 0 < d) (hn : 0 < n) (hr : 0 < r)
    (h : c * d = r * n) :
    Nat.gcd r (d / Nat.gcd n d) = d / Nat.gcd n d ∧
      (r / (d / Nat.gcd n d)) * (n / Nat.gcd n d) = c := by
  have hg : 0 < Nat.gcd n d := Nat.gcd_pos_of_pos_left _ hn
  have hcop : Nat.Coprime (n / Nat.gcd n d) (d / Nat.gcd n d) := Nat.coprime_div_gcd_div_gcd hg
  have e1 : n = Nat.gcd n d * (n / Nat.gcd n d) := (Nat.mul_div_cancel' (Nat.gcd_dvd_left n d)).symm
  have e2 : d = Nat.gcd n d * (d / Nat.gcd n d) := (Nat.mul_div_cancel' (Nat.gcd_dvd_right n d)).symm
  generalize hgg : Nat.gcd n d = g at *
  generalize n / g = nr at *
  generalize d / g = dr at *
  have h2 : c * dr = r * nr := by
    apply Nat.eq_of_mul_eq_mul_left hg
    calc g * (c * dr) = c * (g * dr) := by ring
      _ = c * d := by rw [← e2]
      _ = r * n := h
      _ = r * (g * nr) := by rw [← e1]
      _ = g * (r * nr) := by ring
  have hdvd : dr ∣ r := by
    have : dr ∣ r * nr := ⟨c, by rw [← h2]; ring⟩
    exact hcop.symm.dvd_of_dvd_mul_right this
  have hdr : 0 < dr := by
    rcases Nat.eq_zero_or_pos dr with h0 | h0
    · rw [h0] at e2; omega
    · exact h0
  refine ⟨Nat.gcd_eq_right hdvd, ?_⟩
  obtain ⟨q, rfl⟩ := hdvd
  rw [Nat.mul_div_cancel_left _ hdr]
  apply Nat.eq_of_mul_eq_mul_left hdr
  rw [← Nat.mul_assoc, ← h2]
  ring

/-- Loop invariant of `binomial`. -/
theorem binomialLoop_spec (N k : Nat) (hN : N < 2 ^ 64) (hk : k ≤ N / 2) :
    ∀ steps d, d + steps = k + 1 → 1 ≤ d →
      ∃ v, binomialLoop steps d (N.choose (d - 1)) (N - (d - 1)) = .ok v ∧
        (v = N.choose k ∨ (v = 0 ∧ uint64Max < N.choose k + N)) ∧
        (steps ≠ 0 → v ≤ uint64Max) := by
  intro steps
  induction steps with
  | zero =>
    intro d hd h1
    have : d - 1 = k := by omega
    refine ⟨_, rfl, Or.inl (by rw [this]), by simp⟩
  | succ steps ih =>
    intro d hd h1
    obtain ⟨e, rfl⟩ : ∃ e, d = e + 1 := ⟨d - 1, by omega⟩
    have hek : e + 1 ≤ k := by omega
    have hnpos : 0 < N - e := by omega
    have hrpos : 0 < N.choose e := Nat.choose_pos (by omega)
    have hstep : N.choose (e + 1) * (e + 1) = N.choose e * (N - e) := Nat.choose_succ_right_eq N e
    have hmono : N.choose (e + 1) ≤ N.choose k := choose_mono_half hek hk
    have hih := ih (e + 2) (by omega) (by omega)
    have es : e + 2 - 1 = e + 1 := by omega
    have es' : N - (e + 1) = N - e - 1 := by omega
    rw [es] at hih
    rw [es'] at hih
    have hlast : steps = 0 → k = e + 1 := by omega
    unfold binomialLoop
    simp only [Nat.add_sub_cancel, Outcome.valid_pos (show N - e ≠ 0 by omega), Outcome.ok_bind]
    by_cases hov : N.choose e ≥ uint64Max / (N - e)
    · rw [if_pos hov]
      obtain ⟨hg2, hprod⟩ := reduced_product (Nat.succ_pos e) hnpos hrpos hstep
      have hg : Nat.gcd (N - e) (e + 1) ≠ 0 :=
        (Nat.gcd_pos_of_pos_left _ hnpos).ne'
      have hdrpos : 0 < (e + 1) / Nat.gcd (N - e) (e + 1) :=
        Nat.div_pos (Nat.le_of_dvd (Nat.succ_pos e) (Nat.gcd_dvd_right _ _)) (Nat.pos_of_ne_zero hg)
      have hnrpos : 0 < (N - e) / Nat.gcd (N - e) (e + 1) :=
        Nat.div_pos (Nat.le_of_dvd hnpos (Nat.gcd_dvd_left _ _)) (Nat.pos_of_ne_zero hg)
      have hnrle : (N - e) / Nat.gcd (N - e) (e + 1) ≤ N :=
        (Nat.div_le_self _ _).trans (Nat.sub_le _ _)
      simp only [gcdUi_eq, Outcome.valid_pos hg, Outcome.ok_bind, hg2,
        Outcome.valid_pos hdrpos.ne', Outcome.valid_pos hnrpos.ne', Nat.div_self hdrpos]
      generalize N.choose e / ((e + 1) / Nat.gcd (N - e) (e + 1)) = r' at *
      generalize (N - e) / Nat.gcd (N - e) (e + 1) = nr at *
      by_cases hov2 : r' ≥ uint64Max / nr
      · rw [if_pos hov2]
        refine ⟨0, rfl, Or.inr ⟨rfl, ?_⟩, by simp⟩
        have h3 : uint64Max < (r' + 1) * nr := by
          have := Nat.lt_mul_div_succ uint64Max hnrpos
          calc uint64Max < nr * (uint64Max / nr + 1) := this
            _ ≤ nr * (r' + 1) := Nat.mul_le_mul_left _ (by omega)
            _ = (r' + 1) * nr := Nat.mul_comm _ _
        rw [Nat.add_mul, hprod] at h3
        omega
      · rw [if_neg hov2]
        have hlt : r' * nr ≤ uint64Max := by
          have h4 : r' ≤ uint64Max / nr := by omega
          exact (Nat.mul_le_mul_right nr h4).trans (Nat.div_mul_le_self _ _)
        have hwrap : u64 (r' * nr) = N.choose (e + 1) := by
          rw [u64, Nat.mod_eq_of_lt, hprod]
          unfold uint64Max at hlt
          omega
        simp only [Outcome.valid_pos Nat.one_ne_zero, Outcome.ok_bind, hwrap, Nat.div_one]
        obtain ⟨v, hv, hv2, hv3⟩ := hih
        refine ⟨v, hv, hv2, fun _ => ?_⟩
        by_cases hs : steps = 0
        · subst hs
          have : v = N.choose (e + 1) := by
            have := hv
            simp only [binomialLoop, Outcome.ok.injEq] at this
            exact this.symm
          rw [this, ← hprod]; exact hlt
        · exact hv3 hs
    · rw [if_neg hov]
      have hlt : N.choose e * (N - e) ≤ uint64Max := by
        have h4 : N.choose e ≤ uint64Max / (N - e) := by omega
        exact (Nat.mul_le_mul_right _ h4).trans (Nat.div_mul_le_self _ _)
      have hwrap : u64 (N.choose e * (N - e)) / (e + 1) = N.choose (e + 1) := by
        rw [u64, Nat.mod_eq_of_lt, ← hstep, Nat.mul_div_cancel _ (Nat.succ_pos e)]
        unfold uint64Max at hlt
        omega
      simp only [Outcome.valid_pos (Nat.succ_ne_zero e), Outcome.ok_bind, hwrap]
      obtain ⟨v, hv, hv2, hv3⟩ := hih
      refine ⟨v, hv, hv2, fun _ => ?_⟩
      by_cases hs : steps = 0
      · subst hs
        have : v = N.choose (e + 1) := by
          have := hv
          simp only [binomialLoop, Outcome.ok.injEq] at this
          exact this.symm
        rw [this]
        calc N.choose (e + 1) ≤ N.choose (e + 1) * (e + 1) := Nat.le_mul_of_pos_right _ (Nat.succ_pos e)
          _ ≤ uint64Max := by rw [hstep]; exact hlt
      · exact hv3 hs

end Libgrpp
