import Verif.Lemmas.Binomial

/-! # C01: the 64-bit binomial routine is exact or zero -/

namespace Libgrpp

/-- **C01.** For all 64-bit arguments `binomial` runs without undefined behaviour; the value is `C(n,k)` or `0`;
it fits in 64 bits; it is `C(n,k)` whenever `C(n,k) + n` fits in 64 bits. -/
theorem binomial_exact_or_zero (n k : Nat) (hn : n < 2 ^ 64) (_hk : k < 2 ^ 64) :
    ∃ v, binomial n k = .ok v ∧ v < 2 ^ 64 ∧ (v = n.choose k ∨ v = 0) ∧
      (n.choose k + n < 2 ^ 64 → v = n.choose k) := by
  unfold binomial
  by_cases h0 : k = 0
  · subst h0
    exact ⟨1, by simp, by omega, by simp, by simp⟩
  by_cases h1 : k = 1
  · subst h1
    exact ⟨n, by simp, hn, by simp, by simp⟩
  rw [if_neg h0, if_neg h1]
  by_cases h2 : k ≥ n
  · rw [if_pos h2]
    by_cases h3 : k = n
    · subst h3
      exact ⟨1, by simp, by omega, by simp, by simp⟩
    · have h4 : n.choose k = 0 := Nat.choose_eq_zero_of_lt (by omega)
      exact ⟨0, by simp [h3], by omega, by simp, by simp [h4]⟩
  · rw [if_neg h2]
    have main : ∀ k', k' ≤ n / 2 → k' ≠ 0 → n.choose k' = n.choose k →
        ∃ v, binomialLoop k' 1 1 n = .ok v ∧ v < 2 ^ 64 ∧ (v = n.choose k ∨ v = 0) ∧
          (n.choose k + n < 2 ^ 64 → v = n.choose k) := by
      intro k' hk' hk0 hc
      obtain ⟨v, hv, hv2, hv3⟩ := binomialLoop_spec n k' hn hk' k' 1 (by omega) le_rfl
      simp only [Nat.sub_self, Nat.choose_zero_right, Nat.sub_zero] at hv
      rw [hc] at hv2
      have hv4 := hv3 hk0
      unfold uint64Max at hv2 hv4
      refine ⟨v, hv, by omega, ?_, fun h => ?_⟩
      · rcases hv2 with h | h
        · exact Or.inl h
        · exact Or.inr h.1
      · rcases hv2 with h' | h'
        · exact h'
        · omega
    by_cases h5 : k > n / 2
    · simp only [h5, if_true]
      exact main (n - k) (by omega) (by omega) (Nat.choose_symm (by omega))
    · simp only [h5, if_false]
      exact main k (by omega) h0 rfl

/-- **C01**, overflow part: when `C(n,k)` does not fit in 64 bits the routine returns `0`,
never a wrapped value. -/
theorem binomial_overflow_zero (n k : Nat) (hn : n < 2 ^ 64) (hk : k < 2 ^ 64)
    (h : 2 ^ 64 ≤ n.choose k) : binomial n k = .ok 0 := by
  obtain ⟨v, hv, hv1, hv2, _⟩ := binomial_exact_or_zero n k hn hk
  rcases hv2 with h' | h'
  · omega
  · rw [hv, h']

/-- **C01**, out of range: `0` when `k > n`. -/
theorem binomial_gt_zero (n k : Nat) (hn : n < 2 ^ 64) (hk : k < 2 ^ 64) (h : n < k) :
    binomial n k = .ok 0 := by
  obtain ⟨v, hv, _, hv2, _⟩ := binomial_exact_or_zero n k hn hk
  have := Nat.choose_eq_zero_of_lt h
  rcases hv2 with h' | h'
  · rw [hv, h', this]
  · rw [hv, h']

/-- Finding: the comment "unavoidable overflow" is not accurate. `C(6074001000, 2)` fits in 64 bits
but the routine returns `0`; so `C(n,k) + n < 2^64` in `binomial_exact_or_zero` cannot be
weakened to `C(n,k) < 2^64`. -/
theorem binomial_false_zero :
    Nat.choose 6074001000 2 < 2 ^ 64 ∧ Nat.choose 6074001000 2 ≠ 0 ∧
      binomial 6074001000 2 = .ok 0 := by
  have h : Nat.choose 6074001000 2 = 18446744070963499500 := by
    rw [Nat.choose_two_right]
  refine ⟨by rw [h]; omega, by rw [h]; omega, ?_⟩
  simp [binomial, binomialLoop, gcdUi_eq, uint64Max, u64, Outcome.valid]

-- non-vacuity: an argument pair where the guarded (reducing) branch is taken and the result is exact
example : (62 : Nat) < 2 ^ 64 ∧ (31 : Nat) < 2 ^ 64 ∧ Nat.choose 62 31 + 62 < 2 ^ 64 := by
  refine ⟨by omega, by omega, by decide⟩
example : (2 : Nat) ^ 64 ≤ Nat.choose 68 34 := by decide

end Libgrpp
