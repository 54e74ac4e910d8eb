import Verif.Model.Potential
import Verif.Lemmas.Shell

/-! Helper lemmas for `potential.c`. -/

namespace Libgrpp

/-- A term `c r^(n-2) exp(-a r²)` of a potential: (n, c, a). -/
abbrev Term := Int × ℝ × ℝ

/-- The terms in the first `n` elements of three parallel arrays. -/
def termsOf (n : Nat) (powers : List Int) (coeffs alpha : List ℝ) : List Term :=
  (powers.take n).zip ((coeffs.take n).zip (alpha.take n))

/-- The terms of a potential. -/
def Potential.terms (p : Potential) : List Term := termsOf p.num p.powers p.coeffs p.alpha

/-- The arrays of a potential hold at least `num` elements. -/
def Potential.WF (p : Potential) : Prop :=
  p.num ≤ p.powers.length ∧ p.num ≤ p.coeffs.length ∧ p.num ≤ p.alpha.length

theorem termsOf_succ (n : Nat) (powers : List Int) (coeffs alpha : List ℝ) (h1 : n < powers.length)
    (h2 : n < coeffs.length) (h3 : n < alpha.length) :
    termsOf (n + 1) powers coeffs alpha = termsOf n powers coeffs alpha ++ [(powers[n], coeffs[n], alpha[n])] := by
  unfold termsOf
  rw [← List.take_concat_get' powers n h1, ← List.take_concat_get' coeffs n h2,
    ← List.take_concat_get' alpha n h3, List.zip_append (by simp; omega), List.zip_append (by simp; omega)]
  rfl

theorem termsOf_length (n : Nat) (powers : List Int) (coeffs alpha : List ℝ) (h1 : n ≤ powers.length)
    (h2 : n ≤ coeffs.length) (h3 : n ≤ alpha.length) : (termsOf n powers coeffs alpha).length = n := by
  unfold termsOf; simp; omega

theorem copyTerms_ok (keep : ℝ → Prop) [DecidablePred keep] (n : Nat) (powers : List Int) (coeffs alpha : List ℝ)
    (h1 : n ≤ powers.length) (h2 : n ≤ coeffs.length) (h3 : n ≤ alpha.length) :
    ∃ k ps cs as, copyTerms keep n powers coeffs alpha = .ok (k, ps, cs, as) ∧ k ≤ n ∧ ps.length = n ∧
      cs.length = n ∧ as.length = n ∧
      termsOf k ps cs as = (termsOf n powers coeffs alpha).filter (fun t => decide (keep t.2.1)) := by
  have key : ∃ r, copyTerms keep n powers coeffs alpha = .ok r ∧ (r.1 ≤ n ∧ r.2.1.length = n ∧
      r.2.2.1.length = n ∧ r.2.2.2.length = n ∧ termsOf r.1 r.2.1 r.2.2.1 r.2.2.2 =
        (termsOf n powers coeffs alpha).filter (fun t => decide (keep t.2.1))) := by
    unfold copyTerms
    refine forRange_spec
      (fun i (r : Nat × List Int × List ℝ × List ℝ) => r.1 ≤ i ∧ r.2.1.length = n ∧
        r.2.2.1.length = n ∧ r.2.2.2.length = n ∧ termsOf r.1 r.2.1 r.2.2.1 r.2.2.2 =
        (termsOf i powers coeffs alpha).filter (fun t => decide (keep t.2.1)))
      ⟨le_rfl, by simp, by simp, by simp, by simp [termsOf]⟩ ?_ (fun r h => h)
    rintro i ⟨k, ps, cs, as⟩ hi ⟨g1, g2, g3, g4, g5⟩
    simp only at g1 g2 g3 g4 g5 ⊢
    have i1 : i < powers.length := by omega
    have i2 : i < coeffs.length := by omega
    have i3 : i < alpha.length := by omega
    rw [rd_ok i2]
    simp only [Outcome.ok_bind]
    by_cases hk : keep coeffs[i]
    · rw [if_pos hk, rd_ok i1, rd_ok i3]
      simp only [Outcome.ok_bind]
      rw [wr_ok _ (show k < ps.length by omega), wr_ok _ (show k < cs.length by omega),
        wr_ok _ (show k < as.length by omega)]
      refine ⟨(k + 1, ps.set k powers[i], cs.set k coeffs[i], as.set k alpha[i]), rfl, ?_, ?_, ?_, ?_, ?_⟩
      · show k + 1 ≤ i + 1; omega
      · simpa using g2
      · simpa using g3
      · simpa using g4
      · rw [termsOf_succ i _ _ _ i1 i2 i3, List.filter_append, ← g5]
        show termsOf (k + 1) _ _ _ = _
        unfold termsOf
        rw [take_set_succ _ _ _ (by omega), take_set_succ _ _ _ (by omega), take_set_succ _ _ _ (by omega),
          List.zip_append (by simp; omega), List.zip_append (by simp; omega)]
        simp [hk]
    · rw [if_neg hk]
      refine ⟨(k, ps, cs, as), rfl, ?_, g2, g3, g4, ?_⟩
      · show k ≤ i + 1; omega
      · rw [termsOf_succ i _ _ _ i1 i2 i3, List.filter_append, ← g5]
        simp [hk]
  obtain ⟨⟨k, ps, cs, as⟩, h, h'⟩ := key
  exact ⟨k, ps, cs, as, h, h'⟩

open Classical in
theorem newPotential_ok (L J : Int) (num : Nat) (powers : List Int) (coeffs alpha : List ℝ)
    (h1 : num ≤ powers.length) (h2 : num ≤ coeffs.length) (h3 : num ≤ alpha.length) :
    ∃ p, newPotential L J num powers coeffs alpha = .ok p ∧ p.L = L ∧ p.J = J ∧ p.WF ∧
      p.terms = (termsOf num powers coeffs alpha).filter (fun t => decide (¬ |t.2.1| < zeroThresh)) := by
  obtain ⟨k, ps, cs, as, h, hk, e1, e2, e3, e4⟩ :=
    copyTerms_ok (fun c => ¬ |c| < zeroThresh) num powers coeffs alpha h1 h2 h3
  refine ⟨⟨L, J, k, ps, cs, as⟩, ?_, rfl, rfl, ?_, ?_⟩
  · unfold newPotential
    have := h
    rw [this]
    rfl
  · exact ⟨by show k ≤ ps.length; omega, by show k ≤ cs.length; omega, by show k ≤ as.length; omega⟩
  · show termsOf k ps cs as = _
    rw [e4]

open Classical in
theorem shrinkPotential_ok (p : Potential) (hp : p.WF) :
    ∃ q, shrinkPotential p = .ok q ∧ q.L = p.L ∧ q.J = p.J ∧ q.WF ∧
      q.terms = p.terms.filter (fun t => decide (|t.2.1| > zeroThresh)) := by
  obtain ⟨k, ps, cs, as, h, hk, e1, e2, e3, e4⟩ :=
    copyTerms_ok (fun c => |c| > zeroThresh) p.num p.powers p.coeffs p.alpha hp.1 hp.2.1 hp.2.2
  obtain ⟨q, hq, q1, q2, q3, q4⟩ := newPotential_ok p.L p.J k ps cs as (by omega) (by omega) (by omega)
  refine ⟨q, ?_, q1, q2, q3, ?_⟩
  · unfold shrinkPotential
    rw [h]
    exact hq
  · rw [q4, e4, List.filter_filter]
    unfold Potential.terms
    apply List.filter_congr
    intro t _
    by_cases ht : |t.2.1| > zeroThresh
    · have : ¬ |t.2.1| < zeroThresh := not_lt.mpr ht.le
      simp [ht, this]
    · simp [ht]

theorem potentialValue_ok (p : Potential) (hp : p.WF) (r : ℝ) :
    potentialValue p r = .ok (p.terms.map fun t => t.2.1 * r ^ (t.1 - 2) * Real.exp (-t.2.2 * (r * r))).sum := by
  have key : ∃ v, potentialValue p r = .ok v ∧
      v = (p.terms.map fun t => t.2.1 * r ^ (t.1 - 2) * Real.exp (-t.2.2 * (r * r))).sum := by
    unfold potentialValue
    refine forRange_spec (fun k v => v = ((termsOf k p.powers p.coeffs p.alpha).map
      fun t => t.2.1 * r ^ (t.1 - 2) * Real.exp (-t.2.2 * (r * r))).sum) (by simp [termsOf]) ?_ (fun v h => h)
    rintro i v hi rfl
    have i1 : i < p.powers.length := lt_of_lt_of_le hi hp.1
    have i2 : i < p.coeffs.length := lt_of_lt_of_le hi hp.2.1
    have i3 : i < p.alpha.length := lt_of_lt_of_le hi hp.2.2
    refine ⟨_, ?_, rfl⟩
    rw [rd_ok i1, rd_ok i2, rd_ok i3]
    simp only [Outcome.ok_bind]
    rw [termsOf_succ i _ _ _ i1 i2 i3, List.map_append, List.sum_append]
    simp
  obtain ⟨v, h, rfl⟩ := key
  exact h

end Libgrpp
