import Verif.Lemmas.Potential
import Mathlib.Tactic.NormNum

/-! # C08, C09: construction, shrinking and values of a potential -/

namespace Libgrpp

/-! ## C08 -/

open Classical in
/-- **C08.** The constructor keeps exactly the terms with `|c| ≥ 1e-14`, in their order, with their powers and
exponents; it reads only the first `num` elements of the three arrays. -/
theorem new_potential_terms (L J : Int) (num : Nat) (powers : List Int) (coeffs alpha : List ℝ)
    (h1 : num ≤ powers.length) (h2 : num ≤ coeffs.length) (h3 : num ≤ alpha.length) :
    ∃ p, newPotential L J num powers coeffs alpha = .ok p ∧ p.L = L ∧ p.J = J ∧
      p.terms = ((powers.take num).zip ((coeffs.take num).zip (alpha.take num))).filter
        (fun t => decide (1e-14 ≤ |t.2.1|)) := by
  obtain ⟨p, hp, e1, e2, -, e3⟩ := newPotential_ok L J num powers coeffs alpha h1 h2 h3
  refine ⟨p, hp, e1, e2, ?_⟩
  rw [e3]
  unfold termsOf zeroThresh
  congr 1
  funext t
  simp only [not_lt]

open Classical in
/-- **C08.** Shrinking keeps exactly the terms with `|c| > 1e-14`, in their order; the argument is not modified
(the model function returns a new object). -/
theorem shrink_potential_terms (p : Potential) (hp : p.WF) :
    ∃ q, shrinkPotential p = .ok q ∧ q.L = p.L ∧ q.J = p.J ∧
      q.terms = p.terms.filter (fun t => decide (|t.2.1| > 1e-14)) := by
  obtain ⟨q, hq, e1, e2, -, e3⟩ := shrinkPotential_ok p hp
  exact ⟨q, hq, e1, e2, e3⟩

/-- **C08.** The value of a potential at `r ≠ 0` is `∑ c r^(n-2) exp(-a r²)` over its terms. (At `r = 0` the library
function `pow` returns an infinity for a negative power, which the real model does not represent.) -/
theorem potential_value_eq_sum (p : Potential) (hp : p.WF) (r : ℝ) (_hr : r ≠ 0) :
    potentialValue p r = .ok (p.terms.map fun t => t.2.1 * r ^ (t.1 - 2) * Real.exp (-t.2.2 * r ^ 2)).sum := by
  rw [potentialValue_ok p hp r]
  simp only [sq]

theorem filter_sum_of_zero {α : Type _} (l : List α) (f : α → ℝ) (q : α → Bool) (h : ∀ a ∈ l, q a = false → f a = 0) :
    ((l.filter q).map f).sum = (l.map f).sum := by
  induction l with
  | nil => rfl
  | cons a l ih =>
    have ih' := ih (fun b hb => h b (by simp [hb]))
    by_cases ha : q a = true
    · rw [List.filter_cons_of_pos ha]
      simp [ih']
    · rw [List.filter_cons_of_neg ha, ih']
      simp [h a (by simp) (by simpa using ha)]

/-- **C08.** When every dropped coefficient is exactly zero, creation and shrinking do not change the value. -/
theorem create_shrink_value_exact (L J : Int) (num : Nat) (powers : List Int) (coeffs alpha : List ℝ)
    (h1 : num ≤ powers.length) (h2 : num ≤ coeffs.length) (h3 : num ≤ alpha.length)
    (hz : ∀ c ∈ coeffs, c = 0 ∨ 1e-14 < |c|) (r : ℝ) (hr : r ≠ 0) :
    ∃ p q v, newPotential L J num powers coeffs alpha = .ok p ∧ shrinkPotential p = .ok q ∧
      potentialValue p r = .ok v ∧ potentialValue q r = .ok v ∧
      v = (((powers.take num).zip ((coeffs.take num).zip (alpha.take num))).map
        fun t => t.2.1 * r ^ (t.1 - 2) * Real.exp (-t.2.2 * r ^ 2)).sum := by
  classical
  obtain ⟨p, hp, -, -, wp, ep⟩ := newPotential_ok L J num powers coeffs alpha h1 h2 h3
  obtain ⟨q, hq, -, -, wq, eq⟩ := shrinkPotential_ok p wp
  have hmem : ∀ t ∈ termsOf num powers coeffs alpha, t.2.1 = 0 ∨ 1e-14 < |t.2.1| := by
    intro t ht
    have h := (List.of_mem_zip (List.of_mem_zip ht).2).1
    exact hz _ (List.mem_of_mem_take h)
  have e1 : (p.terms.map fun t => t.2.1 * r ^ (t.1 - 2) * Real.exp (-t.2.2 * r ^ 2)).sum =
      ((termsOf num powers coeffs alpha).map fun t => t.2.1 * r ^ (t.1 - 2) * Real.exp (-t.2.2 * r ^ 2)).sum := by
    rw [ep]
    apply filter_sum_of_zero
    intro t ht hf
    rcases hmem t ht with h | h
    · simp [h]
    · exfalso
      have : |t.2.1| < zeroThresh := by simpa using hf
      unfold zeroThresh at this
      exact absurd this (not_lt.mpr h.le)
  have e2 : (q.terms.map fun t => t.2.1 * r ^ (t.1 - 2) * Real.exp (-t.2.2 * r ^ 2)).sum =
      (p.terms.map fun t => t.2.1 * r ^ (t.1 - 2) * Real.exp (-t.2.2 * r ^ 2)).sum := by
    rw [eq]
    apply filter_sum_of_zero
    intro t ht hf
    have ht' : t ∈ termsOf num powers coeffs alpha := by
      rw [ep] at ht; exact List.mem_of_mem_filter ht
    rcases hmem t ht' with h | h
    · simp [h]
    · exfalso
      have : ¬ |t.2.1| > zeroThresh := by simpa using hf
      exact this h
  refine ⟨p, q, _, hp, hq, potential_value_eq_sum p wp r hr, ?_, e1⟩
  rw [potential_value_eq_sum q wq r hr, e2]

example : ∀ c ∈ [(0 : ℝ), 2], c = 0 ∨ 1e-14 < |c| := by
  simp; norm_num

/-! ## C09 -/

/-- **C09** is false as stated: a coefficient of magnitude exactly `1e-14` is kept by the constructor and dropped
by shrinking, so shrinking a freshly created potential can change it. -/
theorem shrink_after_create_not_noop :
    ∃ (powers : List Int) (coeffs alpha : List ℝ) (p q : Potential),
      newPotential 0 0 1 powers coeffs alpha = .ok p ∧ shrinkPotential p = .ok q ∧
      p.terms.length = 1 ∧ q.terms.length = 0 := by
  classical
  obtain ⟨p, hp, -, -, wp, ep⟩ := newPotential_ok 0 0 1 [2] [1e-14] [1] (by simp) (by simp) (by simp)
  obtain ⟨q, hq, -, -, -, eq⟩ := shrinkPotential_ok p wp
  have hpos : |(1e-14 : ℝ)| = 1e-14 := abs_of_pos (by norm_num)
  have e1 : p.terms = [(2, 1e-14, 1)] := by
    rw [ep]; simp [termsOf, zeroThresh, hpos]
  refine ⟨[2], [1e-14], [1], p, q, hp, hq, by rw [e1]; rfl, ?_⟩
  rw [eq, e1]
  simp [zeroThresh, hpos]

/-- **C09, partial.** Full statement: shrinking a freshly created potential never changes its terms. That is false
for `|c| = 1e-14` (`shrink_after_create_not_noop`); for all other coefficients it holds. -/
theorem shrink_after_create_noop_partial (L J : Int) (num : Nat) (powers : List Int) (coeffs alpha : List ℝ)
    (h1 : num ≤ powers.length) (h2 : num ≤ coeffs.length) (h3 : num ≤ alpha.length)
    (hne : ∀ c ∈ coeffs, |c| ≠ 1e-14) (p : Potential) (hp : newPotential L J num powers coeffs alpha = .ok p) :
    ∃ q, shrinkPotential p = .ok q ∧ q.terms = p.terms ∧ q.L = p.L ∧ q.J = p.J := by
  classical
  obtain ⟨p', hp', -, -, wp, ep⟩ := newPotential_ok L J num powers coeffs alpha h1 h2 h3
  rw [hp] at hp'
  cases hp'
  obtain ⟨q, hq, l1, l2, -, eq⟩ := shrinkPotential_ok p wp
  refine ⟨q, hq, ?_, l1, l2⟩
  rw [eq, List.filter_eq_self]
  intro t ht
  rw [ep, List.mem_filter] at ht
  obtain ⟨ht1, ht2⟩ := ht
  have h := hne _ (List.mem_of_mem_take (List.of_mem_zip (List.of_mem_zip ht1).2).1)
  have h' : zeroThresh ≤ |t.2.1| := by simpa using ht2
  have : zeroThresh < |t.2.1| := lt_of_le_of_ne h' (by unfold zeroThresh; exact h.symm)
  simpa using this

example : ∀ c ∈ [(0 : ℝ), 2], |c| ≠ 1e-14 := by
  simp; norm_num

end Libgrpp
