import Verif.Model.RadialLocal
import Verif.Model.Spec
import Verif.Props.Binomial
import Verif.Lemmas.SphericalHarmonics

/-! The six nested loops over binomial expansions. -/

namespace Libgrpp

/-- The components below `x` in every coordinate. -/
def box (x : Comp) : Finset Comp := Finset.range (x.1 + 1) ×ˢ (Finset.range (x.2.1 + 1) ×ˢ Finset.range (x.2.2 + 1))

/-- Coefficient of `s^p` in `(s + t)^x`. -/
noncomputable def boxCoef (x : Comp) (t : Point) (p : Comp) : ℝ :=
  (x.1.choose p.1 : ℝ) * x.2.1.choose p.2.1 * x.2.2.choose p.2.2 * (t 0 ^ (x.1 - p.1) * t 1 ^ (x.2.1 - p.2.1) * t 2 ^ (x.2.2 - p.2.2))

/-- `s^p` -/
noncomputable def monoAt (p : Comp) (s : Point) : ℝ := s 0 ^ p.1 * s 1 ^ p.2.1 * s 2 ^ p.2.2

theorem mem_box {x p : Comp} : p ∈ box x ↔ p.1 ≤ x.1 ∧ p.2.1 ≤ x.2.1 ∧ p.2.2 ≤ x.2.2 := by
  simp only [box, Finset.mem_product, Finset.mem_range]
  omega

theorem sum_box {β : Type*} [AddCommMonoid β] (x : Comp) (g : Comp → β) : ∑ p ∈ box x, g p =
    ∑ a ∈ Finset.range (x.1 + 1), ∑ b ∈ Finset.range (x.2.1 + 1), ∑ c ∈ Finset.range (x.2.2 + 1), g (a, b, c) := by
  unfold box
  rw [Finset.sum_product]
  exact Finset.sum_congr rfl fun a _ => by rw [Finset.sum_product]

/-- The multinomial expansion. -/
theorem monoAt_add (x : Comp) (s t : Point) : monoAt x (fun i => s i + t i) = ∑ p ∈ box x, boxCoef x t p * monoAt p s := by
  rw [sum_box]
  unfold monoAt boxCoef
  simp only [add_pow]
  rw [Finset.sum_mul_sum, Finset.sum_mul]
  refine Finset.sum_congr rfl fun a _ => ?_
  rw [Finset.sum_mul]
  refine Finset.sum_congr rfl fun b _ => ?_
  rw [Finset.mul_sum]
  refine Finset.sum_congr rfl fun c _ => ?_
  ring

/-- A loop that adds, in any commutative monoid. -/
theorem forRange_sumG {β : Type} [AddCommMonoid β] {n : ℕ} {a : β} {body : ℕ → β → Outcome β} (g : ℕ → β)
    (h : ∀ i < n, ∀ s, body i s = .ok (s + g i)) : forRange n a body = .ok (a + ∑ i ∈ Finset.range n, g i) := by
  obtain ⟨s, hs, he⟩ := forRange_inv (n := n) (s := a) (body := body) (fun m s => s = a + ∑ i ∈ Finset.range m, g i) (by simp)
    (by
      rintro i s hi rfl
      exact ⟨_, h i hi _, by rw [Finset.sum_range_succ, add_assoc]⟩)
  rw [hs, he]

/-- The six loops add up the contributions of the factors that are not small. -/
theorem forMono_sum {β : Type} [AddCommMonoid β] (thr : ℝ) (CA CB : Point) (x y : Comp)
    (hx : x.1 ≤ 60 ∧ x.2.1 ≤ 60 ∧ x.2.2 ≤ 60) (hy : y.1 ≤ 60 ∧ y.2.1 ≤ 60 ∧ y.2.2 ≤ 60)
    (body : Comp → Comp → ℝ → β → Outcome β) (g : Comp → Comp → β) (s : β)
    (h : ∀ p ∈ box x, ∀ q ∈ box y, ¬ |boxCoef x CA p * boxCoef y CB q| < thr → ∀ s,
      body p q (boxCoef x CA p * boxCoef y CB q) s = .ok (s + g p q)) :
    forMono thr CA CB x y s body =
      .ok (s + ∑ p ∈ box x, ∑ q ∈ box y, if |boxCoef x CA p * boxCoef y CB q| < thr then 0 else g p q) := by
  classical
  simp only [sum_box]
  unfold forMono
  refine forRange_sumG _ fun a ha s => ?_
  rw [binomial_small hx.1 (by omega), Outcome.ok_bind]
  refine forRange_sumG _ fun b hb s => ?_
  rw [binomial_small hx.2.1 (by omega), Outcome.ok_bind]
  refine forRange_sumG _ fun c hc s => ?_
  rw [binomial_small hx.2.2 (by omega), Outcome.ok_bind]
  refine forRange_sumG _ fun d hd s => ?_
  rw [binomial_small hy.1 (by omega), Outcome.ok_bind]
  refine forRange_sumG _ fun e he s => ?_
  rw [binomial_small hy.2.1 (by omega), Outcome.ok_bind]
  refine forRange_sumG _ fun f hf s => ?_
  rw [binomial_small hy.2.2 (by omega), Outcome.ok_bind]
  have hfac : (x.1.choose a : ℝ) * x.2.1.choose b * x.2.2.choose c * y.1.choose d * y.2.1.choose e * y.2.2.choose f *
      CA 0 ^ (x.1 - a) * CA 1 ^ (x.2.1 - b) * CA 2 ^ (x.2.2 - c) * CB 0 ^ (y.1 - d) * CB 1 ^ (y.2.1 - e) *
      CB 2 ^ (y.2.2 - f) = boxCoef x CA (a, b, c) * boxCoef y CB (d, e, f) := by
    unfold boxCoef
    ring
  simp only [hfac]
  split_ifs with hlt
  · rw [add_zero]
  · exact h (a, b, c) (mem_box.2 ⟨by simp; omega, by simp; omega, by simp; omega⟩) (d, e, f)
      (mem_box.2 ⟨by simp; omega, by simp; omega, by simp; omega⟩) hlt s

end Libgrpp
