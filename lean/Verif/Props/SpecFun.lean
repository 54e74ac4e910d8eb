import Verif.Lemmas.BoysTable

/-! # C53, C54, C64, C65: auxiliary functions of the local-potential integrals

`boysF`, `gF` (file `Verif/Model/SpecLocal.lean`) are the Boys function and the function `G_n`, defined by their
integrals. -/

namespace Libgrpp

/-! ## C53 -/

/-- **C53.** Whatever the Dawson routine returns, and in both branches, the values produced for the `r⁻²` potentials
satisfy the three-term relation `(2n+1) G_n + 2x G_{n+1} = 1`; the routine always returns (up to order 99, the size of
its array). -/
theorem gfun_relation (dawson : ℝ → ℝ) (x : ℝ) (nmax : Nat) (hn : nmax < 100) :
    ∃ g : Aux, ∃ f : ℕ → ℝ, gfunValues dawson x nmax = .ok g ∧ (∀ n ≤ nmax, g n = some (f n)) ∧
      ∀ n < nmax, (2 * (n : ℝ) + 1) * f n + 2 * x * f (n + 1) = 1 := by
  by_cases h : x ≤ 12
  · obtain ⟨K, -, h2, -⟩ := gfunTaylorLoop_eq nmax x 100 0 0
    obtain ⟨g, hg, hv⟩ := gfunValues_down dawson h hn h2
    exact ⟨g, _, hg, hv, fun n hn => gDown_rec x _ hn⟩
  · obtain ⟨g, hg, hv⟩ := gfunValues_up dawson (not_le.1 h) hn
    exact ⟨g, _, hg, hv, fun n _ => gUp_rec (by linarith) _ n⟩

/-- The exact functions satisfy the same relation, for every `x` and `n`. -/
theorem gfun_relation_exact (n : ℕ) (x : ℝ) : (2 * (n : ℝ) + 1) * gF n x + 2 * x * gF (n + 1) x = 1 := gF_rec n x

/-- **C53**, consequence: in the large-argument branch, if the Dawson routine is exact at `√x`, all values are exact. -/
theorem gfun_large_exact (dawson : ℝ → ℝ) (x : ℝ) (hx : 12 < x) (nmax : Nat) (hn : nmax < 100)
    (hd : dawson (Real.sqrt x) = Real.exp (-Real.sqrt x ^ 2) * ∫ s in (0 : ℝ)..Real.sqrt x, Real.exp (s ^ 2)) :
    ∃ g : Aux, gfunValues dawson x nmax = .ok g ∧ ∀ n ≤ nmax, g n = some (gF n x) := by
  have hx0 : 0 < x := by linarith
  obtain ⟨g, hg, hv⟩ := gfunValues_up dawson hx hn
  refine ⟨g, hg, fun n hn' => ?_⟩
  rw [hv n hn']
  congr 1
  refine gRec_unique hx0.ne' (f := gUp x _) ?_ (fun n _ => gUp_rec hx0.ne' _ n) n hn'
  rw [gF_zero hx0, gUp, hd]
  rfl

/-- The values are not trivially related: at `x = 0` they are `1/(2n+1)`. -/
example : gF 0 0 = 1 ∧ gF 1 0 = 1 / 3 := by
  have h0 := gF_rec 0 0
  have h1 := gF_rec 1 0
  norm_num at h0 h1
  constructor <;> linarith

example (dawson : ℝ → ℝ) : ∃ g : Aux, ∃ f : ℕ → ℝ, gfunValues dawson 20 4 = .ok g ∧ g 3 = some (f 3) ∧
    7 * f 3 + 40 * f 4 = 1 := by
  obtain ⟨g, f, h1, h2, h3⟩ := gfun_relation dawson 20 4 (by norm_num)
  refine ⟨g, f, h1, h2 3 (by norm_num), ?_⟩
  have := h3 3 (by norm_num)
  norm_num at this
  linarith

/-! ## C65 -/

/-- **C65.** Accuracy in the small-argument branch, exact arithmetic. The Taylor sum at the highest order is below the true
value by at most `1e-15`, and the downward recursion multiplies the error of order `n+1` by exactly `2x/(2n+1)`. -/
theorem gfun_small_accuracy (dawson : ℝ → ℝ) (x : ℝ) (hx : 0 ≤ x) (h12 : x ≤ 12) (nmax : Nat) (hn : nmax < 100) :
    ∃ g : Aux, ∃ f : ℕ → ℝ, gfunValues dawson x nmax = .ok g ∧ (∀ n ≤ nmax, g n = some (f n)) ∧
      (0 ≤ gF nmax x - f nmax ∧ gF nmax x - f nmax ≤ 1e-15) ∧
      (∀ n ≤ nmax, |f n - gF n x| = |f nmax - gF nmax x| * ∏ j ∈ Finset.Ico n nmax, (2 * x / (2 * (j : ℝ) + 1))) ∧
      ∀ n ≤ nmax, |f n - gF n x| ≤ 1e-15 * ∏ j ∈ Finset.Ico n nmax, (2 * x / (2 * (j : ℝ) + 1)) := by
  obtain ⟨v, hv, h1, h2⟩ := gfunTaylor_close nmax (by omega) hx h12
  obtain ⟨g, hg, hgv⟩ := gfunValues_down dawson h12 hn hv
  have e : ∀ n ≤ nmax, |gDown x v nmax (nmax - n) - gF n x| = |gDown x v nmax (nmax - nmax) - gF nmax x| *
      ∏ j ∈ Finset.Ico n nmax, (2 * x / (2 * (j : ℝ) + 1)) := by
    intro n hn'
    have := gRec_error hx (f := fun n => gDown x v nmax (nmax - n)) (fun n hn => gDown_rec x v hn) (nmax - n) (by omega)
    beta_reduce at this
    rw [show nmax - (nmax - n) = n by omega] at this
    exact this
  have etop : gDown x v nmax (nmax - nmax) = v := by rw [Nat.sub_self]; rfl
  refine ⟨g, fun n => gDown x v nmax (nmax - n), hg, hgv, ?_, e, fun n hn' => ?_⟩
  · beta_reduce; rw [etop]; exact ⟨h1, h2⟩
  · beta_reduce
    rw [e n hn', etop]
    refine mul_le_mul_of_nonneg_right ?_ (Finset.prod_nonneg fun j _ => by positivity)
    rw [abs_sub_comm, abs_of_nonneg h1]
    exact h2

/-- For `p` functions and a nearby centre the amplification is below 3. -/
example (dawson : ℝ → ℝ) : ∃ g : Aux, ∃ f : ℕ → ℝ, gfunValues dawson 1 2 = .ok g ∧ g 0 = some (f 0) ∧
    |f 0 - gF 0 1| ≤ 3e-15 := by
  obtain ⟨g, f, h1, h2, -, -, h3⟩ := gfun_small_accuracy dawson 1 (by norm_num) (by norm_num) 2 (by norm_num)
  refine ⟨g, f, h1, h2 0 (by norm_num), (h3 0 (by norm_num)).trans ?_⟩
  norm_num [Finset.prod_Ico_succ_top]

/-! ## C54 -/

/-- **C54, partial.** Full statement: for `0 ≤ x ≤ 30` every order needed by the supported angular momenta (at most
`2·9`) is computed with table indices in range, and for `x > 30` a value is returned for every such order. The second
half is false from order 16 on (`boys_aborts`). -/
theorem boys_in_range_partial (tab : BoysTable) (n : Nat) (x : ℝ) (hx : 0 ≤ x) (h : x ≤ 30 ∧ n ≤ 33 ∨ n ≤ 15) :
    ∃ v, boysFunction tab n x = .ok v := by
  by_cases h30 : x ≤ 30
  · exact ⟨_, boysFunction_small tab hx h30 (by rcases h with h | h <;> omega)⟩
  · refine ⟨_, boysFunction_large tab (not_le.1 h30) ?_⟩
    rcases h with h | h
    · exact absurd h.1 h30
    · exact h

/-- The table is too narrow for higher orders: order 34 reads outside its row. -/
theorem boys_table_end (tab : BoysTable) (x : ℝ) (hx : 0 ≤ x) (h30 : x ≤ 30) : boysFunction tab 34 x = .ub := by
  obtain ⟨r0, r1⟩ := boysRow_range hx h30
  unfold boysFunction
  rw [if_pos h30]
  unfold boysRow at r0 r1
  dsimp only
  generalize truncInt ((roundC (x / (0.1 : ℝ)) : ℝ) + 1e-6) = r at r0 r1 ⊢
  have e : ∀ k, k < 40 → boysEntry tab r k = .ok (boysAt tab r k) := fun k hk => boysEntry_ok tab r0 r1 hk
  rw [e 34 (by omega), e 35 (by omega), e 36 (by omega), e 37 (by omega), e 38 (by omega), e 39 (by omega)]
  simp only [Outcome.ok_bind]
  rw [show boysEntry tab r 40 = .ub from dif_neg (by omega)]
  rfl

/-- **C54** is false as stated: for every `x > 30` and every order from 16 on the process is aborted, and the whole array of
values cannot be computed. Orders 16 to 18 are needed for supported angular momenta. -/
theorem boys_aborts (tab : BoysTable) (x : ℝ) (hx : 30 < x) (n : Nat) (hn : 16 ≤ n) :
    boysFunction tab n x = .abort ∧ (n < 100 → boysValues tab x n = .abort) :=
  ⟨boysFunction_abort tab hx hn, fun h => boysValues_abort tab hx h hn⟩

example (tab : BoysTable) : (∃ v, boysFunction tab 18 30 = .ok v) ∧ (∃ v, boysFunction tab 15 31 = .ok v) ∧
    boysFunction tab 18 31 = .abort :=
  ⟨boys_in_range_partial tab 18 30 (by norm_num) (Or.inl (by norm_num)),
    boys_in_range_partial tab 15 31 (by norm_num) (Or.inr (by norm_num)), (boys_aborts tab 31 (by norm_num) 18 (by norm_num)).1⟩

/-! ## C64 -/

/-- **C64.** Every number of the table in the source is the Boys function `F_k(0.1 i)` to within `4e-15`. -/
theorem boys_table_accuracy (i : Fin 301) (k : Fin 40) :
    |boysLiteral i k - boysF k.val ((i.val : ℝ) * 0.1)| ≤ 4e-15 := boysLiteral_close i k

/-- **C64.** In exact arithmetic, with the table of the source, the returned value differs from `F_n(x)` by at most
`1.7e-14`, for every order up to 33 when `0 ≤ x ≤ 30` and up to 15 beyond (larger orders abort there, `boys_aborts`). -/
theorem boys_accuracy (n : Nat) (x : ℝ) (hx : 0 ≤ x) (h : x ≤ 30 ∧ n ≤ 33 ∨ n ≤ 15) :
    ∃ v, boysFunction boysLiteral n x = .ok v ∧ |v - boysF n x| ≤ 1.7e-14 := by
  obtain ⟨v, h1, h2⟩ := boysFunction_close boysLiteral (ε := 4e-15) (by norm_num) boysLiteral_close n x hx h
  exact ⟨v, h1, h2.trans (by norm_num)⟩

/-- The bound is about numbers that are not tiny: `F_0(0) = 1`, and the first entry of the table is exact. -/
example : boysF 0 0 = 1 ∧ boysLiteral 0 0 = 1 ∧ ∃ v, boysFunction boysLiteral 0 0 = .ok v ∧ 0.99 ≤ v := by
  have h0 : boysF 0 0 = 1 := by simp [boysF]
  have h1 : (boysRows.getD 0 []).getD 0 0 = 10 ^ 32 := by decide +kernel
  refine ⟨h0, ?_, ?_⟩
  · change (((boysRows.getD 0 []).getD 0 0 : ℕ) : ℝ) / 10 ^ 32 = 1
    rw [h1]; norm_num
  obtain ⟨v, h1, h2⟩ := boys_accuracy 0 0 le_rfl (Or.inr (by norm_num))
  refine ⟨v, h1, ?_⟩
  rw [h0, abs_le] at h2
  linarith [h2.1]

end Libgrpp
