import Verif.Model.Gradient
import Verif.Lemmas.OneElectronList
import Verif.Lemmas.OneElectronTrue

/-! Differentiated shells. -/

namespace Libgrpp

theorem scaleCoeffs_ok (src s : Shell) (f : ℝ → ℝ) (h1 : src.num ≤ src.alpha.length) (h2 : src.num ≤ s.coeffs.length) :
    ∃ cs, scaleCoeffs src f s = .ok { s with coeffs := cs } ∧ cs.length = s.coeffs.length ∧
      ∀ i < src.num, cs.getD i 0 = s.coeffs.getD i 0 * f (src.alpha.getD i 0) := by
  have key : ∃ cs, (forRange src.num s.coeffs fun i cs => do
      let a ← rd src.alpha i
      let c ← rd cs i
      wr cs i (c * f a)) = .ok cs ∧ (cs.length = s.coeffs.length ∧
      ∀ i < src.num, cs.getD i 0 = s.coeffs.getD i 0 * f (src.alpha.getD i 0)) := by
    refine forRange_spec (fun k (cs : List ℝ) => cs.length = s.coeffs.length ∧
      (∀ i < k, cs.getD i 0 = s.coeffs.getD i 0 * f (src.alpha.getD i 0)) ∧
      (∀ i, k ≤ i → cs.getD i 0 = s.coeffs.getD i 0)) ⟨rfl, by intro i h; omega, fun _ _ => rfl⟩ ?_ ?_
    · rintro i cs hi ⟨hl, hd, hu⟩
      rw [rd_getD (show i < src.alpha.length by omega), rd_getD (show i < cs.length by omega)]
      simp only [Outcome.ok_bind]
      refine ⟨_, wr_ok _ (by omega), by simp [hl], ?_, ?_⟩
      · intro j hj
        by_cases h : j = i
        · subst h
          rw [List.getD, List.getElem?_set_self (by omega), Option.getD_some, hu j (le_refl _)]
        · rw [List.getD, List.getElem?_set_ne (by omega)]
          exact hd j (by omega)
      · intro j hj
        rw [List.getD, List.getElem?_set_ne (by omega)]
        exact hu j (by omega)
    · rintro cs ⟨h1, h2, -⟩
      exact ⟨h1, h2⟩
  obtain ⟨cs, e, h⟩ := key
  exact ⟨cs, by unfold scaleCoeffs; rw [e]; rfl, h⟩

/-- `d` is a shell with angular momentum `L'` on the same site as `s`, the same exponents and coefficients multiplied
by `f(α)`. -/
structure IsScaled (gen : Nat → List Comp) (s d : Shell) (L' : Nat) (f : ℝ → ℝ) : Prop where
  hL : d.L = L'
  origin : d.origin = s.origin
  size : d.cart_size = cartSize L'
  list : d.cartList = gen L'
  num : d.num = s.num
  wf : d.WF
  coeff : ∀ i < s.num, d.coeffAt i = s.coeffAt i * f (s.alphaAt i)
  alpha : ∀ i < s.num, d.alphaAt i = s.alphaAt i
  len : d.coeffs.length ≤ s.num

theorem newScaled (gen : Nat → List Comp) (s : Shell) (hs : s.WF) (L' : Nat) (f : ℝ → ℝ) :
    ∃ d, (newShell gen s.origin L' s.num s.coeffs s.alpha >>= scaleCoeffs s f) = .ok d ∧ IsScaled gen s d L' f := by
  rw [new_shell_value gen s.origin L' s.num s.coeffs s.alpha hs.1 hs.2, Outcome.ok_bind]
  obtain ⟨cs, e, h1, h2⟩ := scaleCoeffs_ok s
    (Shell.mk L' s.origin (cartSize L') (gen L') s.num (s.coeffs.take s.num) (s.alpha.take s.num)) f hs.2
    (by simpa using hs.1)
  have tk : ∀ (l : List ℝ) i, i < s.num → (l.take s.num).getD i 0 = l.getD i 0 := by
    intro l i hi
    simp [List.getD, hi]
  refine ⟨_, e, rfl, rfl, rfl, rfl, rfl, ⟨?_, by simpa using hs.2⟩, ?_, ?_, ?_⟩
  · show s.num ≤ cs.length
    rw [h1]; simpa using hs.1
  · intro i hi
    show cs.getD i 0 = _
    rw [h2 i hi, tk _ _ hi]
    rfl
  · intro i hi
    exact tk _ _ hi
  · show cs.length ≤ s.num
    rw [h1]; simp

theorem differentiateShell_ok (gen : Nat → List Comp) (s : Shell) (hs : s.WF) :
    ∃ dn up, differentiateShell gen s = .ok (dn, up) ∧
      IsScaled gen s up (s.L + 1) (fun a => 2 * a * normFactorL a s.L / normFactorL a (s.L + 1)) ∧
      (s.L = 0 → dn = none) ∧
      (0 < s.L → ∃ d, dn = some d ∧ IsScaled gen s d (s.L - 1) (fun a => normFactorL a s.L / normFactorL a (s.L - 1))) := by
  obtain ⟨up, e1, h1⟩ := newScaled gen s hs (s.L + 1) (fun a => 2 * a * normFactorL a s.L / normFactorL a (s.L + 1))
  obtain ⟨d, e2, h2⟩ := newScaled gen s hs (s.L - 1) (fun a => normFactorL a s.L / normFactorL a (s.L - 1))
  by_cases hL : s.L > 0
  · refine ⟨some d, up, ?_, h1, by omega, fun _ => ⟨d, rfl, h2⟩⟩
    unfold differentiateShell
    rw [if_pos hL]
    simp only [← bind_assoc]
    rw [e2]
    simp only [Outcome.ok_bind, bind_assoc]
    rw [← bind_assoc, e1]
    rfl
  · refine ⟨none, up, ?_, h1, fun _ => rfl, fun h => absurd h hL⟩
    unfold differentiateShell
    rw [if_neg hL]
    simp only [Outcome.ok_bind]
    rw [← bind_assoc, e1]
    rfl

/-! ## Components -/

/-- The component with exponent `k` raised by one. -/
def Comp.bump (c : Comp) (k : Fin 3) : Comp :=
  match k with
  | 0 => (c.1 + 1, c.2.1, c.2.2)
  | 1 => (c.1, c.2.1 + 1, c.2.2)
  | 2 => (c.1, c.2.1, c.2.2 + 1)

/-- The component with exponent `k` lowered by one (truncated at zero). -/
def Comp.drop (c : Comp) (k : Fin 3) : Comp :=
  match k with
  | 0 => (c.1 - 1, c.2.1, c.2.2)
  | 1 => (c.1, c.2.1 - 1, c.2.2)
  | 2 => (c.1, c.2.1, c.2.2 - 1)

theorem Comp.exp_bump (c : Comp) (k : Fin 3) : (c.bump k).exp = Function.update c.exp k (c.exp k + 1) := by
  obtain ⟨a, b, d⟩ := c
  funext k'
  fin_cases k <;> fin_cases k' <;> rfl

theorem Comp.exp_drop (c : Comp) (k : Fin 3) : (c.drop k).exp = Function.update c.exp k (c.exp k - 1) := by
  obtain ⟨a, b, d⟩ := c
  funext k'
  fin_cases k <;> fin_cases k' <;> rfl

theorem Comp.sum_bump (c : Comp) (k : Fin 3) :
    (c.bump k).1 + (c.bump k).2.1 + (c.bump k).2.2 = c.1 + c.2.1 + c.2.2 + 1 := by
  obtain ⟨a, b, d⟩ := c
  fin_cases k <;> simp only [Comp.bump] <;> omega

theorem Comp.sum_drop (c : Comp) (k : Fin 3) (h : 0 < c.exp k) :
    (c.drop k).1 + (c.drop k).2.1 + (c.drop k).2.2 = c.1 + c.2.1 + c.2.2 - 1 := by
  obtain ⟨a, b, d⟩ := c
  fin_cases k <;> simp only [Comp.drop, Comp.exp] at h ⊢ <;> simp at h <;> omega

/-! ## Normalisation factors -/

theorem normFactorL_eq (a : ℝ) (L : Nat) : normFactorL a L = gaussianNormFactor L 0 0 a := by
  unfold normFactorL gaussianNormFactor
  congr 2
  push_cast
  ring

theorem gaussianNormFactor_pos {a : ℝ} (h : 0 < a) (n l m : Nat) : 0 < gaussianNormFactor n l m a := by
  unfold gaussianNormFactor
  exact mul_pos (Real.rpow_pos_of_pos (div_pos (by linarith) Real.pi_pos) _) (Real.rpow_pos_of_pos (by linarith) _)

theorem IsScaled.weight_up {gen : Nat → List Comp} {s d : Shell}
    (h : IsScaled gen s d (s.L + 1) (fun a => 2 * a * normFactorL a s.L / normFactorL a (s.L + 1))) (hp : s.Pos) {i : Nat}
    (hi : i < s.num) : d.weight i = 2 * s.alphaAt i * s.weight i := by
  unfold Shell.weight
  rw [h.coeff i hi, h.alpha i hi, h.hL, normFactorL_eq, normFactorL_eq]
  have := (gaussianNormFactor_pos (hp.at hi) (s.L + 1) 0 0).ne'
  field_simp

theorem IsScaled.weight_down {gen : Nat → List Comp} {s d : Shell}
    (h : IsScaled gen s d (s.L - 1) (fun a => normFactorL a s.L / normFactorL a (s.L - 1))) (hp : s.Pos) {i : Nat}
    (hi : i < s.num) : d.weight i = s.weight i := by
  unfold Shell.weight
  rw [h.coeff i hi, h.alpha i hi, h.hL, normFactorL_eq, normFactorL_eq]
  have := (gaussianNormFactor_pos (hp.at hi) (s.L - 1) 0 0).ne'
  field_simp

theorem IsScaled.pos {gen : Nat → List Comp} {s d : Shell} {L' : Nat} {f : ℝ → ℝ} (h : IsScaled gen s d L' f)
    (hp : s.Pos) : d.Pos := by
  intro i hi
  rw [h.num] at hi
  have := h.alpha i hi
  unfold Shell.alphaAt at this
  rw [this]
  exact hp i hi

theorem IsScaled.listed {gen : Nat → List Comp} {s d : Shell} {L' : Nat} {f : ℝ → ℝ} (h : IsScaled gen s d L' f)
    (hg : DocumentedOrder gen) : d.Listed := by
  obtain ⟨h1, -, h3⟩ := cartesian_turbomole_complete L'
  refine ⟨by rw [h.size, h.list, hg.eq, h1], ?_⟩
  rintro ⟨n, l, m⟩ hm
  rw [h.list, hg.eq] at hm
  have := (h3 n l m).1 hm
  rw [h.hL]
  show n ≤ L' ∧ l ≤ L' ∧ m ≤ L'
  omega

/-! ## The derivative of a contracted function with respect to its centre -/

/-- The shell with centre coordinate `k` set to `t`. -/
def Shell.moveTo (s : Shell) (k : Fin 3) (t : ℝ) : Shell := { s with origin := Function.update s.origin k t }

theorem hasDerivAt_gfun_centre (a x O : ℝ) (n : Nat) :
    HasDerivAt (fun t => gfun a t n x) (2 * a * gfun a O (n + 1) x - (n : ℝ) * gfun a O (n - 1) x) O := by
  have hA : HasDerivAt (fun t : ℝ => x - t) (-1) O := (hasDerivAt_id O).const_sub x
  have h := (hA.pow n).mul ((hA.pow 2).const_mul (-a)).exp
  refine h.congr_deriv ?_
  simp only [gfun, Pi.pow_apply]
  push_cast
  ring

theorem prod3_update_fun (F : Fin 3 → ℝ → ℝ) (k : Fin 3) (g : ℝ → ℝ) (r : Point) :
    prod3 (Function.update F k g) r = (∏ k' ∈ Finset.univ.erase k, F k' (r k')) * g (r k) := prod3_replace F k g r

theorem factor_moveTo (s : Shell) (m i : Nat) (k : Fin 3) (t : ℝ) :
    (s.moveTo k t).factor m i = Function.update (s.factor m i) k (gfun (s.alphaAt i) t ((s.comp m).exp k)) := by
  funext k' x
  unfold Shell.factor
  by_cases h : k' = k
  · subst h
    simp [Shell.moveTo, Shell.alphaAt, Shell.comp]
  · rw [Function.update_of_ne h]
    simp [Shell.moveTo, Shell.alphaAt, Shell.comp, Function.update_of_ne h]

theorem factor_up {gen : Nat → List Comp} {s up : Shell} {f : ℝ → ℝ} {L' : Nat} (h : IsScaled gen s up L' f)
    {m u : Nat} {k : Fin 3} {e : Nat} (hu : (up.comp u).exp = Function.update (s.comp m).exp k e) {i : Nat} (hi : i < s.num) :
    up.factor u i = Function.update (s.factor m i) k (gfun (s.alphaAt i) (s.origin k) e) := by
  funext k' x
  unfold Shell.factor
  rw [h.alpha i hi, h.origin, hu]
  by_cases hk : k' = k
  · subst hk; simp
  · rw [Function.update_of_ne hk, Function.update_of_ne hk]

/-- Derivative of a contracted function with respect to a centre coordinate, through the raised and lowered shells. -/
theorem hasDerivAt_basisFn {gen : Nat → List Comp} {s up : Shell} (hp : s.Pos)
    (hup : IsScaled gen s up (s.L + 1) (fun a => 2 * a * normFactorL a s.L / normFactorL a (s.L + 1)))
    {m u : Nat} {k : Fin 3} (hu : up.comp u = (s.comp m).bump k) (low : Point → ℝ)
    (hlow : ((s.comp m).exp k = 0 ∧ low = fun _ => 0) ∨ ∃ (d : Shell) (v : Nat),
      IsScaled gen s d (s.L - 1) (fun a => normFactorL a s.L / normFactorL a (s.L - 1)) ∧
      d.comp v = (s.comp m).drop k ∧ low = fun r => ((s.comp m).exp k : ℝ) * basisFn d v r) (r : Point) :
    HasDerivAt (fun t => basisFn (s.moveTo k t) m r) (basisFn up u r - low r) (s.origin k) := by
  have hexp : (up.comp u).exp = Function.update (s.comp m).exp k ((s.comp m).exp k + 1) := by
    rw [hu, Comp.exp_bump]
  have hlow' : low r = ∑ i ∈ Finset.range s.num, s.weight i * ((s.comp m).exp k *
      ((∏ k' ∈ Finset.univ.erase k, s.factor m i k' (r k')) * gfun (s.alphaAt i) (s.origin k) ((s.comp m).exp k - 1) (r k))) := by
    rcases hlow with ⟨h0, rfl⟩ | ⟨d, v, hd, hv, rfl⟩
    · simp [h0]
    · beta_reduce
      have hexp' : (d.comp v).exp = Function.update (s.comp m).exp k ((s.comp m).exp k - 1) := by rw [hv, Comp.exp_drop]
      rw [basisFn_eq d v, hd.num, Finset.mul_sum]
      refine Finset.sum_congr rfl fun i hi => ?_
      have hi' := Finset.mem_range.mp hi
      rw [hd.weight_down hp hi', factor_up hd hexp' hi', prod3_update_fun]
      ring
  rw [hlow', basisFn_eq up u, hup.num, ← Finset.sum_sub_distrib]
  simp only [basisFn_eq (s.moveTo k _) m, factor_moveTo, prod3_update_fun]
  show HasDerivAt (fun t => ∑ i ∈ Finset.range s.num, s.weight i * _) _ _
  refine HasDerivAt.fun_sum fun i hi => ?_
  have hi' := Finset.mem_range.mp hi
  refine (((hasDerivAt_gfun_centre (s.alphaAt i) (r k) (s.origin k) ((s.comp m).exp k)).const_mul _).const_mul
    (s.weight i)).congr_deriv ?_
  rw [hup.weight_up hp hi', factor_up hup hexp hi', prod3_update_fun]
  ring

end Libgrpp
