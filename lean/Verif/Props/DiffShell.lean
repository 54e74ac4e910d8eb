import Verif.Lemmas.DiffShell

/-! # C21: differentiated shells -/

namespace Libgrpp

theorem comp_of_get {s : Shell} {m : Nat} {c : Comp} (h : s.cartList[m]? = some c) : s.comp m = c := by
  simp [Shell.comp, List.getD, h]

/-- **C21.** For every shell with positive exponents `differentiate_shell` succeeds; for every component `c` of the
shell, coordinate `k` and point `r`, the raised component is in the `L+1` shell, and the derivative of the contracted
function with respect to the `k`-th coordinate of its centre is the function of the raised component minus, when the
exponent `c_k` is positive, `c_k` times the function of the lowered component, which is in the `L-1` shell. -/
theorem diff_shell_derivative (gen : Nat → List Comp) (hg : DocumentedOrder gen) (s : Shell) (hs : s.WF) (hp : s.Pos) :
    ∃ dn up, differentiateShell gen s = .ok (dn, up) ∧
      ∀ (m : Nat) (c : Comp) (k : Fin 3) (r : Point), s.cartList[m]? = some c → c.1 + c.2.1 + c.2.2 = s.L →
        ∃ u, u < up.cart_size ∧ up.cartList[u]? = some (c.bump k) ∧
          (c.exp k = 0 → HasDerivAt (fun t => basisFn (s.moveTo k t) m r) (basisFn up u r) (s.origin k)) ∧
          (0 < c.exp k → ∃ d v, dn = some d ∧ v < d.cart_size ∧ d.cartList[v]? = some (c.drop k) ∧
            HasDerivAt (fun t => basisFn (s.moveTo k t) m r)
              (basisFn up u r - (c.exp k : ℝ) * basisFn d v r) (s.origin k)) := by
  obtain ⟨dn, up, e, hup, -, hdn⟩ := differentiateShell_ok gen s hs
  refine ⟨dn, up, e, fun m c k r hc hsum => ?_⟩
  have find : ∀ (L : Nat) (c : Comp), c.1 + c.2.1 + c.2.2 = L → ∃ u, u < cartSize L ∧ (gen L)[u]? = some c := by
    intro L c hcL
    obtain ⟨h1, -, h3⟩ := cartesian_turbomole_complete L
    have hm : c ∈ gen L := by rw [hg.eq]; exact (h3 c.1 c.2.1 c.2.2).2 hcL
    obtain ⟨u, hu, hu'⟩ := List.getElem_of_mem hm
    exact ⟨u, by rw [← h1, ← hg.eq]; exact hu, by rw [List.getElem?_eq_getElem hu, hu']⟩
  have hcm := comp_of_get hc
  obtain ⟨u, hu1, hu2⟩ := find (s.L + 1) (c.bump k) (by rw [Comp.sum_bump, hsum])
  have hu2' : up.cartList[u]? = some (c.bump k) := by rw [hup.list]; exact hu2
  refine ⟨u, by rw [hup.size]; exact hu1, hu2', fun h0 => ?_, fun hpos => ?_⟩
  · have := hasDerivAt_basisFn hp hup (m := m) (u := u) (k := k) (by rw [comp_of_get hu2', hcm])
      (fun _ => 0) (Or.inl ⟨by rw [hcm]; exact h0, rfl⟩) r
    simpa using this
  · have hL : 0 < s.L := by
      obtain ⟨a, b, d⟩ := c
      fin_cases k <;> simp [Comp.exp] at hpos <;> simp at hsum <;> omega
    obtain ⟨d, rfl, hd⟩ := hdn hL
    obtain ⟨v, hv1, hv2⟩ := find (s.L - 1) (c.drop k) (by rw [Comp.sum_drop c k hpos, hsum])
    have hv2' : d.cartList[v]? = some (c.drop k) := by rw [hd.list]; exact hv2
    refine ⟨d, v, rfl, by rw [hd.size]; exact hv1, hv2', ?_⟩
    have := hasDerivAt_basisFn hp hup (m := m) (u := u) (k := k) (by rw [comp_of_get hu2', hcm])
      (fun r => ((s.comp m).exp k : ℝ) * basisFn d v r)
      (Or.inr ⟨d, v, hd, by rw [comp_of_get hv2', hcm], rfl⟩) r
    rw [hcm] at this
    exact this

end Libgrpp
