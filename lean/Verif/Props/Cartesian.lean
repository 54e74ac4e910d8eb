import Verif.Lemmas.Cartesian

/-! # C03, C04, C05: Cartesian component lists -/

namespace Libgrpp

/-- **C03.** The default (DIRAC) list of a shell has `(L+1)(L+2)/2` entries (so the generator never writes
outside the array allocated for it), contains exactly the triples with sum `L`, each once. -/
theorem cartesian_dirac_complete (L : Nat) :
    (cartesianDirac L).length = cartSize L ∧ (cartesianDirac L).Nodup ∧
      ∀ n l m, (n, l, m) ∈ cartesianDirac L ↔ n + l + m = L := by
  rw [dirac_eq_turbomole]
  exact ⟨length_turbomole L, nodup_turbomole L, fun _ _ _ => mem_turbomole⟩

/-- **C03.** The same for the TURBOMOLE list. -/
theorem cartesian_turbomole_complete (L : Nat) :
    (cartesianTurbomole L).length = cartSize L ∧ (cartesianTurbomole L).Nodup ∧
      ∀ n l m, (n, l, m) ∈ cartesianTurbomole L ↔ n + l + m = L :=
  ⟨length_turbomole L, nodup_turbomole L, fun _ _ _ => mem_turbomole⟩

/-- **C04.** Both documented orders are the same list, for every `L`. -/
theorem cartesian_orders_agree (L : Nat) : cartesianDirac L = cartesianTurbomole L :=
  dirac_eq_turbomole L

/-- **C05.** Looking up the `i`-th component of a shell gives `i`. -/
theorem lookup_inverts_list (L i : Nat) (hi : i < (cartesianDirac L).length) :
    nlmToLinear cartesianDirac ((cartesianDirac L)[i]).1 ((cartesianDirac L)[i]).2.1
      ((cartesianDirac L)[i]).2.2 = i := by
  obtain ⟨_, hnd, hmem⟩ := cartesian_dirac_complete L
  have hm : (cartesianDirac L)[i] ∈ cartesianDirac L := List.getElem_mem hi
  obtain ⟨n, l, m, hc⟩ : ∃ n l m, (cartesianDirac L)[i] = (n, l, m) := ⟨_, _, _, rfl⟩
  have hL : n + l + m = L := (hmem n l m).1 (hc ▸ hm)
  have hidx := findIdx_getElem_nodup (cartesianDirac L) hnd i hi
  simp only [hc] at hidx ⊢
  unfold nlmToLinear
  rw [if_neg (by omega), show ((n : Int) + l + m).toNat = L by omega]
  rw [← hidx]
  congr 1
  funext c
  obtain ⟨a, b, d⟩ := c
  simp

/-- **C05.** Conversely the index returned for a component of the shell holds that component. -/
theorem lookup_finds_component (n l m : Nat) :
    ∃ h : nlmToLinear cartesianDirac n l m < (cartesianDirac (n + l + m)).length,
      (cartesianDirac (n + l + m))[nlmToLinear cartesianDirac n l m] = (n, l, m) := by
  obtain ⟨_, _, hmem⟩ := cartesian_dirac_complete (n + l + m)
  have hm : (n, l, m) ∈ cartesianDirac (n + l + m) := (hmem n l m).2 rfl
  obtain ⟨i, hi, hc⟩ := List.getElem_of_mem hm
  have := lookup_inverts_list (n + l + m) i hi
  rw [hc] at this
  simp only at this
  exact ⟨this ▸ hi, by simp only [this, hc]⟩

/-- **C05.** A triple with a negative exponent (and non-negative sum) is not found: the one-past-the-end index. -/
theorem lookup_negative_not_found (n l m : Int) (hs : 0 ≤ n + l + m) (h : n < 0 ∨ l < 0 ∨ m < 0) :
    nlmToLinear cartesianDirac n l m = cartSize (n + l + m).toNat := by
  obtain ⟨hlen, _, _⟩ := cartesian_dirac_complete (n + l + m).toNat
  unfold nlmToLinear
  rw [if_neg (by omega), ← hlen, List.findIdx_eq_length]
  intro c _
  simp only [decide_eq_false_iff_not]
  omega

-- d shell: xx, xy, xz, yy, yz, zz (the order documented in the manual)
example : cartesianDirac 2 = [(2,0,0), (1,1,0), (1,0,1), (0,2,0), (0,1,1), (0,0,2)] := by decide
example : nlmToLinear cartesianDirac 1 0 1 = 2 := by decide
example : nlmToLinear cartesianDirac (-1) 1 0 = 1 := by decide

end Libgrpp
