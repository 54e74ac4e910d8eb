import Verif.Model.Cartesian
import Mathlib.Data.List.Nodup
import Mathlib.Data.List.Range
import Mathlib.Tactic.Ring

namespace Libgrpp

theorem mem_desc {n i : Nat} : i ∈ desc n ↔ i ≤ n := by
  induction n with
  | zero => simp [desc]
  | succ n ih => simp only [desc, List.mem_cons, ih]; omega

theorem length_desc (n : Nat) : (desc n).length = n + 1 := by
  induction n with
  | zero => rfl
  | succ n ih => simp [desc, ih]

theorem nodup_desc (n : Nat) : (desc n).Nodup := by
  induction n with
  | zero => simp [desc]
  | succ n ih =>
    simp only [desc, List.nodup_cons, mem_desc]
    exact ⟨by omega, ih⟩

theorem desc_flatMap_single {α : Type} (f : Nat → α) (c n : Nat) :
    ((desc n).flatMap fun t => if t = c then [f t] else []) = if c ≤ n then [f c] else [] := by
  induction n with
  | zero => by_cases h : c = 0 <;> simp [desc, h, eq_comm]
  | succ n ih =>
    simp only [desc, List.flatMap_cons, ih]
    by_cases h1 : n + 1 = c
    · subst h1; simp
    · by_cases h2 : c ≤ n
      · simp [h1, h2, show c ≤ n + 1 by omega]
      · simp [h1, h2, show ¬ c ≤ n + 1 by omega]

theorem desc_flatMap_le {α : Type} (f : Nat → α) (m n : Nat) (h : m ≤ n) :
    ((desc n).flatMap fun s => if s ≤ m then [f s] else []) = (desc m).flatMap fun s => [f s] := by
  induction n with
  | zero =>
    have : m = 0 := by omega
    subst this; simp [desc]
  | succ n ih =>
    by_cases h1 : m = n + 1
    · subst h1
      refine List.flatMap_congr fun s hs => ?_
      rw [if_pos (mem_desc.1 hs)]
    · simp only [desc, List.flatMap_cons, ih (by omega)]
      simp [show ¬ n + 1 ≤ m by omega]

theorem dirac_eq_turbomole (L : Nat) : cartesianDirac L = cartesianTurbomole L := by
  unfold cartesianDirac cartesianTurbomole
  refine List.flatMap_congr fun r hr => ?_
  have hr := mem_desc.1 hr
  rw [← desc_flatMap_le (fun s => ((r, s, L - r - s) : Comp)) (L - r) L (by omega)]
  refine List.flatMap_congr fun s hs => ?_
  have hs := mem_desc.1 hs
  by_cases h : s ≤ L - r
  · rw [if_pos h]
    have := desc_flatMap_single (fun t => ((r, s, t) : Comp)) (L - r - s) L
    rw [if_pos (by omega)] at this
    rw [← this]
    refine List.flatMap_congr fun t _ => ?_
    by_cases ht : t = L - r - s
    · rw [if_pos ht, if_pos (by omega)]
    · rw [if_neg ht, if_neg (by omega)]
  · rw [if_neg h]
    rw [List.flatMap_eq_nil_iff]
    intro t _
    rw [if_neg (by omega)]

theorem mem_turbomole {L n l m : Nat} : (n, l, m) ∈ cartesianTurbomole L ↔ n + l + m = L := by
  simp only [cartesianTurbomole, List.mem_flatMap, mem_desc, List.mem_singleton, Prod.mk.injEq]
  constructor
  · rintro ⟨r, hr, s, hs, rfl, rfl, rfl⟩; omega
  · intro h; exact ⟨n, by omega, l, by omega, rfl, rfl, by omega⟩

theorem nodup_turbomole (L : Nat) : (cartesianTurbomole L).Nodup := by
  unfold cartesianTurbomole
  rw [List.nodup_flatMap]
  constructor
  · intro r _
    rw [List.nodup_flatMap]
    refine ⟨fun s _ => List.nodup_singleton _, ?_⟩
    refine (nodup_desc _).imp fun {a b} hab => ?_
    simp only [Function.onFun, List.disjoint_singleton]
    simp [Ne.symm hab]
  · refine (nodup_desc _).imp fun {a b} hab => ?_
    simp only [Function.onFun]
    intro c h1 h2
    simp only [List.mem_flatMap, List.mem_singleton] at h1 h2
    obtain ⟨s, _, rfl⟩ := h1
    obtain ⟨s', _, h⟩ := h2
    exact hab (by simpa using congrArg Prod.fst h)

theorem length_turbomole_aux (L : Nat) : ∀ n ≤ L,
    2 * ((desc n).flatMap fun r => (desc (L - r)).flatMap fun s => [((r, s, L - r - s) : Comp)]).length
      = (n + 1) * (2 * (L + 1) - n) := by
  have inner : ∀ r, ((desc (L - r)).flatMap fun s => [((r, s, L - r - s) : Comp)]).length = L - r + 1 := by
    intro r
    rw [List.length_flatMap]
    simp [length_desc]
  intro n
  induction n with
  | zero =>
    intro _
    simp only [desc, List.flatMap_cons, List.flatMap_nil, List.append_nil, inner]
    omega
  | succ n ih =>
    intro h
    simp only [desc, List.flatMap_cons, List.length_append, inner, Nat.mul_add, ih (by omega)]
    obtain ⟨k, rfl⟩ := Nat.exists_eq_add_of_le h
    rw [show n + 1 + k - (n + 1) = k by omega, show 2 * (n + 1 + k) + 2 * 1 - n = n + 4 + 2 * k by omega,
      show 2 * (n + 1 + k) + 2 * 1 - (n + 1) = n + 3 + 2 * k by omega]
    ring

theorem length_turbomole (L : Nat) : (cartesianTurbomole L).length = cartSize L := by
  have h := length_turbomole_aux L L le_rfl
  unfold cartesianTurbomole cartSize
  rw [show 2 * (L + 1) - L = L + 2 by omega] at h
  omega

theorem findIdx_getElem_nodup {α : Type} [DecidableEq α] (l : List α) (hl : l.Nodup) (i : Nat)
    (hi : i < l.length) : l.findIdx (fun c => decide (c = l[i])) = i := by
  rw [List.findIdx_eq hi]
  refine ⟨by simp, fun j hj => ?_⟩
  simp only [decide_eq_false_iff_not]
  intro h
  have := (List.Nodup.getElem_inj_iff hl).1 h
  omega

end Libgrpp
