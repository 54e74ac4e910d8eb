import Verif.Lemmas.Shell
import Mathlib.Tactic.NormNum

/-! # C06, C07: shells own their data; shrinking a shell -/

namespace Libgrpp

/-! ## C06 -/

/-- **C06** (value). The constructor stores exactly the values passed by the caller. -/
theorem new_shell_value (gen : Nat → List Comp) (origin : Point) (L num : Nat) (coeffs alpha : List ℝ)
    (hc : num ≤ coeffs.length) (ha : num ≤ alpha.length) :
    newShell gen origin L num coeffs alpha = .ok
      { L := L, origin := origin, cart_size := cartSize L, cartList := gen L, num := num,
        coeffs := coeffs.take num, alpha := alpha.take num } := by
  unfold newShell
  rw [copyPrims_ok num coeffs alpha hc ha]
  rfl

/-- A sequence of stores `p[i] = v` made by the caller through the heap. -/
noncomputable def runStores (h : Heap) : List (Nat × Nat × ℝ) → Outcome Heap
  | [] => .ok h
  | (p, i, v) :: rest => do
    let h ← hstore h p i v
    runStores h rest

/-- **C06** (ownership). After construction the caller's arrays are unchanged, and any later sequence of
stores into memory that was allocated before the call (or anywhere but the two fresh arrays) leaves the
shell as constructed. -/
theorem shell_owns_data (gen : Nat → List Comp) (h : Heap) (origin L num coeffs alpha pc pa : Nat)
    (o c a : List ℝ) (ho : h origin = some o) (ho3 : 3 ≤ o.length) (hc : h coeffs = some c)
    (hcl : num ≤ c.length) (ha : h alpha = some a) (hal : num ≤ a.length)
    (fc : h pc = none) (fa : h pa = none) (hpp : pc ≠ pa) :
    ∃ h' s, newShellHeap gen h origin L num coeffs alpha pc pa = .ok (h', s) ∧
      (∀ q, h q ≠ none → h' q = h q) ∧
      ∀ (stores : List (Nat × Nat × ℝ)) (h'' : Heap), (∀ w ∈ stores, h w.1 ≠ none) →
        runStores h' stores = .ok h'' →
        s.view h'' = some { L := L, origin := ![o[0], o[1], o[2]], cart_size := cartSize L, cartList := gen L,
                            num := num, coeffs := c.take num, alpha := a.take num } := by
  obtain ⟨h', s, hs, e1, e2, e3, e4, e5, e6, e7, k1, k2, k3⟩ :=
    newShellHeap_ok gen h origin L num coeffs alpha pc pa o c a ho ho3 hc hcl ha hal fc fa hpp
  refine ⟨h', s, hs, fun q hq => k3 q (by rintro rfl; exact hq fc) (by rintro rfl; exact hq fa), ?_⟩
  intro stores h'' hw hrun
  have key : ∀ (stores : List (Nat × Nat × ℝ)) (g g' : Heap), (∀ w ∈ stores, h w.1 ≠ none) →
      runStores g stores = .ok g' → g' pc = g pc ∧ g' pa = g pa := by
    intro stores
    induction stores with
    | nil =>
      intro g g' _ hr
      simp only [runStores, Outcome.ok.injEq] at hr
      subst hr; exact ⟨rfl, rfl⟩
    | cons w rest ih =>
      obtain ⟨p, i, v⟩ := w
      intro g g' hw hr
      simp only [runStores] at hr
      rw [Outcome.bind_eq_ok] at hr
      obtain ⟨g1, hg1, hr⟩ := hr
      have hp : h p ≠ none := hw (p, i, v) (by simp)
      obtain ⟨i1, i2⟩ := ih g1 g' (fun w hw' => hw w (by simp [hw'])) hr
      rw [i1, i2, hstore_other hg1 (by rintro rfl; exact hp fc), hstore_other hg1 (by rintro rfl; exact hp fa)]
      exact ⟨rfl, rfl⟩
  obtain ⟨j1, j2⟩ := key stores h' h'' hw hrun
  unfold HShell.view
  rw [e6, e7, j1, j2, k1, k2, e1, e2, e3, e4, e5]

/-- **C06** (deep copy). A deep copy of a shell (made with the same component order) has the same contents in
freshly allocated arrays, so by `shell_owns_data` later changes of the source do not reach it. -/
theorem deep_copy_equal (gen : Nat → List Comp) (s : Shell) (hs : s.WF) :
    ∃ s', shellDeepCopy gen s = .ok s' ∧ s'.L = s.L ∧ s'.origin = s.origin ∧ s'.num = s.num ∧
      s'.prims = s.prims ∧ s'.WF ∧ s'.cart_size = cartSize s.L ∧ s'.cartList = gen s.L := by
  refine ⟨_, new_shell_value gen s.origin s.L s.num s.coeffs s.alpha hs.1 hs.2, rfl, rfl, rfl, ?_, ?_, rfl, rfl⟩
  · simp [Shell.prims, List.take_take]
  · exact ⟨by simpa using hs.1, by simpa using hs.2⟩

example : ∃ h : Heap, h 1 = some [0, 0, 1] ∧ h 2 = some [1] ∧ h 3 = some [2] ∧ h 4 = none ∧ h 5 = none :=
  ⟨fun p => if p = 1 then some [0, 0, 1] else if p = 2 then some [1] else if p = 3 then some [2] else none,
    by simp⟩

/-! ## C07 -/

open Classical in
/-- **C07.** Shrinking keeps exactly the primitives with `|c| > 1e-14`, in their order, and leaves the
angular momentum, the origin and the component list as they were. No access is out of bounds. -/
theorem shell_shrink_correct (s : Shell) (hs : s.WF) :
    ∃ s', shellShrink s = .ok s' ∧
      s'.prims = s.prims.filter (fun p => decide (|p.1| > 1e-14)) ∧ s'.num = s'.prims.length ∧
      s'.L = s.L ∧ s'.origin = s.origin ∧ s'.cart_size = s.cart_size ∧ s'.cartList = s.cartList := by
  obtain ⟨s', h1, h2, h3, -, h4, h5, h6, h7, -⟩ := shellShrink_ok s hs
  exact ⟨s', h1, h2, h3, h4, h5, h6, h7⟩

/-- **C07.** Shrinking twice gives the same primitives as shrinking once. -/
theorem shell_shrink_idempotent (s s' s'' : Shell) (hs : s.WF) (h1 : shellShrink s = .ok s')
    (h2 : shellShrink s' = .ok s'') : s''.prims = s'.prims ∧ s''.num = s'.num := by
  classical
  obtain ⟨t, ht, hp, hn, hwf, -⟩ := shellShrink_ok s hs
  rw [h1] at ht
  cases ht
  obtain ⟨t', ht', hp', hn', -⟩ := shellShrink_ok s' hwf
  rw [h2] at ht'
  cases ht'
  have : s''.prims = s'.prims := by
    rw [hp', hp, List.filter_filter]
    simp
  exact ⟨this, by rw [hn', hn, this]⟩

example : (Shell.mk 0 ![0, 0, 0] 1 [(0, 0, 0)] 2 [0, 1] [3, 4]).WF ∧
    (Shell.mk 0 ![0, 0, 0] 1 [(0, 0, 0)] 2 [0, 1] [3, 4]).prims = [(0, 3), (1, 4)] := by
  simp [Shell.WF, Shell.prims]

end Libgrpp
