import Mathlib.Tactic.Common
import Verif.Model.Init

/-! # Invariants of the initialisation transition system (helper lemmas for `Props/Init.lean`) -/

namespace Libgrpp

variable {T B : Type} {tab : Nat → T} {row : Nat → B}

/-- All tables are in place. -/
def LibState.Ready (tab : Nat → T) (row : Nat → B) (s : LibState T B) : Prop :=
  s.lmax = 40 ∧ (∀ L, L ≤ 40 → s.rsh L = some (tab L)) ∧ ∀ i, i ≤ 1600 → s.bessel i = some (row i)

/-- Program points inside a critical block. -/
def Pc.inCrit : Pc → Bool
  | .initTest | .rshTest | .rshRealloc | .rshFill _ | .rshSetLmax | .besselFill _ | .initSet | .initLeave
  | .finTest | .finSet | .finLeave => true
  | _ => false

/-- Nothing has been built. -/
def LibState.Fresh (s : LibState T B) : Prop :=
  s.lmax = -1 ∧ s.flag = 0 ∧ s.resets = 0 ∧ s.reallocs = 0 ∧ (∀ L, s.rshBuilds L = 0) ∧ ∀ i, s.besselBuilds i = 0

/-- Everything has been built. -/
def LibState.Done (tab : Nat → T) (row : Nat → B) (s : LibState T B) : Prop :=
  s.Ready tab row ∧ (s.flag = 0 ∨ s.flag = 1) ∧ s.reallocs = 1 ∧ (∀ L, s.rshBuilds L = if L ≤ 40 then 1 else 0) ∧
    ∀ i, s.besselBuilds i = if i ≤ 1600 then s.resets + s.flag.toNat else 0

def LibState.FreeInv (tab : Nat → T) (row : Nat → B) (s : LibState T B) : Prop := s.Fresh ∨ s.Done tab row

/-- The spherical harmonic tables below `n` have been built, the pointer table is being filled. -/
def LibState.Filling (tab : Nat → T) (s : LibState T B) (n : Nat) : Prop :=
  n ≤ 41 ∧ s.lmax = -1 ∧ s.flag = 0 ∧ s.resets = 0 ∧ s.reallocs = 1 ∧ (∀ K, K < n → s.rsh K = some (tab K)) ∧
    (∀ K, s.rshBuilds K = if K < n then 1 else 0) ∧ ∀ i, s.besselBuilds i = 0

/-- The Bessel rows below `n` have been (re)built. -/
def LibState.Pretab (tab : Nat → T) (row : Nat → B) (s : LibState T B) (n : Nat) : Prop :=
  n ≤ 1601 ∧ s.lmax = 40 ∧ s.flag = 0 ∧ s.reallocs = 1 ∧ (∀ L, L ≤ 40 → s.rsh L = some (tab L)) ∧
    (∀ L, s.rshBuilds L = if L ≤ 40 then 1 else 0) ∧ (∀ j, j < n → s.bessel j = some (row j)) ∧
    (∀ j, s.besselBuilds j = if j < n then s.resets + 1 else if j ≤ 1600 then s.resets else 0) ∧
    (0 < s.resets → s.Ready tab row)

/-- What holds when the owner of the lock is at the given point. -/
def LibState.CritInv (tab : Nat → T) (row : Nat → B) (s : LibState T B) : Pc → Prop
  | .initTest | .finTest | .finLeave => s.FreeInv tab row
  | .initLeave => s.Done tab row ∧ s.flag = 1
  | .rshTest => s.FreeInv tab row ∧ s.flag = 0
  | .rshRealloc => s.Fresh
  | .rshFill L => s.Filling tab L
  | .rshSetLmax => s.Filling tab 41
  | .besselFill i => s.Pretab tab row i
  | .initSet => s.Pretab tab row 1601
  | .finSet => s.Done tab row ∧ s.flag = 1
  | _ => True

/-- What an observation says. -/
def Obs.Ok (tab : Nat → T) (row : Nat → B) (ready : Prop) : Obs T B → Prop
  | .reported v => v ≠ 0 → ready
  | .rsh L v => L ≤ 40 → v = some (tab L)
  | .bessel i v => i ≤ 1600 → v = some (row i)

theorem Obs.Ok.mono {p q : Prop} (h : p → q) {o : Obs T B} (ho : o.Ok tab row p) : o.Ok tab row q := by
  cases o with
  | reported v => exact fun hv => h (ho hv)
  | rsh => exact ho
  | bessel => exact ho

structure LibState.Inv (tab : Nat → T) (row : Nat → B) (s : LibState T B) : Prop where
  crit : ∀ t, (s.threads t).pc.inCrit = true ↔ s.lock = some t
  free : s.lock = none → s.FreeInv tab row
  owner : ∀ t, s.lock = some t → s.CritInv tab row (s.threads t).pc
  reads : ∀ t rs, (s.threads t).pc = .intRead rs → s.Ready tab row
  inited : ∀ t, 0 < (s.threads t).inits → s.Ready tab row
  seen : ∀ t, ∀ o ∈ (s.threads t).seen, o.Ok tab row (s.Ready tab row)

theorem start_inv (progs : Nat → List LibCall) : (LibState.start progs : LibState T B).Inv tab row where
  crit := by intro t; simp [LibState.start, Pc.inCrit]
  free := by intro _; left; simp [LibState.Fresh, LibState.start]
  owner := by intro t h; simp [LibState.start] at h
  reads := by intro t rs h; simp [LibState.start] at h
  inited := by intro t h; simp [LibState.start] at h
  seen := by intro t o h; simp [LibState.start] at h

/-- One thread moves; the facts about the others carry over. -/
theorem inv_of_update {s s' : LibState T B} (h : s.Inv tab row) (t : Nat) (th : LibThread T B)
    (hth : s'.threads = Function.update s.threads t th)
    (mono : s.Ready tab row → s'.Ready tab row)
    (hlock : th.pc.inCrit = true ↔ s'.lock = some t)
    (hother : ∀ u, u ≠ t → (s'.lock = some u ↔ s.lock = some u))
    (hfree : s'.lock = none → s'.FreeInv tab row)
    (hown : s'.lock = some t → s'.CritInv tab row th.pc)
    (hcarry : ∀ u, u ≠ t → s.lock = some u → s.CritInv tab row (s.threads u).pc → s'.CritInv tab row (s.threads u).pc)
    (hreads : ∀ rs, th.pc = .intRead rs → s'.Ready tab row)
    (hinit : 0 < th.inits → s'.Ready tab row)
    (hseen : ∀ o ∈ th.seen, o.Ok tab row (s'.Ready tab row)) : s'.Inv tab row where
  crit := by
    intro u
    by_cases hu : u = t
    · subst hu; rw [hth, Function.update_self]; exact hlock
    · rw [hth, Function.update_of_ne hu, hother u hu]; exact h.crit u
  free := hfree
  owner := by
    intro u
    by_cases hu : u = t
    · subst hu; rw [hth, Function.update_self]; exact hown
    · rw [hth, Function.update_of_ne hu]
      intro hl
      have hl' := (hother u hu).1 hl
      exact hcarry u hu hl' (h.owner u hl')
  reads := by
    intro u rs
    by_cases hu : u = t
    · subst hu; rw [hth, Function.update_self]; exact hreads rs
    · rw [hth, Function.update_of_ne hu]; exact fun hp => mono (h.reads u rs hp)
  inited := by
    intro u
    by_cases hu : u = t
    · subst hu; rw [hth, Function.update_self]; exact hinit
    · rw [hth, Function.update_of_ne hu]; exact fun hp => mono (h.inited u hp)
  seen := by
    intro u
    by_cases hu : u = t
    · subst hu; rw [hth, Function.update_self]; exact hseen
    · rw [hth, Function.update_of_ne hu]; exact fun o ho => (h.seen u o ho).mono mono

/-- A move outside the critical section that leaves the shared variables alone. -/
theorem inv_of_local {s s' : LibState T B} (h : s.Inv tab row) (t : Nat) (th : LibThread T B) (ab : Bool)
    (hs : s' = { s with threads := Function.update s.threads t th, aborted := ab })
    (hpc : (s.threads t).pc.inCrit = false) (hpc' : th.pc.inCrit = false)
    (hreads : ∀ rs, th.pc = .intRead rs → s.Ready tab row) (hinit : th.inits = (s.threads t).inits)
    (hseen : ∀ o ∈ th.seen, o.Ok tab row (s.Ready tab row)) : s'.Inv tab row := by
  have hl : s.lock ≠ some t := fun hl => by
    have := (h.crit t).2 hl
    rw [hpc] at this; exact Bool.noConfusion this
  subst hs
  refine inv_of_update h t th rfl (fun x => x) ?_ (fun _ _ => Iff.rfl) h.free (fun hl' => absurd hl' hl)
    (fun _ _ _ x => x) hreads (fun hp => h.inited t (hinit ▸ hp)) hseen
  rw [hpc']
  exact ⟨fun x => Bool.noConfusion x, fun x => absurd x hl⟩

/-- A move of the owner of the critical section that stays inside. -/
theorem inv_of_owner {s s' : LibState T B} (h : s.Inv tab row) (t : Nat) (pc : Pc)
    (hpc : (s.threads t).pc.inCrit = true) (hpc' : pc.inCrit = true)
    (hth : s'.threads = Function.update s.threads t { s.threads t with pc := pc })
    (hlock : s'.lock = s.lock) (mono : s.Ready tab row → s'.Ready tab row)
    (hown : s'.CritInv tab row pc) : s'.Inv tab row := by
  have hl : s.lock = some t := (h.crit t).1 hpc
  refine inv_of_update h t _ hth mono ?_ ?_ ?_ (fun _ => hown) ?_ ?_ (fun hp => mono (h.inited t hp))
    (fun o ho => (h.seen t o ho).mono mono)
  · rw [hlock, hl]; simpa using hpc'
  · intro u _; rw [hlock]
  · rw [hlock, hl]; intro x; cases x
  · intro u hu hl'; rw [hl] at hl'; exact absurd (Option.some.inj hl').symm hu
  · intro rs hp
    have : pc = .intRead rs := hp
    rw [this] at hpc'; exact Bool.noConfusion hpc'

/-- The flag is only set when the tables are in place. -/
theorem ready_of_flag {s : LibState T B} (h : s.Inv tab row) (hf : s.flag ≠ 0) : s.Ready tab row := by
  have hfree : s.FreeInv tab row → s.Ready tab row := by
    rintro (hc | hc)
    · exact absurd hc.2.1 hf
    · exact hc.1
  cases hl : s.lock with
  | none => exact hfree (h.free hl)
  | some u =>
    have ho := h.owner u hl
    have hcr := (h.crit u).2 hl
    cases hp : (s.threads u).pc <;> rw [hp] at ho hcr
    case initTest => exact hfree ho
    case finTest => exact hfree ho
    case finLeave => exact hfree ho
    case initLeave => exact ho.1.1
    case finSet => exact ho.1.1
    case rshTest => exact absurd ho.2 hf
    case rshRealloc => exact absurd ho.2.1 hf
    case rshFill => exact absurd ho.2.2.1 hf
    case rshSetLmax => exact absurd ho.2.2.1 hf
    case besselFill => exact absurd ho.2.2.1 hf
    case initSet => exact absurd ho.2.2.1 hf
    all_goals exact Bool.noConfusion hcr

theorem step_inv {s s' : LibState T B} (h : s.Inv tab row) (t : Nat) (hs : s.step tab row t = some s') :
    s'.Inv tab row := by
  unfold LibState.step at hs
  split at hs
  · cases hs
  have own := h.owner t
  have cr := h.crit t
  split at hs
  · -- idle
    rename_i hpc
    split at hs
    · cases hs
    · rename_i c cs htodo
      cases hs
      refine inv_of_local h t _ s.aborted rfl (by rw [hpc]; rfl) ?_ ?_ rfl (h.seen t)
      · cases c <;> rfl
      · intro rs hp; cases c <;> exact Pc.noConfusion hp
  · -- initEnter
    rename_i hpc
    split at hs
    · rename_i hl
      cases hs
      refine inv_of_update h t _ rfl (fun x => x) (by simp [Pc.inCrit, LibState.goto]) ?_ ?_ ?_ ?_ ?_ (h.inited t) (h.seen t)
      · intro u hu; simp [LibState.goto, hl]; exact fun x => hu x.symm
      · intro x; cases x
      · intro _; exact h.free hl
      · intro u _ hl'; rw [hl] at hl'; cases hl'
      · intro rs hp; cases hp
    · cases hs
  · -- initTest
    rename_i hpc
    cases hs
    have hc : s.FreeInv tab row := by have := own (cr.1 (by rw [hpc]; rfl)); rw [hpc] at this; exact this
    refine inv_of_owner h t _ (by rw [hpc]; rfl) (by split <;> rfl) rfl rfl (fun x => x) ?_
    split
    · rename_i hf; exact ⟨hc, hf⟩
    · rename_i hf
      rcases hc with hc | hc
      · exact absurd hc.2.1 hf
      · exact ⟨hc, hc.2.1.resolve_left hf⟩
  · -- rshTest
    rename_i hpc
    cases hs
    have hc : s.FreeInv tab row ∧ s.flag = 0 := by
      have := own (cr.1 (by rw [hpc]; rfl)); rw [hpc] at this; exact this
    refine inv_of_owner h t _ (by rw [hpc]; rfl) (by split <;> rfl) rfl rfl (fun x => x) ?_
    split
    · rename_i hf
      rcases hc.1 with hd | hd
      · rw [hd.1] at hf; omega
      · obtain ⟨hr, _, h1, h2, h3⟩ := hd
        refine ⟨Nat.zero_le _, hr.1, hc.2, h1, hr.2.1, h2, fun j hj => absurd hj (Nat.not_lt_zero _), ?_, fun _ => hr⟩
        intro j
        have := h3 j
        rw [hc.2] at this
        simpa [LibState.goto] using this
    · rename_i hf
      rcases hc.1 with hd | hd
      · exact hd
      · exact absurd (Int.le_of_eq hd.1.1.symm) hf
  · -- rshRealloc
    rename_i hpc
    cases hs
    have hc : s.Fresh := by have := own (cr.1 (by rw [hpc]; rfl)); rw [hpc] at this; exact this
    refine inv_of_owner h t _ (by rw [hpc]; rfl) rfl rfl rfl ?_ ?_
    · intro hr; have := hr.1; rw [hc.1] at this; omega
    · obtain ⟨h1, h2, h3, h4, h5, h6⟩ := hc
      have e : (s.lmax + 1).toNat = 0 := by rw [h1]; rfl
      rw [e]
      refine ⟨by omega, h1, h2, h3, ?_, fun K hK => absurd hK (Nat.not_lt_zero _), ?_, h6⟩
      · show s.reallocs + 1 = 1; omega
      · intro K; simpa [LibState.goto] using h5 K
  · -- rshFill
    rename_i L hpc
    have hc : s.Filling tab L := by have := own (cr.1 (by rw [hpc]; rfl)); rw [hpc] at this; exact this
    obtain ⟨h0, h1, h2, h3, h4, h5, h6, h7⟩ := hc
    split at hs
    · rename_i hL
      cases hs
      refine inv_of_owner h t _ (by rw [hpc]; rfl) rfl rfl rfl ?_ ?_
      · intro hr; have := hr.1; rw [h1] at this; omega
      · refine ⟨by omega, h1, h2, h3, h4, ?_, ?_, h7⟩
        · intro K hK
          show Function.update s.rsh L (some (tab L)) K = _
          by_cases hKL : K = L
          · subst hKL; rw [Function.update_self]
          · rw [Function.update_of_ne hKL]; exact h5 K (by omega)
        · intro K
          show Function.update s.rshBuilds L (s.rshBuilds L + 1) K = _
          by_cases hKL : K = L
          · subst hKL; rw [Function.update_self, h6]; simp
          · rw [Function.update_of_ne hKL, h6]
            have : (K < L) ↔ (K < L + 1) := by omega
            simp only [this]
    · rename_i hL
      cases hs
      have : L = 41 := by omega
      subst this
      exact inv_of_owner h t _ (by rw [hpc]; rfl) rfl rfl rfl (fun x => x) ⟨h0, h1, h2, h3, h4, h5, h6, h7⟩
  · -- rshSetLmax
    rename_i hpc
    cases hs
    have hc : s.Filling tab 41 := by have := own (cr.1 (by rw [hpc]; rfl)); rw [hpc] at this; exact this
    obtain ⟨h0, h1, h2, h3, h4, h5, h6, h7⟩ := hc
    refine inv_of_owner h t _ (by rw [hpc]; rfl) rfl rfl rfl ?_ ?_
    · intro hr; have := hr.1; rw [h1] at this; omega
    · refine ⟨Nat.zero_le _, rfl, h2, h4, fun L hL => h5 L (by omega), ?_, fun j hj => absurd hj (Nat.not_lt_zero _), ?_, ?_⟩
      · intro L; have := h6 L
        show s.rshBuilds L = _
        rw [this]
        have : (L < 41) ↔ (L ≤ 40) := by omega
        simp only [this]
      · intro j
        show s.besselBuilds j = if j < 0 then s.resets + 1 else if j ≤ 1600 then s.resets else 0
        rw [h7, h3]; simp
      · intro hp
        have : 0 < s.resets := hp
        omega
  · -- besselFill
    rename_i i hpc
    have hc : s.Pretab tab row i := by have := own (cr.1 (by rw [hpc]; rfl)); rw [hpc] at this; exact this
    obtain ⟨h0, h1, h2, h3, h4, h5, h6, h7, h8⟩ := hc
    split at hs
    · rename_i hi
      cases hs
      have mono : s.Ready tab row → LibState.Ready tab row ({ s with
          bessel := Function.update s.bessel i (some (row i))
          besselBuilds := Function.update s.besselBuilds i (s.besselBuilds i + 1) }.goto t (.besselFill (i + 1))) := by
        rintro ⟨r1, r2, r3⟩
        refine ⟨r1, r2, fun j hj => ?_⟩
        show Function.update s.bessel i (some (row i)) j = _
        by_cases hji : j = i
        · subst hji; rw [Function.update_self]
        · rw [Function.update_of_ne hji]; exact r3 j hj
      refine inv_of_owner h t _ (by rw [hpc]; rfl) rfl rfl rfl mono ?_
      refine ⟨by omega, h1, h2, h3, h4, h5, ?_, ?_, fun hp => mono (h8 hp)⟩
      · intro j hj
        show Function.update s.bessel i (some (row i)) j = _
        by_cases hji : j = i
        · subst hji; rw [Function.update_self]
        · rw [Function.update_of_ne hji]; exact h6 j (by omega)
      · intro j
        show Function.update s.besselBuilds i (s.besselBuilds i + 1) j =
          if j < i + 1 then s.resets + 1 else if j ≤ 1600 then s.resets else 0
        by_cases hji : j = i
        · subst hji; rw [Function.update_self, h7]; simp [hi]
        · rw [Function.update_of_ne hji, h7]
          have : (j < i) ↔ (j < i + 1) := by omega
          simp only [this]
    · rename_i hi
      cases hs
      have : i = 1601 := by omega
      subst this
      exact inv_of_owner h t _ (by rw [hpc]; rfl) rfl rfl rfl (fun x => x) ⟨h0, h1, h2, h3, h4, h5, h6, h7, h8⟩
  · -- initSet
    rename_i hpc
    cases hs
    have hc : s.Pretab tab row 1601 := by have := own (cr.1 (by rw [hpc]; rfl)); rw [hpc] at this; exact this
    obtain ⟨h0, h1, h2, h3, h4, h5, h6, h7, h8⟩ := hc
    refine inv_of_owner h t _ (by rw [hpc]; rfl) rfl rfl rfl (fun x => x) ?_
    refine ⟨⟨⟨h1, h4, fun i hi => h6 i (by omega)⟩, Or.inr rfl, h3, h5, ?_⟩, rfl⟩
    intro i
    show s.besselBuilds i = if i ≤ 1600 then s.resets + 1 else 0
    rw [h7]
    by_cases hi : i ≤ 1600
    · rw [if_pos (by omega), if_pos hi]
    · rw [if_neg (by omega), if_neg hi, if_neg hi]
  · -- initLeave
    rename_i hpc
    cases hs
    have hl := cr.1 (by rw [hpc]; rfl)
    have hc : s.Done tab row ∧ s.flag = 1 := by have := own hl; rw [hpc] at this; exact this
    refine inv_of_update h t _ rfl (fun x => x) (by simp [Pc.inCrit]) ?_ ?_ ?_ ?_ ?_ ?_ (h.seen t)
    · intro u hu; rw [hl]; simp; exact fun x => hu x.symm
    · intro _; exact Or.inr hc.1
    · intro x; cases x
    · intro u hu hl'; rw [hl] at hl'; exact absurd (Option.some.inj hl').symm hu
    · intro rs hp; cases hp
    · intro _; exact hc.1.1
  · -- finEnter
    rename_i hpc
    split at hs
    · rename_i hl
      cases hs
      refine inv_of_update h t _ rfl (fun x => x) (by simp [Pc.inCrit, LibState.goto]) ?_ ?_ ?_ ?_ ?_ (h.inited t) (h.seen t)
      · intro u hu; simp [LibState.goto, hl]; exact fun x => hu x.symm
      · intro x; cases x
      · intro _; exact h.free hl
      · intro u _ hl'; rw [hl] at hl'; cases hl'
      · intro rs hp; cases hp
    · cases hs
  · -- finTest
    rename_i hpc
    cases hs
    have hc : s.FreeInv tab row := by have := own (cr.1 (by rw [hpc]; rfl)); rw [hpc] at this; exact this
    refine inv_of_owner h t _ (by rw [hpc]; rfl) (by split <;> rfl) rfl rfl (fun x => x) ?_
    split
    · rename_i hf
      rcases hc with hc | hc
      · rw [hc.2.1] at hf; omega
      · exact ⟨hc, hf⟩
    · exact hc
  · -- finSet
    rename_i hpc
    cases hs
    have hc : s.Done tab row ∧ s.flag = 1 := by have := own (cr.1 (by rw [hpc]; rfl)); rw [hpc] at this; exact this
    obtain ⟨⟨h1, h2, h3, h4, h5⟩, hf⟩ := hc
    refine inv_of_owner h t _ (by rw [hpc]; rfl) rfl rfl rfl (fun x => x) ?_
    refine Or.inr ⟨h1, Or.inl rfl, h3, h4, ?_⟩
    intro i
    have := h5 i
    rw [hf] at this
    exact this
  · -- finLeave
    rename_i hpc
    cases hs
    have hl := cr.1 (by rw [hpc]; rfl)
    have hc : s.FreeInv tab row := by have := own hl; rw [hpc] at this; exact this
    refine inv_of_update h t _ rfl (fun x => x) (by simp [Pc.inCrit, LibState.goto]) ?_ ?_ ?_ ?_ ?_ (h.inited t) (h.seen t)
    · intro u hu; rw [hl]; simp [LibState.goto]; exact fun x => hu x.symm
    · intro _; exact hc
    · intro x; cases x
    · intro u hu hl'; rw [hl] at hl'; exact absurd (Option.some.inj hl').symm hu
    · intro rs hp; cases hp
  · -- queryRead
    rename_i hpc
    cases hs
    refine inv_of_local h t ⟨.idle, (s.threads t).todo, (s.threads t).inits, .reported s.flag :: (s.threads t).seen⟩
      s.aborted ?_ (by rw [hpc]; rfl) rfl (fun rs hp => Pc.noConfusion hp) rfl ?_
    · simp [LibState.goto, LibState.observe]
    · intro o ho
      rcases List.mem_cons.1 ho with rfl | ho
      · exact fun hv => ready_of_flag h hv
      · exact h.seen t o ho
  · -- intAssert
    rename_i rs hpc
    split at hs
    · rename_i hf
      cases hs
      exact inv_of_local h t _ s.aborted rfl (by rw [hpc]; rfl) rfl (fun _ _ => ready_of_flag h hf) rfl (h.seen t)
    · cases hs
      refine inv_of_local h t (s.threads t) true ?_ (by rw [hpc]; rfl) (by rw [hpc]; rfl) (h.reads t) rfl (h.seen t)
      rw [Function.update_eq_self]
  · -- intRead []
    rename_i hpc
    cases hs
    exact inv_of_local h t _ s.aborted rfl (by rw [hpc]; rfl) rfl (fun _ hp => Pc.noConfusion hp) rfl (h.seen t)
  · rename_i L rs hpc
    cases hs
    have hr := h.reads t _ hpc
    refine inv_of_local h t ⟨.intRead rs, (s.threads t).todo, (s.threads t).inits, .rsh L (s.getRsh L) :: (s.threads t).seen⟩
      s.aborted ?_ (by rw [hpc]; rfl) rfl (fun _ _ => hr) rfl ?_
    · simp [LibState.goto, LibState.observe]
    · intro o ho
      rcases List.mem_cons.1 ho with rfl | ho
      · intro hL
        rw [LibState.getRsh, if_neg (by rw [hr.1]; omega), hr.2.1 L hL]
      · exact h.seen t o ho
  · rename_i i rs hpc
    cases hs
    have hr := h.reads t _ hpc
    refine inv_of_local h t ⟨.intRead rs, (s.threads t).todo, (s.threads t).inits, .bessel i (s.bessel i) :: (s.threads t).seen⟩
      s.aborted ?_ (by rw [hpc]; rfl) rfl (fun _ _ => hr) rfl ?_
    · simp [LibState.goto, LibState.observe]
    · intro o ho
      rcases List.mem_cons.1 ho with rfl | ho
      · exact hr.2.2 i
      · exact h.seen t o ho

theorem reachable_inv {progs : Nat → List LibCall} {s : LibState T B} (h : LibState.Reachable tab row progs s) :
    s.Inv tab row := by
  induction h with
  | start => exact start_inv progs
  | step t _ hs ih => exact step_inv ih t hs

/-! ### Programs without `libgrpp_finalize` -/

/-- Every integral call in the list comes after a call of `libgrpp_init` in the same list. -/
def InitFirst (l : List LibCall) : Prop :=
  ∀ pre rs post, l = pre ++ LibCall.integral rs :: post → LibCall.init ∈ pre

/-- Program points of `libgrpp_init`. -/
def Pc.inInit : Pc → Bool
  | .initEnter | .initTest | .rshTest | .rshRealloc | .rshFill _ | .rshSetLmax | .besselFill _ | .initSet
  | .initLeave => true
  | _ => false

/-- Program points of `libgrpp_finalize`. -/
def Pc.inFin : Pc → Bool
  | .finEnter | .finTest | .finSet | .finLeave => true
  | _ => false

structure LibState.NoFin (s : LibState T B) : Prop where
  todo : ∀ t, LibCall.finalize ∉ (s.threads t).todo
  pc : ∀ t, (s.threads t).pc.inFin = false
  resets : s.resets = 0
  flag : ∀ t, 0 < (s.threads t).inits → s.flag = 1
  reading : ∀ t rs, (s.threads t).pc = .intRead rs → s.flag = 1

theorem nofin_of_update {s s' : LibState T B} (h : s.NoFin) (t : Nat) (th : LibThread T B)
    (hth : s'.threads = Function.update s.threads t th)
    (htodo : LibCall.finalize ∉ th.todo) (hpc : th.pc.inFin = false) (hres : s'.resets = s.resets)
    (hflag : s.flag = 1 → s'.flag = 1) (hinits : 0 < th.inits → s'.flag = 1)
    (hread : ∀ rs, th.pc = .intRead rs → s'.flag = 1) : s'.NoFin where
  todo := by
    intro u
    by_cases hu : u = t
    · subst hu; rw [hth, Function.update_self]; exact htodo
    · rw [hth, Function.update_of_ne hu]; exact h.todo u
  pc := by
    intro u
    by_cases hu : u = t
    · subst hu; rw [hth, Function.update_self]; exact hpc
    · rw [hth, Function.update_of_ne hu]; exact h.pc u
  resets := by rw [hres]; exact h.resets
  flag := by
    intro u
    by_cases hu : u = t
    · subst hu; rw [hth, Function.update_self]; exact hinits
    · rw [hth, Function.update_of_ne hu]; exact fun hp => hflag (h.flag u hp)
  reading := by
    intro u rs
    by_cases hu : u = t
    · subst hu; rw [hth, Function.update_self]; exact hread rs
    · rw [hth, Function.update_of_ne hu]; exact fun hp => hflag (h.reading u rs hp)

theorem flag_zero_or_one {s : LibState T B} (h : s.Inv tab row) : s.flag = 0 ∨ s.flag = 1 := by
  have hfree : s.FreeInv tab row → s.flag = 0 ∨ s.flag = 1 := by
    rintro (hc | hc)
    · exact Or.inl hc.2.1
    · exact hc.2.1
  cases hl : s.lock with
  | none => exact hfree (h.free hl)
  | some u =>
    have ho := h.owner u hl
    have hcr := (h.crit u).2 hl
    cases hp : (s.threads u).pc <;> rw [hp] at ho hcr
    case initTest => exact hfree ho
    case finTest => exact hfree ho
    case finLeave => exact hfree ho
    case initLeave => exact Or.inr ho.2
    case finSet => exact Or.inr ho.2
    case rshTest => exact Or.inl ho.2
    case rshRealloc => exact Or.inl ho.2.1
    case rshFill => exact Or.inl ho.2.2.1
    case rshSetLmax => exact Or.inl ho.2.2.1
    case besselFill => exact Or.inl ho.2.2.1
    case initSet => exact Or.inl ho.2.2.1
    all_goals exact Bool.noConfusion hcr

theorem step_nofin {s s' : LibState T B} (hi : s.Inv tab row) (h : s.NoFin) (t : Nat)
    (hs : s.step tab row t = some s') : s'.NoFin := by
  have own := hi.owner t
  have cr := hi.crit t
  have hnf := h.pc t
  have key : ∀ (th : LibThread T B), s'.threads = Function.update s.threads t th → s'.resets = s.resets →
      s'.flag = s.flag → th.todo = (s.threads t).todo → th.inits = (s.threads t).inits → th.pc.inFin = false →
      (∀ rs, th.pc = .intRead rs → s.flag = 1) → s'.NoFin := by
    intro th h1 h2 h3 h4 h5 h6 h7
    refine nofin_of_update h t th h1 (h4 ▸ h.todo t) h6 h2 (fun x => h3 ▸ x) (fun hp => ?_) (fun rs hp => ?_)
    · rw [h3]; exact h.flag t (h5 ▸ hp)
    · rw [h3]; exact h7 rs hp
  unfold LibState.step at hs
  split at hs
  · cases hs
  split at hs
  · -- idle
    rename_i hpc
    split at hs
    · cases hs
    · rename_i c cs htodo
      cases hs
      have hn := h.todo t
      rw [htodo] at hn
      refine nofin_of_update h t _ rfl (fun hm => hn (List.mem_cons_of_mem _ hm)) ?_ rfl (fun x => x) (h.flag t) ?_
      · cases c
        case finalize => exact absurd List.mem_cons_self hn
        all_goals rfl
      · intro rs hp; cases c <;> exact Pc.noConfusion hp
  · split at hs
    · cases hs
      exact key _ rfl rfl rfl rfl rfl rfl (fun _ hp => Pc.noConfusion hp)
    · cases hs
  · cases hs
    refine key _ rfl rfl rfl rfl rfl (by split <;> rfl) ?_
    intro rs hp; revert hp; dsimp only; split <;> intro hp <;> cases hp
  · cases hs
    refine key _ rfl rfl rfl rfl rfl (by split <;> rfl) ?_
    intro rs hp; revert hp; dsimp only; split <;> intro hp <;> cases hp
  · cases hs
    exact key _ rfl rfl rfl rfl rfl rfl (fun _ hp => Pc.noConfusion hp)
  · split at hs <;> cases hs
    · exact key _ rfl rfl rfl rfl rfl rfl (fun _ hp => Pc.noConfusion hp)
    · exact key _ rfl rfl rfl rfl rfl rfl (fun _ hp => Pc.noConfusion hp)
  · cases hs
    exact key _ rfl rfl rfl rfl rfl rfl (fun _ hp => Pc.noConfusion hp)
  · split at hs <;> cases hs
    · exact key _ rfl rfl rfl rfl rfl rfl (fun _ hp => Pc.noConfusion hp)
    · exact key _ rfl rfl rfl rfl rfl rfl (fun _ hp => Pc.noConfusion hp)
  · -- initSet
    cases hs
    exact nofin_of_update h t _ rfl (h.todo t) rfl rfl (fun _ => rfl) (fun _ => rfl) (fun _ _ => rfl)
  · -- initLeave
    rename_i hpc
    cases hs
    have hc : s.Done tab row ∧ s.flag = 1 := by
      have := own (cr.1 (by rw [hpc]; rfl)); rw [hpc] at this; exact this
    exact nofin_of_update h t _ rfl (h.todo t) rfl rfl (fun x => x) (fun _ => hc.2) (fun _ hp => Pc.noConfusion hp)
  · rename_i hpc; rw [hpc] at hnf; exact Bool.noConfusion hnf
  · rename_i hpc; rw [hpc] at hnf; exact Bool.noConfusion hnf
  · rename_i hpc; rw [hpc] at hnf; exact Bool.noConfusion hnf
  · rename_i hpc; rw [hpc] at hnf; exact Bool.noConfusion hnf
  · -- queryRead
    cases hs
    refine key ⟨.idle, (s.threads t).todo, (s.threads t).inits, .reported s.flag :: (s.threads t).seen⟩
      ?_ rfl rfl rfl rfl rfl (fun _ hp => Pc.noConfusion hp)
    simp [LibState.goto, LibState.observe]
  · split at hs
    · rename_i hf
      cases hs
      exact key _ rfl rfl rfl rfl rfl rfl (fun _ _ => (flag_zero_or_one hi).resolve_left hf)
    · cases hs
      exact ⟨h.todo, h.pc, h.resets, h.flag, h.reading⟩
  · cases hs
    exact key _ rfl rfl rfl rfl rfl rfl (fun _ hp => Pc.noConfusion hp)
  · rename_i L rs hpc
    cases hs
    refine key ⟨.intRead rs, (s.threads t).todo, (s.threads t).inits, .rsh L (s.getRsh L) :: (s.threads t).seen⟩
      ?_ rfl rfl rfl rfl rfl (fun _ _ => h.reading t _ hpc)
    simp [LibState.goto, LibState.observe]
  · rename_i i rs hpc
    cases hs
    refine key ⟨.intRead rs, (s.threads t).todo, (s.threads t).inits, .bessel i (s.bessel i) :: (s.threads t).seen⟩
      ?_ rfl rfl rfl rfl rfl (fun _ _ => h.reading t _ hpc)
    simp [LibState.goto, LibState.observe]

theorem reachable_nofin {progs : Nat → List LibCall} {s : LibState T B} (hp : ∀ t, LibCall.finalize ∉ progs t)
    (h : LibState.Reachable tab row progs s) : s.NoFin := by
  induction h with
  | start =>
    refine ⟨hp, fun _ => rfl, rfl, fun t h => ?_, fun t rs h => ?_⟩
    · exact absurd h (Nat.lt_irrefl 0)
    · exact Pc.noConfusion h
  | step t h hs ih => exact step_nofin (reachable_inv h) ih t hs

/-! ### Initialisation before use -/

/-- The thread has initialised the library, is doing so, or will do so before its first integral call. -/
def LibThread.Guarded (th : LibThread T B) : Prop :=
  0 < th.inits ∨ th.pc.inInit = true ∨ ((∀ rs, th.pc ≠ .intAssert rs) ∧ InitFirst th.todo)

theorem initFirst_tail {c : LibCall} {cs : List LibCall} (h : InitFirst (c :: cs)) (hc : c ≠ .init) : InitFirst cs := by
  intro pre rs post e
  have := h (c :: pre) rs post (by rw [e]; rfl)
  rcases List.mem_cons.1 this with h' | h'
  · exact absurd h'.symm hc
  · exact h'

theorem step_guarded {s s' : LibState T B} (hnf : s.NoFin) (h : ∀ t, (s.threads t).Guarded) (ha : s.aborted = false)
    (t : Nat) (hs : s.step tab row t = some s') : (∀ u, (s'.threads u).Guarded) ∧ s'.aborted = false := by
  have key : ∀ (th : LibThread T B), s'.threads = Function.update s.threads t th → s'.aborted = false →
      ((s.threads t).Guarded → th.Guarded) → (∀ u, (s'.threads u).Guarded) ∧ s'.aborted = false := by
    intro th h1 h2 h3
    refine ⟨fun u => ?_, h2⟩
    by_cases hu : u = t
    · subst hu; rw [h1, Function.update_self]; exact h3 (h u)
    · rw [h1, Function.update_of_ne hu]; exact h u
  have hfin := hnf.pc t
  have ha' := ha
  unfold LibState.step at hs
  rw [if_neg (by simp [ha])] at hs
  split at hs
  · rename_i hpc
    split at hs
    · cases hs
    · rename_i c cs htodo
      cases hs
      refine key _ rfl ha' ?_
      rintro (hg | hg | ⟨_, hg⟩)
      · exact Or.inl hg
      · rw [hpc] at hg; exact Bool.noConfusion hg
      · rw [htodo] at hg
        cases c
        case init => exact Or.inr (Or.inl rfl)
        case integral rs => exact absurd (hg [] rs cs rfl) List.not_mem_nil
        case finalize => exact Or.inr (Or.inr ⟨fun rs hp => Pc.noConfusion hp, initFirst_tail hg (fun x => LibCall.noConfusion x)⟩)
        case query => exact Or.inr (Or.inr ⟨fun rs hp => Pc.noConfusion hp, initFirst_tail hg (fun x => LibCall.noConfusion x)⟩)
  · split at hs
    · cases hs
      exact key _ rfl ha' (fun _ => Or.inr (Or.inl rfl))
    · cases hs
  · cases hs
    exact key _ rfl ha' (fun _ => Or.inr (Or.inl (by split <;> rfl)))
  · cases hs
    exact key _ rfl ha' (fun _ => Or.inr (Or.inl (by split <;> rfl)))
  · cases hs
    exact key _ rfl ha' (fun _ => Or.inr (Or.inl rfl))
  · split at hs <;> cases hs <;> exact key _ rfl ha' (fun _ => Or.inr (Or.inl rfl))
  · cases hs
    exact key _ rfl ha' (fun _ => Or.inr (Or.inl rfl))
  · split at hs <;> cases hs <;> exact key _ rfl ha' (fun _ => Or.inr (Or.inl rfl))
  · cases hs
    exact key _ rfl ha' (fun _ => Or.inr (Or.inl rfl))
  · cases hs
    exact key _ rfl ha' (fun _ => Or.inl (Nat.succ_pos _))
  · rename_i hpc; rw [hpc] at hfin; exact Bool.noConfusion hfin
  · rename_i hpc; rw [hpc] at hfin; exact Bool.noConfusion hfin
  · rename_i hpc; rw [hpc] at hfin; exact Bool.noConfusion hfin
  · rename_i hpc; rw [hpc] at hfin; exact Bool.noConfusion hfin
  · rename_i hpc
    cases hs
    refine key ⟨.idle, (s.threads t).todo, (s.threads t).inits, .reported s.flag :: (s.threads t).seen⟩ ?_ ha' ?_
    · simp [LibState.goto, LibState.observe]
    · rintro (hg | hg | ⟨_, hg⟩)
      · exact Or.inl hg
      · rw [hpc] at hg; exact Bool.noConfusion hg
      · exact Or.inr (Or.inr ⟨fun rs hp => Pc.noConfusion hp, hg⟩)
  · rename_i rs hpc
    have hin : 0 < (s.threads t).inits := by
      rcases h t with hg | hg | ⟨hg, _⟩
      · exact hg
      · rw [hpc] at hg; exact Bool.noConfusion hg
      · exact absurd hpc (hg rs)
    split at hs
    · cases hs
      exact key _ rfl ha' (fun _ => Or.inl hin)
    · rename_i hf
      rw [hnf.flag t hin] at hf
      exact absurd (by omega) hf
  · rename_i hpc
    cases hs
    refine key _ rfl ha' ?_
    rintro (hg | hg | ⟨_, hg⟩)
    · exact Or.inl hg
    · rw [hpc] at hg; exact Bool.noConfusion hg
    · exact Or.inr (Or.inr ⟨fun rs hp => Pc.noConfusion hp, hg⟩)
  · rename_i L rs hpc
    cases hs
    refine key ⟨.intRead rs, (s.threads t).todo, (s.threads t).inits, .rsh L (s.getRsh L) :: (s.threads t).seen⟩
      ?_ ha' ?_
    · simp [LibState.goto, LibState.observe]
    · rintro (hg | hg | ⟨_, hg⟩)
      · exact Or.inl hg
      · rw [hpc] at hg; exact Bool.noConfusion hg
      · exact Or.inr (Or.inr ⟨fun rs hp => Pc.noConfusion hp, hg⟩)
  · rename_i i rs hpc
    cases hs
    refine key ⟨.intRead rs, (s.threads t).todo, (s.threads t).inits, .bessel i (s.bessel i) :: (s.threads t).seen⟩
      ?_ ha' ?_
    · simp [LibState.goto, LibState.observe]
    · rintro (hg | hg | ⟨_, hg⟩)
      · exact Or.inl hg
      · rw [hpc] at hg; exact Bool.noConfusion hg
      · exact Or.inr (Or.inr ⟨fun rs hp => Pc.noConfusion hp, hg⟩)

theorem reachable_guarded {progs : Nat → List LibCall} {s : LibState T B} (hp : ∀ t, LibCall.finalize ∉ progs t)
    (hf : ∀ t, InitFirst (progs t)) (h : LibState.Reachable tab row progs s) :
    (∀ t, (s.threads t).Guarded) ∧ s.aborted = false := by
  induction h with
  | start => exact ⟨fun t => Or.inr (Or.inr ⟨fun rs h => Pc.noConfusion h, hf t⟩), rfl⟩
  | step t h hs ih => exact step_guarded (reachable_nofin hp h) ih.1 ih.2 t hs

/-! ### Progress -/

/-- A thread that is not waiting for the lock and has something to do can move. -/
theorem step_isSome {s : LibState T B} (ha : s.aborted = false) (t : Nat)
    (h1 : ¬ ((s.threads t).pc = .idle ∧ (s.threads t).todo = []))
    (h2 : (s.threads t).pc = .initEnter ∨ (s.threads t).pc = .finEnter → s.lock = none) :
    (s.step tab row t).isSome = true := by
  unfold LibState.step
  rw [ha]
  simp only [Bool.false_eq_true, if_false]
  split
  · rename_i hpc
    split
    · rename_i htodo; exact absurd ⟨hpc, htodo⟩ h1
    · rfl
  · rename_i hpc; rw [if_pos (h2 (Or.inl hpc))]; rfl
  all_goals first
    | rfl
    | (rename_i hpc; rw [if_pos (h2 (Or.inr hpc))]; rfl)
    | (split <;> rfl)

/-! ### Running a call without interruption -/

/-- States reached when only thread `t` moves. -/
inductive RunsAlone (tab : Nat → T) (row : Nat → B) (t : Nat) : LibState T B → LibState T B → Prop
  | refl (s) : RunsAlone tab row t s s
  | step {s s' s''} (hs : LibState.step tab row s t = some s') (h : RunsAlone tab row t s' s'') : RunsAlone tab row t s s''

theorem RunsAlone.trans {t : Nat} {a b c : LibState T B} (h : RunsAlone tab row t a b) (h' : RunsAlone tab row t b c) :
    RunsAlone tab row t a c := by
  induction h with
  | refl => exact h'
  | step hs _ ih => exact .step hs (ih h')

theorem RunsAlone.reachable {progs : Nat → List LibCall} {t : Nat} {a b : LibState T B} (h : RunsAlone tab row t a b)
    (ha : LibState.Reachable tab row progs a) : LibState.Reachable tab row progs b := by
  induction h with
  | refl => exact ha
  | step hs _ ih => exact ih (.step t ha hs)

/-- Steps inside a call of one thread leave the other threads and the process alone. -/
structure Frame (t : Nat) (s s' : LibState T B) : Prop where
  others : ∀ u, u ≠ t → s'.threads u = s.threads u
  aborted : s'.aborted = s.aborted

theorem Frame.trans {t : Nat} {a b c : LibState T B} (h : Frame t a b) (h' : Frame t b c) : Frame t a c :=
  ⟨fun u hu => (h'.others u hu).trans (h.others u hu), h'.aborted.trans h.aborted⟩

theorem frame_goto (t : Nat) (s : LibState T B) (pc : Pc) : Frame t s (s.goto t pc) :=
  ⟨fun u hu => by simp [LibState.goto, hu], rfl⟩

theorem goto_self (t : Nat) (s : LibState T B) (pc : Pc) :
    (s.goto t pc).threads t = { s.threads t with pc := pc } := by simp [LibState.goto]

/-- The spherical harmonic loop runs to its end. -/
theorem run_rshFill (t : Nat) : ∀ (n L : Nat) (s : LibState T B), L + n = 41 → s.aborted = false →
    (s.threads t).pc = .rshFill L → ∃ s', RunsAlone tab row t s s' ∧ Frame t s s' ∧
      s'.threads t = { s.threads t with pc := .rshSetLmax } ∧ s'.flag = s.flag ∧ s'.lock = s.lock ∧ s'.resets = s.resets
  | 0, L, s, hL, ha, hpc => by
    refine ⟨s.goto t .rshSetLmax, .step ?_ (.refl _), frame_goto _ _ _, goto_self _ _ _, rfl, rfl, rfl⟩
    simp only [LibState.step, hpc]
    rw [if_neg (by simp [ha]), if_neg (by omega)]
  | n + 1, L, s, hL, ha, hpc => by
    let sN : LibState T B := { s with
        rsh := Function.update s.rsh L (some (tab L))
        rshBuilds := Function.update s.rshBuilds L (s.rshBuilds L + 1) }.goto t (.rshFill (L + 1))
    obtain ⟨s', h1, h2, h3, h4, h5, h6⟩ := run_rshFill t n (L + 1) sN
      (by omega) ha (by show (LibState.threads (LibState.goto _ t _) t).pc = _; rw [goto_self])
    refine ⟨s', .step ?_ h1, Frame.trans (Frame.mk (s' := sN) (fun u hu => ?_) rfl) h2, ?_, h4, h5, h6⟩
    · simp only [LibState.step, hpc]
      rw [if_neg (by simp [ha]), if_pos (by omega)]
    · simp [sN, LibState.goto, hu]
    · rw [h3]; simp [sN, LibState.goto]

/-- The Bessel loop runs to its end. -/
theorem run_besselFill (t : Nat) : ∀ (n i : Nat) (s : LibState T B), i + n = 1601 → s.aborted = false →
    (s.threads t).pc = .besselFill i → ∃ s', RunsAlone tab row t s s' ∧ Frame t s s' ∧
      s'.threads t = { s.threads t with pc := .initSet } ∧ s'.lock = s.lock ∧ s'.resets = s.resets
  | 0, i, s, hi, ha, hpc => by
    refine ⟨s.goto t .initSet, .step ?_ (.refl _), frame_goto _ _ _, goto_self _ _ _, rfl, rfl⟩
    simp only [LibState.step, hpc]
    rw [if_neg (by simp [ha]), if_neg (by omega)]
  | n + 1, i, s, hi, ha, hpc => by
    let sN : LibState T B := { s with
        bessel := Function.update s.bessel i (some (row i))
        besselBuilds := Function.update s.besselBuilds i (s.besselBuilds i + 1) }.goto t (.besselFill (i + 1))
    obtain ⟨s', h1, h2, h3, h5, h6⟩ := run_besselFill t n (i + 1) sN
      (by omega) ha (by show (LibState.threads (LibState.goto _ t _) t).pc = _; rw [goto_self])
    refine ⟨s', .step ?_ h1, Frame.trans (Frame.mk (s' := sN) (fun u hu => ?_) rfl) h2, ?_, h5, h6⟩
    · simp only [LibState.step, hpc]
      rw [if_neg (by simp [ha]), if_pos (by omega)]
    · simp [sN, LibState.goto, hu]
    · rw [h3]; simp [sN, LibState.goto]

/-- From the assertion of the flag, a thread owning the lock in `libgrpp_init` reaches the first Bessel row. -/
theorem run_to_bessel (t : Nat) (s : LibState T B) (ha : s.aborted = false) (hpc : (s.threads t).pc = .initTest)
    (hf : s.flag = 0) (hl : s.lmax = -1 ∨ s.lmax = 40) : ∃ s', RunsAlone tab row t s s' ∧ Frame t s s' ∧
      s'.threads t = { s.threads t with pc := .besselFill 0 } ∧ s'.lock = s.lock ∧ s'.resets = s.resets := by
  have e1 : s.step tab row t = some (s.goto t .rshTest) := by
    simp only [LibState.step, hpc]
    rw [if_neg (by simp [ha]), if_pos hf]
  rcases hl with hl | hl
  · have e2 : (s.goto t .rshTest).step tab row t = some ((s.goto t .rshTest).goto t .rshRealloc) := by
      have hp : ((s.goto t .rshTest).threads t).pc = .rshTest := by rw [goto_self]
      simp only [LibState.step, hp]
      rw [if_neg (by simp [LibState.goto, ha]), if_neg (by simp [LibState.goto, hl])]
    let s2 := (s.goto t .rshTest).goto t .rshRealloc
    let s3 : LibState T B := { s2 with
      rsh := fun L => if (L : Int) ≤ s2.lmax then s2.rsh L else none
      reallocs := s2.reallocs + 1 }.goto t (.rshFill (s2.lmax + 1).toNat)
    have e3 : s2.step tab row t = some s3 := by
      have hp : (s2.threads t).pc = .rshRealloc := by show (((s.goto t .rshTest).goto t .rshRealloc).threads t).pc = _; rw [goto_self]
      simp only [LibState.step, hp]
      rw [if_neg (show ¬ s2.aborted = true from fun h => by rw [show s2.aborted = false from ha] at h; exact Bool.noConfusion h)]
    have hlm : (s2.lmax + 1).toNat = 0 := by show (s.lmax + 1).toNat = 0; rw [hl]; rfl
    obtain ⟨s4, r4, f4, t4, g4, l4, n4⟩ := run_rshFill (tab := tab) (row := row) t 41 0 s3 rfl ha
      (by show (s3.threads t).pc = _; rw [goto_self, hlm])
    have e5 : s4.step tab row t = some ({ s4 with lmax := 40 }.goto t (.besselFill 0)) := by
      have hp : (s4.threads t).pc = .rshSetLmax := by rw [t4]
      have : s4.aborted = false := f4.aborted.trans ha
      simp only [LibState.step, hp]
      rw [if_neg (by simp [this])]
    refine ⟨_, (RunsAlone.step e1 (.step e2 (.step e3 (.refl _)))).trans (r4.trans (.step e5 (.refl _))), ?_, ?_, ?_, ?_⟩
    · refine Frame.trans (b := s3) ⟨fun u hu => ?_, rfl⟩ (f4.trans ⟨fun u hu => ?_, rfl⟩)
      · simp [s3, s2, LibState.goto, hu]
      · simp [LibState.goto, hu]
    · rw [goto_self]
      simp [t4, s3, s2, LibState.goto]
    · exact l4
    · exact n4
  · have e2 : (s.goto t .rshTest).step tab row t = some ((s.goto t .rshTest).goto t (.besselFill 0)) := by
      have hp : ((s.goto t .rshTest).threads t).pc = .rshTest := by rw [goto_self]
      simp only [LibState.step, hp]
      rw [if_neg (by simp [LibState.goto, ha]), if_pos (by simp [LibState.goto, hl])]
    refine ⟨_, .step e1 (.step e2 (.refl _)), (frame_goto _ _ _).trans (frame_goto _ _ _), ?_, rfl, rfl⟩
    rw [goto_self, goto_self]

/-- A whole uninterrupted call of `libgrpp_init` on a library that is not initialised. -/
theorem run_init (t : Nat) (s : LibState T B) (rest : List LibCall) (ha : s.aborted = false)
    (hpc : (s.threads t).pc = .idle) (htodo : (s.threads t).todo = .init :: rest) (hlock : s.lock = none)
    (hf : s.flag = 0) (hl : s.lmax = -1 ∨ s.lmax = 40) : ∃ s', RunsAlone tab row t s s' ∧ Frame t s s' ∧
      (s'.threads t).pc = .idle ∧ (s'.threads t).todo = rest ∧ s'.lock = none ∧ s'.flag = 1 ∧ s'.resets = s.resets := by
  let s1 : LibState T B := { s with threads := Function.update s.threads t { s.threads t with pc := .initEnter, todo := rest } }
  have e1 : s.step tab row t = some s1 := by
    simp only [LibState.step, hpc, htodo]
    rw [if_neg (by simp [ha])]; rfl
  let s2 : LibState T B := { s1 with lock := some t }.goto t .initTest
  have e2 : s1.step tab row t = some s2 := by
    have hp : (s1.threads t).pc = .initEnter := by simp [s1]
    simp only [LibState.step, hp]
    rw [if_neg (show ¬ s1.aborted = true from fun h => by rw [show s1.aborted = false from ha] at h; exact Bool.noConfusion h), if_pos (show s1.lock = none from hlock)]
  obtain ⟨s3, r3, f3, t3, l3, n3⟩ := run_to_bessel (tab := tab) (row := row) t s2 ha (by simp [s2, LibState.goto]) hf hl
  obtain ⟨s4, r4, f4, t4, l4, n4⟩ := run_besselFill (tab := tab) (row := row) t 1601 0 s3 rfl (f3.aborted.trans ha) (by rw [t3])
  have ha4 : s4.aborted = false := f4.aborted.trans (f3.aborted.trans ha)
  let s5 : LibState T B := { s4 with flag := 1 }.goto t .initLeave
  have e5 : s4.step tab row t = some s5 := by
    have hp : (s4.threads t).pc = .initSet := by rw [t4]
    simp only [LibState.step, hp]
    rw [if_neg (by simp [ha4])]
  let s6 : LibState T B := { s5 with
      lock := none
      threads := Function.update s5.threads t
        { s5.threads t with pc := .idle, inits := (s5.threads t).inits + 1 } }
  have e6 : s5.step tab row t = some s6 := by
    have hp : (s5.threads t).pc = .initLeave := by simp [s5, LibState.goto]
    simp only [LibState.step, hp]
    rw [if_neg (show ¬ s5.aborted = true from fun h => by rw [show s5.aborted = false from ha4] at h; exact Bool.noConfusion h)]
  refine ⟨s6, (RunsAlone.step e1 (.step e2 (.refl _))).trans (r3.trans (r4.trans (.step e5 (.step e6 (.refl _))))), ?_, ?_, ?_, rfl, rfl, ?_⟩
  · refine Frame.trans (b := s2) ⟨fun u hu => ?_, rfl⟩ (f3.trans (f4.trans ⟨fun u hu => ?_, rfl⟩))
    · simp [s2, s1, LibState.goto, hu]
    · simp [s6, s5, LibState.goto, hu]
  · simp [s6]
  · simp [s6, s5, LibState.goto, t4, t3, s2, s1]
  · exact n4.trans n3

/-- A whole uninterrupted call of `libgrpp_finalize` on an initialised library. -/
theorem run_finalize (t : Nat) (s : LibState T B) (rest : List LibCall) (ha : s.aborted = false)
    (hpc : (s.threads t).pc = .idle) (htodo : (s.threads t).todo = .finalize :: rest) (hlock : s.lock = none)
    (hf : s.flag = 1) : ∃ s', RunsAlone tab row t s s' ∧ Frame t s s' ∧
      (s'.threads t).pc = .idle ∧ (s'.threads t).todo = rest ∧ s'.lock = none ∧ s'.flag = 0 ∧
      s'.resets = s.resets + 1 ∧ s'.lmax = s.lmax := by
  let s1 : LibState T B := { s with threads := Function.update s.threads t { s.threads t with pc := .finEnter, todo := rest } }
  have e1 : s.step tab row t = some s1 := by
    simp only [LibState.step, hpc, htodo]
    rw [if_neg (by simp [ha])]; rfl
  let s2 : LibState T B := { s1 with lock := some t }.goto t .finTest
  have e2 : s1.step tab row t = some s2 := by
    have hp : (s1.threads t).pc = .finEnter := by simp [s1]
    simp only [LibState.step, hp]
    rw [if_neg (show ¬ s1.aborted = true from fun h => by rw [show s1.aborted = false from ha] at h; exact Bool.noConfusion h), if_pos (show s1.lock = none from hlock)]
  let s3 : LibState T B := s2.goto t .finSet
  have e3 : s2.step tab row t = some s3 := by
    have hp : (s2.threads t).pc = .finTest := by simp [s2, LibState.goto]
    simp only [LibState.step, hp]
    rw [if_neg (show ¬ s2.aborted = true from fun h => by rw [show s2.aborted = false from ha] at h; exact Bool.noConfusion h), if_pos (show s2.flag = 1 from hf)]
  let s4 : LibState T B := { s3 with flag := 0, resets := s3.resets + 1 }.goto t .finLeave
  have e4 : s3.step tab row t = some s4 := by
    have hp : (s3.threads t).pc = .finSet := by simp [s3, LibState.goto]
    simp only [LibState.step, hp]
    rw [if_neg (show ¬ s3.aborted = true from fun h => by rw [show s3.aborted = false from ha] at h; exact Bool.noConfusion h)]
  let s5 : LibState T B := { s4 with lock := none }.goto t .idle
  have e5 : s4.step tab row t = some s5 := by
    have hp : (s4.threads t).pc = .finLeave := by simp [s4, LibState.goto]
    simp only [LibState.step, hp]
    rw [if_neg (show ¬ s4.aborted = true from fun h => by rw [show s4.aborted = false from ha] at h; exact Bool.noConfusion h)]
  refine ⟨s5, .step e1 (.step e2 (.step e3 (.step e4 (.step e5 (.refl _))))), ⟨fun u hu => ?_, rfl⟩, ?_, ?_, rfl, rfl, rfl, rfl⟩
  · simp [s5, s4, s3, s2, s1, LibState.goto, hu]
  · simp [s5, LibState.goto]
  · simp [s5, s4, s3, s2, s1, LibState.goto]

end Libgrpp
