import Verif.Lemmas.Init

/-! # C39: initialisation under concurrency

Any number of threads (indexed by `Nat`), any programs, any schedule; memory sequentially consistent. `tab L` and
`row i` are the contents the builders compute for one table and one row. -/

namespace Libgrpp

variable {T B : Type} {tab : Nat → T} {row : Nat → B}

/-- C39. Whenever the library reports itself initialised, or has done so to some thread, or some `libgrpp_init` has
returned, all tables exist with the right contents, also after later calls of `libgrpp_finalize`. -/
theorem init_reported_tables_exist {progs : Nat → List LibCall} {s : LibState T B}
    (h : LibState.Reachable tab row progs s)
    (hr : s.flag ≠ 0 ∨ (∃ t v, .reported v ∈ (s.threads t).seen ∧ v ≠ 0) ∨ ∃ t, 0 < (s.threads t).inits) :
    (∀ L, L ≤ 40 → s.getRsh L = some (tab L)) ∧ ∀ i, i ≤ 1600 → s.bessel i = some (row i) := by
  have hi := reachable_inv h
  have ready : s.Ready tab row := by
    rcases hr with hf | ⟨t, v, hv, hne⟩ | ⟨t, ht⟩
    · exact ready_of_flag hi hf
    · exact hi.seen t _ hv hne
    · exact hi.inited t ht
  refine ⟨fun L hL => ?_, ready.2.2⟩
  rw [LibState.getRsh, if_neg (by rw [ready.1]; omega), ready.2.1 L hL]

/-- C39. Whatever the other threads do (including `libgrpp_finalize` and a new `libgrpp_init` in the meantime), an
integral routine that passed its assertion reads correct tables. -/
theorem integral_reads_right_tables {progs : Nat → List LibCall} {s : LibState T B}
    (h : LibState.Reachable tab row progs s) (t : Nat) :
    (∀ L v, L ≤ 40 → .rsh L v ∈ (s.threads t).seen → v = some (tab L)) ∧
    ∀ i v, i ≤ 1600 → .bessel i v ∈ (s.threads t).seen → v = some (row i) :=
  ⟨fun _ _ hL hv => (reachable_inv h).seen t _ hv hL, fun _ _ hi hv => (reachable_inv h).seen t _ hv hi⟩

/-- C39. The spherical harmonic tables are built at most once in the life of the process, the pointer table is
reallocated at most once; the Bessel table is built at most once more than the number of times the flag was reset. -/
theorem tables_built_at_most_once_partial {progs : Nat → List LibCall} {s : LibState T B}
    (h : LibState.Reachable tab row progs s) :
    (∀ L, s.rshBuilds L ≤ 1) ∧ s.reallocs ≤ 1 ∧ (∀ i, s.besselBuilds i ≤ s.resets + 1) ∧
    ((∀ t, LibCall.finalize ∉ progs t) → ∀ i, s.besselBuilds i ≤ 1) := by
  have hi := reachable_inv h
  have main : (∀ L, s.rshBuilds L ≤ 1) ∧ s.reallocs ≤ 1 ∧ ∀ i, s.besselBuilds i ≤ s.resets + 1 := by
    have hfill : ∀ n, s.Filling tab n → (∀ L, s.rshBuilds L ≤ 1) ∧ s.reallocs ≤ 1 ∧ ∀ i, s.besselBuilds i ≤ s.resets + 1 := by
      rintro n ⟨_, _, _, _, h4, _, h6, h7⟩
      refine ⟨fun L => ?_, Nat.le_of_eq h4, fun i => ?_⟩
      · rw [h6]; split <;> omega
      · rw [h7]; omega
    have hpre : ∀ n, s.Pretab tab row n →
        (∀ L, s.rshBuilds L ≤ 1) ∧ s.reallocs ≤ 1 ∧ ∀ i, s.besselBuilds i ≤ s.resets + 1 := by
      rintro n ⟨_, _, _, h4, _, h6, _, h7, _⟩
      refine ⟨fun L => ?_, Nat.le_of_eq h4, fun i => ?_⟩
      · rw [h6]; split <;> omega
      · rw [h7]; split
        · omega
        · split <;> omega
    have hfresh : s.Fresh → (∀ L, s.rshBuilds L ≤ 1) ∧ s.reallocs ≤ 1 ∧ ∀ i, s.besselBuilds i ≤ s.resets + 1 := by
      rintro ⟨_, _, _, h4, h5, h6⟩
      exact ⟨fun L => by rw [h5]; omega, by omega, fun i => by rw [h6]; omega⟩
    have hdone : s.Done tab row → (∀ L, s.rshBuilds L ≤ 1) ∧ s.reallocs ≤ 1 ∧ ∀ i, s.besselBuilds i ≤ s.resets + 1 := by
      rintro ⟨_, hf, h4, h5, h6⟩
      refine ⟨fun L => ?_, Nat.le_of_eq h4, fun i => ?_⟩
      · rw [h5]; split <;> omega
      · rw [h6]; split <;> omega
    have hfree : s.FreeInv tab row → _ := fun h => h.elim hfresh hdone
    cases hl : s.lock with
    | none => exact hfree (hi.free hl)
    | some u =>
      have ho := hi.owner u hl
      have hcr := (hi.crit u).2 hl
      cases hp : (s.threads u).pc <;> rw [hp] at ho hcr
      case initTest => exact hfree ho
      case finTest => exact hfree ho
      case finLeave => exact hfree ho
      case initLeave => exact hdone ho.1
      case finSet => exact hdone ho.1
      case rshTest => exact hfree ho.1
      case rshRealloc => exact hfresh ho
      case rshFill => exact hfill _ ho
      case rshSetLmax => exact hfill _ ho
      case besselFill => exact hpre _ ho
      case initSet => exact hpre _ ho
      all_goals exact Bool.noConfusion hcr
  refine ⟨main.1, main.2.1, main.2.2, fun hn i => ?_⟩
  have := main.2.2 i
  rw [(reachable_nofin hn h).resets] at this
  exact this

/-- A thread that initialises, finalises and initialises again; the other threads do nothing. -/
def reinitProgs : Nat → List LibCall
  | 0 => [.init, .finalize, .init]
  | _ => []

/-- C39 is false as stated: after `init`, `finalize`, `init` every row of the Bessel table has been built twice. -/
theorem bessel_table_rebuilt : ∃ s : LibState T B, LibState.Reachable tab row reinitProgs s ∧
    s.flag = 1 ∧ ∀ i, i ≤ 1600 → s.besselBuilds i = 2 := by
  obtain ⟨s1, r1, f1, p1, t1, l1, g1, n1⟩ := run_init (tab := tab) (row := row) 0 (LibState.start reinitProgs) _ rfl rfl rfl rfl rfl (Or.inl rfl)
  obtain ⟨s2, r2, f2, p2, t2, l2, g2, n2, m2⟩ := run_finalize (tab := tab) (row := row) 0 s1 _ (f1.aborted.trans rfl) p1 t1 l1 g1
  have R1 := r1.reachable (progs := reinitProgs) .start
  have hm : s2.lmax = 40 := by rw [m2]; exact (ready_of_flag (reachable_inv R1) (by rw [g1]; omega)).1
  obtain ⟨s3, r3, f3, p3, t3, l3, g3, n3⟩ := run_init (tab := tab) (row := row) 0 s2 _ (f2.aborted.trans (f1.aborted.trans rfl)) p2 t2 l2 g2
    (Or.inr hm)
  have R3 := r3.reachable (r2.reachable R1)
  refine ⟨s3, R3, g3, fun i hi => ?_⟩
  rcases (reachable_inv R3).free l3 with hd | hd
  · rw [hd.2.1] at g3; omega
  · have := hd.2.2.2.2 i
    rw [this, if_pos hi, n3, n2, n1, g3]; rfl

/-- C39. No deadlock: as long as some thread has something to do (and the process was not aborted by a failed
assertion), some thread can move. -/
theorem init_no_deadlock {progs : Nat → List LibCall} {s : LibState T B} (h : LibState.Reachable tab row progs s)
    (ha : s.aborted = false) (t : Nat) (ht : (s.threads t).pc ≠ .idle ∨ (s.threads t).todo ≠ []) :
    ∃ u, (s.step tab row u).isSome = true := by
  have hi := reachable_inv h
  cases hl : s.lock with
  | none =>
    refine ⟨t, step_isSome ha t ?_ (fun _ => hl)⟩
    rintro ⟨h1, h2⟩
    exact ht.elim (fun x => x h1) (fun x => x h2)
  | some u =>
    have hc := (hi.crit u).2 hl
    refine ⟨u, step_isSome ha u ?_ ?_⟩
    · rintro ⟨h1, _⟩; rw [h1] at hc; exact Bool.noConfusion hc
    · rintro (h1 | h1) <;> rw [h1] at hc <;> exact Bool.noConfusion hc

/-- C39. At most one thread at a time is inside `libgrpp_init` / `libgrpp_finalize` past the entry of the critical
block; in particular two threads never build tables at the same time. -/
theorem init_mutual_exclusion {progs : Nat → List LibCall} {s : LibState T B}
    (h : LibState.Reachable tab row progs s) {t u : Nat}
    (ht : ∃ v, (v, true) ∈ (s.threads t).pc.accesses) (hu : ∃ v, (v, true) ∈ (s.threads u).pc.accesses) : t = u := by
  have hi := reachable_inv h
  have hw : ∀ p : Pc, (∃ v, (v, true) ∈ p.accesses) → p.inCrit = true := by
    rintro p ⟨v, hv⟩
    cases p <;> first | rfl | skip
    case idle => simp [Pc.accesses] at hv
    case initEnter => simp [Pc.accesses] at hv
    case finEnter => simp [Pc.accesses] at hv
    case queryRead => simp [Pc.accesses] at hv
    case intAssert => simp [Pc.accesses] at hv
    case intRead rs =>
      cases rs with
      | nil => simp [Pc.accesses] at hv
      | cons r rs => cases r <;> simp [Pc.accesses] at hv
  have e1 := (hi.crit t).1 (hw _ ht)
  have e2 := (hi.crit u).1 (hw _ hu)
  rw [e1] at e2
  exact Option.some.inj e2

/-- C39. If no thread calls `libgrpp_finalize` and every thread calls `libgrpp_init` before its first integral call,
no assertion ever fails. -/
theorem init_first_never_aborts {progs : Nat → List LibCall} {s : LibState T B}
    (hn : ∀ t, LibCall.finalize ∉ progs t)
    (hf : ∀ t pre rs post, progs t = pre ++ .integral rs :: post → .init ∈ pre)
    (h : LibState.Reachable tab row progs s) : s.aborted = false :=
  (reachable_guarded hn hf h).2

/-- C39. Without `libgrpp_finalize` no two threads are ever about to access the same table (or `rsh_tables_lmax`, or
the pointer table) with one of them writing. -/
theorem tables_race_free_partial {progs : Nat → List LibCall} {s : LibState T B}
    (hn : ∀ t, LibCall.finalize ∉ progs t) (h : LibState.Reachable tab row progs s) {v : LibVar} (hv : v ≠ .flag) :
    ¬ s.Races v := by
  rintro ⟨_, t, u, htu, hw, w, hr⟩
  have hi := reachable_inv h
  have nf := reachable_nofin hn h
  have hcr : (s.threads t).pc.inCrit = true ∧ s.flag = 0 := by
    have ho := hi.owner t
    have hc := hi.crit t
    cases hp : (s.threads t).pc <;> rw [hp] at hw ho hc
    case rshRealloc => exact ⟨rfl, (ho (hc.1 rfl)).2.1⟩
    case rshFill => exact ⟨rfl, (ho (hc.1 rfl)).2.2.1⟩
    case rshSetLmax => exact ⟨rfl, (ho (hc.1 rfl)).2.2.1⟩
    case besselFill => exact ⟨rfl, (ho (hc.1 rfl)).2.2.1⟩
    case intRead rs =>
      cases rs with
      | nil => simp [Pc.accesses] at hw
      | cons r rs => cases r <;> simp [Pc.accesses] at hw
    all_goals simp [Pc.accesses] at hw
    all_goals exact absurd hw hv
  have hlt := (hi.crit t).1 hcr.1
  have hnc : (s.threads u).pc.inCrit ≠ true := fun hc => by
    have := (hi.crit u).1 hc
    rw [hlt] at this
    exact htu (Option.some.inj this)
  cases hp : (s.threads u).pc <;> rw [hp] at hr hnc
  case intRead rs =>
    have := nf.reading u rs hp
    rw [hcr.2] at this; omega
  all_goals first
    | exact hnc rfl
    | (simp [Pc.accesses] at hr; try exact absurd hr.1 hv)

/-- One thread initialises, another one asks whether the library is initialised. -/
def queryProgs : Nat → List LibCall
  | 0 => [.init]
  | 1 => [.query]
  | _ => []

/-- C39 is false as stated: `libgrpp_is_initialized` reads the flag outside the critical section, so it races with the
write in `libgrpp_init`. -/
theorem init_flag_race : ∃ s : LibState T B, LibState.Reachable tab row queryProgs s ∧ s.Races .flag := by
  let s0 : LibState T B := LibState.start queryProgs
  let s1 : LibState T B := { s0 with threads := Function.update s0.threads 0 { s0.threads 0 with pc := .initEnter, todo := [] } }
  have e1 : s0.step tab row 0 = some s1 := rfl
  let s2 : LibState T B := { s1 with lock := some 0 }.goto 0 .initTest
  have e2 : s1.step tab row 0 = some s2 := rfl
  obtain ⟨s3, r3, f3, t3, l3, n3⟩ := run_to_bessel (tab := tab) (row := row) 0 s2 rfl rfl rfl (Or.inl rfl)
  obtain ⟨s4, r4, f4, t4, l4, n4⟩ := run_besselFill (tab := tab) (row := row) 0 1601 0 s3 rfl (f3.aborted.trans rfl) (by rw [t3])
  have h1 : s4.threads 1 = ⟨.idle, [.query], 0, []⟩ := by
    rw [f4.others 1 (by omega), f3.others 1 (by omega)]; rfl
  have ha : s4.aborted = false := f4.aborted.trans (f3.aborted.trans rfl)
  let s5 : LibState T B := { s4 with threads := Function.update s4.threads 1 ⟨.queryRead, [], 0, []⟩ }
  have e5 : s4.step tab row 1 = some s5 := by
    have hp : (s4.threads 1).pc = .idle := by rw [h1]
    have ht : (s4.threads 1).todo = [.query] := by rw [h1]
    simp only [LibState.step, hp, ht]
    rw [if_neg (by simp [ha])]
    simp only [h1]; rfl
  refine ⟨s5, .step 1 (r4.reachable (r3.reachable (.step 0 (.step 0 .start e1) e2))) e5, ha, 0, 1, by omega, ?_, false, ?_⟩
  · have : (s5.threads 0).pc = .initSet := by simp [s5, t4]
    rw [this]; simp [Pc.accesses]
  · have : (s5.threads 1).pc = .queryRead := by simp [s5]
    rw [this]; simp [Pc.accesses]

/-- One thread re-initialises the library while another one is inside an integral routine. -/
def reinitReadProgs : Nat → List LibCall
  | 0 => [.init, .finalize, .init]
  | 1 => [.integral [.bessel 0]]
  | _ => []

/-- C39. With `libgrpp_finalize` in play the rebuilt Bessel table races with an integral routine still reading it. -/
theorem bessel_table_race : ∃ s : LibState T B, LibState.Reachable tab row reinitReadProgs s ∧ s.Races (.besselRow 0) := by
  obtain ⟨s1, r1, f1, p1, t1, l1, g1, n1⟩ :=
    run_init (tab := tab) (row := row) 0 (LibState.start reinitReadProgs) _ rfl rfl rfl rfl rfl (Or.inl rfl)
  have R1 := r1.reachable (progs := reinitReadProgs) .start
  have h1 : s1.threads 1 = ⟨.idle, [.integral [.bessel 0]], 0, []⟩ := by rw [f1.others 1 (by omega)]; rfl
  have ha1 : s1.aborted = false := f1.aborted.trans rfl
  let s2 : LibState T B := { s1 with threads := Function.update s1.threads 1 ⟨.intAssert [.bessel 0], [], 0, []⟩ }
  have e2 : s1.step tab row 1 = some s2 := by
    have hp : (s1.threads 1).pc = .idle := by rw [h1]
    have ht : (s1.threads 1).todo = [.integral [.bessel 0]] := by rw [h1]
    simp only [LibState.step, hp, ht]
    rw [if_neg (by simp [ha1])]
    simp only [h1]; rfl
  let s3 : LibState T B := s2.goto 1 (.intRead [.bessel 0])
  have e3 : s2.step tab row 1 = some s3 := by
    have hp : (s2.threads 1).pc = .intAssert [.bessel 0] := by simp [s2]
    have ha2 : s2.aborted = false := ha1
    have hf2 : s2.flag ≠ 0 := by show s1.flag ≠ 0; rw [g1]; omega
    simp only [LibState.step, hp]
    rw [if_neg (by simp [ha2]), if_pos hf2]
  have R3 : LibState.Reachable tab row reinitReadProgs s3 := .step 1 (.step 1 R1 e2) e3
  have h30 : s3.threads 0 = s1.threads 0 := by simp [s3, s2, LibState.goto]
  obtain ⟨s4, r4, f4, p4, t4, l4, g4, n4, m4⟩ := run_finalize (tab := tab) (row := row) 0 s3 [.init] ha1
    (by rw [h30]; exact p1) (by rw [h30]; exact t1) l1 g1
  have R4 := r4.reachable R3
  have ha4 : s4.aborted = false := f4.aborted.trans ha1
  have hm : s4.lmax = 40 := by rw [m4]; exact (ready_of_flag (reachable_inv R1) (by rw [g1]; omega)).1
  let s5 : LibState T B := { s4 with threads := Function.update s4.threads 0 { s4.threads 0 with pc := .initEnter, todo := [] } }
  have e5 : s4.step tab row 0 = some s5 := by
    simp only [LibState.step, p4, t4]
    rw [if_neg (by simp [ha4])]; rfl
  let s6 : LibState T B := { s5 with lock := some 0 }.goto 0 .initTest
  have e6 : s5.step tab row 0 = some s6 := by
    have hp : (s5.threads 0).pc = .initEnter := by simp [s5]
    have ha5 : s5.aborted = false := ha4
    have hl5 : s5.lock = none := l4
    simp only [LibState.step, hp]
    rw [if_neg (by simp [ha5]), if_pos hl5]
  obtain ⟨s7, r7, f7, t7, l7, n7⟩ := run_to_bessel (tab := tab) (row := row) 0 s6 ha4
    (by simp [s6, LibState.goto]) g4 (Or.inr hm)
  refine ⟨s7, r7.reachable (.step 0 (.step 0 R4 e5) e6), f7.aborted.trans ha4, 0, 1, by omega, ?_, false, ?_⟩
  · have : (s7.threads 0).pc = .besselFill 0 := by rw [t7]
    rw [this]; simp [Pc.accesses]
  · have : (s7.threads 1).pc = .intRead [.bessel 0] := by
      rw [f7.others 1 (by omega)]
      have : s6.threads 1 = s4.threads 1 := by simp [s6, s5, LibState.goto]
      rw [this, f4.others 1 (by omega)]
      simp [s3, LibState.goto]
    rw [this]; simp [Pc.accesses]

/-- The premises of the theorems above are met by real executions: one uninterrupted initialisation sets the flag. -/
example : ∃ s : LibState Nat Nat, LibState.Reachable (fun L => L) (fun i => i) queryProgs s ∧ s.flag ≠ 0 ∧
    s.getRsh 7 = some 7 ∧ s.bessel 1600 = some 1600 ∧ s.besselBuilds 3 = 1 := by
  obtain ⟨s1, r1, f1, p1, t1, l1, g1, n1⟩ := run_init (tab := fun L => L) (row := fun i => i) 0
    (LibState.start queryProgs : LibState Nat Nat) _ rfl rfl rfl rfl rfl (Or.inl rfl)
  have R1 := r1.reachable (progs := queryProgs) .start
  have hf : s1.flag ≠ 0 := by rw [g1]; omega
  have := init_reported_tables_exist R1 (Or.inl hf)
  refine ⟨s1, R1, hf, this.1 7 (by omega), this.2 1600 (by omega), ?_⟩
  rcases (reachable_inv R1).free l1 with hd | hd
  · exact absurd hd.2.1 hf
  · rw [hd.2.2.2.2 3, if_pos (by omega), n1, g1]; rfl

/-- The premises of `init_first_never_aborts` hold for two threads that both initialise and then compute. -/
example : (∀ t, LibCall.finalize ∉ (fun t : Nat => if t < 2 then [LibCall.init, .integral [.rsh 3]] else []) t) ∧
    ∀ (t : Nat) pre rs post, (fun t : Nat => if t < 2 then [LibCall.init, .integral [.rsh 3]] else []) t =
      pre ++ .integral rs :: post → LibCall.init ∈ pre := by
  constructor
  · intro t; dsimp only; split <;> simp
  · intro t pre rs post h
    dsimp only at h
    split at h
    · cases pre with
      | nil => simp at h
      | cons a pre => simp at h; rw [← h.1]; exact List.mem_cons_self
    · simp at h

/-- Without the premise the assertion does fail: an integral call before initialisation aborts the process. -/
example : ∃ s : LibState Nat Nat, LibState.Reachable (fun L => L) (fun i => i)
    (fun _ => [LibCall.integral []]) s ∧ s.aborted = true := by
  let s0 : LibState Nat Nat := LibState.start fun _ => [LibCall.integral []]
  let s1 : LibState Nat Nat := { s0 with threads := Function.update s0.threads 0 ⟨.intAssert [], [], 0, []⟩ }
  exact ⟨{ s1 with aborted := true }, .step (s := s1) 0 (.step (s := s0) 0 .start rfl) rfl, rfl⟩

end Libgrpp
