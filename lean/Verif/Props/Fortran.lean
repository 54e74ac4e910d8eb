import Verif.Lemmas.Fortran
import Verif.Props.OneElectron
import Verif.Props.Norm
import Verif.Lemmas.Type1

/-! # C58, C85: the Fortran interface -/

namespace Libgrpp

open MeasureTheory
open scoped Nat

/-- The shell the C interface makes of the same arguments. -/
noncomputable def FShell.make (gen : Nat → List Comp) (a : FShell) : Outcome Shell := newShell gen a.origin a.L a.num a.coeffs a.alpha

/-- The potential the C interface makes of the same arguments. -/
noncomputable def FPot.make (L J : Int) (u : FPot) : Outcome Potential := newPotential L J u.num u.powers u.coeffs u.alpha

/-- `x`, called with the store `h`, has the outcome of `y` in every case; when it returns, the memory is as before and every block allocated in
between has been released exactly once. -/
def Forwards {α : Type} (h : Store) (x : Outcome (Store × α)) (y : Outcome α) : Prop :=
  ∃ h', Restored h h' ∧ x = (do let r ← y; .ok (h', r))

theorem forwards_shells {α : Type} (gen : Nat → List Comp) {h : Store} (hw : h.WF) (a b : FShell) (f : Shell → Shell → Outcome α) :
    Forwards h (withShells gen h a b (onShells f)) (do let A ← a.make gen; let B ← b.make gen; f A B) := by
  obtain ⟨h', m, e⟩ := withShells_holds gen hw (Holds.refl h) a b (onShells f) f
    (fun A B s t h1 m => ⟨h1, A, B, m, onShells_holds f m⟩)
  exact ⟨h', m.restored, by rw [e]; simp only [FShell.make, Outcome.bind_assoc]⟩

theorem forwards_pot {α : Type} (gen : Nat → List Comp) {h : Store} (hw : h.WF) (a b : FShell) (L J : Int) (u : FPot) (hu : u.num ≤ u.powers.length)
    (f : Shell → Shell → Potential → Outcome α) :
    Forwards h (withPot gen h a b L J u (onPot f)) (do let P ← u.make L J; let A ← a.make gen; let B ← b.make gen; f A B P) := by
  obtain ⟨h', m, e⟩ := withPot_holds gen hw (Holds.refl h) a b L J u hu (onPot f) f
    (fun A B P s t p own h1 hp m => ⟨h1, m, onPot_holds f hp m⟩)
  exact ⟨h', m.restored, by rw [e]; simp only [FShell.make, FPot.make, Outcome.bind_assoc]⟩

/-- **C58**, one-electron and nuclear attraction integrals. -/
theorem fortran_shells {G : Type} (gen : Nat → List Comp) (env : NucEnv G) (h : Store) (hw : h.WF) (a b : FShell) (C : Point) (charge : Int)
    (out : List ℝ) :
    Forwards h (ftnOverlap gen h a b out) (do let A ← a.make gen; let B ← b.make gen; overlapIntegrals A B out) ∧
    Forwards h (ftnKinetic gen h a b out) (do let A ← a.make gen; let B ← b.make gen; kineticIntegrals A B out) ∧
    (∀ m : Fin 3 → List ℝ, Forwards h (ftnMomentum gen h a b m) (do
      let A ← a.make gen
      let B ← b.make gen
      let x ← momentumIntegrals 0 A B (m 0)
      let y ← momentumIntegrals 1 A B (m 1)
      let z ← momentumIntegrals 2 A B (m 2)
      .ok ![x, y, z])) ∧
    (∀ model mp, Forwards h (ftnNuclear gen env h a b C charge model mp out)
      (do let A ← a.make gen; let B ← b.make gen; nuclearAttraction env A B C charge model mp out)) ∧
    Forwards h (ftnNuclearPoint gen env h a b C charge out) (do let A ← a.make gen; let B ← b.make gen; nucAttractionPoint env A B C charge out) ∧
    (∀ rms, Forwards h (ftnNuclearBall gen env h a b C charge rms out)
      (do let A ← a.make gen; let B ← b.make gen; nucAttractionBall env A B C charge rms out)) ∧
    (∀ rms, Forwards h (ftnNuclearGaussian gen env h a b C charge rms out)
      (do let A ← a.make gen; let B ← b.make gen; nucAttractionGaussian env A B C charge rms out)) ∧
    (∀ c w, Forwards h (ftnNuclearFermi gen env h a b C charge c w out)
      (do let A ← a.make gen; let B ← b.make gen; nucAttractionFermi env A B C charge c w out)) ∧
    (∀ c w k, Forwards h (ftnNuclearBubble gen env h a b C charge c w k out)
      (do let A ← a.make gen; let B ← b.make gen; nucAttractionBubble env A B C charge c w k out)) :=
  ⟨forwards_shells gen hw a b _, forwards_shells gen hw a b _, fun _ => forwards_shells gen hw a b _, fun _ _ => forwards_shells gen hw a b _,
    forwards_shells gen hw a b _, fun _ => forwards_shells gen hw a b _, fun _ => forwards_shells gen hw a b _,
    fun _ _ => forwards_shells gen hw a b _, fun _ _ _ => forwards_shells gen hw a b _⟩

/-- **C58**, integrals over potentials. The array of powers has `num` elements. -/
theorem fortran_potentials {G : Type} (gen : Nat → List Comp) (sf : SpecFun) (init : Bool) (lib : Lib G) (h : Store) (hw : h.WF) (a b : FShell)
    (C : Point) (L : Int) (u : FPot) (hu : u.num ≤ u.powers.length) (out : List ℝ) (m : LMat) :
    Forwards h (ftnType1 gen sf init h a b C u out)
      (do let P ← u.make 0 0; let A ← a.make gen; let B ← b.make gen; type1Integrals sf init A B C (some P) out) ∧
    Forwards h (ftnType2 lib h a b C L u out)
      (do let P ← u.make L 0; let A ← a.make lib.gen; let B ← b.make lib.gen; type2Integrals lib A B C P out) ∧
    Forwards h (ftnSpinOrbit lib h a b C L u m)
      (do let P ← u.make L 0; let A ← a.make lib.gen; let B ← b.make lib.gen; spinOrbitIntegrals lib A B C P m) :=
  ⟨forwards_pot gen hw a b 0 0 u hu _, forwards_pot lib.gen hw a b L 0 u hu _, forwards_pot lib.gen hw a b L 0 u hu _⟩

/-- **C58**, gradients. On the C side the caller creates the potential and the shells and calls the C routine. -/
theorem fortran_gradients (e : GradEnv) (h : Store) (hw : h.WF) (a b : FShell) (L : Int) (u : FPot) (hu : u.num ≤ u.powers.length)
    (grad : Fin 3 → List ℝ) (gradSO : Fin 3 × Fin 3 → List ℝ) :
    Forwards h (ftnType1Gradient e h a b u grad) (do
      let P ← u.make 0 0
      let A ← a.make e.gen
      let B ← b.make e.gen
      let r ← type1Gradient { e with A := A, B := B } (h.alloc (.pot P)).2 (some h.next) grad
      .ok r.2) ∧
    Forwards h (ftnType2Gradient e h a b L u grad) (do
      let P ← u.make L 0
      let A ← a.make e.gen
      let B ← b.make e.gen
      let r ← type2Gradient { e with A := A, B := B } (h.alloc (.pot P)).2 (some h.next) grad
      .ok r.2) ∧
    Forwards h (ftnSpinOrbitGradient e h a b L u gradSO) (do
      let P ← u.make L 0
      let A ← a.make e.gen
      let B ← b.make e.gen
      let r ← soGradient { e with A := A, B := B } (h.alloc (.pot P)).2 (some h.next) gradSO
      .ok r.2) := by
  have hwP : ∀ P, (h.alloc (.pot P)).2.WF := fun P => ((Holds.refl h).alloc (.pot P)).wf hw
  have hP : ∀ P, (h.alloc (.pot P)).2.mem h.next = some (.pot P) := fun P => ((Holds.refl h).alloc (.pot P)).get (List.mem_cons_self ..)
  refine ⟨?_, ?_, ?_⟩
  · obtain ⟨h', m, eq⟩ := withPot_holds e.gen hw (Holds.refl h) a b 0 0 u hu
      (fun h s t p => do
        let A ← derefShell h (some s)
        let B ← derefShell h (some t)
        type1Gradient { e with A := A, B := B } h (some p) grad)
      (fun A B P => do
        let r ← type1Gradient { e with A := A, B := B } (h.alloc (.pot P)).2 (some h.next) grad
        .ok r.2)
      (fun A B P s t p own h1 hp m => by
        obtain ⟨h2, r2, e2⟩ := type1_gradient_is_full { e with A := A, B := B } h1 (m.wf hw) (some p) (some P)
          (.inr ⟨p, P, rfl, m.get (by simp [hp]), rfl⟩) grad
        obtain ⟨h3, -, e3⟩ := type1_gradient_is_full { e with A := A, B := B } _ (hwP P) (some h.next) (some P) (.inr ⟨_, P, rfl, hP P, rfl⟩) grad
        refine ⟨h2, m.call r2, ?_⟩
        rw [m.shell (a := s) (s := A) (by simp), m.shell (a := t) (s := B) (by simp)]
        simp only [Outcome.ok_bind, e2, e3, Outcome.bind_assoc])
    exact ⟨h', m.restored, by unfold ftnType1Gradient; rw [eq]; simp only [FShell.make, FPot.make, Outcome.bind_assoc]⟩
  · obtain ⟨h', m, eq⟩ := withPot_holds e.gen hw (Holds.refl h) a b L 0 u hu
      (fun h s t p => do
        let A ← derefShell h (some s)
        let B ← derefShell h (some t)
        type2Gradient { e with A := A, B := B } h (some p) grad)
      (fun A B P => do
        let r ← type2Gradient { e with A := A, B := B } (h.alloc (.pot P)).2 (some h.next) grad
        .ok r.2)
      (fun A B P s t p own h1 hp m => by
        obtain ⟨h2, r2, e2⟩ := type2_gradient_is_full { e with A := A, B := B } h1 (m.wf hw) p P (m.get (by simp [hp])) grad
        obtain ⟨h3, -, e3⟩ := type2_gradient_is_full { e with A := A, B := B } _ (hwP P) h.next P (hP P) grad
        refine ⟨h2, m.call r2, ?_⟩
        rw [m.shell (a := s) (s := A) (by simp), m.shell (a := t) (s := B) (by simp)]
        simp only [Outcome.ok_bind, e2, e3, Outcome.bind_assoc])
    exact ⟨h', m.restored, by unfold ftnType2Gradient; rw [eq]; simp only [FShell.make, FPot.make, Outcome.bind_assoc]⟩
  · obtain ⟨h', m, eq⟩ := withPot_holds e.gen hw (Holds.refl h) a b L 0 u hu
      (fun h s t p => do
        let A ← derefShell h (some s)
        let B ← derefShell h (some t)
        soGradient { e with A := A, B := B } h (some p) gradSO)
      (fun A B P => do
        let r ← soGradient { e with A := A, B := B } (h.alloc (.pot P)).2 (some h.next) gradSO
        .ok r.2)
      (fun A B P s t p own h1 hp m => by
        obtain ⟨h2, r2, e2⟩ := so_gradient_is_full { e with A := A, B := B } h1 (m.wf hw) p P (m.get (by simp [hp])) gradSO
        obtain ⟨h3, -, e3⟩ := so_gradient_is_full { e with A := A, B := B } _ (hwP P) h.next P (hP P) gradSO
        refine ⟨h2, m.call r2, ?_⟩
        rw [m.shell (a := s) (s := A) (by simp), m.shell (a := t) (s := B) (by simp)]
        simp only [Outcome.ok_bind, e2, e3, Outcome.bind_assoc])
    exact ⟨h', m.restored, by unfold ftnSpinOrbitGradient; rw [eq]; simp only [FShell.make, FPot.make, Outcome.bind_assoc]⟩

/-- **C58**, outer-core integrals, first part. -/
theorem fortran_outer_core_1 (gen : Nat → List Comp) (sf : SpecFun) (init : Bool) (h : Store) (hw : h.WF) (a b : FShell) (C : Point) (L : Nat) (J : Int)
    (u : FPot) (hu : u.num ≤ u.powers.length) (num : Nat) (coeffs alpha : List ℝ) (out : Fin 4 → List ℝ) :
    Forwards h (ftnOcPart1 gen sf init h a b C L J u num coeffs alpha out) (do
      let A ← a.make gen
      let B ← b.make gen
      let P ← u.make L J
      let O ← FShell.make gen ⟨C, L, num, coeffs, alpha⟩
      ocPart1 sf init A B C P O out) := by
  unfold ftnOcPart1 putShell putPot FShell.make FPot.make
  simp only [copyPowers_ok _ _ hu, newPotential_take _ _ _ _ _ _ hu, Outcome.ok_bind]
  cases newShell gen a.origin a.L a.num a.coeffs a.alpha with
  | ok A =>
    cases newShell gen b.origin b.L b.num b.coeffs b.alpha with
    | ok B =>
      cases newPotential L J u.num u.powers u.coeffs u.alpha with
      | ok P =>
        cases newShell gen C L num coeffs alpha with
        | ok O =>
          simp only [Outcome.ok_bind]
          have m := ((((((Holds.refl h).alloc .array).alloc (.shell A)).alloc (.shell B)).alloc (.pot P)).alloc (.shell O))
          have d1 := m.shell (a := (h.alloc .array).2.next) (s := A) (by simp)
          have d2 := m.shell (a := ((h.alloc .array).2.alloc (.shell A)).2.next) (s := B) (by simp)
          have d3 := m.pot (a := (((h.alloc .array).2.alloc (.shell A)).2.alloc (.shell B)).2.next) (p := P) (by simp)
          have d4 := m.shell (a := ((((h.alloc .array).2.alloc (.shell A)).2.alloc (.shell B)).2.alloc (.pot P)).2.next) (s := O) (by simp)
          have m0 := Holds.replace (l1 := []) m (.shell (bindOrigin C O))
          obtain ⟨h1, e1, m1⟩ := Holds.release hw (l1 := [_, _, _]) m0
          obtain ⟨h2, e2, m2⟩ := Holds.release hw (l1 := [_, _]) m1
          obtain ⟨h3, e3, m3⟩ := Holds.release hw (l1 := [_]) m2
          obtain ⟨h4, e4, m4⟩ := Holds.release hw (l1 := []) m3
          obtain ⟨h5, e5, m5⟩ := Holds.release hw (l1 := []) m4
          refine ⟨h5, m5.restored, ?_⟩
          simp only [Store.alloc, Obj.kind] at d1 d2 d3 d4 e1 e2 e3 e4 e5 ⊢
          simp only [d1, d2, d3, d4, Outcome.ok_bind, moveShell, e1, e2, e3, e4, e5]
        | ub => exact ⟨h, (Holds.refl h).restored, rfl⟩
        | abort => exact ⟨h, (Holds.refl h).restored, rfl⟩
        | exit => exact ⟨h, (Holds.refl h).restored, rfl⟩
      | ub => exact ⟨h, (Holds.refl h).restored, rfl⟩
      | abort => exact ⟨h, (Holds.refl h).restored, rfl⟩
      | exit => exact ⟨h, (Holds.refl h).restored, rfl⟩
    | ub => exact ⟨h, (Holds.refl h).restored, rfl⟩
    | abort => exact ⟨h, (Holds.refl h).restored, rfl⟩
    | exit => exact ⟨h, (Holds.refl h).restored, rfl⟩
  | ub => exact ⟨h, (Holds.refl h).restored, rfl⟩
  | abort => exact ⟨h, (Holds.refl h).restored, rfl⟩
  | exit => exact ⟨h, (Holds.refl h).restored, rfl⟩

/-- The outer-core shell the C interface makes of the same arguments. -/
noncomputable def FOc.make (gen : Nat → List Comp) (C : Point) (u : FOc) : Outcome Shell := newShell gen C u.L u.num u.coeffs u.alpha

/-- **C58**, outer-core integrals, second part. -/
theorem fortran_outer_core_2 (gen : Nat → List Comp) (h : Store) (hw : h.WF) (a b : FShell) (C : Point) (u v : FOc)
    (hu : u.u.num ≤ u.u.powers.length) (hv : v.u.num ≤ v.u.powers.length) (out : Fin 4 → List ℝ) :
    Forwards h (ftnOcPart2 gen h a b C u v out) (do
      let A ← a.make gen
      let B ← b.make gen
      let P1 ← u.u.make u.L u.J
      let O1 ← u.make gen C
      let P2 ← v.u.make v.L v.J
      let O2 ← v.make gen C
      ocPart2 A B C P1 O1 P2 O2 out) := by
  unfold ftnOcPart2 putShell putPot FShell.make FPot.make FOc.make
  simp only [copyPowers_ok _ _ hu, newPotential_take _ _ _ _ _ _ hu, copyPowers_ok _ _ hv, newPotential_take _ _ _ _ _ _ hv, Outcome.ok_bind]
  cases newShell gen a.origin a.L a.num a.coeffs a.alpha with
  | ok A =>
    cases newShell gen b.origin b.L b.num b.coeffs b.alpha with
    | ok B =>
      cases newPotential u.L u.J u.u.num u.u.powers u.u.coeffs u.u.alpha with
      | ok P1 =>
        cases newShell gen C u.L u.num u.coeffs u.alpha with
        | ok O1 =>
          cases newPotential v.L v.J v.u.num v.u.powers v.u.coeffs v.u.alpha with
          | ok P2 =>
            cases newShell gen C v.L v.num v.coeffs v.alpha with
            | ok O2 =>
              simp only [Outcome.ok_bind]
              have m := ((((((((Holds.refl h).alloc .array).alloc .array).alloc (.shell A)).alloc (.shell B)).alloc (.pot P1)).alloc
                (.shell O1)).alloc (.pot P2)).alloc (.shell O2)
              have d1 := m.shell (a := ((h.alloc .array).2.alloc .array).2.next) (s := A) (by simp)
              have d2 := m.shell (a := (((h.alloc .array).2.alloc .array).2.alloc (.shell A)).2.next) (s := B) (by simp)
              have d3 := m.pot (a := ((((h.alloc .array).2.alloc .array).2.alloc (.shell A)).2.alloc (.shell B)).2.next) (p := P1) (by simp)
              have d4 := m.shell (a := (((((h.alloc .array).2.alloc .array).2.alloc (.shell A)).2.alloc (.shell B)).2.alloc (.pot P1)).2.next)
                (s := O1) (by simp)
              have d5 := m.pot (a := ((((((h.alloc .array).2.alloc .array).2.alloc (.shell A)).2.alloc (.shell B)).2.alloc (.pot P1)).2.alloc
                (.shell O1)).2.next) (p := P2) (by simp)
              have d6 := m.shell (a := (((((((h.alloc .array).2.alloc .array).2.alloc (.shell A)).2.alloc (.shell B)).2.alloc (.pot P1)).2.alloc
                (.shell O1)).2.alloc (.pot P2)).2.next) (s := O2) (by simp)
              by_cases hne : P1.L ≠ P2.L ∨ P1.J ≠ P2.J
              · obtain ⟨h1, e1, m1⟩ := Holds.release hw (l1 := [_, _, _, _, _]) m
                obtain ⟨h2, e2, m2⟩ := Holds.release hw (l1 := [_, _, _, _]) m1
                obtain ⟨h3, e3, m3⟩ := Holds.release hw (l1 := [_, _, _]) m2
                obtain ⟨h4, e4, m4⟩ := Holds.release hw (l1 := [_]) m3
                obtain ⟨h5, e5, m5⟩ := Holds.release hw (l1 := [_]) m4
                obtain ⟨h6, e6, m6⟩ := Holds.release hw (l1 := []) m5
                obtain ⟨h7, e7, m7⟩ := Holds.release hw (l1 := [_]) m6
                obtain ⟨h8, e8, m8⟩ := Holds.release hw (l1 := []) m7
                refine ⟨h8, m8.restored, ?_⟩
                simp only [Store.alloc, Obj.kind] at d1 d2 d3 d4 d5 d6 e1 e2 e3 e4 e5 e6 e7 e8 ⊢
                simp only [d1, d2, d3, d4, d5, d6, Outcome.ok_bind, if_pos hne, e1, e2, e3, e4, e5, e6, e7, e8]
              · have m0 := Holds.replace (l1 := [_, _]) m (.shell (bindOrigin C O1))
                have d7 := m0.shell (a := (((((((h.alloc .array).2.alloc .array).2.alloc (.shell A)).2.alloc (.shell B)).2.alloc (.pot P1)).2.alloc
                  (.shell O1)).2.alloc (.pot P2)).2.next) (s := O2) (by simp)
                have m0' := Holds.replace (l1 := []) m0 (.shell (bindOrigin C O2))
                obtain ⟨h1, e1, m1⟩ := Holds.release hw (l1 := [_, _, _, _, _]) m0'
                obtain ⟨h2, e2, m2⟩ := Holds.release hw (l1 := [_, _, _, _]) m1
                obtain ⟨h3, e3, m3⟩ := Holds.release hw (l1 := [_, _, _]) m2
                obtain ⟨h4, e4, m4⟩ := Holds.release hw (l1 := [_]) m3
                obtain ⟨h5, e5, m5⟩ := Holds.release hw (l1 := [_]) m4
                obtain ⟨h6, e6, m6⟩ := Holds.release hw (l1 := []) m5
                obtain ⟨h7, e7, m7⟩ := Holds.release hw (l1 := [_]) m6
                obtain ⟨h8, e8, m8⟩ := Holds.release hw (l1 := []) m7
                refine ⟨h8, m8.restored, ?_⟩
                simp only [Store.alloc, Obj.kind] at d1 d2 d3 d4 d5 d6 d7 e1 e2 e3 e4 e5 e6 e7 e8 ⊢
                simp only [d1, d2, d3, d4, d5, d6, d7, Outcome.ok_bind, if_neg hne, moveShell, e1, e2, e3, e4, e5, e6, e7, e8]
            | ub => exact ⟨h, (Holds.refl h).restored, rfl⟩
            | abort => exact ⟨h, (Holds.refl h).restored, rfl⟩
            | exit => exact ⟨h, (Holds.refl h).restored, rfl⟩
          | ub => exact ⟨h, (Holds.refl h).restored, rfl⟩
          | abort => exact ⟨h, (Holds.refl h).restored, rfl⟩
          | exit => exact ⟨h, (Holds.refl h).restored, rfl⟩
        | ub => exact ⟨h, (Holds.refl h).restored, rfl⟩
        | abort => exact ⟨h, (Holds.refl h).restored, rfl⟩
        | exit => exact ⟨h, (Holds.refl h).restored, rfl⟩
      | ub => exact ⟨h, (Holds.refl h).restored, rfl⟩
      | abort => exact ⟨h, (Holds.refl h).restored, rfl⟩
      | exit => exact ⟨h, (Holds.refl h).restored, rfl⟩
    | ub => exact ⟨h, (Holds.refl h).restored, rfl⟩
    | abort => exact ⟨h, (Holds.refl h).restored, rfl⟩
    | exit => exact ⟨h, (Holds.refl h).restored, rfl⟩
  | ub => exact ⟨h, (Holds.refl h).restored, rfl⟩
  | abort => exact ⟨h, (Holds.refl h).restored, rfl⟩
  | exit => exact ⟨h, (Holds.refl h).restored, rfl⟩

/-- **C58**, setters. The Cartesian order is 0 or 1; for any other value the program stops. -/
theorem fortran_parameters (p : Params) (x : ℝ) (o : Int) :
    ftnParam p .setDefault = .ok ⟨1e-16, 1e-16, 1e-16, cartesianDirac⟩ ∧
      ftnParam p (.radial x) = .ok ⟨x, p.angular, p.bessel, p.generator⟩ ∧
      ftnParam p (.angular x) = .ok ⟨p.radial, x, p.bessel, p.generator⟩ ∧
      ftnParam p (.bessel x) = .ok ⟨p.radial, p.angular, x, p.generator⟩ ∧
      ftnParam p (.order 0) = .ok ⟨p.radial, p.angular, p.bessel, cartesianDirac⟩ ∧
      ftnParam p (.order 1) = .ok ⟨p.radial, p.angular, p.bessel, cartesianTurbomole⟩ ∧
      (o ≠ 0 → o ≠ 1 → ftnParam p (.order o) = .abort) := by
  refine ⟨rfl, rfl, rfl, rfl, ?_, ?_, fun h0 h1 => ?_⟩
  · simp [ftnParam, applyParam, Outcome.assert_pos]
  · simp [ftnParam, applyParam, Outcome.assert_pos]
  · simp only [ftnParam, applyParam]
    rw [Outcome.assert_neg (by tauto)]
    rfl

/-- The contracted function with the exponents `c` at the centre `O`. -/
noncomputable def contracted (O : Point) (c : Comp) (num : Nat) (coeffs alpha : List ℝ) (r : Point) : ℝ :=
  ∑ i ∈ Finset.range num, coeffs.getD i 0 * primFn (c.1 + c.2.1 + c.2.2) O c (alpha.getD i 0) r

/-- The function described by the arguments. -/
noncomputable def FComp.fn (a : FComp) : Point → ℝ := contracted a.origin a.comp a.num a.coeffs a.alpha

/-- What the caller has to provide: `num` coefficients, `num` positive exponents, angular momentum at most 9. -/
structure FComp.Ok (a : FComp) : Prop where
  hc : a.num ≤ a.coeffs.length
  ha : a.num ≤ a.alpha.length
  hp : ∀ i < a.num, 0 < a.alpha.getD i 0
  hL : a.comp.1 + a.comp.2.1 + a.comp.2.2 ≤ 9

/-- **C85**, overlap of two functions: the result is the integral over all space; the memory is as before. -/
theorem fortran_overlap_of_two (gen : Nat → List Comp) (hg : DocumentedOrder gen) (h : Store) (hw : h.WF) (a b : FComp) (ha : a.Ok) (hb : b.Ok)
    (out : List ℝ) (hlen : 0 < out.length) :
    ∃ h' out', ftnOverlapOne gen h a b out = .ok (h', out') ∧ Restored h h' ∧ out'.length = out.length ∧
      out'[0]? = some (∫ r, a.fn r * b.fn r) ∧ ∀ p, 1 ≤ p → out'[p]? = out[p]? := by
  have key : ∀ (a : FComp), a.Ok → ∃ A : Shell, newShell gen a.origin (a.comp.1 + a.comp.2.1 + a.comp.2.2) a.num a.coeffs a.alpha = .ok A ∧
      oneComp A a.comp = .ok { A with cart_size := 1, cartList := a.comp :: A.cartList.tail } ∧
      A.Pos ∧ A.L = a.comp.1 + a.comp.2.1 + a.comp.2.2 ∧ A.WF ∧
      a.fn = basisFn { A with cart_size := 1, cartList := [a.comp] } 0 := by
    intro a ha
    have e := new_shell_value gen a.origin (a.comp.1 + a.comp.2.1 + a.comp.2.2) a.num a.coeffs a.alpha ha.hc ha.ha
    have s := newShell_supported hg ha.hc ha.ha ha.hL ha.hp e
    refine ⟨_, e, ?_, s.pos, rfl, s.wf, ?_⟩
    · have hl := s.listed.1
      simp only at hl
      have h1 : 0 < (gen (a.comp.1 + a.comp.2.1 + a.comp.2.2)).length := by
        rw [← hl]
        exact cartSize_pos _
      obtain ⟨c, l, hcl⟩ := List.exists_cons_of_length_pos h1
      simp only [oneComp, hcl]
      rw [wr_ok _ (by simp)]
      rfl
    · funext r
      simp only [FComp.fn, contracted, basisFn, List.getD_cons_zero]
      refine Finset.sum_congr rfl fun i hi => ?_
      rw [Finset.mem_range] at hi
      have t : ∀ l : List ℝ, a.num ≤ l.length → (l.take a.num).getD i 0 = l.getD i 0 := fun l hl => by
        simp [List.getD_eq_getElem?_getD, hi]
      rw [t _ ha.hc, t _ ha.ha]
  obtain ⟨A, eA, oA, pA, lA, wA, fA⟩ := key a ha
  obtain ⟨B, eB, oB, pB, lB, wB, fB⟩ := key b hb
  obtain ⟨h', m, e⟩ := withShells_holds gen hw (Holds.refl h) ⟨a.origin, a.comp.1 + a.comp.2.1 + a.comp.2.2, a.num, a.coeffs, a.alpha⟩
    ⟨b.origin, b.comp.1 + b.comp.2.1 + b.comp.2.2, b.num, b.coeffs, b.alpha⟩
    (fun h s t => do
      let A ← derefShell h (some s)
      let A ← oneComp A a.comp
      let h := h.setShell s A
      let B ← derefShell h (some t)
      let B ← oneComp B b.comp
      let h := h.setShell t B
      let r ← overlapIntegrals A B out
      .ok (h, r))
    (fun A B => do
      let A ← oneComp A a.comp
      let B ← oneComp B b.comp
      overlapIntegrals A B out)
    (fun A B s t h1 m => by
      have d1 := m.shell (a := s) (s := A) (by simp)
      simp only [d1, Outcome.ok_bind]
      cases oneComp A a.comp with
      | ok A' =>
        have m1 := Holds.replace (l1 := [_]) m (.shell A')
        have d2 : derefShell (h1.setShell s A') (some t) = .ok B := m1.shell (by simp)
        simp only [d2, Outcome.ok_bind]
        cases oneComp B b.comp with
        | ok B' => exact ⟨_, A', B', Holds.replace (l1 := []) m1 (.shell B'), rfl⟩
        | ub => exact ⟨_, _, _, m, rfl⟩
        | abort => exact ⟨_, _, _, m, rfl⟩
        | exit => exact ⟨_, _, _, m, rfl⟩
      | ub => exact ⟨_, _, _, m, rfl⟩
      | abort => exact ⟨_, _, _, m, rfl⟩
      | exit => exact ⟨_, _, _, m, rfl⟩)
  have e' : ftnOverlapOne gen h a b out = _ := e
  simp only [eA, eB, Outcome.ok_bind, oA, oB] at e'
  have hs : overlapIntegrals { A with cart_size := 1, cartList := a.comp :: A.cartList.tail }
      { B with cart_size := 1, cartList := b.comp :: B.cartList.tail } out =
      overlapIntegrals { A with cart_size := 1, cartList := [a.comp] } { B with cart_size := 1, cartList := [b.comp] } out := by
    have e1 := overlap_list { A with cart_size := 1, cartList := [a.comp] } { B with cart_size := 1, cartList := [b.comp] }
      (a.comp :: A.cartList.tail) (b.comp :: B.cartList.tail) (fun m hm => by obtain rfl : m = 0 := by simpa using hm
                                                                              rfl)
      (fun m hm => by obtain rfl : m = 0 := by simpa using hm
                      rfl) out
    exact e1
  obtain ⟨out', o1, o2, o3, o4⟩ := overlap_true { A with cart_size := 1, cartList := [a.comp] } { B with cart_size := 1, cartList := [b.comp] }
    wA wB ⟨rfl, by simp only [List.mem_singleton, forall_eq, lA]; omega⟩ ⟨rfl, by simp only [List.mem_singleton, forall_eq, lB]; omega⟩ pA pB
    (by have := ha.hL; simp only [lA]; exact this) (by have := hb.hL; simp only [lB]; exact this) out (by simp only [mul_one]; omega)
  refine ⟨h', out', ?_, m.restored, o2, ?_, fun p hp => o4 p (by simpa using hp)⟩
  · rw [e', hs, o1]
    rfl
  · rw [fA, fB]
    exact o3 0 0 (by simp) (by simp)

theorem gauss1_pair {α β : ℝ} (hp : 0 < α + β) (O : ℝ) (i : Nat) :
    gauss1 α β O O i i = ((2 * i - 1)‼ : ℕ) * ((1 / (2 * (α + β))) ^ i * Real.sqrt (Real.pi / (α + β))) := by
  induction i with
  | zero => rw [gauss1_zero hp]; simp
  | succ i ih =>
    have h1 := gauss1_parts hp O O i (i + 1)
    have h2 := gauss1_shift hp O O i (i + 1)
    have h3 : (i : ℝ) * gauss1 α β O O (i - 1) (i + 1) = i * gauss1 α β O O i i := by
      rcases i with _ | i
      · simp
      · have := gauss1_shift hp O O i (i + 1)
        simp only [Nat.add_sub_cancel]
        rw [this]; ring
    simp only [Nat.add_sub_cancel] at h1
    rw [h2, h3] at h1
    have h4 : gauss1 α β O O (i + 1) (i + 1) = (2 * i + 1) * (1 / (2 * (α + β))) * gauss1 α β O O i i := by
      field_simp
      push_cast at h1
      linear_combination (-1) * h1
    rw [h4, ih]
    have e : 2 * (i + 1) - 1 = 2 * i + 1 := by omega
    rw [e]
    have e2 : (2 * i + 1)‼ = (2 * i + 1) * (2 * i - 1)‼ := by
      rcases i with _ | i
      · rfl
      · have : 2 * (i + 1) - 1 = 2 * i + 1 := by omega
        rw [this, show 2 * (i + 1) + 1 = (2 * i + 1) + 2 by ring, Nat.doubleFactorial_add_two]
    rw [e2]
    push_cast
    ring

/-- Up to the product of double factorials the norm of a contracted function depends on the total angular momentum only. -/
theorem contracted_norm (O : Point) (c : Comp) (num : Nat) (coeffs alpha : List ℝ) (hp : ∀ i < num, 0 < alpha.getD i 0) :
    Integrable (fun r => contracted O c num coeffs alpha r ^ 2) ∧
    ∫ r, contracted O c num coeffs alpha r ^ 2 = ((2 * c.1 - 1)‼ : ℕ) * ((2 * c.2.1 - 1)‼ : ℕ) * ((2 * c.2.2 - 1)‼ : ℕ) *
      ∑ i ∈ Finset.range num, ∑ j ∈ Finset.range num, coeffs.getD i 0 * coeffs.getD j 0 *
        (gaussianNormFactor (c.1 + c.2.1 + c.2.2) 0 0 (alpha.getD i 0) * gaussianNormFactor (c.1 + c.2.1 + c.2.2) 0 0 (alpha.getD j 0) *
          (1 / (2 * (alpha.getD i 0 + alpha.getD j 0))) ^ (c.1 + c.2.1 + c.2.2) * Real.sqrt (Real.pi / (alpha.getD i 0 + alpha.getD j 0)) ^ 3) := by
  let A : Shell := { L := c.1 + c.2.1 + c.2.2, origin := O, cart_size := 1, cartList := [c], num := num, coeffs := coeffs, alpha := alpha }
  have hA : A.Pos := hp
  have e : ∀ r, contracted O c num coeffs alpha r ^ 2 = basisFn A 0 r * basisFn A 0 r := fun r => by rw [pow_two]; rfl
  simp only [e]
  refine ⟨?_, ?_⟩
  · rw [basisFn_eq A 0]
    beta_reduce
    exact (integral_sum_prod3 _ _ _ _ (A.factor 0) (A.factor 0) fun i hi j hj k => integrable_gfun_mul (pos_add hA hA hi hj) _ _ _ _).1
  · rw [integral_overlap A A hA hA, Finset.mul_sum]
    refine Finset.sum_congr rfl fun i hi => ?_
    rw [Finset.mul_sum]
    refine Finset.sum_congr rfl fun j hj => ?_
    have p := pos_add hA hA hi hj
    rw [gauss1_pair p, gauss1_pair p, gauss1_pair p]
    simp only [Shell.comp, Shell.coeffAt, Shell.alphaAt, A, List.getD_cons_zero, pow_add]
    ring

/-- **C85**, normalisation. If the contracted function is not identically zero, the factor returned is that of the documentation, the square root
of `(2L-1)!!` over its norm; multiplied by it, every function of the shell has the norm `(2n-1)!! (2l-1)!! (2m-1)!!` (so `x^L` has the norm of
a normalised primitive, and functions without repeated factors are normalised); the memory is as before. -/
theorem fortran_norm_factor (gen : Nat → List Comp) (hg : DocumentedOrder gen) (h : Store) (hw : h.WF) (L num : Nat) (coeffs alpha : List ℝ)
    (hc : num ≤ coeffs.length) (ha : num ≤ alpha.length) (hp : ∀ i < num, 0 < alpha.getD i 0) (hL : L ≤ 9)
    (hne : ∃ r, contracted ![0, 0, 0] (L, 0, 0) num coeffs alpha r ≠ 0) :
    ∃ h' N, ftnNormFactor gen h L num coeffs alpha = .ok (h', N) ∧ Restored h h' ∧ 0 < N ∧
      ∀ (O : Point) (c : Comp), c.1 + c.2.1 + c.2.2 = L →
        ∫ r, (N * contracted O c num coeffs alpha r) ^ 2 = ((2 * c.1 - 1)‼ : ℕ) * ((2 * c.2.1 - 1)‼ : ℕ) * ((2 * c.2.2 - 1)‼ : ℕ) := by
  have ok : FComp.Ok ⟨![0, 0, 0], (L, 0, 0), num, coeffs, alpha⟩ := ⟨hc, ha, hp, by simpa using hL⟩
  obtain ⟨h', out', e1, e2, -, e4, -⟩ := fortran_overlap_of_two gen hg h hw _ _ ok ok [0] (by simp)
  have hS : ∀ r, FComp.fn ⟨![0, 0, 0], (L, 0, 0), num, coeffs, alpha⟩ r * FComp.fn ⟨![0, 0, 0], (L, 0, 0), num, coeffs, alpha⟩ r =
      contracted ![0, 0, 0] (L, 0, 0) num coeffs alpha r ^ 2 := fun r => by rw [pow_two]; rfl
  simp only [hS] at e4
  have pos : 0 < ∫ r, contracted ![0, 0, 0] (L, 0, 0) num coeffs alpha r ^ 2 := by
    rw [integral_pos_iff_support_of_nonneg (fun r => sq_nonneg _) (contracted_norm _ _ _ _ _ hp).1]
    have hcont : Continuous fun r => contracted ![0, 0, 0] (L, 0, 0) num coeffs alpha r ^ 2 := by
      unfold contracted primFn
      fun_prop
    refine hcont.isOpen_support.measure_pos _ ?_
    obtain ⟨r, hr⟩ := hne
    exact ⟨r, by simpa using hr⟩
  have hd : doubleFactorialC (2 * (L : Int) - 1) = .ok ((2 * L - 1)‼ : ℕ) := by
    rcases L with _ | L
    · exact double_factorial_minus_one.trans (by simp)
    · rw [show 2 * ((L + 1 : ℕ) : Int) - 1 = ((2 * (L + 1) - 1 : ℕ) : Int) by push_cast; omega]
      exact double_factorial_correct _ (by omega)
  have fp : (0 : ℝ) < ((2 * L - 1)‼ : ℕ) := by exact_mod_cast Nat.doubleFactorial_pos _
  refine ⟨h', _, ?_, e2, div_pos (Real.sqrt_pos.2 fp) (Real.sqrt_pos.2 pos), fun O c hcL => ?_⟩
  · unfold ftnNormFactor
    have er : rd out' 0 = .ok (∫ r, contracted ![0, 0, 0] (L, 0, 0) num coeffs alpha r ^ 2) := by unfold rd; rw [e4]
    simp only [e1, Outcome.ok_bind, er, hd]
  · simp only [mul_pow]
    obtain ⟨K, hK⟩ : ∃ K : ℝ, ∀ (O : Point) (c : Comp), c.1 + c.2.1 + c.2.2 = L → ∫ r, contracted O c num coeffs alpha r ^ 2 =
        ((2 * c.1 - 1)‼ : ℕ) * ((2 * c.2.1 - 1)‼ : ℕ) * ((2 * c.2.2 - 1)‼ : ℕ) * K :=
      ⟨_, fun O c h => by rw [(contracted_norm O c num coeffs alpha hp).2, h]⟩
    have hn := hK ![0, 0, 0] (L, 0, 0) (by simp)
    simp only [mul_zero, Nat.zero_sub, Nat.doubleFactorial, Nat.cast_one, mul_one] at hn
    rw [integral_const_mul, hK O c hcL, div_pow, Real.sq_sqrt fp.le, Real.sq_sqrt pos.le]
    rw [hn] at pos ⊢
    have k := (mul_ne_zero_iff.1 pos.ne').2
    field_simp

/-- A p shell with two primitives at the origin. -/
noncomputable def exampleFComp : FComp := ⟨![0, 0, 0], (1, 0, 0), 2, [1, 1], [1 / 2, 3]⟩

example : exampleFComp.Ok :=
  ⟨by simp [exampleFComp], by simp [exampleFComp], fun i hi => by
    simp only [exampleFComp] at hi ⊢
    interval_cases i <;> norm_num, by simp [exampleFComp]⟩

example : (⟨fun _ => none, 0, []⟩ : Store).WF := fun _ _ => rfl

/-- The shell satisfies the assumption of `fortran_norm_factor`. -/
example : ∃ r, contracted ![0, 0, 0] (1, 0, 0) 2 [1, 1] [1 / 2, 3] r ≠ 0 := by
  refine ⟨![1, 0, 0], ?_⟩
  simp only [contracted, primFn, Finset.sum_range_succ, Finset.sum_range_zero, Fin.prod_univ_three, Comp.exp_zero, Comp.exp_one, Comp.exp_two]
  simp
  positivity

/-- The overlap of two different functions through the Fortran interface, with both objects released. -/
example : ∃ h' out', ftnOverlapOne cartesianDirac ⟨fun _ => none, 0, []⟩ ⟨![0, 0, 0], (1, 0, 1), 1, [2], [3]⟩ ⟨![0, 0, 1], (0, 2, 1), 1, [5], [7]⟩ [9] =
    .ok (h', out') ∧ h'.mem = fun _ => none := by
  obtain ⟨h', out', e, r, -⟩ := fortran_overlap_of_two cartesianDirac (.inl rfl) ⟨fun _ => none, 0, []⟩ (fun _ _ => rfl)
    ⟨![0, 0, 0], (1, 0, 1), 1, [2], [3]⟩ ⟨![0, 0, 1], (0, 2, 1), 1, [5], [7]⟩ ⟨by simp, by simp, by simp, by simp⟩ ⟨by simp, by simp, by simp, by simp⟩
    [9] (by simp)
  exact ⟨h', out', e, r.1⟩

/-- Every wrapper that creates shells is covered by one theorem: with arrays long enough the C side does return, so the wrappers do. -/
example (out : List ℝ) (h : Store) (hw : h.WF) : ∃ h', Restored h h' ∧
    ftnOverlap cartesianDirac h ⟨![0, 0, 0], 1, 1, [1], [2]⟩ ⟨![0, 0, 1], 2, 1, [1], [2]⟩ out = (do
      let r ← overlapIntegrals ⟨1, ![0, 0, 0], 3, cartesianDirac 1, 1, [1], [2]⟩ ⟨2, ![0, 0, 1], 6, cartesianDirac 2, 1, [1], [2]⟩ out
      .ok (h', r)) := by
  obtain ⟨h', r, e⟩ := forwards_shells cartesianDirac hw ⟨![0, 0, 0], 1, 1, [1], [2]⟩ ⟨![0, 0, 1], 2, 1, [1], [2]⟩ (fun A B => overlapIntegrals A B out)
  refine ⟨h', r, ?_⟩
  unfold ftnOverlap
  rw [e]
  simp only [FShell.make, new_shell_value cartesianDirac _ _ 1 [1] [2] (by simp) (by simp), Outcome.ok_bind]
  rfl

/-- An order that is not documented stops the program. -/
example (p : Params) : ftnParam p (.order 7) = .abort := (fortran_parameters p 0 7).2.2.2.2.2.2 (by norm_num) (by norm_num)

end Libgrpp
