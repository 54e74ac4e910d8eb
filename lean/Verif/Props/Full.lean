import Verif.Lemmas.Full

/-! # C43: the full GRPP integrals are the weighted sum of their parts -/

namespace Libgrpp

/-- What is assumed of the four integral routines: given buffers for `A × B` matrices they return and overwrite them with
values that do not depend on the previous contents of the buffers. -/
structure Kernels.Computes (K : Kernels) (A B : Shell) (C : Point) (t1 : Option Potential → Nat → ℝ)
    (t2 : Potential → Nat → ℝ) (so : Potential → Fin 3 → Nat → ℝ) (oc : List (Potential × Shell) → Fin 4 → Nat → ℝ) :
    Prop where
  type1 : ∀ pot (l : List ℝ), l.length = A.cart_size * B.cart_size →
    ∃ l', K.type1 A B C pot l = .ok l' ∧ BufIs (A.cart_size * B.cart_size) l' (t1 pot)
  type2 : ∀ pot (l : List ℝ), l.length = A.cart_size * B.cart_size →
    ∃ l', K.type2 A B C pot l = .ok l' ∧ BufIs (A.cart_size * B.cart_size) l' (t2 pot)
  so : ∀ pot (l : Fin 3 → List ℝ), (∀ k, (l k).length = A.cart_size * B.cart_size) →
    ∃ l', K.so A B C pot l = .ok l' ∧ ∀ k, BufIs (A.cart_size * B.cart_size) (l' k) (so pot k)
  oc : ∀ s (l : Fin 4 → List ℝ), (∀ q, (l q).length = A.cart_size * B.cart_size) →
    ∃ l', K.oc A B C s l = .ok l' ∧ ∀ q, BufIs (A.cart_size * B.cart_size) (l' q) (oc s q)

/-- The same, for the potentials and shells of one pseudopotential only. -/
structure Kernels.ComputesFor (K : Kernels) (A B : Shell) (C : Point) (g : GrppData) (t1 : Nat → ℝ)
    (t2 : Potential → Nat → ℝ) (so : Potential → Fin 3 → Nat → ℝ) (oc : Fin 4 → Nat → ℝ) : Prop where
  type1 : ∀ l : List ℝ, l.length = A.cart_size * B.cart_size →
    ∃ l', K.type1 A B C g.local_ l = .ok l' ∧ BufIs (A.cart_size * B.cart_size) l' t1
  type2 : ∀ pot ∈ g.arep, ∀ l : List ℝ, l.length = A.cart_size * B.cart_size →
    ∃ l', K.type2 A B C pot l = .ok l' ∧ BufIs (A.cart_size * B.cart_size) l' (t2 pot)
  so : ∀ pot ∈ g.esop, ∀ l : Fin 3 → List ℝ, (∀ k, (l k).length = A.cart_size * B.cart_size) →
    ∃ l', K.so A B C pot l = .ok l' ∧ ∀ k, BufIs (A.cart_size * B.cart_size) (l' k) (so pot k)
  oc : ∀ l : Fin 4 → List ℝ, (∀ q, (l q).length = A.cart_size * B.cart_size) →
    ∃ l', K.oc A B C g.oc l = .ok l' ∧ ∀ q, BufIs (A.cart_size * B.cart_size) (l' q) (oc q)

/-- **C43.** Whatever the output matrices contained, the scalar matrix becomes the local part plus the sum of the semilocal
parts plus the outer-core part; each spin-orbit matrix becomes the sum of the spin-orbit parts weighted by `2/(2l+1)` plus
the outer-core part. Nothing beyond the `A × B` elements is written. -/
theorem full_is_sum_for (K : Kernels) (A B : Shell) (g : GrppData) (C : Point) {t1 : Nat → ℝ}
    {t2 : Potential → Nat → ℝ} {so : Potential → Fin 3 → Nat → ℝ} {oc : Fin 4 → Nat → ℝ}
    (hK : K.ComputesFor A B C g t1 t2 so oc) (M : Fin 4 → List ℝ) (hM : ∀ q, A.cart_size * B.cart_size ≤ (M q).length) :
    ∃ M', fullGrpp K true A B g C M = .ok M' ∧
      (∀ p, p < A.cart_size * B.cart_size →
        (M' 0)[p]? = some (t1 p + (g.arep.map fun u => t2 u p).sum + oc 0 p) ∧
        ∀ k : Fin 3, (M' k.succ)[p]? =
          some ((g.esop.map fun u => 2 / (2 * (u.L : ℝ) + 1) * so u k p).sum + oc k.succ p)) ∧
      ∀ q, (M' q).length = (M q).length ∧ ∀ p, A.cart_size * B.cart_size ≤ p → (M' q)[p]? = (M q)[p]? := by
  set size := A.cart_size * B.cart_size with hsize
  obtain ⟨m0, e0, z0, b0⟩ := memset0_spec size (M 0) (hM 0)
  obtain ⟨m1, e1, z1, b1⟩ := memset0_spec size (M 1) (hM 1)
  obtain ⟨m2, e2, z2, b2⟩ := memset0_spec size (M 2) (hM 2)
  obtain ⟨m3, e3, z3, b3⟩ := memset0_spec size (M 3) (hM 3)
  have i0 : FullInv size M ⟨fun _ => List.replicate size 0, ![m0, m1, m2, m3]⟩ (fun _ _ => 0) := by
    refine ⟨fun q => by simp, fun q => ?_, fun q p hp => ?_, fun q p hp => ?_⟩
    · fin_cases q
      exacts [b0.1, b1.1, b2.1, b3.1]
    · fin_cases q
      exacts [z0 p hp, z1 p hp, z2 p hp, z3 p hp]
    · fin_cases q
      exacts [b0.2 p hp, b1.2 p hp, b2.2 p hp, b3.2 p hp]
  obtain ⟨l1, el1, hl1⟩ := hK.type1 (List.replicate size 0) (by simp [hsize])
  have i0' : FullInv size M (FullState.setArep ⟨fun _ => List.replicate size 0, ![m0, m1, m2, m3]⟩ l1) (fun _ _ => 0) := by
    refine ⟨fun q => ?_, i0.len, i0.val, i0.beyond⟩
    by_cases hq : q = 0
    · subst hq; simp [FullState.setArep, hl1.1, hsize]
    · simp [FullState.setArep, Function.update_of_ne hq]
  obtain ⟨s1, es1, -, i1⟩ := axpy_inv hM i0' 1 0 (b := t1) (by simpa [FullState.setArep] using hl1)
  -- semilocal terms
  obtain ⟨s2, es2, i2⟩ : ∃ s2, forRange g.arep.length s1 (fun i st => do
      let p ← rd g.arep i
      fullArepStep K A B C size p st) = .ok s2 ∧ FullInv size M s2 (Function.update (fun _ _ => 0) 0
        fun p => t1 p + (g.arep.map fun u => t2 u p).sum) := by
    refine forRange_spec (fun i st => FullInv size M st (Function.update (fun _ _ => 0) 0
        fun p => t1 p + ((g.arep.take i).map fun u => t2 u p).sum)) ?_ ?_ ?_
    · refine i1.congr fun q p _ => ?_
      by_cases hq : q = 0
      · subst hq; simp
      · simp [Function.update_of_ne hq]
    · intro i st hi hst
      obtain ⟨l, el, hl⟩ := hK.type2 g.arep[i] (List.getElem_mem hi) (st.buf 0) (hst.buf 0)
      have hst' : FullInv size M (st.setArep l) (Function.update (fun _ _ => 0) 0
        fun p => t1 p + ((g.arep.take i).map fun u => t2 u p).sum) := by
        refine ⟨fun q => ?_, hst.len, hst.val, hst.beyond⟩
        by_cases hq : q = 0
        · subst hq; simp [FullState.setArep, hl.1, hsize]
        · simp [FullState.setArep, Function.update_of_ne hq, hst.buf]
      obtain ⟨s', es', -, is'⟩ := axpy_inv hM hst' 1 0 (b := t2 g.arep[i]) (by simpa [FullState.setArep] using hl)
      refine ⟨s', ?_, is'.congr fun q p _ => ?_⟩
      · rw [rd_ok hi, Outcome.ok_bind]
        unfold fullArepStep
        rw [el, Outcome.ok_bind, es']
      · by_cases hq : q = 0
        · subst hq
          simp only [Function.update_self, List.take_add_one, List.getElem?_eq_getElem hi, Option.toList_some,
            List.map_append, List.sum_append, List.map_cons, List.map_nil, List.sum_cons, List.sum_nil]
          ring
        · simp [Function.update_of_ne hq]
    · intro st hst
      simpa using hst
  -- spin-orbit terms
  obtain ⟨s3, es3, i3⟩ : ∃ s3, forRange g.esop.length s2 (fun i st => do
      let p ← rd g.esop i
      fullSOStep K A B C size p st) = .ok s3 ∧ FullInv size M s3 (Fin.cons
        (fun p => t1 p + (g.arep.map fun u => t2 u p).sum)
        fun k p => (g.esop.map fun u => 2 / (2 * (u.L : ℝ) + 1) * so u k p).sum) := by
    refine forRange_spec (fun i st => FullInv size M st (Fin.cons
        (fun p => t1 p + (g.arep.map fun u => t2 u p).sum)
        fun k p => ((g.esop.take i).map fun u => 2 / (2 * (u.L : ℝ) + 1) * so u k p).sum)) ?_ ?_ ?_
    · refine i2.congr fun q p _ => ?_
      refine Fin.cases ?_ (fun k => ?_) q
      · simp
      · simp
    · intro i st hi hst
      obtain ⟨l, el, hl⟩ := hK.so g.esop[i] (List.getElem_mem hi) ![st.buf 1, st.buf 2, st.buf 3] (by
        intro k; fin_cases k
        exacts [hst.buf 1, hst.buf 2, hst.buf 3])
      set w : ℝ := 2 / (2 * (g.esop[i].L : ℝ) + 1) with hw
      have hst' := (show FullInv size M (st.setSO l) _ from ⟨fun q => by
        fin_cases q
        exacts [hst.buf 0, (hl 0).1, (hl 1).1, (hl 2).1], hst.len, hst.val, hst.beyond⟩)
      obtain ⟨a1, ea1, bb1, ia1⟩ := axpy_inv hM hst' w 1 (b := so g.esop[i] 0) (hl 0)
      obtain ⟨a2, ea2, bb2, ia2⟩ := axpy_inv hM ia1 w 2 (b := so g.esop[i] 1) (by rw [bb1]; exact hl 1)
      obtain ⟨a3, ea3, bb3, ia3⟩ := axpy_inv hM ia2 w 3 (b := so g.esop[i] 2) (by rw [bb2, bb1]; exact hl 2)
      refine ⟨a3, ?_, ia3.congr fun q p _ => ?_⟩
      · rw [rd_ok hi, Outcome.ok_bind]
        unfold fullSOStep
        rw [el]
        simp only [Outcome.ok_bind]
        rw [← hw, ea1]
        simp only [Outcome.ok_bind, ea2, ea3]
      · have step : ∀ k : Fin 3, ((g.esop.take (i + 1)).map fun u => 2 / (2 * (u.L : ℝ) + 1) * so u k p).sum =
            ((g.esop.take i).map fun u => 2 / (2 * (u.L : ℝ) + 1) * so u k p).sum + w * so g.esop[i] k p := by
          intro k
          simp only [List.take_add_one, List.getElem?_eq_getElem hi, Option.toList_some,
            List.map_append, List.sum_append, List.map_cons, List.map_nil, List.sum_cons, List.sum_nil, add_zero, hw]
        have v1 := step 0
        have v2 := step 1
        have v3 := step 2
        fin_cases q
        · rfl
        · exact v1.symm
        · exact v2.symm
        · exact v3.symm
    · intro st hst
      simpa using hst
  -- outer-core terms
  obtain ⟨b, eb, hb⟩ := hK.oc s3.buf i3.buf
  have i4 := (show FullInv size M ({ s3 with buf := b } : FullState) _ from ⟨fun q => (hb q).1, i3.len, i3.val, i3.beyond⟩)
  obtain ⟨c0, ec0, cb0, ic0⟩ := axpy_inv hM i4 1 0 (b := oc 0) (hb 0)
  obtain ⟨c1, ec1, cb1, ic1⟩ := axpy_inv hM ic0 1 1 (b := oc 1) (by rw [cb0]; exact hb 1)
  obtain ⟨c2, ec2, cb2, ic2⟩ := axpy_inv hM ic1 1 2 (b := oc 2) (by rw [cb1, cb0]; exact hb 2)
  obtain ⟨c3, ec3, cb3, ic3⟩ := axpy_inv hM ic2 1 3 (b := oc 3) (by rw [cb2, cb1, cb0]; exact hb 3)
  refine ⟨c3.out, ?_, fun p hp => ⟨?_, fun k => ?_⟩, fun q => ⟨ic3.len q, fun p hp => ic3.beyond q p hp⟩⟩
  · unfold fullGrpp
    simp only [Outcome.assert_pos, Outcome.ok_bind, ← hsize, e0, e1, e2, e3]
    rw [el1]
    simp only [Outcome.ok_bind]
    rw [es1]
    simp only [Outcome.ok_bind]
    rw [es2]
    simp only [Outcome.ok_bind]
    rw [es3]
    simp only [Outcome.ok_bind, eb, ec0, ec1, ec2, ec3]
  · rw [ic3.val 0 p hp]
    simp [Function.update]
  · rw [ic3.val k.succ p hp]
    fin_cases k <;> simp [Function.update, Fin.cons] <;> rfl

/-- **C43.** For routines which accept all potentials: whatever the output matrices contained, the scalar matrix becomes the local part plus the sum of the semilocal
parts plus the outer-core part; each spin-orbit matrix becomes the sum of the spin-orbit parts weighted by `2/(2l+1)` plus
the outer-core part. Nothing beyond the `A × B` elements is written. -/
theorem full_is_sum (K : Kernels) (A B : Shell) (g : GrppData) (C : Point) {t1 : Option Potential → Nat → ℝ}
    {t2 : Potential → Nat → ℝ} {so : Potential → Fin 3 → Nat → ℝ} {oc : List (Potential × Shell) → Fin 4 → Nat → ℝ}
    (hK : K.Computes A B C t1 t2 so oc) (M : Fin 4 → List ℝ) (hM : ∀ q, A.cart_size * B.cart_size ≤ (M q).length) :
    ∃ M', fullGrpp K true A B g C M = .ok M' ∧
      (∀ p, p < A.cart_size * B.cart_size →
        (M' 0)[p]? = some (t1 g.local_ p + (g.arep.map fun u => t2 u p).sum + oc g.oc 0 p) ∧
        ∀ k : Fin 3, (M' k.succ)[p]? =
          some ((g.esop.map fun u => 2 / (2 * (u.L : ℝ) + 1) * so u k p).sum + oc g.oc k.succ p)) ∧
      ∀ q, (M' q).length = (M q).length ∧ ∀ p, A.cart_size * B.cart_size ≤ p → (M' q)[p]? = (M q)[p]? :=
  full_is_sum_for K A B g C ⟨hK.type1 _, fun u _ => hK.type2 u, fun u _ => hK.so u, hK.oc _⟩ M hM

/-- **C43** (assertion): without `libgrpp_init` the routine aborts. -/
theorem full_requires_init (K : Kernels) (A B : Shell) (g : GrppData) (C : Point) (M : Fin 4 → List ℝ) :
    fullGrpp K false A B g C M = .abort := by
  unfold fullGrpp
  rw [Outcome.assert_neg (by decide)]
  rfl

/-- **C43** (order): the order in which potentials were attached does not matter, nor do the previous contents of the
output matrices. -/
theorem full_order (K : Kernels) (A B : Shell) (g g' : GrppData) (C : Point) {t1 : Option Potential → Nat → ℝ}
    {t2 : Potential → Nat → ℝ} {so : Potential → Fin 3 → Nat → ℝ} {oc : List (Potential × Shell) → Fin 4 → Nat → ℝ}
    (hK : K.Computes A B C t1 t2 so oc) (h0 : g.local_ = g'.local_) (h1 : g.arep.Perm g'.arep) (h2 : g.esop.Perm g'.esop)
    (h3 : g.oc = g'.oc) (M N : Fin 4 → List ℝ) (hM : ∀ q, (M q).length = A.cart_size * B.cart_size)
    (hN : ∀ q, (N q).length = A.cart_size * B.cart_size) :
    ∃ R, fullGrpp K true A B g C M = .ok R ∧ fullGrpp K true A B g' C N = .ok R := by
  obtain ⟨R, e, v, l⟩ := full_is_sum K A B g C hK M (fun q => (hM q).ge)
  obtain ⟨R', e', v', l'⟩ := full_is_sum K A B g' C hK N (fun q => (hN q).ge)
  refine ⟨R, e, ?_⟩
  rw [e']
  congr 1
  funext q
  refine List.ext_getElem? fun p => ?_
  by_cases hp : p < A.cart_size * B.cart_size
  · refine Fin.cases ?_ (fun k => ?_) q
    · rw [(v p hp).1, (v' p hp).1, h0, h3, (h1.map fun u => t2 u p).sum_eq]
    · rw [(v p hp).2 k, (v' p hp).2 k, h3, (h2.map fun u => 2 / (2 * (u.L : ℝ) + 1) * so u k p).sum_eq]
  · rw [List.getElem?_eq_none (by rw [(l' q).1, hN]; omega), List.getElem?_eq_none (by rw [(l q).1, hM]; omega)]

/-! ## Non-vacuity -/

/-- Routines that fill the matrices with numbers depending on the potentials. -/
noncomputable def exampleKernels : Kernels where
  type1 A B _ pot _ := .ok (List.replicate (A.cart_size * B.cart_size) (if pot.isSome then 3 else 0))
  type2 A B _ pot _ := .ok (List.replicate (A.cart_size * B.cart_size) (pot.L : ℝ))
  so A B _ pot _ := .ok fun k => List.replicate (A.cart_size * B.cart_size) ((pot.L : ℝ) * (k.val : ℝ))
  oc A B _ s _ := .ok fun q => List.replicate (A.cart_size * B.cart_size) ((s.length : ℝ) + (q.val : ℝ))

theorem exampleKernels_computes (A B : Shell) (C : Point) : exampleKernels.Computes A B C
    (fun pot _ => if pot.isSome then 3 else 0) (fun pot _ => pot.L) (fun pot k _ => (pot.L : ℝ) * (k.val : ℝ))
    (fun s q _ => (s.length : ℝ) + (q.val : ℝ)) := by
  have key : ∀ n (x : ℝ), BufIs n (List.replicate n x) fun _ => x :=
    fun n x => ⟨by simp, fun p hp => by simp [hp]⟩
  exact ⟨fun _ _ _ => ⟨_, rfl, key _ _⟩, fun _ _ _ => ⟨_, rfl, key _ _⟩, fun _ _ _ => ⟨_, rfl, fun k => key _ _⟩,
    fun _ _ _ => ⟨_, rfl, fun q => key _ _⟩⟩

/-- Two s shells, a local potential absent, semilocal potentials with L = 1, 2 and a spin-orbit potential with L = 1:
scalar part 0 + (1 + 2) + 0, spin-orbit y part 2/3 + 2. -/
example : ∃ M, fullGrpp exampleKernels true (Shell.mk 0 0 1 [(0, 0, 0)] 0 [] []) (Shell.mk 0 0 1 [(0, 0, 0)] 0 [] [])
    ⟨none, [⟨1, 0, 0, [], [], []⟩, ⟨2, 0, 0, [], [], []⟩], [⟨1, 1, 0, [], [], []⟩], []⟩ 0 (fun _ => [7]) = .ok M ∧
    (M 0)[0]? = some 3 ∧ (M 2)[0]? = some (2 / 3 + 2) := by
  obtain ⟨M, e, v, -⟩ := full_is_sum exampleKernels (Shell.mk 0 0 1 [(0, 0, 0)] 0 [] []) (Shell.mk 0 0 1 [(0, 0, 0)] 0 [] [])
    ⟨none, [⟨1, 0, 0, [], [], []⟩, ⟨2, 0, 0, [], [], []⟩], [⟨1, 1, 0, [], [], []⟩], []⟩ 0 (exampleKernels_computes _ _ _)
    (fun _ => [7]) (by simp)
  refine ⟨M, e, ?_, ?_⟩
  · rw [(v 0 (by norm_num)).1]; norm_num
  · rw [show (2 : Fin 4) = Fin.succ 1 from rfl, (v 0 (by norm_num)).2 1]
    norm_num

end Libgrpp
