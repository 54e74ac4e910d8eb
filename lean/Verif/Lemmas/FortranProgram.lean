import Verif.Model.FortranProgram
import Verif.Lemmas.FortranMatrix
import Verif.Props.FortranRpp
import Verif.Props.FortranFiles
import Verif.Props.FortranGradient

/-! # Auxiliary lemmas for Props/FortranProgram -/

namespace Libgrpp

/-! ## The label `L` of the local potential is not used -/

/-- The pseudopotential with another label `L` in the local potential. -/
def relabelLocal (n : Int) (g : GrppData) : GrppData := { g with local_ := g.local_.map fun p => { p with L := n } }

theorem type1_relabel (sf : SpecFun) (init : Bool) (A B : Shell) (C : Point) (l : Option Potential) (n : Int) (out : List ℝ) :
    type1Integrals sf init A B C (l.map fun p => { p with L := n }) out = type1Integrals sf init A B C l out := by
  cases l <;> rfl

section
variable {G : Type} (lib : Lib G) (sf : SpecFun)

theorem driverPair_relabel (A B : Shell) (n : Int) (g : GrppData) (C : Point) (M : Fin 4 → List ℝ) :
    driverPair (libKernels lib sf) A B (relabelLocal n g) C M = driverPair (libKernels lib sf) A B g C M := by
  unfold driverPair relabelLocal
  simp only [libKernels, type1_relabel]

theorem fullGrpp_relabel (init : Bool) (A B : Shell) (n : Int) (g : GrppData) (C : Point) (M : Fin 4 → List ℝ) :
    fullGrpp (libKernels lib sf) init A B (relabelLocal n g) C M = fullGrpp (libKernels lib sf) init A B g C M := by
  unfold fullGrpp relabelLocal
  simp only [libKernels, type1_relabel]

/-- The same pseudopotentials, up to these labels. -/
def SameLabels (atoms : List (Nat × Point)) (fg cg : List (Option GrppData)) : Prop :=
  ∀ a ∈ atoms, (fg[a.1]? = some none ∧ cg[a.1]? = some none) ∨ ∃ g n, fg[a.1]? = some (some g) ∧ cg[a.1]? = some (some (relabelLocal n g))

theorem evalGrpp_relabel (shells : List Shell) {atoms : List (Nat × Point)} {fg cg : List (Option GrppData)} (h : SameLabels atoms fg cg)
    (order : Nat → List Nat) (bufs : Nat → Fin 4 → List ℝ) (M : Fin 4 → List ℝ) :
    evalGrpp (libKernels lib sf) shells atoms cg order bufs M = evalGrpp (libKernels lib sf) shells atoms fg order bufs M := by
  have key : ∀ dim offsets pairs buf ipair M, driverIteration (libKernels lib sf) shells atoms cg dim offsets pairs buf ipair M =
      driverIteration (libKernels lib sf) shells atoms fg dim offsets pairs buf ipair M := by
    intro dim offsets pairs buf ipair M
    unfold driverIteration
    refine congrArg _ (funext fun i => congrArg _ (funext fun j => congrArg _ (funext fun io => congrArg _ (funext fun jo => congrArg _ (funext fun bra =>
      congrArg _ (funext fun ket => ?_))))))
    rw [forRange_body_congr fun ia hia st => ?_]
    rw [rd_ok hia, Outcome.ok_bind, Outcome.ok_bind]
    rcases h _ (List.getElem_mem hia) with ⟨h1, h2⟩ | ⟨g, n, h1, h2⟩
    · rw [rd_some h1, rd_some h2]
    · rw [rd_some h1, rd_some h2, Outcome.ok_bind, Outcome.ok_bind]
      simp only [driverPair_relabel]
  unfold evalGrpp
  simp only [key]

theorem evalGrppGrad_relabel (gen : Nat → List Comp) (junk : Nat → Nat → Nat → Nat → Option (Nat → ℝ)) (init : Bool) (shells : List Shell)
    {atoms : List (Nat × Point)} {fg cg : List (Option GrppData)} (h : SameLabels atoms fg cg) (grads : Fin 4 → List (List ℝ)) :
    evalGrppGrad gen junk (fun g C S T M => fullGrpp (libKernels lib sf) init S T g C M) shells atoms cg grads =
      evalGrppGrad gen junk (fun g C S T M => fullGrpp (libKernels lib sf) init S T g C M) shells atoms fg grads := by
  unfold evalGrppGrad
  refine congrArg _ (funext fun dim => congrArg _ (funext fun io => funext fun jo => funext fun bra => funext fun ket => funext fun gr => ?_))
  refine forRange_body_congr fun ia hia gr => ?_
  refine congrArg _ (funext fun atom => forRange_body_congr fun ir hir gr => ?_)
  rw [rd_ok hir, Outcome.ok_bind, Outcome.ok_bind]
  rcases h _ (List.getElem_mem hir) with ⟨h1, h2⟩ | ⟨g, n, h1, h2⟩
  · rw [rd_some h1, rd_some h2]
  · rw [rd_some h1, rd_some h2, Outcome.ok_bind, Outcome.ok_bind]
    simp only [fullGrpp_relabel]

theorem SameLabels.mem {atoms : List (Nat × Point)} {fg cg : List (Option GrppData)} (h : SameLabels atoms fg cg) {o : GrppData × Point}
    (ho : o ∈ moleculeGrpps atoms fg) : ∃ n, (relabelLocal n o.1, o.2) ∈ moleculeGrpps atoms cg := by
  unfold moleculeGrpps at ho ⊢
  obtain ⟨a, ha, e⟩ := List.mem_filterMap.1 ho
  rcases h a ha with ⟨h1, h2⟩ | ⟨g, n, h1, h2⟩
  · rw [List.getD_eq_getElem?_getD, h1] at e
    cases e
  · rw [List.getD_eq_getElem?_getD, h1] at e
    cases e
    exact ⟨n, List.mem_filterMap.2 ⟨a, ha, by rw [List.getD_eq_getElem?_getD, h2]; rfl⟩⟩

theorem SameLabels.mem' {atoms : List (Nat × Point)} {fg cg : List (Option GrppData)} (h : SameLabels atoms fg cg) {o : GrppData × Point}
    (ho : o ∈ moleculeGrpps atoms cg) : ∃ o' ∈ moleculeGrpps atoms fg, o'.2 = o.2 := by
  unfold moleculeGrpps at ho ⊢
  obtain ⟨a, ha, e⟩ := List.mem_filterMap.1 ho
  rcases h a ha with ⟨h1, h2⟩ | ⟨g, n, h1, h2⟩
  · rw [List.getD_eq_getElem?_getD, h2] at e
    cases e
  · rw [List.getD_eq_getElem?_getD, h2] at e
    cases e
    exact ⟨(g, a.2), List.mem_filterMap.2 ⟨a, ha, by rw [List.getD_eq_getElem?_getD, h1]; rfl⟩, rfl⟩

theorem GrppReady.of_relabel {gen : Nat → List Comp} {A B : Shell} {C : Point} {n : Int} {g : GrppData} (h : GrppReady gen A B C (relabelLocal n g)) :
    GrppReady gen A B C g := by
  refine ⟨fun p hp => ?_, h.arep, h.esop, h.oc⟩
  exact h.local_ { p with L := n } (by simp [relabelLocal, hp])

theorem DriverInput.of_labels {gen : Nat → List Comp} {shells : List Shell} {atoms : List (Nat × Point)} {fg cg : List (Option GrppData)}
    (h : SameLabels atoms fg cg) (hd : DriverInput gen shells atoms cg) : DriverInput gen shells atoms fg := by
  refine ⟨hd.usable, fun a ha => ?_, fun A hA B hB o ho => ?_, fun A hA B hB o ho => ?_, hd.dim, hd.pairs⟩
  · rcases h a ha with ⟨h1, -⟩ | ⟨g, n, h1, -⟩ <;> exact (List.getElem?_eq_some_iff.1 h1).1
  · obtain ⟨n, hn⟩ := h.mem ho
    exact hd.place A hA B hB (relabelLocal n o.1, o.2) hn
  · obtain ⟨n, hn⟩ := h.mem ho
    exact (hd.ready A hA B hB _ hn).of_relabel

theorem GradDriverInput.of_labels {gen : Nat → List Comp} {shells : List Shell} {atoms : List (Nat × Point)} {fg cg : List (Option GrppData)}
    (h : SameLabels atoms fg cg) (hd : GradDriverInput gen shells atoms cg) : GradDriverInput gen shells atoms fg := by
  refine ⟨fun A hA B hB o ho => ?_, hd.atoms_ok, fun a ha => ?_, hd.dim⟩
  · obtain ⟨n, hn⟩ := h.mem ho
    have := hd.input A hA B hB _ hn
    exact ⟨this.made_bra, this.made_ket, this.L_bra, this.L_ket, this.num_bra, this.num_ket, this.kept_bra, this.kept_ket, this.place,
      this.up_bra.of_relabel, this.up_ket.of_relabel⟩
  · rcases h a ha with ⟨h1, -⟩ | ⟨g, n, h1, -⟩ <;> exact (List.getElem?_eq_some_iff.1 h1).1

end

/-! ## Two loops at once -/

theorem bind_eq_ok {α β : Type} {x : Outcome α} {f : α → Outcome β} {b : β} (h : (x >>= f) = .ok b) : ∃ a, x = .ok a ∧ f a = .ok b := by
  cases x with
  | ok a => exact ⟨a, rfl, h⟩
  | ub => cases h
  | abort => cases h
  | exit => cases h

theorem forRange_pair {σ τ : Type} {n : Nat} {a a' : σ} {b b' : τ} {f : Nat → σ → Outcome σ} {g : Nat → τ → Outcome τ} (h1 : forRange n a f = .ok a')
    (h2 : forRange n b g = .ok b') : (forRange n (a, b) fun i st => do
      let x ← f i st.1
      let y ← g i st.2
      .ok (x, y)) = .ok (a', b') := by
  induction n generalizing a' b' with
  | zero => cases h1; cases h2; rfl
  | succ n ih =>
    rw [forRange_succ] at h1 h2
    obtain ⟨u, e1, e2⟩ := bind_eq_ok h1
    obtain ⟨v, e3, e4⟩ := bind_eq_ok h2
    rw [forRange_succ, ih e1 e3, Outcome.ok_bind]
    simp only [e2, e4, Outcome.ok_bind]

/-! ## The first loop -/

/-- The arrays of the module `basis` after the first loop. -/
theorem first_basis_spec {gen : Nat → List Comp} (hg : DocumentedOrder gen) {num : FtnNum} {es : List (Nat × List BasisBlock)} {recs : List FRecord}
    (hf : BasisFileRecs num es (nonBlank recs)) (charges : List Nat) (entries : Nat → List BasisBlock)
    (hz : ∀ z ∈ charges, 1 ≤ z ∧ z ≤ 131) (he : ∀ z ∈ charges, lastEntry z es = some (entries z))
    (hlim : ∀ z ∈ charges, ∀ bs, (z, bs) ∈ es → FtnLimits bs) (hlimz : ∀ z ∈ charges, FtnLimits (entries z))
    (hok : ∀ z ∈ charges, ∀ L (h : L < (entries z).length), (entries z)[L].Ok L) (basis : List FBasis) (hs : BasisSized basis) :
    ∃ basis', forRange charges.length basis (fun i basis => do
      let z ← rd charges i
      let basis ← ftnBasisLoop num z basis recs
      ftnNormalize gen z basis) = .ok basis' ∧ BasisSized basis' ∧ (∀ z ∈ charges, ∃ b, basis'[z - 1]? = some b ∧ EntryRows RowNormed (entries z) b) ∧
      ∀ i, (∀ z ∈ charges, i ≠ z - 1) → basis'[i]? = basis[i]? := by
  have hinj : ∀ z ∈ charges, ∀ z' ∈ charges, z - 1 = z' - 1 → z = z' := fun z h z' h' e => by
    have := hz z h; have := hz z' h'; omega
  refine forRange_spec (fun m b => BasisSized b ∧ (∀ z ∈ charges.take m, ∃ c, b[z - 1]? = some c ∧ EntryRows RowNormed (entries z) c) ∧
    ∀ i, (∀ z ∈ charges, i ≠ z - 1) → b[i]? = basis[i]?) ?_ ?_ ?_
  · exact ⟨hs, fun z h => by simp at h, fun _ _ => rfl⟩
  · rintro m b hm ⟨g1, g2, g3⟩
    have hmem : charges[m] ∈ charges := List.getElem_mem hm
    obtain ⟨b1, k1, k2, k3, -, k5⟩ := read_basis_file (hz _ hmem) hf (hlim _ hmem) recs b rfl g1
    obtain ⟨c, q1, q2⟩ := k5 _ (he _ hmem)
    obtain ⟨b2, r1, r2, r3, c', r4, r5⟩ := normalize_spec hg (hz _ hmem) (hlimz _ hmem) (hok _ hmem) k2 q1 q2.rows
    refine ⟨b2, by simp only [rd_ok hm, Outcome.ok_bind, k1, r1], r2, fun z hzm => ?_, fun i hi => by rw [r3 _ (hi _ hmem), k3 _ (hi _ hmem), g3 i hi]⟩
    by_cases hzz : z = charges[m]
    · rw [hzz]; exact ⟨c', r4, r5⟩
    · rw [List.take_add_one, List.getElem?_eq_getElem hm, List.mem_append] at hzm
      rcases hzm with hzm | hzm
      · obtain ⟨d, d1, d2⟩ := g2 z hzm
        have hne : z - 1 ≠ charges[m] - 1 := fun e => hzz (hinj _ (List.mem_of_mem_take hzm) _ hmem e)
        exact ⟨d, by rw [r3 _ hne, k3 _ hne]; exact d1, d2⟩
      · exact absurd (by simpa using hzm) hzz
  · rintro b ⟨g1, g2, g3⟩
    rw [List.take_length] at g2
    exact ⟨g1, g2, g3⟩

/-- The arrays of the module `ecp` after the first loop. -/
theorem first_ecp_spec {num : FtnNum} {es : List (Nat × List BasisBlock × List PotBlock)} {recs : List FRecord} (hf : RppFileRecs num es (nonBlank recs))
    (charges : List Nat) (hz : ∀ z ∈ charges, 1 ≤ z ∧ z ≤ 131) (hlim : ∀ z ∈ charges, ∀ cs ps, firstEntry z es = some (cs, ps) → RppLimits cs ps)
    {ecp : List FEcp} (hs : EcpSized ecp) :
    ∃ ecp', ftnMainRpp num recs charges ecp = .ok ecp' ∧ EcpSized ecp' ∧ (∀ z ∈ charges, ∃ e, ecp'[z - 1]? = some e ∧ EcpRead es z e) ∧
      ∀ i, (∀ z ∈ charges, i ≠ z - 1) → ecp'[i]? = ecp[i]? := by
  unfold ftnMainRpp
  refine forRange_spec (fun m ecp' => EcpSized ecp' ∧ (∀ z ∈ charges.take m, ∃ e, ecp'[z - 1]? = some e ∧ EcpRead es z e) ∧
    ∀ i, (∀ z ∈ charges, i ≠ z - 1) → ecp'[i]? = ecp[i]?) ⟨hs, by simp, fun _ _ => rfl⟩ ?_ ?_
  · rintro m ecp1 hm ⟨h1, h2, h3⟩
    have hmem : charges[m] ∈ charges := List.getElem_mem hm
    obtain ⟨ecp2, a1, a2, a3, e, e', a4, a5, a6, -⟩ := read_rpp_file (hz _ hmem) hf (hlim _ hmem) h1
    refine ⟨ecp2, by rw [rd_ok hm, Outcome.ok_bind, a1], a2, fun z hzm => ?_, fun i hi => by rw [a3 _ (hi _ hmem), h3 i hi]⟩
    rw [List.take_add_one, List.mem_append, List.getElem?_eq_getElem hm] at hzm
    by_cases hzz : z = charges[m]
    · exact ⟨e', by rw [hzz]; exact a5, by rw [hzz]; exact a6⟩
    · rcases hzm with hzm | hzm
      · obtain ⟨e1, c1, c2⟩ := h2 z hzm
        refine ⟨e1, ?_, c2⟩
        have := hz z (List.mem_of_mem_take hzm)
        have := hz _ hmem
        rw [a3 _ (by omega)]; exact c1
      · exact absurd (by simpa using hzm) hzz
  · rintro ecp1 ⟨h1, h2, h3⟩
    exact ⟨h1, fun z hzm => h2 z (by rw [List.take_of_length_le le_rfl]; exact hzm), h3⟩

/-- The arrays of an element are consistent. -/
theorem EntryRows.ok {P : Nat → BasisBlock → Nat → List ℝ → Prop} {bs : List BasisBlock} {b : FBasis} (g2 : EntryRows P bs b) (hlimz : FtnLimits bs)
    (hsz : ElementSized b) : b.Ok := by
  refine ⟨by rw [g2.num, hsz.blocks]; exact hlimz.len, fun L hL => ?_⟩
  rw [g2.num] at hL
  obtain ⟨k, k1, k2⟩ := g2.block L hL
  have e1 : b.block L = k := by unfold FBasis.block; rw [List.getD_eq_getElem?_getD, k1]; rfl
  have hks := hsz.sized k (List.mem_of_getElem? k1)
  have hmem := List.getElem_mem hL
  rw [e1]
  refine ⟨by rw [k2.contr, hks.funs]; exact hlimz.nc _ hmem, by rw [k2.prim, hks.exps]; exact hlimz.np _ hmem, fun i hi => ?_⟩
  rw [k2.contr] at hi
  obtain ⟨row, r1, -⟩ := k2.funs i hi
  have e2 : k.coeffs.getD i [] = row := by rw [List.getD_eq_getElem?_getD, r1]; rfl
  rw [e2, hks.coeffs row (List.mem_of_getElem? r1), k2.prim]
  exact hlimz.np _ hmem

/-! ## Printing -/

theorem forRange_unit {n : Nat} {body : Nat → Unit → Outcome Unit} (h : ∀ i < n, body i () = .ok ()) : forRange n () body = .ok () := by
  obtain ⟨u, e, -⟩ := forRange_spec (n := n) (s := ()) (body := body) (fun _ _ => True) (Q := fun _ => True) trivial
    (fun i u hi _ => ⟨(), h i hi, trivial⟩) fun _ _ => trivial
  exact e

theorem editOk_functions (nc : Nat) : EditOk (.real :: .char :: List.replicate 20 .real) (.real :: .char :: List.replicate nc .real) ↔ nc ≤ 21 := by
  constructor
  · intro h
    by_contra hn
    have := h 23 (by simp; omega)
    simp only [List.length_cons, List.length_replicate, List.getElem?_cons_succ] at this
    rw [List.getElem?_replicate, if_pos (by omega)] at this
    simp at this
  · intro h i hi
    simp only [List.length_cons, List.length_replicate] at hi ⊢
    match i with
    | 0 => rfl
    | 1 => rfl
    | i + 2 =>
      rw [List.getElem?_cons_succ, List.getElem?_cons_succ, List.getElem?_replicate, if_pos (by omega)]
      by_cases h22 : i + 2 = 22
      · rw [h22]; rfl
      · rw [Nat.mod_eq_of_lt (by omega), List.getElem?_cons_succ, List.getElem?_cons_succ, List.getElem?_replicate, if_pos (by omega)]

theorem editOk_pots (n : Nat) : EditOk (.int :: List.replicate 20 .real) (.int :: .real :: List.replicate n .real) ↔ n ≤ 19 := by
  constructor
  · intro h
    by_contra hn
    have := h 21 (by simp; omega)
    simp only [List.length_cons, List.length_replicate, List.getElem?_cons_succ] at this
    rw [List.getElem?_replicate, if_pos (by omega)] at this
    simp at this
  · intro h i hi
    simp only [List.length_cons, List.length_replicate] at hi ⊢
    rw [Nat.mod_eq_of_lt (by omega)]
    match i with
    | 0 => rfl
    | 1 => rfl
    | i + 2 =>
      rw [List.getElem?_cons_succ, List.getElem?_cons_succ, List.getElem?_cons_succ, List.getElem?_replicate, List.getElem?_replicate, if_pos (by omega), if_pos (by omega)]

theorem printFuns_ok {np nc : Nat} {exps : List ℝ} {coeffs : List (List ℝ)} (he : np ≤ exps.length) (hc : nc ≤ coeffs.length)
    (hr : ∀ f < nc, np ≤ (coeffs.getD f []).length) (h : nc ≤ 21) : ftnPrintFuns np nc exps coeffs = .ok () := by
  refine forRange_unit fun ip hip => ?_
  rw [rd_ok (by omega), Outcome.ok_bind, forRange_unit fun f hf => ?_, Outcome.ok_bind, Outcome.valid_pos ((editOk_functions nc).2 h)]
  have := hr f hf
  rw [List.getD_eq_getElem _ _ (by omega)] at this
  rw [rd_ok (by omega : f < coeffs.length), Outcome.ok_bind, rd_ok (by omega), Outcome.ok_bind]

/-- A statement which cannot end otherwise than normally or undefined. -/
abbrev Quiet (o : Outcome Unit) : Prop := OkUb (fun _ => True) o

theorem quiet_ok : Quiet (.ok ()) := Or.inl ⟨(), rfl, trivial⟩

theorem quiet_valid (p : Prop) [Decidable p] : Quiet (Outcome.valid p) := by
  by_cases h : p
  · rw [Outcome.valid_pos h]; exact quiet_ok
  · rw [Outcome.valid_neg h]; exact Or.inr rfl

theorem Quiet.rd {α : Type} (l : List α) (i : Nat) {f : α → Outcome Unit} (h : ∀ a, Quiet (f a)) : Quiet (rd l i >>= f) := (okUb_rd l i).bind fun a _ => h a

theorem Quiet.then {x y : Outcome Unit} (h1 : Quiet x) (h2 : Quiet y) : Quiet (x >>= fun _ => y) := OkUb.bind h1 fun _ _ => h2

theorem Quiet.then_ub {x : Outcome Unit} {f : Unit → Outcome Unit} (h : Quiet x) (hf : f () = .ub) : (x >>= f) = .ub := by
  rcases h with ⟨-, rfl, -⟩ | rfl
  · exact hf
  · rfl

theorem quiet_range {n : Nat} {body : Nat → Unit → Outcome Unit} (h : ∀ i, Quiet (body i ())) : Quiet (forRange n () body) :=
  (forRange_okUb (fun _ _ => True) trivial fun i _ _ _ => h i).1

theorem quiet_range_ub {n : Nat} {body : Nat → Unit → Outcome Unit} (h : ∀ i, Quiet (body i ())) {k : Nat} (hk : k < n) (hub : body k () = .ub) :
    forRange n () body = .ub :=
  (forRange_okUb (fun _ _ => True) trivial fun i _ _ _ => h i).2 k hk fun _ _ => hub

theorem quiet_cells (n ip : Nat) (l : List (List ℝ)) : Quiet (forRange n () fun f _ => do
    let c ← rd l f
    let _ ← rd c ip
    .ok ()) := quiet_range fun f => Quiet.rd _ _ fun c => Quiet.rd _ _ fun _ => quiet_ok

theorem quiet_funs (np nc : Nat) (exps : List ℝ) (coeffs : List (List ℝ)) : Quiet (ftnPrintFuns np nc exps coeffs) :=
  quiet_range fun ip => Quiet.rd _ _ fun _ => (quiet_cells nc ip coeffs).then (quiet_valid _)

theorem printFuns_ub {np nc : Nat} {exps : List ℝ} {coeffs : List (List ℝ)} (hnp : 0 < np) (h : 21 < nc) : ftnPrintFuns np nc exps coeffs = .ub := by
  refine quiet_range_ub (fun ip => Quiet.rd _ _ fun _ => (quiet_cells nc ip coeffs).then (quiet_valid _)) hnp ?_
  rcases okUb_rd exps 0 with ⟨x, e, -⟩ | e
  · rw [e, Outcome.ok_bind]
    refine (quiet_cells nc 0 coeffs).then_ub ?_
    rw [Outcome.valid_neg (fun hh => absurd ((editOk_functions nc).1 hh) (by omega))]
  · rw [e]; rfl

theorem quiet_basis (b : FBasis) : Quiet (ftnPrintBasis b) :=
  quiet_range fun L => (quiet_valid _).then (Quiet.rd _ _ fun _ => quiet_funs ..)

theorem printBasis_ok {b : FBasis} (hb : b.Ok) (h10 : b.numBlocks ≤ 10) (hn : ∀ L < b.numBlocks, (b.block L).numContr ≤ 21) : ftnPrintBasis b = .ok () := by
  refine forRange_unit fun L hL => ?_
  have hLb : L < b.blocks.length := lt_of_lt_of_le hL hb.blocks
  have eL : b.blocks[L] = b.block L := by unfold FBasis.block; rw [List.getD_eq_getElem _ _ hLb]
  have := hb.each L hL
  rw [Outcome.valid_pos (by omega), Outcome.ok_bind, rd_ok hLb, Outcome.ok_bind, eL]
  exact printFuns_ok this.prim this.contr this.rows (hn L hL)

theorem printBasis_ub {b : FBasis} {L : Nat} {k : FBlock} (hL : L < b.numBlocks) (hk : b.blocks[L]? = some k) (h0 : 0 < k.numPrim) (hn : 21 < k.numContr) :
    ftnPrintBasis b = .ub := by
  refine quiet_range_ub (fun L => (quiet_valid _).then (Quiet.rd _ _ fun _ => quiet_funs ..)) hL ?_
  refine (quiet_valid _).then_ub ?_
  rw [rd_some hk, Outcome.ok_bind, printFuns_ub h0 hn]

theorem quiet_core (e : FEcp) : Quiet (ftnPrintCore e) := quiet_range fun L => Quiet.rd _ _ fun r => by
  split_ifs
  · exact quiet_ok
  · exact (quiet_valid _).then (quiet_funs ..)

theorem quiet_semilocal (e : FEcp) : Quiet (ftnPrintSemilocal e) := quiet_range fun L => (quiet_valid _).then (Quiet.rd _ _ fun r =>
  quiet_range fun ip => Quiet.rd _ _ fun _ => Quiet.rd _ _ fun _ => Quiet.rd _ _ fun _ => Quiet.rd _ _ fun _ => quiet_valid _)

theorem quiet_ocLines (r : FEcpRow) (ip : Nat) : Quiet (do
    let _ ← rd r.powers ip
    let _ ← rd r.alpha ip
    forRange r.numOc () fun i _ => do
      let c ← rd r.ocpot i
      let _ ← rd c ip
      .ok ()
    Outcome.valid (EditOk (.int :: List.replicate 20 .real) (.int :: .real :: List.replicate r.numOc .real))) :=
  Quiet.rd _ _ fun _ => Quiet.rd _ _ fun _ => (quiet_cells _ _ _).then (quiet_valid _)

theorem quiet_ocPots (e : FEcp) : Quiet (ftnPrintOcPots e) := quiet_range fun L => Quiet.rd _ _ fun r => by
  split_ifs
  · exact quiet_ok
  · exact (quiet_valid _).then (quiet_range fun ip => quiet_ocLines r ip)

theorem quiet_ecp (e : FEcp) : Quiet (ftnPrintEcp e) := (quiet_core e).then ((quiet_semilocal e).then (quiet_ocPots e))

theorem printEcp_ok {e : FEcp} (he : e.Ok) (hn : ∀ L < e.numArep, (e.row L).numOc ≤ 19) : ftnPrintEcp e = .ok () := by
  have hrow : ∀ L < e.numArep, rd e.rows L = .ok (e.row L) ∧ L < 10 := fun L hL => by
    have h1 := he.rows
    have h2 := he.num
    refine ⟨?_, by omega⟩
    rw [rd_ok (by omega)]
    unfold FEcp.row
    rw [List.getD_eq_getElem _ _ (by omega)]
  have h1 : ftnPrintCore e = .ok () := forRange_unit fun L hL => by
    obtain ⟨e1, e2⟩ := hrow L hL
    rw [e1, Outcome.ok_bind]
    split_ifs with h0
    · rfl
    · have := he.oc L e2 (by omega)
      rw [Outcome.valid_pos e2, Outcome.ok_bind]
      exact printFuns_ok this.ocAlpha this.funs this.fun_ (by have := hn L hL; omega)
  have h2 : ftnPrintSemilocal e = .ok () := forRange_unit fun L hL => by
    obtain ⟨e1, e2⟩ := hrow L hL
    have := he.pots L hL
    rw [Outcome.valid_pos e2, Outcome.ok_bind, e1, Outcome.ok_bind]
    refine forRange_unit fun ip hip => ?_
    rw [rd_ok (by have := this.powers; omega), Outcome.ok_bind, rd_ok (by have := this.alpha; omega), Outcome.ok_bind, rd_ok (by have := this.arep; omega),
      Outcome.ok_bind, rd_ok (by have := this.esop; omega), Outcome.ok_bind, Outcome.valid_pos (by decide)]
  have h3 : ftnPrintOcPots e = .ok () := forRange_unit fun L hL => by
    obtain ⟨e1, e2⟩ := hrow L hL
    rw [e1, Outcome.ok_bind]
    split_ifs with h0
    · rfl
    · have := he.oc L e2 (by omega)
      rw [Outcome.valid_pos e2, Outcome.ok_bind]
      refine forRange_unit fun ip hip => ?_
      rw [rd_ok (by have := this.powers; omega), Outcome.ok_bind, rd_ok (by have := this.alpha; omega), Outcome.ok_bind, forRange_unit fun i hi => ?_,
        Outcome.ok_bind, Outcome.valid_pos ((editOk_pots _).2 (hn L hL))]
      have hp := this.pot i hi
      have hq := this.pots
      rw [List.getD_eq_getElem _ _ (by omega)] at hp
      rw [rd_ok (by omega : i < (e.row L).ocpot.length), Outcome.ok_bind, rd_ok (by omega), Outcome.ok_bind]
  unfold ftnPrintEcp
  rw [h1, Outcome.ok_bind, h2, Outcome.ok_bind, h3]

theorem printEcp_ub_core {e : FEcp} {L : Nat} {r : FEcpRow} (hL : L < e.numArep) (hr : e.rows[L]? = some r) (h0 : 0 < r.ocNum) (hn : 21 < r.numOc) :
    ftnPrintEcp e = .ub := by
  have : ftnPrintCore e = .ub := by
    refine quiet_range_ub (fun L => Quiet.rd _ _ fun r => ?_) hL ?_
    · split_ifs
      · exact quiet_ok
      · exact (quiet_valid _).then (quiet_funs ..)
    · rw [rd_some hr, Outcome.ok_bind, if_neg (by omega)]
      exact (quiet_valid _).then_ub (printFuns_ub h0 hn)
  unfold ftnPrintEcp
  rw [this]; rfl

theorem printEcp_ub_pots {e : FEcp} {L : Nat} {r : FEcpRow} (hL : L < e.numArep) (hr : e.rows[L]? = some r) (h0 : 0 < r.numPrim) (hn : 19 < r.numOc) :
    ftnPrintEcp e = .ub := by
  have : ftnPrintOcPots e = .ub := by
    refine quiet_range_ub (fun L => Quiet.rd _ _ fun r => ?_) hL ?_
    · split_ifs
      · exact quiet_ok
      · exact (quiet_valid _).then (quiet_range fun ip => quiet_ocLines r ip)
    · rw [rd_some hr, Outcome.ok_bind, if_neg (by omega)]
      refine (quiet_valid _).then_ub (quiet_range_ub (fun ip => quiet_ocLines r ip) h0 ?_)
      rcases okUb_rd r.powers 0 with ⟨x, e1, -⟩ | e1
      · rw [e1, Outcome.ok_bind]
        rcases okUb_rd r.alpha 0 with ⟨x, e2, -⟩ | e2
        · rw [e2, Outcome.ok_bind]
          refine (quiet_cells _ _ _).then_ub ?_
          rw [Outcome.valid_neg (fun hh => absurd ((editOk_pots _).1 hh) (by omega))]
        · rw [e2]; rfl
      · rw [e1]; rfl
  unfold ftnPrintEcp
  exact (quiet_core e).then_ub ((quiet_semilocal e).then_ub this)

theorem printAll_ok {basis : List FBasis} {ecp : List FEcp} (h1 : basis.length = 131) (h2 : ecp.length = 131)
    (hb : ∀ b ∈ basis, b.numBlocks ≠ 0 → ftnPrintBasis b = .ok ()) (he : ∀ e ∈ ecp, e.numArep ≠ 0 → ftnPrintEcp e = .ok ()) :
    ftnPrintAll basis ecp = .ok () := by
  refine forRange_unit fun i hi => ?_
  rw [rd1_ok (by omega) (by omega), Outcome.ok_bind, rd1_ok (by omega) (by omega)]
  have e1 : (if basis[i + 1 - 1].numBlocks ≠ 0 then ftnPrintBasis basis[i + 1 - 1] else .ok ()) = .ok () := by
    split_ifs with h
    · exact hb _ (List.getElem_mem _) h
    · rfl
  have e2 : (if ecp[i + 1 - 1].numArep ≠ 0 then ftnPrintEcp ecp[i + 1 - 1] else .ok ()) = .ok () := by
    split_ifs with h
    · exact he _ (List.getElem_mem _) h
    · rfl
  rw [e1, Outcome.ok_bind, Outcome.ok_bind, e2]

theorem printAll_ub {basis : List FBasis} {ecp : List FEcp} (h1 : basis.length = 131) (h2 : ecp.length = 131) {i : Nat} (hi : i < 131)
    (h : (∃ b, basis[i]? = some b ∧ b.numBlocks ≠ 0 ∧ ftnPrintBasis b = .ub) ∨ ∃ e, ecp[i]? = some e ∧ e.numArep ≠ 0 ∧ ftnPrintEcp e = .ub) :
    ftnPrintAll basis ecp = .ub := by
  have hq1 : ∀ b : FBasis, Quiet (if b.numBlocks ≠ 0 then ftnPrintBasis b else .ok ()) := fun b => by
    split_ifs
    · exact quiet_basis b
    · exact quiet_ok
  have hq2 : ∀ e : FEcp, Quiet (if e.numArep ≠ 0 then ftnPrintEcp e else .ok ()) := fun e => by
    split_ifs
    · exact quiet_ecp e
    · exact quiet_ok
  have hrd : ∀ {α : Type} (l : List α) (i : Nat) {f : α → Outcome Unit}, (∀ a, Quiet (f a)) → Quiet (rd1 l (i + 1) >>= f) := fun l i f h => by
    unfold rd1
    rw [if_neg (by omega)]
    exact Quiet.rd _ _ h
  refine quiet_range_ub (fun i => hrd _ _ fun b => (hq1 b).then (hrd _ _ fun e => hq2 e)) hi ?_
  rw [rd1_ok (by omega) (by omega), Outcome.ok_bind, rd1_ok (by omega) (by omega)]
  rcases h with ⟨b, g1, g2, g3⟩ | ⟨e, g1, g2, g3⟩
  · obtain ⟨_, rfl⟩ := List.getElem?_eq_some_iff.1 g1
    simp only [Nat.add_sub_cancel]
    rw [if_pos g2, g3]; rfl
  · obtain ⟨_, rfl⟩ := List.getElem?_eq_some_iff.1 g1
    refine (hq1 _).then_ub ?_
    simp only [Nat.add_sub_cancel]
    rw [Outcome.ok_bind, if_pos g2, g3]

/-! ## Labels -/

/-- The basis functions in the order of the loops: the atom and the exponents. -/
def FMol.functions (mol : FMol) : List (Nat × Point × Comp) :=
  mol.atoms.flatMap fun a => ((mol.basisOf a.1).shells a.2).flatMap fun s => (cartesianDirac s.L).map fun c => (a.1, a.2, c)

/-- The first 16 characters of a text followed by spaces. -/
def padRight (n : Nat) (l : List Char) : List Char := l ++ List.replicate (n - l.length) ' '

theorem ftnLetters_ok (n : Nat) (c : Char) (l : List Char) (k : Nat) (h : k + n ≤ l.length) :
    ftnLetters n c (l, k) = .ok (l.take k ++ List.replicate n c ++ l.drop (k + n), k + n) := by
  have := foldlM_write (List.replicate n c) l k (by simpa using h)
  rw [List.length_replicate] at this
  have e : List.replicate n c = (List.range n).map fun _ => c := by rw [List.map_const', List.length_range]
  rw [← this, e, foldlM_map']
  unfold ftnLetters
  rw [forRange_foldlM]

theorem ftnFunLabel_ok {c : Comp} (h : c.1 + c.2.1 + c.2.2 ≤ 16) : ftnFunLabel c = .ok (padRight 16 (compText c)) := by
  obtain ⟨x, y, z⟩ := c
  simp only at h
  unfold ftnFunLabel
  simp only
  rw [ftnLetters_ok _ _ _ _ (by simp; omega), Outcome.ok_bind, List.take_zero, List.nil_append, Nat.zero_add,
    ftnLetters_ok _ _ _ _ (by simp; omega), Outcome.ok_bind, ftnLetters_ok _ _ _ _ (by simp; omega), Outcome.ok_bind]
  simp only
  congr 1
  have e0 : ('S' :: List.replicate 15 ' ').length = 16 := by simp
  generalize hl : 'S' :: List.replicate 15 ' ' = l at *
  have e1 : (List.replicate x 'X' ++ List.drop x l).take x = List.replicate x 'X' := by
    rw [List.take_append_of_le_length (by simp)]; simp
  have e2 : (List.replicate x 'X' ++ List.drop x l).drop (x + y) = l.drop (x + y) := by
    rw [List.drop_append]; simp
  rw [e1, e2]
  have e3 : (List.replicate x 'X' ++ List.replicate y 'Y' ++ l.drop (x + y)).take (x + y) = List.replicate x 'X' ++ List.replicate y 'Y' := by
    rw [List.take_append_of_le_length (by simp)]; simp
  have e4 : (List.replicate x 'X' ++ List.replicate y 'Y' ++ l.drop (x + y)).drop (x + y + z) = l.drop (x + y + z) := by
    rw [List.drop_append, List.drop_eq_nil_of_le (by simp), List.nil_append, List.drop_drop]
    congr 1
    simp
  rw [e3, e4]
  unfold padRight compText
  simp only
  rcases Nat.eq_zero_or_pos (x + y + z) with h0 | h0
  · obtain ⟨rfl, rfl, rfl⟩ : x = 0 ∧ y = 0 ∧ z = 0 := by omega
    simp [← hl]
  · have hne : List.replicate x 'X' ++ List.replicate y 'Y' ++ List.replicate z 'Z' ≠ [] := by
      intro hh
      have := congrArg List.length hh
      simp at this
      omega
    rw [if_neg hne]
    congr 1
    obtain ⟨k, hk⟩ : ∃ k, x + y + z = k + 1 := ⟨x + y + z - 1, by omega⟩
    rw [hk, ← hl, List.drop_succ_cons, List.drop_replicate]
    congr 1
    simp
    omega

theorem ftnLabels_fold {mol : FMol} (hm : mol.Ok) {cl : List Comp} 
    (hL : ∀ z ∈ mol.charges, ∀ L < (mol.basisOf z).numBlocks, cartSize L ≤ cl.length) (labels : List (List Char)) :
    ftnLabels mol cl labels = (do
      let r ← mol.functions.foldlM (fun (st : Nat × List (List Char)) f => do
        let l ← ftnFunLabel f.2.2
        let labels ← wr st.2 st.1 (ftnLabelLine (st.1 + 1) f.1 l)
        Outcome.ok (st.1 + 1, labels)) (0, labels)
      Outcome.ok r.2) := by
  have hl : mol.atoms.length = mol.charges.length := by simp [FMol.atoms, hm.coord]
  unfold ftnLabels FMol.functions
  congr 1
  rw [foldlM_flatMap', ← hl]
  refine forRange_list mol.atoms _ (fun a s => (((mol.basisOf a.1).shells a.2).flatMap fun s => (cartesianDirac s.L).map fun c => (a.1, a.2, c)).foldlM
    (fun (st : Nat × List (List Char)) (f : Nat × Point × Comp) => do
        let l ← ftnFunLabel f.2.2
        let labels ← wr st.2 st.1 (ftnLabelLine (st.1 + 1) f.1 l)
        Outcome.ok (st.1 + 1, labels)) s) (fun i hi s => ?_) _
  have hi' : i < mol.charges.length := by omega
  have hc : i < mol.coord.length := by rw [hm.coord]; exact hi'
  obtain ⟨h1, h2, -, h3⟩ := hm.charge _ (List.getElem_mem hi')
  have hb := hm.basis _ (List.getElem_mem hi')
  have hLz := hL _ (List.getElem_mem hi')
  have ea : mol.atoms[i] = (mol.charges[i], mol.coord[i]) := by simp [FMol.atoms]
  have eb : rd1 mol.basis mol.charges[i] = .ok (mol.basisOf mol.charges[i]) := by
    unfold rd1 FMol.basisOf
    rw [if_neg (by omega), rd_ok (by omega)]
    rw [List.getD_eq_getElem _ _ (by omega)]
  rw [rd_ok hi', Outcome.ok_bind, Outcome.valid_pos (by omega), Outcome.ok_bind, eb, Outcome.ok_bind, ea]
  generalize mol.basisOf mol.charges[i] = b at hb hLz ⊢
  unfold FBasis.shells
  rw [List.flatMap_assoc, foldlM_flatMap', forRange_foldlM]
  refine foldlM_congr_mem _ _ _ (fun L hL' s => ?_) s
  have hL' := List.mem_range.1 hL'
  have hLb : L < b.blocks.length := lt_of_lt_of_le hL' hb.blocks
  have eL : b.blocks[L] = b.block L := by unfold FBasis.block; rw [List.getD_eq_getElem _ _ hLb]
  rw [generateCartesians_spec L cl (hLz L hL'), Outcome.ok_bind, rd_ok hLb, Outcome.ok_bind, eL, List.flatMap_map, foldlM_flatMap', forRange_foldlM]
  refine foldlM_congr_mem _ _ _ (fun f _ s => ?_) s
  simp only
  rw [foldlM_map', ← (cartesian_dirac_complete L).1]
  refine forRange_list (cartesianDirac L) _ (fun c st => do
        let l ← ftnFunLabel c
        let labels ← wr st.2 st.1 (ftnLabelLine (st.1 + 1) mol.charges[i] l)
        Outcome.ok (st.1 + 1, labels)) (fun m hm' s => ?_) s
  rw [rd_ok (by simp; omega), Outcome.ok_bind, List.getElem_append_left hm']

theorem foldlM_labels (fs : List (Nat × Point × Comp)) (hfs : ∀ f ∈ fs, f.2.2.1 + f.2.2.2.1 + f.2.2.2.2 ≤ 16) (k : Nat) (labels : List (List Char))
    (h : k + fs.length ≤ labels.length) : ∃ l, fs.foldlM (fun (st : Nat × List (List Char)) f => do
        let l ← ftnFunLabel f.2.2
        let labels ← wr st.2 st.1 (ftnLabelLine (st.1 + 1) f.1 l)
        Outcome.ok (st.1 + 1, labels)) (k, labels) = .ok (k + fs.length, l) ∧ l.length = labels.length ∧ (∀ p < k, l[p]? = labels[p]?) ∧
      ∀ p f, fs[p]? = some f → l[k + p]? = some (ftnLabelLine (k + p + 1) f.1 (padRight 16 (compText f.2.2))) := by
  induction fs generalizing k labels with
  | nil => exact ⟨labels, rfl, rfl, fun _ _ => rfl, fun p f h => by simp at h⟩
  | cons f fs ih =>
    rw [List.length_cons] at h
    obtain ⟨l, e, l1, l2, l3⟩ := ih (fun g hg => hfs g (by simp [hg])) (k + 1)
      (labels.set k (ftnLabelLine (k + 1) f.1 (padRight 16 (compText f.2.2)))) (by simp; omega)
    refine ⟨l, ?_, by simpa using l1, fun p hp => ?_, fun p g hg => ?_⟩
    · rw [List.foldlM_cons, ftnFunLabel_ok (hfs f (by simp)), Outcome.ok_bind, wr_ok _ (by omega : k < labels.length), Outcome.ok_bind, Outcome.ok_bind, e,
        List.length_cons]
      congr 2
      omega
    · rw [l2 p (by omega), List.getElem?_set_ne (by omega)]
    · cases p with
      | zero =>
        simp only [List.getElem?_cons_zero, Option.some.injEq] at hg
        rw [Nat.add_zero, l2 k (by omega), List.getElem?_set_self (by omega), hg]
      | succ p =>
        rw [List.getElem?_cons_succ] at hg
        rw [show k + (p + 1) = k + 1 + p by omega]
        exact l3 p g hg

theorem functions_comps (mol : FMol) : mol.functions.map (fun f => (f.2.1, f.2.2)) =
    (basisComps (mol.libShells cartesianDirac)).map fun f => (f.1.origin, f.1.cartList.getD f.2 (0, 0, 0)) := by
  unfold FMol.functions basisComps FMol.libShells FMol.shells
  simp only [List.map_flatMap, List.flatMap_map, List.flatMap_assoc, List.map_map]
  congr 1
  funext a
  refine List.flatMap_congr fun s hs => ?_
  have e0 : a.2 = s.origin := by
    unfold FBasis.shells at hs
    obtain ⟨L, -, hs⟩ := List.mem_flatMap.1 hs
    obtain ⟨f, -, rfl⟩ := List.mem_map.1 hs
    rfl
  have e1 : (s.shell cartesianDirac).cart_size = (cartesianDirac s.L).length := (cartesian_dirac_complete s.L).1.symm
  rw [e1]
  refine List.ext_getElem (by simp) fun m h1 h2 => ?_
  simp at h1
  simp [FShell.shell, h1, e0]

/-- All labels at once. -/
theorem ftnLabels_spec {mol : FMol} (hm : mol.Ok) {cl : List Comp} (hcl : cl.length = 100) (hL : ∀ z ∈ mol.charges, (mol.basisOf z).numBlocks ≤ 10)
    (labels : List (List Char)) (hl : labels.length = mol.functions.length) : ∃ l, ftnLabels mol cl labels = .ok l ∧ l.length = labels.length ∧
      ∀ p f, mol.functions[p]? = some f → l[p]? = some (ftnLabelLine (p + 1) f.1 (padRight 16 (compText f.2.2))) := by
  have hc : ∀ z ∈ mol.charges, ∀ L < (mol.basisOf z).numBlocks, cartSize L ≤ cl.length := fun z hz L h => by
    have := hL z hz
    have : (L + 1) * (L + 2) ≤ 10 * 11 := Nat.mul_le_mul (by omega) (by omega)
    unfold cartSize
    omega
  have hf : ∀ f ∈ mol.functions, f.2.2.1 + f.2.2.2.1 + f.2.2.2.2 ≤ 16 := fun f hf => by
    unfold FMol.functions at hf
    obtain ⟨a, ha, hf⟩ := List.mem_flatMap.1 hf
    obtain ⟨s, hs, hf⟩ := List.mem_flatMap.1 hf
    obtain ⟨c, hc, rfl⟩ := List.mem_map.1 hf
    unfold FBasis.shells at hs
    obtain ⟨L, hL', hs⟩ := List.mem_flatMap.1 hs
    obtain ⟨f, -, rfl⟩ := List.mem_map.1 hs
    have h1 := hL a.1 (List.of_mem_zip (show (a.1, a.2) ∈ mol.charges.zip mol.coord from ha)).1
    have h2 := List.mem_range.1 hL'
    have h3 := ((cartesian_dirac_complete L).2.2 c.1 c.2.1 c.2.2).1 hc
    simp only at h3 ⊢
    omega
  obtain ⟨l, e, l1, -, l3⟩ := foldlM_labels mol.functions hf 0 labels (by omega)
  refine ⟨l, ?_, l1, fun p f h => ?_⟩
  · rw [ftnLabels_fold hm hc, e]; rfl
  · have := l3 p f h
    rwa [Nat.zero_add] at this

/-! ## The whole program -/

/-- The state in which the program begins: arrays of their declared sizes. The elements which do not occur have no blocks and no pseudopotential; the program relies on
this, but nowhere sets these counters (main.f90:55-62). -/
structure FtnEnv.Fresh {G : Type} (env : FtnEnv G) : Prop where
  basis : BasisSized env.basis0
  noBlocks : ∀ b ∈ env.basis0, b.numBlocks = 0
  ecp : EcpSized env.ecp0
  noEcp : ∀ e ∈ env.ecp0, e.numArep = 0
  heap : env.h.WF
  cart : env.cl.length = 100
  tab : env.tab.Sized 20
  buf : ∀ x, maxBuf ≤ (env.buf x).length
  gbuf : ∀ k, maxBuf ≤ (env.gbuf k).length
  gbufSO : ∀ k, maxBuf ≤ (env.gbufSO k).length
  obuf : maxBuf ≤ env.obuf.length
  nbuf : maxBuf ≤ env.nbuf.length
  grads : ∀ n d, (env.grad0 n d).length = n ∧ ∀ M ∈ env.grad0 n d, ∀ qk, (M qk).length = d * d
  labels : ∀ d, (env.labels0 d).length = d

/-- The three input files of the Fortran program: `xyz` describes the molecule `atoms`, `bas` consists of the entries `es`, the last of which for the elements of
the molecule are `entries`, and `rpp` consists of the entries `ps`, all within the limits of the arrays of the program. -/
structure FtnInput (num : FtnNum) (xyz bas rpp : List FRecord) (atoms : List (Nat × Point)) (es : List (Nat × List BasisBlock)) (entries : Nat → List BasisBlock)
    (ps : List (Nat × List BasisBlock × List PotBlock)) : Prop where
  known : ∀ a ∈ atoms, 1 ≤ a.1 ∧ a.1 < 131 ∧ a.1 ≠ 102
  xyz : XyzFile num (atoms.map fun a => (ftnSymbols.getD a.1 [], a.2)) xyz
  basis : BasisFileRecs num es (nonBlank bas)
  last : ∀ a ∈ atoms, lastEntry a.1 es = some (entries a.1)
  limits : ∀ a ∈ atoms, ∀ bs, (a.1, bs) ∈ es → FtnLimits bs
  good : ∀ a ∈ atoms, EntryOk (entries a.1)
  rpp : RppFileRecs num ps (nonBlank rpp)
  within : ∀ a ∈ atoms, ∀ cs qs, firstEntry a.1 ps = some (cs, qs) → RppLimits cs qs ∧ Matched cs qs

/-- Since the arrays are printed with 20 values after the exponent, there are to be at most 21 functions in a block, and at most 19 outer-core potentials. -/
structure FtnPrintable (atoms : List (Nat × Point)) (entries : Nat → List BasisBlock) (ps : List (Nat × List BasisBlock × List PotBlock)) : Prop where
  printed : ∀ a ∈ atoms, ∀ b ∈ entries a.1, b.nc ≤ 21
  core : ∀ a ∈ atoms, ∀ cs qs, firstEntry a.1 ps = some (cs, qs) → ∀ c ∈ cs, c.nc ≤ 19

/-- The files of the driver in C with the same entries. -/
structure CFiles (io : DecimalIO) (tb te : List Char) (atoms : List (Nat × Point)) (entries : Nat → List BasisBlock)
    (ps : List (Nat × List BasisBlock × List PotBlock)) : Prop where
  basis : ∀ a ∈ atoms, HasEntry io a.1 (entries a.1) tb
  rpp : ∀ a ∈ atoms, GrppEntry io te a.1 (firstEntry a.1 ps)

theorem FEcpIs.numOc {cs : List BasisBlock} {ps : List PotBlock} {e : FEcp} (hi : FEcpIs cs ps e) (L : Nat) :
    (e.row L).numOc = (cs.map fun b => b.nc).getD L 0 := by
  rw [List.getD_eq_getElem?_getD, List.getElem?_map]
  by_cases hc : L < cs.length
  · obtain ⟨r, w1, w2⟩ := hi.core L hc
    rw [FEcp.row_eq w1, w2.contr, List.getElem?_eq_getElem hc]; rfl
  · rw [List.getElem?_eq_none (by omega)]
    cases hr : e.rows[L]? with
    | none => exact FEcp.row_big (List.getElem?_eq_none_iff.1 hr)
    | some r => rw [FEcp.row_eq hr]; exact hi.none_ L r (by omega) hr

theorem sum_range_getD : ∀ (l : List Nat) (n : Nat), l.length ≤ n → ((List.range n).map fun L => l.getD L 0).sum = l.sum := by
  intro l
  induction l with
  | nil => intro n _; simp
  | cons x l ih =>
    intro n hn
    obtain ⟨n, rfl⟩ : ∃ m, n = m + 1 := ⟨n - 1, by simp only [List.length_cons] at hn; omega⟩
    rw [List.range_succ_eq_map, List.map_cons, List.map_map, List.sum_cons, List.sum_cons, ← ih n (by simpa using hn)]
    rfl

theorem FEcpIs.ocList_length {cs : List BasisBlock} {ps : List PotBlock} {e : FEcp} (hi : FEcpIs cs ps e) (h : cs.length ≤ 10) :
    e.ocList.length = (cs.map fun b => b.nc).sum := by
  unfold FEcp.ocList FEcp.ocRow
  rw [List.length_flatMap]
  simp only [List.length_map, List.length_range, hi.numOc]
  exact sum_range_getD _ 10 (by rw [List.length_map]; exact h)

theorem lastEntry_mem {z : Nat} {es : List (Nat × List BasisBlock)} {bs : List BasisBlock} (h : lastEntry z es = some bs) : (z, bs) ∈ es := by
  have := List.mem_of_getLast? h
  simp only [List.mem_map, List.mem_filter, decide_eq_true_eq] at this
  obtain ⟨e, ⟨h1, h2⟩, h3⟩ := this
  rw [← h3, ← h2]; exact h1

/-- The loop over the atoms, from the loops for the two modules. -/
theorem ftnReadLoop_eq {G : Type} (env : FtnEnv G) (charges : List Nat) (bas rpp : List FRecord) {b : List FBasis} {e : List FEcp}
    (h1 : forRange charges.length env.basis0 (fun i basis => do
      let z ← rd charges i
      let basis ← ftnBasisLoop env.num z basis bas
      ftnNormalize env.lib.gen z basis) = .ok b) (h2 : ftnMainRpp env.num rpp charges env.ecp0 = .ok e) :
    ftnReadLoop env charges bas rpp = .ok (b, e) := by
  rw [← forRange_pair h1 h2]
  unfold ftnReadLoop
  refine forRange_body_congr fun i hi st => ?_
  simp only [rd_ok hi, Outcome.ok_bind, Outcome.bind_assoc]

/-- The input of the program: what it calculates with. -/
theorem ftnProgram_input {G : Type} (env : FtnEnv G) (hf : env.Fresh) (ho : DocumentedOrder env.lib.gen) {xyz bas rpp : List FRecord}
    {atoms : List (Nat × Point)} {es : List (Nat × List BasisBlock)} {entries : Nat → List BasisBlock} {ps : List (Nat × List BasisBlock × List PotBlock)}
    (h : FtnInput env.num xyz bas rpp atoms es entries ps) (hpr : FtnPrintable atoms entries ps) {io : DecimalIO} {tb te : List Char}
    (hc : CFiles io tb te atoms entries ps) :
    ∃ (mol : FMol) (grpps : List (Option GrppData)), mol.atoms = atoms ∧ mol.charges = atoms.map Prod.fst ∧ mol.Ok ∧ mol.EcpOk ∧ (∀ z ∈ mol.charges, (mol.basisOf z).numBlocks ≤ 10) ∧
      (∀ a ∈ atoms, (firstEntry a.1 ps = none → (mol.ecpOf a.1).numArep = 0) ∧ ∀ cs qs, firstEntry a.1 ps = some (cs, qs) →
        (mol.ecpOf a.1).numArep = qs.length ∧ (mol.ecpOf a.1).ocList.length = (cs.map fun b => b.nc).sum) ∧ ftnProgram env xyz bas rpp = ftnCalculate env mol ∧
      mainShells env.lib.gen io tb atoms = .ok (mol.libShells env.lib.gen) ∧ mainGrpps env.lib.gen io te atoms = .ok grpps ∧
      SameLabels atoms (mol.grpps env.lib.gen) grpps := by
  have hmem : ∀ z ∈ atoms.map Prod.fst, ∃ a ∈ atoms, a.1 = z := fun z h => by simpa using h
  have hz : ∀ z ∈ atoms.map Prod.fst, 1 ≤ z ∧ z < 131 := fun z hz => by obtain ⟨a, ha, rfl⟩ := hmem z hz; have := h.known a ha; omega
  have hz' : ∀ z ∈ atoms.map Prod.fst, 1 ≤ z ∧ z ≤ 131 := fun z h => by have := hz z h; omega
  have hlast : ∀ z ∈ atoms.map Prod.fst, lastEntry z es = some (entries z) := fun z hz => by obtain ⟨a, ha, rfl⟩ := hmem z hz; exact h.last a ha
  have hlim : ∀ z ∈ atoms.map Prod.fst, ∀ bs, (z, bs) ∈ es → FtnLimits bs := fun z hz => by obtain ⟨a, ha, rfl⟩ := hmem z hz; exact h.limits a ha
  have hgood : ∀ z ∈ atoms.map Prod.fst, EntryOk (entries z) := fun z hz => by obtain ⟨a, ha, rfl⟩ := hmem z hz; exact h.good a ha
  have hlimz : ∀ z ∈ atoms.map Prod.fst, FtnLimits (entries z) := fun z hz => hlim z hz _ (lastEntry_mem (hlast z hz))
  have hzip : (atoms.map Prod.fst).zip (atoms.map Prod.snd) = atoms := by simp [List.zip_map']
  obtain ⟨basis1, f1, f2, f3, f4⟩ := first_basis_spec ho h.basis (atoms.map Prod.fst) entries hz' hlast hlim hlimz (fun z hz => (hgood z hz).ok) env.basis0
    hf.basis
  obtain ⟨ecp1, e1, e2, e3, e4⟩ := first_ecp_spec h.rpp (atoms.map Prod.fst) hz' (fun z hz cs qs hq => by
    obtain ⟨a, ha, rfl⟩ := hmem z hz; exact (h.within a ha cs qs hq).1) hf.ecp
  obtain ⟨basis2, k1, k2, k3⟩ := fortran_c_shells env.lib.gen ho env.num es bas h.basis io tb (atoms.map Prod.fst) (atoms.map Prod.snd) (by simp) entries hz hlast
    (fun z hz => by obtain ⟨a, ha, rfl⟩ := hmem z hz; exact hc.basis a ha) hlim hgood env.basis0 hf.basis ecp1 e2.elements
  obtain ⟨basis2', m1, m2, m3⟩ := main_basis_spec ho h.basis (atoms.map Prod.fst) entries hz' hlast hlim (fun z hz => (hgood z hz).ok) env.basis0 hf.basis
  obtain rfl : basis2 = basis2' := by rw [k1] at m1; exact Outcome.ok.inj m1
  obtain ⟨ecp1', grpps, g1, g2, g3⟩ := fortran_c_grpps env.lib.gen env.num ps rpp h.rpp io te atoms (fun a ha => by have := h.known a ha; omega) hc.rpp h.within
    env.ecp0 hf.ecp
  obtain rfl : ecp1 = ecp1' := by rw [e1] at g1; exact Outcome.ok.inj g1
  rw [hzip] at k3
  have hecp : ∀ z ∈ atoms.map Prod.fst, ∃ e, ecp1[z - 1]? = some e ∧ (⟨atoms.map Prod.fst, atoms.map Prod.snd, basis2, ecp1⟩ : FMol).ecpOf z = e ∧
      EcpRead ps z e := fun z hz => by
    obtain ⟨e, w1, w2⟩ := e3 z hz
    exact ⟨e, w1, by unfold FMol.ecpOf; rw [List.getD_eq_getElem?_getD, w1]; rfl, w2⟩
  have hecpOk : (⟨atoms.map Prod.fst, atoms.map Prod.snd, basis2, ecp1⟩ : FMol).EcpOk := fun z hz hn => by
    obtain ⟨a, ha, rfl⟩ := hmem z hz
    obtain ⟨e, w1, w2, -⟩ := hecp _ hz
    obtain ⟨e', w3, -, w4⟩ := g3 a ha
    rw [w1] at w3
    cases w3
    rw [w2] at hn ⊢
    exact (w4 hn).1
  refine ⟨⟨atoms.map Prod.fst, atoms.map Prod.snd, basis2, ecp1⟩, grpps, hzip, rfl, k2, hecpOk, fun z hz => ?_, fun a ha => ?_, ?_, k3, g2, fun a ha => ?_⟩
  · obtain ⟨b, w1, w2⟩ := m3 z hz
    have : (⟨atoms.map Prod.fst, atoms.map Prod.snd, basis2, ecp1⟩ : FMol).basisOf z = b := by
      unfold FMol.basisOf; rw [List.getD_eq_getElem?_getD, w1]; rfl
    rw [this, w2.num]
    exact (hlimz z hz).len
  · obtain ⟨e, w1, w2, w3, w4⟩ := hecp _ (List.mem_map_of_mem ha)
    rw [w2]
    exact ⟨w3, fun cs qs hfe => ⟨(w4 cs qs hfe).num, (w4 cs qs hfe).ocList_length (h.within a ha cs qs hfe).1.clen⟩⟩
  · unfold ftnMainBasis at k1
    obtain ⟨b1, x1, x2⟩ := bind_eq_ok k1
    obtain rfl : basis1 = b1 := by rw [f1] at x1; exact Outcome.ok.inj x1
    have hp : ftnPrintAll basis1 ecp1 = .ok () := by
      refine printAll_ok f2.elements e2.elements (fun b hb hn => ?_) fun e he hn => ?_
      · obtain ⟨i, hi, rfl⟩ := List.getElem_of_mem hb
        by_cases hzi : ∀ z ∈ atoms.map Prod.fst, i ≠ z - 1
        · have := f4 i hzi
          rw [List.getElem?_eq_getElem hi] at this
          exact absurd (hf.noBlocks _ (List.mem_of_getElem? this.symm)) hn
        · push Not at hzi
          obtain ⟨z, hz, rfl⟩ := hzi
          obtain ⟨b, w1, w2⟩ := f3 z hz
          rw [List.getElem?_eq_getElem hi] at w1
          obtain rfl := Option.some.inj w1
          refine printBasis_ok (w2.ok (hlimz z hz) (f2.element hb)) (by rw [w2.num]; exact (hlimz z hz).len) fun L hL => ?_
          rw [w2.num] at hL
          obtain ⟨k, v1, v2⟩ := w2.block L hL
          have e1 : (basis1[z - 1]).block L = k := by unfold FBasis.block; rw [List.getD_eq_getElem?_getD, v1]; rfl
          rw [e1, v2.contr]
          obtain ⟨a, ha, rfl⟩ := hmem z hz
          exact hpr.printed a ha _ (List.getElem_mem hL)
      · obtain ⟨i, hi, rfl⟩ := List.getElem_of_mem he
        by_cases hzi : ∀ z ∈ atoms.map Prod.fst, i ≠ z - 1
        · have := e4 i hzi
          rw [List.getElem?_eq_getElem hi] at this
          exact absurd (hf.noEcp _ (List.mem_of_getElem? this.symm)) hn
        · push Not at hzi
          obtain ⟨z, hz, rfl⟩ := hzi
          obtain ⟨e, w1, w2, w3, w4⟩ := hecp z hz
          rw [List.getElem?_eq_getElem hi] at w1
          obtain rfl := Option.some.inj w1
          have hok := hecpOk z hz (by rw [w2]; exact hn)
          rw [w2] at hok
          refine printEcp_ok hok fun L hL => ?_
          obtain ⟨a, ha, rfl⟩ := hmem z hz
          cases hfe : firstEntry a.1 ps with
          | none => exact absurd (w3 hfe) hn
          | some v =>
            obtain ⟨cs, qs⟩ := v
            rw [(w4 cs qs hfe).numOc, List.getD_eq_getElem?_getD, List.getElem?_map]
            cases hcl : cs[L]? with
            | none => simp
            | some c => simpa using hpr.core a ha cs qs hfe c (List.mem_of_getElem? hcl)
    unfold ftnProgram
    rw [fortran_read_molecule env.num atoms (fun a ha => (h.known a ha).2) xyz h.xyz, Outcome.ok_bind, ftnReadLoop_eq env _ bas rpp f1 e1, Outcome.ok_bind, hp,
      Outcome.ok_bind, x2, Outcome.ok_bind]
  · obtain ⟨e, w1, w2, w3⟩ := g3 a ha
    have hza : a.1 ∈ atoms.map Prod.fst := List.mem_map_of_mem ha
    obtain ⟨e', w4, w5, -⟩ := hecp _ hza
    rw [w1] at w4
    cases w4
    obtain ⟨-, v2, v3⟩ := grpps_get k2 env.lib.gen hza
    rw [w5, List.getD_eq_getElem _ _ v2] at v3
    by_cases hn : e.numArep = 0
    · rw [if_pos hn] at v3
      exact .inl ⟨by rw [List.getElem?_eq_getElem v2, v3], w2 hn⟩
    · rw [if_neg hn] at v3
      exact .inr ⟨_, _, by rw [List.getElem?_eq_getElem v2, v3], (w3 hn).2⟩

/-- What the program has read before it prints the arrays. -/
theorem ftnProgram_first {G : Type} (env : FtnEnv G) (hf : env.Fresh) (ho : DocumentedOrder env.lib.gen) {xyz bas rpp : List FRecord}
    {atoms : List (Nat × Point)} {es : List (Nat × List BasisBlock)} {entries : Nat → List BasisBlock} {ps : List (Nat × List BasisBlock × List PotBlock)}
    (h : FtnInput env.num xyz bas rpp atoms es entries ps) :
    ∃ basis ecp, BasisSized basis ∧ EcpSized ecp ∧ (∀ a ∈ atoms, ∃ b, basis[a.1 - 1]? = some b ∧ EntryRows RowNormed (entries a.1) b) ∧
      (∀ a ∈ atoms, ∃ e, ecp[a.1 - 1]? = some e ∧ EcpRead ps a.1 e) ∧ (ftnPrintAll basis ecp = .ub → ftnProgram env xyz bas rpp = .ub) := by
  have hmem : ∀ z ∈ atoms.map Prod.fst, ∃ a ∈ atoms, a.1 = z := fun z h => by simpa using h
  have hz' : ∀ z ∈ atoms.map Prod.fst, 1 ≤ z ∧ z ≤ 131 := fun z hz => by obtain ⟨a, ha, rfl⟩ := hmem z hz; have := h.known a ha; omega
  have hlast : ∀ z ∈ atoms.map Prod.fst, lastEntry z es = some (entries z) := fun z hz => by obtain ⟨a, ha, rfl⟩ := hmem z hz; exact h.last a ha
  have hlim : ∀ z ∈ atoms.map Prod.fst, ∀ bs, (z, bs) ∈ es → FtnLimits bs := fun z hz => by obtain ⟨a, ha, rfl⟩ := hmem z hz; exact h.limits a ha
  have hgood : ∀ z ∈ atoms.map Prod.fst, EntryOk (entries z) := fun z hz => by obtain ⟨a, ha, rfl⟩ := hmem z hz; exact h.good a ha
  obtain ⟨basis1, f1, f2, f3, -⟩ := first_basis_spec ho h.basis (atoms.map Prod.fst) entries hz' hlast hlim
    (fun z hz => hlim z hz _ (lastEntry_mem (hlast z hz))) (fun z hz => (hgood z hz).ok) env.basis0 hf.basis
  obtain ⟨ecp1, e1, e2, e3, -⟩ := first_ecp_spec h.rpp (atoms.map Prod.fst) hz' (fun z hz cs qs hq => by
    obtain ⟨a, ha, rfl⟩ := hmem z hz; exact (h.within a ha cs qs hq).1) hf.ecp
  refine ⟨basis1, ecp1, f2, e2, fun a ha => f3 _ (List.mem_map_of_mem ha), fun a ha => e3 _ (List.mem_map_of_mem ha), fun hp => ?_⟩
  unfold ftnProgram
  rw [fortran_read_molecule env.num atoms (fun a ha => (h.known a ha).2) xyz h.xyz, Outcome.ok_bind, ftnReadLoop_eq env _ bas rpp f1 e1, Outcome.ok_bind]
  simp only
  rw [hp]
  rfl

end Libgrpp
