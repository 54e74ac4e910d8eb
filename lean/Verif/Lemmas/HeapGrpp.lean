import Verif.Lemmas.Heap

/-! # Dynamic memory of outer-core integrals, GRPP objects, gradients and the Fortran interface -/

namespace Libgrpp.Heap

variable {α β : Type}

theorem outerCore1_ht (A B : Shell) (pot : Pot) (oc : Shell) (m mx my mz : Nat) :
    HT (A.ptrs ++ B.ptrs ++ oc.ptrs ++ pot.ptrs ++ [m, mx, my, mz]) [] (outerCore1 A B pot oc m mx my mz)
      (fun _ => []) := by
  unfold outerCore1
  refine HT.touch (by cov) (HT.alloc fun slm => HT.touch (by cov) ?_)
  refine HT.alloc fun sbC => HT.alloc fun saC => HT.alloc fun sb => HT.alloc fun sa => ?_
  refine HT.run (overlap_ht oc B sbC) (by cov) (HT.run (overlap_ht A oc saC) (by cov) (HT.touch (by cov) ?_))
  hfree; hfree
  refine HT.alloc fun ubC => HT.alloc fun uaC => HT.alloc fun ub => HT.alloc fun ua => ?_
  refine HT.run (type1_ht oc B (some pot) ubC) ?_ (HT.run (type1_ht A oc (some pot) uaC) ?_ (HT.touch (by cov) ?_))
  · rw [Option.toList_some, List.flatMap_cons, List.flatMap_nil, List.append_nil]; cov
  · rw [Option.toList_some, List.flatMap_cons, List.flatMap_nil, List.append_nil]; cov
  hfree; hfree
  refine HT.alloc fun buf => HT.touch (by cov) ?_
  hfree
  refine HT.mkP (allocTable_ht 3) (allocTable_post 3) (by cov) fun lm hlm => ?_
  obtain ⟨self, rows⟩ := lm
  match rows, hlm with
  | [lx, ly, lz], hlm =>
    refine HT.touch (by cov) (HT.run (lMatrices_ht lx ly lz) (by cov) ?_)
    refine HT.mkP (allocTable_ht 3) (allocTable_post 3) (by cov) fun so hso => HT.alloc fun buf2 => ?_
    refine HT.seq (HT.loop fun _ _ => HT.touchLast (by cov)) ?_
    hfree
    refine HT.touch (by cov) ?_
    hfree; hfree; hfree; hfree; hfree
    hdrop (freeTable_ht _ 3 hlm)
    exact HT.mono (HT.dropLast (freeTable_ht _ 3 hso) (Pick.here _)) (fun _ => rfl)

theorem outerCore2_ht (A B : Shell) (p1 : Pot) (oc1 : Shell) (p2 : Pot) (oc2 : Shell) (m mx my mz : Nat) :
    HT (A.ptrs ++ B.ptrs ++ oc1.ptrs ++ p1.ptrs ++ oc2.ptrs ++ p2.ptrs ++ [m, mx, my, mz]) []
      (outerCore2 A B p1 oc1 p2 oc2 m mx my mz) (fun _ => []) := by
  unfold outerCore2
  refine HT.touch (by cov) (HT.ask fun c => ?_)
  split
  · exact HT.ret rfl
  refine HT.ask fun c => ?_
  split
  · exact HT.ret rfl
  refine HT.touch (by cov) (HT.alloc fun slm => HT.touch (by cov) ?_)
  refine HT.alloc fun sbC => HT.alloc fun saC => HT.alloc fun sb => HT.alloc fun sa => ?_
  refine HT.run (overlap_ht oc2 B sbC) (by cov) (HT.run (overlap_ht A oc1 saC) (by cov) (HT.touch (by cov) ?_))
  hfree; hfree
  refine HT.alloc fun buf => HT.touch (by cov) ?_
  hfree
  refine HT.mkP (allocTable_ht 3) (allocTable_post 3) (by cov) fun lm hlm => ?_
  obtain ⟨self, rows⟩ := lm
  match rows, hlm with
  | [lx, ly, lz], hlm =>
    refine HT.touch (by cov) (HT.run (lMatrices_ht lx ly lz) (by cov) ?_)
    refine HT.mkP (allocTable_ht 3) (allocTable_post 3) (by cov) fun so hso => HT.alloc fun buf2 => ?_
    refine HT.seq (HT.loop fun _ _ => HT.touchLast (by cov)) ?_
    hfree
    refine HT.touch (by cov) ?_
    hdrop (freeTable_ht _ 3 hso)
    hdrop (freeTable_ht _ 3 hlm)
    hfree; hfree; hfreeLast

theorem mem_cores {c : Cores} {x : Pot × Shell} (hx : x ∈ c.items) : (∀ q ∈ x.1.ptrs, q ∈ c.ptrs) ∧
    ∀ q ∈ x.2.ptrs, q ∈ c.ptrs := by
  refine ⟨fun q hq => ?_, fun q hq => ?_⟩ <;>
  · unfold Cores.ptrs
    rw [List.mem_append]
    refine .inr (List.mem_flatMap.2 ⟨x, hx, ?_⟩)
    rw [List.mem_append]
    first | exact .inl hq | exact .inr hq

theorem outerCore_ht (A B : Shell) (c : Cores) (m mx my mz : Nat) :
    HT (A.ptrs ++ B.ptrs ++ c.ptrs ++ [m, mx, my, mz]) [] (outerCore A B c m mx my mz) (fun _ => []) := by
  unfold outerCore
  refine HT.touch (by cov) (HT.touch ?_ ?_)
  · split
    · exact Cov.nil
    · cov
  have hc : ∀ {K}, Cov (A.ptrs ++ B.ptrs ++ c.ptrs ++ [m, mx, my, mz]) K c.ptrs := by intro K; cov
  refine HT.seq (HT.loop fun i hi => entry_ht hi fun x hx => ?_) (HT.loop fun i hi => HT.loop fun j hj =>
    entry_ht hi fun x hx => entry_ht hj fun y hy => ?_)
  · refine HT.last (outerCore1_ht A B x.1 x.2 m mx my mz) ?_
    have h1 := hc.sub (K := []) (mem_cores hx).1
    have h2 := hc.sub (K := []) (mem_cores hx).2
    refine Cov.append (Cov.append (Cov.append ?_ h2) h1) ?_ <;> cov
  · refine HT.last (outerCore2_ht A B x.1 x.2 y.1 y.2 m mx my mz) ?_
    have h1 := hc.sub (K := []) (mem_cores hx).1
    have h2 := hc.sub (K := []) (mem_cores hx).2
    have h3 := hc.sub (K := []) (mem_cores hy).1
    have h4 := hc.sub (K := []) (mem_cores hy).2
    refine Cov.append (Cov.append (Cov.append (Cov.append (Cov.append ?_ h2) h1) h4) h3) ?_ <;> cov

/-! ## GRPP objects -/

theorem Grpp.self_mem (g : Grpp) : ∀ x ∈ [g.self], x ∈ g.ptrs := by
  intro x hx
  simp only [List.mem_cons, List.not_mem_nil, or_false] at hx
  simp [Grpp.ptrs, hx]
theorem Grpp.local_mem (g : Grpp) : ∀ x ∈ g.uL.toList.flatMap Pot.ptrs, x ∈ g.ptrs := by
  intro x hx
  simp only [Grpp.ptrs, List.mem_cons, List.mem_append]
  tauto
theorem Grpp.arrArep_mem (g : Grpp) : ∀ x ∈ g.arrArep.toList, x ∈ g.ptrs := by
  intro x hx
  simp only [Grpp.ptrs, List.mem_cons, List.mem_append]
  tauto
theorem Grpp.arrEsop_mem (g : Grpp) : ∀ x ∈ g.arrEsop.toList, x ∈ g.ptrs := by
  intro x hx
  simp only [Grpp.ptrs, List.mem_cons, List.mem_append]
  tauto
theorem Grpp.arep_mem (g : Grpp) {p : Pot} (hp : p ∈ g.arep) : ∀ x ∈ p.ptrs, x ∈ g.ptrs := by
  intro x hx
  have : x ∈ g.arep.flatMap Pot.ptrs := List.mem_flatMap.2 ⟨p, hp, hx⟩
  simp only [Grpp.ptrs, List.mem_cons, List.mem_append]
  tauto
theorem Grpp.esop_mem (g : Grpp) {p : Pot} (hp : p ∈ g.esop) : ∀ x ∈ p.ptrs, x ∈ g.ptrs := by
  intro x hx
  have : x ∈ g.esop.flatMap Pot.ptrs := List.mem_flatMap.2 ⟨p, hp, hx⟩
  simp only [Grpp.ptrs, List.mem_cons, List.mem_append]
  tauto
theorem Grpp.cores_mem (g : Grpp) : ∀ x ∈ g.cores.ptrs, x ∈ g.ptrs := by
  intro x hx
  simp only [Grpp.ptrs, List.mem_cons, List.mem_append]
  tauto

theorem fullGrpp_ht (A B : Shell) (g : Grpp) (m mx my mz : Nat) :
    HT (A.ptrs ++ B.ptrs ++ g.ptrs ++ [m, mx, my, mz]) [] (fullGrpp A B g m mx my mz) (fun _ => []) := by
  unfold fullGrpp
  have hg : ∀ {K}, Cov (A.ptrs ++ B.ptrs ++ g.ptrs ++ [m, mx, my, mz]) K g.ptrs := by intro K; cov
  refine HT.touch (by cov) (HT.alloc fun b => HT.alloc fun bx => HT.alloc fun by' => HT.alloc fun bz => ?_)
  refine HT.touch ?_ (HT.run (type1_ht A B g.uL b) ?_ (HT.touch (by cov) ?_))
  · refine Cov.append (p := [m, mx, my, mz]) (q := [g.self]) (by cov) (hg.sub g.self_mem)
  · exact Cov.append (by cov) (hg.sub g.local_mem)
  refine HT.seq (HT.loop fun i hi => entry_ht hi fun p hp => ?_) (HT.seq (HT.loop fun i hi => entry_ht hi fun p hp => ?_) ?_)
  · refine HT.touch (hg.sub g.arrArep_mem) (HT.run (type2_ht A B p b) ?_ (HT.touchLast (by cov)))
    exact Cov.append (by cov) (hg.sub (g.arep_mem hp))
  · refine HT.touch (hg.sub g.arrEsop_mem) (HT.run (spinOrbit_ht A B p bx by' bz) ?_ (HT.touchLast ?_))
    · exact Cov.append (by cov) (hg.sub (g.esop_mem hp))
    · refine Cov.append (p := [p.self]) (q := [bx, by', bz, mx, my, mz]) (hg.sub fun x hx => g.esop_mem hp x ?_) (by cov)
      simp only [List.mem_cons, List.not_mem_nil, or_false] at hx
      simp [hx, Pot.ptrs]
  · refine HT.run (outerCore_ht A B g.cores b bx by' bz) ?_ (HT.touch (by cov) ?_)
    · exact Cov.append (Cov.append (by cov) (hg.sub g.cores_mem)) (by cov)
    · hfree; hfree; hfree; hfreeLast

theorem allocQuad_ht : HT [] [] allocQuad (fun q => [q.blocks]) := by
  unfold allocQuad
  refine HT.alloc fun a => HT.alloc fun x => HT.alloc fun y => HT.alloc fun z => HT.ret ?_
  left

theorem freeQuad_ht (q : Quad) : HT [] [q.blocks] (freeQuad q) (fun _ => []) := by
  unfold freeQuad
  intro e st F hs hF
  refine HT.free (K := [{q.a}, {q.x}, {q.y}, {q.z}]) (P := []) (Pick.here _) ?_ e st F ?_ hF
  · hfree; hfree; hfreeLast
  · rw [hs]; left

/-- The matrices returned by `grpp_gradient_diff_gaussian` in memory. -/
def quadBlocks (d : Option Quad × Quad) : List (Multiset Nat) :=
  match d with
  | (some s, t) => [s.blocks, t.blocks]
  | (none, t) => [t.blocks]

theorem Quad.mem_ptrs (q : Quad) : q.a ∈ q.ptrs ∧ q.x ∈ q.ptrs ∧ q.y ∈ q.ptrs ∧ q.z ∈ q.ptrs := by
  simp [Quad.ptrs]

theorem diffGaussian_ht (bra : Bool) (A B : Shell) (g : Grpp) :
    HT (A.ptrs ++ B.ptrs ++ g.ptrs) [] (diffGaussian bra A B g) quadBlocks := by
  unfold diffGaussian
  refine HT.call (differentiate_ht _) (by cases bra <;> · simp only [if_true, if_false, Bool.false_eq_true]; cov) fun d => ?_
  rcases d with ⟨_ | down, up⟩
  · change HT _ [up.blocks] _ _
    refine HT.touch (by cov) (HT.mk allocQuad_ht (by cov) fun qu => ?_)
    refine HT.seq ?_ ?_
    · cases bra
      · exact HT.last (fullGrpp_ht A up g qu.a qu.x qu.y qu.z) (by cov)
      · exact HT.last (fullGrpp_ht up B g qu.a qu.x qu.y qu.z) (by cov)
    hdrop (deleteShell_ht up)
    exact HT.ret rfl
  · change HT _ [down.blocks, up.blocks] _ _
    refine HT.touch (by cov) (HT.mk allocQuad_ht (by cov) fun qd => HT.seq ?_ ?_)
    · cases bra
      · exact HT.last (fullGrpp_ht A down g qd.a qd.x qd.y qd.z) (by cov)
      · exact HT.last (fullGrpp_ht down B g qd.a qd.x qd.y qd.z) (by cov)
    refine HT.mk allocQuad_ht (by cov) fun qu => HT.seq ?_ ?_
    · cases bra
      · exact HT.last (fullGrpp_ht A up g qu.a qu.x qu.y qu.z) (by cov)
      · exact HT.last (fullGrpp_ht up B g qu.a qu.x qu.y qu.z) (by cov)
    hdrop (deleteShell_ht down)
    hdrop (deleteShell_ht up)
    refine HT.ret ?_
    simp only [quadBlocks, List.sum_cons, List.sum_nil, add_zero]
    rw [add_comm]

theorem contribution_ht (bra : Bool) (A B : Shell) (g : Grpp) (gr : List Nat) :
    HT (A.ptrs ++ B.ptrs ++ g.ptrs ++ gr) [] (contribution bra A B g gr) (fun _ => []) := by
  unfold contribution
  refine HT.call (diffGaussian_ht bra A B g) (by cov) fun q => ?_
  rcases q with ⟨_ | d, u⟩
  · change HT _ [u.blocks] _ _
    refine HT.seq (HT.loop fun _ _ => HT.ask fun _ => HT.loop fun _ _ => HT.ask fun _ => HT.loop fun _ _ => ?_) ?_
    · refine HT.touch (by cov) (HT.seq (HT.ret rfl) ?_)
      exact HT.run nlmToLinear_ht (by cov) (HT.run nlmToLinear_ht (by cov) (HT.touchLast (by cov)))
    · refine HT.seq (HT.ret rfl) ?_
      exact HT.mono (HT.dropLast (freeQuad_ht u) (Pick.here _)) (fun _ => rfl)
  · change HT _ [d.blocks, u.blocks] _ _
    refine HT.seq (HT.loop fun _ _ => HT.ask fun _ => HT.loop fun _ _ => HT.ask fun _ => HT.loop fun _ _ => ?_) ?_
    · refine HT.touch (by cov) (HT.seq ?_ ?_) <;>
      exact HT.run nlmToLinear_ht (by cov) (HT.run nlmToLinear_ht (by cov) (HT.touchLast (by cov)))
    · refine HT.drop (freeQuad_ht d) (Pick.here _) ?_
      exact HT.mono (HT.dropLast (freeQuad_ht u) (Pick.here _)) (fun _ => rfl)

theorem fullGradient_ht (A B : Shell) (g : Grpp) (gr : List Nat) :
    HT (A.ptrs ++ B.ptrs ++ g.ptrs ++ gr) [] (fullGradient A B g gr) (fun _ => []) := by
  unfold fullGradient
  have hc := fun bra => contribution_ht bra A B g gr
  refine HT.touch (by cov) (HT.ask fun c => ?_)
  split
  · exact HT.ret rfl
  refine HT.ask fun c => ?_
  split
  · exact HT.ret rfl
  refine HT.seq (HT.optionally ?_) (HT.seq (HT.optionally ?_) (HT.seq (HT.optionally (hc _)) (HT.optionally (hc _))))
  · exact HT.seq (HT.optionally (hc _)) (HT.seq (HT.optionally (hc _)) (HT.optionally (HT.seq (hc _) (hc _))))
  · exact HT.seq (hc _) (hc _)

theorem allocGradients_ht : HT [] [] allocGradients (fun t => [t.blocks]) := allocTable_ht 3
theorem allocGradients_post : Post allocGradients (fun t => t.rows.length = 3) := allocTable_post 3

theorem deallocGradients_ht (t : Table) (h : t.rows.length = 3) :
    HT [] [t.blocks] (deallocGradients t) (fun _ => []) := by
  obtain ⟨self, rows⟩ := t
  match rows, h with
  | [x, y, z], _ =>
    unfold deallocGradients
    intro e st F hs hF
    refine HT.touch (K := [{self}, {x}, {y}, {z}]) (P := []) (by cov) ?_ e st F ?_ hF
    · hfree; hfree; hfree; hfreeLast
    · rw [hs]; rfl

/-- The blocks of a GRPP object that holds no potentials: the structure and the arrays. -/
def Grpp.frame (g : Grpp) : List Nat :=
  g.self :: (g.arrArep.toList ++ g.arrEsop.toList ++ g.cores.arrPot.toList ++ g.cores.arrShell.toList)

theorem freeOpt_ht (p : Option Nat) : HT [] [((p.toList : List Nat) : Multiset Nat)] (freeOpt p) (fun _ => []) := by
  cases p with
  | none => exact HT.ret rfl
  | some p => exact HT.free_one

/-- `libgrpp_delete_grpp` of an object from which the potentials were taken out. -/
theorem deleteGrpp_ht (g : Grpp) (h1 : g.uL = none) (h2 : g.arep = []) (h3 : g.esop = []) (h4 : g.cores.items = []) :
    HT [] [(g.frame : Multiset Nat)] (deleteGrpp g) (fun _ => []) := by
  unfold deleteGrpp
  intro e st F hs hF
  refine HT.touch (K := [{g.self}, (g.arrArep.toList : Multiset Nat), (g.arrEsop.toList : Multiset Nat),
    (g.cores.arrPot.toList : Multiset Nat), (g.cores.arrShell.toList : Multiset Nat)]) (P := []) (by cov) ?_ e st F ?_ hF
  · rw [h1, h2, h3, h4]
    refine HT.seq (HT.ret rfl) (HT.seq (HT.ret rfl) (HT.drop (freeOpt_ht _) (Pick.there _ (Pick.here _)) ?_))
    refine HT.seq (HT.ret rfl) (HT.drop (freeOpt_ht _) (Pick.there _ (Pick.here _)) (HT.seq (HT.ret rfl) ?_))
    refine HT.drop (freeOpt_ht _) (Pick.there _ (Pick.here _)) (HT.drop (freeOpt_ht _) (Pick.there _ (Pick.here _)) ?_)
    exact HT.mono (HT.freeLast (Pick.here _)) (fun _ => rfl)
  · rw [hs]
    have : (g.frame : Multiset Nat) = {g.self} + (((((g.arrArep.toList : List Nat) : Multiset Nat) + g.arrEsop.toList) +
      g.cores.arrPot.toList) + g.cores.arrShell.toList) := rfl
    rw [List.sum_cons, List.sum_nil, add_zero, this]
    simp only [List.sum_cons, List.sum_nil, add_zero]
    ac_rfl

/-- `libgrpp_new_grpp` inside a routine. -/
theorem HT.newGrpp {P : List Nat} {K : List (Multiset Nat)} {R : β → List (Multiset Nat)} {f : Grpp → Act β}
    (hf : ∀ self, HT P (({self} : Multiset Nat) :: K) (f ⟨self, none, none, [], none, [], ⟨none, none, []⟩⟩) R) :
    HT P K (Heap.newGrpp >>= f) R :=
  fun e s F hs hF => HT.alloc (f := fun self => f ⟨self, none, none, [], none, [], ⟨none, none, []⟩⟩) hf e s F hs hF

theorem Act.assoc {γ : Type} (p : Act α) (f : α → Act β) (g : β → Act γ) : (p >>= f) >>= g = p >>= fun a => f a >>= g := by
  funext e s
  change (match (match p e s with | .ok (a, s') => f a e s' | .ub => .ub | .abort => .abort | .exit => .exit) with
    | .ok (a, s') => g a e s' | .ub => .ub | .abort => .abort | .exit => .exit) =
    (match p e s with | .ok (a, s') => (f a >>= g) e s' | .ub => .ub | .abort => .abort | .exit => .exit)
  cases p e s <;> rfl

theorem Act.ret_bind (a : α) (f : α → Act β) : (pure a : Act α) >>= f = f a := rfl

theorem type1Gradient_ht (A B : Shell) (pot : Option Pot) (gr : List Nat) :
    HT (A.ptrs ++ B.ptrs ++ pot.toList.flatMap Pot.ptrs ++ gr) [] (type1Gradient A B pot gr) (fun _ => []) := by
  unfold type1Gradient
  refine HT.newGrpp fun self => ?_
  unfold setLocal
  rw [Act.assoc]
  refine HT.touch (by cov) ?_
  rw [Act.ret_bind]
  refine HT.mkP allocGradients_ht allocGradients_post (by cov) fun sx hx => ?_
  refine HT.mkP allocGradients_ht allocGradients_post (by cov) fun sy hy => ?_
  refine HT.mkP allocGradients_ht allocGradients_post (by cov) fun sz hz => ?_
  refine HT.run (fullGradient_ht A B _ _) ?_ ?_
  · refine Cov.append (Cov.append (by cov) ?_) (by cov)
    unfold Grpp.ptrs
    simp only [Option.toList_none, List.flatMap_nil, List.append_nil, Cores.ptrs]
    cov
  hdrop (deallocGradients_ht _ hx)
  hdrop (deallocGradients_ht _ hy)
  hdrop (deallocGradients_ht _ hz)
  refine HT.touch (by cov) ?_
  exact fun e s F hs _ => deleteGrpp_ht _ rfl rfl rfl rfl e s F hs (by simp)

theorem type2Gradient_ht (A B : Shell) (pot : Pot) (gr : List Nat) :
    HT (A.ptrs ++ B.ptrs ++ pot.ptrs ++ gr) [] (type2Gradient A B pot gr) (fun _ => []) := by
  unfold type2Gradient
  refine HT.newGrpp fun self => ?_
  unfold addArep
  rw [if_pos rfl, Act.assoc]
  refine HT.touch (by cov) ?_
  rw [Act.assoc]
  refine HT.alloc fun a => ?_
  rw [Act.assoc]
  refine HT.touch (by cov) ?_
  rw [Act.ret_bind]
  refine HT.mkP allocGradients_ht allocGradients_post (by cov) fun sx hx => ?_
  refine HT.mkP allocGradients_ht allocGradients_post (by cov) fun sy hy => ?_
  refine HT.mkP allocGradients_ht allocGradients_post (by cov) fun sz hz => ?_
  refine HT.run (fullGradient_ht A B _ _) ?_ ?_
  · refine Cov.append (Cov.append (by cov) ?_) (by cov)
    unfold Grpp.ptrs
    simp only [Option.toList_none, Option.toList_some, List.flatMap_nil, List.flatMap_cons, List.append_nil, Cores.ptrs]
    cov
  hdrop (deallocGradients_ht _ hx)
  hdrop (deallocGradients_ht _ hy)
  hdrop (deallocGradients_ht _ hz)
  refine HT.touch (by cov) ?_
  intro e s F hs hF
  refine deleteGrpp_ht _ rfl rfl rfl rfl e s F ?_ (by simp)
  rw [hs]
  congr 1
  exact Multiset.coe_eq_coe.2 (List.Perm.swap _ _ _)

theorem spinOrbitGradient_ht (A B : Shell) (pot : Pot) (gr : List Nat) :
    HT (A.ptrs ++ B.ptrs ++ pot.ptrs ++ gr) [] (spinOrbitGradient A B pot gr) (fun _ => []) := by
  unfold spinOrbitGradient
  refine HT.newGrpp fun self => ?_
  unfold addEsop
  rw [if_pos rfl, Act.assoc]
  refine HT.touch (by cov) ?_
  rw [Act.assoc]
  refine HT.alloc fun a => ?_
  rw [Act.assoc]
  refine HT.touch (by cov) ?_
  rw [Act.ret_bind]
  refine HT.mkP allocGradients_ht allocGradients_post (by cov) fun sx hx => ?_
  refine HT.run (fullGradient_ht A B _ _) ?_ (HT.touch (by cov) ?_)
  · refine Cov.append (Cov.append (by cov) ?_) (by cov)
    unfold Grpp.ptrs
    simp only [Option.toList_none, Option.toList_some, List.flatMap_nil, List.flatMap_cons, List.append_nil, Cores.ptrs]
    cov
  hdrop (deallocGradients_ht _ hx)
  refine HT.touch (by cov) ?_
  intro e s F hs hF
  refine deleteGrpp_ht _ rfl rfl rfl rfl e s F ?_ (by simp)
  rw [hs]
  congr 1
  exact Multiset.coe_eq_coe.2 (List.Perm.swap _ _ _)

/-- Further outer-core potentials use the arrays that exist. -/
theorem HT.addCores {P : List Nat} {K : List (Multiset Nat)} {R : β → List (Multiset Nat)} {f : Grpp → Act β} (self a b : Nat)
    (hs : Cov P K [self, a, b]) (xs : List (Pot × Shell)) : ∀ (ys : List (Pot × Shell)), ys ≠ [] →
    HT P K (f ⟨self, none, none, [], none, [], ⟨some a, some b, ys ++ xs⟩⟩) R →
    HT P K (Heap.addCores ⟨self, none, none, [], none, [], ⟨some a, some b, ys⟩⟩ xs >>= f) R := by
  induction xs with
  | nil => intro ys _ h; simpa [Heap.addCores, Act.ret_bind] using h
  | cons x xs ih =>
    intro ys hy h
    unfold Heap.addCores Heap.addCore
    rw [if_neg hy, Act.assoc, Act.assoc]
    refine HT.touch (hs.sub (by simp)) ?_
    rw [Act.assoc]
    refine HT.touch (hs.sub (by simp)) ?_
    rw [Act.ret_bind]
    exact ih (ys ++ [x]) (by simp) (by simpa using h)

theorem outerCoreGradient_ht (A B : Shell) (xs : List (Pot × Shell)) (gr : List Nat) :
    HT (A.ptrs ++ B.ptrs ++ xs.flatMap (fun x => x.1.ptrs ++ x.2.ptrs) ++ gr) [] (outerCoreGradient A B xs gr)
      (fun _ => []) := by
  unfold outerCoreGradient
  refine HT.newGrpp fun self => ?_
  cases xs with
  | nil =>
    unfold addCores
    rw [Act.ret_bind]
    refine HT.run (fullGradient_ht A B _ _) ?_ (HT.touch (by cov) ?_)
    · refine Cov.append (Cov.append (by cov) ?_) (by cov)
      unfold Grpp.ptrs
      simp only [Option.toList_none, List.flatMap_nil, List.append_nil, Cores.ptrs]
      cov
    · exact fun e s F hs _ => deleteGrpp_ht _ rfl rfl rfl rfl e s F hs (by simp)
  | cons x xs =>
    unfold addCores addCore
    rw [if_pos rfl, Act.assoc, Act.assoc]
    refine HT.touch (by cov) ?_
    rw [Act.assoc]
    refine HT.alloc fun a => ?_
    rw [Act.assoc]
    refine HT.alloc fun b => ?_
    rw [Act.assoc]
    refine HT.touch (by cov) ?_
    rw [Act.ret_bind]
    refine HT.addCores self a b (by cov) xs [x] (by simp) ?_
    refine HT.run (fullGradient_ht A B _ _) ?_ (HT.touch (by cov) ?_)
    · refine Cov.append (Cov.append (by cov) ?_) (by cov)
      unfold Grpp.ptrs
      simp only [Option.toList_none, Option.toList_some, List.flatMap_nil, List.append_nil, Cores.ptrs, List.cons_append,
        List.nil_append]
      cov
    · intro e s F hs hF
      refine deleteGrpp_ht _ rfl rfl rfl rfl e s F ?_ (by simp)
      rw [hs]
      congr 1
      exact Multiset.coe_eq_coe.2 (List.reverse_perm [self, a, b])

/-! ## A client that owns a GRPP object -/

theorem deleteAll_ht {P : List Nat} {f : α → Act Unit} {b : α → List Nat}
    (h : ∀ x, HT P [(b x : Multiset Nat)] (f x) (fun _ => [])) (l : List α) :
    HT P [((l.flatMap b : List Nat) : Multiset Nat)] (deleteAll f l) (fun _ => []) := by
  induction l with
  | nil => exact HT.ret rfl
  | cons x l ih =>
    unfold deleteAll
    refine HT.bindOf (K0 := [(b x : Multiset Nat)]) (K1 := [((l.flatMap b : List Nat) : Multiset Nat)]) (h x) ?_
      Cov.callers fun _ => ih
    rw [List.flatMap_cons]
    simp only [List.sum_cons, List.sum_nil, add_zero]
    exact (Multiset.coe_add _ _).symm

/-- A destructor that uses other blocks. -/
theorem HT.dropP {P P' : List Nat} {K K' : List (Multiset Nat)} {R : β → List (Multiset Nat)} {p : Act Unit} {f : Unit → Act β}
    {x : Multiset Nat} (hp : HT P' [x] p (fun _ => [])) (hk : Pick x K K') (hP : Cov P K' P') (hf : HT P K' (f ()) R) :
    HT P K (p >>= f) R :=
  HT.bindOf hp (by simpa using hk.sum) hP (fun _ => hf)

theorem deleteOwned_ht (g : Grpp) : HT [] [(g.ptrs : Multiset Nat)] (deleteGrpp g) (fun _ => []) := by
  unfold deleteGrpp
  intro e st F hs hF
  refine HT.touch (K := [{g.self}, ((g.uL.toList.flatMap Pot.ptrs : List Nat) : Multiset Nat),
    ((g.arep.flatMap Pot.ptrs : List Nat) : Multiset Nat), (g.arrArep.toList : Multiset Nat),
    ((g.esop.flatMap Pot.ptrs : List Nat) : Multiset Nat), (g.arrEsop.toList : Multiset Nat),
    ((g.cores.items.flatMap (fun x => x.1.ptrs ++ x.2.ptrs) : List Nat) : Multiset Nat),
    (g.cores.arrPot.toList : Multiset Nat), (g.cores.arrShell.toList : Multiset Nat)]) (P := []) (by cov) ?_ e st F ?_ hF
  · have hp : ∀ l : List Pot, HT [] [((l.flatMap Pot.ptrs : List Nat) : Multiset Nat)] (deleteAll deletePot l) (fun _ => []) :=
      deleteAll_ht (b := Pot.ptrs) deletePot_ht
    have hq : ∀ (a : List Nat) (l : List Pot), HT a [((l.flatMap Pot.ptrs : List Nat) : Multiset Nat)]
        (deleteAll (fun p => do touch a; deletePot p) l) (fun _ => []) := fun a l =>
      deleteAll_ht (b := Pot.ptrs) (fun x => HT.touch Cov.callers ((deletePot_ht x).weaken (by simp))) l
    have hr : ∀ (a : List Nat) (l : List (Pot × Shell)),
        HT a [((l.flatMap (fun x => x.1.ptrs ++ x.2.ptrs) : List Nat) : Multiset Nat)]
        (deleteAll (fun x => do touch a; deletePot x.1; deleteShell x.2) l) (fun _ => []) := fun a l =>
      deleteAll_ht (b := fun x => x.1.ptrs ++ x.2.ptrs) (fun x => HT.touch Cov.callers
        (HT.bindOf (K0 := [x.1.blocks]) (K1 := [x.2.blocks]) (deletePot_ht _) rfl Cov.nil fun _ =>
          (deleteShell_ht _).weaken (by simp))) l
    have hm : ∀ {K : List (Multiset Nat)} (a : List Nat), (a : Multiset Nat) ∈ K → Cov [] K a := by
      intro K a ha x hx
      right
      obtain ⟨u, v, rfl⟩ := List.append_of_mem ha
      rw [List.sum_append, List.sum_cons, Multiset.mem_add, Multiset.mem_add]
      exact .inr (.inl hx)
    hdrop (hp _)
    refine HT.dropP (hq _ _) (Pick.there _ (Pick.here _)) (hm _ (by simp)) ?_
    hdrop (freeOpt_ht _)
    refine HT.dropP (hq _ _) (Pick.there _ (Pick.here _)) (hm _ (by simp)) ?_
    hdrop (freeOpt_ht _)
    refine HT.dropP (hr _ _) (Pick.there _ (Pick.here _)) (Cov.append (hm _ (by simp)) (hm _ (by simp))) ?_
    hdrop (freeOpt_ht _)
    hdrop (freeOpt_ht _)
    exact HT.mono (HT.freeLast (Pick.here _)) (fun _ => rfl)
  · rw [hs]
    have : (g.ptrs : Multiset Nat) = {g.self} + (((((((g.uL.toList.flatMap Pot.ptrs : List Nat) : Multiset Nat) +
      (g.arrArep.toList : Multiset Nat)) + ((g.arep.flatMap Pot.ptrs : List Nat) : Multiset Nat)) +
      (g.arrEsop.toList : Multiset Nat)) + ((g.esop.flatMap Pot.ptrs : List Nat) : Multiset Nat)) +
      (((g.cores.arrPot.toList : Multiset Nat) + (g.cores.arrShell.toList : Multiset Nat)) +
      ((g.cores.items.flatMap (fun x => x.1.ptrs ++ x.2.ptrs) : List Nat) : Multiset Nat))) := rfl
    rw [List.sum_cons, List.sum_nil, add_zero, this]
    simp only [List.sum_cons, List.sum_nil, add_zero]
    ac_rfl

/-- The arrays exist only when something was added. -/
def Grpp.Wf (g : Grpp) : Prop :=
  (g.arep = [] → g.arrArep = none) ∧ (g.esop = [] → g.arrEsop = none) ∧
    (g.cores.items = [] → g.cores.arrPot = none ∧ g.cores.arrShell = none)

/-- The blocks of an object, one group after the other. -/
theorem Grpp.blocks_eq (g : Grpp) : (g.ptrs : Multiset Nat) = {g.self} +
    (((((((g.uL.toList.flatMap Pot.ptrs : List Nat) : Multiset Nat) +
      (g.arrArep.toList : Multiset Nat)) + ((g.arep.flatMap Pot.ptrs : List Nat) : Multiset Nat)) +
      (g.arrEsop.toList : Multiset Nat)) + ((g.esop.flatMap Pot.ptrs : List Nat) : Multiset Nat)) +
      (((g.cores.arrPot.toList : Multiset Nat) + (g.cores.arrShell.toList : Multiset Nat)) +
      ((g.cores.items.flatMap (fun x => x.1.ptrs ++ x.2.ptrs) : List Nat) : Multiset Nat))) := rfl

theorem own_sub {P : List Nat} {K : List (Multiset Nat)} {g : Grpp} {ps : List Nat} (hK : (g.ptrs : Multiset Nat) ∈ K)
    (h : ∀ x ∈ ps, x ∈ g.ptrs) : Cov P K ps := by
  intro x hx
  right
  obtain ⟨u, v, rfl⟩ := List.append_of_mem hK
  rw [List.sum_append, List.sum_cons, Multiset.mem_add, Multiset.mem_add]
  exact .inr (.inl (h x hx))

theorem clientStep_ht (args : List Nat) (g : Grpp) (hg : g.Wf) (o : GrppOp) :
    HT args [(g.ptrs : Multiset Nat)] (clientStep args g o) (fun g' => [(g'.ptrs : Multiset Nat)]) := by
  cases o with
  | setLocal =>
    refine HT.mk (newPot_ht args) Cov.callers fun p => ?_
    unfold setLocal
    refine HT.touch (own_sub (g := g) (by simp) g.self_mem) ?_
    cases hu : g.uL with
    | none =>
      refine HT.ret ?_
      simp only [List.sum_cons, List.sum_nil, add_zero, Grpp.blocks_eq, hu, Option.toList_none, List.flatMap_nil,
        Option.toList_some, List.flatMap_cons, List.append_nil, Multiset.coe_nil, zero_add, Pot.blocks]
      ac_rfl
    | some q =>
      refine HT.bindOf (K0 := [q.blocks]) (K1 := [({ g with uL := some p } : Grpp).ptrs]) (deletePot_ht q) ?_ Cov.nil
        fun _ => HT.ret rfl
      simp only [List.sum_cons, List.sum_nil, add_zero, Grpp.blocks_eq, hu,
        Option.toList_some, List.flatMap_cons, List.flatMap_nil, List.append_nil, Pot.blocks]
      ac_rfl
  | addArep =>
    refine HT.mk (newPot_ht args) Cov.callers fun p => ?_
    unfold addArep
    refine HT.touch (own_sub (g := g) (by simp) g.self_mem) ?_
    split
    · rename_i h
      refine HT.alloc fun a => HT.touch (by cov) (HT.ret ?_)
      simp only [List.sum_cons, List.sum_nil, add_zero, Grpp.blocks_eq, h, hg.1 h, Option.toList_none, List.flatMap_nil,
        Option.toList_some, List.flatMap_cons, List.append_nil, Multiset.coe_nil, Pot.blocks, Multiset.coe_singleton]
      ac_rfl
    · refine HT.touch (own_sub (g := g) (by simp) g.arrArep_mem) (HT.ret ?_)
      simp only [List.sum_cons, List.sum_nil, add_zero, Grpp.blocks_eq, List.flatMap_append, List.flatMap_nil,
        List.flatMap_cons, List.append_nil, ← Multiset.coe_add, Pot.blocks]
      ac_rfl
  | addEsop =>
    refine HT.mk (newPot_ht args) Cov.callers fun p => ?_
    unfold addEsop
    refine HT.touch (own_sub (g := g) (by simp) g.self_mem) ?_
    split
    · rename_i h
      refine HT.alloc fun a => HT.touch (by cov) (HT.ret ?_)
      simp only [List.sum_cons, List.sum_nil, add_zero, Grpp.blocks_eq, h, hg.2.1 h, Option.toList_none, List.flatMap_nil,
        Option.toList_some, List.flatMap_cons, List.append_nil, Multiset.coe_nil, Pot.blocks, Multiset.coe_singleton]
      ac_rfl
    · refine HT.touch (own_sub (g := g) (by simp) g.arrEsop_mem) (HT.ret ?_)
      simp only [List.sum_cons, List.sum_nil, add_zero, Grpp.blocks_eq, List.flatMap_append, List.flatMap_nil,
        List.flatMap_cons, List.append_nil, ← Multiset.coe_add, Pot.blocks]
      ac_rfl
  | addCore =>
    refine HT.mk (newPot_ht args) Cov.callers fun p => HT.ask fun l => HT.mk (newShell_ht args l) Cov.callers fun s => ?_
    unfold addCore
    refine HT.touch (own_sub (g := g) (by simp) g.self_mem) ?_
    split
    · rename_i h
      refine HT.alloc fun a => HT.alloc fun b => HT.touch (by cov) (HT.ret ?_)
      simp only [List.sum_cons, List.sum_nil, add_zero, Grpp.blocks_eq, h, hg.2.2 h, Option.toList_none, List.flatMap_nil,
        Option.toList_some, List.flatMap_cons, List.append_nil, Multiset.coe_nil, Pot.blocks, Shell.blocks,
        Multiset.coe_singleton, ← Multiset.coe_add]
      ac_rfl
    · refine HT.touch (own_sub (g := g) (by simp) ?_) (HT.ret ?_)
      · intro x hx
        refine g.cores_mem x ?_
        unfold Cores.ptrs
        exact List.mem_append_left _ hx
      simp only [List.sum_cons, List.sum_nil, add_zero, Grpp.blocks_eq, List.flatMap_append, List.flatMap_nil,
        List.flatMap_cons, List.append_nil, ← Multiset.coe_add, Pot.blocks, Shell.blocks]
      ac_rfl

theorem clientStep_post (args : List Nat) (g : Grpp) (hg : g.Wf) (o : GrppOp) : Post (clientStep args g o) Grpp.Wf := by
  cases o with
  | setLocal =>
    refine Post.skip fun p => ?_
    unfold setLocal
    refine Post.skip fun _ => ?_
    split
    · exact Post.skip fun _ => Post.ret hg
    · exact Post.ret hg
  | addArep =>
    refine Post.skip fun p => ?_
    unfold addArep
    refine Post.skip fun _ => ?_
    split
    · exact Post.skip fun _ => Post.skip fun _ => Post.ret ⟨by simp, hg.2.1, hg.2.2⟩
    · exact Post.skip fun _ => Post.ret ⟨by simp, hg.2.1, hg.2.2⟩
  | addEsop =>
    refine Post.skip fun p => ?_
    unfold addEsop
    refine Post.skip fun _ => ?_
    split
    · exact Post.skip fun _ => Post.skip fun _ => Post.ret ⟨hg.1, by simp, hg.2.2⟩
    · exact Post.skip fun _ => Post.ret ⟨hg.1, by simp, hg.2.2⟩
  | addCore =>
    refine Post.skip fun p => Post.skip fun l => Post.skip fun s => ?_
    unfold addCore
    refine Post.skip fun _ => ?_
    split
    · exact Post.skip fun _ => Post.skip fun _ => Post.skip fun _ => Post.ret ⟨hg.1, hg.2.1, by simp⟩
    · exact Post.skip fun _ => Post.ret ⟨hg.1, hg.2.1, by simp⟩

theorem clientSteps_ht (args : List Nat) (ops : List GrppOp) : ∀ (g : Grpp), g.Wf →
    HT args [(g.ptrs : Multiset Nat)] (clientSteps args g ops) (fun g' => [(g'.ptrs : Multiset Nat)]) := by
  induction ops with
  | nil => intro g _; exact HT.ret rfl
  | cons o r ih =>
    intro g hg e s F hs hF
    obtain ⟨g', s1, h1, l1⟩ := clientStep_ht args g hg o e s F hs hF
    obtain ⟨g'', s2, h2, l2⟩ := ih g' (clientStep_post args g hg o e s g' s1 h1) e s1 F l1 hF
    exact ⟨g'', s2, by unfold clientSteps; rw [HT.bind_ok h1]; exact h2, l2⟩

theorem lifetime_ht {args P : List Nat} {work : Grpp → Act Unit} (ops : List GrppOp) (ha : ∀ x ∈ args, x ∈ P)
    (hw : ∀ g : Grpp, HT (g.ptrs ++ P) [] (work g) (fun _ => [])) : HT P [] (lifetime args ops work) (fun _ => []) := by
  unfold lifetime
  refine HT.newGrpp fun self => ?_
  refine HT.bindOf (K1 := []) ((clientSteps_ht args ops _ ⟨fun _ => rfl, fun _ => rfl, fun _ => ⟨rfl, rfl⟩⟩)) rfl
    (fun x hx => .inl (ha x hx)) fun g => ?_
  refine HT.run (hw g) ?_ ((deleteOwned_ht g).weaken (by simp))
  exact Cov.append (own_sub (g := g) (by simp) (fun _ h => h)) Cov.callers

/-! ## Fortran interface -/

theorem fortranPot_ht {args P : List Nat} {call : Shell → Shell → Pot → Act Unit} (ha : ∀ x ∈ args, x ∈ P)
    (hc : ∀ A B pot, HT (A.ptrs ++ B.ptrs ++ pot.ptrs ++ P) [] (call A B pot) (fun _ => [])) :
    HT P [] (fortranPot args call) (fun _ => []) := by
  unfold fortranPot
  have hA : ∀ {K}, Cov P K args := fun {K} x hx => .inl (ha x hx)
  refine HT.alloc fun pw => HT.touch (Cov.cons (by simp) hA) ?_
  refine HT.mk (newPot_ht _) (Cov.cons (by simp) hA) fun pot => HT.ask fun lA => ?_
  refine HT.mk (newShell_ht _ _) hA fun A => HT.ask fun lB => HT.mk (newShell_ht _ _) hA fun B => ?_
  refine HT.run (hc A B pot) (Cov.append (by cov) Cov.callers) ?_
  hdrop (deleteShell_ht A)
  hdrop (deleteShell_ht B)
  hdrop (deletePot_ht pot)
  hfreeLast

theorem fortranPair_ht {args P : List Nat} {call : Shell → Shell → Act Unit} (ha : ∀ x ∈ args, x ∈ P)
    (hc : ∀ A B, HT (A.ptrs ++ B.ptrs ++ P) [] (call A B) (fun _ => [])) :
    HT P [] (fortranPair args call) (fun _ => []) := by
  unfold fortranPair
  have hA : ∀ {K}, Cov P K args := fun {K} x hx => .inl (ha x hx)
  refine HT.ask fun lA => HT.mk (newShell_ht _ _) hA fun A => HT.ask fun lB => HT.mk (newShell_ht _ _) hA fun B => ?_
  refine HT.run (hc A B) (Cov.append (by cov) Cov.callers) ?_
  hdrop (deleteShell_ht A)
  exact HT.mono (HT.dropLast (deleteShell_ht B) (Pick.here _)) (fun _ => rfl)

theorem fortranOuterCore1_ht (args : List Nat) (m mx my mz : Nat) :
    HT (args ++ [m, mx, my, mz]) [] (fortranOuterCore1 args m mx my mz) (fun _ => []) := by
  unfold fortranOuterCore1
  refine HT.alloc fun pw => HT.touch (by cov) (HT.ask fun lA => HT.mk (newShell_ht _ _) (by cov) fun A => ?_)
  refine HT.ask fun lB => HT.mk (newShell_ht _ _) (by cov) fun B => HT.mk (newPot_ht _) (by cov) fun pot => ?_
  refine HT.ask fun lO => HT.mk (newShell_ht _ _) (by cov) fun oc => ?_
  refine HT.run (outerCore1_ht A B pot oc m mx my mz) (by cov) ?_
  hdrop (deleteShell_ht A)
  hdrop (deleteShell_ht B)
  hdrop (deletePot_ht pot)
  hdrop (deleteShell_ht oc)
  hfreeLast

theorem fortranOuterCore2_ht (args : List Nat) (m mx my mz : Nat) :
    HT (args ++ [m, mx, my, mz]) [] (fortranOuterCore2 args m mx my mz) (fun _ => []) := by
  unfold fortranOuterCore2
  refine HT.alloc fun pw1 => HT.alloc fun pw2 => HT.touch (by cov) (HT.ask fun lA => HT.mk (newShell_ht _ _) (by cov) fun A => ?_)
  refine HT.ask fun lB => HT.mk (newShell_ht _ _) (by cov) fun B => HT.mk (newPot_ht _) (by cov) fun p1 => ?_
  refine HT.ask fun lO => HT.mk (newShell_ht _ _) (by cov) fun oc1 => HT.mk (newPot_ht _) (by cov) fun p2 => ?_
  refine HT.ask fun lP => HT.mk (newShell_ht _ _) (by cov) fun oc2 => ?_
  refine HT.run (outerCore2_ht A B p1 oc1 p2 oc2 m mx my mz) (by cov) ?_
  hdrop (deleteShell_ht A)
  hdrop (deleteShell_ht B)
  hdrop (deletePot_ht p1)
  hdrop (deletePot_ht p2)
  hdrop (deleteShell_ht oc1)
  hdrop (deleteShell_ht oc2)
  hfree; hfreeLast

/-! ## Initialisation -/

theorem tabulateHarmonics_ht : HT [] [] tabulateHarmonics (fun t => [(([t.1, t.2.1, t.2.2] : List Nat) : Multiset Nat)]) := by
  unfold tabulateHarmonics
  refine HT.alloc fun t => HT.touch (by cov) (HT.alloc fun c => HT.touch (by cov) (HT.alloc fun v => HT.touch (by cov) (HT.ret ?_)))
  simp only [List.sum_cons, List.sum_nil, add_zero]
  exact Multiset.coe_eq_coe.2 (List.reverse_perm [t, c, v])

/-- The blocks of tables of harmonics. -/
def tableBlocks (ts : List (Nat × Nat × Nat)) : List Nat := ts.flatMap (fun t => [t.1, t.2.1, t.2.2])

theorem moreHarmonics_ht (n : Nat) : HT [] [] (moreHarmonics n) (fun ts => [(tableBlocks ts : Multiset Nat)]) := by
  induction n with
  | zero => exact HT.ret rfl
  | succ n ih =>
    unfold moreHarmonics
    refine HT.mk ih Cov.nil fun r => HT.mk tabulateHarmonics_ht Cov.nil fun t => HT.ret ?_
    simp only [List.sum_cons, List.sum_nil, add_zero, tableBlocks, List.flatMap_append, List.flatMap_cons, List.flatMap_nil,
      List.append_nil, ← Multiset.coe_add]
    ac_rfl

theorem moreHarmonics_post (n : Nat) : Post (moreHarmonics n) (fun ts => ts.length = n) := by
  induction n with
  | zero => exact Post.ret rfl
  | succ n ih =>
    unfold moreHarmonics
    exact Post.bind ih fun r hr => Post.skip fun t => Post.ret (by simp [hr])

theorem createHarmonics_ht (g : Statics) :
    HT [] [(g.ptrs : Multiset Nat)] (createHarmonics g) (fun g' => [(g'.ptrs : Multiset Nat)]) := by
  unfold createHarmonics
  split
  · exact HT.ret rfl
  · intro e st F hs hF
    refine HT.alloc (P := []) (K := [(g.arr.toList : Multiset Nat), (tableBlocks g.tables : Multiset Nat)])
      (fun a => ?_) e st F ?_ hF
    · refine HT.drop (freeOpt_ht _) (Pick.there _ (Pick.here _)) ?_
      refine HT.mk (moreHarmonics_ht _) Cov.nil fun ts => HT.touch (by cov) (HT.ret ?_)
      simp only [List.sum_cons, List.sum_nil, add_zero, Statics.ptrs, tableBlocks, Option.toList_some, List.flatMap_append,
        ← Multiset.coe_add, Multiset.coe_singleton]
      ac_rfl
    · rw [hs]
      simp only [List.sum_cons, List.sum_nil, add_zero, Statics.ptrs, tableBlocks, ← Multiset.coe_add]

theorem createHarmonics_post (g : Statics) : Post (createHarmonics g) (fun g' =>
    (41 ≤ g.tables.length → g' = g) ∧ (g.tables.length < 41 → g'.tables.length = 41 ∧ g'.arr.isSome)) := by
  unfold createHarmonics
  split
  · exact Post.ret ⟨fun _ => rfl, fun h => by omega⟩
  · refine Post.skip fun a => Post.skip fun _ => Post.bind (moreHarmonics_post _) fun ts hts => Post.skip fun _ => Post.ret ?_
    refine ⟨fun h => by omega, fun h => ⟨?_, rfl⟩⟩
    rw [List.length_append, hts]; omega

theorem init_ht (g : Statics) : HT [] [(g.ptrs : Multiset Nat)] (init g) (fun g' => [(g'.ptrs : Multiset Nat)]) := by
  unfold init
  split
  · exact HT.ret rfl
  · exact HT.bindOf (K1 := []) (createHarmonics_ht g) (by simp) Cov.nil fun _ => HT.ret rfl

theorem init_post (g : Statics) (hi : g.initialized = false) : Post (init g) (fun g' => g'.initialized = true ∧
    (41 ≤ g.tables.length → g'.ptrs = g.ptrs ∧ g'.tables = g.tables) ∧
    (g.tables.length < 41 → g'.tables.length = 41 ∧ g'.arr.isSome)) := by
  unfold init
  rw [hi]
  refine Post.bind (createHarmonics_post g) fun g' h => Post.ret ⟨rfl, fun hl => ?_, h.2⟩
  rw [h.1 hl]; exact ⟨rfl, rfl⟩

theorem tableBlocks_length (ts : List (Nat × Nat × Nat)) : (tableBlocks ts).length = 3 * ts.length := by
  induction ts with
  | nil => rfl
  | cons t ts ih =>
    have : tableBlocks (t :: ts) = [t.1, t.2.1, t.2.2] ++ tableBlocks ts := rfl
    rw [this, List.length_append, ih, List.length_cons]; simp; omega

end Libgrpp.Heap
