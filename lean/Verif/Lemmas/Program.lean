import Verif.Model.Program
import Verif.Props.Driver
import Verif.Props.DriverGrpp
import Verif.Props.BasisFile
import Verif.Props.GrppFile
import Verif.Props.MatrixFile
import Verif.Props.Elements

/-! # Lemmas on the whole driver program -/

namespace Libgrpp

theorem calc_mem_all (c : Calc) : c ∈ Calc.all := by cases c <;> decide

theorem arg_injective_all : ∀ c ∈ Calc.all, ∀ c' ∈ Calc.all, c.arg = c'.arg → c = c' := by decide +kernel

theorem arg_injective {c c' : Calc} (h : c.arg = c'.arg) : c = c' := arg_injective_all c (calc_mem_all c) c' (calc_mem_all c') h

theorem parseArg_arg (c : Calc) : parseArg c.arg = some c := by
  unfold parseArg
  cases h : Calc.all.find? fun c' => c'.arg == c.arg with
  | none =>
    have := List.find?_eq_none.1 h c (calc_mem_all c)
    simp at this
  | some c' =>
    have := List.find?_some h
    rw [beq_iff_eq] at this
    rw [arg_injective this]

theorem parseArg_unknown {a : List Char} (h : ∀ c : Calc, c.arg ≠ a) : parseArg a = none := by
  unfold parseArg
  rw [List.find?_eq_none]
  intro c _
  simpa using h c

theorem parseArgs_known (args : List (List Char)) (h : ∀ a ∈ args, ∃ c : Calc, c.arg = a) :
    ∃ flags, parseArgs args = .ok (some flags) ∧ ∀ c, flags c = true ↔ c.arg ∈ args := by
  have key := forRange_inv (n := args.length) (s := some fun _ => false) (body := parseStep args)
    (fun m st => ∃ flags, st = some flags ∧ ∀ c, flags c = true ↔ c.arg ∈ args.take m) ⟨_, rfl, fun c => by simp⟩ ?_
  · obtain ⟨st, h1, flags, rfl, h2⟩ := key
    rw [List.take_length] at h2
    exact ⟨flags, h1, h2⟩
  · rintro m _ hm ⟨flags, rfl, h2⟩
    obtain ⟨c, hc⟩ := h _ (List.getElem_mem hm)
    refine ⟨some fun c' => flags c' || c' == c, ?_, _, rfl, ?_⟩
    · simp only [parseStep, rd_ok hm, Outcome.ok_bind, ← hc, parseArg_arg]
    · intro c'
      rw [← List.take_concat_get' args m hm, List.mem_append, ← h2, List.mem_singleton, ← hc]
      simp only [Bool.or_eq_true, beq_iff_eq]
      exact or_congr_right ⟨fun e => by rw [e], arg_injective⟩

theorem parseArgs_unknown (args : List (List Char)) (h : ∃ a ∈ args, ∀ c : Calc, c.arg ≠ a) : parseArgs args = .ok none := by
  obtain ⟨a, ha, hu⟩ := h
  obtain ⟨k, hk, rfl⟩ := List.getElem_of_mem ha
  have key := forRange_inv (n := args.length) (s := some fun _ => false) (body := parseStep args)
    (fun m st => k < m → st = none) (fun h => absurd h (by omega)) ?_
  · obtain ⟨st, h1, h2⟩ := key
    rw [parseArgs, h1, h2 hk]
  · intro m st hm hI
    cases st with
    | none => exact ⟨none, rfl, fun _ => rfl⟩
    | some flags =>
      by_cases hmk : m = k
      · subst hmk
        refine ⟨none, ?_, fun _ => rfl⟩
        simp only [parseStep, rd_ok hm, Outcome.ok_bind, parseArg_unknown hu]
      · cases hp : parseArg args[m] with
        | none => exact ⟨none, by simp only [parseStep, rd_ok hm, Outcome.ok_bind, hp], fun _ => rfl⟩
        | some c =>
          refine ⟨_, by simp only [parseStep, rd_ok hm, Outcome.ok_bind, hp]; rfl, fun hlt => ?_⟩
          exact absurd (hI (by omega)) (by simp)

theorem parseArgs_ok (args : List (List Char)) : ∃ r, parseArgs args = .ok r := by
  by_cases h : ∀ a ∈ args, ∃ c : Calc, c.arg = a
  · obtain ⟨f, h, -⟩ := parseArgs_known args h
    exact ⟨_, h⟩
  · push Not at h
    exact ⟨_, parseArgs_unknown args h⟩

/-! ## The molecule -/

/-- A word that stands for the element `z`: its symbol in any case. The entry 102 of the table is excluded, see `element_round_trip_false`. -/
structure IsSymbol (z : Nat) (sym : List Char) : Prop where
  element : z ≤ 130 ∧ z ≠ 102
  ne : sym ≠ []
  short : sym.length < 256
  word : ∀ c ∈ sym, isSpaceC c = false
  ascii : AsciiString (sym.map Char.toNat)
  same : SameLetters (sym.map Char.toNat) (symbolOf z)

/-- The records of the atoms: symbol of the element, three coordinates; white space between all of them. -/
inductive XyzText (io : DecimalIO) : List (Nat × Point) → List Char → Prop
  | nil : XyzText io [] []
  | cons {z : Nat} {x y w : ℝ} {atoms : List (Nat × Point)} {ws sym t1 t2 : List Char} (hws : Spaces ws) (hsym : IsSymbol z sym)
      (h1 : NumsText io [x, y, w] t1) (h2 : XyzText io atoms t2) : XyzText io ((z, ![x, y, w]) :: atoms) (ws ++ (sym ++ (t1 ++ t2)))

/-- A file with a molecule: the number of atoms and the records; anything separated by white space may follow. -/
def MoleculeFile (io : DecimalIO) (atoms : List (Nat × Point)) (text : List Char) : Prop :=
  ∃ ws t rest, text = ws ++ (Nat.toDigits 10 atoms.length ++ (t ++ rest)) ∧ AllSpace ws ∧ XyzText io atoms t ∧ StartsBlank rest ∧ atoms.length ≤ intMax

theorem readCoord_token (io : DecimalIO) (ws tok t : List Char) (x : ℝ) (hws : AllSpace ws) (htok : NumToken io tok x) (ht : StartsBlank t) :
    readCoord io (ws ++ (tok ++ t)) = .ok (some (x, t)) := by
  unfold readCoord
  rw [scanDbl_token io ws tok t x hws htok ht]

theorem readXyzRecord_spec (io : DecimalIO) (x y w : ℝ) (ws sym t1 rest : List Char) (hws : AllSpace ws) (hne : sym ≠ [])
    (hlen : sym.length < 256) (hw : ∀ c ∈ sym, isSpaceC c = false) (h1 : NumsText io [x, y, w] t1) (hrest : StartsBlank rest) :
    readXyzRecord io (ws ++ (sym ++ (t1 ++ rest))) = .ok (some (sym, ![x, y, w], rest)) := by
  have hb := h1.startsBlank hrest
  unfold readXyzRecord
  rw [scanWord_word ws sym _ hws hne hw hb]
  cases h1 with
  | cons a1 b1 h1 =>
    cases h1 with
    | cons a2 b2 h1 =>
      cases h1 with
      | cons a3 b3 h1 =>
        cases h1
        simp only [Outcome.valid_pos hlen, Outcome.ok_bind, List.append_assoc, List.nil_append] at hb ⊢
        rw [readCoord_token io _ _ _ _ a1.2 b1 (a2.startsBlank _)]
        simp only [Outcome.ok_bind]
        rw [readCoord_token io _ _ _ _ a2.2 b2 (a3.startsBlank _)]
        simp only [Outcome.ok_bind]
        rw [readCoord_token io _ _ _ _ a3.2 b3 hrest]
        simp only [Outcome.ok_bind]

theorem XyzText.startsBlank {io : DecimalIO} {atoms : List (Nat × Point)} {t : List Char} (h : XyzText io atoms t) {u : List Char} (hu : StartsBlank u) :
    StartsBlank (t ++ u) := by
  cases h with
  | nil => exact hu
  | cons hws hsym h1 h2 =>
    rw [List.append_assoc]
    exact hws.startsBlank _

theorem forRange_first {σ : Type} (n : Nat) (s : σ) (body : Nat → σ → Outcome σ) :
    forRange (n + 1) s body = body 0 s >>= fun s' => forRange n s' fun i => body (i + 1) := by
  induction n with
  | zero =>
    rw [forRange_succ, forRange_zero, Outcome.ok_bind]
    cases body 0 s <;> rfl
  | succ n ih =>
    rw [forRange_succ, ih, bind_assoc]
    cases body 0 s with
    | ok s' => simp only [Outcome.ok_bind]; rw [forRange_succ]
    | _ => rfl

/-- Reading the records one after the other. -/
theorem readXyz_loop (io : DecimalIO) (rest : List Char) (hrest : StartsBlank rest) (m : Nat) (atoms : List (Nat × Point)) :
    ∀ t, XyzText io atoms t → ∀ l0 : List (Nat × Point),
    forRange (atoms.length + m) (some (l0, t ++ rest)) (fun _ st => readAtom io st) =
      forRange m (some (l0 ++ atoms, rest)) (fun _ st => readAtom io st) := by
  induction atoms with
  | nil =>
    intro t ht l0
    cases ht
    simp
  | cons a atoms ih =>
    intro t ht l0
    cases ht with
    | @cons z x y w _ ws sym t1 t2 hws hsym h1 h2 =>
      have step : readAtom io (some (l0, ws ++ (sym ++ (t1 ++ (t2 ++ rest))))) = .ok (some (l0 ++ [(z, ![x, y, w])], t2 ++ rest)) := by
        simp only [readAtom]
        rw [readXyzRecord_spec io x y w ws sym t1 (t2 ++ rest) hws.2 hsym.ne hsym.short hsym.word h1 (h2.startsBlank hrest)]
        simp only [Outcome.ok_bind]
        rw [element_round_trip_partial z hsym.element.1 hsym.element.2 _ hsym.ascii hsym.same]
        simp only [Outcome.ok_bind]
        rw [if_neg (by omega), Int.toNat_natCast]
      rw [List.length_cons, show atoms.length + 1 + m = (atoms.length + m) + 1 by omega, forRange_first]
      simp only [List.append_assoc]
      rw [step, Outcome.ok_bind, ih t2 h2]
      simp

theorem readAtom_stopped (io : DecimalIO) (m : Nat) : forRange m none (fun _ st => readAtom io st) = .ok none := by
  obtain ⟨s, h, rfl⟩ := forRange_inv (n := m) (s := none) (body := fun _ st => readAtom io st) (fun _ s => s = none) rfl
    (by rintro i _ _ rfl; exact ⟨none, rfl, rfl⟩)
  exact h

theorem readAtom_unknown (io : DecimalIO) (l : List (Nat × Point)) (x y z : ℝ) (ws sym t1 rest : List Char) (hws : AllSpace ws) (hne : sym ≠ [])
    (hlen : sym.length < 256) (hw : ∀ c ∈ sym, isSpaceC c = false) (ha : AsciiString (sym.map Char.toNat))
    (hun : ∀ z < 131, ¬SameLetters (sym.map Char.toNat) (symbolOf z)) (h1 : NumsText io [x, y, z] t1) (hr : StartsBlank rest) :
    readAtom io (some (l, ws ++ (sym ++ (t1 ++ rest)))) = .ok none := by
  obtain ⟨e, he, h⟩ := element_lookup _ ha
  simp only [readAtom]
  rw [readXyzRecord_spec io x y z ws sym t1 rest hws hne hlen hw h1 hr]
  simp only [Outcome.ok_bind, he]
  rcases h with ⟨rfl, -⟩ | ⟨i, hi, -, hs, -⟩
  · rfl
  · exact absurd hs (hun i hi)

theorem readMoleculeText_spec (io : DecimalIO) (atoms : List (Nat × Point)) (text : List Char) (h : MoleculeFile io atoms text) :
    readMoleculeText io text = .ok (some atoms) := by
  obtain ⟨ws, t, rest, rfl, hws, ht, hr, hn⟩ := h
  unfold readMoleculeText
  rw [scanInt_token _ _ _ hn hws (ht.startsBlank hr)]
  simp only [Outcome.ok_bind, Int.toNat_natCast]
  rw [← Nat.add_zero atoms.length, readXyz_loop io rest hr 0 atoms t ht []]
  rfl

theorem XyzText.charge {io : DecimalIO} {atoms : List (Nat × Point)} {t : List Char} (h : XyzText io atoms t) : ∀ a ∈ atoms, a.1 < 131 := by
  induction h with
  | nil => simp
  | cons hws hsym h1 h2 ih =>
    intro a ha
    rcases List.mem_cons.1 ha with rfl | ha
    · have := hsym.element.1; simp only; omega
    · exact ih a ha

/-! ## Printing -/

theorem printBasisSets_ok (sets : List (Option (List BasisFun))) (h : ∀ z < 131, sets[z]? = some none ∨ ∃ fs, sets[z]? = some (some fs) ∧ ∀ f ∈ fs, f.L < 15) :
    printBasisSets sets = .ok () := by
  obtain ⟨⟨⟩, e, -⟩ := forRange_inv (n := 131) (s := ()) (body := fun i _ => do
    match ← rd sets i with
    | none => .ok ()
    | some fs => forRange fs.length () fun k _ => do
      let f ← rd fs k
      Outcome.valid (f.L < 15)) (fun _ _ => True) trivial fun i _ hi _ => by
    refine ⟨(), ?_, trivial⟩
    rcases h i hi with h | ⟨fs, h, hf⟩
    · simp only [rd, h, Outcome.ok_bind]
    · have : rd sets i = .ok (some fs) := by simp only [rd, h]
      rw [this, Outcome.ok_bind]
      obtain ⟨⟨⟩, e, -⟩ := forRange_inv (n := fs.length) (s := ()) (body := fun k _ => do
        let f ← rd fs k
        Outcome.valid (f.L < 15)) (fun _ _ => True) trivial fun k _ hk _ =>
          ⟨(), by rw [rd_ok hk, Outcome.ok_bind, Outcome.valid_pos (hf _ (List.getElem_mem hk))], trivial⟩
      exact e
  exact e

theorem printBasisSets_okUb (sets : List (Option (List BasisFun))) : printBasisSets sets = .ok () ∨ printBasisSets sets = .ub := by
  have key := forRange_okUb (n := 131) (s := ()) (body := fun i _ => do
    match ← rd sets i with
    | none => .ok ()
    | some fs => forRange fs.length () fun k _ => do
      let f ← rd fs k
      Outcome.valid (f.L < 15)) (fun _ _ => True) trivial fun i _ hi _ => by
    unfold rd
    cases sets[i]? with
    | none => exact Or.inr rfl
    | some o =>
      cases o with
      | none => exact Or.inl ⟨(), rfl, trivial⟩
      | some fs =>
        have := forRange_okUb (n := fs.length) (s := ()) (body := fun k _ => do
          let f ← rd fs k
          Outcome.valid (f.L < 15)) (fun _ _ => True) trivial fun k _ hk _ => by
            rw [rd_ok hk, Outcome.ok_bind]
            by_cases hL : fs[k].L < 15
            · exact Or.inl ⟨(), Outcome.valid_pos hL, trivial⟩
            · exact Or.inr (Outcome.valid_neg hL)
        rcases this with ⟨⟨⟩, h, -⟩ | h
        · exact Or.inl ⟨(), h, trivial⟩
        · exact Or.inr h
  rcases key with ⟨⟨⟩, h, -⟩ | h
  · exact Or.inl h
  · exact Or.inr h

theorem printShells_ok {gen : Nat → List Comp} (hg : DocumentedOrder gen) (shells : List Shell) (h : ∀ s ∈ shells, s.InMolecule gen) :
    printShells shells = .ok () := by
  obtain ⟨⟨⟩, e, -⟩ := forRange_inv (n := shells.length) (s := ()) (body := fun i _ => do
    let s ← rd shells i
    forRange s.cart_size () fun k _ => do
      let c ← rd s.cartList k
      Outcome.valid (max (c.1 + c.2.1 + c.2.2) 1 < 32)) (fun _ _ => True) trivial fun i _ hi _ => by
    refine ⟨(), ?_, trivial⟩
    have hs := h _ (List.getElem_mem hi)
    rw [rd_ok hi, Outcome.ok_bind]
    obtain ⟨⟨⟩, e, -⟩ := forRange_inv (n := shells[i].cart_size) (s := ()) (body := fun k _ => do
      let c ← rd shells[i].cartList k
      Outcome.valid (max (c.1 + c.2.1 + c.2.2) 1 < 32)) (fun _ _ => True) trivial fun k _ hk _ => by
        have hk' : k < shells[i].cartList.length := by rw [hs.made.list, gen_length hg, ← hs.made.size]; exact hk
        have hsum := gen_sum hg (L := shells[i].L) (c := shells[i].cartList[k]) (by
          have h := List.getElem_mem hk'
          generalize shells[i].cartList[k] = c at h ⊢
          rwa [hs.made.list] at h)
        have := hs.L9
        exact ⟨(), by rw [rd_ok hk', Outcome.ok_bind, Outcome.valid_pos (by omega)], trivial⟩
    exact e
  exact e

/-! ## Basis sets and shells, with the printing -/

theorem molecule_sets (gen : Nat → List Comp) (hg : DocumentedOrder gen) (io : DecimalIO) (text : List Char) (atoms : List (Nat × Point))
    (entries : Nat → List BasisBlock) (h : ∀ a ∈ atoms, a.1 < 131 ∧ HasEntry io a.1 (entries a.1) text ∧ EntryOk (entries a.1)) :
    ∃ basis : Nat → List BasisFun,
      (∀ a ∈ atoms, List.Forall₂ (fun p f => NormalisedFun p.1 p.2.1 p.2.2 f) (blockFuns 0 (entries a.1)) (basis a.1)) ∧
      (∃ sets, mainBasisSets gen io text atoms = .ok sets ∧ printBasisSets sets = .ok () ∧
        constructShellList gen atoms sets = .ok (moleculeShells gen atoms basis)) ∧
      (∀ s ∈ moleculeShells gen atoms basis, s.InMolecule gen ∧ ∃ a ∈ atoms, s.origin = a.2) ∧
      printShells (moleculeShells gen atoms basis) = .ok () := by
  have hread : ∀ z, ∃ funs, ((∃ a ∈ atoms, a.1 = z) → readBasisSet gen io text z = .ok (some funs) ∧
      List.Forall₂ (fun p f => NormalisedFun p.1 p.2.1 p.2.2 f) (blockFuns 0 (entries z)) funs) ∧ ((¬∃ a ∈ atoms, a.1 = z) → funs = []) := by
    intro z
    by_cases hz : ∃ a ∈ atoms, a.1 = z
    · obtain ⟨a, ha, rfl⟩ := hz
      obtain ⟨h1, h2, h3⟩ := h a ha
      obtain ⟨funs, g1, g2⟩ := basis_read gen hg io text a.1 (by unfold intMax; omega) _ h2 h3
      exact ⟨funs, fun _ => ⟨g1, g2⟩, fun h => absurd ⟨a, ha, rfl⟩ h⟩
    · exact ⟨[], fun h => absurd h hz, fun _ => rfl⟩
  choose basis hbasis using hread
  have hfun : ∀ a ∈ atoms, ∀ f ∈ basis a.1, f.L ≤ 9 ∧ f.coeffs.length = f.num ∧ f.alpha.length = f.num ∧ ∀ x ∈ f.alpha, 0 < x := fun a ha f hf => by
    obtain ⟨h1, h2, h3, h4, -⟩ := entry_fun (h a ha).2.2 ((hbasis a.1).1 ⟨a, ha, rfl⟩).2 hf
    exact ⟨h1, h2, h3, h4⟩
  obtain ⟨sets, g1, g2, g3⟩ := mainBasisSets_full gen io text atoms (fun z => some (basis z)) fun a ha => ⟨(h a ha).1, ((hbasis a.1).1 ⟨a, ha, rfl⟩).1⟩
  have hin : ∀ s ∈ moleculeShells gen atoms basis, s.InMolecule gen ∧ ∃ a ∈ atoms, s.origin = a.2 := by
    intro s hs
    rw [moleculeShells, List.mem_flatMap] at hs
    obtain ⟨a, ha, hs⟩ := hs
    rw [List.mem_map] at hs
    obtain ⟨f, hf, rfl⟩ := hs
    obtain ⟨l9, lc, la, lp⟩ := hfun a ha f hf
    refine ⟨⟨⟨⟨lc.ge, la.ge⟩, rfl, rfl, fun i hi => ?_⟩, l9⟩, a, ha, rfl⟩
    have hi' : i < f.alpha.length := by rw [la]; exact hi
    simp only
    rw [List.getD_eq_getElem?_getD, List.getElem?_eq_getElem hi']
    exact lp _ (List.getElem_mem hi')
  refine ⟨basis, fun a ha => ((hbasis a.1).1 ⟨a, ha, rfl⟩).2, ⟨sets, g1, ?_, ?_⟩, hin, printShells_ok hg _ fun s hs => (hin s hs).1⟩
  · refine printBasisSets_ok sets fun z hz => ?_
    rcases g3 z hz with h0 | h0
    · exact Or.inl h0
    · refine Or.inr ⟨basis z, h0, fun f hf => ?_⟩
      by_cases hz : ∃ a ∈ atoms, a.1 = z
      · obtain ⟨a, ha, rfl⟩ := hz
        have := (hfun a ha f hf).1
        omega
      · rw [(hbasis z).2 hz] at hf
        simp at hf
  · exact constructShellList_spec gen atoms sets basis g2 fun a ha f hf => ⟨(hfun a ha f hf).2.1, (hfun a ha f hf).2.2.1⟩

theorem blockFuns_dim (bs : List BasisBlock) : ∀ (L : Nat), ((blockFuns L bs).map fun p => cartSize p.1).sum = entryDim L bs := by
  induction bs with
  | nil => intro L; rfl
  | cons b bs ih =>
    intro L
    rw [blockFuns, entryDim, List.map_append, List.sum_append, ih (L + 1), List.map_map]
    congr 1
    have : ((fun p : Nat × List ℝ × List ℝ => cartSize p.1) ∘ fun k => (L, b.exps, b.col k)) = fun _ => cartSize L := rfl
    rw [this, List.map_const', List.sum_replicate, List.length_range, smul_eq_mul]
    rfl

theorem forall₂_dim {ps : List (Nat × List ℝ × List ℝ)} {fs : List BasisFun} (h : List.Forall₂ (fun p f => NormalisedFun p.1 p.2.1 p.2.2 f) ps fs) :
    (fs.map fun f => cartSize f.L).sum = (ps.map fun p => cartSize p.1).sum := by
  induction h with
  | nil => rfl
  | cons h _ ih => rw [List.map_cons, List.map_cons, List.sum_cons, List.sum_cons, ih, h.1]

theorem moleculeShells_dim (gen : Nat → List Comp) (atoms : List (Nat × Point)) (entries : Nat → List BasisBlock) (basis : Nat → List BasisFun)
    (h : ∀ a ∈ atoms, List.Forall₂ (fun p f => NormalisedFun p.1 p.2.1 p.2.2 f) (blockFuns 0 (entries a.1)) (basis a.1)) :
    dimOf (moleculeShells gen atoms basis) = moleculeDim atoms entries := by
  induction atoms with
  | nil => rfl
  | cons a atoms ih =>
    have h1 := ih fun b hb => h b (List.mem_cons_of_mem _ hb)
    have h2 := forall₂_dim (h a List.mem_cons_self)
    rw [blockFuns_dim] at h2
    unfold dimOf moleculeDim moleculeShells at *
    rw [List.flatMap_cons, List.map_append, List.sum_append, h1, List.map_cons, List.sum_cons, List.map_map, ← h2]
    rfl

/-! ## The calculations -/

theorem runCalcs_spec {G : Type} (env : ProgEnv G) (shells : List Shell) (atoms : List (Nat × Point)) (grpps : List (Option GrppData)) (flags : Calc → Bool)
    (F : Calc → List OutFile) (cs : List Calc) (h : ∀ c ∈ cs, flags c = true → runCalc env shells atoms grpps c = .ok (F c)) :
    runCalcs env shells atoms grpps flags cs = .ok ((cs.filter flags).flatMap F) := by
  induction cs with
  | nil => rfl
  | cons c cs ih =>
    have ih := ih fun c' hc' => h c' (List.mem_cons_of_mem _ hc')
    unfold runCalcs
    by_cases hc : flags c = true
    · rw [if_pos hc, h c List.mem_cons_self hc, Outcome.ok_bind, ih, Outcome.ok_bind, List.filter_cons_of_pos hc, List.flatMap_cons]
    · rw [if_neg hc, ih, List.filter_cons_of_neg hc]

theorem runCalcs_ub {G : Type} (env : ProgEnv G) (shells : List Shell) (atoms : List (Nat × Point)) (grpps : List (Option GrppData)) (flags : Calc → Bool)
    (cs cs' : List Calc) (h : ∀ c ∈ cs, runCalc env shells atoms grpps c = .ub) (hc : ∃ c ∈ cs, flags c = true) :
    runCalcs env shells atoms grpps flags (cs ++ cs') = .ub := by
  induction cs with
  | nil => obtain ⟨c, hc, -⟩ := hc; simp at hc
  | cons c cs ih =>
    rw [List.cons_append, runCalcs]
    by_cases hf : flags c = true
    · rw [if_pos hf, h c List.mem_cons_self]
      rfl
    · rw [if_neg hf]
      refine ih (fun c' hc' => h c' (List.mem_cons_of_mem _ hc')) ?_
      obtain ⟨c', h1, h2⟩ := hc
      rcases List.mem_cons.1 h1 with rfl | h1
      · exact absurd h2 hf
      · exact ⟨c', h1, h2⟩

theorem newMatrix_ok {dim : Nat} (h : dim ≤ 46340) : newMatrix dim = .ok (List.replicate (dim * dim) 0) := by
  unfold newMatrix
  have : dim * dim ≤ intMax := le_trans (Nat.mul_le_mul h h) (by unfold intMax; norm_num)
  rw [Outcome.valid_pos this]
  rfl

theorem newMatrix_ub {dim : Nat} (h : 46341 ≤ dim) : newMatrix dim = .ub := by
  unfold newMatrix
  have : 46341 * 46341 ≤ dim * dim := Nat.mul_le_mul h h
  rw [Outcome.valid_neg (by unfold intMax; omega)]
  rfl

theorem writeMatrix_ok (io : DecimalIO) (name : String) (dim : Nat) (M : List ℝ) (hd : dim ≤ 46340) (hM : dim * dim ≤ M.length) :
    ∃ t, printLower io dim (M.map Dbl.fin) = .ok t ∧ writeMatrix io name dim M = .ok (name, t) := by
  have h := printLower_eq io dim (M.map Dbl.fin) hd (by rwa [List.length_map])
  refine ⟨_, h, ?_⟩
  unfold writeMatrix
  rw [h]
  rfl

theorem newGrads_ok {natoms dim : Nat} (h : dim ≤ 46340) : newGrads natoms dim = .ok (List.replicate (3 * natoms) (List.replicate (dim * dim) 0)) := by
  unfold newGrads
  obtain ⟨l, e, hl⟩ := forRange_inv (n := 3 * natoms) (s := ([] : List (List ℝ))) (body := fun _ l => do
      let m ← newMatrix dim
      Outcome.ok (l ++ [m])) (fun i l => l = List.replicate i (List.replicate (dim * dim) 0)) rfl fun i l _ hl => by
    refine ⟨l ++ [List.replicate (dim * dim) 0], by rw [newMatrix_ok h, Outcome.ok_bind], ?_⟩
    rw [hl, List.replicate_succ']
  rw [e, hl]

theorem newGrads_ub {natoms dim : Nat} (hn : 0 < natoms) (h : 46341 ≤ dim) : newGrads natoms dim = .ub := by
  unfold newGrads
  exact forRange_ub (k := 0) (fun _ _ => True) (by omega) trivial (fun i _ hi => absurd hi (by omega)) fun l _ => by rw [newMatrix_ub h]; rfl

/-- What is printed of a matrix. -/
noncomputable def matrixText (io : DecimalIO) (dim : Nat) (M : List ℝ) : List Char := (printLower io dim (M.map Dbl.fin)).getD []

theorem matrixText_ok (io : DecimalIO) (name : String) (dim : Nat) (M : List ℝ) (hd : dim ≤ 46340) (hM : dim * dim ≤ M.length) :
    printLower io dim (M.map Dbl.fin) = .ok (matrixText io dim M) ∧ writeMatrix io name dim M = .ok (name, matrixText io dim M) := by
  obtain ⟨t, h1, h2⟩ := writeMatrix_ok io name dim M hd hM
  have : matrixText io dim M = t := by unfold matrixText; rw [h1]; rfl
  rw [this]
  exact ⟨h1, h2⟩

/-- The files of the gradient `g` for atom `a`. -/
noncomputable def atomFiles (io : DecimalIO) (dim a : Nat) (g : String × List (List ℝ)) : List OutFile :=
  [("libgrpp_c_" ++ g.1 ++ "_grad_" ++ toString a ++ "x.txt", matrixText io dim (g.2.getD (3 * a + 0) [])),
    ("libgrpp_c_" ++ g.1 ++ "_grad_" ++ toString a ++ "y.txt", matrixText io dim (g.2.getD (3 * a + 1) [])),
    ("libgrpp_c_" ++ g.1 ++ "_grad_" ++ toString a ++ "z.txt", matrixText io dim (g.2.getD (3 * a + 2) []))]

theorem writeAtomGrad_ok (io : DecimalIO) (dim a : Nat) (g : String × List (List ℝ)) (hd : dim ≤ 46340) (h : 3 * a + 3 ≤ g.2.length)
    (hM : ∀ m ∈ g.2, dim * dim ≤ m.length) : writeAtomGrad io dim g.1 g.2 a = .ok (atomFiles io dim a g) := by
  have hr : ∀ k, k < 3 → rd g.2 (3 * a + k) = .ok (g.2.getD (3 * a + k) []) ∧ dim * dim ≤ (g.2.getD (3 * a + k) []).length := by
    intro k hk
    have hlt : 3 * a + k < g.2.length := by omega
    have e : g.2.getD (3 * a + k) [] = g.2[3 * a + k] := by simp [List.getD, hlt]
    rw [e]
    exact ⟨rd_ok hlt, hM _ (List.getElem_mem hlt)⟩
  have hx := hr 0 (by norm_num)
  have hy := hr 1 (by norm_num)
  have hz := hr 2 (by norm_num)
  have e : ∀ (k : Fin 3) (s : String), (match k with | 0 => "x" | 1 => "y" | 2 => "z") ++ ".txt" = s →
      gradFile g.1 a k = "libgrpp_c_" ++ g.1 ++ "_grad_" ++ toString a ++ s := by
    intro k s hs
    unfold gradFile
    rw [← hs, String.append_assoc]
    rfl
  unfold writeAtomGrad
  rw [hx.1, Outcome.ok_bind, (matrixText_ok io _ dim _ hd hx.2).2, Outcome.ok_bind, hy.1, Outcome.ok_bind, (matrixText_ok io _ dim _ hd hy.2).2,
    Outcome.ok_bind, hz.1, Outcome.ok_bind, (matrixText_ok io _ dim _ hd hz.2).2, Outcome.ok_bind, e 0 "x.txt" rfl, e 1 "y.txt" rfl, e 2 "z.txt" rfl]
  rfl

theorem writeAtomGrads_ok (io : DecimalIO) (dim a : Nat) (gs : List (String × List (List ℝ))) (hd : dim ≤ 46340)
    (h : ∀ g ∈ gs, 3 * a + 3 ≤ g.2.length ∧ ∀ m ∈ g.2, dim * dim ≤ m.length) : writeAtomGrads io dim a gs = .ok (gs.flatMap (atomFiles io dim a)) := by
  induction gs with
  | nil => rfl
  | cons g gs ih =>
    have h0 := h g List.mem_cons_self
    rw [writeAtomGrads, writeAtomGrad_ok io dim a g hd h0.1 h0.2, Outcome.ok_bind, ih fun g' hg' => h g' (List.mem_cons_of_mem _ hg'), Outcome.ok_bind,
      List.flatMap_cons]

theorem writeGrads_ok (io : DecimalIO) (natoms dim : Nat) (gs : List (String × List (List ℝ))) (hd : dim ≤ 46340)
    (h : ∀ g ∈ gs, 3 * natoms ≤ g.2.length ∧ ∀ m ∈ g.2, dim * dim ≤ m.length) :
    writeGrads io natoms dim gs = .ok ((List.range natoms).flatMap fun a => gs.flatMap (atomFiles io dim a)) := by
  unfold writeGrads
  obtain ⟨l, e, hl⟩ := forRange_inv (n := natoms) (s := ([] : List OutFile)) (body := fun ia out => do
      let fs ← writeAtomGrads io dim ia gs
      Outcome.ok (out ++ fs)) (fun i out => out = (List.range i).flatMap fun a => gs.flatMap (atomFiles io dim a)) rfl fun i out hi ho => by
    refine ⟨_, by rw [writeAtomGrads_ok io dim i gs hd fun g hg => ⟨le_trans (by omega) (h g hg).1, (h g hg).2⟩, Outcome.ok_bind], ?_⟩
    rw [ho, List.range_succ, List.flatMap_append, List.flatMap_singleton]
  rw [e, hl]

/-- If every calculation asked for returns or is undefined, and one of them is undefined, so is their sequence. -/
theorem runCalcs_undefined {G : Type} (env : ProgEnv G) (shells : List Shell) (atoms : List (Nat × Point)) (grpps : List (Option GrppData)) (flags : Calc → Bool)
    (cs : List Calc) (h : ∀ c ∈ cs, flags c = true → (∃ fs, runCalc env shells atoms grpps c = .ok fs) ∨ runCalc env shells atoms grpps c = .ub)
    (hc : ∃ c ∈ cs, flags c = true ∧ runCalc env shells atoms grpps c = .ub) : runCalcs env shells atoms grpps flags cs = .ub := by
  induction cs with
  | nil => obtain ⟨c, hc, -⟩ := hc; simp at hc
  | cons c cs ih =>
    rw [runCalcs]
    have ih := ih fun c' hc' => h c' (List.mem_cons_of_mem _ hc')
    obtain ⟨c', h1, h2, h3⟩ := hc
    by_cases hf : flags c = true
    · rw [if_pos hf]
      rcases h c List.mem_cons_self hf with ⟨fs, e⟩ | e
      · rw [e, Outcome.ok_bind, ih]
        · rfl
        · rcases List.mem_cons.1 h1 with rfl | h1
          · rw [e] at h3; cases h3
          · exact ⟨c', h1, h2, h3⟩
      · rw [e]; rfl
    · rw [if_neg hf]
      rcases List.mem_cons.1 h1 with rfl | h1
      · exact absurd h2 hf
      · exact ih ⟨c', h1, h2, h3⟩

end Libgrpp
