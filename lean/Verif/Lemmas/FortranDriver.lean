import Verif.Model.FortranDriver
import Verif.Props.DriverGrpp
import Verif.Props.DriverNuclear
import Verif.Props.Fortran
import Verif.Props.FortranModule
import Verif.Props.Shell
import Verif.Lemmas.Program

/-! # Auxiliary definitions and lemmas for Props/FortranDriver -/

namespace Libgrpp

/-! ## The molecule described by the arrays -/

/-- The shell the library makes of the arguments. -/
noncomputable def FShell.shell (gen : Nat → List Comp) (a : FShell) : Shell :=
  { L := a.L, origin := a.origin, cart_size := cartSize a.L, cartList := gen a.L, num := a.num, coeffs := a.coeffs.take a.num,
    alpha := a.alpha.take a.num }

/-- Block `L` (counted from zero). -/
def FBasis.block (b : FBasis) (L : Nat) : FBlock := b.blocks.getD L ⟨0, 0, [], []⟩

/-- The shells of an element at the point `O`. -/
def FBasis.shells (b : FBasis) (O : Point) : List FShell :=
  (List.range b.numBlocks).flatMap fun L => (List.range (b.block L).numContr).map fun f =>
    ⟨O, L, (b.block L).numPrim, (b.block L).coeffs.getD f [], (b.block L).exponents⟩

/-- The basis of element `z`. -/
def FMol.basisOf (mol : FMol) (z : Nat) : FBasis := mol.basis.getD (z - 1) ⟨0, []⟩

/-- Charges and positions. -/
def FMol.atoms (mol : FMol) : List (Nat × Point) := mol.charges.zip mol.coord

/-- All shells of the molecule in the order of the loops. -/
def FMol.shells (mol : FMol) : List FShell := mol.atoms.flatMap fun a => (mol.basisOf a.1).shells a.2

/-- The potential the library makes of the arguments. -/
noncomputable def FPot.pot (L J : Int) (u : FPot) : Potential := (u.make L J).getD ⟨L, J, 0, [], [], []⟩

/-- Row `L` (counted from zero). -/
def FEcp.row (e : FEcp) (L : Nat) : FEcpRow := e.rows.getD L ⟨0, 0, [], [], [], [], [], 0, [], []⟩

/-- The outer-core functions and potentials of row `L`. -/
def FEcp.ocRow (e : FEcp) (L : Nat) : List FOc := (List.range (e.row L).numOc).map fun i =>
    ⟨L, ftnOcJ L i, (e.row L).pot ((e.row L).ocpot.getD i []), (e.row L).ocNum, (e.row L).ocCoeffs.getD i [], (e.row L).ocAlpha⟩

/-- All outer-core functions and potentials. -/
def FEcp.ocList (e : FEcp) : List FOc := (List.range 10).flatMap e.ocRow

/-- The pseudopotential described by the arrays. -/
noncomputable def FEcp.data (gen : Nat → List Comp) (e : FEcp) : GrppData where
  local_ := some (((e.row (e.numArep - 1)).pot (e.row (e.numArep - 1)).arep).pot 0 0)
  arep := (List.range (e.numArep - 1)).map fun L => ((e.row L).pot (e.row L).arep).pot L 0
  esop := (List.range (e.numArep - 1)).map fun i => ((e.row (i + 1)).pot (e.row (i + 1)).esop).pot (i + 1 : ℕ) 0
  oc := e.ocList.map fun u => (u.u.pot u.L u.J, FShell.shell gen ⟨fun _ => 0, u.L, u.num, u.coeffs, u.alpha⟩)

/-- The pseudopotentials of the elements 0, 1, 2, …. -/
noncomputable def FMol.grpps (gen : Nat → List Comp) (mol : FMol) : List (Option GrppData) :=
  none :: mol.ecp.map fun e => if e.numArep = 0 then none else some (e.data gen)

/-- The pseudopotential of element `z`. -/
def FMol.ecpOf (mol : FMol) (z : Nat) : FEcp := mol.ecp.getD (z - 1) ⟨0, []⟩

/-- The counters of a block do not exceed the sizes of the arrays. -/
structure FBlock.Ok (b : FBlock) : Prop where
  contr : b.numContr ≤ b.coeffs.length
  prim : b.numPrim ≤ b.exponents.length
  rows : ∀ f < b.numContr, b.numPrim ≤ (b.coeffs.getD f []).length

/-- The counters of an element do not exceed the sizes of the arrays. -/
structure FBasis.Ok (b : FBasis) : Prop where
  blocks : b.numBlocks ≤ b.blocks.length
  each : ∀ L < b.numBlocks, (b.block L).Ok

/-- Charges are numbers of elements for which the arrays have room; the counters do not exceed the sizes of the arrays. -/
structure FMol.Ok (mol : FMol) : Prop where
  coord : mol.coord.length = mol.charges.length
  charge : ∀ z ∈ mol.charges, 1 ≤ z ∧ z ≤ mol.basis.length ∧ z ≤ mol.ecp.length ∧ z ≤ 130
  basis : ∀ z ∈ mol.charges, (mol.basisOf z).Ok

/-- The counters of the semilocal potentials do not exceed the sizes of the arrays. -/
structure FEcpRow.PotOk (r : FEcpRow) : Prop where
  powers : r.numPrim ≤ r.powers.length
  alpha : r.numPrim ≤ r.alpha.length
  arep : r.numPrim ≤ r.arep.length
  esop : r.numPrim ≤ r.esop.length

/-- The counters of the outer-core potentials and functions do not exceed the sizes of the arrays. -/
structure FEcpRow.OcOk (r : FEcpRow) : Prop where
  powers : r.numPrim ≤ r.powers.length
  alpha : r.numPrim ≤ r.alpha.length
  pots : r.numOc ≤ r.ocpot.length
  funs : r.numOc ≤ r.ocCoeffs.length
  pot : ∀ i < r.numOc, r.numPrim ≤ (r.ocpot.getD i []).length
  fun_ : ∀ i < r.numOc, r.ocNum ≤ (r.ocCoeffs.getD i []).length
  ocAlpha : r.ocNum ≤ r.ocAlpha.length

/-- The counters of an element do not exceed the sizes of the arrays. -/
structure FEcp.Ok (e : FEcp) : Prop where
  rows : e.rows.length = 10
  num : e.numArep ≤ 10
  pots : ∀ L < e.numArep, (e.row L).PotOk
  oc : ∀ L < 10, 0 < (e.row L).numOc → (e.row L).OcOk

/-- The arrays have `n` rows. -/
structure FOcTable.Sized (n : Nat) (t : FOcTable) : Prop where
  L : t.L.length = n
  J : t.J.length = n
  potNum : t.potNum.length = n
  powers : t.powers.length = n
  coeffs : t.coeffs.length = n
  alpha : t.alpha.length = n
  shellNum : t.shellNum.length = n
  shellCoeffs : t.shellCoeffs.length = n
  shellAlpha : t.shellAlpha.length = n

/-! ## Loops -/

theorem forRange_foldlM {σ : Type} (n : Nat) (s : σ) (body : Nat → σ → Outcome σ) :
    forRange n s body = (List.range n).foldlM (fun s i => body i s) s := by
  induction n with
  | zero => rfl
  | succ n ih =>
    rw [forRange_succ, ih, List.range_succ, List.foldlM_append]
    congr 1
    funext t
    rw [List.foldlM_cons]
    exact (bind_pure (body n t)).symm

theorem foldlM_flatMap' {σ α β : Type} (l : List α) (f : α → List β) (g : σ → β → Outcome σ) (s : σ) :
    (l.flatMap f).foldlM g s = l.foldlM (fun s a => (f a).foldlM g s) s := by
  induction l generalizing s with
  | nil => rfl
  | cons a l ih =>
    rw [List.flatMap_cons, List.foldlM_append, List.foldlM_cons]
    congr 1
    funext t
    exact ih t

theorem foldlM_congr_mem {σ α : Type} (l : List α) (f g : σ → α → Outcome σ) (h : ∀ a ∈ l, ∀ s, f s a = g s a) (s : σ) :
    l.foldlM f s = l.foldlM g s := by
  induction l generalizing s with
  | nil => rfl
  | cons a l ih =>
    rw [List.foldlM_cons, List.foldlM_cons, h a (by simp)]
    congr 1
    funext t
    exact ih (fun b hb => h b (by simp [hb])) t

theorem foldlM_map' {σ α β : Type} (l : List α) (f : α → β) (g : σ → β → Outcome σ) (s : σ) :
    (l.map f).foldlM g s = l.foldlM (fun s a => g s (f a)) s := by
  induction l generalizing s with
  | nil => rfl
  | cons a l ih =>
    rw [List.map_cons, List.foldlM_cons, List.foldlM_cons]
    congr 1
    funext t
    exact ih t

/-- A loop over the places of a list. -/
theorem forRange_list {σ α : Type} (l : List α) (body : Nat → σ → Outcome σ) (f : α → σ → Outcome σ)
    (h : ∀ i, (hi : i < l.length) → ∀ s, body i s = f l[i] s) (s : σ) :
    forRange l.length s body = l.foldlM (fun s a => f a s) s := by
  rw [forRange_congr body (fun i s => do let p ← rd l i; f p s) l.length
    (fun i hi s => by rw [rd_ok hi, Outcome.ok_bind, h i hi]) s, forRange_rd l f l.length le_rfl s, List.take_length]

/-- The loops over the shells are one loop over the list of shells. -/
theorem forFShells_eq {σ : Type} {mol : FMol} (hm : mol.Ok) (s : σ) (body : FShell → σ → Outcome σ) :
    forFShells mol s body = mol.shells.foldlM (fun s a => body a s) s := by
  have hl : mol.atoms.length = mol.charges.length := by simp [FMol.atoms, hm.coord]
  unfold forFShells FMol.shells
  rw [foldlM_flatMap', ← hl]
  refine forRange_list mol.atoms _ (fun a s => ((mol.basisOf a.1).shells a.2).foldlM (fun s a => body a s) s) (fun i hi s => ?_) s
  have hi' : i < mol.charges.length := by omega
  have hc : i < mol.coord.length := by rw [hm.coord]; exact hi'
  obtain ⟨h1, h2, -, -⟩ := hm.charge _ (List.getElem_mem hi')
  have hb := hm.basis _ (List.getElem_mem hi')
  have ea : mol.atoms[i] = (mol.charges[i], mol.coord[i]) := by simp [FMol.atoms]
  have eb : rd1 mol.basis mol.charges[i] = .ok (mol.basisOf mol.charges[i]) := by
    unfold rd1 FMol.basisOf
    rw [if_neg (by omega), rd_ok (by omega)]
    rw [List.getD_eq_getElem _ _ (by omega)]
  rw [rd_ok hi', Outcome.ok_bind, eb, Outcome.ok_bind, ea]
  generalize mol.basisOf mol.charges[i] = b at hb ⊢
  unfold FBasis.shells
  rw [foldlM_flatMap', forRange_foldlM]
  refine foldlM_congr_mem _ _ _ (fun L hL s => ?_) s
  have hL := List.mem_range.1 hL
  have hLb : L < b.blocks.length := lt_of_lt_of_le hL hb.blocks
  have eL : b.blocks[L] = b.block L := by unfold FBasis.block; rw [List.getD_eq_getElem _ _ hLb]
  rw [rd_ok hLb, Outcome.ok_bind, eL, foldlM_map', forRange_foldlM]
  refine foldlM_congr_mem _ _ _ (fun f hf s => ?_) s
  have hf := List.mem_range.1 hf
  have hfb : f < (b.block L).coeffs.length := lt_of_lt_of_le hf (hb.each L hL).contr
  rw [rd_ok hc, Outcome.ok_bind, rd_ok hfb, Outcome.ok_bind, List.getD_eq_getElem _ _ hfb]

theorem desc_eq (L : Nat) : desc L = (List.range (L + 1)).map (L - ·) := by
  induction L with
  | zero => rfl
  | succ n ih =>
    rw [List.range_succ_eq_map, List.map_cons, List.map_map, desc, ih]
    congr 1
    refine List.map_congr_left fun i _ => ?_
    simp

theorem forRange_desc {σ : Type} (L : Nat) (s : σ) (G : Nat → σ → Outcome σ) :
    (forRange (L + 1) s fun i s => G (L - i) s) = (desc L).foldlM (fun s r => G r s) s := by
  rw [desc_eq, foldlM_map', forRange_foldlM]

theorem foldlM_write {α : Type} (cs l : List α) (k : Nat) (h : k + cs.length ≤ l.length) :
    cs.foldlM (fun (st : List α × Nat) c => do
      let l ← wr st.1 st.2 c
      Outcome.ok (l, st.2 + 1)) (l, k) = .ok (l.take k ++ cs ++ l.drop (k + cs.length), k + cs.length) := by
  induction cs generalizing l k with
  | nil => simp
  | cons c cs ih =>
    rw [List.length_cons] at h
    rw [List.foldlM_cons, wr_ok _ (by omega : k < l.length), Outcome.ok_bind, Outcome.ok_bind, ih _ _ (by simp; omega)]
    have ht : (l.set k c).take (k + 1) = l.take k ++ [c] := by
      rw [List.take_succ, List.take_set_of_le le_rfl, List.getElem?_set_self (by omega)]
      rfl
    rw [ht, List.drop_set_of_lt (by omega), List.length_cons]
    simp only [List.append_assoc, List.cons_append, List.nil_append]
    rw [show k + 1 + cs.length = k + (cs.length + 1) by omega]

/-- `generate_cartesians` stores the list of the library. -/
theorem generateCartesians_spec (L : Nat) (l : List Comp) (h : cartSize L ≤ l.length) :
    generateCartesians L l = .ok (cartesianDirac L ++ l.drop (cartSize L), cartSize L) := by
  have hlen := (cartesian_dirac_complete L).1
  have key := foldlM_write (cartesianDirac L) l 0 (by omega)
  rw [List.take_zero, List.nil_append, hlen, Nat.zero_add] at key
  rw [← key]
  unfold generateCartesians cartesianDirac
  rw [forRange_desc L (l, 0) fun r st => forRange (L + 1) st fun j st => forRange (L + 1) st fun k st =>
    if r + (L - j) + (L - k) ≠ L then Outcome.ok st
    else do
      let l ← wr st.1 st.2 (r, L - j, L - k)
      .ok (l, st.2 + 1), foldlM_flatMap']
  refine foldlM_congr_mem _ _ _ (fun r _ s => ?_) _
  rw [forRange_desc L s fun s st => forRange (L + 1) st fun k st =>
    if r + s + (L - k) ≠ L then Outcome.ok st
    else do
      let l ← wr st.1 st.2 (r, s, L - k)
      .ok (l, st.2 + 1), foldlM_flatMap']
  refine foldlM_congr_mem _ _ _ (fun s _ st => ?_) _
  rw [forRange_desc L st fun t st =>
    if r + s + t ≠ L then Outcome.ok st
    else do
      let l ← wr st.1 st.2 (r, s, t)
      .ok (l, st.2 + 1), foldlM_flatMap']
  refine foldlM_congr_mem _ _ _ (fun t _ st => ?_) _
  by_cases ht : r + s + t = L
  · rw [if_neg (by simpa using ht), if_pos ht]
    simp
  · rw [if_pos ht, if_neg ht]
    rfl

/-- `update_matrix_part` adds the block where it belongs. -/
theorem updateMatrixPart_spec {dim bd1 bd2 io jo : Nat} (h1 : io + bd1 ≤ dim) (h2 : jo + bd2 ≤ dim)
    {block : List ℝ} {g : Nat → Nat → ℝ} (hb : MatIs bd1 bd2 block g) (M : List ℝ) (hM : dim * dim ≤ M.length) :
    ∃ M', updateMatrixPart dim M io jo block bd1 bd2 = .ok M' ∧ Added dim (blockAt io jo bd1 bd2 g) M M' := by
  unfold updateMatrixPart
  have inner : ∀ i m, i < bd1 → dim * dim ≤ m.length → ∃ m', (forRange bd2 m fun j m => do
      Outcome.valid (io + i < dim ∧ jo + j < dim)
      let v ← rd m ((io + i) * dim + (jo + j))
      let e ← rd block (i * bd2 + j)
      wr m ((io + i) * dim + (jo + j)) (v + e)) = .ok m' ∧ dim * dim ≤ m'.length ∧ ∀ _ : Unit,
      Added dim (fun p q => ∑ j ∈ Finset.range bd2, if p = io + i ∧ q = jo + j then g i j else 0) m m' := by
    intro i m hi hm
    refine added_loop (κ := Unit) (dim := dim) (n := bd2) (fun _ m => dim * dim ≤ m.length) (fun _ m => m)
      (fun _ j p q => if p = io + i ∧ q = jo + j then g i j else 0) m hm fun j m hj hm => ?_
    have hr : rd block (i * bd2 + j) = .ok (g i j) := by simp [rd, hb i j hi hj]
    have hlt := row_lt (dim := dim) (p := io + i) (q := jo + j) (by omega) (by omega)
    obtain ⟨m', e, a⟩ := added_store (dim := dim) (p0 := io + i) (q0 := jo + j) (by omega) (by omega) (g i j) m hm
    refine ⟨m', ?_, by rw [a.len]; exact hm, fun _ => a⟩
    rw [Outcome.valid_pos ⟨by omega, by omega⟩, Outcome.ok_bind, rd_ok (by omega), Outcome.ok_bind, hr, Outcome.ok_bind, ← e, rd_ok (by omega)]
    rfl
  obtain ⟨M', e, -, a⟩ := added_loop (κ := Unit) (dim := dim) (n := bd1) (fun _ m => dim * dim ≤ m.length) (fun _ m => m)
    (fun _ i p q => ∑ j ∈ Finset.range bd2, if p = io + i ∧ q = jo + j then g i j else 0) M hM inner
  refine ⟨M', e, (a ()).congr fun p q hp hq => ?_⟩
  have : ∀ i, (∑ j ∈ Finset.range bd2, if p = io + i ∧ q = jo + j then g i j else 0) =
      if p = io + i then (if jo ≤ q ∧ q < jo + bd2 then g i (q - jo) else 0) else 0 := by
    intro i
    by_cases hpi : p = io + i
    · simp only [hpi, true_and, if_true]
      exact sum_window jo bd2 (fun j => g i j) q
    · simp [hpi]
  simp only [this]
  rw [sum_window io bd1 (fun i => if jo ≤ q ∧ q < jo + bd2 then g i (q - jo) else 0) p]
  unfold blockAt
  by_cases hA : io ≤ p ∧ p < io + bd1 <;> by_cases hB : jo ≤ q ∧ q < jo + bd2 <;> simp [hA, hB]

/-- The double loop over shells adds all blocks. -/
theorem forFPairs_spec {σ κ : Type} {mol : FMol} (hm : mol.Ok) (gen : Nat → List Comp) (s0 : Shell) {cl : List Comp}
    (hcl : ∀ a ∈ mol.shells, cartSize a.L ≤ cl.length)
    {body : Nat → Nat → Nat → Nat → FShell → FShell → σ → Outcome σ} {shells : List Shell} (hsh : shells = mol.shells.map (FShell.shell gen))
    (Inv : σ → Prop) (view : κ → σ → List ℝ) (E : κ → Shell → Shell → Nat → Nat → ℝ) (s : σ) (h0 : Inv s)
    (hstep : ∀ a ∈ mol.shells, ∀ b ∈ mol.shells, ∀ io jo s, io + cartSize a.L ≤ dimOf shells → jo + cartSize b.L ≤ dimOf shells → Inv s →
      ∃ s', body io jo (cartSize a.L) (cartSize b.L) a b s = .ok s' ∧ Inv s' ∧
        ∀ k, Added (dimOf shells) (blockAt io jo (cartSize a.L) (cartSize b.L) (E k (a.shell gen) (b.shell gen))) (view k s) (view k s')) :
    ∃ s', forFPairs mol cl s body = .ok s' ∧ Inv s' ∧
      ∀ k, Added (dimOf shells) (fun p q => ∑ a ∈ Finset.range shells.length, ∑ b ∈ Finset.range shells.length,
        blockAt (shellOff shells a) (shellOff shells b) (shells.getD a s0).cart_size (shells.getD b s0).cart_size
          (E k (shells.getD a s0) (shells.getD b s0)) p q) (view k s) (view k s') := by
  have hlen : shells.length = mol.shells.length := by simp [hsh]
  have g : ∀ a, (h : a < mol.shells.length) → shells.getD a s0 = (mol.shells[a]).shell gen := fun a h => by simp [hsh, List.getD, h]
  have gs : ∀ a, (h : a < mol.shells.length) → (h' : a < shells.length) → shells[a] = (mol.shells[a]).shell gen := fun a h h' => by simp [hsh]
  have succ : ∀ a, (h : a < mol.shells.length) → shellOff shells (a + 1) = shellOff shells a + cartSize (mol.shells[a]).L := fun a h => by
    rw [shellOff_succ shells a (by omega), gs a h (by omega)]; rfl
  have add_le : ∀ a, (h : a < mol.shells.length) → shellOff shells a + cartSize (mol.shells[a]).L ≤ dimOf shells := fun a h => by
    have := shellOff_add_le shells a (by omega)
    rwa [gs a h (by omega)] at this
  unfold forFPairs
  rw [forFShells_eq hm, hlen]
  rw [← forRange_list mol.shells (fun i st => do
    let a ← rd mol.shells i
    let c1 ← generateCartesians a.L cl
    let r ← forFShells mol ((0 : Nat), st.2) fun b st2 => do
      let c2 ← generateCartesians b.L cl
      let s ← body st.1 st2.1 c1.2 c2.2 a b st2.2
      Outcome.ok (st2.1 + c2.2, s)
    Outcome.ok (st.1 + c1.2, r.2)) (fun a st => do
    let c1 ← generateCartesians a.L cl
    let r ← forFShells mol ((0 : Nat), st.2) fun b st2 => do
      let c2 ← generateCartesians b.L cl
      let s ← body st.1 st2.1 c1.2 c2.2 a b st2.2
      Outcome.ok (st2.1 + c2.2, s)
    Outcome.ok (st.1 + c1.2, r.2)) (fun i hi st => by rw [rd_ok hi, Outcome.ok_bind]) ((0 : Nat), s)]
  have inner : ∀ i (st : Nat × σ), i < mol.shells.length → (st.1 = shellOff shells i ∧ Inv st.2) → ∃ st' : Nat × σ, (do
      let a ← rd mol.shells i
      let c1 ← generateCartesians a.L cl
      let r ← forFShells mol ((0 : Nat), st.2) fun b st2 => do
        let c2 ← generateCartesians b.L cl
        let s ← body st.1 st2.1 c1.2 c2.2 a b st2.2
        Outcome.ok (st2.1 + c2.2, s)
      Outcome.ok (st.1 + c1.2, r.2)) = .ok st' ∧ (st'.1 = shellOff shells (i + 1) ∧ Inv st'.2) ∧
      ∀ k, Added (dimOf shells) (fun p q => ∑ b ∈ Finset.range mol.shells.length,
        blockAt (shellOff shells i) (shellOff shells b) (shells.getD i s0).cart_size (shells.getD b s0).cart_size
          (E k (shells.getD i s0) (shells.getD b s0)) p q) (view k st.2) (view k st'.2) := by
    rintro i ⟨io, s⟩ hi ⟨hio, hI⟩
    simp only at hio hI
    subst hio
    have mi := List.getElem_mem hi
    have hj : ∀ j (st2 : Nat × σ), j < mol.shells.length → (st2.1 = shellOff shells j ∧ Inv st2.2) → ∃ st' : Nat × σ, (do
        let b ← rd mol.shells j
        let c2 ← generateCartesians b.L cl
        let s ← body (shellOff shells i) st2.1 (cartSize (mol.shells[i]).L) c2.2 mol.shells[i] b st2.2
        Outcome.ok (st2.1 + c2.2, s)) = .ok st' ∧ (st'.1 = shellOff shells (j + 1) ∧ Inv st'.2) ∧
        ∀ k, Added (dimOf shells) (fun p q => blockAt (shellOff shells i) (shellOff shells j) (shells.getD i s0).cart_size
          (shells.getD j s0).cart_size (E k (shells.getD i s0) (shells.getD j s0)) p q) (view k st2.2) (view k st'.2) := by
      rintro j ⟨jo, s⟩ hj ⟨hjo, hI⟩
      simp only at hjo hI
      subst hjo
      have mj := List.getElem_mem hj
      obtain ⟨s', e, hI', a⟩ := hstep mol.shells[i] mi mol.shells[j] mj (shellOff shells i)
        (shellOff shells j) s (add_le i hi) (add_le j hj) hI
      refine ⟨(shellOff shells j + cartSize (mol.shells[j]).L, s'), ?_, ⟨(succ j hj).symm, hI'⟩, fun k => ?_⟩
      · rw [rd_ok hj, Outcome.ok_bind, generateCartesians_spec _ _ (hcl _ mj), Outcome.ok_bind]
        simp only [e, Outcome.ok_bind]
      · rw [g i hi, g j hj]
        exact a k
    obtain ⟨r, e, ⟨-, hI'⟩, a⟩ := added_loop (κ := κ) (dim := dimOf shells) (n := mol.shells.length)
      (fun j st => st.1 = shellOff shells j ∧ Inv st.2) (fun k st => view k st.2)
      (fun k b p q => blockAt (shellOff shells i) (shellOff shells b) (shells.getD i s0).cart_size (shells.getD b s0).cart_size
          (E k (shells.getD i s0) (shells.getD b s0)) p q) (0, s) ⟨by simp [shellOff], hI⟩ hj
    refine ⟨(shellOff shells i + cartSize (mol.shells[i]).L, r.2), ?_, ⟨(succ i hi).symm, hI'⟩, a⟩
    rw [rd_ok hi, Outcome.ok_bind, generateCartesians_spec _ _ (hcl _ mi), Outcome.ok_bind, forFShells_eq hm]
    rw [← forRange_list mol.shells (fun j st2 => do
      let b ← rd mol.shells j
      let c2 ← generateCartesians b.L cl
      let s ← body (shellOff shells i) st2.1 (cartSize (mol.shells[i]).L) c2.2 mol.shells[i] b st2.2
      Outcome.ok (st2.1 + c2.2, s)) (fun b st2 => do
      let c2 ← generateCartesians b.L cl
      let s ← body (shellOff shells i) st2.1 (cartSize (mol.shells[i]).L) c2.2 mol.shells[i] b st2.2
      Outcome.ok (st2.1 + c2.2, s)) (fun j hj st => by rw [rd_ok hj, Outcome.ok_bind]) ((0 : Nat), s), e, Outcome.ok_bind]
  obtain ⟨r, e, ⟨-, hI⟩, a⟩ := added_loop (κ := κ) (dim := dimOf shells) (n := mol.shells.length)
    (fun i st => st.1 = shellOff shells i ∧ Inv st.2) (fun k st => view k st.2)
    (fun k a p q => ∑ b ∈ Finset.range mol.shells.length,
        blockAt (shellOff shells a) (shellOff shells b) (shells.getD a s0).cart_size (shells.getD b s0).cart_size
          (E k (shells.getD a s0) (shells.getD b s0)) p q) (0, s) ⟨by simp [shellOff], h0⟩ inner
  exact ⟨r.2, by rw [e]; rfl, hI, a⟩

/-! ## Matrices -/

/-- Two matrices of the same size with the same blocks are equal. -/
theorem matrix_ext {shells : List Shell} {M M' : List ℝ} (h1 : M.length = dimOf shells * dimOf shells) (h2 : M'.length = dimOf shells * dimOf shells)
    {E : Shell → Shell → Nat → Nat → ℝ}
    (h : ∀ i j m n, (hi : i < shells.length) → (hj : j < shells.length) → m < shells[i].cart_size → n < shells[j].cart_size →
      M[(shellOff shells i + m) * dimOf shells + (shellOff shells j + n)]? = some (E shells[i] shells[j] m n))
    (h' : ∀ i j m n, (hi : i < shells.length) → (hj : j < shells.length) → m < shells[i].cart_size → n < shells[j].cart_size →
      M'[(shellOff shells i + m) * dimOf shells + (shellOff shells j + n)]? = some (E shells[i] shells[j] m n)) : M = M' := by
  refine List.ext_getElem? fun x => ?_
  rcases Nat.lt_or_ge x (dimOf shells * dimOf shells) with hx | hx
  · have hN : 0 < dimOf shells := Nat.pos_of_ne_zero fun h => by simp [h] at hx
    have hp : x / dimOf shells < dimOf shells := Nat.div_lt_of_lt_mul hx
    have hq : x % dimOf shells < dimOf shells := Nat.mod_lt x hN
    obtain ⟨i, hi, a1, a2⟩ := shellOff_locate shells _ hp
    obtain ⟨j, hj, b1, b2⟩ := shellOff_locate shells _ hq
    have e : x = (shellOff shells i + (x / dimOf shells - shellOff shells i)) * dimOf shells +
        (shellOff shells j + (x % dimOf shells - shellOff shells j)) := by
      rw [Nat.add_sub_cancel' a1, Nat.add_sub_cancel' b1, Nat.mul_comm, Nat.div_add_mod]
    have k1 := h i j (x / dimOf shells - shellOff shells i) (x % dimOf shells - shellOff shells j) hi hj (by omega) (by omega)
    have k2 := h' i j (x / dimOf shells - shellOff shells i) (x % dimOf shells - shellOff shells j) hi hj (by omega) (by omega)
    rw [← e] at k1 k2
    rw [k1, k2]
  · rw [List.getElem?_eq_none (by omega), List.getElem?_eq_none (by omega)]

/-- The elements of a matrix to which the blocks have been added, starting from zeros. -/
theorem added_zero {shells : List Shell} {s0 : Shell} {E : Shell → Shell → Nat → Nat → ℝ} {M M' : List ℝ}
    (hM : M.length = dimOf shells * dimOf shells)
    (h : Added (dimOf shells) (fun p q => ∑ a ∈ Finset.range shells.length, ∑ b ∈ Finset.range shells.length,
        blockAt (shellOff shells a) (shellOff shells b) (shells.getD a s0).cart_size (shells.getD b s0).cart_size
          (E (shells.getD a s0) (shells.getD b s0)) p q) (zeroAll M) M') :
    M'.length = dimOf shells * dimOf shells ∧
    ∀ i j m n, (hi : i < shells.length) → (hj : j < shells.length) → m < shells[i].cart_size → n < shells[j].cart_size →
      M'[(shellOff shells i + m) * dimOf shells + (shellOff shells j + n)]? = some (E shells[i] shells[j] m n) := by
  refine ⟨by rw [h.len]; simp [zeroAll, hM], fun i j m n hi hj hm hn => ?_⟩
  have h1 := shellOff_add_le shells i hi
  have h2 := shellOff_add_le shells j hj
  have hlt := row_lt (dim := dimOf shells) (p := shellOff shells i + m) (q := shellOff shells j + n) (by omega) (by omega)
  rw [added_elements h hi hj hm hn]
  unfold zeroAll
  rw [List.getElem?_map, List.getElem?_eq_getElem (by omega)]
  simp

theorem blockAt_add (io jo b1 b2 : Nat) (f g : Nat → Nat → ℝ) (p q : Nat) :
    blockAt io jo b1 b2 f p q + blockAt io jo b1 b2 g p q = blockAt io jo b1 b2 (fun m n => f m n + g m n) p q := by
  unfold blockAt
  split_ifs <;> simp

theorem blockAt_zero (io jo b1 b2 : Nat) (p q : Nat) : blockAt io jo b1 b2 (fun _ _ => 0) p q = 0 := by
  unfold blockAt
  split_ifs <;> rfl

theorem blockAt_range (io jo b1 b2 n : Nat) (f : Nat → Nat → Nat → ℝ) (p q : Nat) :
    ∑ i ∈ Finset.range n, blockAt io jo b1 b2 (f i) p q = blockAt io jo b1 b2 (fun m n' => ∑ i ∈ Finset.range n, f i m n') p q := by
  unfold blockAt
  split_ifs <;> simp

/-! ## Calls of the library -/

theorem Forwards.ok {α : Type} {h : Store} {x : Outcome (Store × α)} {y : Outcome α} {v : α} (f : Forwards h x y) (hy : y = .ok v) :
    ∃ h', Restored h h' ∧ x = .ok (h', v) := by
  obtain ⟨h', r, e⟩ := f
  exact ⟨h', r, by rw [e, hy]; rfl⟩

/-- The arrays are long enough for the number of primitives. -/
structure FShell.Ok (a : FShell) : Prop where
  coeffs : a.num ≤ a.coeffs.length
  alpha : a.num ≤ a.alpha.length

theorem FShell.Ok.make {a : FShell} (h : a.Ok) (gen : Nat → List Comp) : a.make gen = .ok (a.shell gen) :=
  new_shell_value gen a.origin a.L a.num a.coeffs a.alpha h.coeffs h.alpha

theorem FMol.Ok.shell {mol : FMol} (hm : mol.Ok) {a : FShell} (ha : a ∈ mol.shells) : a.Ok := by
  simp only [FMol.shells, FBasis.shells, List.mem_flatMap, List.mem_map, List.mem_range] at ha
  obtain ⟨at_, hat, L, hL, f, hf, rfl⟩ := ha
  have hz : at_.1 ∈ mol.charges := (List.of_mem_zip (show (at_.1, at_.2) ∈ _ from hat)).1
  have hb := (hm.basis _ hz).each L hL
  exact ⟨hb.rows f hf, hb.prim⟩

theorem FPot.make_ok (L J : Int) {u : FPot} (h1 : u.num ≤ u.powers.length) (h2 : u.num ≤ u.coeffs.length) (h3 : u.num ≤ u.alpha.length) :
    u.make L J = .ok (u.pot L J) ∧ (u.pot L J).L = L := by
  obtain ⟨p, e, hL, -⟩ := newPotential_ok L J u.num u.powers u.coeffs u.alpha h1 h2 h3
  have e' : u.make L J = .ok p := e
  have : u.pot L J = p := by unfold FPot.pot; rw [e']; rfl
  rw [this]
  exact ⟨e', hL⟩

/-! ## The table of outer-core shells -/

/-- All assignments of one pass. -/
def FOcTable.put (t : FOcTable) (u : FOc) : Outcome FOcTable := do
  let l ← wr t.L t.num u.L
  let j ← wr t.J t.num u.J
  let pn ← wr t.potNum t.num u.u.num
  let pp ← wr t.powers t.num u.u.powers
  let pc ← wr t.coeffs t.num u.u.coeffs
  let pa ← wr t.alpha t.num u.u.alpha
  let sn ← wr t.shellNum t.num u.num
  let sc ← wr t.shellCoeffs t.num u.coeffs
  let sa ← wr t.shellAlpha t.num u.alpha
  .ok ⟨t.num + 1, l, j, pn, pp, pc, pa, sn, sc, sa⟩

theorem ftnOcTable_eq {e : FEcp} (he : e.Ok) (t : FOcTable) : ftnOcTable e t = e.ocList.foldlM FOcTable.put { t with num := 0 } := by
  unfold ftnOcTable FEcp.ocList
  rw [foldlM_flatMap', forRange_foldlM]
  refine foldlM_congr_mem _ _ _ (fun L hL t => ?_) _
  have hL := List.mem_range.1 hL
  have hr : L < e.rows.length := by rw [he.rows]; exact hL
  have er : e.rows[L] = e.row L := by unfold FEcp.row; rw [List.getD_eq_getElem _ _ hr]
  unfold FEcp.ocRow
  rw [rd_ok hr, Outcome.ok_bind, er, foldlM_map', forRange_foldlM]
  refine foldlM_congr_mem _ _ _ (fun i hi t => ?_) _
  have hi := List.mem_range.1 hi
  have ho := he.oc L hL (by omega)
  have h1 : i < (e.row L).ocpot.length := lt_of_lt_of_le hi ho.pots
  have h2 : i < (e.row L).ocCoeffs.length := lt_of_lt_of_le hi ho.funs
  unfold ftnOcEntry FOcTable.put FEcpRow.pot
  rw [rd_ok h1, rd_ok h2, List.getD_eq_getElem _ _ h1, List.getD_eq_getElem _ _ h2]
  simp only [Outcome.ok_bind]

theorem rd_set_ne {α : Type} {l : List α} {i k : Nat} (h : i ≠ k) (v : α) : rd (l.set k v) i = rd l i := by
  unfold rd
  rw [List.getElem?_set_ne (Ne.symm h)]

theorem rd_set_eq {α : Type} {l : List α} {k : Nat} (h : k < l.length) (v : α) : rd (l.set k v) k = .ok v := by
  rw [rd_ok (by simpa using h)]
  simp

theorem FOcTable.put_ok {n : Nat} {t : FOcTable} (ht : t.Sized n) (hn : t.num < n) (u : FOc) :
    ∃ t', t.put u = .ok t' ∧ t'.Sized n ∧ t'.num = t.num + 1 ∧ t'.row t.num = .ok u ∧ ∀ i < t.num, t'.row i = t.row i := by
  have h1 := ht.L; have h2 := ht.J; have h3 := ht.potNum; have h4 := ht.powers; have h5 := ht.coeffs; have h6 := ht.alpha
  have h7 := ht.shellNum; have h8 := ht.shellCoeffs; have h9 := ht.shellAlpha
  refine ⟨⟨t.num + 1, t.L.set t.num u.L, t.J.set t.num u.J, t.potNum.set t.num u.u.num, t.powers.set t.num u.u.powers, t.coeffs.set t.num u.u.coeffs,
      t.alpha.set t.num u.u.alpha, t.shellNum.set t.num u.num, t.shellCoeffs.set t.num u.coeffs, t.shellAlpha.set t.num u.alpha⟩, ?_, ?_, ?_, ?_, ?_⟩
  · unfold FOcTable.put
    rw [wr_ok _ (by omega), wr_ok _ (by omega), wr_ok _ (by omega), wr_ok _ (by omega), wr_ok _ (by omega), wr_ok _ (by omega), wr_ok _ (by omega),
      wr_ok _ (by omega), wr_ok _ (by omega)]
    rfl
  · constructor <;> simp [*]
  · rfl
  · unfold FOcTable.row
    simp only
    rw [rd_set_eq (by omega), rd_set_eq (by omega), rd_set_eq (by omega), rd_set_eq (by omega), rd_set_eq (by omega), rd_set_eq (by omega),
      rd_set_eq (by omega), rd_set_eq (by omega), rd_set_eq (by omega)]
    rfl
  · intro i hi
    unfold FOcTable.row
    simp only
    have : i ≠ t.num := by omega
    rw [rd_set_ne this, rd_set_ne this, rd_set_ne this, rd_set_ne this, rd_set_ne this, rd_set_ne this, rd_set_ne this, rd_set_ne this, rd_set_ne this]

theorem foldlM_put {n : Nat} (us : List FOc) {t : FOcTable} (ht : t.Sized n) (hn : t.num ≤ n) :
    (t.num + us.length ≤ n → ∃ t', us.foldlM FOcTable.put t = .ok t' ∧ t'.Sized n ∧ t'.num = t.num + us.length ∧ (∀ i < t.num, t'.row i = t.row i) ∧
      ∀ i, (hi : i < us.length) → t'.row (t.num + i) = .ok us[i]) ∧
    (n < t.num + us.length → us.foldlM FOcTable.put t = .ub) := by
  induction us generalizing t with
  | nil =>
    refine ⟨fun _ => ⟨t, rfl, ht, by simp, fun _ _ => rfl, fun i hi => absurd hi (by simp)⟩, fun h => ?_⟩
    simp only [List.length_nil] at h
    omega
  | cons u us ih =>
    rcases Nat.lt_or_ge t.num n with h | h
    · obtain ⟨t1, e1, s1, n1, r1, o1⟩ := FOcTable.put_ok ht h u
      obtain ⟨h1, h2⟩ := ih s1 (by omega)
      have hc : (u :: us).length = us.length + 1 := rfl
      rw [List.foldlM_cons, e1, Outcome.ok_bind]
      refine ⟨fun hl => ?_, fun hl => h2 (by omega)⟩
      obtain ⟨t2, e2, s2, n2, o2, r2⟩ := h1 (by omega)
      refine ⟨t2, e2, s2, by omega, fun i hi => (o2 i (by omega)).trans (o1 i hi), fun i hi => ?_⟩
      cases i with
      | zero => rw [Nat.add_zero, o2 _ (by omega), r1]; rfl
      | succ i =>
        have := r2 i (by simpa using hi)
        rw [n1] at this
        rw [show t.num + (i + 1) = t.num + 1 + i by omega, this]
        rfl
    · refine ⟨fun hl => ?_, fun _ => ?_⟩
      · rw [List.length_cons] at hl
        omega
      · rw [List.foldlM_cons]
        unfold FOcTable.put
        rw [wr_ub _ (by rw [ht.L]; exact h)]
        rfl

/-- The table is filled if there is room for all shells; otherwise the arrays are overrun. -/
theorem ftnOcTable_spec {e : FEcp} (he : e.Ok) {t : FOcTable} (ht : t.Sized 20) :
    (e.ocList.length ≤ 20 → ∃ t', ftnOcTable e t = .ok t' ∧ t'.num = e.ocList.length ∧ ∀ i, (hi : i < e.ocList.length) → t'.row i = .ok e.ocList[i]) ∧
    (20 < e.ocList.length → ftnOcTable e t = .ub) := by
  have hs : ({ t with num := 0 } : FOcTable).Sized 20 := ⟨ht.L, ht.J, ht.potNum, ht.powers, ht.coeffs, ht.alpha, ht.shellNum, ht.shellCoeffs, ht.shellAlpha⟩
  obtain ⟨h1, h2⟩ := foldlM_put e.ocList hs (by simp)
  rw [ftnOcTable_eq he]
  refine ⟨fun h => ?_, fun h => h2 (by simpa using h)⟩
  obtain ⟨t', e1, -, n1, -, r1⟩ := h1 (by simpa using h)
  exact ⟨t', e1, by simpa using n1, fun i hi => by simpa using r1 i hi⟩

end Libgrpp
