import Verif.Model.FortranDriver
import Verif.Model.BasisFile
import Verif.Model.Elements

/-! # Model of the input of the Fortran front end: `xyz.f90`, `read_basis` and `normalize_basis` (`basis.f90`), and their use in `main.f90`

All input is list-directed (`read (inp, *)`). A file is the list of its records (lines), and a record is the list of its values, which are separated by
blanks. A `read` statement takes one value per item, goes on to the next record if the present one has no values left, and leaves out what is left of
the last record at its end. If a value is not of the type of its item, an error occurs, and the rest of the record is skipped; the standard leaves the
position of the file open, so this is what the run-time library of GNU Fortran does. Simplifications: no separators other than blanks (commas,
semicolons, slashes), no repeat counts, null values and quotes; counts below zero count as zero; no infinities and NaN; the files can be opened. Output to the terminal
(`print_molecule`, `print_basis`, messages) is left out. -/

namespace Libgrpp

/-- A record: its values. -/
abbrev FRecord := List (List Char)

/-- What the run-time library makes of a value as an integer or a real number: `none` if it is not one. A number does not begin with an asterisk. -/
structure FtnNum where
  int : List Char → Option Int
  real : List Char → Option ℝ
  int_star : ∀ t, int ('*' :: t) = none
  real_star : ∀ t, real ('*' :: t) = none

/-- The rest of the present record, and the records after it. -/
abbrev FPos := FRecord × List FRecord

/-- The next value; records without values are skipped. -/
def nextValue : FRecord → List FRecord → Option (List Char × FPos)
  | t :: c, rs => some (t, c, rs)
  | [], [] => none
  | [], r :: rs => nextValue r rs

/-- The result of reading: a value, the end of the file, or an error. -/
inductive FRes (α : Type) where
  | ok (a : α) (p : FPos)
  | eof
  | err (rest : List FRecord)

/-- Sequencing. -/
def FRes.bind {α β : Type} (x : FRes α) (f : α → FPos → FRes β) : FRes β :=
  match x with
  | .ok a p => f a p
  | .eof => .eof
  | .err rest => .err rest

/-- One item of a `read` statement. -/
def fItem {α : Type} (conv : List Char → Option α) (p : FPos) : FRes α :=
  match nextValue p.1 p.2 with
  | none => .eof
  | some (t, p) =>
    match conv t with
    | none => .err p.2
    | some a => .ok a p

/-- `n` items of the same type: an array section. -/
def fItems {α : Type} (conv : List Char → Option α) : Nat → FPos → FRes (List α)
  | 0, p => .ok [] p
  | n + 1, p => (fItem conv p).bind fun a p => (fItems conv n p).bind fun as p => .ok (a :: as) p

/-- The outcome of a `read` statement: values and the next records, the end of the file, or an error and the next records. -/
inductive FRead (α : Type) where
  | ok (a : α) (rest : List FRecord)
  | eof
  | err (rest : List FRecord)

/-- The end of a `read` statement. -/
def FRes.done {α : Type} : FRes α → FRead α
  | .ok a p => .ok a p.2
  | .eof => .eof
  | .err rest => .err rest

/-- A `read` statement with at least one item. -/
def fRead {α : Type} (items : FPos → FRes α) (recs : List FRecord) : FRead α := (items ([], recs)).done

/-- A `read` statement after whose error the program stops: either there is a label `err` with a message and `stop` behind it, or no label. The end of
the file has no label and stops the program, too. -/
def fReadStop {α : Type} (items : FPos → FRes α) (recs : List FRecord) : Outcome (α × List FRecord) :=
  match fRead items recs with
  | .ok a rest => .ok (a, rest)
  | .eof => .exit
  | .err _ => .exit

/-! ## xyz.f90 -/

/-- `element_symbols`, xyz.f90:11-28, without the blanks at the end (they are removed by `trim` before every use). -/
def ftnSymbols : List (List Char) :=
  [['G', 'h'], ['H'], ['H', 'e'], ['L', 'i'], ['B', 'e'], ['B'], ['C'], ['N'],
   ['O'], ['F'], ['N', 'e'], ['N', 'a'], ['M', 'g'], ['A', 'l'], ['S', 'i'], ['P'],
   ['S'], ['C', 'l'], ['A', 'r'], ['K'], ['C', 'a'], ['S', 'c'], ['T', 'i'], ['V'],
   ['C', 'r'], ['M', 'n'], ['F', 'e'], ['C', 'o'], ['N', 'i'], ['C', 'u'], ['Z', 'n'], ['G', 'a'],
   ['G', 'e'], ['A', 's'], ['S', 'e'], ['B', 'r'], ['K', 'r'], ['R', 'b'], ['S', 'r'], ['Y'],
   ['Z', 'r'], ['N', 'b'], ['M', 'o'], ['T', 'c'], ['R', 'u'], ['R', 'h'], ['P', 'd'], ['A', 'g'],
   ['C', 'd'], ['I', 'n'], ['S', 'n'], ['S', 'b'], ['T', 'e'], ['I'], ['X', 'e'], ['C', 's'],
   ['B', 'a'], ['L', 'a'], ['C', 'e'], ['P', 'r'], ['N', 'd'], ['P', 'm'], ['S', 'm'], ['E', 'u'],
   ['G', 'd'], ['T', 'b'], ['D', 'y'], ['H', 'o'], ['E', 'r'], ['T', 'm'], ['Y', 'b'], ['L', 'u'],
   ['H', 'f'], ['T', 'a'], ['W'], ['R', 'e'], ['O', 's'], ['I', 'r'], ['P', 't'], ['A', 'u'],
   ['H', 'g'], ['T', 'l'], ['P', 'b'], ['B', 'i'], ['P', 'o'], ['A', 't'], ['R', 'n'], ['F', 'r'],
   ['R', 'a'], ['A', 'c'], ['T', 'h'], ['P', 'a'], ['U'], ['N', 'p'], ['P', 'u'], ['A', 'm'],
   ['C', 'm'], ['B', 'k'], ['C', 'f'], ['E', 's'], ['F', 'm'], ['M', 'd'], ['N', 'b'], ['L', 'r'],
   ['R', 'f'], ['D', 'b'], ['S', 'g'], ['B', 'h'], ['H', 's'], ['M', 't'], ['D', 's'], ['R', 'g'],
   ['C', 'n'], ['N', 'h'], ['F', 'l'], ['M', 'c'], ['L', 'v'], ['T', 's'], ['O', 'g'], ['E', '1', '1', '9'],
   ['E', '1', '2', '0'], ['E', '1', '2', '1'], ['E', '1', '2', '2'], ['E', '1', '2', '3'], ['E', '1', '2', '4'], ['E', '1', '2', '5'],
   ['E', '1', '2', '6'], ['E', '1', '2', '7'],
   ['E', '1', '2', '8'], ['E', '1', '2', '9'], ['E', '1', '3', '0']]

/-- `get_charge`, xyz.f90:108-125; `exit` is the `stop` after the message. -/
def ftnGetCharge (label : List Char) : Outcome Nat :=
  match ftnSymbols.findIdx? (fun s => s == label) with
  | some i => .ok i
  | none => .exit

/-- The items `label, coord(i, 1:3)`, xyz.f90:83. `label` has eight characters: the rest of the value is cut off. -/
def xyzItems (num : FtnNum) (p : FPos) : FRes (List Char × Point) :=
  (fItem (fun t => some (t.take 8)) p).bind fun l p => (fItem num.real p).bind fun x p => (fItem num.real p).bind fun y p =>
    (fItem num.real p).bind fun z p => .ok (l, ![x, y, z]) p

/-- `read_molecule`, xyz.f90:57-96: charges and coordinates. `read (inp, *)` without items skips one record, whatever it contains. -/
def ftnReadMolecule (num : FtnNum) (recs : List FRecord) : Outcome (List (Nat × Point)) := do
  let n ← fReadStop (fItem num.int) recs
  match n.2 with
  | [] => .exit
  | _ :: recs =>
    let r ← forRange n.1.toNat (([] : List (Nat × Point)), recs) fun _ st => do
      let a ← fReadStop (xyzItems num) st.2
      let z ← ftnGetCharge a.1.1
      .ok (st.1 ++ [(z, a.1.2)], a.2)
    .ok r.1

/-! ## basis.f90 -/

/-- `a(i) = x` for an array whose first index is one. -/
def wr1 {α : Type} (a : List α) (i : Nat) (x : α) : Outcome (List α) := if i = 0 then .ub else wr a (i - 1) x

/-- The items `star, z, nblocks`, basis.f90:50. `star` is one character. -/
def basisHeader (num : FtnNum) (p : FPos) : FRes (List Char × Int × Int) :=
  (fItem (fun t => some (t.take 1)) p).bind fun s p => (fItem num.int p).bind fun z p => (fItem num.int p).bind fun n p => .ok (s, z, n) p

/-- Two integers, for example `nprim, ncontr`, basis.f90:54. -/
def twoInts (num : FtnNum) (p : FPos) : FRes (Int × Int) :=
  (fItem num.int p).bind fun a p => (fItem num.int p).bind fun b p => .ok (a, b) p

/-- The items `exponents(z, iblock, iprim), coeffs(z, iblock, 1:ncontr, iprim)`, basis.f90:58. -/
def basisRow (num : FtnNum) (nc : Nat) (p : FPos) : FRes (ℝ × List ℝ) :=
  (fItem num.real p).bind fun e p => (fItems num.real nc p).bind fun cs p => .ok (e, cs) p

/-- The assignments of one row: `coeffs(z, iblock, k, iprim)` is element `iprim` of row `k` of `FBlock.coeffs`. -/
def storeRow (ip : Nat) (e : ℝ) (cs : List ℝ) (blk : FBlock) : Outcome FBlock := do
  let ex ← wr blk.exponents ip e
  let co ← forRange cs.length blk.coeffs fun k co => do
    let x ← rd cs k
    let row ← rd co k
    let row ← wr row ip x
    wr co k row
  .ok { blk with exponents := ex, coeffs := co }

/-- One block, basis.f90:54-59. -/
def ftnReadBlock (num : FtnNum) (blk : FBlock) (recs : List FRecord) : Outcome (FBlock × List FRecord) := do
  let h ← fReadStop (twoInts num) recs
  forRange h.1.1.toNat (({ blk with numPrim := h.1.1.toNat, numContr := h.1.2.toNat } : FBlock), h.2) fun ip st => do
    let r ← fReadStop (basisRow num h.1.2.toNat) st.2
    let b ← storeRow ip r.1.1 r.1.2 st.1
    .ok (b, r.2)

/-- The entry of an element after its header, basis.f90:52-60. -/
def ftnReadEntry (num : FtnNum) (nblocks : Nat) (b : FBasis) (recs : List FRecord) : Outcome (FBasis × List FRecord) :=
  forRange nblocks (({ b with numBlocks := nblocks } : FBasis), recs) fun ib st => do
    let blk ← rd st.1.blocks ib
    let r ← ftnReadBlock num blk st.2
    let bs ← wr st.1.blocks ib r.1
    .ok ({ st.1 with blocks := bs }, r.2)

/-- The loop of `read_basis`, basis.f90:48-62. Every `read` consumes a record, so that the tests of the lengths always succeed. -/
def ftnBasisLoop (num : FtnNum) (charge : Nat) (basis : List FBasis) (recs : List FRecord) : Outcome (List FBasis) :=
  match fRead (basisHeader num) recs with
  | .eof => .ok basis
  | .err rest => if _h : rest.length < recs.length then ftnBasisLoop num charge basis rest else .ok basis
  | .ok v rest =>
    if v.1 = ['*'] ∧ v.2.1 = (charge : Int) then do
      let b ← rd1 basis charge
      let r ← ftnReadEntry num v.2.2.toNat b rest
      let basis ← wr1 basis charge r.1
      if _h : r.2.length < recs.length then ftnBasisLoop num charge basis r.2 else .ok basis
    else if _h : rest.length < recs.length then ftnBasisLoop num charge basis rest else .ok basis
termination_by recs.length

/-- `normalize_basis`, basis.f90:78-105. -/
noncomputable def ftnNormalize (gen : Nat → List Comp) (charge : Nat) (basis : List FBasis) : Outcome (List FBasis) := do
  let b ← rd1 basis charge
  let b ← forRange b.numBlocks b fun L b => do
    let blk ← rd b.blocks L
    let blk ← forRange blk.numContr blk fun k blk => do
      let row ← rd blk.coeffs k
      let r ← ftnNormFactor gen ⟨fun _ => none, 0, []⟩ L blk.numPrim row blk.exponents
      let co ← wr blk.coeffs k (row.map (· * r.2))
      .ok { blk with coeffs := co }
    let bs ← wr b.blocks L blk
    .ok { b with blocks := bs }
  wr1 basis charge b

/-- The basis sets in `main.f90`, lines 47-51 and 64-67, without `read_rpp`, which has other variables. -/
noncomputable def ftnMainBasis (gen : Nat → List Comp) (num : FtnNum) (recs : List FRecord) (charges : List Nat) (basis : List FBasis) :
    Outcome (List FBasis) := do
  let basis ← forRange charges.length basis fun i basis => do
    let z ← rd charges i
    let basis ← ftnBasisLoop num z basis recs
    ftnNormalize gen z basis
  forRange charges.length basis fun i basis => do
    let z ← rd charges i
    ftnNormalize gen z basis

/-! ## Specification: the format of the files -/

/-- Values which are these real numbers. -/
def RealValues (num : FtnNum) (xs : List ℝ) (ts : List (List Char)) : Prop := List.Forall₂ (fun x t => num.real t = some x) xs ts

/-- A line with an exponent and coefficients; anything may follow. -/
def RowRec (num : FtnNum) (e : ℝ) (cs : List ℝ) (r : FRecord) : Prop :=
  ∃ t ts more, r = t :: (ts ++ more) ∧ num.real t = some e ∧ RealValues num cs ts

/-- A line which begins with two integers. -/
def IntsRec (num : FtnNum) (a b : Nat) (r : FRecord) : Prop := ∃ t u more, r = t :: u :: more ∧ num.int t = some (a : Int) ∧ num.int u = some (b : Int)

/-- The lines of a block. -/
inductive BlockRecs (num : FtnNum) : BasisBlock → List FRecord → Prop
  | mk {b : BasisBlock} {h : FRecord} {rs : List FRecord} (hh : IntsRec num b.rows.length b.nc h)
      (hr : List.Forall₂ (fun (row : ℝ × List ℝ) r => row.2.length = b.nc ∧ RowRec num row.1 row.2 r) b.rows rs) : BlockRecs num b (h :: rs)

/-- Blocks, one after the other. -/
inductive BlocksRecs (num : FtnNum) : List BasisBlock → List FRecord → Prop
  | nil : BlocksRecs num [] []
  | cons {b : BasisBlock} {bs : List BasisBlock} {r1 r2 : List FRecord} (h1 : BlockRecs num b r1) (h2 : BlocksRecs num bs r2) :
      BlocksRecs num (b :: bs) (r1 ++ r2)

/-- The header of the entry for the element `z`, which announces `n` blocks. -/
def StarRec (num : FtnNum) (z n : Nat) (r : FRecord) : Prop :=
  ∃ s t u more, r = ('*' :: s) :: t :: u :: more ∧ num.int t = some (z : Int) ∧ num.int u = some (n : Int)

/-- An entry. -/
def EntryRecs (num : FtnNum) (z : Nat) (bs : List BasisBlock) (rs : List FRecord) : Prop :=
  ∃ h body, rs = h :: body ∧ StarRec num z bs.length h ∧ BlocksRecs num bs body

/-- A line after which a `read` of a header is always complete: it has three values or more, or two of which the second is not an integer. -/
def ClosedRec (num : FtnNum) (r : FRecord) : Prop := 3 ≤ r.length ∨ ∃ t u, r = [t, u] ∧ num.int u = none

/-- A file of basis sets: entries for the elements given, one after the other. The last line of every entry is such that the search for the next header
does not go beyond it. -/
inductive BasisFileRecs (num : FtnNum) : List (Nat × List BasisBlock) → List FRecord → Prop
  | nil : BasisFileRecs num [] []
  | cons {z : Nat} {bs : List BasisBlock} {es : List (Nat × List BasisBlock)} {r1 r2 : List FRecord} (h1 : EntryRecs num z bs r1)
      (hc : ∀ r, r1.getLast? = some r → ClosedRec num r) (h2 : BasisFileRecs num es r2) : BasisFileRecs num ((z, bs) :: es) (r1 ++ r2)

/-- The last entry of the file for the element `z`. -/
def lastEntry (z : Nat) (es : List (Nat × List BasisBlock)) : Option (List BasisBlock) := ((es.filter fun e => e.1 = z).map Prod.snd).getLast?

/-- The sizes of the arrays of the module `basis`, basis.f90:13-22: ten blocks, 30 exponents and 30 functions, for 131 elements. -/
structure BasisSized (basis : List FBasis) : Prop where
  elements : basis.length = 131
  blocks : ∀ b ∈ basis, b.blocks.length = 10
  exps : ∀ b ∈ basis, ∀ k ∈ b.blocks, k.exponents.length = 30
  funs : ∀ b ∈ basis, ∀ k ∈ b.blocks, k.coeffs.length = 30
  coeffs : ∀ b ∈ basis, ∀ k ∈ b.blocks, ∀ r ∈ k.coeffs, r.length = 30

/-- An entry within the limits of the Fortran program: at most ten blocks, each with at most 30 exponents and 30 functions. -/
structure FtnLimits (bs : List BasisBlock) : Prop where
  len : bs.length ≤ 10
  np : ∀ b ∈ bs, b.rows.length ≤ 30
  nc : ∀ b ∈ bs, b.nc ≤ 30

/-- A file of coordinates: the number of atoms, a comment, and a line per atom. Blank lines may be anywhere but before the comment. -/
structure XyzFile (num : FtnNum) (atoms : List (List Char × Point)) (recs : List FRecord) : Prop where
  shape : ∃ t more comment rs, recs = (t :: more) :: comment :: rs ∧ num.int t = some (atoms.length : Int) ∧
    ∃ rs1 rs2, rs.filter (fun r => r ≠ []) = rs1 ++ rs2 ∧
      List.Forall₂ (fun (a : List Char × Point) r => ∃ u1 u2 u3 rest, r = a.1 :: u1 :: u2 :: u3 :: rest ∧ num.real u1 = some (a.2 0) ∧ num.real u2 = some (a.2 1) ∧
        num.real u3 = some (a.2 2)) atoms rs1

/-- The lines that are not blank. -/
def nonBlank (recs : List FRecord) : List FRecord := recs.filter fun r => r ≠ []

/-- The arrays of a block hold the exponents and coefficients of a block of the file. -/
structure FBlockIs (b : BasisBlock) (k : FBlock) : Prop where
  prim : k.numPrim = b.rows.length
  contr : k.numContr = b.nc
  exps : k.exponents.take b.rows.length = b.exps
  funs : ∀ i < b.nc, ∃ row, k.coeffs[i]? = some row ∧ row.take b.rows.length = b.col i

/-- The arrays of an element hold the blocks of an entry. -/
structure FBasisIs (bs : List BasisBlock) (b : FBasis) : Prop where
  num : b.numBlocks = bs.length
  block : ∀ L (h : L < bs.length), ∃ k, b.blocks[L]? = some k ∧ FBlockIs bs[L] k

/-- A block is outside the limits, or too many. -/
def BlockOutside (n : Nat) (b : BasisBlock) : Prop := n = 10 ∨ 30 < b.rows.length ∨ 30 < b.nc ∧ b.rows ≠ []

/-- A line with two values, not beginning with an asterisk, of which the second is an integer. -/
def PairRec (num : FtnNum) (r : FRecord) : Prop := ∃ t u n, r = [t, u] ∧ t.head? ≠ some '*' ∧ num.int u = some n

end Libgrpp
