import Verif.Model.FortranFiles
import Verif.Model.GrppFile

/-! # Model of the reader of pseudopotentials of the Fortran front end: `read_rpp` (`rpp.f90`), and its use in `main.f90`

Files are as in `Verif/Model/FortranFiles.lean`. Of the arrays of the module `ecp` (rpp.f90:17-32) the program uses those which are in `FEcpRow` and `FEcp`;
`n_esop` and `ocbas_num_contr`, which are copies of `n_arep` and `n_oc_shells`, are left out. `print_ecp` only writes to the terminal and is left out. -/

namespace Libgrpp

/-- The items `star, z, max_oc, n_arep_tmp`, rpp.f90:69: one character and three integers. -/
def rppHeader (num : FtnNum) (p : FPos) : FRes (List Char × List Int) :=
  (fItem (fun t => some (t.take 1)) p).bind fun s p => (fItems num.int 3 p).bind fun v p => .ok (s, v) p

/-- The assignments of one array section or implied loop: `co(k, ip) = cs(k)` for all `k`, where `co` is a list of rows. -/
def storeCols (ip : Nat) (cs : List ℝ) (co : List (List ℝ)) : Outcome (List (List ℝ)) :=
  forRange cs.length co fun k co => do
    let x ← rd cs k
    let row ← rd co k
    let row ← wr row ip x
    wr co k row

/-- A loop of `n` statements `read`, each of which gets the values of one line and stores them. -/
def ftnReadLines {V : Type} (items : FPos → FRes V) (store : Nat → V → FEcpRow → Outcome FEcpRow) (n : Nat) (r : FEcpRow) (recs : List FRecord) :
    Outcome (FEcpRow × List FRecord) :=
  forRange n (r, recs) fun ip st => do
    let v ← fReadStop items st.2
    let r ← store ip v.1 st.1
    .ok (r, v.2)

/-- The assignments of rpp.f90:81. `ocbas_coeffs(z, ioc, iprim, k)` is element `iprim` of row `k` of `FEcpRow.ocCoeffs`. -/
def storeOc (ip : Nat) (v : ℝ × List ℝ) (r : FEcpRow) : Outcome FEcpRow := do
  let al ← wr r.ocAlpha ip v.1
  let co ← storeCols ip v.2 r.ocCoeffs
  .ok { r with ocAlpha := al, ocCoeffs := co }

/-- One block of outer-core functions, rpp.f90:76-82: the components of row `ioc` of the arrays. -/
def ftnReadOcBlock (num : FtnNum) (r : FEcpRow) (recs : List FRecord) : Outcome (FEcpRow × List FRecord) := do
  let h ← fReadStop (twoInts num) recs
  ftnReadLines (basisRow num h.1.2.toNat) storeOc h.1.1.toNat { r with ocNum := h.1.1.toNat, numOc := h.1.2.toNat } h.2

/-- The values of a line of a potential: power, exponent, coefficients of the averaged, the spin-orbit and the outer-core potentials. -/
structure RppLine where
  power : Int
  alpha : ℝ
  arep : ℝ
  esop : ℝ
  oc : List ℝ

/-- The items of rpp.f90:89-91. -/
def potItems (num : FtnNum) (noc : Nat) (p : FPos) : FRes RppLine :=
  (fItem num.int p).bind fun n p => (fItem num.real p).bind fun a p => (fItem num.real p).bind fun x p => (fItem num.real p).bind fun y p =>
    (fItems num.real noc p).bind fun cs p => .ok ⟨n, a, x, y, cs⟩ p

/-- The assignments of rpp.f90:89-91. -/
def storePot (ip : Nat) (v : RppLine) (r : FEcpRow) : Outcome FEcpRow := do
  let po ← wr r.powers ip v.power
  let al ← wr r.alpha ip v.alpha
  let ar ← wr r.arep ip v.arep
  let es ← wr r.esop ip v.esop
  let oc ← storeCols ip v.oc r.ocpot
  .ok { r with powers := po, alpha := al, arep := ar, esop := es, ocpot := oc }

/-- One block of potentials, rpp.f90:86-92: the components of row `irep` of the arrays. -/
def ftnReadPotBlock (num : FtnNum) (r : FEcpRow) (recs : List FRecord) : Outcome (FEcpRow × List FRecord) := do
  let h ← fReadStop (twoInts num) recs
  ftnReadLines (potItems num h.1.2.toNat) storePot h.1.1.toNat { r with numPrim := h.1.1.toNat } h.2

/-- A loop over the blocks of an entry: block `i` goes into row `i`. -/
def forRows (f : FEcpRow → List FRecord → Outcome (FEcpRow × List FRecord)) (n : Nat) (rows : List FEcpRow) (recs : List FRecord) :
    Outcome (List FEcpRow × List FRecord) :=
  forRange n (rows, recs) fun i st => do
    let r ← rd st.1 i
    let v ← f r st.2
    let rows ← wr st.1 i v.1
    .ok (rows, v.2)

/-- The entry of an element after its header, rpp.f90:72-93. The rest of the file is not read. -/
def ftnReadRppEntry (num : FtnNum) (maxOc nArep : Nat) (e : FEcp) (recs : List FRecord) : Outcome FEcp := do
  let st ← forRows (ftnReadOcBlock num) maxOc e.rows recs
  let st ← forRows (ftnReadPotBlock num) nArep st.1 st.2
  .ok ⟨nArep, st.1⟩

/-- The loop of `read_rpp`, rpp.f90:67-98. Every `read` consumes a record, so that the tests of the lengths always succeed. -/
def ftnRppLoop (num : FtnNum) (charge : Nat) (ecp : List FEcp) (recs : List FRecord) : Outcome (List FEcp) :=
  match fRead (rppHeader num) recs with
  | .eof => .ok ecp
  | .err rest => if _h : rest.length < recs.length then ftnRppLoop num charge ecp rest else .ok ecp
  | .ok v rest =>
    if v.1 = ['*'] ∧ v.2.getD 0 0 = (charge : Int) then do
      let e ← rd1 ecp charge
      let e ← ftnReadRppEntry num (v.2.getD 1 0).toNat (v.2.getD 2 0).toNat e rest
      wr1 ecp charge e
    else if _h : rest.length < recs.length then ftnRppLoop num charge ecp rest else .ok ecp
termination_by recs.length

/-- `read_rpp`, rpp.f90:36-110. -/
def ftnReadRpp (num : FtnNum) (charge : Nat) (ecp : List FEcp) (recs : List FRecord) : Outcome (List FEcp) := do
  let e ← rd1 ecp charge
  let ecp ← wr1 ecp charge ⟨0, e.rows.map fun r => { r with numOc := 0 }⟩
  ftnRppLoop num charge ecp recs

/-- The pseudopotentials in `main.f90`, lines 47-52. -/
def ftnMainRpp (num : FtnNum) (recs : List FRecord) (charges : List Nat) (ecp : List FEcp) : Outcome (List FEcp) :=
  forRange charges.length ecp fun i ecp => do
    let z ← rd charges i
    ftnReadRpp num z ecp recs

/-! ## Specification: the format of the file -/

/-- A line of a potential; anything may follow. -/
def PotRowRec (num : FtnNum) (p : PotRow) (r : FRecord) : Prop :=
  ∃ t u1 u2 u3 us more, r = t :: u1 :: u2 :: u3 :: (us ++ more) ∧ num.int t = some (p.power : Int) ∧ num.real u1 = some p.exp ∧ num.real u2 = some p.arep ∧
    num.real u3 = some p.esop ∧ RealValues num p.oc us

/-- The lines of a block of potentials. -/
inductive PotBlockRecs (num : FtnNum) : PotBlock → List FRecord → Prop
  | mk {b : PotBlock} {h : FRecord} {rs : List FRecord} (hh : IntsRec num b.rows.length b.noc h)
      (hr : List.Forall₂ (fun (p : PotRow) r => p.oc.length = b.noc ∧ PotRowRec num p r) b.rows rs) : PotBlockRecs num b (h :: rs)

/-- Blocks of potentials, one after the other. -/
inductive PotBlocksRecs (num : FtnNum) : List PotBlock → List FRecord → Prop
  | nil : PotBlocksRecs num [] []
  | cons {b : PotBlock} {bs : List PotBlock} {r1 r2 : List FRecord} (h1 : PotBlockRecs num b r1) (h2 : PotBlocksRecs num bs r2) :
      PotBlocksRecs num (b :: bs) (r1 ++ r2)

/-- The header of the entry for the element `z`, which announces `n` blocks of outer-core functions and `m` blocks of potentials. -/
def RppStarRec (num : FtnNum) (z n m : Nat) (r : FRecord) : Prop :=
  ∃ s t u v more, r = ('*' :: s) :: t :: u :: v :: more ∧ num.int t = some (z : Int) ∧ num.int u = some (n : Int) ∧ num.int v = some (m : Int)

/-- An entry: outer-core functions and potentials. -/
def RppEntryRecs (num : FtnNum) (z : Nat) (cs : List BasisBlock) (ps : List PotBlock) (rs : List FRecord) : Prop :=
  ∃ h r1 r2, rs = h :: (r1 ++ r2) ∧ RppStarRec num z cs.length ps.length h ∧ BlocksRecs num cs r1 ∧ PotBlocksRecs num ps r2

/-- A line after which a `read` of a header is always complete: it has four values or more, or a value other than the first which is not an integer. -/
def RppClosed (num : FtnNum) (r : FRecord) : Prop := 4 ≤ r.length ∨ ∃ t ∈ r.tail, num.int t = none

/-- A file of pseudopotentials: entries for the elements given, one after the other. The last line of every entry is such that the search for the next
header does not go beyond it. -/
inductive RppFileRecs (num : FtnNum) : List (Nat × List BasisBlock × List PotBlock) → List FRecord → Prop
  | nil : RppFileRecs num [] []
  | cons {z : Nat} {cs : List BasisBlock} {ps : List PotBlock} {es : List (Nat × List BasisBlock × List PotBlock)} {r1 r2 : List FRecord}
      (h1 : RppEntryRecs num z cs ps r1) (hc : ∀ r, r1.getLast? = some r → RppClosed num r) (h2 : RppFileRecs num es r2) :
      RppFileRecs num ((z, cs, ps) :: es) (r1 ++ r2)

/-- The first entry of the file for the element `z`. -/
def firstEntry (z : Nat) (es : List (Nat × List BasisBlock × List PotBlock)) : Option (List BasisBlock × List PotBlock) :=
  ((es.filter fun e => e.1 = z).map Prod.snd).head?

/-- The sizes of the arrays of the module `ecp` for one row, rpp.f90:13-32: 50 terms, 20 outer-core potentials, 50 outer-core functions of 50 exponents. -/
structure EcpRowSized (r : FEcpRow) : Prop where
  alpha : r.alpha.length = 50
  powers : r.powers.length = 50
  arep : r.arep.length = 50
  esop : r.esop.length = 50
  pots : r.ocpot.length = 20
  pot : ∀ c ∈ r.ocpot, c.length = 50
  ocAlpha : r.ocAlpha.length = 50
  funs : r.ocCoeffs.length = 50
  fun_ : ∀ c ∈ r.ocCoeffs, c.length = 50

/-- The sizes of the arrays of the module `ecp`: ten rows for 131 elements. -/
structure EcpSized (ecp : List FEcp) : Prop where
  elements : ecp.length = 131
  rows : ∀ e ∈ ecp, e.rows.length = 10
  sized : ∀ e ∈ ecp, ∀ r ∈ e.rows, EcpRowSized r

/-- An entry within the limits of the Fortran program. -/
structure RppLimits (cs : List BasisBlock) (ps : List PotBlock) : Prop where
  clen : cs.length ≤ 10
  plen : ps.length ≤ 10
  cnp : ∀ b ∈ cs, b.rows.length ≤ 50
  cnc : ∀ b ∈ cs, b.nc ≤ 50
  pnp : ∀ b ∈ ps, b.rows.length ≤ 50
  pnoc : ∀ b ∈ ps, b.noc ≤ 20

/-- Row `L` of the arrays holds a block of outer-core functions. -/
structure OcBlockIs (b : BasisBlock) (r : FEcpRow) : Prop where
  num : r.ocNum = b.rows.length
  contr : r.numOc = b.nc
  exps : r.ocAlpha.take b.rows.length = b.exps
  funs : ∀ i < b.nc, ∃ c, r.ocCoeffs[i]? = some c ∧ c.take b.rows.length = b.col i

/-- Row `L` of the arrays holds a block of potentials. -/
structure PotBlockIs (b : PotBlock) (r : FEcpRow) : Prop where
  num : r.numPrim = b.rows.length
  powers : r.powers.take b.rows.length = b.rows.map fun p => (p.power : Int)
  exps : r.alpha.take b.rows.length = b.rows.map fun p => p.exp
  arep : r.arep.take b.rows.length = b.rows.map fun p => p.arep
  esop : r.esop.take b.rows.length = b.rows.map fun p => p.esop
  oc : ∀ i < b.noc, ∃ c, r.ocpot[i]? = some c ∧ c.take b.rows.length = b.rows.map fun p => p.oc.getD i 0

/-- The arrays of an element hold an entry. -/
structure FEcpIs (cs : List BasisBlock) (ps : List PotBlock) (e : FEcp) : Prop where
  num : e.numArep = ps.length
  core : ∀ L (h : L < cs.length), ∃ r, e.rows[L]? = some r ∧ OcBlockIs cs[L] r
  none_ : ∀ L r, cs.length ≤ L → e.rows[L]? = some r → r.numOc = 0
  pot : ∀ L (h : L < ps.length), ∃ r, e.rows[L]? = some r ∧ PotBlockIs ps[L] r

/-- A block of outer-core functions is outside the limits, or too many. -/
def CoreOutside (n : Nat) (b : BasisBlock) : Prop := n = 10 ∨ 50 < b.rows.length ∨ 50 < b.nc ∧ b.rows ≠ []

/-- A block of potentials is outside the limits, or too many. -/
def PotOutside (n : Nat) (b : PotBlock) : Prop := n = 10 ∨ 50 < b.rows.length ∨ 20 < b.noc ∧ b.rows ≠ []

end Libgrpp
