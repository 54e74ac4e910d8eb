import Verif.Model.BasisFile
import Verif.Model.Full

/-! # Model of the input of pseudopotentials: `read_grpp` of `test_libgrpp_c/rpp.c` and its use in `main`

Conventions as in `Verif/Model/BasisFile.lean`. Negative numbers of blocks, rows and columns count as zero. Objects that are created and never used (and
so are lost) do not appear. -/

namespace Libgrpp

/-- The search for the entry of an element, rpp.c:35-53: the numbers of blocks of outer-core functions and of potentials, and the rest of the file;
`none` if `read_grpp` returns `NULL`. The array `buf` has 256 elements. The tests of the lengths always succeed. -/
def findGrppEntry (z : Int) (text : List Char) : Outcome (Option (Int × Int × List Char)) := do
  match scanWord text with
  | none => .ok none
  | some (w, t) =>
    Outcome.valid (w.length < 256)
    if w = ['*'] then
      match ← scanInt t with
      | none => .ok none
      | some (z', t1) =>
        match ← scanInt t1 with
        | none => .ok none
        | some (n, t2) =>
          match ← scanInt t2 with
          | none => .ok none
          | some (k, t3) =>
            if z' = z then .ok (some (n, k, t3))
            else if _h : t3.length < text.length then findGrppEntry z t3 else .ok none
    else if _h : t.length < text.length then findGrppEntry z t else .ok none
termination_by text.length

/-- The arrays `pow_buf`, `exp_buf`, `coef_buf` (rpp.c:24-26) and the unread part of the file. -/
structure GrppBuf where
  pows : List (Option Int)
  exps : List (Option ℝ)
  coefs : List (Option ℝ)
  text : List Char

/-- One row of a block of outer-core functions, rpp.c:73-76. The rest of the line is not skipped. -/
def readCoreRow (io : DecimalIO) (nc row : Nat) (s : GrppBuf) : Outcome GrppBuf := do
  let e ← readNum io s.exps row s.text
  let c ← forRange nc (s.coefs, e.2) fun col (c : List (Option ℝ) × List Char) => readNum io c.1 (coefIdx col row) c.2
  .ok ⟨s.pows, e.1, c.1, c.2⟩

/-- A block of outer-core functions, rpp.c:64-85: `shells` is the filled part of `buf_oc_shells`, which has 100 elements (`MAX_NUM_OC_SHELLS`). -/
noncomputable def readCoreBlock (gen : Nat → List Comp) (io : DecimalIO) (L : Nat) (st : GrppBuf × List Shell) : Outcome (GrppBuf × List Shell) := do
  let h ← readTwoInts st.1.text
  let np := h.1.toNat
  let nc := h.2.1.toNat
  let s ← forRange np { st.1 with text := skipLine h.2.2 } fun row s => readCoreRow io nc row s
  let shells ← forRange nc st.2 fun ifun shells => do
    let c ← initPrefix np s.coefs (coefIdx ifun)
    let a ← initPrefix np s.exps id
    let sh ← newShell gen ![0, 0, 0] L np c a
    Outcome.valid (shells.length < 100)
    .ok (shells ++ [sh])
  .ok (s, shells)

/-- `fscanf(inp_file, "%d%lf", &pow_buf[row], &exp_buf[row])`, rpp.c:103, the result of which is not looked at. -/
def readPower (io : DecimalIO) (row : Nat) (s : GrppBuf) : Outcome GrppBuf := do
  match ← scanInt s.text with
  | none => .ok { s with text := s.text.dropWhile isSpaceC }
  | some (n, t) =>
    let p ← wr s.pows row (some n)
    let e ← readNum io s.exps row t
    .ok { s with pows := p, exps := e.1, text := e.2 }

/-- `fscanf(inp_file, "%lf%lf", &coef_buf[0][row], &coef_buf[1][row])`, rpp.c:106: the second number is read only if there is a first one. -/
def readArepEsop (io : DecimalIO) (row : Nat) (s : GrppBuf) : Outcome GrppBuf := do
  let c ← readNum io s.coefs (coefIdx 0 row) s.text
  if scanDbl io s.text = none then .ok { s with coefs := c.1, text := c.2 }
  else
    let d ← readNum io c.1 (coefIdx 1 row) c.2
    .ok { s with coefs := d.1, text := d.2 }

/-- One row of a block of potentials, rpp.c:100-114. -/
def readPotRow (io : DecimalIO) (noc row : Nat) (s : GrppBuf) : Outcome GrppBuf := do
  let s ← readPower io row s
  let s ← readArepEsop io row s
  let c ← forRange noc (s.coefs, s.text) fun ioc (c : List (Option ℝ) × List Char) => readNum io c.1 (coefIdx (2 + ioc) row) c.2
  .ok { s with coefs := c.1, text := skipLine c.2 }

/-- `libgrpp_new_potential(L, J, n_prim, pow_buf, coef_buf[col], exp_buf)`. Simplification: the powers and exponents of all terms are read; the library
reads only those of terms that are kept. -/
noncomputable def potFromBuf (s : GrppBuf) (L J : Int) (np col : Nat) : Outcome Potential := do
  let p ← initPrefix np s.pows id
  let c ← initPrefix np s.coefs (coefIdx col)
  let a ← initPrefix np s.exps id
  newPotential L J np p c a

/-- The potentials made so far: the object `grpp` without its outer-core part, and the filled part of `buf_oc_potentials`. -/
structure GrppParts where
  local_ : Option Potential
  arep : List Potential
  esop : List Potential
  ocpots : List Potential

/-- The averaged potential of a block becomes the local potential if the block is the last one, rpp.c:115-121. The array of the library for averaged
potentials has 100 elements (grpp.c:33-41). -/
def placeArep (narep L : Nat) (arep : Potential) (g : GrppParts) : Outcome GrppParts :=
  if L + 1 = narep then .ok { g with local_ := some arep }
  else do
    Outcome.valid (g.arep.length < 100)
    .ok { g with arep := g.arep ++ [arep] }

/-- The spin-orbit potential of a block, rpp.c:123-130: none for L = 0. The array of the library has 100 elements (grpp.c:44-52). -/
noncomputable def placeEsop (s : GrppBuf) (np L : Nat) (g : GrppParts) : Outcome GrppParts :=
  if L = 0 then .ok g
  else do
    let esop ← potFromBuf s L 0 np 1
    Outcome.valid (g.esop.length < 100)
    .ok { g with esop := g.esop ++ [esop] }

/-- A block of potentials, rpp.c:90-142. The array `buf_oc_potentials` has 100 elements. -/
noncomputable def readPotBlock (io : DecimalIO) (narep L : Nat) (st : GrppBuf × GrppParts) : Outcome (GrppBuf × GrppParts) := do
  let h ← readTwoInts st.1.text
  let np := h.1.toNat
  let noc := h.2.1.toNat
  let s ← forRange np { st.1 with text := skipLine h.2.2 } fun row s => readPotRow io noc row s
  let arep ← potFromBuf s L 0 np 0
  let g ← placeArep narep L arep st.2
  let g ← placeEsop s np L g
  let oc ← forRange noc g.ocpots fun ioc oc => do
    let J : Int := |2 * (L : Int) + (if ioc % 2 = 0 then -1 else 1)|
    let p ← potFromBuf s L J np (2 + ioc)
    Outcome.valid (oc.length < 100)
    .ok (oc ++ [p])
  .ok (s, { g with ocpots := oc })

/-- `read_grpp`, rpp.c:17-148. `none` is `NULL`. -/
noncomputable def readGrppFile (gen : Nat → List Comp) (io : DecimalIO) (text : List Char) (z : Int) : Outcome (Option GrppData) := do
  match ← findGrppEntry z text with
  | none => .ok none
  | some (n, k, t) =>
    let c ← forRange n.toNat (⟨List.replicate maxExponents none, List.replicate maxExponents none, List.replicate (maxExponents * maxExponents) none, t⟩, [])
      fun iblock st => readCoreBlock gen io iblock st
    let r ← forRange k.toNat (c.1, ⟨none, [], [], []⟩) fun iblock st => readPotBlock io k.toNat iblock st
    let oc ← forRange r.2.ocpots.length [] fun ioc oc => do
      let p ← rd r.2.ocpots ioc
      let s ← rd c.2 ioc
      .ok (oc ++ [(p, s)])
    .ok (some ⟨r.2.local_, r.2.arep, r.2.esop, oc⟩)

/-- What is read by `print_grpp`, rpp.c:151-190: the labels of the angular momenta come from an array of 15 characters; the local potential is
dereferenced without a test. -/
def printGrpp (g : GrppData) : Outcome Unit := do
  Outcome.valid (∀ e ∈ g.oc, e.2.L < 15)
  match g.local_ with
  | none => .ub
  | some p =>
    Outcome.valid (0 ≤ p.L ∧ p.L < 15)
    Outcome.valid (∀ u ∈ g.arep ++ g.esop ++ g.oc.map Prod.fst, 0 ≤ u.L ∧ u.L < 15)

/-- Reading the pseudopotentials of the elements in `main`, main.c:229-241. The array has 131 elements. -/
noncomputable def mainReadGrpps (gen : Nat → List Comp) (io : DecimalIO) (text : List Char) (atoms : List (Nat × Point)) : Outcome (List (Option GrppData)) :=
  forRange atoms.length (List.replicate 131 none) fun ia grpps => do
    let a ← rd atoms ia
    match ← rd grpps a.1 with
    | some _ => .ok grpps
    | none =>
      let g ← readGrppFile gen io text a.1
      wr grpps a.1 g

/-- Printing them, main.c:243-251. -/
def mainPrintGrpps (grpps : List (Option GrppData)) : Outcome Unit :=
  forRange 131 () fun i _ => do
    match ← rd grpps i with
    | none => .ok ()
    | some g => printGrpp g

/-- Both, main.c:229-251. -/
noncomputable def mainGrpps (gen : Nat → List Comp) (io : DecimalIO) (text : List Char) (atoms : List (Nat × Point)) : Outcome (List (Option GrppData)) := do
  let grpps ← mainReadGrpps gen io text atoms
  let _ ← mainPrintGrpps grpps
  .ok grpps

/-! ## Specification: the format of a file of pseudopotentials -/

/-- A header line: two numbers, then a comment. -/
def HeaderLine (a b : Nat) (t : List Char) : Prop :=
  ∃ ws ws1 t1, t = ws ++ (Nat.toDigits 10 a ++ (ws1 ++ (Nat.toDigits 10 b ++ t1))) ∧ AllSpace ws ∧ Spaces ws1 ∧ LineEnd t1

/-- The rows of a block of outer-core functions: numbers separated by white space, without comments. -/
inductive CoreRows (io : DecimalIO) (nc : Nat) : List (ℝ × List ℝ) → List Char → Prop
  | nil : CoreRows io nc [] []
  | cons {e : ℝ} {cs : List ℝ} {rows : List (ℝ × List ℝ)} {ws tok t1 sep t2 : List Char} (hlen : cs.length = nc) (hws : AllSpace ws) (htok : NumToken io tok e)
      (h1 : NumsText io cs t1) (hsep : Spaces sep) (h2 : CoreRows io nc rows t2) : CoreRows io nc ((e, cs) :: rows) (ws ++ (tok ++ (t1 ++ (sep ++ t2))))

/-- A block of outer-core functions. -/
def CoreText (io : DecimalIO) (b : BasisBlock) (t : List Char) : Prop :=
  ∃ t1 t2, t = t1 ++ t2 ∧ HeaderLine b.rows.length b.nc t1 ∧ CoreRows io b.nc b.rows t2

/-- Blocks of outer-core functions. -/
inductive CoresText (io : DecimalIO) : List BasisBlock → List Char → Prop
  | nil : CoresText io [] []
  | cons {b : BasisBlock} {bs : List BasisBlock} {t1 t2 : List Char} (h1 : CoreText io b t1) (h2 : CoresText io bs t2) : CoresText io (b :: bs) (t1 ++ t2)

/-- One term of the potentials of a block: power, exponent, and the coefficients of the averaged, the spin-orbit and the outer-core potentials. -/
structure PotRow where
  power : Nat
  exp : ℝ
  arep : ℝ
  esop : ℝ
  oc : List ℝ

/-- A block of potentials: the number of outer-core potentials, and the terms. -/
structure PotBlock where
  noc : Nat
  rows : List PotRow

/-- A row of a block of potentials. -/
def PotRowText (io : DecimalIO) (r : PotRow) (t : List Char) : Prop :=
  ∃ ws t1 t2, t = ws ++ (Nat.toDigits 10 r.power ++ (t1 ++ t2)) ∧ AllSpace ws ∧ NumsText io (r.exp :: r.arep :: r.esop :: r.oc) t1 ∧ LineEnd t2

/-- The rows of a block of potentials. -/
inductive PotRows (io : DecimalIO) (noc : Nat) : List PotRow → List Char → Prop
  | nil : PotRows io noc [] []
  | cons {r : PotRow} {rows : List PotRow} {t1 t2 : List Char} (hlen : r.oc.length = noc) (hpow : r.power ≤ intMax) (h1 : PotRowText io r t1)
      (h2 : PotRows io noc rows t2) : PotRows io noc (r :: rows) (t1 ++ t2)

/-- A block of potentials. -/
def PotText (io : DecimalIO) (b : PotBlock) (t : List Char) : Prop :=
  ∃ t1 t2, t = t1 ++ t2 ∧ HeaderLine b.rows.length b.noc t1 ∧ PotRows io b.noc b.rows t2

/-- Blocks of potentials. -/
inductive PotsText (io : DecimalIO) : List PotBlock → List Char → Prop
  | nil : PotsText io [] []
  | cons {b : PotBlock} {bs : List PotBlock} {t1 t2 : List Char} (h1 : PotText io b t1) (h2 : PotsText io bs t2) : PotsText io (b :: bs) (t1 ++ t2)

/-- A text in which no entry for the element `z` begins. -/
inductive NoGrppEntry (z : Nat) : List Char → Prop
  | nil : NoGrppEntry z []
  | word {w ws t : List Char} (hne : w ≠ []) (hstar : w ≠ ['*']) (hlen : w.length < 256) (hw : ∀ c ∈ w, isSpaceC c = false) (hws : Spaces ws)
      (h : NoGrppEntry z t) : NoGrppEntry z (w ++ (ws ++ t))
  | star {z' n k : Nat} {ws1 ws2 ws3 ws4 t : List Char} (hz : z' ≠ z) (hz' : z' ≤ intMax) (hn : n ≤ intMax) (hk : k ≤ intMax) (h1 : Spaces ws1) (h2 : Spaces ws2)
      (h3 : Spaces ws3) (h4 : Spaces ws4) (h : NoGrppEntry z t) :
      NoGrppEntry z ('*' :: (ws1 ++ (Nat.toDigits 10 z' ++ (ws2 ++ (Nat.toDigits 10 n ++ (ws3 ++ (Nat.toDigits 10 k ++ (ws4 ++ t))))))))

/-- The beginning of a file up to the header of the first entry for the element `z`. -/
def GrppStart (z n k : Nat) (t : List Char) : Prop :=
  ∃ ws0 pre ws1 ws2 ws3 ws4,
    t = ws0 ++ (pre ++ ('*' :: (ws1 ++ (Nat.toDigits 10 z ++ (ws2 ++ (Nat.toDigits 10 n ++ (ws3 ++ (Nat.toDigits 10 k ++ ws4)))))))) ∧
    AllSpace ws0 ∧ NoGrppEntry z pre ∧ Spaces ws1 ∧ Spaces ws2 ∧ Spaces ws3 ∧ Spaces ws4

/-- The file contains, as first entry for the element `z`, the outer-core functions `cs` and the potentials `ps`; anything may follow. -/
def HasGrpp (io : DecimalIO) (z : Nat) (cs : List BasisBlock) (ps : List PotBlock) (text : List Char) : Prop :=
  ∃ t1 t2 t3 rest, text = t1 ++ (t2 ++ (t3 ++ rest)) ∧ GrppStart z cs.length ps.length t1 ∧ CoresText io cs t2 ∧ PotsText io ps t3

open Classical in
/-- A potential of angular momentum `L`, `J`, with the terms `ts` (power, coefficient, exponent) except those with a coefficient below 1e-14. The arrays have
room for all terms; what is not used is zero. -/
def IsPotential (L J : Int) (ts : List (Int × ℝ × ℝ)) (p : Potential) : Prop :=
  p.L = L ∧ p.J = J ∧ p.num ≤ p.powers.length ∧ p.num ≤ p.coeffs.length ∧ p.num ≤ p.alpha.length ∧
    (p.powers.take p.num).zip ((p.coeffs.take p.num).zip (p.alpha.take p.num)) = (ts.filter fun t => decide (1e-14 ≤ |t.2.1|)) ∧
    p.powers.drop p.num = List.replicate (ts.length - p.num) 0 ∧ p.coeffs.drop p.num = List.replicate (ts.length - p.num) 0 ∧
    p.alpha.drop p.num = List.replicate (ts.length - p.num) 0

/-- The terms of the averaged potential of a block. -/
def PotBlock.arep (b : PotBlock) : List (Int × ℝ × ℝ) := b.rows.map fun r => ((r.power : Int), r.arep, r.exp)

/-- The terms of the spin-orbit potential of a block. -/
def PotBlock.esop (b : PotBlock) : List (Int × ℝ × ℝ) := b.rows.map fun r => ((r.power : Int), r.esop, r.exp)

/-- The terms of outer-core potential `i` of a block. -/
noncomputable def PotBlock.core (b : PotBlock) (i : Nat) : List (Int × ℝ × ℝ) := b.rows.map fun r => ((r.power : Int), r.oc.getD i 0, r.exp)

/-- The outer-core potentials announced by blocks, the first of which has angular momentum `L`: angular momentum, twice the total angular momentum, terms.
The potentials of a block have alternately the total angular momentum L - 1/2 and L + 1/2; for L = 0 all have 1/2. -/
noncomputable def corePots (L : Nat) : List PotBlock → List (Nat × Nat × List (Int × ℝ × ℝ))
  | [] => []
  | b :: bs => (List.range b.noc).map (fun i => (L, (if L = 0 then 1 else if i % 2 = 0 then 2 * L - 1 else 2 * L + 1), b.core i)) ++ corePots (L + 1) bs

/-- The outer-core functions announced by blocks: angular momentum, exponents, coefficients. -/
noncomputable def coreShells (gen : Nat → List Comp) (L : Nat) : List BasisBlock → List Shell
  | [] => []
  | b :: bs => (List.range b.nc).map (fun k => { L := L, origin := ![0, 0, 0], cart_size := cartSize L, cartList := gen L, num := b.rows.length, coeffs := b.col k, alpha := b.exps }) ++ coreShells gen (L + 1) bs

end Libgrpp
