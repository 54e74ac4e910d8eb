import Verif.Model.MatrixFile
import Verif.Model.Fortran
import Verif.Model.SphericalHarmonics
import Verif.Model.Spec
import Mathlib.Data.Nat.Factorial.DoubleFactorial

/-! # Model of the input of basis sets: `read_basis_set` (`test_libgrpp_c/basis.c`), `construct_shell_list` (`test_libgrpp_c/shell_list.c`), and
the use of both in `main`

A file is the list of its characters, as in `Verif/Model/MatrixFile.lean`. That `fopen` succeeds and that memory can be allocated is assumed. The
growing array of `basis_set_t` (basis.c:53-85) is a list. -/

namespace Libgrpp

/-- The conversion `%s` of `fscanf`. -/
def scanWord (text : List Char) : Option (List Char × List Char) :=
  let t := text.dropWhile isSpaceC
  if t = [] then none else some (t.takeWhile (fun c => !isSpaceC c), t.dropWhile fun c => !isSpaceC c)

/-- `skip_line`, rpp.c:214-221. -/
def skipLine (text : List Char) : List Char := (text.dropWhile fun c => c != '\n').tail

/-- The search for the entry of an element, basis.c:106-126: the number of blocks and the rest of the file; `none` if `read_basis_set` returns `NULL`.
The array `buf` has 256 elements. As in `readEntries`, the tests of the lengths always succeed. -/
def findBasisEntry (z : Int) (text : List Char) : Outcome (Option (Int × List Char)) := do
  match scanWord text with
  | none => .ok none
  | some (w, t) =>
    Outcome.valid (w.length < 256)
    if w = ['*'] then
      match ← scanInt t with
      | none => .ok none
      | some (z', t1) =>
        match ← scanInt t1 with
        | none => .ok none
        | some (n, t2) =>
          if z' = z then .ok (some (n, t2))
          else if _h : t2.length < text.length then findBasisEntry z t2 else .ok none
    else if _h : t.length < text.length then findBasisEntry z t else .ok none
termination_by text.length

/-- `basis_fun_t`, basis.h. -/
structure BasisFun where
  L : Nat
  num : Nat
  coeffs : List ℝ
  alpha : List ℝ

/-- `MAX_N_EXPONENTS` and `MAX_N_CONTRACTED`, basis.c:93-94. -/
def maxExponents : Nat := 100

/-- `fscanf(inp_file, "%lf", &buf[i])` whose result is not looked at: if there is no number, nothing is stored. Elements of the array that were never
stored are `none`. An infinity or NaN in the file is not modelled (counted as undefined). Simplification: what is not a number is left unread as a whole. -/
def readNum (io : DecimalIO) (buf : List (Option ℝ)) (i : Nat) (text : List Char) : Outcome (List (Option ℝ) × List Char) :=
  match scanDbl io text with
  | none => .ok (buf, text.dropWhile isSpaceC)
  | some (.fin x, t) => do
    let b ← wr buf i (some x)
    .ok (b, t)
  | some (_, _) => .ub

/-- Position of `coef_buf[col][row]`; a position outside of the array if an index is out of range. -/
def coefIdx (col row : Nat) : Nat := if col < maxExponents ∧ row < maxExponents then col * maxExponents + row else maxExponents * maxExponents

/-- The arrays `exp_buf` and `coef_buf` and the unread part of the file. -/
structure BasisBuf where
  exps : List (Option ℝ)
  coefs : List (Option ℝ)
  text : List Char

/-- One row of a block, basis.c:139-143. -/
def readBasisRow (io : DecimalIO) (nc row : Nat) (s : BasisBuf) : Outcome BasisBuf := do
  let e ← readNum io s.exps row s.text
  let c ← forRange nc (s.coefs, e.2) fun col (c : List (Option ℝ) × List Char) => readNum io c.1 (coefIdx col row) c.2
  .ok ⟨e.1, c.1, skipLine c.2⟩

/-- The `n` elements of an array at the positions `pos 0`, `pos 1`, …; reading an element that was never stored is undefined. -/
def initPrefix {α : Type} (n : Nat) (buf : List (Option α)) (pos : Nat → Nat) : Outcome (List α) :=
  forRange n [] fun i acc => do
    let x ← rdInit buf (pos i)
    .ok (acc ++ [x])

/-- One contracted function, basis.c:150-156: normalised in place and copied. The memory of the library is as before the call of
`radial_gto_norm_factor_` (C85), so that every call gets an empty one. -/
noncomputable def makeBasisFun (gen : Nat → List Comp) (L np ifun : Nat) (exps coefs : List (Option ℝ)) : Outcome (List (Option ℝ) × BasisFun) := do
  let c ← initPrefix np coefs (coefIdx ifun)
  let a ← initPrefix np exps id
  let r ← ftnNormFactor gen ⟨fun _ => none, 0, []⟩ L np c a
  let coefs ← forRange np coefs fun i coefs => do
    let x ← rdInit coefs (coefIdx ifun i)
    wr coefs (coefIdx ifun i) (some (x * r.2))
  let c ← initPrefix np coefs (coefIdx ifun)
  .ok (coefs, ⟨L, np, c, a⟩)

/-- `fscanf(inp_file, "%d%d", &a, &b)` whose result is not looked at: the variables are read afterwards, which is undefined if they were not stored. -/
def readTwoInts (text : List Char) : Outcome (Int × Int × List Char) := do
  match ← scanInt text with
  | none => .ub
  | some (a, t) =>
    match ← scanInt t with
    | none => .ub
    | some (b, t) => .ok (a, b, t)

/-- One block of an entry, basis.c:133-157. Simplification: a negative number of exponents or functions counts as zero. -/
noncomputable def readBasisBlock (gen : Nat → List Comp) (io : DecimalIO) (L : Nat) (s : BasisBuf) : Outcome (BasisBuf × List BasisFun) := do
  let h ← readTwoInts s.text
  let np := h.1.toNat
  let nc := h.2.1.toNat
  let s ← forRange np { s with text := h.2.2 } fun row s => readBasisRow io nc row s
  let r ← forRange nc (s.coefs, []) fun ifun (st : List (Option ℝ) × List BasisFun) => do
    let f ← makeBasisFun gen L np ifun s.exps st.1
    .ok (f.1, st.2 ++ [f.2])
  .ok (⟨s.exps, r.1, s.text⟩, r.2)

/-- `read_basis_set`, basis.c:88-163. `none` is `NULL`. -/
noncomputable def readBasisSet (gen : Nat → List Comp) (io : DecimalIO) (text : List Char) (z : Int) : Outcome (Option (List BasisFun)) := do
  match ← findBasisEntry z text with
  | none => .ok none
  | some (n, t) =>
    let r ← forRange n.toNat (⟨List.replicate maxExponents none, List.replicate (maxExponents * maxExponents) none, t⟩, [])
      fun iblock (st : BasisBuf × List BasisFun) => do
        let b ← readBasisBlock gen io iblock st.1
        .ok (b.1, st.2 ++ b.2)
    .ok (some r.2)

/-- The basis sets of the elements in `main`, main.c:205-212; the array has 131 elements (`N_CHEM_ELEMENTS`). -/
noncomputable def mainBasisSets (gen : Nat → List Comp) (io : DecimalIO) (text : List Char) (atoms : List (Nat × Point)) :
    Outcome (List (Option (List BasisFun))) :=
  forRange atoms.length (List.replicate 131 none) fun ia sets => do
    let a ← rd atoms ia
    match ← rd sets a.1 with
    | some _ => .ok sets
    | none =>
      let s ← readBasisSet gen io text a.1
      wr sets a.1 s

/-- The number of shells, shell_list.c:19-25. A missing basis set is a null pointer. -/
def shellCount (atoms : List (Nat × Point)) (sets : List (Option (List BasisFun))) : Outcome Nat :=
  forRange atoms.length 0 fun ia num => do
    let a ← rd atoms ia
    match ← rd sets a.1 with
    | none => .ub
    | some bs => .ok (num + bs.length)

/-- `construct_shell_list`, shell_list.c:17-49; the array has `num` elements. -/
noncomputable def constructShellList (gen : Nat → List Comp) (atoms : List (Nat × Point)) (sets : List (Option (List BasisFun))) :
    Outcome (List Shell) := do
  let num ← shellCount atoms sets
  forRange atoms.length [] fun ia shells => do
    let a ← rd atoms ia
    match ← rd sets a.1 with
    | none => .ub
    | some bs => forRange bs.length shells fun i shells => do
      let f ← rd bs i
      let s ← newShell gen a.2 f.L f.num f.coeffs f.alpha
      Outcome.valid (shells.length < num)
      .ok (shells ++ [s])

/-- The list of shells in `main`, main.c:205-254 without the printing. -/
noncomputable def mainShells (gen : Nat → List Comp) (io : DecimalIO) (text : List Char) (atoms : List (Nat × Point)) : Outcome (List Shell) := do
  let sets ← mainBasisSets gen io text atoms
  constructShellList gen atoms sets

/-! ## Specification: the format of a file of basis sets -/

/-- White space, possibly empty. -/
def AllSpace (ws : List Char) : Prop := ∀ c ∈ ws, isSpaceC c = true

/-- White space, at least one character. -/
def Spaces (ws : List Char) : Prop := ws ≠ [] ∧ AllSpace ws

/-- A text without white space which denotes the number `x`. -/
def NumToken (io : DecimalIO) (tok : List Char) (x : ℝ) : Prop := tok ≠ [] ∧ (∀ c ∈ tok, isSpaceC c = false) ∧ io.scan tok = some (.fin x)

/-- Numbers, each preceded by white space. -/
inductive NumsText (io : DecimalIO) : List ℝ → List Char → Prop
  | nil : NumsText io [] []
  | cons {x : ℝ} {xs : List ℝ} {ws tok t : List Char} (hws : Spaces ws) (htok : NumToken io tok x) (h : NumsText io xs t) :
      NumsText io (x :: xs) (ws ++ (tok ++ t))

/-- The end of a line: a comment separated by white space, or nothing. -/
def LineEnd (t : List Char) : Prop := ∃ junk, t = junk ++ ['\n'] ∧ '\n' ∉ junk ∧ ∀ c, junk.head? = some c → isSpaceC c = true

/-- A line with an exponent and coefficients. -/
def RowText (io : DecimalIO) (e : ℝ) (cs : List ℝ) (t : List Char) : Prop :=
  ∃ ws tok t1 t2, t = ws ++ (tok ++ (t1 ++ t2)) ∧ AllSpace ws ∧ NumToken io tok e ∧ NumsText io cs t1 ∧ LineEnd t2

/-- The data of one block: exponents, and for each the coefficients of the `nc` contracted functions. -/
structure BasisBlock where
  nc : Nat
  rows : List (ℝ × List ℝ)

/-- The exponents of a block. -/
def BasisBlock.exps (b : BasisBlock) : List ℝ := b.rows.map Prod.fst

/-- The coefficients of contracted function `k`. -/
noncomputable def BasisBlock.col (b : BasisBlock) (k : Nat) : List ℝ := b.rows.map fun r => r.2.getD k 0

/-- The lines of a block. -/
inductive RowsText (io : DecimalIO) (nc : Nat) : List (ℝ × List ℝ) → List Char → Prop
  | nil : RowsText io nc [] []
  | cons {e : ℝ} {cs : List ℝ} {rows : List (ℝ × List ℝ)} {t1 t2 : List Char} (hlen : cs.length = nc) (h1 : RowText io e cs t1)
      (h2 : RowsText io nc rows t2) : RowsText io nc ((e, cs) :: rows) (t1 ++ t2)

/-- The two numbers at the beginning of a block. -/
def HeaderText (np nc : Nat) (t : List Char) : Prop :=
  ∃ ws ws1 ws2, t = ws ++ (Nat.toDigits 10 np ++ (ws1 ++ (Nat.toDigits 10 nc ++ ws2))) ∧ AllSpace ws ∧ Spaces ws1 ∧ Spaces ws2

/-- A block. -/
def BlockText (io : DecimalIO) (b : BasisBlock) (t : List Char) : Prop :=
  ∃ t1 t2, t = t1 ++ t2 ∧ HeaderText b.rows.length b.nc t1 ∧ RowsText io b.nc b.rows t2

/-- Blocks, one after the other. -/
inductive BlocksText (io : DecimalIO) : List BasisBlock → List Char → Prop
  | nil : BlocksText io [] []
  | cons {b : BasisBlock} {bs : List BasisBlock} {t1 t2 : List Char} (h1 : BlockText io b t1) (h2 : BlocksText io bs t2) :
      BlocksText io (b :: bs) (t1 ++ t2)

/-- A text in which no entry for the element `z` begins: words other than the star, and stars followed by another charge. Every word ends with white
space. -/
inductive NoEntry (z : Nat) : List Char → Prop
  | nil : NoEntry z []
  | word {w ws t : List Char} (hne : w ≠ []) (hstar : w ≠ ['*']) (hlen : w.length < 256) (hw : ∀ c ∈ w, isSpaceC c = false) (hws : Spaces ws)
      (h : NoEntry z t) : NoEntry z (w ++ (ws ++ t))
  | star {z' n : Nat} {ws1 ws2 ws3 t : List Char} (hz : z' ≠ z) (hz' : z' ≤ intMax) (hn : n ≤ intMax) (h1 : Spaces ws1) (h2 : Spaces ws2) (h3 : Spaces ws3)
      (h : NoEntry z t) : NoEntry z ('*' :: (ws1 ++ (Nat.toDigits 10 z' ++ (ws2 ++ (Nat.toDigits 10 n ++ (ws3 ++ t))))))

/-- The beginning of a file up to the header of the first entry for the element `z`, which announces `n` blocks. -/
def EntryStart (z n : Nat) (t : List Char) : Prop :=
  ∃ ws0 pre ws1 ws2 ws3, t = ws0 ++ (pre ++ ('*' :: (ws1 ++ (Nat.toDigits 10 z ++ (ws2 ++ (Nat.toDigits 10 n ++ ws3)))))) ∧ AllSpace ws0 ∧ NoEntry z pre ∧
    Spaces ws1 ∧ Spaces ws2 ∧ Spaces ws3

/-- The file contains, as first entry for the element `z`, the blocks `bs`; anything may follow. -/
def HasEntry (io : DecimalIO) (z : Nat) (bs : List BasisBlock) (text : List Char) : Prop :=
  ∃ t1 t2 rest, text = t1 ++ (t2 ++ rest) ∧ EntryStart z bs.length t1 ∧ BlocksText io bs t2

/-- The contracted Gaussian function with the exponents `c` at the centre `O`. -/
noncomputable def cgto (O : Point) (c : Comp) (num : Nat) (coeffs alpha : List ℝ) (r : Point) : ℝ :=
  ∑ i ∈ Finset.range num, coeffs.getD i 0 * primFn (c.1 + c.2.1 + c.2.2) O c (alpha.getD i 0) r

/-- A block within the limits of the program and the library: at most 100 exponents, all positive, at most 100 functions, none of which vanishes. -/
structure BasisBlock.Ok (b : BasisBlock) (L : Nat) : Prop where
  np : b.rows.length ≤ 100
  nc : b.nc ≤ 100
  pos : ∀ r ∈ b.rows, 0 < r.1
  nonzero : ∀ k < b.nc, ∃ r, cgto ![0, 0, 0] (L, 0, 0) b.rows.length (b.col k) b.exps r ≠ 0

open Nat in
/-- The contracted function `f` of angular momentum `L` has the exponents given, and coefficients proportional to those given, by a positive factor with
which component x^n y^l z^m of a shell has the square norm (2n-1)!! (2l-1)!! (2m-1)!!. -/
def NormalisedFun (L : Nat) (alpha coeffs : List ℝ) (f : BasisFun) : Prop :=
  f.L = L ∧ f.num = alpha.length ∧ f.alpha = alpha ∧ (∃ N : ℝ, 0 < N ∧ f.coeffs = coeffs.map (· * N)) ∧
    ∀ (O : Point) (c : Comp), c.1 + c.2.1 + c.2.2 = L →
      ∫ r, cgto O c f.num f.coeffs f.alpha r ^ 2 = ((2 * c.1 - 1)‼ : ℕ) * ((2 * c.2.1 - 1)‼ : ℕ) * ((2 * c.2.2 - 1)‼ : ℕ)

/-- The functions announced by a list of blocks, the first of which has angular momentum `L`: in the order of blocks and columns. -/
noncomputable def blockFuns (L : Nat) : List BasisBlock → List (Nat × List ℝ × List ℝ)
  | [] => []
  | b :: bs => (List.range b.nc).map (fun k => (L, b.exps, b.col k)) ++ blockFuns (L + 1) bs

/-- The shells of a molecule: the functions of the basis set of each atom, at the position of the atom. -/
noncomputable def moleculeShells (gen : Nat → List Comp) (atoms : List (Nat × Point)) (basis : Nat → List BasisFun) : List Shell :=
  atoms.flatMap fun a => (basis a.1).map fun f =>
    { L := f.L, origin := a.2, cart_size := cartSize f.L, cartList := gen f.L, num := f.num, coeffs := f.coeffs, alpha := f.alpha }

end Libgrpp
