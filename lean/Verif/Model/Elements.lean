import Verif.Model.Shell

/-! # Model of `test_libgrpp_c/elements.c` and of `read_molecule` (`test_libgrpp_c/molecule.c`)

A character is its code as an `unsigned char` (0 to 255; ASCII). A C string is the list of its characters without the terminating zero. -/

namespace Libgrpp

/-- `element_t`, elements.h:14-18, without the field `z`, which equals the index in the table and is never read. -/
structure Element where
  letters : List Char
  mass : Nat

/-- The symbol as C characters. -/
def Element.sym (e : Element) : List Nat := e.letters.map Char.toNat

/-- `periodic_table`, elements.c:19-151. -/
def periodicTable : List Element :=
  [⟨['G', 'h'], 0⟩, ⟨['H'], 1⟩, ⟨['H', 'e'], 4⟩, ⟨['L', 'i'], 7⟩, ⟨['B', 'e'], 9⟩, ⟨['B'], 11⟩, ⟨['C'], 12⟩, ⟨['N'], 14⟩,
   ⟨['O'], 16⟩, ⟨['F'], 19⟩, ⟨['N', 'e'], 20⟩, ⟨['N', 'a'], 23⟩, ⟨['M', 'g'], 24⟩, ⟨['A', 'l'], 27⟩, ⟨['S', 'i'], 28⟩,
   ⟨['P'], 31⟩, ⟨['S'], 32⟩, ⟨['C', 'l'], 35⟩, ⟨['A', 'r'], 40⟩, ⟨['K'], 39⟩, ⟨['C', 'a'], 40⟩, ⟨['S', 'c'], 45⟩,
   ⟨['T', 'i'], 48⟩, ⟨['V'], 51⟩, ⟨['C', 'r'], 52⟩, ⟨['M', 'n'], 55⟩, ⟨['F', 'e'], 56⟩, ⟨['C', 'o'], 59⟩, ⟨['N', 'i'], 58⟩,
   ⟨['C', 'u'], 63⟩, ⟨['Z', 'n'], 64⟩, ⟨['G', 'a'], 69⟩, ⟨['G', 'e'], 74⟩, ⟨['A', 's'], 75⟩, ⟨['S', 'e'], 80⟩, ⟨['B', 'r'], 79⟩,
   ⟨['K', 'r'], 84⟩, ⟨['R', 'b'], 85⟩, ⟨['S', 'r'], 88⟩, ⟨['Y'], 89⟩, ⟨['Z', 'r'], 90⟩, ⟨['N', 'b'], 93⟩, ⟨['M', 'o'], 98⟩,
   ⟨['T', 'c'], 98⟩, ⟨['R', 'u'], 102⟩, ⟨['R', 'h'], 100⟩, ⟨['P', 'd'], 106⟩, ⟨['A', 'g'], 107⟩, ⟨['C', 'd'], 114⟩,
   ⟨['I', 'n'], 115⟩, ⟨['S', 'n'], 120⟩, ⟨['S', 'b'], 121⟩, ⟨['T', 'e'], 130⟩, ⟨['I'], 127⟩, ⟨['X', 'e'], 132⟩, ⟨['C', 's'], 133⟩,
   ⟨['B', 'a'], 138⟩, ⟨['L', 'a'], 139⟩, ⟨['C', 'e'], 140⟩, ⟨['P', 'r'], 141⟩, ⟨['N', 'd'], 142⟩, ⟨['P', 'm'], 145⟩,
   ⟨['S', 'm'], 152⟩, ⟨['E', 'u'], 153⟩, ⟨['G', 'd'], 158⟩, ⟨['T', 'b'], 159⟩, ⟨['D', 'y'], 164⟩, ⟨['H', 'o'], 165⟩,
   ⟨['E', 'r'], 166⟩, ⟨['T', 'm'], 169⟩, ⟨['Y', 'b'], 174⟩, ⟨['L', 'u'], 175⟩, ⟨['H', 'f'], 180⟩, ⟨['T', 'a'], 181⟩, ⟨['W'], 184⟩,
   ⟨['R', 'e'], 187⟩, ⟨['O', 's'], 192⟩, ⟨['I', 'r'], 193⟩, ⟨['P', 't'], 195⟩, ⟨['A', 'u'], 197⟩, ⟨['H', 'g'], 202⟩,
   ⟨['T', 'l'], 205⟩, ⟨['P', 'b'], 208⟩, ⟨['B', 'i'], 209⟩, ⟨['P', 'o'], 209⟩, ⟨['A', 't'], 210⟩, ⟨['R', 'n'], 222⟩,
   ⟨['F', 'r'], 223⟩, ⟨['R', 'a'], 226⟩, ⟨['A', 'c'], 227⟩, ⟨['T', 'h'], 232⟩, ⟨['P', 'a'], 231⟩, ⟨['U'], 238⟩, ⟨['N', 'p'], 237⟩,
   ⟨['P', 'u'], 244⟩, ⟨['A', 'm'], 243⟩, ⟨['C', 'm'], 247⟩, ⟨['B', 'k'], 247⟩, ⟨['C', 'f'], 251⟩, ⟨['E', 's'], 252⟩,
   ⟨['F', 'm'], 257⟩, ⟨['M', 'd'], 258⟩, ⟨['N', 'b'], 259⟩, ⟨['L', 'r'], 266⟩, ⟨['R', 'f'], 267⟩, ⟨['D', 'b'], 268⟩,
   ⟨['S', 'g'], 269⟩, ⟨['B', 'h'], 270⟩, ⟨['H', 's'], 277⟩, ⟨['M', 't'], 278⟩, ⟨['D', 's'], 281⟩, ⟨['R', 'g'], 282⟩,
   ⟨['C', 'n'], 285⟩, ⟨['N', 'h'], 286⟩, ⟨['F', 'l'], 289⟩, ⟨['M', 'c'], 290⟩, ⟨['L', 'v'], 293⟩, ⟨['T', 's'], 294⟩,
   ⟨['O', 'g'], 294⟩, ⟨['E', '1', '1', '9'], 119 + 184⟩, ⟨['E', '1', '2', '0'], 120 + 184⟩, ⟨['E', '1', '2', '1'], 121 + 184⟩,
   ⟨['E', '1', '2', '2'], 122 + 184⟩, ⟨['E', '1', '2', '3'], 123 + 184⟩, ⟨['E', '1', '2', '4'], 124 + 184⟩,
   ⟨['E', '1', '2', '5'], 125 + 184⟩, ⟨['E', '1', '2', '6'], 126 + 184⟩, ⟨['E', '1', '2', '7'], 127 + 184⟩,
   ⟨['E', '1', '2', '8'], 128 + 184⟩, ⟨['E', '1', '2', '9'], 129 + 184⟩, ⟨['E', '1', '3', '0'], 130 + 184⟩]

/-- `N_CHEM_ELEMENTS`, elements.h:11. -/
def nChemElements : Int := 131

/-- `MAX_ELEMENT_SYMBOL`, elements.h:12. -/
def maxElementSymbol : Nat := 8

/-- `strcpy`: the characters and a terminating zero. -/
def strcpyC (dst src : List Nat) : Outcome (List Nat) := do
  let dst ← forRange src.length dst fun i dst => do
    let c ← rd src i
    wr dst i c
  wr dst src.length 0

/-- `get_element_symbol`, elements.c:154-159. -/
def getElementSymbol (z : Int) (sym : List Nat) : Outcome (List Nat) := do
  Outcome.assert (0 ≤ z ∧ z ≤ nChemElements)
  let e ← rd periodicTable z.toNat
  strcpyC sym e.sym

/-- `toupper` in the C locale; the argument is a `char` (signed), the function is defined for 0 to 127 and for `EOF`. -/
def toupperC (c : Nat) : Outcome Nat := do
  Outcome.valid (c < 128 ∨ c = 255)
  .ok (if 97 ≤ c ∧ c ≤ 122 then c - 32 else c)

/-- `tolower`, likewise. -/
def tolowerC (c : Nat) : Outcome Nat := do
  Outcome.valid (c < 128 ∨ c = 255)
  .ok (if 65 ≤ c ∧ c ≤ 90 then c + 32 else c)

/-- The array `buf` of `get_element_nuc_charge`, elements.c:165-173. `strncpy` copies at most 8 characters and fills up with zeros. -/
def standardForm (sym : List Nat) : Outcome (List Nat) := do
  let buf := sym.take maxElementSymbol ++ List.replicate (maxElementSymbol - (sym.take maxElementSymbol).length) 0
  let buf ← wr buf (maxElementSymbol - 1) 0
  let c ← rd buf 0
  let u ← toupperC c
  let buf ← wr buf 0 u
  forRange (maxElementSymbol - 2) buf fun i buf => do
    let c ← rd buf (i + 1)
    let l ← tolowerC c
    wr buf (i + 1) l

/-- The string in an array: the characters before the first zero. -/
def cString (buf : List Nat) : List Nat := buf.takeWhile (· ≠ 0)

/-- `get_element_nuc_charge`, elements.c:162-182: the index of the first entry whose symbol equals the string, or -1. -/
def getElementNucCharge (sym : List Nat) : Outcome Int := do
  let buf ← standardForm sym
  .ok (match periodicTable.findIdx? (fun e => e.sym == cString buf) with
    | some i => (i : Int)
    | none => -1)

/-- `get_element_mass_number_abundant`, elements.c:185-188: no check of the index. -/
def massNumberAbundant (z : Int) : Outcome Nat := do
  Outcome.valid (0 ≤ z)
  let e ← rd periodicTable z.toNat
  .ok e.mass

/-- What `fscanf` of molecule.c:75 finds: the record of one atom, or something else (including the end of the file). -/
abbrev XyzRecord := Option (List Nat × (Fin 3 → ℝ))

/-- `read_molecule`, molecule.c:46-102, for a file that can be opened: `count` is the number on the first line if it is one. The
outcome is `none` for `NULL`, and otherwise the list of the charges with coordinates. Storing a symbol of 256 characters or more in
`buf` is undefined behaviour. Simplification: memory is always available. -/
noncomputable def readMolecule (count : Option Int) (records : List XyzRecord) : Outcome (Option (List (Int × (Fin 3 → ℝ)))) :=
  match count with
  | none => .ok none
  | some n => forRange n.toNat (some []) fun i st =>
    match st with
    | none => .ok none
    | some l =>
      match (records.getD i none) with
      | none => .ok none
      | some (s, r) => do
        Outcome.valid (s.length < 256)
        let z ← getElementNucCharge s
        .ok (if z = -1 then none else some (l ++ [(z, r)]))

end Libgrpp
