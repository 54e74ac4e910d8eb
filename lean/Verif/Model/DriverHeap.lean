import Verif.Model.Heap

/-! # Dynamic memory of the calculations of the test driver in C

The functions `calculate_write_*` (main.c) and `evaluate_*` (eval_integrals.c, eval_integrals_grad.c) on top of the model of the
dynamic memory of the library (Model/Heap). Simplifications: arrays with automatic storage (`buf_*[MAX_BUF]`) are one block
`stack` that is in use during the whole call; the blocks behind `FILE *` are left out, as is the printing; the loop over shell pairs of
`evaluate_grpp_integrals`, which OpenMP may run in parallel, is run in order; where several arrays of the same kind are
allocated together, they are allocated one after the other and released in reverse order. -/

namespace Libgrpp.Heap

/-- The data of a calculation (main.c:191-252): the list of shells, the molecule (the structure and its four arrays), the table
`grpps` with, for each atom, the pseudopotential of its element (`none`: NULL), and the automatic arrays. -/
structure Job where
  list : Nat
  shells : List Shell
  mol : List Nat
  table : Nat
  atoms : List (Option Grpp)
  stack : Nat

/-- The pointers of the objects of a pseudopotential that may be absent. -/
def grppPtrs (g : Option Grpp) : List Nat := g.toList.flatMap Grpp.ptrs

def Job.ptrs (j : Job) : List Nat :=
  j.list :: j.table :: j.stack :: (j.mol ++ j.shells.flatMap Shell.ptrs ++ j.atoms.flatMap grppPtrs)

/-- `k` arrays, used by `use` and released afterwards (e.g. main.c:370-391). -/
def withBlocks : Nat → List Nat → (List Nat → Act Unit) → Act Unit
  | 0, acc, use => use acc
  | k + 1, acc, use => do
    let p ← alloc
    withBlocks k (acc ++ [p]) use
    free p

/-- `k` times `alloc_gradients` and `dealloc_gradients` (eval_integrals_grad.c:677-699). -/
def withGradients : Nat → List Nat → (List Nat → Act Unit) → Act Unit
  | 0, acc, use => use acc
  | k + 1, acc, use => do
    let t ← allocGradients
    withGradients k (acc ++ t.ptrs) use
    deallocGradients t

/-- `k` arrays of `n` matrices (e.g. main.c:497-500 and 520-523). -/
def withTables (n : Nat) : Nat → List Nat → (List Nat → Act Unit) → Act Unit
  | 0, acc, use => use acc
  | k + 1, acc, use => do
    let t ← allocTable n
    withTables n k (acc ++ t.ptrs) use
    freeTable t n

/-- The two loops over shells (e.g. eval_integrals.c:223-248). -/
def pairsLoop (j : Job) (body : Shell → Shell → Act Unit) : Act Unit :=
  loop j.shells.length (fun i => do
    touch [j.list]
    entry j.shells i (fun A => loop j.shells.length (fun k => do
      touch [j.list]
      entry j.shells k (fun B => do
        touch (A.ptrs ++ B.ptrs)
        body A B))))

/-- The loop over atoms with a pseudopotential (e.g. eval_integrals.c:101-122). -/
def atomsLoop (j : Job) (body : Grpp → Act Unit) : Act Unit :=
  loop j.atoms.length (fun i => do
    touch (j.table :: j.mol)
    entry j.atoms i (fun o => match o with
      | none => pure ()
      | some g => body g))

/-! ## Integrals -/

/-- `evaluate_grpp_integrals_shell_pair` (eval_integrals.c:133-208), a copy of `libgrpp_full_grpp_integrals`. -/
def evalPair (A B : Shell) (g : Grpp) (m mx my mz : Nat) : Act Unit := fullGrpp A B g m mx my mz

/-- `evaluate_grpp_integrals` (eval_integrals.c:42-130). The array `shell_pairs` is not released; the model returns its address so
that it can be spoken of. -/
def evalGrpp (j : Job) (out : List Nat) : Act Nat := do
  touch out
  let offsets ← alloc
  loop j.shells.length (fun i => do
    touch [offsets, j.list]
    entry j.shells i (fun A => touch A.ptrs))
  let pairs ← alloc
  loop j.shells.length (fun _ => loop j.shells.length (fun _ => touch [pairs]))
  pairsLoop j (fun A B => do
    touch [pairs, offsets]
    atomsLoop j (fun g => do
      evalPair A B g j.stack j.stack j.stack j.stack
      touch (j.stack :: out)))
  free offsets
  pure pairs

/-- `calculate_write_grpp_integrals` (main.c:365-394). The result is the address of the array that `evaluate_grpp_integrals` left
behind; the function in C returns nothing. -/
def writeGrpp (j : Job) : Act Nat := do
  let m ← alloc
  let mx ← alloc
  let my ← alloc
  let mz ← alloc
  let q ← evalGrpp j [m, mx, my, mz]
  touch [m, mx, my, mz]
  free m
  free mx
  free my
  free mz
  pure q

/-- `calculate_write_overlap_integrals` (main.c:397-411) with `evaluate_overlap_integrals` (eval_integrals.c:214-252); the same use
of memory has `calculate_write_kinetic_energy_integrals` (main.c:414-428, eval_integrals.c:255-293). -/
def writeOverlap (j : Job) : Act Unit :=
  withBlocks 1 [] (fun out => do
    touch out
    pairsLoop j (fun A B => do
      overlap A B j.stack
      touch (j.stack :: out))
    touch out)

/-- `calculate_write_momentum_integrals` (main.c:431-451) with `evaluate_momentum_integrals` (eval_integrals.c:296-341). -/
def writeMomentum (j : Job) : Act Unit :=
  withBlocks 3 [] (fun out => do
    touch out
    pairsLoop j (fun A B => do
      momentum A B j.stack j.stack j.stack
      touch (j.stack :: out))
    touch out)

/-- `calculate_write_nuclear_attraction_integrals` (main.c:454-490) with `evaluate_nuclear_attraction_integrals`
(eval_integrals.c:344-406). -/
def writeNuclear (j : Job) (point : Bool) : Act Unit :=
  withBlocks 1 [] (fun out => do
    touch out
    pairsLoop j (fun A B => loop j.atoms.length (fun _ => do
      touch j.mol
      nuclearAttraction A B point j.stack
      touch (j.stack :: out)))
    touch out)

/-! ## Gradients -/

/-- `calculate_write_overlap_gradient` (main.c:493-526) with `evaluate_overlap_integrals_gradient` (eval_integrals_grad.c:593-649). -/
def writeOverlapGradient (j : Job) : Act Unit :=
  withTables (3 * j.atoms.length) 1 [] (fun out => do
    pairsLoop j (fun A B => withGradients 1 [] (fun gr => loop j.atoms.length (fun _ => do
      touch j.mol
      overlapGradient A B gr
      touch (gr ++ out))))
    touch out)

/-- The frame of the other gradients: `k` arrays of matrices, and for each pair of shells and each pair of atoms the term
(main.c:529-628, 631-670, 673-712, 715-795, 798-900; eval_integrals_grad.c:37-590). -/
def writeGradient (j : Job) (k : Nat) (term : Shell → Shell → Grpp → List Nat → Act Unit) : Act Unit :=
  withTables (3 * j.atoms.length) k [] (fun out => do
    pairsLoop j (fun A B => loop j.atoms.length (fun _ => do
      touch j.mol
      atomsLoop j (fun g => term A B g out)))
    touch out)

/-- eval_integrals_grad.c:84-151 -/
def fullTerm (A B : Shell) (g : Grpp) (out : List Nat) : Act Unit :=
  withGradients 4 [] (fun gr => do
    fullGradient A B g gr
    touch (gr ++ out))

/-- eval_integrals_grad.c:214-233 -/
def type1Term (A B : Shell) (g : Grpp) (out : List Nat) : Act Unit :=
  withGradients 1 [] (fun gr => do
    touch [g.self]
    type1Gradient A B g.uL gr
    touch (gr ++ out))

/-- eval_integrals_grad.c:296-318 -/
def type2Term (A B : Shell) (g : Grpp) (out : List Nat) : Act Unit :=
  loop g.arep.length (fun i => withGradients 1 [] (fun gr => do
    touch (g.self :: g.arrArep.toList)
    entry g.arep i (fun p => do
      type2Gradient A B p gr
      touch (gr ++ out))))

/-- eval_integrals_grad.c:379-438 -/
def spinOrbitTerm (A B : Shell) (g : Grpp) (out : List Nat) : Act Unit :=
  loop g.esop.length (fun i => do
    touch (g.self :: g.arrEsop.toList)
    entry g.esop i (fun p => do
      touch [p.self]
      withGradients 3 [] (fun gr => do
        spinOrbitGradient A B p gr
        touch (gr ++ out))))

/-- eval_integrals_grad.c:504-574 -/
def outerCoreTerm (A B : Shell) (g : Grpp) (out : List Nat) : Act Unit :=
  withGradients 4 [] (fun gr => do
    touch [g.self]
    outerCoreGradient A B g.cores.items gr
    touch (gr ++ out))

/-- All calculations except the pseudopotential integrals, each done or not (main.c:261-347). -/
def otherCalculations (j : Job) : Act Unit := do
  optionally (writeOverlap j)
  optionally (writeOverlap j)
  optionally (writeMomentum j)
  optionally (writeNuclear j true)
  optionally (writeNuclear j false)
  optionally (writeNuclear j false)
  optionally (writeNuclear j false)
  optionally (writeNuclear j false)
  optionally (writeNuclear j false)
  optionally (writeOverlapGradient j)
  optionally (writeGradient j 4 fullTerm)
  optionally (writeGradient j 1 type1Term)
  optionally (writeGradient j 1 type2Term)
  optionally (writeGradient j 3 spinOrbitTerm)
  optionally (writeGradient j 4 outerCoreTerm)

/-! ## The main program around the calculations -/

/-- A `molecule_t *` (molecule.h:15-21). -/
structure Mol where
  self : Nat
  charges : Nat
  x : Nat
  y : Nat
  z : Nat

def Mol.ptrs (m : Mol) : List Nat := [m.self, m.charges, m.x, m.y, m.z]

/-- `new_molecule` (molecule.c:15-33); `args` are the arrays it copies from. -/
def newMolecule (args : List Nat) : Act Mol := do
  let self ← alloc
  let charges ← alloc
  let x ← alloc
  let y ← alloc
  let z ← alloc
  touch (self :: charges :: x :: y :: z :: args)
  pure ⟨self, charges, x, y, z⟩

/-- `read_molecule` (molecule.c:46-101) for a file without mistakes. -/
def readMoleculeHeap : Act Mol := do
  let charges ← alloc
  let x ← alloc
  let y ← alloc
  let z ← alloc
  let n ← ask
  loop n (fun _ => touch [charges, x, y, z])
  let m ← newMolecule [charges, x, y, z]
  free charges
  free x
  free y
  free z
  pure m

/-- `delete_molecule` (molecule.c:36-43). -/
def deleteMolecule (m : Mol) : Act Unit := do
  touch [m.self]
  free m.charges
  free m.x
  free m.y
  free m.z
  free m.self

/-- A `basis_fun_t *`. -/
structure BasisFun where
  self : Nat
  coeffs : Nat
  alpha : Nat

def BasisFun.ptrs (f : BasisFun) : List Nat := [f.self, f.coeffs, f.alpha]

/-- `new_basis_function` (basis.c:21-35). -/
def newBasisFun : Act BasisFun := do
  let self ← alloc
  let coeffs ← alloc
  let alpha ← alloc
  touch [self, coeffs, alpha]
  pure ⟨self, coeffs, alpha⟩

/-- `delete_basis_function` (basis.c:38-43). -/
def deleteBasisFun (f : BasisFun) : Act Unit := do
  touch [f.self]
  free f.alpha
  free f.coeffs
  free f.self

/-- A `basis_set_t *`: the structure, the array of pointers and its capacity, and the functions. -/
structure BasisSetPtr where
  self : Nat
  list : Nat
  cap : Nat
  funs : List BasisFun

def BasisSetPtr.ptrs (b : BasisSetPtr) : List Nat := b.self :: b.list :: b.funs.flatMap BasisFun.ptrs

/-- `add_basis_function` (basis.c:75-85) of a new function. `realloc` releases the old array and allocates a new one; the new array
may have the address of the old one. -/
def addBasisFun (b : BasisSetPtr) : Act BasisSetPtr := do
  let f ← newBasisFun
  touch [b.self]
  if b.funs.length = b.cap then do
    free b.list
    let l ← alloc
    touch [b.self, l]
    pure ⟨b.self, l, 2 * b.cap, b.funs ++ [f]⟩
  else do
    touch [b.list]
    pure ⟨b.self, b.list, b.cap, b.funs ++ [f]⟩

/-- The functions of `read_basis_set` (basis.c:132-158). -/
def addBasisFuns : Nat → BasisSetPtr → Act BasisSetPtr
  | 0, b => pure b
  | n + 1, b => do
    let b ← addBasisFun b
    addBasisFuns n b

/-- `read_basis_set` (basis.c:88-163) with `new_basis_set` (basis.c:53-62) for a file that has the entry. -/
def readBasisSetHeap : Act BasisSetPtr := do
  let self ← alloc
  let list ← alloc
  touch [self]
  let n ← ask
  addBasisFuns n ⟨self, list, 1, []⟩

/-- `delete_basis_set` (basis.c:65-72). -/
def deleteBasisSet (b : BasisSetPtr) : Act Unit := do
  touch [b.self, b.list]
  loop b.funs.length (fun i => entry b.funs i deleteBasisFun)
  free b.list
  free b.self

/-- The basis sets of the elements of the molecule (main.c:202-209). -/
def readBasisSets : Nat → Act (List BasisSetPtr)
  | 0 => pure []
  | n + 1 => do
    let r ← readBasisSets n
    let b ← readBasisSetHeap
    pure (r ++ [b])

/-- The shells of `construct_shell_list` (shell_list.c:31-46); `args` are the blocks of the molecule and of the basis sets. -/
def newShells (args : List Nat) : Nat → Act (List Shell)
  | 0 => pure []
  | n + 1 => do
    let r ← newShells args n
    let L ← ask
    let s ← newShell args L
    pure (r ++ [s])

/-- `main` (main.c:186-361) after the command line, for input files without mistakes: `sets` is the number of elements, `grpp` tells
whether pseudopotential integrals are asked for. Not modelled here: the tables of `libgrpp_init` (C91) and the pseudopotentials, which
are taken as given (their constructors and destructors: C91). The result is the address of the block that is lost. -/
def mainHeap (sets : Nat) (grpp : Bool) (table stack : Nat) (atoms : List (Option Grpp)) : Act (Option Nat) := do
  let mol ← readMoleculeHeap
  let bs ← readBasisSets sets
  let n ← ask
  let list ← alloc
  let shells ← newShells (mol.ptrs ++ bs.flatMap BasisSetPtr.ptrs) n
  touch [list]
  let j : Job := ⟨list, shells, mol.ptrs, table, atoms, stack⟩
  if grpp then do
    let q ← writeGrpp j
    otherCalculations j
    deleteMolecule mol
    loop shells.length (fun i => entry shells i deleteShell)
    free list
    loop bs.length (fun i => entry bs i deleteBasisSet)
    pure (some q)
  else do
    otherCalculations j
    deleteMolecule mol
    loop shells.length (fun i => entry shells i deleteShell)
    free list
    loop bs.length (fun i => entry bs i deleteBasisSet)
    pure none

/-! ## Reading of pseudopotentials -/

/-- The outer-core potentials of one block (rpp.c:133-137). The arguments of the constructor are automatic arrays. -/
def newPots : Nat → Act (List Pot)
  | 0 => pure []
  | n + 1 => do
    let r ← newPots n
    let p ← newPot []
    pure (r ++ [p])

/-- The blocks of potentials (rpp.c:90-138): `ocs` are the numbers of outer-core potentials of the blocks that are still to come, `L` is the
number of the next block and `n` the number of all blocks. The result has the outer-core potentials in the order of
`buf_oc_potentials`. -/
def readPotBlocks (n : Nat) : Nat → Grpp → List Nat → Act (Grpp × List Pot)
  | _, g, [] => pure (g, [])
  | L, g, k :: r => do
    let g1 ← clientStep [] g (if L + 1 = n then .setLocal else .addArep)
    let g2 ← clientSteps [] g1 (if L = 0 then [] else [.addEsop])
    let ps ← newPots k
    let gq ← readPotBlocks n (L + 1) g2 r
    pure (gq.1, ps ++ gq.2)

/-- The last loop (rpp.c:141-143). A shell that was not read is an automatic variable without value. The result has the shells that
were not used. -/
def addOuter : Grpp → List Pot → List Shell → Act (Grpp × List Shell)
  | g, [], ss => pure (g, ss)
  | _, _ :: _, [] => fun _ _ => .ub
  | g, p :: ps, s :: ss => do
    let g ← addCore g (p, s)
    addOuter g ps ss

/-- `read_grpp` (rpp.c:17-148) for a file that has the entry: `shells` outer-core functions in all, and `ocs` outer-core potentials in each
block. The object, and the shells nobody has a pointer to afterwards. -/
def readGrppHeap (shells : Nat) (ocs : List Nat) : Act (Grpp × List Shell) := do
  let g ← newGrpp
  let ss ← newShells [] shells
  let gp ← readPotBlocks ocs.length 0 g ocs
  addOuter gp.1 gp.2 ss

/-- The pseudopotentials of the elements of the molecule (main.c:228-235): for each entry of the file that is read, the number of
outer-core functions and the numbers of outer-core potentials. -/
def readGrpps : List (Nat × List Nat) → Act (List (Grpp × List Shell))
  | [] => pure []
  | x :: r => do
    let g ← readGrppHeap x.1 x.2
    let l ← readGrpps r
    pure (g :: l)

/-- `main` with the pseudopotentials: `elems` tells for each atom which of the entries belongs to its element (`none`: no entry).
In the program the molecule and the basis sets are read before the pseudopotentials and some are deleted before them; here the
pseudopotentials are read first and deleted last. -/
def programHeap (specs : List (Nat × List Nat)) (elems : List (Option Nat)) (sets : Nat) (grpp : Bool) (table stack : Nat) :
    Act Unit := do
  let gs ← readGrpps specs
  let _ ← mainHeap sets grpp table stack (elems.map (fun o => o.bind (fun k => (gs[k]?).map Prod.fst)))
  deleteAll (fun g => deleteGrpp g.1) gs

end Libgrpp.Heap
