import Verif.Lemmas.Program
import Verif.Props.DriverNuclear
import Verif.Props.DriverTerms

/-! # C105: the whole driver program, from the command line and the input files to the output files and their comparison -/

open MeasureTheory

namespace Libgrpp

/-- The buffers of the program have the size `MAX_BUF`, and the iterations of the parallel loop are executed in some order. -/
structure ProgEnv.Ok {G : Type} (env : ProgEnv G) : Prop where
  init : env.lib.init = true
  order : DocumentedOrder env.lib.gen
  buf : env.buf.length = maxBuf
  mbuf : ∀ k, (env.mbuf k).length = maxBuf
  nbuf : env.nbuf.length = maxBuf
  grppBufs : ∀ i k, (env.grppBufs i k).length = maxBuf
  perm : ∀ n, (env.order n).Perm (List.range n)

/-- The three input files describe the molecule `atoms` with the basis sets `entries` and the pseudopotentials `pots`. -/
structure InputFiles (io : DecimalIO) (mol basis ecp : List Char) (atoms : List (Nat × Point)) (entries : Nat → List BasisBlock)
    (pots : Nat → Option (List BasisBlock × List PotBlock)) : Prop where
  mol : MoleculeFile io atoms mol
  basis : ∀ a ∈ atoms, HasEntry io a.1 (entries a.1) basis ∧ EntryOk (entries a.1)
  ecp : ∀ a ∈ atoms, GrppEntry io ecp a.1 (pots a.1)

/-- The text is what the program prints of a matrix, the element of which for the functions `f`, `g` is `op f g`. -/
def IsFileOf (io : DecimalIO) (shells : List Shell) (op : (Point → ℝ) → (Point → ℝ) → ℝ) (text : List Char) : Prop :=
  ∃ M : List ℝ, printLower io (basisFns shells).length (M.map Dbl.fin) = .ok text ∧ M.length = (basisFns shells).length * (basisFns shells).length ∧
    ∀ p q f g, (basisFns shells)[p]? = some f → (basisFns shells)[q]? = some g → M[p * (basisFns shells).length + q]? = some (op f g)

/-- The matrix elements of the momentum operator, imaginary parts. -/
noncomputable def momentumOp (k : Fin 3) (f g : Point → ℝ) : ℝ := (∫ r, (f r : ℂ) * (-Complex.I * (pderiv k g r : ℂ))).im

/-- The text is what the program prints of the matrix `V` of dimension `N`. -/
def HoldsMatrix (io : DecimalIO) (N : ℕ) (V : ℕ → ℕ → ℝ) (text : List Char) : Prop :=
  ∃ M : List ℝ, printLower io N (M.map Dbl.fin) = .ok text ∧ M.length = N * N ∧ ∀ p q, p < N → q < N → M[p * N + q]? = some (V p q)

/-- The files of gradients: for each of `natoms` atoms, counted from 0, and each of `parts`, a label and matrices for all atoms and coordinates, three files
with the matrices of the three coordinates. -/
def GradFiles (io : DecimalIO) (shells : List Shell) (natoms : ℕ) (parts : List (String × (ℕ → Fin 3 → ℕ → ℕ → ℝ))) (fs : List OutFile) : Prop :=
  ∃ t : String → ℕ → Fin 3 → List Char,
    fs = (List.range natoms).flatMap (fun a => parts.flatMap fun l =>
      [("libgrpp_c_" ++ l.1 ++ "_grad_" ++ toString a ++ "x.txt", t l.1 a 0), ("libgrpp_c_" ++ l.1 ++ "_grad_" ++ toString a ++ "y.txt", t l.1 a 1),
        ("libgrpp_c_" ++ l.1 ++ "_grad_" ++ toString a ++ "z.txt", t l.1 a 2)]) ∧
    ∀ l ∈ parts, ∀ a < natoms, ∀ k, HoldsMatrix io (basisComps shells).length (l.2 a k) (t l.1 a k)

/-- The file of a nuclear-attraction calculation with the model `model`, as in `molecular_nuclear_numeric` (C100): the sum over all atoms of the matrix
elements of the potential of the nucleus, each up to the error of C75. -/
def NumericFile {G : Type} (env : ProgEnv G) (shells : List Shell) (atoms : List (Nat × Point)) (model : Int) (name : String) (fs : List OutFile) : Prop :=
  ∃ (t : List Char) (W U T : Shell → Shell → Nat × Point → ℕ → ℕ → ℕ → ℕ → ℕ → ℕ → ℝ) (Vc : Nat × Point → ℝ → ℝ) (V : ℕ → ℕ → ℝ),
    fs = [(name, t)] ∧ HoldsMatrix env.io (basisComps shells).length V t ∧
    (∀ A ∈ shells, ∀ B ∈ shells, ∀ a ∈ atoms, ∀ m n, m < A.cart_size → n < B.cart_size →
      pairScreened A B a.2 (nucleusEnergy model a.1) m n = ∑ i ∈ Finset.range A.num, ∑ j ∈ Finset.range B.num,
        ∑ lam ∈ Finset.range (A.L + B.L + 1), ∑ N ∈ Finset.range (A.L + B.L + 1),
          W A B a i j m n lam N * radialExact (nucleusEnergy model a.1) A B a.2 (A.alphaAt i) (B.alphaAt j) lam N) ∧
    (∀ a ∈ atoms, ∀ r, 0 < r → |Vc a r - nucleusEnergy model a.1 r| ≤
      if model = modelFermi then 1.1e-9 * (a.1 : ℝ) * (1 / nucleusHalf a.1 + 1 / r) else 0) ∧
    ∀ p q A B m n, (basisComps shells)[p]? = some (A, m) → (basisComps shells)[q]? = some (B, n) →
      |V p q - (atoms.map fun a => pairScreened A B a.2 (nucleusEnergy model a.1) m n).sum| ≤
        (atoms.map fun a => nucErr A B (U A B a) (T A B a)
          (fun i j lam N => radialCode env.lib.prm.radial env.lib.bt (Vc a) A B a.2 (A.alphaAt i) (B.alphaAt j) lam N)
          (fun i j lam N => radialExact (nucleusEnergy model a.1) A B a.2 (A.alphaAt i) (B.alphaAt j) lam N) m n).sum

/-- What the files of the calculations have to contain. For the pseudopotential the elements `V` of the matrices are those of C98, within the sum of the
bounds of C86 of the sum of the matrix elements of all pseudopotentials of the molecule; for nuclear attraction those of C100; for gradients those of
C101 and C106. -/
def FilesOk {G : Type} (env : ProgEnv G) (shells : List Shell) (atoms : List (Nat × Point)) (grpps : List (Option GrppData)) :
    Calc → List OutFile → Prop
  | .overlap, fs => ∃ t, fs = [("libgrpp_c_overlap.txt", t)] ∧ IsFileOf env.io shells (fun f g => ∫ r, f r * g r) t
  | .kinetic, fs => ∃ t, fs = [("libgrpp_c_kinetic_energy.txt", t)] ∧ IsFileOf env.io shells (fun f g => ∫ r, f r * (-(1 / 2) * laplacian g r)) t
  | .momentum, fs => ∃ t : Fin 3 → List Char, fs = [("libgrpp_c_momentum_x.txt", t 0), ("libgrpp_c_momentum_y.txt", t 1), ("libgrpp_c_momentum_z.txt", t 2)] ∧
      ∀ k, IsFileOf env.io shells (momentumOp k) (t k)
  | .grpp, fs => ∃ (t : Fin 4 → List Char) (M : Fin 4 → List ℝ) (Q : Shell → Shell → GrppData × Point → Potential → ℕ → ℕ → ℕ → ℝ),
      fs = [("libgrpp_c_arep.txt", t 0), ("libgrpp_c_so_x.txt", t 1), ("libgrpp_c_so_y.txt", t 2), ("libgrpp_c_so_z.txt", t 3)] ∧
      (∀ A ∈ shells, ∀ B ∈ shells, ∀ o ∈ moleculeGrpps atoms grpps, ∀ u ∈ o.1.arep ++ o.1.esop, RadialTable env.lib A B o.2 u (Q A B o u)) ∧
      ∀ k, printLower env.io (basisComps shells).length ((M k).map Dbl.fin) = .ok (t k) ∧
        (M k).length = (basisComps shells).length * (basisComps shells).length ∧
        ∀ (p q : ℕ) (A B : Shell) (m n : ℕ), (basisComps shells)[p]? = some (A, m) → (basisComps shells)[q]? = some (B, n) →
          ∃ v, (M k)[p * (basisComps shells).length + q]? = some v ∧
            |v - ((moleculeGrpps atoms grpps).map fun o => grppElement A B o.2 o.1 k m n).sum| ≤
              ((moleculeGrpps atoms grpps).map fun o => grppErr A B o.2 o.1 (Q A B o) k m n).sum
  | .point, fs => ∃ (t : List Char) (W : Shell → Shell → Nat × Point → ℕ → ℕ → ℕ → ℕ → ℕ → ℝ) (V : ℕ → ℕ → ℝ),
      fs = [("libgrpp_c_nucattr_point.txt", t)] ∧ HoldsMatrix env.io (basisComps shells).length V t ∧
      (∀ A ∈ shells, ∀ B ∈ shells, ∀ a ∈ atoms, ∀ m n, m < A.cart_size → n < B.cart_size →
        pairScreened A B a.2 (fun r => -(a.1 : ℝ) / r) m n =
          -(a.1 : ℝ) * ∑ i ∈ Finset.range A.num, ∑ j ∈ Finset.range B.num, ∑ k ∈ Finset.range (A.L + B.L + 1),
            W A B a i j m n k * boysF k (pairArg A B a.2 0 i j)) ∧
      ∀ p q A B m n, (basisComps shells)[p]? = some (A, m) → (basisComps shells)[q]? = some (B, n) →
        |V p q - (atoms.map fun a => pairScreened A B a.2 (fun r => -(a.1 : ℝ) / r) m n).sum| ≤
          (atoms.map fun a => 1.7e-14 * (a.1 : ℝ) * ∑ i ∈ Finset.range A.num, ∑ j ∈ Finset.range B.num, ∑ k ∈ Finset.range (A.L + B.L + 1),
            |W A B a i j m n k|).sum
  | .pointNum, fs => NumericFile env shells atoms modelPointNumerical "libgrpp_c_nucattr_point_numerical.txt" fs
  | .ball, fs => NumericFile env shells atoms modelBall "libgrpp_c_nucattr_charged_ball.txt" fs
  | .gauss, fs => NumericFile env shells atoms modelGaussian "libgrpp_c_nucattr_gaussian.txt" fs
  | .fermi, fs => NumericFile env shells atoms modelFermi "libgrpp_c_nucattr_fermi.txt" fs
  | .fermiBubble, _ => False
  | .overlapGrad, fs => ∃ V : ℕ → Fin 3 → ℕ → ℕ → ℝ, GradFiles env.io shells atoms.length [("overlap", V)] fs ∧
      (∀ a c D, atoms[a]? = some (c, D) → ∀ k p q A m B n, (basisComps shells)[p]? = some (A, m) → (basisComps shells)[q]? = some (B, n) →
        HasDerivAt (fun t => ∫ r, basisFn (moveAtom D k t A) m r * basisFn (moveAtom D k t B) n r) (V a k p q) 0) ∧
      ((atoms.map Prod.snd).Nodup → ∀ k p q, p < (basisComps shells).length → q < (basisComps shells).length →
        ∑ a ∈ Finset.range atoms.length, V a k p q = 0)
  | .grppGrad, fs => ∃ V, IsGradient env.lib shells atoms (moleculeGrpps atoms grpps) V ∧
      GradFiles env.io shells atoms.length [("arep", V 0), ("so_x", V 1), ("so_y", V 2), ("so_z", V 3)] fs
  | .gradType1, fs => ∃ V, IsGradient env.lib shells atoms (moleculeParts localPart atoms grpps) V ∧
      GradFiles env.io shells atoms.length [("arep_type1", V 0)] fs
  | .gradType2, fs => ∃ V, IsGradient env.lib shells atoms (moleculeParts arepParts atoms grpps) V ∧
      GradFiles env.io shells atoms.length [("arep_type2", V 0)] fs
  | .gradSpinOrbit, fs => ∃ V, IsGradient env.lib shells atoms (moleculeParts esopParts atoms grpps) V ∧
      GradFiles env.io shells atoms.length [("so_x_so", V 1), ("so_y_so", V 2), ("so_z_so", V 3)] fs
  | .gradOutercore, fs => ∃ V, IsGradient env.lib shells atoms (moleculeParts ocPart atoms grpps) V ∧
      GradFiles env.io shells atoms.length [("arep_ocpot", V 0), ("so_x_ocpot", V 1), ("so_y_ocpot", V 2), ("so_z_ocpot", V 3)] fs

/-- The out-of-bounds reads of a gradient calculation return some value, or none occur. -/
def JunkOk {G : Type} (env : ProgEnv G) (shells : List Shell) (c : Calc) : Prop :=
  (∀ io jo ia ir ip, env.junk c io jo ia ir ip ≠ none) ∨ ∀ s ∈ shells, s.L = 0

/-- The conditions of C98 and C101 on the tables and special functions of the library. -/
def TablesOk {G : Type} (env : ProgEnv G) : Prop := BesselOk env.lib.bt ∧ ∃ eps, LibSpec eps env.sf

/-- The conditions of C100 on numerical models. -/
def NumericOk {G : Type} (env : ProgEnv G) (shells : List Shell) (atoms : List (Nat × Point)) : Prop :=
  env.sk = fermiSk skLiteral ∧ (∀ A ∈ shells, ∀ B ∈ shells, A.L + B.L ≤ 14) ∧
    ∀ A ∈ shells, ∀ B ∈ shells, ∀ a ∈ atoms, ∀ i < A.num, ∀ j < B.num, VecOk (kVec A B a.2 (A.alphaAt i) (B.alphaAt j))

/-- The preconditions of the calculations, in addition to those on the input files. -/
def CalcOk {G : Type} (env : ProgEnv G) (shells : List Shell) (atoms : List (Nat × Point)) (grpps : List (Option GrppData)) : Calc → Prop
  | .overlap => True
  | .kinetic => True
  | .momentum => True
  | .grpp => TablesOk env ∧ DriverInput env.lib.gen shells atoms grpps
  | .point => env.sf.boys = boysLiteral ∧ ∀ A ∈ shells, ∀ B ∈ shells, ∀ a ∈ atoms, InRange A B a.2 1 0
  | .pointNum => NumericOk env shells atoms
  | .ball => NumericOk env shells atoms
  | .gauss => NumericOk env shells atoms
  | .fermi => NumericOk env shells atoms ∧ ∀ a ∈ atoms, 3 ≤ a.1
  | .fermiBubble => False
  | .overlapGrad => (∀ s ∈ shells, s.L ≤ 8) ∧ AtomsOk shells atoms ∧ JunkOk env shells .overlapGrad
  | c => TablesOk env ∧ GradDriverInput env.lib.gen shells atoms grpps ∧ JunkOk env shells c

/-- A shell with `L > 0` on an atom other than that of a pseudopotential with property `P`, and out-of-bounds reads that are undefined. -/
def FarPotential {G : Type} (env : ProgEnv G) (shells : List Shell) (atoms : List (Nat × Point)) (grpps : List (Option GrppData)) (P : GrppData → Prop)
    (c : Calc) : Prop :=
  TablesOk env ∧ GradDriverInput env.lib.gen shells atoms grpps ∧ (∀ io jo ia ir ip, env.junk c io jo ia ir ip = none) ∧
    ∃ A ∈ shells, 0 < A.L ∧ ∃ o ∈ moleculeGrpps atoms grpps, A.origin ≠ o.2 ∧ P o.1

/-- Cases in which the calculations have no defined result: the Fermi model with ghost atoms, hydrogen or helium; the bubble model; gradients with shells of
`L > 0` on different atoms. -/
def CalcUndefined {G : Type} (env : ProgEnv G) (shells : List Shell) (atoms : List (Nat × Point)) (grpps : List (Option GrppData)) : Calc → Prop
  | .fermi => env.sk = fermiSk skLiteral ∧ (∃ A S, shells = A :: S ∧ A.L ≤ 7) ∧ ∃ a ∈ atoms, a.1 ≤ 2
  | .fermiBubble => (∃ A S, shells = A :: S ∧ 0 < A.num ∧ 1e-13 ≤ |A.coeffs.getD 0 0 * A.coeffs.getD 0 0|) ∧ atoms ≠ []
  | .overlapGrad => (∀ s ∈ shells, s.L ≤ 8) ∧ AtomsOk shells atoms ∧ (∀ io jo ia ir ip, env.junk .overlapGrad io jo ia ir ip = none) ∧
      ∃ A ∈ shells, ∃ B ∈ shells, 0 < A.L ∧ A.origin ≠ B.origin
  | .grppGrad => FarPotential env shells atoms grpps (fun _ => True) .grppGrad
  | .gradType1 => FarPotential env shells atoms grpps (fun _ => True) .gradType1
  | .gradType2 => FarPotential env shells atoms grpps (fun g => g.arep ≠ []) .gradType2
  | .gradSpinOrbit => FarPotential env shells atoms grpps (fun g => g.esop ≠ []) .gradSpinOrbit
  | .gradOutercore => FarPotential env shells atoms grpps (fun _ => True) .gradOutercore
  | _ => False

theorem gradFiles_of {io : DecimalIO} {shells : List Shell} {natoms : ℕ} (hd : dimOf shells ≤ 46340) (parts : List (String × (ℕ → Fin 3 → ℕ → ℕ → ℝ)))
    (R : String → List (List ℝ)) (h : ∀ l ∈ parts, GradsIncreased natoms (basisComps shells).length l.2
      (List.replicate (3 * natoms) (List.replicate (dimOf shells * dimOf shells) 0)) (R l.1)) :
    ∃ fs, writeGrads io natoms (dimOf shells) (parts.map fun l => (l.1, R l.1)) = .ok fs ∧ GradFiles io shells natoms parts fs := by
  have hel : ∀ l ∈ parts, ∀ a < natoms, ∀ k : Fin 3, ∃ M', (R l.1)[3 * a + (k : ℕ)]? = some M' ∧ M'.length = dimOf shells * dimOf shells ∧
      ∀ p q, p < dimOf shells → q < dimOf shells → M'[p * dimOf shells + q]? = some (l.2 a k p q) := by
    intro l hl a ha k
    obtain ⟨M, M', e, e', sb, v⟩ := (h l hl).elem a ha k
    rw [List.getElem?_replicate, if_pos (by omega), Option.some.injEq] at e
    subst e
    refine ⟨M', e', by rw [sb.1, List.length_replicate], fun p q hp hq => ?_⟩
    rw [basisComps_length] at v
    obtain ⟨x, h1, h2⟩ := v p q hp hq
    rw [List.getElem?_replicate, if_pos (row_lt hp hq), Option.some.injEq] at h1
    rw [h2, ← h1, zero_add]
  have hall : ∀ g ∈ parts.map fun l => (l.1, R l.1), 3 * natoms ≤ g.2.length ∧ ∀ m ∈ g.2, dimOf shells * dimOf shells ≤ m.length := by
    intro g hg
    obtain ⟨l, hl, rfl⟩ := List.mem_map.1 hg
    have hlen := (h l hl).len
    rw [List.length_replicate] at hlen
    refine ⟨hlen.ge, fun m hm => ?_⟩
    obtain ⟨i, hi, rfl⟩ := List.getElem_of_mem hm
    simp only at hi
    obtain ⟨M', e, e2, -⟩ := hel l hl (i / 3) (by omega) ⟨i % 3, Nat.mod_lt _ (by norm_num)⟩
    simp only [Nat.div_add_mod] at e
    rw [List.getElem?_eq_getElem hi, Option.some.injEq] at e
    simp only [e, e2, le_refl]
  refine ⟨_, writeGrads_ok io natoms (dimOf shells) _ hd hall, fun s a k => matrixText io (dimOf shells) ((R s).getD (3 * a + k) []), ?_, ?_⟩
  · simp only [List.flatMap_map]
    rfl
  · intro l hl a ha k
    obtain ⟨M', e, e2, e3⟩ := hel l hl a ha k
    beta_reduce
    rw [basisComps_length, getD_of_some e]
    exact ⟨M', (matrixText_ok io "" _ _ hd e2.ge).1, e2, e3⟩

theorem isMatrixOf_file {io : DecimalIO} {shells : List Shell} {op : (Point → ℝ) → (Point → ℝ) → ℝ} {M M' : List ℝ} {text : List Char}
    (h : IsMatrixOf shells op M M') (hM : M.length = dimOf shells * dimOf shells) (ht : printLower io (dimOf shells) (M'.map Dbl.fin) = .ok text) :
    IsFileOf io shells op text := by
  rw [← basisFns_length] at hM ht
  exact ⟨M', ht, by rw [h.1, hM], h.2.1⟩

theorem zero_arrays (shells : List Shell) (atoms : List (Nat × Point)) : GradArrays atoms.length (basisComps shells).length
    (List.replicate (3 * atoms.length) (List.replicate (dimOf shells * dimOf shells) 0)) := by
  refine ⟨by rw [List.length_replicate], fun m hm => ?_⟩
  rw [List.eq_of_mem_replicate hm, basisComps_length, List.length_replicate]

/-- The file of one matrix. -/
theorem fills_file {io : DecimalIO} {shells : List Shell} {run : List ℝ → List ℝ → Outcome (List ℝ)} {V : ℕ → ℕ → ℝ} (h : FillsMatrix shells run V)
    (hd : dimOf shells ≤ 46340) (buf : List ℝ) (hb : buf.length = maxBuf) (name : String) :
    ∃ M t, run buf (List.replicate (dimOf shells * dimOf shells) 0) = .ok M ∧ writeMatrix io name (dimOf shells) M = .ok (name, t) ∧
      HoldsMatrix io (basisComps shells).length V t := by
  obtain ⟨M, e, h1, h2⟩ := h buf (List.replicate (dimOf shells * dimOf shells) 0) hb.ge (by rw [basisComps_length, List.length_replicate])
  have hl : M.length = dimOf shells * dimOf shells := by rw [h1.1, List.length_replicate]
  obtain ⟨t, h3, h4⟩ := writeMatrix_ok io name (dimOf shells) M hd hl.ge
  refine ⟨M, t, e, h4, M, ?_, ?_, h2⟩
  · rw [basisComps_length]; exact h3
  · rw [basisComps_length]; exact hl

theorem numeric_file {G : Type} (env : ProgEnv G) (he : env.Ok) (shells : List Shell) (hs : ∀ s ∈ shells, s.InMolecule env.lib.gen)
    (hd : dimOf shells ≤ 46340) (atoms : List (Nat × Point)) (hz : ∀ a ∈ atoms, a.1 ≤ 130) (model : Int) (hm : DriverModel model atoms)
    (hok : NumericOk env shells atoms) (name : String) (hname : nuclearFile model = some name) :
    ∃ fs, writeNuclear env model shells atoms = .ok fs ∧ NumericFile env shells atoms model name fs := by
  have hsq : dimOf shells * dimOf shells ≤ 2147483648 := le_trans (Nat.mul_le_mul hd hd) (by norm_num)
  obtain ⟨W, U, T, Vc, V, h1, h2, h3, h4⟩ := molecular_nuclear_numeric env.nuc he.init hok.1 he.order shells atoms
    ⟨hs, hz, by rw [basisComps_length]; exact hsq⟩ model hm hok.2.1 hok.2.2
  obtain ⟨M, t, e1, e2, e3⟩ := fills_file (io := env.io) h4 hd env.nbuf he.nbuf name
  refine ⟨_, ?_, t, W, U, T, Vc, V, rfl, e3, h1, h2, h3⟩
  unfold writeNuclear
  rw [basisDim_eq, Outcome.ok_bind, newMatrix_ok hd, Outcome.ok_bind, e1, Outcome.ok_bind, hname]
  simp only
  rw [e2, Outcome.ok_bind]

/-- The files of every calculation the program is asked for are those they have to be. -/
theorem runCalc_files {G : Type} (env : ProgEnv G) (he : env.Ok) (shells : List Shell) (hs : ∀ s ∈ shells, s.InMolecule env.lib.gen)
    (hd : dimOf shells ≤ 46340) (atoms : List (Nat × Point)) (hz : ∀ a ∈ atoms, a.1 ≤ 130) (grpps : List (Option GrppData)) (c : Calc)
    (hc : CalcOk env shells atoms grpps c) :
    ∃ fs, runCalc env shells atoms grpps c = .ok fs ∧ FilesOk env shells atoms grpps c fs := by
  have hsq : dimOf shells * dimOf shells ≤ 2147483648 := le_trans (Nat.mul_le_mul hd hd) (by norm_num)
  have hlen : (List.replicate (dimOf shells * dimOf shells) (0 : ℝ)).length = dimOf shells * dimOf shells := List.length_replicate
  have hsq' := hsq
  have hlen' := hlen.ge
  rw [← basisFns_length shells] at hsq'
  conv at hlen' => lhs; rw [← basisFns_length shells]
  cases c
  case grpp =>
    obtain ⟨⟨h1, eps, h2⟩, h3⟩ := hc
    obtain ⟨Q, V, hQ, hV, hr⟩ := molecular_grpp env.lib he.init h1 he.order h2 shells atoms grpps h3
    obtain ⟨M', e, r⟩ := hr env.order env.grppBufs (fun _ => List.replicate (dimOf shells * dimOf shells) 0) he.perm (fun i k => (he.grppBufs i k).ge)
      (fun k => by rw [basisComps_length]; exact hlen.ge)
    have hl : ∀ k, (M' k).length = dimOf shells * dimOf shells := fun k => by rw [(r k).1.1, hlen]
    have hw : ∀ k name, ∃ t, printLower env.io (dimOf shells) ((M' k).map Dbl.fin) = .ok t ∧ writeMatrix env.io name (dimOf shells) (M' k) = .ok (name, t) :=
      fun k name => writeMatrix_ok env.io name (dimOf shells) (M' k) hd (hl k).ge
    obtain ⟨t0, a0, b0⟩ := hw 0 "libgrpp_c_arep.txt"
    obtain ⟨t1, a1, b1⟩ := hw 1 "libgrpp_c_so_x.txt"
    obtain ⟨t2, a2, b2⟩ := hw 2 "libgrpp_c_so_y.txt"
    obtain ⟨t3, a3, b3⟩ := hw 3 "libgrpp_c_so_z.txt"
    refine ⟨_, ?_, ![t0, t1, t2, t3], M', Q, rfl, hQ, fun k => ⟨?_, by rw [hl, basisComps_length], fun p q A B m n hp hq => ?_⟩⟩
    · simp only [runCalc, writeGrpp]
      rw [basisDim_eq, Outcome.ok_bind, newMatrix_ok hd, Outcome.ok_bind, e, Outcome.ok_bind, b0, Outcome.ok_bind, b1, Outcome.ok_bind, b2, Outcome.ok_bind,
        b3, Outcome.ok_bind]
      rfl
    · rw [basisComps_length]
      fin_cases k
      exacts [a0, a1, a2, a3]
    · exact ⟨_, (r k).2 p q (List.getElem?_eq_some_iff.1 hp).1 (List.getElem?_eq_some_iff.1 hq).1, hV k p q A B m n hp hq⟩
  case overlap =>
    obtain ⟨M', e, r⟩ := molecular_overlap he.order shells hs hsq' env.buf (List.replicate (dimOf shells * dimOf shells) 0) he.buf.ge hlen'
    obtain ⟨t, a, b⟩ := writeMatrix_ok env.io "libgrpp_c_overlap.txt" (dimOf shells) M' hd (by rw [r.1, hlen])
    refine ⟨_, ?_, t, rfl, isMatrixOf_file r hlen a⟩
    simp only [runCalc, writeOverlap]
    rw [basisDim_eq, Outcome.ok_bind, newMatrix_ok hd, Outcome.ok_bind, e, Outcome.ok_bind, b, Outcome.ok_bind]
  case kinetic =>
    obtain ⟨M', e, r⟩ := molecular_kinetic he.order shells hs hsq' env.buf (List.replicate (dimOf shells * dimOf shells) 0) he.buf.ge hlen'
    obtain ⟨t, a, b⟩ := writeMatrix_ok env.io "libgrpp_c_kinetic_energy.txt" (dimOf shells) M' hd (by rw [r.1, hlen])
    refine ⟨_, ?_, t, rfl, isMatrixOf_file r hlen a⟩
    simp only [runCalc, writeKinetic]
    rw [basisDim_eq, Outcome.ok_bind, newMatrix_ok hd, Outcome.ok_bind, e, Outcome.ok_bind, b, Outcome.ok_bind]
  case momentum =>
    obtain ⟨M', e, r⟩ := molecular_momentum he.order shells hs hsq' env.mbuf (fun _ => List.replicate (dimOf shells * dimOf shells) 0)
      (fun k => (he.mbuf k).ge) (fun _ => hlen')
    have hw : ∀ k name, ∃ t, printLower env.io (dimOf shells) ((M' k).map Dbl.fin) = .ok t ∧ writeMatrix env.io name (dimOf shells) (M' k) = .ok (name, t) :=
      fun k name => writeMatrix_ok env.io name (dimOf shells) (M' k) hd (by rw [(r k).1, hlen])
    obtain ⟨t0, a0, b0⟩ := hw 0 "libgrpp_c_momentum_x.txt"
    obtain ⟨t1, a1, b1⟩ := hw 1 "libgrpp_c_momentum_y.txt"
    obtain ⟨t2, a2, b2⟩ := hw 2 "libgrpp_c_momentum_z.txt"
    refine ⟨_, ?_, ![t0, t1, t2], rfl, fun k => ?_⟩
    · simp only [runCalc, writeMomentum]
      rw [basisDim_eq, Outcome.ok_bind, newMatrix_ok hd, Outcome.ok_bind, e, Outcome.ok_bind, b0, Outcome.ok_bind, b1, Outcome.ok_bind, b2, Outcome.ok_bind]
      rfl
    · refine isMatrixOf_file (r k) hlen ?_
      fin_cases k
      exacts [a0, a1, a2]
  case point =>
    obtain ⟨W, V, h1, h2, h3⟩ := molecular_nuclear_point env.nuc he.init hc.1 he.order shells atoms ⟨hs, hz, by rw [basisComps_length]; exact hsq⟩ hc.2
    obtain ⟨M, t, e1, e2, e3⟩ := fills_file (io := env.io) h3 hd env.nbuf he.nbuf "libgrpp_c_nucattr_point.txt"
    refine ⟨_, ?_, t, W, V, rfl, e3, h1, h2⟩
    simp only [runCalc, writeNuclear]
    rw [basisDim_eq, Outcome.ok_bind, newMatrix_ok hd, Outcome.ok_bind, e1, Outcome.ok_bind, show nuclearFile modelPoint = some "libgrpp_c_nucattr_point.txt" from rfl]
    simp only
    rw [e2, Outcome.ok_bind]
  case pointNum => exact numeric_file env he shells hs hd atoms hz _ (Or.inl rfl) hc _ rfl
  case ball => exact numeric_file env he shells hs hd atoms hz _ (Or.inr (Or.inl rfl)) hc _ rfl
  case gauss => exact numeric_file env he shells hs hd atoms hz _ (Or.inr (Or.inr (Or.inl rfl))) hc _ rfl
  case fermi => exact numeric_file env he shells hs hd atoms hz _ (Or.inr (Or.inr (Or.inr ⟨rfl, hc.2⟩))) hc.1 _ rfl
  case fermiBubble => exact hc.elim
  case overlapGrad =>
    obtain ⟨V, h1, h2, h3⟩ := molecular_overlap_gradient_partial env.lib.gen he.order shells atoms (fun s h => ⟨(hs s h).made, hc.1 s h⟩) hc.2.1
      (by rw [basisComps_length]; exact hsq)
    obtain ⟨g, e, r⟩ := h3 (fun io jo ia => env.junk .overlapGrad io jo ia 0 0) (hc.2.2.imp (fun h io jo ia => h io jo ia 0 0) id) _
      (zero_arrays shells atoms)
    obtain ⟨fs, e2, h4⟩ := gradFiles_of (io := env.io) hd [("overlap", V)] (fun _ => g) (by simpa using r)
    refine ⟨fs, ?_, V, h4, h1, h2⟩
    simp only [runCalc, writeOverlapGrad]
    rw [basisDim_eq, Outcome.ok_bind, newGrads_ok hd, Outcome.ok_bind, e, Outcome.ok_bind]
    exact e2
  case grppGrad =>
    obtain ⟨⟨h1, eps, h2⟩, h3, h4⟩ := hc
    obtain ⟨Qb, Qk, V, k1, k2, k3, k4⟩ := molecular_grpp_gradient_partial env.lib he.init h1 he.order h2 shells atoms grpps h3
    obtain ⟨g, e, r⟩ := k4 (fun io jo ia ir => env.junk .grppGrad io jo ia ir 0) (h4.imp (fun h io jo ia ir => h io jo ia ir 0) id) (fun _ => _)
      fun _ => ⟨zero_arrays shells atoms, rfl⟩
    obtain ⟨fs, e2, h5⟩ := gradFiles_of (io := env.io) hd [("arep", V 0), ("so_x", V 1), ("so_y", V 2), ("so_z", V 3)]
      (fun s => if s = "arep" then g 0 else if s = "so_x" then g 1 else if s = "so_y" then g 2 else g 3) (by
        intro l hl
        simp only [List.mem_cons, List.not_mem_nil, or_false] at hl
        rcases hl with rfl | rfl | rfl | rfl
        exacts [r 0, r 1, r 2, r 3])
    refine ⟨fs, ?_, V, ⟨⟨Qb, Qk, k1, k2⟩, k3⟩, h5⟩
    simp only [runCalc, writeGrppGrad]
    rw [basisDim_eq, Outcome.ok_bind, newGrads_ok hd, Outcome.ok_bind]
    erw [e]
    rw [Outcome.ok_bind]
    exact e2
  case gradType1 =>
    obtain ⟨⟨h1, eps, h2⟩, h3, h4⟩ := hc
    obtain ⟨V, k1, k2⟩ := molecular_type1_gradient_partial env.lib he.init h1 he.order h2 shells atoms grpps h3
    obtain ⟨g, e, r⟩ := k2 (fun io jo ia ir => env.junk .gradType1 io jo ia ir 0) (h4.imp (fun h io jo ia ir => h io jo ia ir 0) id) _
      (zero_arrays shells atoms)
    obtain ⟨fs, e2, h5⟩ := gradFiles_of (io := env.io) hd [("arep_type1", V 0)] (fun _ => g) (by simpa using r)
    refine ⟨fs, ?_, V, k1, h5⟩
    simp only [runCalc, writeType1Grad]
    rw [basisDim_eq, Outcome.ok_bind, newGrads_ok hd, Outcome.ok_bind]
    erw [e]
    rw [Outcome.ok_bind]
    exact e2
  case gradType2 =>
    obtain ⟨⟨h1, eps, h2⟩, h3, h4⟩ := hc
    obtain ⟨V, k1, k2⟩ := molecular_type2_gradient_partial env.lib he.init h1 he.order h2 shells atoms grpps h3
    obtain ⟨g, e, r⟩ := k2 (env.junk .gradType2) h4 _ (zero_arrays shells atoms)
    obtain ⟨fs, e2, h5⟩ := gradFiles_of (io := env.io) hd [("arep_type2", V 0)] (fun _ => g) (by simpa using r)
    refine ⟨fs, ?_, V, k1, h5⟩
    simp only [runCalc, writeType2Grad]
    rw [basisDim_eq, Outcome.ok_bind, newGrads_ok hd, Outcome.ok_bind]
    erw [e]
    rw [Outcome.ok_bind]
    exact e2
  case gradSpinOrbit =>
    obtain ⟨⟨h1, eps, h2⟩, h3, h4⟩ := hc
    obtain ⟨V, k1, k2⟩ := molecular_so_gradient_partial env.lib he.init h1 he.order h2 shells atoms grpps h3
    obtain ⟨g, e, r⟩ := k2 (env.junk .gradSpinOrbit) h4 (fun _ => _) fun _ => ⟨zero_arrays shells atoms, rfl⟩
    obtain ⟨fs, e2, h5⟩ := gradFiles_of (io := env.io) hd [("so_x_so", V 1), ("so_y_so", V 2), ("so_z_so", V 3)]
      (fun s => if s = "so_x_so" then g 0 else if s = "so_y_so" then g 1 else g 2) (by
        intro l hl
        simp only [List.mem_cons, List.not_mem_nil, or_false] at hl
        rcases hl with rfl | rfl | rfl
        exacts [r 0, r 1, r 2])
    refine ⟨fs, ?_, V, k1, h5⟩
    simp only [runCalc, writeSOGrad]
    rw [basisDim_eq, Outcome.ok_bind, newGrads_ok hd, Outcome.ok_bind]
    erw [e]
    rw [Outcome.ok_bind]
    exact e2
  case gradOutercore =>
    obtain ⟨⟨h1, eps, h2⟩, h3, h4⟩ := hc
    obtain ⟨V, k1, k2⟩ := molecular_oc_gradient_partial env.lib he.init h1 he.order h2 shells atoms grpps h3
    obtain ⟨g, e, r⟩ := k2 (fun io jo ia ir => env.junk .gradOutercore io jo ia ir 0) (h4.imp (fun h io jo ia ir => h io jo ia ir 0) id) (fun _ => _)
      fun _ => ⟨zero_arrays shells atoms, rfl⟩
    obtain ⟨fs, e2, h5⟩ := gradFiles_of (io := env.io) hd [("arep_ocpot", V 0), ("so_x_ocpot", V 1), ("so_y_ocpot", V 2), ("so_z_ocpot", V 3)]
      (fun s => if s = "arep_ocpot" then g 0 else if s = "so_x_ocpot" then g 1 else if s = "so_y_ocpot" then g 2 else g 3) (by
        intro l hl
        simp only [List.mem_cons, List.not_mem_nil, or_false] at hl
        rcases hl with rfl | rfl | rfl | rfl
        exacts [r 0, r 1, r 2, r 3])
    refine ⟨fs, ?_, V, k1, h5⟩
    simp only [runCalc, writeOcGrad]
    rw [basisDim_eq, Outcome.ok_bind, newGrads_ok hd, Outcome.ok_bind]
    erw [e]
    rw [Outcome.ok_bind]
    exact e2

/-- The cases without a defined result. -/
theorem runCalc_undefined {G : Type} (env : ProgEnv G) (he : env.Ok) (shells : List Shell) (hs : ∀ s ∈ shells, s.InMolecule env.lib.gen)
    (hd : dimOf shells ≤ 46340) (atoms : List (Nat × Point)) (grpps : List (Option GrppData)) (c : Calc)
    (hc : CalcUndefined env shells atoms grpps c) : runCalc env shells atoms grpps c = .ub := by
  have hsq : (basisComps shells).length * (basisComps shells).length ≤ 2147483648 := by
    rw [basisComps_length]; exact le_trans (Nat.mul_le_mul hd hd) (by norm_num)
  have hlen : (basisComps shells).length * (basisComps shells).length ≤ (List.replicate (dimOf shells * dimOf shells) (0 : ℝ)).length := by
    rw [basisComps_length, List.length_replicate]
  have hj4 : ∀ c, (∀ io jo ia ir ip, env.junk c io jo ia ir ip = none) → (fun io jo ia ir => env.junk c io jo ia ir 0) = fun _ _ _ _ => none :=
    fun c h => funext fun io => funext fun jo => funext fun ia => funext fun ir => h io jo ia ir 0
  have hj5 : ∀ c, (∀ io jo ia ir ip, env.junk c io jo ia ir ip = none) → env.junk c = fun _ _ _ _ _ => none :=
    fun c h => funext fun io => funext fun jo => funext fun ia => funext fun ir => funext fun ip => h io jo ia ir ip
  cases c
  case fermi =>
    obtain ⟨h1, ⟨A, S, rfl, hL⟩, a, ha, h2⟩ := hc
    simp only [runCalc, writeNuclear]
    rw [basisDim_eq, Outcome.ok_bind, newMatrix_ok hd, Outcome.ok_bind, molecular_nuclear_fermi_light_any env.nuc he.init h1 he.order A S
      (hs A List.mem_cons_self) hL atoms a ha h2 env.nbuf _ he.nbuf.ge hlen]
    rfl
  case fermiBubble =>
    obtain ⟨⟨A, S, rfl, hn, hc⟩, hne⟩ := hc
    obtain ⟨a, atoms, rfl⟩ := List.exists_cons_of_ne_nil hne
    have hA := hs A List.mem_cons_self
    simp only [runCalc, writeNuclear]
    rw [basisDim_eq, Outcome.ok_bind, newMatrix_ok hd, Outcome.ok_bind, molecular_nuclear_bubble env.nuc he.init A S (hA.made.homog he.order).wf hn hc
      ((Nat.mul_le_mul hA.size_le hA.size_le).trans (by unfold maxBuf; omega)) a atoms env.nbuf _ he.nbuf.ge hlen]
    rfl
  case overlapGrad =>
    obtain ⟨h1, h2, h3, A, hA, B, hB, h4, h5⟩ := hc
    simp only [runCalc, writeOverlapGrad]
    rw [basisDim_eq, Outcome.ok_bind, newGrads_ok hd, Outcome.ok_bind, show (fun io jo ia => env.junk .overlapGrad io jo ia 0 0) = fun _ _ _ => none from
      funext fun io => funext fun jo => funext fun ia => h3 io jo ia 0 0, molecular_overlap_gradient_undefined env.lib.gen he.order shells atoms
      (fun s h => ⟨(hs s h).made, h1 s h⟩) h2 hsq _ (zero_arrays shells atoms) A B hA hB h4 h5]
    rfl
  case grppGrad =>
    obtain ⟨⟨h1, eps, h2⟩, h3, h4, A, hA, hL, o, hm, ho, -⟩ := hc
    simp only [runCalc, writeGrppGrad]
    rw [basisDim_eq, Outcome.ok_bind, newGrads_ok hd, Outcome.ok_bind, hj4 _ h4]
    erw [molecular_grpp_gradient_undefined env.lib he.init h1 he.order h2 shells atoms grpps h3 A hA hL o hm ho _ fun _ => ⟨zero_arrays shells atoms, rfl⟩]
    rfl
  case gradType1 =>
    obtain ⟨⟨h1, eps, h2⟩, h3, h4, A, hA, hL, o, hm, ho, -⟩ := hc
    simp only [runCalc, writeType1Grad]
    rw [basisDim_eq, Outcome.ok_bind, newGrads_ok hd, Outcome.ok_bind, hj4 _ h4]
    erw [molecular_type1_gradient_undefined env.lib he.init h1 he.order h2 shells atoms grpps h3 A hA hL o hm ho _ (zero_arrays shells atoms)]
    rfl
  case gradType2 =>
    obtain ⟨⟨h1, eps, h2⟩, h3, h4, A, hA, hL, o, hm, ho, hne⟩ := hc
    simp only [runCalc, writeType2Grad]
    rw [basisDim_eq, Outcome.ok_bind, newGrads_ok hd, Outcome.ok_bind, hj5 _ h4]
    erw [molecular_type2_gradient_undefined env.lib he.init h1 he.order h2 shells atoms grpps h3 A hA hL o hm ho hne _ (zero_arrays shells atoms)]
    rfl
  case gradSpinOrbit =>
    obtain ⟨⟨h1, eps, h2⟩, h3, h4, A, hA, hL, o, hm, ho, hne⟩ := hc
    simp only [runCalc, writeSOGrad]
    rw [basisDim_eq, Outcome.ok_bind, newGrads_ok hd, Outcome.ok_bind, hj5 _ h4]
    erw [molecular_so_gradient_undefined env.lib he.init h1 he.order h2 shells atoms grpps h3 A hA hL o hm ho hne _ fun _ => ⟨zero_arrays shells atoms, rfl⟩]
    rfl
  case gradOutercore =>
    obtain ⟨⟨h1, eps, h2⟩, h3, h4, A, hA, hL, o, hm, ho, -⟩ := hc
    simp only [runCalc, writeOcGrad]
    rw [basisDim_eq, Outcome.ok_bind, newGrads_ok hd, Outcome.ok_bind, hj4 _ h4]
    erw [molecular_oc_gradient_undefined env.lib he.init h1 he.order h2 shells atoms grpps h3 A hA hL o hm ho _ fun _ => ⟨zero_arrays shells atoms, rfl⟩]
    rfl
  all_goals exact hc.elim

/-- The shells and pseudopotentials are those which the input files describe. -/
def FromFiles {G : Type} (env : ProgEnv G) (atoms : List (Nat × Point)) (entries : Nat → List BasisBlock)
    (pots : Nat → Option (List BasisBlock × List PotBlock)) (shells : List Shell) (grpps : List (Option GrppData)) : Prop :=
  ∃ funs : Nat → List BasisFun, shells = moleculeShells env.lib.gen atoms funs ∧
    (∀ a ∈ atoms, List.Forall₂ (fun p f => NormalisedFun p.1 p.2.1 p.2.2 f) (blockFuns 0 (entries a.1)) (funs a.1)) ∧
    (basisFns shells).length = moleculeDim atoms entries ∧ (∀ s ∈ shells, s.InMolecule env.lib.gen) ∧
    ∀ a ∈ atoms, (pots a.1 = none → grpps[a.1]? = some none) ∧
      ∀ cs ps, pots a.1 = some (cs, ps) → ∃ g, grpps[a.1]? = some (some g) ∧ IsGrpp env.lib.gen cs ps g

/-- With well-formed input files, the program does what remains to be done: the sequence of the calculations. -/
theorem program_reads {G : Type} (env : ProgEnv G) (he : env.Ok) (mol basis ecp : List Char) (atoms : List (Nat × Point)) (entries : Nat → List BasisBlock)
    (pots : Nat → Option (List BasisBlock × List PotBlock)) (hin : InputFiles env.io mol basis ecp atoms entries pots) :
    (∀ a ∈ atoms, a.1 < 131) ∧ ∃ (shells : List Shell) (grpps : List (Option GrppData)), FromFiles env atoms entries pots shells grpps ∧
      dimOf shells = moleculeDim atoms entries ∧
      ∀ args : List (List Char), (∀ a ∈ args, ∃ c : Calc, c.arg = a) → programMain env args mol basis ecp =
        (runCalcs env shells atoms grpps (fun c => decide (c.arg ∈ args)) Calc.all >>= fun files => .ok ⟨0, none, files⟩) := by
  have hz : ∀ a ∈ atoms, a.1 < 131 := by
    obtain ⟨ws, t, rest, -, -, ht, -⟩ := hin.mol
    exact ht.charge
  obtain ⟨funs, h1, ⟨sets, g1, g2, g3⟩, h2, h3⟩ := molecule_sets env.lib.gen he.order env.io basis atoms entries fun a ha => ⟨hz a ha, hin.basis a ha⟩
  obtain ⟨grpps, k1, -, k2⟩ := molecule_grpps env.lib.gen env.io ecp atoms pots fun a ha => ⟨hz a ha, hin.ecp a ha⟩
  have hdim := moleculeShells_dim env.lib.gen atoms entries funs h1
  refine ⟨hz, _, grpps, ⟨funs, rfl, h1, by rw [basisFns_length, hdim], fun s hs => (h2 s hs).1, k2⟩, hdim, fun args hargs => ?_⟩
  obtain ⟨flags, hf1, hf2⟩ := parseArgs_known args hargs
  have hflags : flags = fun c => decide (c.arg ∈ args) := by
    funext c
    rw [Bool.eq_iff_iff, hf2, decide_eq_true_iff]
  unfold programMain
  rw [hf1]
  simp only [Outcome.ok_bind]
  rw [readMoleculeText_spec env.io atoms mol hin.mol]
  simp only [Outcome.ok_bind]
  rw [g1, Outcome.ok_bind, g2, Outcome.ok_bind, k1, Outcome.ok_bind, g3, Outcome.ok_bind, h3, Outcome.ok_bind, hflags]

/-- **C105.** For all well-formed input files within the limits of the program, it makes the shells and pseudopotentials which
the files describe, as many basis functions as the files announce; for all arguments it knows, if the preconditions of the calculations asked for are met,
it ends with status 0, and writes for each of the calculations asked for, once and in the fixed order of `Calc.all`, the files with the matrices of the
corresponding operators or their gradients. If some of them are among the cases of `CalcUndefined`, the behaviour of the whole program is undefined. -/
theorem program_files {G : Type} (env : ProgEnv G) (he : env.Ok) (mol basis ecp : List Char) (atoms : List (Nat × Point)) (entries : Nat → List BasisBlock)
    (pots : Nat → Option (List BasisBlock × List PotBlock)) (hin : InputFiles env.io mol basis ecp atoms entries pots) (hd : moleculeDim atoms entries ≤ 46340) :
    ∃ (shells : List Shell) (grpps : List (Option GrppData)), FromFiles env atoms entries pots shells grpps ∧
      ∀ args : List (List Char), (∀ a ∈ args, ∃ c : Calc, c.arg = a) →
        ((∀ c, c.arg ∈ args → CalcOk env shells atoms grpps c) →
          ∃ F : Calc → List OutFile, programMain env args mol basis ecp = .ok ⟨0, none, (Calc.all.filter fun c => c.arg ∈ args).flatMap F⟩ ∧
            ∀ c, c.arg ∈ args → FilesOk env shells atoms grpps c (F c)) ∧
        ((∀ c, c.arg ∈ args → CalcOk env shells atoms grpps c ∨ CalcUndefined env shells atoms grpps c) →
          (∃ c, c.arg ∈ args ∧ CalcUndefined env shells atoms grpps c) → programMain env args mol basis ecp = .ub) := by
  obtain ⟨hz, shells, grpps, hfrom, hdim, hrun⟩ := program_reads env he mol basis ecp atoms entries pots hin
  have hs : ∀ s ∈ shells, s.InMolecule env.lib.gen := by
    obtain ⟨funs, -, -, -, h, -⟩ := hfrom
    exact h
  have hz' : ∀ a ∈ atoms, a.1 ≤ 130 := fun a ha => Nat.le_of_lt_succ (hz a ha)
  rw [← hdim] at hd
  refine ⟨shells, grpps, hfrom, fun args hargs => ⟨fun hok => ?_, fun hok hun => ?_⟩⟩
  · have hF : ∀ c, ∃ fs, c.arg ∈ args → runCalc env shells atoms grpps c = .ok fs ∧ FilesOk env shells atoms grpps c fs := by
      intro c
      by_cases hc : c.arg ∈ args
      · obtain ⟨fs, r⟩ := runCalc_files env he shells hs hd atoms hz' grpps c (hok c hc)
        exact ⟨fs, fun _ => r⟩
      · exact ⟨[], fun h => absurd h hc⟩
    choose F hF using hF
    refine ⟨F, ?_, fun c hc => (hF c hc).2⟩
    rw [hrun args hargs, runCalcs_spec env shells atoms grpps _ F Calc.all fun c _ hc => (hF c (of_decide_eq_true hc)).1, Outcome.ok_bind]
  · rw [hrun args hargs, runCalcs_undefined env shells atoms grpps _ Calc.all]
    · rfl
    · intro c _ hc
      rcases hok c (of_decide_eq_true hc) with h | h
      · obtain ⟨fs, r, -⟩ := runCalc_files env he shells hs hd atoms hz' grpps c h
        exact Or.inl ⟨fs, r⟩
      · exact Or.inr (runCalc_undefined env he shells hs hd atoms grpps c h)
    · obtain ⟨c, h1, h2⟩ := hun
      exact ⟨c, calc_mem_all c, decide_eq_true h1, runCalc_undefined env he shells hs hd atoms grpps c h2⟩

/-- **C105**, end to end. If the comparison program, given a file of the program and that of a reference matrix `B`, ends with status 0, then the
elements of the reference in the lower triangle differ from those of the matrix `V` which the program computed by at most the threshold plus 2e-14. (With NaNs
in the reference the statement fails, see `matrix_compare_nan`.) -/
theorem program_compare_matrix_partial (io : DecimalIO) (N : ℕ) (V : ℕ → ℕ → ℝ) (text : List Char) (h : HoldsMatrix io N V text) (hd : N ≤ 46340)
    (hio : ∀ p q, p < N → q < N → io.Faithful (.fin (V p q))) (B : Nat → Nat → ℝ) (lb : List Dbl)
    (hB : ∀ i j, i < N → j < N → lb[i * N + j]? = some (.fin (B i j))) (hlb : N * N ≤ lb.length) (hfB : FaithfulElements io lb) (tb : List Char)
    (htb : printLower io N lb = .ok tb) (t : ℝ) (hs : compareProgram io t text tb = .ok 0) :
    ∀ p q, p < N → q ≤ p → |V p q - B p q| ≤ t + 2e-14 := by
  obtain ⟨M, h1, h2, h3⟩ := h
  have hA : ∀ i j, i < N → j < N → (M.map Dbl.fin)[i * N + j]? = some (.fin (V i j)) := by
    intro i j hi hj
    rw [List.getElem?_map, h3 i j hi hj]
    rfl
  have hfA : FaithfulElements io (M.map Dbl.fin) := by
    intro d hd' _
    rw [List.mem_map] at hd'
    obtain ⟨x, hx, rfl⟩ := hd'
    obtain ⟨r, hr, rfl⟩ := List.getElem_of_mem hx
    have hpos : 0 < N := by
      rcases Nat.eq_zero_or_pos N with h0 | h0
      · rw [h2, h0] at hr; simp at hr
      · exact h0
    have hi : r / N < N := Nat.div_lt_of_lt_mul (by rw [← h2]; exact hr)
    have hj : r % N < N := Nat.mod_lt _ hpos
    have e := h3 _ _ hi hj
    rw [Nat.div_add_mod' r N, List.getElem?_eq_getElem hr, Option.some.injEq] at e
    rw [e]
    exact hio _ _ hi hj
  exact (matrix_compare_sound_partial io N _ B (M.map Dbl.fin) lb t hd hA hB (by rw [List.length_map, h2]) hlb hfA hfB text tb h1 htb hs).1

/-- **C105**, end to end, for overlap, kinetic energy and momentum: the elements of the reference differ from the true integrals by at most the threshold
plus 2e-14. -/
theorem program_compare_partial (io : DecimalIO) (shells : List Shell) (op : (Point → ℝ) → (Point → ℝ) → ℝ) (text : List Char) (h : IsFileOf io shells op text)
    (hd : (basisFns shells).length ≤ 46340) (hio : ∀ f ∈ basisFns shells, ∀ g ∈ basisFns shells, io.Faithful (.fin (op f g))) (B : Nat → Nat → ℝ) (lb : List Dbl)
    (hB : ∀ i j, i < (basisFns shells).length → j < (basisFns shells).length → lb[i * (basisFns shells).length + j]? = some (.fin (B i j)))
    (hlb : (basisFns shells).length * (basisFns shells).length ≤ lb.length) (hfB : FaithfulElements io lb) (tb : List Char)
    (htb : printLower io (basisFns shells).length lb = .ok tb) (t : ℝ) (hs : compareProgram io t text tb = .ok 0) :
    ∀ p q f g, q ≤ p → (basisFns shells)[p]? = some f → (basisFns shells)[q]? = some g → |op f g - B p q| ≤ t + 2e-14 := by
  obtain ⟨M, h1, h2, h3⟩ := h
  have hget : ∀ i (hi : i < (basisFns shells).length), (basisFns shells)[i]? = some ((basisFns shells).getD i fun _ => 0) := by
    intro i hi
    rw [List.getD_eq_getElem?_getD, List.getElem?_eq_getElem hi]
    rfl
  have key := program_compare_matrix_partial io (basisFns shells).length
    (fun i j => op ((basisFns shells).getD i fun _ => 0) ((basisFns shells).getD j fun _ => 0)) text
    ⟨M, h1, h2, fun p q hp hq => h3 p q _ _ (hget p hp) (hget q hq)⟩ hd
    (fun p q hp hq => hio _ (List.mem_of_getElem? (hget p hp)) _ (List.mem_of_getElem? (hget q hq))) B lb hB hlb hfB tb htb t hs
  intro p q f g hqp hp hq
  have h4 := key p q (List.getElem?_eq_some_iff.1 hp).1 hqp
  beta_reduce at h4
  rwa [getD_of_some hp, getD_of_some hq] at h4

/-- **C105**, unknown arguments. If one of the arguments is not known the program ends with status 1 and writes no files, whatever the input files are. -/
theorem program_unknown {G : Type} (env : ProgEnv G) (args : List (List Char)) (h : ∃ a ∈ args, ∀ c : Calc, c.arg ≠ a) (mol basis ecp : List Char) :
    ∃ r, programMain env args mol basis ecp = .ok r ∧ r.status = 1 ∧ r.files = [] ∧ r.unknown = args.head? := by
  cases args with
  | nil => obtain ⟨a, ha, -⟩ := h; simp at ha
  | cons a args =>
    refine ⟨⟨1, some a, []⟩, ?_, rfl, rfl, rfl⟩
    unfold programMain
    rw [parseArgs_unknown _ h]
    rfl

/-- **C105** (negative part): the message names the first argument, so that after a correct first argument it calls that one unknown. -/
theorem program_unknown_wrong {G : Type} (env : ProgEnv G) (c : Calc) (a : List Char) (h : ∀ c : Calc, c.arg ≠ a) (mol basis ecp : List Char) :
    ∃ r, programMain env [c.arg, a] mol basis ecp = .ok r ∧ r.unknown = some c.arg := by
  obtain ⟨r, h1, -, -, h2⟩ := program_unknown env [c.arg, a] ⟨a, by simp, h⟩ mol basis ecp
  exact ⟨r, h1, h2⟩

/-- **C105**, arguments: neither their order nor repetitions matter. -/
theorem program_args {G : Type} (env : ProgEnv G) (args args' : List (List Char)) (h : ∀ a, a ∈ args ↔ a ∈ args') (hargs : ∀ a ∈ args, ∃ c : Calc, c.arg = a)
    (mol basis ecp : List Char) : programMain env args mol basis ecp = programMain env args' mol basis ecp := by
  obtain ⟨f, h1, h2⟩ := parseArgs_known args hargs
  obtain ⟨f', h1', h2'⟩ := parseArgs_known args' fun a ha => hargs a ((h a).2 ha)
  have : f = f' := by
    funext c
    rw [Bool.eq_iff_iff, h2, h2', h]
  unfold programMain
  rw [h1, h1', this]
  rfl

/-- **C105**, molecule: a record with a word that is no symbol of the table ends the program with status 1, before anything is calculated. -/
theorem program_bad_element {G : Type} (env : ProgEnv G) (args : List (List Char)) (hargs : ∀ a ∈ args, ∃ c : Calc, c.arg = a) (ws t ws' sym t1 rest : List Char)
    (hws : AllSpace ws) (before : List (Nat × Point)) (hb : XyzText env.io before t) (n : Nat) (hn : before.length < n) (hn' : n ≤ intMax)
    (hws' : Spaces ws') (hne : sym ≠ []) (hlen : sym.length < 256) (hw : ∀ c ∈ sym, isSpaceC c = false) (ha : AsciiString (sym.map Char.toNat))
    (hun : ∀ z < 131, ¬SameLetters (sym.map Char.toNat) (symbolOf z)) (x y z : ℝ) (h1 : NumsText env.io [x, y, z] t1) (hr : StartsBlank rest)
    (basis ecp : List Char) :
    programMain env args (ws ++ (Nat.toDigits 10 n ++ (t ++ (ws' ++ (sym ++ (t1 ++ rest)))))) basis ecp = .ok ⟨1, none, []⟩ := by
  obtain ⟨flags, hf1, -⟩ := parseArgs_known args hargs
  obtain ⟨m, rfl⟩ : ∃ m, n = before.length + (m + 1) := ⟨n - before.length - 1, by omega⟩
  have hb' : StartsBlank (ws' ++ (sym ++ (t1 ++ rest))) := hws'.startsBlank _
  unfold programMain
  rw [hf1]
  simp only [Outcome.ok_bind]
  have hmol : readMoleculeText env.io (ws ++ (Nat.toDigits 10 (before.length + (m + 1)) ++ (t ++ (ws' ++ (sym ++ (t1 ++ rest)))))) = .ok none := by
    unfold readMoleculeText
    rw [scanInt_token _ _ _ hn' hws (hb.startsBlank hb')]
    simp only [Outcome.ok_bind, Int.toNat_natCast]
    rw [readXyz_loop env.io _ hb' (m + 1) before t hb [], forRange_first,
      readAtom_unknown env.io _ x y z ws' sym t1 rest hws'.2 hne hlen hw ha hun h1 hr, Outcome.ok_bind, readAtom_stopped]
    rfl
  rw [hmol]
  rfl

/-- **C105** (negative part), missing basis set: if the file has no entry for one of the elements of the molecule, the behaviour is undefined. -/
theorem program_missing_basis {G : Type} (env : ProgEnv G) (args : List (List Char)) (hargs : ∀ a ∈ args, ∃ c : Calc, c.arg = a)
    (mol ws text ecp : List Char) (atoms : List (Nat × Point)) (hmol : MoleculeFile env.io atoms mol) (hws : AllSpace ws)
    (h : ∀ a ∈ atoms, ∃ r, readBasisSet env.lib.gen env.io (ws ++ text) a.1 = .ok r) (a : Nat × Point) (ha : a ∈ atoms) (hno : NoEntry a.1 text)
    (pots : Nat → Option (List BasisBlock × List PotBlock)) (hecp : ∀ a ∈ atoms, GrppEntry env.io ecp a.1 (pots a.1)) :
    programMain env args mol (ws ++ text) ecp = .ub := by
  obtain ⟨flags, hf1, -⟩ := parseArgs_known args hargs
  have hz : ∀ a ∈ atoms, a.1 < 131 := by
    obtain ⟨ws, t, rest, -, -, ht, -⟩ := hmol
    exact ht.charge
  have hread : ∀ z, ∃ r, ((∃ a ∈ atoms, a.1 = z) → readBasisSet env.lib.gen env.io (ws ++ text) z = .ok r) := by
    intro z
    by_cases hz : ∃ a ∈ atoms, a.1 = z
    · obtain ⟨a, ha, rfl⟩ := hz
      obtain ⟨r, hr⟩ := h a ha
      exact ⟨r, fun _ => hr⟩
    · exact ⟨none, fun h => absurd h hz⟩
  choose R hR using hread
  obtain ⟨sets, g1, g2⟩ := mainBasisSets_spec env.lib.gen env.io (ws ++ text) atoms R fun a ha => ⟨hz a ha, hR a.1 ⟨a, ha, rfl⟩⟩
  have hnone : R a.1 = none := by
    have h1 := hR a.1 ⟨a, ha, rfl⟩
    rw [basis_missing env.lib.gen env.io a.1 ws text hws hno] at h1
    exact (Outcome.ok.inj h1).symm
  have g3 := constructShellList_null env.lib.gen atoms sets R g2 ⟨a, ha, hnone⟩
  obtain ⟨grpps, k1, -⟩ := molecule_grpps env.lib.gen env.io ecp atoms pots fun a ha => ⟨hz a ha, hecp a ha⟩
  unfold programMain
  rw [hf1]
  simp only [Outcome.ok_bind]
  rw [readMoleculeText_spec env.io atoms mol hmol]
  simp only [Outcome.ok_bind]
  rw [g1, Outcome.ok_bind]
  rcases printBasisSets_okUb sets with hp | hp
  · rw [hp, Outcome.ok_bind, k1, Outcome.ok_bind, g3]
    rfl
  · rw [hp]
    rfl

/-- **C105** (negative part), large molecules: from 46341 basis functions on, each of the calculations overflows. -/
theorem program_overflow {G : Type} (env : ProgEnv G) (he : env.Ok) (args : List (List Char)) (hargs : ∀ a ∈ args, ∃ c : Calc, c.arg = a)
    (mol basis ecp : List Char) (atoms : List (Nat × Point)) (entries : Nat → List BasisBlock) (pots : Nat → Option (List BasisBlock × List PotBlock))
    (hin : InputFiles env.io mol basis ecp atoms entries pots) (hd : 46341 ≤ moleculeDim atoms entries) (hne : args ≠ []) :
    programMain env args mol basis ecp = .ub := by
  obtain ⟨-, shells, grpps, -, hdim, hrun⟩ := program_reads env he mol basis ecp atoms entries pots hin
  have hat : 0 < atoms.length := by
    rcases atoms with _ | ⟨a, atoms⟩
    · simp [moleculeDim] at hd
    · simp
  have hub : newMatrix (dimOf shells) = .ub := newMatrix_ub (by rw [hdim]; exact hd)
  have hub' : newGrads atoms.length (dimOf shells) = .ub := newGrads_ub hat (by rw [hdim]; exact hd)
  rw [hrun args hargs, show Calc.all = Calc.all ++ [] from (List.append_nil _).symm, runCalcs_ub]
  · rfl
  · intro c _
    cases c <;> rw [runCalc]
    case grpp => rw [writeGrpp, basisDim_eq, Outcome.ok_bind, hub]; rfl
    case overlap => rw [writeOverlap, basisDim_eq, Outcome.ok_bind, hub]; rfl
    case kinetic => rw [writeKinetic, basisDim_eq, Outcome.ok_bind, hub]; rfl
    case momentum => rw [writeMomentum, basisDim_eq, Outcome.ok_bind, hub]; rfl
    case overlapGrad => rw [writeOverlapGrad, basisDim_eq, Outcome.ok_bind, hub']; rfl
    case grppGrad => rw [writeGrppGrad, basisDim_eq, Outcome.ok_bind, hub']; rfl
    case gradType1 => rw [writeType1Grad, basisDim_eq, Outcome.ok_bind, hub']; rfl
    case gradType2 => rw [writeType2Grad, basisDim_eq, Outcome.ok_bind, hub']; rfl
    case gradSpinOrbit => rw [writeSOGrad, basisDim_eq, Outcome.ok_bind, hub']; rfl
    case gradOutercore => rw [writeOcGrad, basisDim_eq, Outcome.ok_bind, hub']; rfl
    all_goals rw [writeNuclear, basisDim_eq, Outcome.ok_bind, hub]; rfl
  · obtain ⟨a, args, rfl⟩ := List.exists_cons_of_ne_nil hne
    obtain ⟨c, hc⟩ := hargs a List.mem_cons_self
    exact ⟨c, calc_mem_all c, decide_eq_true (by rw [hc]; exact List.mem_cons_self)⟩

/-! ## Concrete cases -/

/-- An environment with the C library of the examples. -/
noncomputable def exampleProgEnv {G : Type} (lib : Lib G) (sf : SpecFun) : ProgEnv G where
  lib := lib
  sf := sf
  sk := fermiSk skLiteral
  io := exampleIO
  order := List.range
  grppBufs := fun _ _ => List.replicate maxBuf 0
  buf := List.replicate maxBuf 1
  mbuf := fun _ => List.replicate maxBuf 2
  nbuf := List.replicate maxBuf 3
  junk := fun _ _ _ _ _ _ => none

theorem exampleProgEnv_ok {G : Type} (lib : Lib G) (sf : SpecFun) (hi : lib.init = true) (ho : DocumentedOrder lib.gen) : (exampleProgEnv lib sf).Ok :=
  ⟨hi, ho, List.length_replicate, fun _ => List.length_replicate, List.length_replicate, fun _ _ => List.length_replicate, fun _ => .refl _⟩

theorem exampleSymbol : IsSymbol 1 ['h'] :=
  ⟨by decide, by simp, by simp, by decide, by decide, by unfold SameLetters; decide +kernel⟩

/-- Records of `n` hydrogen atoms. -/
theorem exampleXyz (n : Nat) : XyzText exampleIO (List.replicate n (1, ![1, 1, 1])) (List.replicate n " h 1.0E+00 1.0E+00 1.0E+00".toList).flatten := by
  induction n with
  | zero => exact .nil
  | succ n ih =>
    exact XyzText.cons (ws := [' ']) (sym := ['h']) (t1 := " 1.0E+00 1.0E+00 1.0E+00".toList) spaces_blank exampleSymbol
      (NumsText.cons (ws := [' ']) (tok := ['1', '.', '0', 'E', '+', '0', '0']) (t := " 1.0E+00 1.0E+00".toList) spaces_blank exampleToken
        (NumsText.cons (ws := [' ']) (tok := ['1', '.', '0', 'E', '+', '0', '0']) (t := " 1.0E+00".toList) spaces_blank exampleToken
          (NumsText.cons (ws := [' ']) (tok := ['1', '.', '0', 'E', '+', '0', '0']) (t := []) spaces_blank exampleToken .nil))) ih

/-- The file `molecule.xyz` of `n` hydrogen atoms. -/
def exampleMol (n : Nat) : List Char := Nat.toDigits 10 n ++ ((List.replicate n " h 1.0E+00 1.0E+00 1.0E+00".toList).flatten ++ "\n".toList)

theorem exampleMol_file (n : Nat) (hn : n ≤ intMax) : MoleculeFile exampleIO (List.replicate n (1, ![1, 1, 1])) (exampleMol n) :=
  ⟨[], _, "\n".toList, by rw [List.length_replicate]; rfl, allSpace_nil, exampleXyz n,
    fun c hc => by simp at hc; rw [← hc]; decide, by rwa [List.length_replicate]⟩

/-- The file `basis.inp` of the examples. -/
def exampleBasis : List Char := "comment * 8 1 * 1 3\n".toList ++ ((List.replicate 3 exampleBlockText).flatten ++ "trailing".toList)

theorem exampleInput (n : Nat) (hn : n ≤ intMax) : InputFiles exampleIO (exampleMol n) exampleBasis "* 8 0 0 ".toList
    (List.replicate n (1, ![1, 1, 1])) (fun _ => List.replicate 3 exampleBlock) (fun _ => none) :=
  ⟨exampleMol_file n hn, fun a ha => by rw [List.eq_of_mem_replicate ha]; exact ⟨exampleHasEntry, exampleEntry_ok 3 (by omega)⟩,
    fun a ha => by rw [List.eq_of_mem_replicate ha]; exact ⟨[], _, rfl, allSpace_nil, exampleNoGrpp⟩⟩

theorem exampleDim (n : Nat) : moleculeDim (List.replicate n (1, ![1, 1, 1])) (fun _ => List.replicate 3 exampleBlock) = 10 * n := by
  unfold moleculeDim
  rw [List.map_replicate, List.sum_replicate, smul_eq_mul, mul_comm]
  rfl

/-- A run with two arguments: two files, in the order of the calculations. -/
example {G : Type} (lib : Lib G) (sf : SpecFun) (hi : lib.init = true) (ho : DocumentedOrder lib.gen) :
    ∃ t1 t2 shells, programMain (exampleProgEnv lib sf) ["--kinetic".toList, "--overlap".toList] (exampleMol 2) exampleBasis "* 8 0 0 ".toList =
      .ok ⟨0, none, [("libgrpp_c_overlap.txt", t1), ("libgrpp_c_kinetic_energy.txt", t2)]⟩ ∧ (basisFns shells).length = 20 ∧
      IsFileOf exampleIO shells (fun f g => ∫ r, f r * g r) t1 := by
  obtain ⟨shells, grpps, ⟨funs, -, -, h1, -⟩, h2⟩ := program_files (exampleProgEnv lib sf) (exampleProgEnv_ok lib sf hi ho)
    (exampleMol 2) exampleBasis "* 8 0 0 ".toList (List.replicate 2 (1, ![1, 1, 1]))
    (fun _ => List.replicate 3 exampleBlock) (fun _ => none) (exampleInput 2 (by decide)) (by rw [exampleDim]; norm_num)
  rw [exampleDim] at h1
  obtain ⟨F, h3, h4⟩ := (h2 ["--kinetic".toList, "--overlap".toList] (by
      intro a ha
      simp only [List.mem_cons, List.not_mem_nil, or_false] at ha
      rcases ha with rfl | rfl
      exacts [⟨.kinetic, rfl⟩, ⟨.overlap, rfl⟩])).1 (by
    intro c hc
    have : c = .overlap ∨ c = .kinetic := by
      revert hc
      cases c <;> decide +kernel
    rcases this with rfl | rfl <;> exact trivial)
  obtain ⟨t1, e1, f1⟩ := h4 .overlap (by decide +kernel)
  obtain ⟨t2, e2, f2⟩ := h4 .kinetic (by decide +kernel)
  refine ⟨t1, t2, shells, ?_, h1, f1⟩
  rw [h3]
  have : (Calc.all.filter fun c => decide (c.arg ∈ ["--kinetic".toList, "--overlap".toList])) = [.overlap, .kinetic] := by decide +kernel
  rw [this]
  simp only [List.flatMap_cons, List.flatMap_nil, e1, e2]
  rfl

/-- The shells which the program makes from the files of the examples: s, p and d shells of hydrogen. -/
theorem exampleShells {G : Type} {env : ProgEnv G} {n : Nat} {shells : List Shell} {grpps : List (Option GrppData)}
    (h : FromFiles env (List.replicate (n + 1) (1, ![1, 1, 1])) (fun _ => List.replicate 3 exampleBlock) (fun _ => none) shells grpps) :
    (∃ A S, shells = A :: S ∧ A.L ≤ 7) ∧ ∀ s ∈ shells, s.origin = ![1, 1, 1] ∧ s.L ≤ 2 := by
  obtain ⟨funs, rfl, h1, -⟩ := h
  have h2 := h1 (1, ![1, 1, 1]) (by simp [List.replicate_succ])
  simp only [List.replicate, blockFuns, exampleBlock, List.range_one, List.map_cons, List.map_nil, List.cons_append, List.nil_append] at h2
  obtain ⟨f0, l0, n0, ⟨f1, l1, n1, ⟨f2, l2, n2, h3, rfl⟩, rfl⟩, e⟩ : ∃ f0 l0, f0.L = 0 ∧ (∃ f1 l1, f1.L = 1 ∧ (∃ f2 l2, f2.L = 2 ∧ l2 = [] ∧ l1 = f2 :: l2) ∧ l0 = f1 :: l1) ∧
      funs 1 = f0 :: l0 := by
    rw [List.forall₂_cons_left_iff] at h2
    obtain ⟨f0, l0, n0, h2, e0⟩ := h2
    rw [List.forall₂_cons_left_iff] at h2
    obtain ⟨f1, l1, n1, h2, e1⟩ := h2
    rw [List.forall₂_cons_left_iff] at h2
    obtain ⟨f2, l2, n2, h2, e2⟩ := h2
    rw [List.forall₂_nil_left_iff] at h2
    exact ⟨f0, l0, n0.1, ⟨f1, l1, n1.1, ⟨f2, l2, n2.1, h2, e2⟩, e1⟩, e0⟩
  subst h3
  refine ⟨⟨_, _, by unfold moleculeShells; rw [List.replicate_succ, List.flatMap_cons, e]; rfl, by simp [n0]⟩, fun s hs => ?_⟩
  unfold moleculeShells at hs
  rw [List.mem_flatMap] at hs
  obtain ⟨a, ha, hs⟩ := hs
  rw [List.eq_of_mem_replicate ha, e] at hs
  simp only [List.map_cons, List.map_nil, List.mem_cons, List.not_mem_nil, or_false] at hs
  rcases hs with rfl | rfl | rfl
  · exact ⟨rfl, by simp [n0]⟩
  · exact ⟨rfl, by simp [n1]⟩
  · exact ⟨rfl, by simp [n2]⟩

/-- Gradients of two atoms (both at the same position), if out-of-bounds reads return something: six files. -/
example {G : Type} (lib : Lib G) (sf : SpecFun) (hi : lib.init = true) (ho : DocumentedOrder lib.gen) (x : Nat → ℝ) :
    ∃ t : ℕ → Fin 3 → List Char, programMain { exampleProgEnv lib sf with junk := fun _ _ _ _ _ _ => some x } ["--overlap-grad".toList] (exampleMol 2) exampleBasis
      "* 8 0 0 ".toList = .ok ⟨0, none, [("libgrpp_c_overlap_grad_0x.txt", t 0 0), ("libgrpp_c_overlap_grad_0y.txt", t 0 1),
        ("libgrpp_c_overlap_grad_0z.txt", t 0 2), ("libgrpp_c_overlap_grad_1x.txt", t 1 0), ("libgrpp_c_overlap_grad_1y.txt", t 1 1),
        ("libgrpp_c_overlap_grad_1z.txt", t 1 2)]⟩ := by
  have hok := exampleProgEnv_ok lib sf hi ho
  obtain ⟨shells, grpps, hf, h2⟩ := program_files { exampleProgEnv lib sf with junk := fun _ _ _ _ _ _ => some x }
    ⟨hok.init, hok.order, hok.buf, hok.mbuf, hok.nbuf, hok.grppBufs, hok.perm⟩
    (exampleMol 2) exampleBasis "* 8 0 0 ".toList (List.replicate 2 (1, ![1, 1, 1]))
    (fun _ => List.replicate 3 exampleBlock) (fun _ => none) (exampleInput 2 (by decide)) (by rw [exampleDim]; norm_num)
  have hsh := (exampleShells hf).2
  obtain ⟨F, h3, h4⟩ := (h2 ["--overlap-grad".toList] (fun a ha => ⟨.overlapGrad, (List.mem_singleton.1 ha).symm⟩)).1 (by
    intro c hc
    have : c = .overlapGrad := by
      revert hc
      cases c <;> decide +kernel
    subst this
    refine ⟨fun s hs => (hsh s hs).2.trans (by norm_num), ⟨fun s hs => ⟨(1, ![1, 1, 1]), by simp, (hsh s hs).1⟩, fun a ha b hb _ => ?_⟩,
      Or.inl fun _ _ _ _ _ => by simp⟩
    rw [List.eq_of_mem_replicate ha, List.eq_of_mem_replicate hb])
  obtain ⟨V, ⟨t, e, -⟩, -⟩ := h4 .overlapGrad (by decide +kernel)
  refine ⟨t "overlap", ?_⟩
  rw [h3]
  have : (Calc.all.filter fun c => decide (c.arg ∈ ["--overlap-grad".toList])) = [.overlapGrad] := by decide +kernel
  rw [this]
  simp only [List.flatMap_cons, List.flatMap_nil, e]
  rfl

/-- The Fermi model with hydrogen atoms, together with a harmless calculation. -/
example {G : Type} (lib : Lib G) (sf : SpecFun) (hi : lib.init = true) (ho : DocumentedOrder lib.gen) :
    programMain (exampleProgEnv lib sf) ["--overlap".toList, "--coulomb-fermi".toList] (exampleMol 2) exampleBasis "* 8 0 0 ".toList = .ub := by
  obtain ⟨shells, grpps, hf, h2⟩ := program_files (exampleProgEnv lib sf) (exampleProgEnv_ok lib sf hi ho)
    (exampleMol 2) exampleBasis "* 8 0 0 ".toList (List.replicate 2 (1, ![1, 1, 1]))
    (fun _ => List.replicate 3 exampleBlock) (fun _ => none) (exampleInput 2 (by decide)) (by rw [exampleDim]; norm_num)
  have hu : CalcUndefined (exampleProgEnv lib sf) shells (List.replicate 2 (1, ![1, 1, 1])) grpps .fermi :=
    ⟨rfl, (exampleShells hf).1, (1, ![1, 1, 1]), by simp, by norm_num⟩
  refine (h2 ["--overlap".toList, "--coulomb-fermi".toList] (by
      intro a ha
      simp only [List.mem_cons, List.not_mem_nil, or_false] at ha
      rcases ha with rfl | rfl
      exacts [⟨.overlap, rfl⟩, ⟨.fermi, rfl⟩])).2 (fun c hc => ?_) ⟨.fermi, by decide +kernel, hu⟩
  have : c = .overlap ∨ c = .fermi := by
    revert hc
    cases c <;> decide +kernel
  rcases this with rfl | rfl
  exacts [Or.inl trivial, Or.inr hu]

/-- The hypotheses of `program_compare_partial` can be satisfied: a matrix of ones, compared with itself. -/
example : ∃ text tb, IsFileOf exampleIO [exampleShell] (fun _ _ => 1) text ∧ printLower exampleIO 3 (List.replicate 9 (.fin 1)) = .ok tb ∧
    compareProgram exampleIO (1e-10) text tb = .ok 0 ∧ ∀ (p q : Nat) (f g : Point → ℝ), q ≤ p → (basisFns [exampleShell])[p]? = some f → (basisFns [exampleShell])[q]? = some g →
      |(1 : ℝ) - 1| ≤ 1e-10 + 2e-14 := by
  have hl : (basisFns [exampleShell]).length = 3 := by rw [basisFns_length]; rfl
  have hget : ∀ i j, i < 3 → j < 3 → (List.replicate 9 (Dbl.fin 1))[i * 3 + j]? = some (.fin 1) := by
    intro i j hi hj
    rw [List.getElem?_replicate, if_pos (by omega)]
  have hf : FaithfulElements exampleIO (List.replicate 9 (.fin 1)) := by
    intro d hd _
    rw [List.eq_of_mem_replicate hd]
    exact exampleIO_one
  obtain ⟨ta, tb, h1, h2, h3⟩ := matrix_compare_complete exampleIO 3 (fun _ _ => 1) (fun _ _ => 1) (List.replicate 9 (.fin 1)) (List.replicate 9 (.fin 1)) (1e-10)
    (by norm_num) hget hget (by simp) (by simp) hf hf (by norm_num) (fun i j _ _ => by simp; norm_num)
  have hfile : IsFileOf exampleIO [exampleShell] (fun _ _ => 1) ta := by
    refine ⟨List.replicate 9 1, by rw [hl, List.map_replicate]; exact h1, by rw [hl]; rfl, fun p q f g hp hq => ?_⟩
    have hp' := (List.getElem?_eq_some_iff.1 hp).1
    have hq' := (List.getElem?_eq_some_iff.1 hq).1
    rw [hl] at hp' hq' ⊢
    rw [List.getElem?_replicate, if_pos (by omega)]
  refine ⟨ta, tb, hfile, h2, h3, ?_⟩
  exact program_compare_partial exampleIO [exampleShell] (fun _ _ => 1) ta hfile (by rw [hl]; norm_num) (fun _ _ _ _ => exampleIO_one) (fun _ _ => 1)
    (List.replicate 9 (.fin 1)) (by rw [hl]; exact hget) (by rw [hl]; simp) hf tb (by rw [hl]; exact h2) (1e-10) h3

/-- An unknown second argument: the message names the first. -/
example {G : Type} (env : ProgEnv G) (mol basis ecp : List Char) :
    ∃ r, programMain env ["--grpp".toList, "--ovelrap".toList] mol basis ecp = .ok r ∧ r.status = 1 ∧ r.unknown = some "--grpp".toList := by
  have hun : ∀ c : Calc, c.arg ≠ "--ovelrap".toList := by intro c; cases c <;> decide +kernel
  obtain ⟨r, h1, h2, -, h3⟩ := program_unknown env ["--grpp".toList, "--ovelrap".toList] ⟨_, by simp, hun⟩ mol basis ecp
  exact ⟨r, h1, h2, h3⟩

/-- An unknown element as second of three atoms. -/
example {G : Type} (lib : Lib G) (sf : SpecFun) (basis ecp : List Char) : programMain (exampleProgEnv lib sf) ["--grpp".toList]
    ([] ++ (Nat.toDigits 10 3 ++ ((List.replicate 1 " h 1.0E+00 1.0E+00 1.0E+00".toList).flatten ++ ([' '] ++ ("Xyz".toList ++ (" 1.0E+00 1.0E+00 1.0E+00".toList ++ []))))))
    basis ecp = .ok ⟨1, none, []⟩ := by
  refine program_bad_element (exampleProgEnv lib sf) ["--grpp".toList] (fun a ha => ⟨.grpp, (List.mem_singleton.1 ha).symm⟩) []
    (List.replicate 1 " h 1.0E+00 1.0E+00 1.0E+00".toList).flatten [' '] "Xyz".toList " 1.0E+00 1.0E+00 1.0E+00".toList [] allSpace_nil
    (List.replicate 1 (1, ![1, 1, 1])) (exampleXyz 1) 3 (by simp) (by decide) spaces_blank (by decide) (by decide) (by decide) (by decide) (by unfold SameLetters; decide +kernel) 1 1 1
    (NumsText.cons (ws := [' ']) (tok := ['1', '.', '0', 'E', '+', '0', '0']) (t := " 1.0E+00 1.0E+00".toList) spaces_blank exampleToken
        (NumsText.cons (ws := [' ']) (tok := ['1', '.', '0', 'E', '+', '0', '0']) (t := " 1.0E+00".toList) spaces_blank exampleToken
          (NumsText.cons (ws := [' ']) (tok := ['1', '.', '0', 'E', '+', '0', '0']) (t := []) spaces_blank exampleToken .nil))) startsBlank_nil basis ecp

/-- No basis set for hydrogen. -/
example {G : Type} (lib : Lib G) (sf : SpecFun) :
    programMain (exampleProgEnv lib sf) ["--overlap".toList] (exampleMol 1) ([] ++ "comment * 7 1 ".toList) "* 8 0 0 ".toList = .ub := by
  have hno : NoEntry 1 "comment * 7 1 ".toList :=
    NoEntry.word (w := "comment".toList) (ws := [' ']) (t := "* 7 1 ".toList) (by decide) (by decide) (by decide) (by decide) spaces_blank
      (NoEntry.star (z' := 7) (n := 1) (ws1 := [' ']) (ws2 := [' ']) (ws3 := [' ']) (t := []) (by decide) (by decide) (by decide) spaces_blank spaces_blank
        spaces_blank .nil)
  exact program_missing_basis (exampleProgEnv lib sf) ["--overlap".toList] (fun a ha => ⟨.overlap, (List.mem_singleton.1 ha).symm⟩)
    (exampleMol 1) [] "comment * 7 1 ".toList "* 8 0 0 ".toList (List.replicate 1 (1, ![1, 1, 1])) (exampleMol_file 1 (by decide)) allSpace_nil
    (fun a ha => by rw [List.eq_of_mem_replicate ha]; exact ⟨none, basis_missing _ _ 1 [] _ allSpace_nil hno⟩) (1, ![1, 1, 1]) (by simp) hno (fun _ => none)
    fun a ha => by rw [List.eq_of_mem_replicate ha]; exact ⟨[], _, rfl, allSpace_nil, exampleNoGrpp⟩

/-- 4635 hydrogen atoms, or more, with ten functions each. -/
example {G : Type} (lib : Lib G) (sf : SpecFun) (hi : lib.init = true) (ho : DocumentedOrder lib.gen) (n : Nat) (hn : 4635 ≤ n) (hn' : n ≤ intMax) :
    programMain (exampleProgEnv lib sf) ["--overlap".toList] (exampleMol n) exampleBasis "* 8 0 0 ".toList = .ub :=
  program_overflow (exampleProgEnv lib sf) (exampleProgEnv_ok lib sf hi ho) ["--overlap".toList] (fun a ha => ⟨.overlap, (List.mem_singleton.1 ha).symm⟩)
    (exampleMol n) exampleBasis "* 8 0 0 ".toList (List.replicate n (1, ![1, 1, 1])) (fun _ => List.replicate 3 exampleBlock) (fun _ => none)
    (exampleInput n hn') (by rw [exampleDim]; omega) (by simp)

end Libgrpp
