import Verif.Lemmas.BasisFile
import Verif.Props.Driver
import Verif.Props.MatrixFile

/-! # C103: the basis sets of the driver program, from the text of the file to the list of shells

Vocabulary (file `Verif/Model/BasisFile.lean`): `HasEntry io z bs text`: the first entry of the file for the element `z` consists of the blocks `bs`.
`blockFuns 0 bs`: the contracted functions of the blocks, each with its angular momentum (the position of the block), exponents and coefficients.
`NormalisedFun L alpha coeffs f`: the function `f` has these exponents and coefficients proportional to these, normalised as in C85. `cgto`: a contracted
Gaussian function. -/

namespace Libgrpp

open MeasureTheory Nat

/-- The blocks of an entry are within the limits of the program: at most ten of them. -/
structure EntryOk (bs : List BasisBlock) : Prop where
  len : bs.length ≤ 10
  ok : ∀ L (h : L < bs.length), bs[L].Ok L

/-- **C103**, reading. From every file with an entry within the limits the functions of the entry are read, in the order of blocks and columns, with the
exponents of the file, normalised. What is before the entry and after it does not matter. -/
theorem basis_read (gen : Nat → List Comp) (hg : DocumentedOrder gen) (io : DecimalIO) (text : List Char) (z : Nat) (hz : z ≤ intMax) (bs : List BasisBlock)
    (h : HasEntry io z bs text) (hok : EntryOk bs) :
    ∃ funs, readBasisSet gen io text z = .ok (some funs) ∧ List.Forall₂ (fun p f => NormalisedFun p.1 p.2.1 p.2.2 f) (blockFuns 0 bs) funs := by
  obtain ⟨t1, t2, rest, rfl, h1, h2⟩ := h
  have := hok.len
  obtain ⟨ws, hws, e⟩ := findBasisEntry_found z bs.length t1 (t2 ++ rest) hz (by unfold intMax; omega) h1
  obtain ⟨_, _, _, funs, g1, -, -, -, g2, -⟩ := readBlocks_spec gen hg io bs hok.len hok.ok t2 h2 (List.replicate maxExponents none)
    (List.replicate (maxExponents * maxExponents) none) (by rw [List.length_replicate]; rfl) (by rw [List.length_replicate]; rfl) ws rest hws
  refine ⟨funs, ?_, g2⟩
  unfold readBasisSet
  simp only [e, Outcome.ok_bind, Int.toNat_natCast, g1]

/-- **C103**, missing entry: the result is a null pointer. -/
theorem basis_missing (gen : Nat → List Comp) (io : DecimalIO) (z : Nat) (ws pre : List Char) (hws : AllSpace ws) (hpre : NoEntry z pre) :
    readBasisSet gen io (ws ++ pre) z = .ok none := by
  unfold readBasisSet
  simp only [findBasisEntry_missing z ws pre hws hpre, Outcome.ok_bind]

/-- **C103** (negative part), large blocks. A block with more than 100 exponents, or more than 100 functions, overruns the arrays: undefined behaviour. -/
theorem basis_overrun (gen : Nat → List Comp) (hg : DocumentedOrder gen) (io : DecimalIO) (text : List Char) (z : Nat) (hz : z ≤ intMax)
    (bs bs' : List BasisBlock) (b : BasisBlock) (h : HasEntry io z (bs ++ b :: bs') text) (hok : EntryOk bs) (hn : (bs ++ b :: bs').length ≤ intMax)
    (hnp : b.rows.length ≤ intMax) (hnc : b.nc ≤ intMax) (hb : 100 < b.rows.length ∨ 100 < b.nc ∧ b.rows ≠ []) :
    readBasisSet gen io text z = .ub := by
  obtain ⟨t1, t2, rest, rfl, h1, h2⟩ := h
  obtain ⟨ws, hws, e⟩ := findBasisEntry_found z _ t1 (t2 ++ rest) hz hn h1
  obtain ⟨u1, u2, rfl, h3, h4⟩ := h2.split
  cases h4 with
  | @cons _ _ v1 v2 h5 h6 =>
    obtain ⟨e', c', pre', funs, g1, g2, g3, g4, -, -⟩ := readBlocks_spec gen hg io bs hok.len hok.ok u1 h3 (List.replicate maxExponents none)
      (List.replicate (maxExponents * maxExponents) none) (by rw [List.length_replicate]; rfl) (by rw [List.length_replicate]; rfl) ws ((v1 ++ v2) ++ rest) hws
    unfold readBasisSet
    simp only [e, Outcome.ok_bind, Int.toNat_natCast]
    rw [show (u1 ++ (v1 ++ v2)) ++ rest = u1 ++ ((v1 ++ v2) ++ rest) by simp, forRange_ub_at g1 ?_ (by simp)]
    · rfl
    · simp only
      rw [show pre' ++ ((v1 ++ v2) ++ rest) = pre' ++ (v1 ++ (v2 ++ rest)) by simp,
        readBasisBlock_outside gen io _ b hnp hnc hb v1 h5 e' c' g3 g4 pre' (v2 ++ rest) g2]
      rfl

/-- **C103** (negative part), truncated file. If the file ends after the header of the last block, no error is noticed: the functions of that block are
made from exponents and coefficients of the block before. -/
theorem basis_truncated (gen : Nat → List Comp) (hg : DocumentedOrder gen) (io : DecimalIO) (z : Nat) (hz : z ≤ intMax) (bs : List BasisBlock)
    (b : BasisBlock) (hok : EntryOk (bs ++ [b])) (hlen : bs.length ≤ 8) (np nc : Nat) (h1 : np ≤ b.rows.length) (h2 : nc ≤ b.nc)
    (hne : ∀ k < nc, ∃ r, cgto ![0, 0, 0] (bs.length + 1, 0, 0) np ((b.col k).take np) (b.exps.take np) r ≠ 0)
    (t1 t2 t3 : List Char) (ht1 : EntryStart z (bs.length + 2) t1) (ht2 : BlocksText io (bs ++ [b]) t2) (ht3 : HeaderText np nc t3) :
    ∃ funs stale, readBasisSet gen io (t1 ++ (t2 ++ t3)) z = .ok (some (funs ++ stale)) ∧
      List.Forall₂ (fun p f => NormalisedFun p.1 p.2.1 p.2.2 f) (blockFuns 0 (bs ++ [b])) funs ∧
      List.Forall₂ (fun k f => NormalisedFun (bs.length + 1) (b.exps.take np) ((b.col k).take np) f) (List.range nc) stale := by
  obtain ⟨ws, hws, e⟩ := findBasisEntry_found z _ t1 (t2 ++ t3) hz (by unfold intMax; omega) ht1
  obtain ⟨e', c', pre', funs, g1, g2, g3, g4, g5, g6⟩ := readBlocks_spec gen hg io (bs ++ [b]) hok.len hok.ok t2 ht2 (List.replicate maxExponents none)
    (List.replicate (maxExponents * maxExponents) none) (by rw [List.length_replicate]; rfl) (by rw [List.length_replicate]; rfl) ws t3 hws
  obtain ⟨C', hF, hC'⟩ := g6 b (by simp)
  have hb : b.Ok bs.length := by have := hok.ok bs.length (by simp); simpa using this
  obtain ⟨s, stale, f1, f2⟩ := readBasisBlock_stale gen hg io (bs.length + 1) (by omega) b hb.np hb.nc hb.pos np nc h1 h2 hne t3 ht3 e' c' C' hF hC' pre' g2
  rw [List.forall₂_map_left_iff] at f2
  refine ⟨funs, stale, ?_, g5, f2⟩
  have hl : (bs ++ [b]).length = bs.length + 1 := by simp
  rw [hl] at g1
  unfold readBasisSet
  simp only [e, Outcome.ok_bind, Int.toNat_natCast]
  rw [forRange_succ, g1, Outcome.ok_bind]
  simp only [f1, Outcome.ok_bind]

/-! ## The list of shells -/

theorem blockFuns_mem {L : Nat} {bs : List BasisBlock} {p : Nat × List ℝ × List ℝ} (h : p ∈ blockFuns L bs) :
    ∃ i, ∃ hi : i < bs.length, p.1 = L + i ∧ p.2.1 = bs[i].exps ∧ ∃ k < bs[i].nc, p.2.2 = bs[i].col k := by
  induction bs generalizing L with
  | nil => simp [blockFuns] at h
  | cons b bs ih =>
    rw [blockFuns, List.mem_append] at h
    rcases h with h | h
    · rw [List.mem_map] at h
      obtain ⟨k, hk, rfl⟩ := h
      exact ⟨0, by simp, rfl, rfl, k, List.mem_range.1 hk, rfl⟩
    · obtain ⟨i, hi, h1, h2, h3⟩ := ih h
      exact ⟨i + 1, by simpa using hi, by omega, by simpa using h2, by simpa using h3⟩

theorem forall₂_mem_right {α β : Type} {R : α → β → Prop} {l : List α} {l' : List β} (h : List.Forall₂ R l l') {b : β} (hb : b ∈ l') : ∃ a ∈ l, R a b := by
  induction h with
  | nil => simp at hb
  | @cons x y l l' hxy _ ih =>
    rcases List.mem_cons.1 hb with rfl | hb
    · exact ⟨x, by simp, hxy⟩
    · obtain ⟨a, ha, hR⟩ := ih hb
      exact ⟨a, by simp [ha], hR⟩

/-- What a function read from an entry within the limits is like. -/
theorem entry_fun {bs : List BasisBlock} (hok : EntryOk bs) {funs : List BasisFun}
    (h : List.Forall₂ (fun p f => NormalisedFun p.1 p.2.1 p.2.2 f) (blockFuns 0 bs) funs) {f : BasisFun} (hf : f ∈ funs) :
    f.L ≤ 9 ∧ f.coeffs.length = f.num ∧ f.alpha.length = f.num ∧ (∀ x ∈ f.alpha, 0 < x) ∧ ∃ alpha coeffs, NormalisedFun f.L alpha coeffs f := by
  obtain ⟨p, hp, hn⟩ := forall₂_mem_right h hf
  obtain ⟨i, hi, e1, e2, k, hk, e3⟩ := blockFuns_mem hp
  have hlen := hok.len
  obtain ⟨n1, n2, n3, ⟨N, hN, n4⟩, n5⟩ := hn
  have e4 : f.num = bs[i].rows.length := by rw [n2, e2]; simp [BasisBlock.exps]
  refine ⟨by omega, by rw [n4, e3, e4]; simp [BasisBlock.col], by rw [n3, e2, e4]; simp [BasisBlock.exps], ?_, p.2.1, p.2.2, rfl, n2, n3, ⟨N, hN, n4⟩, ?_⟩
  · intro x hx
    rw [n3, e2, BasisBlock.exps, List.mem_map] at hx
    obtain ⟨r, hr, rfl⟩ := hx
    exact (hok.ok i hi).pos r hr
  · rw [n1]; exact n5

/-- **C103**, shells. If the file has an entry within the limits for every element of the molecule, the program makes for every atom the functions of its
entry, at the position of the atom, in the order of the atoms. All shells are such as the theorems on the matrices (C97, C98, C100, C101) ask for. -/
theorem molecule_shells (gen : Nat → List Comp) (hg : DocumentedOrder gen) (io : DecimalIO) (text : List Char) (atoms : List (Nat × Point))
    (entries : Nat → List BasisBlock) (h : ∀ a ∈ atoms, a.1 < 131 ∧ HasEntry io a.1 (entries a.1) text ∧ EntryOk (entries a.1)) :
    ∃ basis : Nat → List BasisFun,
      (∀ a ∈ atoms, List.Forall₂ (fun p f => NormalisedFun p.1 p.2.1 p.2.2 f) (blockFuns 0 (entries a.1)) (basis a.1)) ∧
      mainShells gen io text atoms = .ok (moleculeShells gen atoms basis) ∧
      ∀ s ∈ moleculeShells gen atoms basis, s.InMolecule gen ∧ ∃ a ∈ atoms, s.origin = a.2 := by
  have hread : ∀ z, ∃ funs, (∃ a ∈ atoms, a.1 = z) → readBasisSet gen io text z = .ok (some funs) ∧
      List.Forall₂ (fun p f => NormalisedFun p.1 p.2.1 p.2.2 f) (blockFuns 0 (entries z)) funs := by
    intro z
    by_cases hz : ∃ a ∈ atoms, a.1 = z
    · obtain ⟨a, ha, rfl⟩ := hz
      obtain ⟨h1, h2, h3⟩ := h a ha
      obtain ⟨funs, g1, g2⟩ := basis_read gen hg io text a.1 (by unfold intMax; omega) _ h2 h3
      exact ⟨funs, fun _ => ⟨g1, g2⟩⟩
    · exact ⟨[], fun h => absurd h hz⟩
  choose basis hbasis using hread
  have hfun : ∀ a ∈ atoms, ∀ f ∈ basis a.1, f.L ≤ 9 ∧ f.coeffs.length = f.num ∧ f.alpha.length = f.num ∧ ∀ x ∈ f.alpha, 0 < x := fun a ha f hf => by
    obtain ⟨h1, h2, h3, h4, -⟩ := entry_fun (h a ha).2.2 (hbasis a.1 ⟨a, ha, rfl⟩).2 hf
    exact ⟨h1, h2, h3, h4⟩
  obtain ⟨sets, g1, g2⟩ := mainBasisSets_spec gen io text atoms (fun z => some (basis z)) fun a ha => ⟨(h a ha).1, (hbasis a.1 ⟨a, ha, rfl⟩).1⟩
  refine ⟨basis, fun a ha => (hbasis a.1 ⟨a, ha, rfl⟩).2, ?_, ?_⟩
  · unfold mainShells
    rw [g1, Outcome.ok_bind]
    exact constructShellList_spec gen atoms sets basis g2 fun a ha f hf => ⟨(hfun a ha f hf).2.1, (hfun a ha f hf).2.2.1⟩
  · intro s hs
    rw [moleculeShells, List.mem_flatMap] at hs
    obtain ⟨a, ha, hs⟩ := hs
    rw [List.mem_map] at hs
    obtain ⟨f, hf, rfl⟩ := hs
    obtain ⟨l9, lc, la, lp⟩ := hfun a ha f hf
    refine ⟨⟨⟨⟨lc.ge, la.ge⟩, rfl, rfl, fun i hi => ?_⟩, l9⟩, a, ha, rfl⟩
    have hi' : i < f.alpha.length := by rw [la]; exact hi
    simp only
    rw [List.getD_eq_getElem?_getD, List.getElem?_eq_getElem hi']
    exact lp _ (List.getElem_mem hi')

/-- **C103** (negative part), missing basis set. If for one of the elements of the molecule the file has no entry, the program goes on after the message
and dereferences a null pointer. -/
theorem molecule_shells_missing (gen : Nat → List Comp) (io : DecimalIO) (ws text : List Char) (hws : AllSpace ws) (atoms : List (Nat × Point))
    (h : ∀ a ∈ atoms, a.1 < 131 ∧ ∃ r, readBasisSet gen io (ws ++ text) a.1 = .ok r) (a : Nat × Point) (ha : a ∈ atoms) (hno : NoEntry a.1 text) :
    mainShells gen io (ws ++ text) atoms = .ub := by
  have hread : ∀ z, ∃ r, (∃ a ∈ atoms, a.1 = z) → readBasisSet gen io (ws ++ text) z = .ok r := by
    intro z
    by_cases hz : ∃ a ∈ atoms, a.1 = z
    · obtain ⟨a, ha, rfl⟩ := hz
      obtain ⟨-, r, hr⟩ := h a ha
      exact ⟨r, fun _ => hr⟩
    · exact ⟨none, fun h => absurd h hz⟩
  choose R hR using hread
  obtain ⟨sets, g1, g2⟩ := mainBasisSets_spec gen io (ws ++ text) atoms R fun a ha => ⟨(h a ha).1, hR a.1 ⟨a, ha, rfl⟩⟩
  have hnone : R a.1 = none := by
    have h1 := hR a.1 ⟨a, ha, rfl⟩
    rw [basis_missing gen io a.1 ws text hws hno] at h1
    exact (Outcome.ok.inj h1).symm
  unfold mainShells
  rw [g1, Outcome.ok_bind]
  exact constructShellList_null gen atoms sets R g2 ⟨a, ha, hnone⟩

/-! ## Normalisation -/

/-- **C103**, norms. The square norm of every basis function of the molecule: that of the component x^n y^l z^m is (2n-1)!! (2l-1)!! (2m-1)!!. -/
theorem basis_norms {gen : Nat → List Comp} (hg : DocumentedOrder gen) (atoms : List (Nat × Point)) (entries : Nat → List BasisBlock)
    (hok : ∀ a ∈ atoms, EntryOk (entries a.1)) (basis : Nat → List BasisFun)
    (h : ∀ a ∈ atoms, List.Forall₂ (fun p f => NormalisedFun p.1 p.2.1 p.2.2 f) (blockFuns 0 (entries a.1)) (basis a.1))
    (s : Shell) (hs : s ∈ moleculeShells gen atoms basis) (m : Nat) (c : Comp) (hm : s.cartList[m]? = some c) :
    ∫ r, basisFn s m r * basisFn s m r = ((2 * c.1 - 1)‼ : ℕ) * ((2 * c.2.1 - 1)‼ : ℕ) * ((2 * c.2.2 - 1)‼ : ℕ) := by
  rw [moleculeShells, List.mem_flatMap] at hs
  obtain ⟨a, ha, hs⟩ := hs
  rw [List.mem_map] at hs
  obtain ⟨f, hf, rfl⟩ := hs
  obtain ⟨-, -, -, -, alpha, coeffs, -, -, -, -, hn⟩ := entry_fun (hok a ha) (h a ha) hf
  simp only at hm
  have hsum : c.1 + c.2.1 + c.2.2 = f.L := gen_sum hg (List.mem_of_getElem? hm)
  rw [← hn a.2 c hsum]
  congr 1
  funext r
  rw [pow_two]
  simp only [basisFn, cgto, hsum, List.getD_eq_getElem?_getD, hm, Option.getD_some]

/-- **C103**, normalisation to unity. The comment in the source, "each function must be normalized to unity", holds for the components in which no
coordinate is squared: for all functions of s and p type. -/
theorem basis_unit_partial {gen : Nat → List Comp} (hg : DocumentedOrder gen) (atoms : List (Nat × Point)) (entries : Nat → List BasisBlock)
    (hok : ∀ a ∈ atoms, EntryOk (entries a.1)) (basis : Nat → List BasisFun)
    (h : ∀ a ∈ atoms, List.Forall₂ (fun p f => NormalisedFun p.1 p.2.1 p.2.2 f) (blockFuns 0 (entries a.1)) (basis a.1))
    (s : Shell) (hs : s ∈ moleculeShells gen atoms basis) (m : Nat) (c : Comp) (hm : s.cartList[m]? = some c) (hc : c.1 ≤ 1 ∧ c.2.1 ≤ 1 ∧ c.2.2 ≤ 1) :
    ∫ r, basisFn s m r * basisFn s m r = 1 := by
  rw [basis_norms hg atoms entries hok basis h s hs m c hm]
  have : ∀ n, n ≤ 1 → (2 * n - 1)‼ = 1 := fun n hn => by interval_cases n <;> rfl
  rw [this _ hc.1, this _ hc.2.1, this _ hc.2.2]
  norm_num

/-- **C103** (negative part). It does not hold for any shell from d on: the first function x^L has the square norm (2L-1)!!, at least 3. -/
theorem basis_unit_false {gen : Nat → List Comp} (hg : DocumentedOrder gen) (atoms : List (Nat × Point)) (entries : Nat → List BasisBlock)
    (hok : ∀ a ∈ atoms, EntryOk (entries a.1)) (basis : Nat → List BasisFun)
    (h : ∀ a ∈ atoms, List.Forall₂ (fun p f => NormalisedFun p.1 p.2.1 p.2.2 f) (blockFuns 0 (entries a.1)) (basis a.1))
    (s : Shell) (hs : s ∈ moleculeShells gen atoms basis) (hL : 2 ≤ s.L) :
    ∃ m < s.cart_size, (3 : ℝ) ≤ ∫ r, basisFn s m r * basisFn s m r := by
  have hlist : s.cartList = gen s.L ∧ s.cart_size = cartSize s.L := by
    rw [moleculeShells, List.mem_flatMap] at hs
    obtain ⟨a, ha, hs⟩ := hs
    rw [List.mem_map] at hs
    obtain ⟨f, hf, rfl⟩ := hs
    exact ⟨rfl, rfl⟩
  have hmem : ((s.L, 0, 0) : Comp) ∈ s.cartList := by
    rw [hlist.1, hg.eq]
    exact ((cartesian_turbomole_complete s.L).2.2 s.L 0 0).2 (by omega)
  obtain ⟨m, hm, e⟩ := List.getElem_of_mem hmem
  refine ⟨m, by rw [hlist.2, ← gen_length hg, ← hlist.1]; exact hm, ?_⟩
  rw [basis_norms hg atoms entries hok basis h s hs m (s.L, 0, 0) (by rw [List.getElem?_eq_getElem hm, e])]
  obtain ⟨k, hk⟩ : ∃ k, 2 * s.L - 1 = k + 2 := ⟨2 * s.L - 3, by omega⟩
  have h3 : 3 ≤ (2 * s.L - 1)‼ := by
    rw [hk, Nat.doubleFactorial_add_two]
    have : 1 ≤ k‼ := Nat.doubleFactorial_pos k
    calc 3 ≤ (k + 2) * 1 := by omega
      _ ≤ (k + 2) * k‼ := Nat.mul_le_mul_left _ this
  have h3' : (3 : ℝ) ≤ ((2 * s.L - 1)‼ : ℕ) := by exact_mod_cast h3
  simpa using h3'

/-- **C103**, from the text of the basis file to the matrix. For every molecule all of whose elements have an entry in the file, the program computes the
overlap matrix of the functions of the file; on its diagonal are the numbers of `basis_norms`. -/
theorem basis_to_overlap (gen : Nat → List Comp) (hg : DocumentedOrder gen) (io : DecimalIO) (text : List Char) (atoms : List (Nat × Point))
    (entries : Nat → List BasisBlock) (h : ∀ a ∈ atoms, a.1 < 131 ∧ HasEntry io a.1 (entries a.1) text ∧ EntryOk (entries a.1)) :
    ∃ shells, mainShells gen io text atoms = .ok shells ∧
      ∀ buf M, (basisFns shells).length * (basisFns shells).length ≤ 2147483648 → maxBuf ≤ buf.length →
        (basisFns shells).length * (basisFns shells).length ≤ M.length →
        ∃ M', evalOverlap shells buf M = .ok M' ∧ IsMatrixOf shells (fun f g => ∫ r, f r * g r) M M' := by
  obtain ⟨basis, -, e, hs⟩ := molecule_shells gen hg io text atoms entries h
  exact ⟨_, e, fun buf M hd hb hM => molecular_overlap hg _ (fun s h => (hs s h).1) hd buf M hb hM⟩

/-! ## Examples -/

/-- One exponent and one function. -/
noncomputable def exampleBlock : BasisBlock := ⟨1, [(1, [1])]⟩

theorem exampleBlock_ok (L : Nat) : exampleBlock.Ok L := by
  refine ⟨by simp [exampleBlock], by simp [exampleBlock], fun r hr => ?_, fun k hk => ⟨![1, 0, 0], ?_⟩⟩
  · simp only [exampleBlock, List.mem_singleton] at hr
    rw [hr]; exact one_pos
  · have hk0 : k = 0 := by simp only [exampleBlock] at hk; omega
    subst hk0
    have h1 : (0 : ℝ) < (2 * 1 / Real.pi) ^ (3 / 4 : ℝ) := Real.rpow_pos_of_pos (by positivity) _
    have h2 : (0 : ℝ) < (4 * 1) ^ (((L + 0 + 0 : ℕ) : ℝ) / 2) := Real.rpow_pos_of_pos (by norm_num) _
    simp only [exampleBlock, BasisBlock.exps, BasisBlock.col, cgto, List.map_cons, List.map_nil, List.length_cons, List.length_nil, zero_add,
      Finset.sum_range_one, List.getD_cons_zero, primFn, one_mul]
    refine mul_ne_zero (mul_ne_zero h1.ne' h2.ne') (mul_ne_zero (Finset.prod_ne_zero_iff.2 fun i _ => ?_) (Real.exp_pos _).ne')
    fin_cases i <;> simp [Comp.exp]

theorem exampleEntry_ok (n : Nat) (hn : n ≤ 10) : EntryOk (List.replicate n exampleBlock) :=
  ⟨by simpa using hn, fun L h => by rw [List.getElem_replicate]; exact exampleBlock_ok L⟩

/-- The text of `exampleBlock`. -/
def exampleBlockText : List Char := "1 1\n1.0E+00 1.0E+00\n".toList

theorem spaces_blank : Spaces [' '] := ⟨by simp, fun c hc => by rw [List.mem_singleton.1 hc]; decide⟩

theorem spaces_newline : Spaces ['\n'] := ⟨by simp, fun c hc => by rw [List.mem_singleton.1 hc]; decide⟩

theorem allSpace_nil : AllSpace [] := fun c hc => by simp at hc

theorem exampleToken : NumToken exampleIO ['1', '.', '0', 'E', '+', '0', '0'] 1 := ⟨by simp, by decide, by simp [exampleIO]⟩

theorem exampleHeader : HeaderText 1 1 ['1', ' ', '1', '\n'] := ⟨[], [' '], ['\n'], by simp [Nat.toDigits, Nat.toDigitsCore, Nat.digitChar], allSpace_nil, spaces_blank, spaces_newline⟩

theorem exampleRow : RowText exampleIO 1 [1] "1.0E+00 1.0E+00\n".toList :=
  ⟨[], ['1', '.', '0', 'E', '+', '0', '0'], [' ', '1', '.', '0', 'E', '+', '0', '0'], ['\n'], rfl, allSpace_nil, exampleToken,
    NumsText.cons (ws := [' ']) (tok := ['1', '.', '0', 'E', '+', '0', '0']) (t := []) spaces_blank exampleToken .nil, [], rfl, by simp, by simp⟩

theorem exampleBlock_text : BlockText exampleIO exampleBlock exampleBlockText :=
  ⟨['1', ' ', '1', '\n'], "1.0E+00 1.0E+00\n".toList, rfl, exampleHeader, RowsText.cons (t2 := []) rfl exampleRow .nil⟩

theorem exampleBlocks_text (n : Nat) : BlocksText exampleIO (List.replicate n exampleBlock) (List.replicate n exampleBlockText).flatten := by
  induction n with
  | zero => exact .nil
  | succ n ih => exact .cons exampleBlock_text ih

theorem exampleStart : EntryStart 1 3 "comment * 8 1 * 1 3\n".toList :=
  ⟨[], "comment * 8 1 ".toList, [' '], [' '], ['\n'], by simp [Nat.toDigits, Nat.toDigitsCore, Nat.digitChar], allSpace_nil,
    NoEntry.word (w := "comment".toList) (ws := [' ']) (t := "* 8 1 ".toList) (by decide) (by decide) (by decide) (by decide) spaces_blank
      (NoEntry.star (z' := 8) (n := 1) (ws1 := [' ']) (ws2 := [' ']) (ws3 := [' ']) (t := []) (by decide) (by decide) (by decide) spaces_blank spaces_blank
        spaces_blank .nil), spaces_blank, spaces_blank, spaces_newline⟩

/-- Functions of s, p and d type for hydrogen, after an entry for oxygen without functions. -/
theorem exampleHasEntry : HasEntry exampleIO 1 (List.replicate 3 exampleBlock)
    ("comment * 8 1 * 1 3\n".toList ++ ((List.replicate 3 exampleBlockText).flatten ++ "trailing".toList)) :=
  ⟨_, _, _, rfl, exampleStart, exampleBlocks_text 3⟩

example : ∃ funs, readBasisSet cartesianDirac exampleIO
      ("comment * 8 1 * 1 3\n".toList ++ ((List.replicate 3 exampleBlockText).flatten ++ "trailing".toList)) 1 = .ok (some funs) ∧ funs.length = 3 := by
  obtain ⟨funs, h1, h2⟩ := basis_read cartesianDirac (.inl rfl) exampleIO _ 1 (by decide) _ exampleHasEntry (exampleEntry_ok 3 (by omega))
  exact ⟨funs, h1, by rw [← h2.length_eq]; rfl⟩

/-- Two hydrogen atoms with s, p and d functions: the d functions x² have the square norm 3. -/
example : ∃ shells, mainShells cartesianDirac exampleIO
      ("comment * 8 1 * 1 3\n".toList ++ ((List.replicate 3 exampleBlockText).flatten ++ "trailing".toList)) [(1, ![0, 0, 0]), (1, ![0, 0, 1])] = .ok shells ∧
    shells.length = 6 ∧ ∃ s ∈ shells, ∃ m < s.cart_size, (3 : ℝ) ≤ ∫ r, basisFn s m r * basisFn s m r := by
  have hok := exampleEntry_ok 3 (by omega)
  have hz : ∀ a ∈ ([(1, ![0, 0, 0]), (1, ![0, 0, 1])] : List (Nat × Point)), a.1 = 1 := by simp
  obtain ⟨basis, h1, h2, h3⟩ := molecule_shells cartesianDirac (.inl rfl) exampleIO
    ("comment * 8 1 * 1 3\n".toList ++ ((List.replicate 3 exampleBlockText).flatten ++ "trailing".toList)) [(1, ![0, 0, 0]), (1, ![0, 0, 1])]
    (fun _ => List.replicate 3 exampleBlock) fun a ha => ⟨by rw [hz a ha]; decide, by rw [hz a ha]; exact exampleHasEntry, hok⟩
  have hb := h1 (1, ![0, 0, 0]) (by simp)
  have hl : (basis 1).length = 3 := by rw [← hb.length_eq]; rfl
  refine ⟨_, h2, by simp [moleculeShells, hl], ?_⟩
  have e : blockFuns 0 (List.replicate 3 exampleBlock) =
      [(0, exampleBlock.exps, exampleBlock.col 0), (1, exampleBlock.exps, exampleBlock.col 0), (2, exampleBlock.exps, exampleBlock.col 0)] := rfl
  rw [e] at hb
  obtain ⟨f, hf, hfL⟩ : ∃ f ∈ basis 1, f.L = 2 := by
    generalize basis 1 = l at hb
    cases hb with
    | cons _ hb => cases hb with
      | cons _ hb => cases hb with
        | cons hn _ => exact ⟨_, by simp, hn.1⟩
  refine ⟨_, List.mem_flatMap.2 ⟨(1, ![0, 0, 0]), by simp, List.mem_map.2 ⟨f, hf, rfl⟩⟩, ?_⟩
  exact basis_unit_false (.inl rfl) [(1, ![0, 0, 0]), (1, ![0, 0, 1])] (fun _ => List.replicate 3 exampleBlock) (fun a _ => hok) basis h1 _ (List.mem_flatMap.2 ⟨(1, ![0, 0, 0]), by simp, List.mem_map.2 ⟨f, hf, rfl⟩⟩) hfL.ge

/-- A file that ends after the header of the third block: the d function is made from the data of the p function. -/
example : ∃ funs f, readBasisSet cartesianDirac exampleIO
      ("comment * 8 1 * 1 3\n".toList ++ ((List.replicate 2 exampleBlockText).flatten ++ ['1', ' ', '1', '\n'])) 1 = .ok (some (funs ++ [f])) ∧
    funs.length = 2 ∧ f.L = 2 ∧ f.alpha = [1] := by
  obtain ⟨funs, stale, h1, h2, h3⟩ := basis_truncated cartesianDirac (.inl rfl) exampleIO 1 (by decide) [exampleBlock] exampleBlock (exampleEntry_ok 2 (by omega))
    (by decide) 1 1 (by simp [exampleBlock]) (by simp [exampleBlock]) (fun k hk => by
      have := (exampleBlock_ok 2).nonzero k hk
      simpa [exampleBlock, BasisBlock.exps, BasisBlock.col] using this)
    "comment * 8 1 * 1 3\n".toList _ _ exampleStart (exampleBlocks_text 2) exampleHeader
  cases h3 with
  | @cons _ f _ _ hn h3 =>
    cases h3
    exact ⟨funs, f, h1, by rw [← h2.length_eq]; rfl, hn.1, hn.2.2.1⟩

/-- Oxygen is not in the file. -/
example (O : Point) : mainShells cartesianDirac exampleIO ([] ++ "comment * 7 1 ".toList) [(8, O)] = .ub := by
  have hno : NoEntry 8 "comment * 7 1 ".toList :=
    NoEntry.word (w := "comment".toList) (ws := [' ']) (t := "* 7 1 ".toList) (by decide) (by decide) (by decide) (by decide) spaces_blank
      (NoEntry.star (z' := 7) (n := 1) (ws1 := [' ']) (ws2 := [' ']) (ws3 := [' ']) (t := []) (by decide) (by decide) (by decide) spaces_blank spaces_blank
        spaces_blank .nil)
  refine molecule_shells_missing cartesianDirac exampleIO [] _ allSpace_nil _ (fun a ha => ?_) (8, O) (by simp) hno
  rw [List.mem_singleton] at ha
  subst ha
  exact ⟨by simp, none, basis_missing _ _ 8 [] _ allSpace_nil hno⟩

/-- A block with 101 exponents. -/
example : readBasisSet cartesianDirac exampleIO
    ("* 1 1\n".toList ++ (("101 1\n".toList ++ (List.replicate 101 "1.0E+00 1.0E+00\n".toList).flatten) ++ [])) 1 = .ub := by
  have hrows : ∀ n, RowsText exampleIO 1 (List.replicate n (1, [1])) (List.replicate n "1.0E+00 1.0E+00\n".toList).flatten := by
    intro n
    induction n with
    | zero => exact .nil
    | succ n ih => exact RowsText.cons rfl exampleRow ih
  have hblock : BlockText exampleIO ⟨1, List.replicate 101 (1, [1])⟩ ("101 1\n".toList ++ (List.replicate 101 "1.0E+00 1.0E+00\n".toList).flatten) :=
    ⟨"101 1\n".toList, _, rfl, ⟨[], [' '], ['\n'], by simp [Nat.toDigits, Nat.toDigitsCore, Nat.digitChar], allSpace_nil, spaces_blank, spaces_newline⟩, hrows 101⟩
  refine basis_overrun cartesianDirac (.inl rfl) exampleIO _ 1 (by decide) [] [] ⟨1, List.replicate 101 (1, [1])⟩
    ⟨_, _, _, rfl, ⟨[], [], [' '], [' '], ['\n'], by simp [Nat.toDigits, Nat.toDigitsCore, Nat.digitChar], allSpace_nil, .nil, spaces_blank, spaces_blank, spaces_newline⟩, ?_⟩
    ⟨by simp, fun L h => absurd h (by simp)⟩ (by decide) (by simp [intMax]) (by decide) (Or.inl (by simp))
  have := BlocksText.cons hblock .nil
  rwa [List.append_nil] at this

end Libgrpp
