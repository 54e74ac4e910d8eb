import Verif.Lemmas.FortranProgram
import Verif.Props.FortranMatrix
import Verif.Props.Program

/-! # The output files of the two programs: definitions and auxiliary lemmas for Props/FortranProgram -/

namespace Libgrpp

/-- The text is what the Fortran program prints of a matrix with the elements `V p q`. -/
def FtnHolds (io : DecimalIO) (N : ℕ) (V : ℕ → ℕ → ℝ) (text : List Char) : Prop :=
  ∃ M : List ℝ, ftnPrintMatrix io N (M.map Dbl.fin) = .ok text ∧ M.length = N * N ∧ ∀ p q, p < N → q < N → M[p * N + q]? = some (V p q)

/-- The files of the Fortran program for a molecule of `natoms` atoms: `M` the matrices of the averaged and the three spin-orbit potentials, `S` of overlap,
`A` of nuclear attraction, `V` the gradients. -/
def FtnOutput (io : DecimalIO) (N natoms : ℕ) (M : Fin 4 → ℕ → ℕ → ℝ) (S A : ℕ → ℕ → ℝ) (V : Fin 4 → ℕ → Fin 3 → ℕ → ℕ → ℝ) (files : List OutFile) : Prop :=
  ∃ (t : Fin 4 → List Char) (s n : List Char) (g : Fin 4 → ℕ → Fin 3 → List Char),
    files = [("libgrpp_f90_arep.txt", t 0), ("libgrpp_f90_so_x.txt", t 1), ("libgrpp_f90_so_y.txt", t 2), ("libgrpp_f90_so_z.txt", t 3),
        ("libgrpp_f90_overlap.txt", s), ("libgrpp_f90_nucattr.txt", n)] ++
      (List.range natoms).flatMap (fun a =>
        [("libgrpp_f90_arep_grad_" ++ toString a ++ "x" ++ ".txt", g 0 a 0), ("libgrpp_f90_arep_grad_" ++ toString a ++ "y" ++ ".txt", g 0 a 1),
          ("libgrpp_f90_arep_grad_" ++ toString a ++ "z" ++ ".txt", g 0 a 2)]) ++
      (List.range natoms).flatMap (fun a =>
        [("libgrpp_f90_so_x_grad_" ++ toString a ++ "x" ++ ".txt", g 1 a 0), ("libgrpp_f90_so_y_grad_" ++ toString a ++ "x" ++ ".txt", g 2 a 0),
          ("libgrpp_f90_so_z_grad_" ++ toString a ++ "x" ++ ".txt", g 3 a 0), ("libgrpp_f90_so_x_grad_" ++ toString a ++ "y" ++ ".txt", g 1 a 1),
          ("libgrpp_f90_so_y_grad_" ++ toString a ++ "y" ++ ".txt", g 2 a 1), ("libgrpp_f90_so_z_grad_" ++ toString a ++ "y" ++ ".txt", g 3 a 1),
          ("libgrpp_f90_so_x_grad_" ++ toString a ++ "z" ++ ".txt", g 1 a 2), ("libgrpp_f90_so_y_grad_" ++ toString a ++ "z" ++ ".txt", g 2 a 2),
          ("libgrpp_f90_so_z_grad_" ++ toString a ++ "z" ++ ".txt", g 3 a 2)]) ∧
    (∀ k, FtnHolds io N (M k) (t k)) ∧ FtnHolds io N S s ∧ FtnHolds io N A n ∧ ∀ x, ∀ a < natoms, ∀ k, FtnHolds io N (V x a k) (g x a k)

/-- The files of the driver in C, called with `--grpp --overlap --coulomb-point --grpp-grad`. -/
def COutput (io : DecimalIO) (N natoms : ℕ) (M : Fin 4 → ℕ → ℕ → ℝ) (S A : ℕ → ℕ → ℝ) (V : Fin 4 → ℕ → Fin 3 → ℕ → ℕ → ℝ) (files : List OutFile) : Prop :=
  ∃ (t : Fin 4 → List Char) (s n : List Char) (g : Fin 4 → ℕ → Fin 3 → List Char),
    files = [("libgrpp_c_arep.txt", t 0), ("libgrpp_c_so_x.txt", t 1), ("libgrpp_c_so_y.txt", t 2), ("libgrpp_c_so_z.txt", t 3),
        ("libgrpp_c_overlap.txt", s), ("libgrpp_c_nucattr_point.txt", n)] ++
      (List.range natoms).flatMap (fun a =>
        [("libgrpp_c_arep_grad_" ++ toString a ++ "x.txt", g 0 a 0), ("libgrpp_c_arep_grad_" ++ toString a ++ "y.txt", g 0 a 1),
          ("libgrpp_c_arep_grad_" ++ toString a ++ "z.txt", g 0 a 2), ("libgrpp_c_so_x_grad_" ++ toString a ++ "x.txt", g 1 a 0),
          ("libgrpp_c_so_x_grad_" ++ toString a ++ "y.txt", g 1 a 1), ("libgrpp_c_so_x_grad_" ++ toString a ++ "z.txt", g 1 a 2),
          ("libgrpp_c_so_y_grad_" ++ toString a ++ "x.txt", g 2 a 0), ("libgrpp_c_so_y_grad_" ++ toString a ++ "y.txt", g 2 a 1),
          ("libgrpp_c_so_y_grad_" ++ toString a ++ "z.txt", g 2 a 2), ("libgrpp_c_so_z_grad_" ++ toString a ++ "x.txt", g 3 a 0),
          ("libgrpp_c_so_z_grad_" ++ toString a ++ "y.txt", g 3 a 1), ("libgrpp_c_so_z_grad_" ++ toString a ++ "z.txt", g 3 a 2)]) ∧
    (∀ k, HoldsMatrix io N (M k) (t k)) ∧ HoldsMatrix io N S s ∧ HoldsMatrix io N A n ∧ ∀ x, ∀ a < natoms, ∀ k, HoldsMatrix io N (V x a k) (g x a k)

/-! ## Matrices and texts -/

/-- The matrix with the elements `V p q` is determined by them. -/
theorem matrix_unique {N : ℕ} {V W : ℕ → ℕ → ℝ} {M M' : List ℝ} (h : M.length = N * N) (h' : M'.length = N * N)
    (hM : ∀ p q, p < N → q < N → M[p * N + q]? = some (V p q)) (hM' : ∀ p q, p < N → q < N → M'[p * N + q]? = some (W p q))
    (he : ∀ p q, p < N → q < N → V p q = W p q) : M = M' := by
  refine List.ext_getElem (h.trans h'.symm) fun i hi hi' => ?_
  have hN : 0 < N := by
    rcases Nat.eq_zero_or_pos N with rfl | h0
    · rw [h] at hi; omega
    · exact h0
  have hp : i / N < N := Nat.div_lt_of_lt_mul (by rw [h] at hi; exact hi)
  have hq : i % N < N := Nat.mod_lt _ hN
  have e : i / N * N + i % N = i := by rw [Nat.mul_comm]; exact Nat.div_add_mod i N
  have a := hM _ _ hp hq
  have b := hM' _ _ hp hq
  rw [e, List.getElem?_eq_getElem hi, Option.some.injEq] at a
  rw [e, List.getElem?_eq_getElem hi', Option.some.injEq] at b
  rw [a, b, he _ _ hp hq]

/-- The elements of a list as a matrix. -/
noncomputable def asMatrix (N : ℕ) (M : List ℝ) (p q : ℕ) : ℝ := M.getD (p * N + q) 0

theorem asMatrix_some {N : ℕ} {M : List ℝ} (h : M.length = N * N) : ∀ p q, p < N → q < N → M[p * N + q]? = some (asMatrix N M p q) := by
  intro p q hp hq
  have : p * N + q < M.length := by rw [h]; exact lower_index hp hq
  unfold asMatrix
  rw [List.getD_eq_getElem?_getD, List.getElem?_eq_getElem this]
  rfl

theorem forRange_total {σ : Type} {n : Nat} {s : σ} {body : Nat → σ → Outcome σ} (h : ∀ i s, i < n → ∃ s', body i s = .ok s') :
    ∃ s', forRange n s body = .ok s' := by
  obtain ⟨s', e, -⟩ := forRange_inv (n := n) (s := s) (body := body) (fun _ _ => True) trivial fun i s hi _ => by
    obtain ⟨s', e⟩ := h i s hi
    exact ⟨s', e, trivial⟩
  exact ⟨s', e⟩

theorem ftnPrint_ok (io : DecimalIO) (dim : Nat) (M : List ℝ) (h : dim * dim ≤ M.length) : ∃ t, ftnPrintMatrix io dim (M.map Dbl.fin) = .ok t := by
  unfold ftnPrintMatrix
  refine forRange_total fun i s hi => forRange_total fun j out hj => ?_
  have hx : i * dim + j < (M.map Dbl.fin).length := by
    rw [List.length_map]
    exact lt_of_lt_of_le (lower_index hi (by omega)) h
  rw [rd_ok hx, Outcome.ok_bind]
  exact ⟨_, rfl⟩

/-- The text of a matrix, for `ftnWriteAll`. -/
noncomputable def ftnText (io : DecimalIO) (dim : Nat) (M : List ℝ) : List Char := (ftnPrintMatrix io dim (M.map Dbl.fin)).getD []

theorem ftnText_ok (io : DecimalIO) {dim : Nat} {M : List ℝ} (h : dim * dim ≤ M.length) :
    ftnPrintMatrix io dim (M.map Dbl.fin) = .ok (ftnText io dim M) := by
  obtain ⟨t, e⟩ := ftnPrint_ok io dim M h
  unfold ftnText
  rw [e]
  rfl

theorem ftnWriteAll_ok (io : DecimalIO) (dim : Nat) (l : List (String × List ℝ)) (h : ∀ m ∈ l, dim * dim ≤ m.2.length) :
    ftnWriteAll io dim l = .ok (l.map fun m => (m.1, ftnText io dim m.2)) := by
  induction l with
  | nil => rfl
  | cons m l ih =>
    obtain ⟨name, M⟩ := m
    unfold ftnWriteAll
    rw [ftnText_ok io (h _ List.mem_cons_self), Outcome.ok_bind, ih fun m hm => h m (List.mem_cons_of_mem _ hm), Outcome.ok_bind]
    rfl

theorem zipIdx_flatMap {α β : Type} (l : List α) (d : α) (f : α × Nat → List β) :
    l.zipIdx.flatMap f = (List.range l.length).flatMap fun i => f (l.getD i d, i) := by
  have : l.zipIdx = (List.range l.length).map fun i => (l.getD i d, i) := by
    refine List.ext_getElem (by simp) fun i hi hi' => ?_
    have hl : i < l.length := by simpa using hi
    simp [List.getD_eq_getElem?_getD, List.getElem?_eq_getElem hl]
  rw [this, List.flatMap_map]

/-- The files, if all matrices have the elements `M`, `S`, `A`, `V`. -/
theorem ftnOutput_of (io : DecimalIO) {N natoms : ℕ} (r : Fin 4 → List ℝ) (s n : List ℝ) (g : List Grads) (V : Fin 4 → ℕ → Fin 3 → ℕ → ℕ → ℝ)
    (hr : ∀ k, (r k).length = N * N) (hs : s.length = N * N) (hn : n.length = N * N) (hg : g.length = natoms)
    (hgl : ∀ (x : Fin 4) (a : Nat) (k : Fin 3), (ha : a < g.length) → (g[a] (x, k)).length = N * N ∧
      ∀ p q, p < N → q < N → (g[a] (x, k))[p * N + q]? = some (V x a k p q)) :
    ∃ files, ftnWriteAll io N (ftnMatrixList r s n ++ ftnGradList g) = .ok files ∧
      FtnOutput io N natoms (fun k => asMatrix N (r k)) (asMatrix N s) (asMatrix N n) V files := by
  have hg' : ∀ M ∈ g, ∀ qk, N * N ≤ (M qk).length := fun M hM qk => by
    obtain ⟨a, ha, rfl⟩ := List.getElem_of_mem hM
    exact (hgl qk.1 a qk.2 ha).1.ge
  have hall : ∀ m ∈ ftnMatrixList r s n ++ ftnGradList g, N * N ≤ m.2.length := by
    intro m hm
    rcases List.mem_append.1 hm with hm | hm
    · simp only [ftnMatrixList, List.mem_cons, List.not_mem_nil, or_false] at hm
      rcases hm with rfl | rfl | rfl | rfl | rfl | rfl
      exacts [(hr 0).ge, (hr 1).ge, (hr 2).ge, (hr 3).ge, hs.ge, hn.ge]
    · simp only [ftnGradList, List.mem_append, List.mem_flatMap, List.mem_map] at hm
      rcases hm with ⟨M, hM, k, -, rfl⟩ | ⟨M, hM, k, -, j, -, rfl⟩
      · exact hg' _ (List.fst_mem_of_mem_zipIdx hM) _
      · exact hg' _ (List.fst_mem_of_mem_zipIdx hM) _
  refine ⟨_, ftnWriteAll_ok io N _ hall, fun k => ftnText io N (r k), ftnText io N s, ftnText io N n,
    fun x a k => ftnText io N (g.getD a (fun _ => []) (x, k)), ?_, fun k => ⟨r k, ftnText_ok io (hr k).ge, hr k, asMatrix_some (hr k)⟩,
    ⟨s, ftnText_ok io hs.ge, hs, asMatrix_some hs⟩, ⟨n, ftnText_ok io hn.ge, hn, asMatrix_some hn⟩, fun x a ha k => ?_⟩
  · subst hg
    unfold ftnMatrixList ftnGradList
    rw [zipIdx_flatMap g (fun _ => []), zipIdx_flatMap g (fun _ => [])]
    simp only [List.map_append, List.map_flatMap, List.map_map, List.append_assoc]
    rfl
  · have ha' : a < g.length := by omega
    have e : g.getD a (fun _ => []) = g[a] := by rw [List.getD_eq_getElem?_getD, List.getElem?_eq_getElem ha']; rfl
    simp only [e]
    exact ⟨_, ftnText_ok io (hgl x a k ha').1.ge, hgl x a k ha'⟩

/-- The texts of the same matrix agree. -/
theorem holds_agree (io ioF : DecimalIO) (hscan : ioF.scan = io.scan) (eps : ℝ) {N : ℕ} {V W : ℕ → ℕ → ℝ} {tf tc : List Char} (t : ℝ) (hN : N ≤ 46340)
    (hf : FtnHolds ioF N V tf) (hc : HoldsMatrix io N W tc) (he : ∀ p q, p < N → q < N → V p q = W p q)
    (hio : ∀ p q, p < N → q < N → (Dbl.fin (V p q)).AbsGt (1e-14) → io.Faithful (Dbl.fin (V p q)))
    (hioF : ∀ p q, p < N → q < N → 1e-10 < |V p q| → ioF.Near eps (V p q)) (ht : 1e-10 ≤ t)
    (hbig : ∀ p q, p < N → q < N → eps * |V p q| ≤ t) :
    compareProgram io t tf tc = .ok 0 ∧ compareProgram io t tc tf = .ok 0 := by
  obtain ⟨M, a1, a2, a3⟩ := hf
  obtain ⟨M', b1, b2, b3⟩ := hc
  obtain rfl := matrix_unique a2 b2 a3 b3 he
  have hmem : ∀ x ∈ M, ∃ p q, p < N ∧ q < N ∧ x = V p q := by
    intro x hx
    obtain ⟨i, hi, rfl⟩ := List.getElem_of_mem hx
    have hN : 0 < N := by
      rcases Nat.eq_zero_or_pos N with rfl | h0
      · rw [a2] at hi; omega
      · exact h0
    have hp : i / N < N := Nat.div_lt_of_lt_mul (by rw [a2] at hi; exact hi)
    have hq : i % N < N := Nat.mod_lt _ hN
    have e : i / N * N + i % N = i := by rw [Nat.mul_comm]; exact Nat.div_add_mod i N
    have a := a3 _ _ hp hq
    rw [e, List.getElem?_eq_getElem hi, Option.some.injEq] at a
    exact ⟨_, _, hp, hq, a⟩
  obtain ⟨uf, uc, e1, e2, e3, e4⟩ := fortran_compare_same io ioF hscan eps N M t hN a2.ge (by
      intro d hd hgt
      obtain ⟨x, hx, rfl⟩ := List.mem_map.1 hd
      obtain ⟨p, q, hp, hq, rfl⟩ := hmem x hx
      exact hio p q hp hq hgt)
    (fun x hx hgt => by obtain ⟨p, q, hp, hq, rfl⟩ := hmem x hx; exact hioF p q hp hq hgt) ht
    fun x hx => by obtain ⟨p, q, hp, hq, rfl⟩ := hmem x hx; exact hbig p q hp hq
  rw [e1] at a1
  rw [e2] at b1
  cases a1
  cases b1
  exact ⟨e3, e4⟩

/-! ## The calculations -/

theorem functions_length (mol : FMol) (gen : Nat → List Comp) : mol.functions.length = (basisComps (mol.libShells gen)).length := by
  unfold FMol.functions basisComps FMol.libShells FMol.shells
  simp only [List.flatMap_map, List.flatMap_assoc, List.length_flatMap, List.length_map, List.length_range, (cartesian_dirac_complete _).1]
  rfl

/-- The Fortran program succeeds from the point at which its input has been read. -/
theorem ftnCalculate_ok {G : Type} (env : FtnEnv G) (hf : env.Fresh) (ho : DocumentedOrder env.lib.gen) {mol : FMol} (hm : mol.Ok) (hL : ∀ z ∈ mol.charges, (mol.basisOf z).numBlocks ≤ 10)
    (hs : ∀ s ∈ mol.libShells env.lib.gen, s.InMolecule env.lib.gen) {M' : Fin 4 → List ℝ} {A : List ℝ} {V : Fin 4 → ℕ → Fin 3 → ℕ → ℕ → ℝ}
    (hM : FtnFills env.lib env.sf mol M') (hV : FtnGradFills env.lib env.sf mol V)
    (hMl : ∀ k, (M' k).length = (basisComps (mol.libShells env.lib.gen)).length * (basisComps (mol.libShells env.lib.gen)).length)
    (hA : ∀ (cl : List Comp) (mp : List ℝ) (h : Store) (buf M : List ℝ), cl.length = 100 → h.WF → maxBuf ≤ buf.length →
        M.length = (basisComps (mol.libShells env.lib.gen)).length * (basisComps (mol.libShells env.lib.gen)).length →
        ∃ h', Restored h h' ∧ ftnNuclearMatrix env.lib.gen env.nuc mol cl (basisComps (mol.libShells env.lib.gen)).length mp h buf M = .ok (h', A))
    (hAl : A.length = (basisComps (mol.libShells env.lib.gen)).length * (basisComps (mol.libShells env.lib.gen)).length)
    (hj : (∀ io jo ip ic c i, env.junk io jo ip ic c i ≠ none) ∨ ∀ s ∈ mol.libShells env.lib.gen, s.L = 0) :
    ∃ files S, ftnCalculate env mol = .ok files ∧ S.length = (basisComps (mol.libShells env.lib.gen)).length * (basisComps (mol.libShells env.lib.gen)).length ∧
      IsMatrixOf (mol.libShells env.lib.gen) (fun f g => ∫ r, f r * g r) S S ∧
      ((basisComps (mol.libShells env.lib.gen)).length * (basisComps (mol.libShells env.lib.gen)).length ≤ 2147483648 → ∀ bufC MC : List ℝ,
        maxBuf ≤ bufC.length → MC.length = S.length → evalOverlap (mol.libShells env.lib.gen) bufC MC = .ok S) ∧
      FtnOutput env.io (basisComps (mol.libShells env.lib.gen)).length mol.charges.length
        (fun k => asMatrix (basisComps (mol.libShells env.lib.gen)).length (M' k)) (asMatrix (basisComps (mol.libShells env.lib.gen)).length S)
        (asMatrix (basisComps (mol.libShells env.lib.gen)).length A) V files := by
  have hN : (basisFns (mol.libShells env.lib.gen)).length = (basisComps (mol.libShells env.lib.gen)).length := by rw [basisFns_length, basisComps_length]
  have hfl := functions_length mol env.lib.gen
  have hsize := fortran_basis_size env.lib.gen mol hm
  set N := (basisComps (mol.libShells env.lib.gen)).length with hNd
  have hz : (List.replicate (N * N) (0 : ℝ)).length = N * N := List.length_replicate
  obtain ⟨l, el, -⟩ := ftnLabels_spec hm hf.cart hL (env.labels0 N) (by rw [hf.labels, hfl])
  obtain ⟨h1, r1, e1⟩ := hM env.cl env.tab env.h env.buf (fun _ => List.replicate (N * N) 0) hf.cart hf.tab hf.heap hf.buf fun _ => hz
  obtain ⟨h2, g, r2, e2, gl, gv⟩ := hV env.junk (fun io jo ip ic c i => hj.imp (fun h => h io jo ip ic c i) id) env.cl h1 env.gbuf env.gbufSO
    (env.grad0 mol.charges.length N) hf.cart (r1.wf' hf.heap) hf.gbuf hf.gbufSO (hf.grads _ _).1 (hf.grads _ _).2
  obtain ⟨h3, S, r3, e3, i3, c3⟩ := fortran_overlap ho mol hm hs env.cl hf.cart h2 (r2.wf' (r1.wf' hf.heap)) env.obuf (List.replicate (N * N) 0) hf.obuf (by
    rw [hN, hz])
  obtain ⟨h4, r4, e4⟩ := hA env.cl env.mp h3 env.nbuf (List.replicate (N * N) 0) hf.cart (r3.wf' (r2.wf' (r1.wf' hf.heap))) hf.nbuf hz
  have hSl : S.length = N * N := by rw [i3.1, hz]
  rw [← hNd] at e1 e2
  rw [hN] at e3
  obtain ⟨files, w1, w2⟩ := ftnOutput_of env.io M' S A g V hMl hSl hAl gl gv
  refine ⟨files, S, ?_, hSl, ⟨rfl, i3.2.1, fun _ _ => rfl⟩, fun hd bufC MC hb hl => ?_, w2⟩
  · unfold ftnCalculate
    rw [hsize, Outcome.ok_bind, el, Outcome.ok_bind, e1, Outcome.ok_bind]
    simp only
    rw [e2, Outcome.ok_bind]
    simp only
    rw [e3, Outcome.ok_bind]
    simp only
    rw [e4, Outcome.ok_bind]
    exact w1
  · rw [hN] at c3
    exact c3 hd bufC MC hb (by rw [hl, hSl, hz])

/-! ## The driver in C -/

/-- What the driver in C does after it has read its files. -/
theorem program_reads_main {G : Type} (env : ProgEnv G) (he : env.Ok) {mol basis ecp : List Char} {atoms : List (Nat × Point)}
    {entries : Nat → List BasisBlock} {pots : Nat → Option (List BasisBlock × List PotBlock)} (hin : InputFiles env.io mol basis ecp atoms entries pots)
    {shells : List Shell} {grpps : List (Option GrppData)} (hsh : mainShells env.lib.gen env.io basis atoms = .ok shells)
    (hgr : mainGrpps env.lib.gen env.io ecp atoms = .ok grpps) :
    (∀ s ∈ shells, s.InMolecule env.lib.gen) ∧
      ∀ args : List (List Char), (∀ a ∈ args, ∃ c : Calc, c.arg = a) → programMain env args mol basis ecp =
        (runCalcs env shells atoms grpps (fun c => decide (c.arg ∈ args)) Calc.all >>= fun files => .ok ⟨0, none, files⟩) := by
  have hz : ∀ a ∈ atoms, a.1 < 131 := by
    obtain ⟨ws, t, rest, -, -, ht, -⟩ := hin.mol
    exact ht.charge
  obtain ⟨funs, h1, ⟨sets, g1, g2, g3⟩, h2, h3⟩ := molecule_sets env.lib.gen he.order env.io basis atoms entries fun a ha => ⟨hz a ha, hin.basis a ha⟩
  have e : shells = moleculeShells env.lib.gen atoms funs := by
    unfold mainShells at hsh
    rw [g1, Outcome.ok_bind, g3] at hsh
    exact (Outcome.ok.inj hsh).symm
  subst e
  refine ⟨fun s hs => (h2 s hs).1, fun args hargs => ?_⟩
  obtain ⟨flags, hf1, hf2⟩ := parseArgs_known args hargs
  have hflags : flags = fun c => decide (c.arg ∈ args) := by
    funext c
    rw [Bool.eq_iff_iff, hf2, decide_eq_true_iff]
  unfold programMain
  rw [hf1]
  simp only [Outcome.ok_bind]
  rw [readMoleculeText_spec env.io atoms mol hin.mol]
  simp only [Outcome.ok_bind]
  rw [g1, Outcome.ok_bind, g2, Outcome.ok_bind, hgr, Outcome.ok_bind, g3, Outcome.ok_bind, h3, Outcome.ok_bind, hflags]

/-- The arguments for the quantities which the Fortran program calculates. -/
def sameArgs : List (List Char) := ["--grpp".toList, "--overlap".toList, "--coulomb-point".toList, "--grpp-grad".toList]

theorem sameArgs_known : ∀ a ∈ sameArgs, ∃ c : Calc, c.arg = a := by
  intro a ha
  simp only [sameArgs, List.mem_cons, List.not_mem_nil, or_false] at ha
  rcases ha with rfl | rfl | rfl | rfl
  exacts [⟨.grpp, rfl⟩, ⟨.overlap, rfl⟩, ⟨.point, rfl⟩, ⟨.grppGrad, rfl⟩]

theorem runCalcs_same {G : Type} (env : ProgEnv G) (shells : List Shell) (atoms : List (Nat × Point)) (grpps : List (Option GrppData)) {f0 f1 f2 f3 : List OutFile}
    (h0 : writeGrpp env shells atoms grpps = .ok f0) (h1 : writeOverlap env shells = .ok f1) (h2 : writeNuclear env modelPoint shells atoms = .ok f2)
    (h3 : writeGrppGrad env shells atoms grpps = .ok f3) :
    runCalcs env shells atoms grpps (fun c => decide (c.arg ∈ sameArgs)) Calc.all = .ok (f0 ++ (f1 ++ (f2 ++ f3))) := by
  have d : ∀ c : Calc, decide (c.arg ∈ sameArgs) = (c == .grpp || c == .overlap || c == .point || c == .grppGrad) := by
    intro c
    cases c <;> decide
  simp only [d]
  simp only [Calc.all, runCalcs, runCalc, h0, h1, h2, h3, Outcome.ok_bind, List.append_nil, reduceCtorEq, beq_iff_eq, Bool.or_eq_true, or_false, or_true,
    if_true, if_false, false_or, or_self]

/-- The driver in C succeeds. -/
theorem cOutput_of {G : Type} (env : ProgEnv G) {shells : List Shell} {atoms : List (Nat × Point)} {grpps : List (Option GrppData)} {N : ℕ}
    (hN : N = (basisComps shells).length) (hd : N ≤ 46340) {M : Fin 4 → List ℝ} {S A : List ℝ} {V : Fin 4 → ℕ → Fin 3 → ℕ → ℕ → ℝ}
    (hM : ∀ k, (M k).length = N * N) (hS : S.length = N * N) (hA : A.length = N * N)
    (e0 : evalGrpp (libKernels env.lib env.sf) shells atoms grpps env.order env.grppBufs (fun _ => List.replicate (N * N) 0) = .ok M)
    (e1 : evalOverlap shells env.buf (List.replicate (N * N) 0) = .ok S)
    (e2 : evalNuclear env.nuc modelPoint shells atoms env.nbuf (List.replicate (N * N) 0) = .ok A) {r : Fin 4 → List (List ℝ)}
    (e3 : evalGrppGrad env.lib.gen (fun io jo ia ir => env.junk .grppGrad io jo ia ir 0) env.full shells atoms grpps
      (fun _ => List.replicate (3 * atoms.length) (List.replicate (N * N) 0)) = .ok r)
    (hr : ∀ x, GradsIncreased atoms.length N (V x) (List.replicate (3 * atoms.length) (List.replicate (N * N) 0)) (r x)) :
    ∃ files, runCalcs env shells atoms grpps (fun c => decide (c.arg ∈ sameArgs)) Calc.all = .ok files ∧
      COutput env.io N atoms.length (fun k => asMatrix N (M k)) (asMatrix N S) (asMatrix N A) V files := by
  obtain rfl : N = dimOf shells := by rw [hN, basisComps_length]
  have hw : ∀ k name, ∃ t, printLower env.io (dimOf shells) ((M k).map Dbl.fin) = .ok t ∧ writeMatrix env.io name (dimOf shells) (M k) = .ok (name, t) :=
    fun k name => writeMatrix_ok env.io name (dimOf shells) (M k) hd (hM k).ge
  obtain ⟨t0, a0, b0⟩ := hw 0 "libgrpp_c_arep.txt"
  obtain ⟨t1, a1, b1⟩ := hw 1 "libgrpp_c_so_x.txt"
  obtain ⟨t2, a2, b2⟩ := hw 2 "libgrpp_c_so_y.txt"
  obtain ⟨t3, a3, b3⟩ := hw 3 "libgrpp_c_so_z.txt"
  obtain ⟨s, as, bs⟩ := writeMatrix_ok env.io "libgrpp_c_overlap.txt" (dimOf shells) S hd hS.ge
  obtain ⟨n, an, bn⟩ := writeMatrix_ok env.io "libgrpp_c_nucattr_point.txt" (dimOf shells) A hd hA.ge
  rw [hN] at hr
  obtain ⟨fs, ef, tg, hfs, hv⟩ := gradFiles_of (io := env.io) hd [("arep", V 0), ("so_x", V 1), ("so_y", V 2), ("so_z", V 3)]
    (fun s => if s = "arep" then r 0 else if s = "so_x" then r 1 else if s = "so_y" then r 2 else r 3) (by
      intro l hl
      simp only [List.mem_cons, List.not_mem_nil, or_false] at hl
      rw [← hN] at hr ⊢
      rcases hl with rfl | rfl | rfl | rfl
      exacts [hr 0, hr 1, hr 2, hr 3])
  refine ⟨_, runCalcs_same env shells atoms grpps (f0 := [("libgrpp_c_arep.txt", t0), ("libgrpp_c_so_x.txt", t1), ("libgrpp_c_so_y.txt", t2),
    ("libgrpp_c_so_z.txt", t3)]) (f1 := [("libgrpp_c_overlap.txt", s)]) (f2 := [("libgrpp_c_nucattr_point.txt", n)]) (f3 := fs) ?_ ?_ ?_ ?_,
    ![t0, t1, t2, t3], s, n, fun x => tg (match x with | 0 => "arep" | 1 => "so_x" | 2 => "so_y" | 3 => "so_z"), ?_, fun k => ?_,
    ⟨S, as, hS, asMatrix_some hS⟩, ⟨A, an, hA, asMatrix_some hA⟩, fun x a ha k => ?_⟩
  · unfold writeGrpp
    rw [basisDim_eq, Outcome.ok_bind, newMatrix_ok hd, Outcome.ok_bind, e0, Outcome.ok_bind, b0, Outcome.ok_bind, b1, Outcome.ok_bind, b2, Outcome.ok_bind,
      b3, Outcome.ok_bind]
  · unfold writeOverlap
    rw [basisDim_eq, Outcome.ok_bind, newMatrix_ok hd, Outcome.ok_bind, e1, Outcome.ok_bind, bs, Outcome.ok_bind]
  · unfold writeNuclear
    rw [basisDim_eq, Outcome.ok_bind, newMatrix_ok hd, Outcome.ok_bind, e2, Outcome.ok_bind, show nuclearFile modelPoint = some "libgrpp_c_nucattr_point.txt" from rfl]
    simp only
    rw [bn, Outcome.ok_bind]
  · unfold writeGrppGrad
    rw [basisDim_eq, Outcome.ok_bind, newGrads_ok hd, Outcome.ok_bind]
    erw [e3]
    rw [Outcome.ok_bind]
    exact ef
  · rw [hfs]
    rfl
  · refine ⟨M k, ?_, hM k, asMatrix_some (hM k)⟩
    fin_cases k
    exacts [a0, a1, a2, a3]
  · rw [← hN] at hv
    fin_cases x
    · exact hv ("arep", V 0) (by simp) a ha k
    · exact hv ("so_x", V 1) (by simp) a ha k
    · exact hv ("so_y", V 2) (by simp) a ha k
    · exact hv ("so_z", V 3) (by simp) a ha k

end Libgrpp
