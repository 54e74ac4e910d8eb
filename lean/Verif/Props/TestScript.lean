import Verif.Lemmas.TestScript
import Verif.Props.FortranProgram

/-! # C113: the command line of the comparison program, and what a passed test shows

The program `compare_matrices.c` with its command line, and the scripts `run_test.sh` of the tests, which run a driver and compare its files with reference
files. -/

namespace Libgrpp

/-- **C113**, the command line. With two arguments the threshold is 1e-10; with three the first is the threshold, and if it is no number the status is 1; with any
other number of arguments the status is 1. The status, if there is one, is 0 or 1, and it is 0 exactly if both files exist, can be read, have the same
dimension, and no pair of elements differs by more than the threshold. -/
theorem compare_command (io : DecimalIO) (d : Dir) :
    (∀ args : List String, args.length ≠ 2 → args.length ≠ 3 → compareMain io d args = .ok 1) ∧
    (∀ t a b, scanDbl io t.toList = none → compareMain io d [t, a, b] = .ok 1) ∧
    (∀ args s, compareMain io d args = .ok s → s = 0 ∨ s = 1) ∧
    (∀ a b, compareMain io d [a, b] = .ok 0 ↔ ∃ ta tb n A B, d a = some ta ∧ d b = some tb ∧ readMatrix io ta = .ok (some (n, A)) ∧
      readMatrix io tb = .ok (some (n, B)) ∧ EqualWithin (.fin (1e-10)) n.toNat A B) ∧
    ∀ t a b thr rest, scanDbl io t.toList = some (thr, rest) → (compareMain io d [t, a, b] = .ok 0 ↔ ∃ ta tb n A B, d a = some ta ∧ d b = some tb ∧
      readMatrix io ta = .ok (some (n, A)) ∧ readMatrix io tb = .ok (some (n, B)) ∧ EqualWithin thr n.toNat A B) := by
  refine ⟨fun args h2 h3 => ?_, fun t a b h => ?_, fun args s h => ?_, fun a b => compareFiles_zero io _ d a b, fun t a b thr rest h => ?_⟩
  · rcases args with _ | ⟨x, _ | ⟨y, _ | ⟨z, _ | ⟨w, args⟩⟩⟩⟩
    · rfl
    · rfl
    · exact absurd rfl h2
    · exact absurd rfl h3
    · rfl
  · unfold compareMain
    simp only [h]
  · rcases args with _ | ⟨x, _ | ⟨y, _ | ⟨z, _ | ⟨w, args⟩⟩⟩⟩
    · exact Or.inr (Outcome.ok.inj h).symm
    · exact Or.inr (Outcome.ok.inj h).symm
    · exact compareFiles_status io _ d x y s h
    · unfold compareMain at h
      simp only at h
      cases hx : scanDbl io x.toList with
      | none => rw [hx] at h; exact Or.inr (Outcome.ok.inj h).symm
      | some r => rw [hx] at h; exact compareFiles_status io _ d y z s h
    · exact Or.inr (Outcome.ok.inj h).symm
  · unfold compareMain
    simp only [h]
    exact compareFiles_zero io _ d a b

/-- A threshold that is no number, or infinite, makes any two matrices of the same dimension equal: for such thresholds the program checks nothing. -/
theorem compare_command_nan (io : DecimalIO) (d : Dir) (t a b : String) (thr : Dbl) (rest : List Char) (ht : scanDbl io t.toList = some (thr, rest))
    (hthr : thr = .nan ∨ thr = .inf false) (ta tb : List Char) (n : Int) (A B : List Dbl) (ha : d a = some ta) (hb : d b = some tb)
    (hA : readMatrix io ta = .ok (some (n, A))) (hB : readMatrix io tb = .ok (some (n, B))) : compareMain io d [t, a, b] = .ok 0 := by
  rw [(compare_command io d).2.2.2.2 t a b thr rest ht]
  refine ⟨ta, tb, n, A, B, ha, hb, hA, hB, fun i j hi hj => ?_⟩
  have hlt := lower_index hi hj
  have h1 := readMatrix_length io ta n A hA
  have h2 := readMatrix_length io tb n B hB
  have h3 := toNat_sq n
  refine ⟨_, _, getD_of_lt (by omega) Dbl.nan, getD_of_lt (by omega) Dbl.nan, ?_⟩
  rcases hthr with rfl | rfl <;> simp [Dbl.Exceeds]

/-- **C113**, the verdict of a script: it ends with 0 exactly if each comparison finds two files which are there, can be read, have the same dimension and agree
within 1e-10. -/
theorem script_verdict (io : DecimalIO) (d : Dir) (cmps : List (String × String)) :
    runComparisons io d cmps = .ok 0 ↔ ∀ c ∈ cmps, ∃ ta tb n A B, d c.1 = some ta ∧ d c.2 = some tb ∧ readMatrix io ta = .ok (some (n, A)) ∧
      readMatrix io tb = .ok (some (n, B)) ∧ EqualWithin (.fin (1e-10)) n.toNat A B := by
  rw [runComparisons_zero]
  exact forall₂_congr fun c _ => compareFiles_zero io _ d c.1 c.2

/-- The program for comparison reads a file of the driver. -/
theorem readMatrix_holds {io : DecimalIO} {N : ℕ} {V : ℕ → ℕ → ℝ} {text : List Char} (h : HoldsMatrix io N V text) (hN : N ≤ 46340)
    (hio : ∀ p q, p < N → q < N → 1e-14 < |V p q| → io.Faithful (.fin (V p q))) :
    ∃ A, readMatrix io text = .ok (some ((N : Int), A)) ∧ ∀ p q, p < N → q < N → A[p * N + q]? = some (keptElement (.fin (V p q)) p q) := by
  obtain ⟨M, h1, h2, h3⟩ := h
  have hf : FaithfulElements io (M.map Dbl.fin) := by
    intro d hd hgt
    rw [List.mem_map] at hd
    obtain ⟨x, hx, rfl⟩ := hd
    obtain ⟨r, hr, rfl⟩ := List.getElem_of_mem hx
    have hpos : 0 < N := by
      rcases Nat.eq_zero_or_pos N with h0 | h0
      · rw [h2, h0] at hr; simp at hr
      · exact h0
    have hi : r / N < N := Nat.div_lt_of_lt_mul (by rw [← h2]; exact hr)
    have hj : r % N < N := Nat.mod_lt _ hpos
    have e := h3 _ _ hi hj
    rw [Nat.div_add_mod' r N, List.getElem?_eq_getElem hr, Option.some.injEq] at e
    rw [e] at hgt ⊢
    exact hio _ _ hi hj hgt
  obtain ⟨text', R, e1, e2, -, e4⟩ := matrix_file_round_trip io N (M.map Dbl.fin) hN (by rw [List.length_map, h2]) hf
  obtain rfl : text' = text := Outcome.ok.inj (e1.symm.trans h1)
  refine ⟨R, e2, fun p q hp hq => ?_⟩
  obtain ⟨d, hd, hR⟩ := e4 p q hp hq
  rw [List.getElem?_map, h3 p q hp hq, Option.map_some, Option.some.injEq] at hd
  rw [hR, hd]

/-- What equality within 1e-10 to the file of a matrix means for the other file. -/
theorem equalWithin_reference {N : ℕ} {V : ℕ → ℕ → ℝ} {A B : List Dbl} {tol : ℝ → ℝ}
    (hA : ∀ p q, p < N → q < N → ∃ y, A[p * N + q]? = some (.fin y) ∧ (q ≤ p → |V p q - y| ≤ tol (V p q) - 1e-10) ∧ (p < q → y = 0))
    (h : EqualWithin (.fin (1e-10)) N A B) (p q : ℕ) (hp : p < N) (hq : q < N) : B[p * N + q]? = some .nan ∨
      ∃ x, B[p * N + q]? = some (.fin x) ∧ (q ≤ p → |V p q - x| ≤ tol (V p q)) ∧ (p < q → |x| ≤ 1e-10) := by
  obtain ⟨a, b, ha, hb, hab⟩ := h p q hp hq
  obtain ⟨y, hy, hy1, hy2⟩ := hA p q hp hq
  rw [hy, Option.some.injEq] at ha
  subst ha
  rw [exceeds_fin] at hab
  cases b with
  | nan => exact Or.inl hb
  | inf s => exact absurd trivial hab
  | fin x =>
    refine Or.inr ⟨x, hb, fun hqp => ?_, fun hpq => ?_⟩
    · have h1 := hy1 hqp
      simp only [Dbl.sub, Dbl.AbsGt, not_lt] at hab
      rw [abs_le] at *
      constructor <;> linarith [h1.1, h1.2, hab.1, hab.2]
    · rw [hy2 hpq] at hab
      simpa [Dbl.sub, Dbl.AbsGt] using hab

/-- What the program for comparison reads from a file of the driver in C. -/
theorem readMatrix_holds_near {io : DecimalIO} {N : ℕ} {V : ℕ → ℕ → ℝ} {text : List Char} (h : HoldsMatrix io N V text) (hN : N ≤ 46340)
    (hio : ∀ p q, p < N → q < N → 1e-14 < |V p q| → io.Faithful (.fin (V p q))) :
    ∃ A, readMatrix io text = .ok (some ((N : Int), A)) ∧ ∀ p q, p < N → q < N → ∃ y, A[p * N + q]? = some (.fin y) ∧
      (q ≤ p → |V p q - y| ≤ tolC (V p q) - 1e-10) ∧ (p < q → y = 0) := by
  classical
  obtain ⟨A, h1, h2⟩ := readMatrix_holds h hN hio
  refine ⟨A, h1, fun p q hp hq => ?_⟩
  rw [h2 p q hp hq]
  rcases le_or_gt q p with hqp | hqp
  · obtain ⟨y, h1, h2⟩ := keptElement_fin (V p q) p q hqp
    exact ⟨y, by rw [h1], fun _ => by unfold tolC; linarith, fun h => absurd h (by omega)⟩
  · exact ⟨0, by rw [keptElement, if_neg (by rintro ⟨h, -⟩; omega)], fun h => absurd h (by omega), fun _ => rfl⟩

/-- What the program for comparison reads from a file of the Fortran program. -/
theorem readMatrix_ftnHolds {io ioF : DecimalIO} (hscan : ioF.scan = io.scan) {eps : ℝ} (heps : 0 ≤ eps) {N : ℕ} {V : ℕ → ℕ → ℝ} {text : List Char}
    (h : FtnHolds ioF N V text) (hN : N ≤ 46340) (hio : ∀ p q, p < N → q < N → 1e-10 < |V p q| → ioF.Near eps (V p q)) :
    ∃ A, readMatrix io text = .ok (some ((N : Int), A)) ∧ ∀ p q, p < N → q < N → ∃ y, A[p * N + q]? = some (.fin y) ∧
      (q ≤ p → |V p q - y| ≤ tolF eps (V p q) - 1e-10) ∧ (p < q → y = 0) := by
  obtain ⟨M, h1, h2, h3⟩ := h
  have hM : ∀ x ∈ M, 1e-10 < |x| → ioF.Near eps x := by
    intro x hx hgt
    obtain ⟨r, hr, rfl⟩ := List.getElem_of_mem hx
    have hpos : 0 < N := by
      rcases Nat.eq_zero_or_pos N with h0 | h0
      · rw [h2, h0] at hr; simp at hr
      · exact h0
    have hi : r / N < N := Nat.div_lt_of_lt_mul (by rw [← h2]; exact hr)
    have hj : r % N < N := Nat.mod_lt _ hpos
    have e := h3 _ _ hi hj
    rw [Nat.div_add_mod' r N, List.getElem?_eq_getElem hr, Option.some.injEq] at e
    rw [e] at hgt ⊢
    exact hio _ _ hi hj hgt
  obtain ⟨text', R, f1, f2, f3, f4⟩ := fortran_matrix_file ioF eps N M hN h2.ge hM
  obtain rfl : text' = text := Outcome.ok.inj (f1.symm.trans h1)
  rw [readMatrix_scan ioF io hscan] at f2
  refine ⟨R, f2, fun p q hp hq => ?_⟩
  obtain ⟨x, y, e1, e2, e3, e4, e5⟩ := f4 p q hp hq
  rw [h3 p q hp hq, Option.some.injEq] at e1
  subst e1
  refine ⟨y, e2, fun hqp => ?_, e3⟩
  unfold tolF
  have h0 : 0 ≤ eps * |V p q| := mul_nonneg heps (abs_nonneg _)
  by_cases hs : |V p q| ≤ 1e-10
  · rw [e4 hs, sub_zero]; linarith
  · have := e5 hqp (not_le.1 hs)
    rw [abs_sub_comm]; linarith

/-- The full statement "a passed test shows that the driver has computed the reference matrices" is false (`test_stale`), so this is partial: it needs a driver that
has finished its work. **If the driver has written files with different names, and the test passes, then each reference to which a file of the driver is compared is a
file with the matrix which the driver has computed**, within 1e-10 + 1e-14, where the reference has numbers. -/
theorem test_passed_partial (io : DecimalIO) (d : Dir) (files left : List OutFile) (cmps : List (String × String)) (hn : (files.map Prod.fst).Nodup)
    (hp : testScript io d (.ok files) left cmps = .ok 0) (f : OutFile) (hf : f ∈ files) (b : String) (hc : (f.1, b) ∈ cmps) (hb : b ∉ files.map Prod.fst)
    (N : ℕ) (V : ℕ → ℕ → ℝ) (hN : N ≤ 46340) (hV : HoldsMatrix io N V f.2)
    (hio : ∀ p q, p < N → q < N → 1e-14 < |V p q| → io.Faithful (.fin (V p q))) : IsReference io d b N V tolC := by
  obtain ⟨ta, tb, n, A, B, h1, h2, h3, h4, h5⟩ := (script_verdict io _ cmps).1 hp _ hc
  simp only at h1 h2
  rw [write_mem d files hn f hf, Option.some.injEq] at h1
  rw [write_not_mem d files b hb] at h2
  subst h1
  obtain ⟨A', e1, e2⟩ := readMatrix_holds_near hV hN hio
  rw [h3, Outcome.ok.injEq, Option.some.injEq, Prod.mk.injEq] at e1
  obtain ⟨rfl, rfl⟩ := e1
  rw [Int.toNat_natCast] at h5
  exact ⟨tb, B, h2, h4, equalWithin_reference e2 h5⟩

/-- **C113**, correct drivers pass: if the files of the driver have different names, every comparison is of one of these files with a reference file, which can be
read as a matrix whose lower triangle agrees with the computed one within 1e-10 - 1e-14 and which has at most 1e-10 above the diagonal, the test passes. -/
theorem test_complete (io : DecimalIO) (d : Dir) (files left : List OutFile) (cmps : List (String × String)) (hn : (files.map Prod.fst).Nodup)
    (h : ∀ c ∈ cmps, ∃ f ∈ files, f.1 = c.1 ∧ c.2 ∉ files.map Prod.fst ∧ ∃ (N : ℕ) (V : ℕ → ℕ → ℝ) (tb : List Char) (B : List Dbl), N ≤ 46340 ∧
      HoldsMatrix io N V f.2 ∧ (∀ p q, p < N → q < N → 1e-14 < |V p q| → io.Faithful (.fin (V p q))) ∧ d c.2 = some tb ∧
      readMatrix io tb = .ok (some ((N : Int), B)) ∧ ∀ p q, p < N → q < N → ∃ x, B[p * N + q]? = some (.fin x) ∧
        (q ≤ p → |V p q - x| ≤ 1e-10 - 1e-14) ∧ (p < q → |x| ≤ 1e-10)) :
    testScript io d (.ok files) left cmps = .ok 0 := by
  classical
  refine (script_verdict io _ cmps).2 fun c hc => ?_
  obtain ⟨f, hf, hfc, hb, N, V, tb, B, hN, hV, hio, h1, h2, h3⟩ := h c hc
  obtain ⟨A, e1, e2⟩ := readMatrix_holds hV hN hio
  refine ⟨f.2, tb, N, A, B, by rw [← hfc, write_mem d files hn f hf], by rw [write_not_mem d files c.2 hb, h1], e1, h2, fun p q hp hq => ?_⟩
  rw [Int.toNat_natCast] at hp hq ⊢
  obtain ⟨x, g1, g2, g3⟩ := h3 p q hp hq
  refine ⟨_, _, e2 p q hp hq, g1, ?_⟩
  rw [exceeds_fin]
  rcases le_or_gt q p with hqp | hqp
  · obtain ⟨y, hy1, hy2⟩ := keptElement_fin (V p q) p q hqp
    have := g2 hqp
    rw [hy1]
    simp only [Dbl.sub, Dbl.AbsGt, not_lt]
    rw [abs_le] at *
    constructor <;> linarith [hy2.1, hy2.2, this.1, this.2]
  · rw [keptElement, if_neg (by rintro ⟨h, -⟩; omega)]
    simpa [Dbl.sub, Dbl.AbsGt] using g3 hqp

/-- **The statement is false for drivers which fail**: the scripts do not look at the exit status. If the directory has files with which all comparisons succeed, the
test passes with any driver that writes nothing. -/
theorem test_stale (io : DecimalIO) (d : Dir) (driver : Outcome (List OutFile)) (cmps : List (String × String)) (hd : runComparisons io d cmps = .ok 0)
    (h : driver = .ok [] ∨ driver = .abort ∨ driver = .exit) : testScript io d driver [] cmps = .ok 0 := by
  rcases h with rfl | rfl | rfl <;> exact hd

/-- After one run that passes, the test passes with a driver that fails at once: with an argument it does not know, whatever the input files are. -/
theorem test_stale_unknown {G : Type} (env : ProgEnv G) (io : DecimalIO) (d : Dir) (files left : List OutFile) (cmps : List (String × String))
    (hp : testScript io d (.ok files) left cmps = .ok 0) (args : List String) (h : ∃ a ∈ args, ∀ c : Calc, c.arg ≠ a.toList) (mol basis ecp : List Char) :
    (∃ r, programMain env (args.map String.toList) mol basis ecp = .ok r ∧ r.status = 1) ∧
      testScript io (d.write files) (driverFiles env args mol basis ecp) [] cmps = .ok 0 := by
  obtain ⟨a, ha, hc⟩ := h
  obtain ⟨r, h1, h2, h3, -⟩ := program_unknown env (args.map String.toList) ⟨a.toList, List.mem_map_of_mem ha, hc⟩ mol basis ecp
  refine ⟨⟨r, h1, h2⟩, test_stale io _ _ cmps hp (Or.inl ?_)⟩
  unfold driverFiles
  rw [h1, Outcome.ok_bind, h3]

/-- The same for a molecule which the driver cannot read. -/
theorem test_stale_molecule {G : Type} (env : ProgEnv G) (io : DecimalIO) (d : Dir) (files left : List OutFile) (cmps : List (String × String))
    (hp : testScript io d (.ok files) left cmps = .ok 0) (args : List String) (hargs : ∀ a ∈ args, ∃ c : Calc, c.arg = a.toList) (mol basis ecp : List Char)
    (hm : readMoleculeText env.io mol = .ok none) :
    programMain env (args.map String.toList) mol basis ecp = .ok ⟨1, none, []⟩ ∧
      testScript io (d.write files) (driverFiles env args mol basis ecp) [] cmps = .ok 0 := by
  have h1 : programMain env (args.map String.toList) mol basis ecp = .ok ⟨1, none, []⟩ := by
    obtain ⟨flags, hf1, -⟩ := parseArgs_known (args.map String.toList) fun a ha => by
      obtain ⟨b, hb, rfl⟩ := List.mem_map.1 ha
      exact hargs b hb
    unfold programMain
    rw [hf1, Outcome.ok_bind]
    simp only
    rw [hm, Outcome.ok_bind]
  refine ⟨h1, test_stale io _ _ cmps hp (Or.inl ?_)⟩
  unfold driverFiles
  rw [h1, Outcome.ok_bind]

theorem gradFiles_names {io : DecimalIO} {shells : List Shell} {natoms : ℕ} {parts : List (String × (ℕ → Fin 3 → ℕ → ℕ → ℝ))} {fs : List OutFile}
    (h : GradFiles io shells natoms parts fs) : fs.map Prod.fst = calcNames.gradNames natoms (parts.map Prod.fst) := by
  obtain ⟨t, rfl, -⟩ := h
  unfold calcNames.gradNames
  simp only [List.map_flatMap, List.flatMap_map, List.map_cons, List.map_nil]

/-- The names of the files of a calculation. -/
theorem filesOk_names {G : Type} (env : ProgEnv G) (shells : List Shell) (atoms : List (Nat × Point)) (grpps : List (Option GrppData)) (c : Calc)
    (fs : List OutFile) (h : FilesOk env shells atoms grpps c fs) : fs.map Prod.fst = calcNames atoms.length c := by
  cases c
  case grpp => obtain ⟨t, M, Q, rfl, -⟩ := h; rfl
  case overlap => obtain ⟨t, rfl, -⟩ := h; rfl
  case kinetic => obtain ⟨t, rfl, -⟩ := h; rfl
  case momentum => obtain ⟨t, rfl, -⟩ := h; rfl
  case point => obtain ⟨t, W, V, rfl, -⟩ := h; rfl
  case pointNum => obtain ⟨t, W, U, T, Vc, V, rfl, -⟩ := h; rfl
  case ball => obtain ⟨t, W, U, T, Vc, V, rfl, -⟩ := h; rfl
  case gauss => obtain ⟨t, W, U, T, Vc, V, rfl, -⟩ := h; rfl
  case fermi => obtain ⟨t, W, U, T, Vc, V, rfl, -⟩ := h; rfl
  case fermiBubble => exact h.elim
  case overlapGrad => obtain ⟨V, h, -⟩ := h; exact gradFiles_names h
  case grppGrad => obtain ⟨V, -, h⟩ := h; exact gradFiles_names h
  case gradType1 => obtain ⟨V, -, h⟩ := h; exact gradFiles_names h
  case gradType2 => obtain ⟨V, -, h⟩ := h; exact gradFiles_names h
  case gradSpinOrbit => obtain ⟨V, -, h⟩ := h; exact gradFiles_names h
  case gradOutercore => obtain ⟨V, -, h⟩ := h; exact gradFiles_names h

/-- The conditions on a script, which `test_scripts` shows for those of the tests: the driver knows the arguments, the files it writes for `natoms` atoms have different
names, each comparison is of one of these files with a reference file, and each of the files is compared. -/
def ScriptOk (natoms : Nat) (args : List String) (cmps : List (String × String)) : Prop :=
  (∀ a ∈ args, ∃ c ∈ Calc.all, c.arg = a.toList) ∧
  ((Calc.all.filter fun c => c.arg ∈ args.map String.toList).flatMap (calcNames natoms)).Nodup ∧
  (∀ c ∈ cmps, c.1 ∈ (Calc.all.filter fun c => c.arg ∈ args.map String.toList).flatMap (calcNames natoms) ∧
    c.2 ∉ (Calc.all.filter fun c => c.arg ∈ args.map String.toList).flatMap (calcNames natoms)) ∧
  (∀ n ∈ (Calc.all.filter fun c => c.arg ∈ args.map String.toList).flatMap (calcNames natoms), ∃ c ∈ cmps, c.1 = n)

instance (natoms : Nat) (args : List String) (cmps : List (String × String)) : Decidable (ScriptOk natoms args cmps) := by
  unfold ScriptOk
  infer_instance

/-- **C113**, the scripts for the driver in C: all files are compared, each with a reference. For `H2O` there are three atoms. -/
theorem test_scripts : (∀ n, ScriptOk n csArgs csComparisons) ∧ (∀ n, ScriptOk n kArgs kComparisons) ∧ (∀ n, ScriptOk n ["--grpp"] grppComparisons) ∧
    ScriptOk 3 h2oArgs h2oComparisons := by
  have hc : ∀ n m args cmps, (Calc.all.filter fun c => c.arg ∈ args.map String.toList).flatMap (calcNames n) =
      (Calc.all.filter fun c => c.arg ∈ args.map String.toList).flatMap (calcNames m) → ScriptOk m args cmps → ScriptOk n args cmps := by
    intro n m args cmps h h'
    unfold ScriptOk at *
    rw [h]
    exact h'
  refine ⟨fun n => hc n 0 _ _ ?_ (by decide +kernel), fun n => hc n 0 _ _ ?_ (by decide +kernel), fun n => hc n 0 _ _ ?_ (by decide +kernel), by decide +kernel⟩
  · rw [show (Calc.all.filter fun c => c.arg ∈ csArgs.map String.toList) = [.grpp, .overlap, .point] by decide +kernel]; rfl
  · rw [show (Calc.all.filter fun c => c.arg ∈ kArgs.map String.toList) = [.point, .pointNum, .ball, .gauss, .fermi] by decide +kernel]; rfl
  · rw [show (Calc.all.filter fun c => c.arg ∈ ["--grpp"].map String.toList) = [.grpp] by decide +kernel]; rfl

/-- **C113**, from the input files to the verdict (partial, see `test_passed_partial` and `test_stale`). For all well-formed input files within the limits of the
program, all scripts satisfying the conditions, and all directories: if the preconditions of the calculations of the script are met and the test passes, then the
driver has written files as in C105, and the reference to which a file is compared is a file with the matrix of this file within 1e-10 + 1e-14, except for elements that are no
numbers. -/
theorem test_driver_partial {G : Type} (env : ProgEnv G) (he : env.Ok) (mol basis ecp : List Char) (atoms : List (Nat × Point)) (entries : Nat → List BasisBlock)
    (pots : Nat → Option (List BasisBlock × List PotBlock)) (hin : InputFiles env.io mol basis ecp atoms entries pots) (hd : moleculeDim atoms entries ≤ 46340)
    (args : List String) (cmps : List (String × String)) (hs : ScriptOk atoms.length args cmps) (d : Dir) (left : List OutFile) :
    ∃ (shells : List Shell) (grpps : List (Option GrppData)), FromFiles env atoms entries pots shells grpps ∧
      ((∀ c : Calc, c.arg ∈ args.map String.toList → CalcOk env shells atoms grpps c) →
        testScript env.io d (driverFiles env args mol basis ecp) left cmps = .ok 0 →
        ∃ F : Calc → List OutFile, (∀ c : Calc, c.arg ∈ args.map String.toList → FilesOk env shells atoms grpps c (F c)) ∧
          ∀ c : Calc, c.arg ∈ args.map String.toList → ∀ f ∈ F c, ∃ b, (f.1, b) ∈ cmps ∧ ∀ b, (f.1, b) ∈ cmps → ∀ N V, N ≤ 46340 → HoldsMatrix env.io N V f.2 →
            (∀ p q, p < N → q < N → 1e-14 < |V p q| → env.io.Faithful (.fin (V p q))) → IsReference env.io d b N V tolC) := by
  obtain ⟨shells, grpps, h1, h2⟩ := program_files env he mol basis ecp atoms entries pots hin hd
  refine ⟨shells, grpps, h1, fun hok hp => ?_⟩
  obtain ⟨s1, s2, s3, s4⟩ := hs
  obtain ⟨F, hF, hFok⟩ := (h2 (args.map String.toList) fun a ha => by
    obtain ⟨b, hb, rfl⟩ := List.mem_map.1 ha
    obtain ⟨c, -, hc⟩ := s1 b hb
    exact ⟨c, hc⟩).1 hok
  refine ⟨F, hFok, fun c hc f hf => ?_⟩
  have hnames : ((Calc.all.filter fun c => c.arg ∈ args.map String.toList).flatMap F).map Prod.fst =
      (Calc.all.filter fun c => c.arg ∈ args.map String.toList).flatMap (calcNames atoms.length) := by
    rw [List.map_flatMap]
    refine List.flatMap_congr fun c hc => ?_
    rw [List.mem_filter] at hc
    exact filesOk_names env shells atoms grpps c (F c) (hFok c (of_decide_eq_true hc.2))
  have hmem : f ∈ (Calc.all.filter fun c => c.arg ∈ args.map String.toList).flatMap F :=
    List.mem_flatMap.2 ⟨c, List.mem_filter.2 ⟨calc_mem_all c, decide_eq_true hc⟩, hf⟩
  have hdrv : driverFiles env args mol basis ecp = .ok ((Calc.all.filter fun c => c.arg ∈ args.map String.toList).flatMap F) := by
    unfold driverFiles
    rw [hF, Outcome.ok_bind]
  rw [hdrv] at hp
  obtain ⟨⟨a, b⟩, hb, rfl⟩ := s4 f.1 (by rw [← hnames]; exact List.mem_map_of_mem hmem)
  exact ⟨b, hb, fun b hb N V hN hV hio => test_passed_partial env.io d _ left cmps (by rw [hnames]; exact s2) hp f hmem b hb (by rw [hnames]; exact (s3 _ hb).2) N V hN hV hio⟩

/-- **C113**, the test `Cs`, from the input files to the true matrices (partial as `test_driver_partial`): if it passes, then the file `overlap.txt` holds the true
overlap integrals within 1e-10 + 1e-14, and the files `arep.txt`, `so_x.txt`, `so_y.txt` and `so_z.txt` those of the pseudopotentials within 1e-10 + 1e-14 and the error of the
quadrature as in C98. -/
theorem test_cs_partial {G : Type} (env : ProgEnv G) (he : env.Ok) (mol basis ecp : List Char) (atoms : List (Nat × Point)) (entries : Nat → List BasisBlock)
    (pots : Nat → Option (List BasisBlock × List PotBlock)) (hin : InputFiles env.io mol basis ecp atoms entries pots) (hd : moleculeDim atoms entries ≤ 46340)
    (d : Dir) (left : List OutFile) :
    ∃ (shells : List Shell) (grpps : List (Option GrppData)), FromFiles env atoms entries pots shells grpps ∧
      ((∀ c ∈ [Calc.grpp, .overlap, .point], CalcOk env shells atoms grpps c) →
        testScript env.io d (driverFiles env csArgs mol basis ecp) left csComparisons = .ok 0 →
        ((∀ f ∈ basisFns shells, ∀ g ∈ basisFns shells, env.io.Faithful (.fin (∫ r, f r * g r))) →
          IsReference env.io d "overlap.txt" (dimOf shells)
            (fun p q => ∫ r, (basisFns shells).getD p (fun _ => 0) r * (basisFns shells).getD q (fun _ => 0) r) tolC) ∧
        ∃ (M : Fin 4 → ℕ → ℕ → ℝ) (Q : Shell → Shell → GrppData × Point → Potential → ℕ → ℕ → ℕ → ℝ),
          (∀ A ∈ shells, ∀ B ∈ shells, ∀ o ∈ moleculeGrpps atoms grpps, ∀ u ∈ o.1.arep ++ o.1.esop, RadialTable env.lib A B o.2 u (Q A B o u)) ∧
          (∀ (k : Fin 4) (p q : ℕ) (A B : Shell) (m n : ℕ), (basisComps shells)[p]? = some (A, m) → (basisComps shells)[q]? = some (B, n) →
            |M k p q - ((moleculeGrpps atoms grpps).map fun o => grppElement A B o.2 o.1 k m n).sum| ≤
              ((moleculeGrpps atoms grpps).map fun o => grppErr A B o.2 o.1 (Q A B o) k m n).sum) ∧
          ∀ k : Fin 4, (∀ p q, p < dimOf shells → q < dimOf shells → 1e-14 < |M k p q| → env.io.Faithful (.fin (M k p q))) →
            IsReference env.io d (["arep.txt", "so_x.txt", "so_y.txt", "so_z.txt"].getD k "") (dimOf shells) (M k) tolC) := by
  obtain ⟨shells, grpps, h1, h2⟩ := test_driver_partial env he mol basis ecp atoms entries pots hin hd csArgs csComparisons (test_scripts.1 _) d left
  refine ⟨shells, grpps, h1, fun hok hp => ?_⟩
  have hdim : dimOf shells ≤ 46340 := by
    obtain ⟨-, -, -, h, -⟩ := h1
    rw [basisFns_length] at h
    rw [h]
    exact hd
  obtain ⟨F, hF, hR⟩ := h2 (fun c hc => hok c (by revert hc; cases c <;> decide +kernel)) hp
  refine ⟨fun hio => ?_, ?_⟩
  · have hc : Calc.overlap.arg ∈ csArgs.map String.toList := by decide +kernel
    obtain ⟨t, e, M, m1, m2, m3⟩ := hF .overlap hc
    rw [basisFns_length] at m1 m2 m3
    have hget : ∀ i, i < dimOf shells → (basisFns shells)[i]? = some ((basisFns shells).getD i fun _ => 0) := by
      intro i hi
      rw [← basisFns_length] at hi
      exact getD_of_lt hi _
    obtain ⟨-, -, hR⟩ := hR .overlap hc ("libgrpp_c_overlap.txt", t) (by rw [e]; exact List.mem_cons_self)
    exact hR "overlap.txt" (show ("libgrpp_c_overlap.txt", "overlap.txt") ∈ csComparisons by decide +kernel) (dimOf shells) _ hdim ⟨M, m1, m2, fun p q hp hq => m3 p q _ _ (hget p hp) (hget q hq)⟩
      fun p q hp hq _ => hio _ (List.mem_of_getElem? (hget p hp)) _ (List.mem_of_getElem? (hget q hq))
  · have hc : Calc.grpp.arg ∈ csArgs.map String.toList := by decide +kernel
    obtain ⟨t, M, Q, e, hQ, hM⟩ := hF .grpp hc
    refine ⟨fun k p q => (M k).getD (p * dimOf shells + q) 0, Q, hQ, fun k p q A B m n hA hB => ?_, fun k hio => ?_⟩
    · obtain ⟨v, hv, hv2⟩ := (hM k).2.2 p q A B m n hA hB
      rw [basisComps_length] at hv
      beta_reduce
      rw [getD_of_some hv]
      exact hv2
    · obtain ⟨m1, m2, -⟩ := hM k
      rw [basisComps_length] at m1 m2
      have hold : HoldsMatrix env.io (dimOf shells) (fun p q => (M k).getD (p * dimOf shells + q) 0) (t k) :=
        ⟨M k, m1, m2, fun p q hp hq => getD_of_lt (by rw [m2]; exact lower_index hp hq) 0⟩
      have hmem : ∃ n b, (n, t k) ∈ F .grpp ∧ (n, b) ∈ csComparisons ∧ b = ["arep.txt", "so_x.txt", "so_y.txt", "so_z.txt"].getD k "" := by
        rw [e]
        fin_cases k
        · exact ⟨"libgrpp_c_arep.txt", "arep.txt", by simp, by decide +kernel, rfl⟩
        · exact ⟨"libgrpp_c_so_x.txt", "so_x.txt", by simp, by decide +kernel, rfl⟩
        · exact ⟨"libgrpp_c_so_y.txt", "so_y.txt", by simp, by decide +kernel, rfl⟩
        · exact ⟨"libgrpp_c_so_z.txt", "so_z.txt", by simp, by decide +kernel, rfl⟩
      obtain ⟨n, b, b1, b2, rfl⟩ := hmem
      obtain ⟨-, -, hR⟩ := hR .grpp hc _ b1
      exact hR _ b2 (dimOf shells) _ hdim hold hio

/-- **C113**, gradients: the test of gradients (`H2O`) has no defined result, if there are shells with `L > 0` on different atoms and out-of-bounds reads are undefined
behaviour. -/
theorem test_undefined {G : Type} (env : ProgEnv G) (he : env.Ok) (mol basis ecp : List Char) (atoms : List (Nat × Point)) (entries : Nat → List BasisBlock)
    (pots : Nat → Option (List BasisBlock × List PotBlock)) (hin : InputFiles env.io mol basis ecp atoms entries pots) (hd : moleculeDim atoms entries ≤ 46340)
    (args : List String) (cmps : List (String × String)) (hs : ∀ a ∈ args, ∃ c : Calc, c.arg = a.toList) (d : Dir) (left : List OutFile) :
    ∃ (shells : List Shell) (grpps : List (Option GrppData)), FromFiles env atoms entries pots shells grpps ∧
      ((∀ c : Calc, c.arg ∈ args.map String.toList → CalcOk env shells atoms grpps c ∨ CalcUndefined env shells atoms grpps c) →
        (∃ c : Calc, c.arg ∈ args.map String.toList ∧ CalcUndefined env shells atoms grpps c) →
        testScript env.io d (driverFiles env args mol basis ecp) left cmps = .ub) := by
  obtain ⟨shells, grpps, h1, h2⟩ := program_files env he mol basis ecp atoms entries pots hin hd
  refine ⟨shells, grpps, h1, fun hok hun => ?_⟩
  have h3 := (h2 (args.map String.toList) fun a ha => by
    obtain ⟨b, hb, rfl⟩ := List.mem_map.1 ha
    exact hs b hb).2 hok hun
  unfold driverFiles
  rw [h3]
  rfl

/-- The files of the Fortran program with texts `t`, `s`, `n`, `g`. -/
def ftnFilesOf (natoms : Nat) (t : Fin 4 → List Char) (s n : List Char) (g : Fin 4 → ℕ → Fin 3 → List Char) : List OutFile :=
  [("libgrpp_f90_arep.txt", t 0), ("libgrpp_f90_so_x.txt", t 1), ("libgrpp_f90_so_y.txt", t 2), ("libgrpp_f90_so_z.txt", t 3),
    ("libgrpp_f90_overlap.txt", s), ("libgrpp_f90_nucattr.txt", n)] ++
  (List.range natoms).flatMap (fun a => [(ftnGradFile 0 a 0, g 0 a 0), (ftnGradFile 0 a 1, g 0 a 1), (ftnGradFile 0 a 2, g 0 a 2)]) ++
  (List.range natoms).flatMap (fun a => [(ftnGradFile 1 a 0, g 1 a 0), (ftnGradFile 2 a 0, g 2 a 0), (ftnGradFile 3 a 0, g 3 a 0),
    (ftnGradFile 1 a 1, g 1 a 1), (ftnGradFile 2 a 1, g 2 a 1), (ftnGradFile 3 a 1, g 3 a 1),
    (ftnGradFile 1 a 2, g 1 a 2), (ftnGradFile 2 a 2, g 2 a 2), (ftnGradFile 3 a 2, g 3 a 2)])

theorem ftnFilesOf_matrix (natoms : Nat) (t : Fin 4 → List Char) (s n : List Char) (g : Fin 4 → ℕ → Fin 3 → List Char) (k : Fin 4) :
    (["libgrpp_f90_arep.txt", "libgrpp_f90_so_x.txt", "libgrpp_f90_so_y.txt", "libgrpp_f90_so_z.txt"].getD k "", t k) ∈ ftnFilesOf natoms t s n g := by
  refine List.mem_append_left _ (List.mem_append_left _ (List.mem_of_getElem? (i := k) ?_))
  match k with
  | 0 => rfl
  | 1 => rfl
  | 2 => rfl
  | 3 => rfl

theorem ftnFilesOf_grad (natoms : Nat) (t : Fin 4 → List Char) (s n : List Char) (g : Fin 4 → ℕ → Fin 3 → List Char) (x : Fin 4) (a : Nat) (k : Fin 3)
    (ha : a < natoms) : (ftnGradFile x a k, g x a k) ∈ ftnFilesOf natoms t s n g := by
  rcases Nat.eq_zero_or_pos x.val with hx | hx
  · obtain rfl : x = 0 := Fin.ext hx
    refine List.mem_append_left _ (List.mem_append_right _ (List.mem_flatMap.2 ⟨a, List.mem_range.2 ha, List.mem_of_getElem? (i := k) ?_⟩))
    match k with
    | 0 => rfl
    | 1 => rfl
    | 2 => rfl
  · refine List.mem_append_right _ (List.mem_flatMap.2 ⟨a, List.mem_range.2 ha, List.mem_of_getElem? (i := 3 * k + (x - 1)) ?_⟩)
    match x, k with
    | 0, _ => exact absurd hx (lt_irrefl _)
    | 1, 0 => rfl
    | 1, 1 => rfl
    | 1, 2 => rfl
    | 2, 0 => rfl
    | 2, 1 => rfl
    | 2, 2 => rfl
    | 3, 0 => rfl
    | 3, 1 => rfl
    | 3, 2 => rfl

/-- The names of the files of the Fortran program for `natoms` atoms. -/
def ftnNames (natoms : Nat) : List String := (ftnFilesOf natoms (fun _ => []) [] [] fun _ _ _ => []).map Prod.fst

theorem ftnFilesOf_names (natoms : Nat) (t : Fin 4 → List Char) (s n : List Char) (g : Fin 4 → ℕ → Fin 3 → List Char) :
    (ftnFilesOf natoms t s n g).map Prod.fst = ftnNames natoms := by
  simp only [ftnNames, ftnFilesOf, List.map_append, List.map_flatMap, List.map_cons, List.map_nil]

/-- The names of a test of two atoms: they are different, and none is that of a reference. -/
theorem ftnNames_two : (ftnNames 2).Nodup ∧ ∀ c ∈ kcsComparisons, c.2 ∉ ftnNames 2 := by decide +kernel

/-- The name of a file of gradients without the beginning. -/
def gradReference (x : Fin 4) (a : Nat) (k : Fin 3) : String :=
  (["arep", "so_x", "so_y", "so_z"].getD x "") ++ "_grad_" ++ toString a ++ (["x", "y", "z"].getD k "") ++ ".txt"

/-- **C113**, the test `KCs` of the Fortran program (partial as `test_passed_partial`; the output is that of C112 for two atoms): if it passes, the references are files with
the matrices and gradients which the program has computed, within 2e-10 and the error of printing. -/
theorem test_kcs_partial (io ioF : DecimalIO) (hscan : ioF.scan = io.scan) {eps : ℝ} (heps : 0 ≤ eps) (d : Dir) (files left : List OutFile) {N : ℕ} (hN : N ≤ 46340)
    {M : Fin 4 → ℕ → ℕ → ℝ} {S A : ℕ → ℕ → ℝ} {V : Fin 4 → ℕ → Fin 3 → ℕ → ℕ → ℝ} (hf : FtnOutput ioF N 2 M S A V files)
    (hp : testScript io d (.ok files) left kcsComparisons = .ok 0) :
    (∀ k : Fin 4, (∀ p q, p < N → q < N → 1e-10 < |M k p q| → ioF.Near eps (M k p q)) →
      IsReference io d (["arep.txt", "so_x.txt", "so_y.txt", "so_z.txt"].getD k "") N (M k) (tolF eps)) ∧
    ∀ (x : Fin 4) (a : Nat) (k : Fin 3), a < 2 → (∀ p q, p < N → q < N → 1e-10 < |V x a k p q| → ioF.Near eps (V x a k p q)) →
      IsReference io d (gradReference x a k) N (V x a k) (tolF eps) := by
  obtain ⟨t, s, n, g, rfl, h1, -, -, h4⟩ := hf
  have hp' : testScript io d (.ok (ftnFilesOf 2 t s n g)) left kcsComparisons = .ok 0 := hp
  clear hp
  have hnames := ftnFilesOf_names 2 t s n g
  have hn : ((ftnFilesOf 2 t s n g).map Prod.fst).Nodup := by rw [hnames]; exact ftnNames_two.1
  generalize hfs : ftnFilesOf 2 t s n g = fs at hp' hnames hn
  have key : ∀ (f : OutFile) (b : String) (U : ℕ → ℕ → ℝ), f ∈ fs → (f.1, b) ∈ kcsComparisons → FtnHolds ioF N U f.2 →
      (∀ p q, p < N → q < N → 1e-10 < |U p q| → ioF.Near eps (U p q)) → IsReference io d b N U (tolF eps) := by
    intro f b U hf hc hU hio
    have hb : b ∉ fs.map Prod.fst := by rw [hnames]; exact ftnNames_two.2 _ hc
    obtain ⟨ta, tb, n, A, B, h1, h2, h3, h4, h5⟩ := (script_verdict io _ kcsComparisons).1 hp' _ hc
    simp only at h1 h2
    rw [write_mem d fs hn f hf, Option.some.injEq] at h1
    rw [write_not_mem d fs b hb] at h2
    subst h1
    obtain ⟨A', e1, e2⟩ := readMatrix_ftnHolds hscan heps hU hN hio
    rw [h3, Outcome.ok.injEq, Option.some.injEq, Prod.mk.injEq] at e1
    obtain ⟨rfl, rfl⟩ := e1
    rw [Int.toNat_natCast] at h5
    exact ⟨tb, B, h2, h4, equalWithin_reference e2 h5⟩
  subst hfs
  refine ⟨fun k hio => key _ _ _ (ftnFilesOf_matrix 2 t s n g k) ?_ (h1 k) hio, fun x a k ha hio => key _ _ _ (ftnFilesOf_grad 2 t s n g x a k ha) ?_ (h4 x a ha k) hio⟩
  · show (["libgrpp_f90_arep.txt", "libgrpp_f90_so_x.txt", "libgrpp_f90_so_y.txt", "libgrpp_f90_so_z.txt"].getD k "",
      ["arep.txt", "so_x.txt", "so_y.txt", "so_z.txt"].getD k "") ∈ kcsComparisons
    clear hio key
    revert k
    decide +kernel
  · show (ftnGradFile x a k, gradReference x a k) ∈ kcsComparisons
    have hall : ∀ a < 2, ∀ (x : Fin 4) (k : Fin 3), (ftnGradFile x a k, gradReference x a k) ∈ kcsComparisons := by decide +kernel
    exact hall a ha x k

/-- **C113**, what is not tested: no script asks for the model of the bubble or the gradients of parts of the pseudopotential; the overlap and nuclear-attraction matrices of the
Fortran program are compared with nothing. -/
theorem test_uncovered : (∀ c : Calc, (∀ args ∈ [csArgs, kArgs, ["--grpp"], h2oArgs], c.arg ∉ args.map String.toList) ↔
      c ∈ [Calc.fermiBubble, .gradType1, .gradType2, .gradSpinOrbit, .gradOutercore]) ∧
    ∀ c ∈ kcsComparisons, c.1 ≠ "libgrpp_f90_overlap.txt" ∧ c.1 ≠ "libgrpp_f90_nucattr.txt" := by
  refine ⟨fun c => ?_, by decide +kernel⟩
  cases c <;> decide +kernel

/-! ## Concrete cases -/

open Classical in
/-- What the C library of the examples keeps of a number. -/
noncomputable def exampleRound (x : ℝ) : ℝ := if |x| ≤ 1e-14 then x else if x = 1 then 1 else 2

theorem printLower_congr (io : DecimalIO) (dim : Nat) (A B : List Dbl) (hA : dim * dim ≤ A.length) (hB : dim * dim ≤ B.length)
    (h : ∀ (p : Nat) a b, A[p]? = some a → B[p]? = some b → (a.AbsGt (1e-14) ↔ b.AbsGt (1e-14)) ∧ (a.AbsGt (1e-14) → io.fmt a = io.fmt b)) :
    printLower io dim A = printLower io dim B := by
  classical
  unfold printLower
  refine forRange_body_congr fun i hi out => forRange_body_congr fun j hj out => ?_
  have hlt := lower_index hi (show j < dim by omega)
  have h1 : i * dim + j < A.length := by omega
  have h2 : i * dim + j < B.length := by omega
  rw [rd_ok h1, rd_ok h2]
  simp only [Outcome.ok_bind]
  obtain ⟨h3, h4⟩ := h _ _ _ (List.getElem?_eq_getElem h1) (List.getElem?_eq_getElem h2)
  by_cases hg : (A[i * dim + j]).AbsGt (1e-14)
  · rw [if_pos hg, if_pos (h3.1 hg), matrixLine, matrixLine, h4 hg]
  · rw [if_neg hg, if_neg fun hc => hg (h3.2 hc)]

/-- A file of any matrix, as the C library of the examples prints it, is that of a matrix which it prints faithfully. -/
theorem exampleHolds {N : ℕ} {V : ℕ → ℕ → ℝ} {text : List Char} (h : HoldsMatrix exampleIO N V text) :
    HoldsMatrix exampleIO N (fun p q => exampleRound (V p q)) text ∧ ∀ x : ℝ, 1e-14 < |exampleRound x| → exampleIO.Faithful (.fin (exampleRound x)) := by
  obtain ⟨M, h1, h2, h3⟩ := h
  refine ⟨⟨M.map exampleRound, ?_, by rw [List.length_map, h2], fun p q hp hq => by rw [List.getElem?_map, h3 p q hp hq]; rfl⟩, fun x hx => ?_⟩
  · rw [← h1]
    refine printLower_congr _ _ _ _ (by simp [h2]) (by simp [h2]) fun p a b ha hb => ?_
    rw [List.getElem?_map] at ha hb
    rw [List.getElem?_map] at ha
    cases hM : M[p]? with
    | none => rw [hM] at ha; simp at ha
    | some x =>
      rw [hM] at ha hb
      simp only [Option.map_some, Option.some.injEq] at ha hb
      subst ha hb
      unfold exampleRound
      by_cases h1 : |x| ≤ 1e-14
      · rw [if_pos h1]; exact ⟨Iff.rfl, fun _ => rfl⟩
      · rw [if_neg h1]
        have hx : (Dbl.fin x).AbsGt (1e-14) := not_le.1 h1
        by_cases h2 : x = 1
        · rw [if_pos h2, h2]; exact ⟨Iff.rfl, fun _ => rfl⟩
        · rw [if_neg h2]
          refine ⟨iff_of_true (by simp [Dbl.AbsGt]; norm_num) hx, fun _ => by simp [exampleIO, h2]⟩
  · unfold exampleRound at hx ⊢
    by_cases h1 : |x| ≤ 1e-14
    · rw [if_pos h1] at hx; exact absurd hx (not_lt.2 h1)
    · rw [if_neg h1]
      by_cases h2 : x = 1
      · rw [if_pos h2]; exact exampleIO_one
      · rw [if_neg h2]; exact exampleIO_two

/-- A directory with one file. -/
def exampleDir (name : String) (text : List Char) : Dir := fun n => if n = name then some text else none

/-- Comparing a file of the driver with itself; with a file that is not there; with one argument. -/
example (V : ℕ → ℕ → ℝ) (text : List Char) (h : HoldsMatrix exampleIO 3 V text) :
    compareMain exampleIO (exampleDir "m.txt" text) ["m.txt", "m.txt"] = .ok 0 ∧ compareMain exampleIO (exampleDir "m.txt" text) ["m.txt", "n.txt"] ≠ .ok 0 ∧
      compareMain exampleIO (exampleDir "m.txt" text) ["m.txt"] = .ok 1 ∧ compareMain exampleIO (exampleDir "m.txt" text) ["abc", "m.txt", "m.txt"] = .ok 1 := by
  obtain ⟨c1, c2, c3, c4, c5⟩ := compare_command exampleIO (exampleDir "m.txt" text)
  obtain ⟨h1, h2⟩ := exampleHolds h
  obtain ⟨A, a1, a2⟩ := readMatrix_holds_near h1 (by norm_num) fun p q _ _ => h2 _
  refine ⟨?_, ?_, c1 _ (by simp) (by simp), c2 _ _ _ (by simp [scanDbl, exampleIO, isSpaceC, List.dropWhile, List.takeWhile])⟩
  · refine (c4 _ _).2 ⟨text, text, _, A, A, if_pos rfl, if_pos rfl, a1, a1, fun i j hi hj => ?_⟩
    obtain ⟨y, hy, -⟩ := a2 i j hi hj
    exact ⟨_, _, hy, hy, by rw [exceeds_fin]; simp [Dbl.sub, Dbl.AbsGt]; norm_num⟩
  · intro h
    obtain ⟨ta, tb, n, A, B, -, hb, -⟩ := (c4 _ _).1 h
    simp [exampleDir] at hb

/-- With the threshold `NAN`, the matrices (1) and (2) are equal; with the default threshold they are not. -/
example (t1 t2 : List Char) (h1 : HoldsMatrix exampleIO 1 (fun _ _ => 1) t1) (h2 : HoldsMatrix exampleIO 1 (fun _ _ => 2) t2) :
    compareMain exampleIO (fun n => if n = "m.txt" then some t1 else some t2) ["NAN", "m.txt", "n.txt"] = .ok 0 ∧
      compareMain exampleIO (fun n => if n = "m.txt" then some t1 else some t2) ["m.txt", "n.txt"] ≠ .ok 0 := by
  obtain ⟨A, a1, a2⟩ := readMatrix_holds_near h1 (by norm_num) fun p q _ _ _ => exampleIO_one
  obtain ⟨B, b1, b2⟩ := readMatrix_holds_near h2 (by norm_num) fun p q _ _ _ => exampleIO_two
  refine ⟨compare_command_nan _ _ _ _ _ .nan [] (by simp [scanDbl, exampleIO, isSpaceC, List.dropWhile, List.takeWhile]) (Or.inl rfl) t1 t2 _ A B (if_pos rfl)
    (if_neg (by decide)) a1 b1, fun h => ?_⟩
  obtain ⟨ta, tb, n, A', B', e1, e2, e3, e4, e5⟩ := ((compare_command _ _).2.2.2.1 _ _).1 h
  rw [if_pos rfl, Option.some.injEq] at e1
  rw [if_neg (by decide), Option.some.injEq] at e2
  subst e1 e2
  rw [a1, Outcome.ok.injEq, Option.some.injEq, Prod.mk.injEq] at e3
  obtain ⟨rfl, rfl⟩ := e3
  rw [b1, Outcome.ok.injEq, Option.some.injEq, Prod.mk.injEq] at e4
  obtain ⟨-, rfl⟩ := e4
  obtain ⟨y, y1, y2, -⟩ := a2 0 0 (by norm_num) (by norm_num)
  obtain ⟨z, z1, z2, -⟩ := b2 0 0 (by norm_num) (by norm_num)
  obtain ⟨a, b, f1, f2, f3⟩ := e5 0 0 (by norm_num) (by norm_num)
  simp only [Nat.cast_one, Int.toNat_one] at f1 f2
  rw [y1, Option.some.injEq] at f1
  rw [z1, Option.some.injEq] at f2
  subst f1 f2
  rw [exceeds_fin] at f3
  have y3 := y2 le_rfl
  have z3 := z2 le_rfl
  simp only [Dbl.sub, Dbl.AbsGt, not_lt, tolC] at f3 y3 z3
  rw [abs_le] at f3 y3 z3
  norm_num at f3 y3 z3
  linarith [f3.1, y3.1, z3.2]

/-- The script with the overlap only, for an atom of hydrogen: with the right reference it passes, and then, run again in the same directory with a misspelt argument, it passes
although the driver fails. -/
example {G : Type} (lib : Lib G) (sf : SpecFun) (hi : lib.init = true) (ho : DocumentedOrder lib.gen) :
    ∃ (text : List Char) (shells : List Shell) (files : List OutFile), IsFileOf exampleIO shells (fun f g => ∫ r, f r * g r) text ∧ dimOf shells = 10 ∧
      driverFiles (exampleProgEnv lib sf) ["--overlap"] (exampleMol 1) exampleBasis "* 8 0 0 ".toList = .ok files ∧
      testScript exampleIO (exampleDir "overlap.txt" text) (.ok files) [] [("libgrpp_c_overlap.txt", "overlap.txt")] = .ok 0 ∧
      testScript exampleIO ((exampleDir "overlap.txt" text).write files)
        (driverFiles (exampleProgEnv lib sf) ["--ovrelap"] (exampleMol 1) exampleBasis "* 8 0 0 ".toList) [] [("libgrpp_c_overlap.txt", "overlap.txt")] = .ok 0 ∧
      IsReference exampleIO (exampleDir "overlap.txt" text) "overlap.txt" 10
        (fun p q => exampleRound (∫ r, (basisFns shells).getD p (fun _ => 0) r * (basisFns shells).getD q (fun _ => 0) r)) tolC := by
  obtain ⟨shells, grpps, ⟨funs, -, -, g1, -⟩, g2⟩ := program_files (exampleProgEnv lib sf) (exampleProgEnv_ok lib sf hi ho)
    (exampleMol 1) exampleBasis "* 8 0 0 ".toList (List.replicate 1 (1, ![1, 1, 1])) _ _ (exampleInput 1 (by decide)) (by rw [exampleDim]; norm_num)
  obtain ⟨F, f1, f2⟩ := (g2 ["--overlap".toList] (fun a ha => ⟨.overlap, by rw [List.mem_singleton.1 ha]; rfl⟩)).1 fun c hc => by
    obtain rfl : c = .overlap := by revert hc; cases c <;> decide +kernel
    trivial
  obtain ⟨text, e, hfile⟩ := f2 .overlap (by decide +kernel)
  rw [exampleDim] at g1
  have hdim : dimOf shells = 10 := by rw [← basisFns_length, g1]
  have hfiles : (Calc.all.filter fun c => c.arg ∈ ["--overlap".toList]).flatMap F = [("libgrpp_c_overlap.txt", text)] := by
    rw [show (Calc.all.filter fun c => c.arg ∈ ["--overlap".toList]) = [.overlap] by decide +kernel, List.flatMap_singleton, e]
  have hold : HoldsMatrix exampleIO 10 (fun p q => ∫ r, (basisFns shells).getD p (fun _ => 0) r * (basisFns shells).getD q (fun _ => 0) r) text := by
    obtain ⟨M, m1, m2, m3⟩ := hfile
    rw [g1] at m1 m2 m3
    exact ⟨M, m1, m2, fun p q hp hq => m3 p q _ _ (getD_of_lt (by omega) _) (getD_of_lt (by omega) _)⟩
  obtain ⟨h1, h2⟩ := exampleHolds hold
  obtain ⟨A, a1, a2⟩ := readMatrix_holds_near h1 (by norm_num) fun p q _ _ => h2 _
  have hd : driverFiles (exampleProgEnv lib sf) ["--overlap"] (exampleMol 1) exampleBasis "* 8 0 0 ".toList = .ok [("libgrpp_c_overlap.txt", text)] := by
    unfold driverFiles
    rw [show List.map String.toList ["--overlap"] = ["--overlap".toList] from rfl, f1, hfiles, Outcome.ok_bind]
  have hpass : testScript exampleIO (exampleDir "overlap.txt" text) (.ok [("libgrpp_c_overlap.txt", text)]) [] [("libgrpp_c_overlap.txt", "overlap.txt")] = .ok 0 := by
    refine (script_verdict _ _ _).2 fun c hc => ?_
    rw [List.mem_singleton.1 hc]
    refine ⟨text, text, _, A, A, write_mem _ [("libgrpp_c_overlap.txt", text)] (by simp) _ List.mem_cons_self, write_not_mem _ _ _ (by simp), a1, a1, fun i j hi hj => ?_⟩
    obtain ⟨y, hy, -⟩ := a2 i j hi hj
    exact ⟨_, _, hy, hy, by rw [exceeds_fin]; simp [Dbl.sub, Dbl.AbsGt]; norm_num⟩
  exact ⟨text, shells, _, hfile, hdim, hd, hpass,
    (test_stale_unknown _ _ _ _ [] _ hpass ["--ovrelap"] ⟨_, List.mem_cons_self, fun c => by cases c <;> decide +kernel⟩ _ _ _).2,
    test_passed_partial _ _ _ [] _ (by simp) hpass _ List.mem_cons_self "overlap.txt" (by simp) (by simp) 10 _ (by norm_num) h1 fun p q _ _ => h2 _⟩

/-- `test_complete` for the matrix (1). -/
example (text : List Char) (h : HoldsMatrix exampleIO 1 (fun _ _ => 1) text) :
    testScript exampleIO (exampleDir "overlap.txt" text) (.ok [("libgrpp_c_overlap.txt", text)]) [] [("libgrpp_c_overlap.txt", "overlap.txt")] = .ok 0 := by
  classical
  obtain ⟨A, a1, a2⟩ := readMatrix_holds h (by norm_num) fun p q _ _ _ => exampleIO_one
  refine test_complete _ _ _ _ _ (by simp) fun c hc => ?_
  rw [List.mem_singleton.1 hc]
  refine ⟨_, List.mem_cons_self, rfl, by simp, 1, fun _ _ => 1, text, A, by norm_num, h, fun _ _ _ _ _ => exampleIO_one, if_pos rfl, a1, fun p q hp hq => ?_⟩
  obtain rfl : p = 0 := by omega
  obtain rfl : q = 0 := by omega
  refine ⟨1, ?_, fun _ => by norm_num, fun h => absurd h (lt_irrefl _)⟩
  rw [a2 0 0 hp hq, keptElement, if_pos ⟨le_rfl, by simp [Dbl.AbsGt]; norm_num⟩]

/-- The script of the tests of nuclear models, for hydrogen: no defined result. -/
example {G : Type} (lib : Lib G) (sf : SpecFun) (hi : lib.init = true) (ho : DocumentedOrder lib.gen) (d : Dir) :
    testScript exampleIO d (driverFiles (exampleProgEnv lib sf) ["--overlap", "--coulomb-fermi"] (exampleMol 2) exampleBasis "* 8 0 0 ".toList) [] kComparisons = .ub := by
  obtain ⟨shells, grpps, hf, h2⟩ := test_undefined (exampleProgEnv lib sf) (exampleProgEnv_ok lib sf hi ho) (exampleMol 2) exampleBasis "* 8 0 0 ".toList
    (List.replicate 2 (1, ![1, 1, 1])) (fun _ => List.replicate 3 exampleBlock) (fun _ => none) (exampleInput 2 (by decide)) (by rw [exampleDim]; norm_num)
    ["--overlap", "--coulomb-fermi"] kComparisons (by
      intro a ha
      simp only [List.mem_cons, List.not_mem_nil, or_false] at ha
      rcases ha with rfl | rfl
      exacts [⟨.overlap, rfl⟩, ⟨.fermi, rfl⟩]) d []
  have hu : CalcUndefined (exampleProgEnv lib sf) shells (List.replicate 2 (1, ![1, 1, 1])) grpps .fermi :=
    ⟨rfl, (exampleShells hf).1, (1, ![1, 1, 1]), by simp, by norm_num⟩
  refine h2 (fun c hc => ?_) ⟨.fermi, by decide +kernel, hu⟩
  have : c = .overlap ∨ c = .fermi := by
    revert hc
    cases c <;> decide +kernel
  rcases this with rfl | rfl
  · exact Or.inl trivial
  · exact Or.inr hu

theorem write_same (text : List Char) (fs : List OutFile) (h : ∀ f ∈ fs, f.2 = text) : Dir.write (fun _ => some text) fs = fun _ => some text := by
  induction fs with
  | nil => rfl
  | cons f fs ih =>
    rw [Dir.write, h f List.mem_cons_self, show Function.update (fun _ => some text) f.1 (some text) = fun _ : String => some text by
      funext n; by_cases hn : n = f.1 <;> simp [Function.update_apply]]
    exact ih fun f hf => h f (List.mem_cons_of_mem _ hf)

/-- The test of the Fortran program, where all matrices are (1). -/
example (text : List Char) (h : FtnHolds exampleIO 1 (fun _ _ => 1) text) :
    testScript exampleIO (fun _ => some text) (.ok (ftnFilesOf 2 (fun _ => text) text text fun _ _ _ => text)) [] kcsComparisons = .ok 0 ∧
      IsReference exampleIO (fun _ => some text) "so_z_grad_1y.txt" 1 (fun _ _ => 1) (tolF (1e-16)) := by
  have hio : ∀ p q : ℕ, p < 1 → q < 1 → 1e-10 < |(1 : ℝ)| → exampleIO.Near (1e-16) 1 := fun _ _ _ _ _ => exampleIO_near_one
  obtain ⟨A, a1, a2⟩ := readMatrix_ftnHolds (io := exampleIO) rfl (by norm_num : (0 : ℝ) ≤ 1e-16) h (by norm_num) hio
  have hp : testScript exampleIO (fun _ => some text) (.ok (ftnFilesOf 2 (fun _ => text) text text fun _ _ _ => text)) [] kcsComparisons = .ok 0 := by
    refine (script_verdict _ _ _).2 fun c _ => ?_
    rw [write_same text _ (by
      intro f hf
      simp only [ftnFilesOf, List.mem_append, List.mem_flatMap, List.mem_cons, List.not_mem_nil, or_false] at hf
      rcases hf with ((rfl | rfl | rfl | rfl | rfl | rfl) | ⟨a, -, rfl | rfl | rfl⟩) | ⟨a, -, rfl | rfl | rfl | rfl | rfl | rfl | rfl | rfl | rfl⟩ <;> rfl)]
    refine ⟨text, text, _, A, A, rfl, rfl, a1, a1, fun i j hi hj => ?_⟩
    obtain ⟨y, hy, -⟩ := a2 i j hi hj
    exact ⟨_, _, hy, hy, by rw [exceeds_fin]; simp [Dbl.sub, Dbl.AbsGt]; norm_num⟩
  refine ⟨hp, ?_⟩
  exact (test_kcs_partial exampleIO exampleIO rfl (by norm_num : (0 : ℝ) ≤ 1e-16) _ _ [] (by norm_num) (M := fun _ _ _ => 1) (S := fun _ _ => 1) (A := fun _ _ => 1)
    (V := fun _ _ _ _ _ => 1) ⟨fun _ => text, text, text, fun _ _ _ => text, rfl, fun _ => h, h, h, fun _ _ _ _ => h⟩ hp).2 3 1 1 (by norm_num) hio

/-- After a run of the test `ThO` that passes, the file `molecule.xyz` is lost; the test still passes. -/
example {G : Type} (env : ProgEnv G) (d : Dir) (files : List OutFile) (hp : testScript env.io d (.ok files) [] grppComparisons = .ok 0) (basis ecp : List Char) :
    testScript env.io (d.write files) (driverFiles env ["--grpp"] [] basis ecp) [] grppComparisons = .ok 0 :=
  (test_stale_molecule env env.io d files [] grppComparisons hp ["--grpp"] (fun a ha => ⟨.grpp, by rw [List.mem_singleton.1 ha]; rfl⟩) [] basis ecp rfl).2

end Libgrpp
