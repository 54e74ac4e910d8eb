import Verif.Lemmas.DriverNuclear
import Verif.Props.NuclearAttraction
import Verif.Props.DriverGrpp

/-! # C100: molecular matrices of the nuclear attraction in the driver program

`basisComps shells` is the list of all basis functions of a molecule (file `Verif/Model/DriverGrpp.lean`); `nucleusEnergy model z` is the energy of an
electron in the field of the nucleus of charge `z` with the rms radius of Johnson and Soff (file `Verif/Model/DriverNuclear.lean`). -/

namespace Libgrpp

/-- The matrix which the driver makes from the array `M` is `V`, whatever the buffer holds, and nothing else is written. -/
def FillsMatrix (shells : List Shell) (run : List ℝ → List ℝ → Outcome (List ℝ)) (V : ℕ → ℕ → ℝ) : Prop :=
  ∀ buf M : List ℝ, maxBuf ≤ buf.length → (basisComps shells).length * (basisComps shells).length ≤ M.length →
    ∃ M', run buf M = .ok M' ∧ SameBeyond ((basisComps shells).length * (basisComps shells).length) M' M ∧
      ∀ p q, p < (basisComps shells).length → q < (basisComps shells).length → M'[p * (basisComps shells).length + q]? = some (V p q)

/-- The input of the driver: shells within the limits of the library, charges of the periodic table, and a matrix that can be indexed by an `int`. -/
structure NuclearInput (gen : Nat → List Comp) (shells : List Shell) (atoms : List (Nat × Point)) : Prop where
  usable : ∀ s ∈ shells, s.InMolecule gen
  charge : ∀ a ∈ atoms, a.1 ≤ 130
  dim : (basisComps shells).length * (basisComps shells).length ≤ 2147483648

theorem basisComps_mem {shells : List Shell} {p m : ℕ} {A : Shell} (h : (basisComps shells)[p]? = some (A, m)) : A ∈ shells ∧ m < A.cart_size := by
  have := List.mem_of_getElem? h
  simp only [basisComps, List.mem_flatMap, List.mem_map, List.mem_range] at this
  obtain ⟨s, hs, m', hm', e⟩ := this
  obtain ⟨rfl, rfl⟩ := Prod.mk.inj e
  exact ⟨hs, hm'⟩

theorem evalNuclear_values {G : Type} {env : NucEnv G} {model : Int} {gen : Nat → List Comp} {shells : List Shell} {atoms : List (Nat × Point)}
    (h : NuclearInput gen shells atoms) {W : Shell → Shell → Nat × Point → Nat → Nat → ℝ} (hf : NucFills env model shells atoms W) :
    ∃ V : ℕ → ℕ → ℝ, (∀ p q A B m n, (basisComps shells)[p]? = some (A, m) → (basisComps shells)[q]? = some (B, n) →
        V p q = (atoms.map fun a => W A B a m n).sum) ∧ FillsMatrix shells (evalNuclear env model shells atoms) V := by
  let d : Shell × Nat := (⟨0, fun _ => 0, 0, [], 0, [], []⟩, 0)
  have hsum : ∀ (p : Nat) (f : Shell × Nat), (basisComps shells)[p]? = some f → (basisComps shells).getD p d = f := by
    intro p f hf; simp [List.getD, hf]
  refine ⟨fun p q => (atoms.map fun a => W ((basisComps shells).getD p d).1 ((basisComps shells).getD q d).1 a ((basisComps shells).getD p d).2
    ((basisComps shells).getD q d).2).sum, ?_, ?_⟩
  · intro p q A B m n hp hq
    beta_reduce
    rw [hsum p _ hp, hsum q _ hq]
  · intro buf M hb hM
    have hd := h.dim
    rw [basisComps_length] at hM hd ⊢
    obtain ⟨M', e, h1, h2⟩ := evalNuclear_spec hf hd (fun A hA B hB =>
      (Nat.mul_le_mul (h.usable A hA).size_le (h.usable B hB).size_le).trans (by unfold maxBuf; omega)) buf M hb hM
    refine ⟨M', e, h1, fun p q hp hq => ?_⟩
    have key := basisComps_pairs (shells := shells) (P := fun p q f g => M'[p * dimOf shells + q]? =
      some (atoms.map fun a => W f.1 g.1 a f.2 g.2).sum) fun i j m n hi hj hm hn => h2 i j m n hi hj hm hn
    rw [← basisComps_length] at hp hq
    exact key p q _ _ (by simp [List.getD, hp]) (by simp [List.getD, hq])

/-! ## C100, point nuclei -/

/-- **C100** (point nuclei). The matrix is the sum over all atoms of the matrix elements of `-Z/r`, each up to the error of the Boys function (C33). -/
theorem molecular_nuclear_point {G : Type} (env : NucEnv G) (hi : env.init = true) (hb : env.sf.boys = boysLiteral) {gen : Nat → List Comp}
    (ho : DocumentedOrder gen) (shells : List Shell) (atoms : List (Nat × Point)) (h : NuclearInput gen shells atoms)
    (hr : ∀ A ∈ shells, ∀ B ∈ shells, ∀ a ∈ atoms, InRange A B a.2 1 0) :
    ∃ (W : Shell → Shell → Nat × Point → ℕ → ℕ → ℕ → ℕ → ℕ → ℝ) (V : ℕ → ℕ → ℝ),
      (∀ A ∈ shells, ∀ B ∈ shells, ∀ a ∈ atoms, ∀ m n, m < A.cart_size → n < B.cart_size →
        pairScreened A B a.2 (fun r => -(a.1 : ℝ) / r) m n =
          -(a.1 : ℝ) * ∑ i ∈ Finset.range A.num, ∑ j ∈ Finset.range B.num, ∑ k ∈ Finset.range (A.L + B.L + 1),
            W A B a i j m n k * boysF k (pairArg A B a.2 0 i j)) ∧
      (∀ p q A B m n, (basisComps shells)[p]? = some (A, m) → (basisComps shells)[q]? = some (B, n) →
        |V p q - (atoms.map fun a => pairScreened A B a.2 (fun r => -(a.1 : ℝ) / r) m n).sum| ≤
          (atoms.map fun a => 1.7e-14 * (a.1 : ℝ) * ∑ i ∈ Finset.range A.num, ∑ j ∈ Finset.range B.num, ∑ k ∈ Finset.range (A.L + B.L + 1),
            |W A B a i j m n k|).sum) ∧
      FillsMatrix shells (evalNuclear env modelPoint shells atoms) V := by
  have hv : ∀ (A B : Shell) (a : Nat × Point), ∃ (M : ℕ → ℕ → ℝ) (W : ℕ → ℕ → ℕ → ℕ → ℕ → ℝ), A ∈ shells → B ∈ shells → a ∈ atoms →
      (∀ m n, m < A.cart_size → n < B.cart_size →
        ∀ Z : ℝ, pairScreened A B a.2 (fun r => -Z / r) m n =
          -Z * ∑ i ∈ Finset.range A.num, ∑ j ∈ Finset.range B.num, ∑ k ∈ Finset.range (A.L + B.L + 1),
            W i j m n k * boysF k (pairArg A B a.2 0 i j)) ∧
      (∀ (charge : Int) (mp out : List ℝ), charge ≠ -2147483648 → A.cart_size * B.cart_size ≤ out.length →
        ∃ out', nuclearAttraction env A B a.2 charge modelPoint mp out = .ok out' ∧ out'.length = out.length ∧
          (∀ m n, m < A.cart_size → n < B.cart_size → out'[m * B.cart_size + n]? = some (-(charge : ℝ) * M m n)) ∧
          ∀ q, A.cart_size * B.cart_size ≤ q → out'[q]? = out[q]?) ∧
      ∀ m n, m < A.cart_size → n < B.cart_size → ∀ Z : ℝ,
        |-Z * M m n - pairScreened A B a.2 (fun r => -Z / r) m n| ≤
          1.7e-14 * |Z| * ∑ i ∈ Finset.range A.num, ∑ j ∈ Finset.range B.num, ∑ k ∈ Finset.range (A.L + B.L + 1), |W i j m n k| := by
    intro A B a
    by_cases hc : A ∈ shells ∧ B ∈ shells ∧ a ∈ atoms
    · obtain ⟨hA, hB, ha⟩ := hc
      obtain ⟨M, W, h1⟩ := point_nucleus env hi hb A B ((h.usable A hA).made.supported ho (h.usable A hA).L9)
        ((h.usable B hB).made.supported ho (h.usable B hB).L9) a.2 (hr A hA B hB a ha)
      exact ⟨M, W, fun _ _ _ => h1⟩
    · exact ⟨fun _ _ => 0, fun _ _ _ _ _ => 0, fun hA hB ha => absurd ⟨hA, hB, ha⟩ hc⟩
  choose M W hMW using hv
  have hf : NucFills env modelPoint shells atoms (fun A B a m n => -((a.1 : Int) : ℝ) * M A B a m n) := by
    intro a ha
    refine ⟨_, [], massNumber_table (h.charge a ha), rfl, fun A hA B hB buf hl => ?_⟩
    obtain ⟨out, e, l, v, -⟩ := (hMW A B a hA hB ha).2.1 a.1 [] buf (by omega) hl
    exact ⟨out, e, l, v⟩
  obtain ⟨V, h1, h2⟩ := evalNuclear_values h hf
  refine ⟨W, V, fun A hA B hB a ha m n hm hn => (hMW A B a hA hB ha).1 m n hm hn _, fun p q A B m n hp hq => ?_, h2⟩
  obtain ⟨hA, hm⟩ := basisComps_mem hp
  obtain ⟨hB, hn⟩ := basisComps_mem hq
  rw [h1 p q A B m n hp hq]
  refine list_sum_close _ _ _ _ fun a ha => ?_
  have := (hMW A B a hA hB ha).2.2 m n hm hn a.1
  rw [abs_of_nonneg (Nat.cast_nonneg a.1 : (0:ℝ) ≤ a.1)] at this
  simpa using this

/-! ## C100, extended nuclei and the numerical point nucleus -/

/-- The error bound of C75: radial integrals `R` (computed) and `E` (exact) with the weights `U`, `T`. -/
noncomputable def nucErr (A B : Shell) (U T : ℕ → ℕ → ℕ → ℕ → ℕ → ℕ → ℝ) (R E : ℕ → ℕ → ℕ → ℕ → ℝ) (m n : ℕ) : ℝ :=
  ∑ i ∈ Finset.range A.num, ∑ j ∈ Finset.range B.num, ∑ lam ∈ Finset.range (A.L + B.L + 1), ∑ N ∈ Finset.range (A.L + B.L + 1),
    (U i j m n lam N * (|R i j lam N - E i j lam N| + 1e-16) + T i j m n lam N * (1e-13 * |E i j lam N|))

/-- Models of the nucleus whose parameters the driver can provide. -/
def DriverModel (model : Int) (atoms : List (Nat × Point)) : Prop :=
  model = modelPointNumerical ∨ model = modelBall ∨ model = modelGaussian ∨ (model = modelFermi ∧ ∀ a ∈ atoms, 3 ≤ a.1)

theorem nucleusEnergy_code (sk : SkFun) (hk : sk = fermiSk skLiteral) (model : Int) (atoms : List (Nat × Point)) (hm : DriverModel model atoms)
    (a : Nat × Point) (ha : a ∈ atoms) (hz : a.1 ≤ 130) :
    ∃ (mp : List ℝ) (f : ℝ → Outcome ℝ) (Vc : ℝ → ℝ),
      driverNucParams model (rmsJohnson ((periodicTable.getD a.1 ⟨[], 0⟩).mass : Int)) = .ok mp ∧ nucPotential sk a.1 model mp = .ok f ∧
      (∀ r, 0 < r → f r = .ok (Vc r)) ∧ Coulombic (nucleusEnergy model a.1) ∧
      ∀ r, 0 < r → |Vc r - nucleusEnergy model a.1 r| ≤
        if model = modelFermi then 1.1e-9 * (a.1 : ℝ) * (1 / nucleusHalf a.1 + 1 / r) else 0 := by
  obtain ⟨h1, h2, h3, h4, h5, -⟩ := nuclear_potentials sk (a.1 : Int)
  simp only [Int.cast_natCast] at h1 h2 h3 h4 h5
  have hR := nucleusRadius_pos a.1
  rcases hm with rfl | rfl | rfl | ⟨rfl, h⟩
  · have e : nucleusEnergy modelPointNumerical a.1 = fun r => -(a.1 : ℝ) / r := by
      unfold nucleusEnergy
      rw [if_neg (by decide), if_neg (by decide), if_neg (by decide)]
    refine ⟨[], _, _, rfl, h1 [], fun r _ => rfl, by rw [e]; exact h2, fun r _ => ?_⟩
    rw [e, if_neg (by decide), sub_self, abs_zero]
  · obtain ⟨⟨f, h6, h7⟩, h8, -⟩ := h3 (nucleusRadius a.1) [] hR
    have e : nucleusEnergy modelBall a.1 = electronEnergy fun s => densBall s a.1 (nucleusRadius a.1) := by
      unfold nucleusEnergy; rw [if_pos rfl]
    refine ⟨[nucleusRadius a.1], f, _, ?_, h6, h7, by rw [e]; exact h8, fun r _ => ?_⟩
    · unfold driverNucParams
      rw [if_neg (by decide), if_pos (Or.inr rfl), nucleusRadius_eq]
    · rw [e, if_neg (by decide), sub_self, abs_zero]
  · obtain ⟨⟨f, h6, h7⟩, h8, -⟩ := h4 (nucleusRadius a.1) [] hR
    have e : nucleusEnergy modelGaussian a.1 = electronEnergy fun s => densGauss s a.1 (nucleusRadius a.1) := by
      unfold nucleusEnergy; rw [if_neg (by decide), if_pos rfl]
    refine ⟨[nucleusRadius a.1], f, _, ?_, h6, h7, by rw [e]; exact h8, fun r _ => ?_⟩
    · unfold driverNucParams
      rw [if_neg (by decide), if_pos (Or.inl rfl), nucleusRadius_eq]
    · rw [e, if_neg (by decide), sub_self, abs_zero]
  · obtain ⟨h6, h7, h8⟩ := driver_fermi_params (h a ha) hz modelFermi (Or.inl rfl)
    obtain ⟨f, Vc, h9, h10, h11, h12⟩ := h5 hk (nucleusHalf a.1) nucleusSkin [] h7 h8
    have e : nucleusEnergy modelFermi a.1 = electronEnergy (fermiDensity a.1 (nucleusHalf a.1) nucleusSkin) := by
      unfold nucleusEnergy; rw [if_neg (by decide), if_neg (by decide), if_pos rfl]
    refine ⟨_, f, Vc, h6, h9, h10, by rw [e]; exact h12, fun r hr => ?_⟩
    rw [e, if_pos rfl]
    have := h11 r hr
    rwa [abs_of_nonneg (Nat.cast_nonneg a.1 : (0:ℝ) ≤ a.1)] at this

/-- **C100** (numerical models). For the ball, the Gaussian, the numerical point nucleus, and, for molecules without ghost atoms, hydrogen and helium,
the Fermi model: the matrix is the sum over all atoms of the matrix elements of the potential of the nucleus with the mass number of the table and the
rms radius of Johnson and Soff, converted to atomic units; each up to the error of C75. -/
theorem molecular_nuclear_numeric {G : Type} (env : NucEnv G) (hi : env.init = true) (hk : env.sk = fermiSk skLiteral) {gen : Nat → List Comp}
    (ho : DocumentedOrder gen) (shells : List Shell) (atoms : List (Nat × Point)) (h : NuclearInput gen shells atoms)
    (model : Int) (hm : DriverModel model atoms) (hL : ∀ A ∈ shells, ∀ B ∈ shells, A.L + B.L ≤ 14)
    (hv : ∀ A ∈ shells, ∀ B ∈ shells, ∀ a ∈ atoms, ∀ i < A.num, ∀ j < B.num, VecOk (kVec A B a.2 (A.alphaAt i) (B.alphaAt j))) :
    ∃ (W U T : Shell → Shell → Nat × Point → ℕ → ℕ → ℕ → ℕ → ℕ → ℕ → ℝ) (Vc : Nat × Point → ℝ → ℝ) (V : ℕ → ℕ → ℝ),
      (∀ A ∈ shells, ∀ B ∈ shells, ∀ a ∈ atoms, ∀ m n, m < A.cart_size → n < B.cart_size →
        pairScreened A B a.2 (nucleusEnergy model a.1) m n = ∑ i ∈ Finset.range A.num, ∑ j ∈ Finset.range B.num,
          ∑ lam ∈ Finset.range (A.L + B.L + 1), ∑ N ∈ Finset.range (A.L + B.L + 1),
            W A B a i j m n lam N * radialExact (nucleusEnergy model a.1) A B a.2 (A.alphaAt i) (B.alphaAt j) lam N) ∧
      (∀ a ∈ atoms, ∀ r, 0 < r → |Vc a r - nucleusEnergy model a.1 r| ≤
        if model = modelFermi then 1.1e-9 * (a.1 : ℝ) * (1 / nucleusHalf a.1 + 1 / r) else 0) ∧
      (∀ p q A B m n, (basisComps shells)[p]? = some (A, m) → (basisComps shells)[q]? = some (B, n) →
        |V p q - (atoms.map fun a => pairScreened A B a.2 (nucleusEnergy model a.1) m n).sum| ≤
          (atoms.map fun a => nucErr A B (U A B a) (T A B a)
            (fun i j lam N => radialCode env.prm.radial env.bt (Vc a) A B a.2 (A.alphaAt i) (B.alphaAt j) lam N)
            (fun i j lam N => radialExact (nucleusEnergy model a.1) A B a.2 (A.alphaAt i) (B.alphaAt j) lam N) m n).sum) ∧
      FillsMatrix shells (evalNuclear env model shells atoms) V := by
  have hp : ∀ a : Nat × Point, ∃ (mp : List ℝ) (f : ℝ → Outcome ℝ) (Vc : ℝ → ℝ), a ∈ atoms →
      driverNucParams model (rmsJohnson ((periodicTable.getD a.1 ⟨[], 0⟩).mass : Int)) = .ok mp ∧ nucPotential env.sk a.1 model mp = .ok f ∧
      (∀ r, 0 < r → f r = .ok (Vc r)) ∧ Coulombic (nucleusEnergy model a.1) ∧
      ∀ r, 0 < r → |Vc r - nucleusEnergy model a.1 r| ≤
        if model = modelFermi then 1.1e-9 * (a.1 : ℝ) * (1 / nucleusHalf a.1 + 1 / r) else 0 := by
    intro a
    by_cases ha : a ∈ atoms
    · obtain ⟨mp, f, Vc, h1⟩ := nucleusEnergy_code env.sk hk model atoms hm a ha (h.charge a ha)
      exact ⟨mp, f, Vc, fun _ => h1⟩
    · exact ⟨[], fun _ => .ub, fun _ => 0, fun h => absurd h ha⟩
  choose mp f Vc hpot using hp
  have hnum : NumericModel model := by
    rcases hm with rfl | rfl | rfl | ⟨rfl, -⟩ <;> unfold NumericModel <;> simp
  have hw : ∀ (A B : Shell) (a : Nat × Point), ∃ (W U T : ℕ → ℕ → ℕ → ℕ → ℕ → ℕ → ℝ) (v : ℕ → ℕ → ℝ), A ∈ shells → B ∈ shells → a ∈ atoms →
      (∀ m n, m < A.cart_size → n < B.cart_size → pairScreened A B a.2 (nucleusEnergy model a.1) m n =
        ∑ i ∈ Finset.range A.num, ∑ j ∈ Finset.range B.num, ∑ lam ∈ Finset.range (A.L + B.L + 1), ∑ N ∈ Finset.range (A.L + B.L + 1),
          W i j m n lam N * radialExact (nucleusEnergy model a.1) A B a.2 (A.alphaAt i) (B.alphaAt j) lam N) ∧
      (∀ m n, m < A.cart_size → n < B.cart_size → |v m n - pairScreened A B a.2 (nucleusEnergy model a.1) m n| ≤ nucErr A B U T
            (fun i j lam N => radialCode env.prm.radial env.bt (Vc a) A B a.2 (A.alphaAt i) (B.alphaAt j) lam N)
            (fun i j lam N => radialExact (nucleusEnergy model a.1) A B a.2 (A.alphaAt i) (B.alphaAt j) lam N) m n) ∧
      ∀ buf : List ℝ, A.cart_size * B.cart_size ≤ buf.length →
        ∃ out, nuclearAttraction env A B a.2 a.1 model (mp a) buf = .ok out ∧ out.length = buf.length ∧ MatIs A.cart_size B.cart_size out v := by
    intro A B a
    by_cases hc : A ∈ shells ∧ B ∈ shells ∧ a ∈ atoms
    · obtain ⟨hA, hB, ha⟩ := hc
      obtain ⟨h1, h2, h3, h4, h5⟩ := hpot a ha
      have gA := (h.usable A hA).made.homog ho
      have gB := (h.usable B hB).made.homog ho
      obtain ⟨W, U, T, h6, h7⟩ := nuclear_numeric A B gA gB (hL A hA B hB) a.2 (hv A hA B hB a ha)
      have h7 := h7 G env hi a.1 model hnum (mp a) (f a) (Vc a) h2 h3
      let g : ℕ → ℕ → ℕ → ℕ → ℝ := fun i j m n => localSum (toC A a.2) (toC B a.2) (kVec A B a.2 (A.alphaAt i) (B.alphaAt j)) (A.L + B.L)
          (radialCode env.prm.radial env.bt (Vc a) A B a.2 (A.alphaAt i) (B.alphaAt j)) (A.comp m) (B.comp n)
      have h8 := nuclearAttraction_spec env hi A B gA.wf gB.wf a.2 a.1 model (mp a) g
        (fun i j buf _ _ _ hb => nucPrim_numeric env A B gA gB (hL A hA B hB) a.2 a.1 model hnum (mp a) (f a) (Vc a) h2 h3 (A.alphaAt i)
          (B.alphaAt j) buf hb)
      refine ⟨W, U, T, fun m n => ∑ i ∈ Finset.range A.num, ∑ j ∈ Finset.range B.num, pairCoef A B i j * g i j m n,
        fun _ _ _ => ⟨h6 _ h4, fun m n hmA hnB => ?_, fun buf hl => ?_⟩⟩
      · obtain ⟨out, e, h9, -⟩ := h8 (List.replicate (A.cart_size * B.cart_size) 0) (by simp)
        obtain ⟨out', e', -, -, h10⟩ := h7 (List.replicate (A.cart_size * B.cart_size) 0) (by simp)
        rw [e] at e'
        cases e'
        obtain ⟨v, h11, h12⟩ := h10 m n hmA hnB
        rw [h9 m n hmA hnB] at h11
        cases h11
        exact h12 _ h4
      · obtain ⟨out, e, h9, h10⟩ := h8 buf hl
        exact ⟨out, e, h10.1, h9⟩
    · exact ⟨fun _ _ _ _ _ _ => 0, fun _ _ _ _ _ _ => 0, fun _ _ _ _ _ _ => 0, fun _ _ => 0, fun hA hB ha => absurd ⟨hA, hB, ha⟩ hc⟩
  choose W U T v hall using hw
  have hf : NucFills env model shells atoms (fun A B a => v A B a) := by
    intro a ha
    exact ⟨_, mp a, massNumber_table (h.charge a ha), (hpot a ha).1, fun A hA B hB buf hl => (hall A B a hA hB ha).2.2 buf hl⟩
  obtain ⟨V, h1, h2⟩ := evalNuclear_values h hf
  refine ⟨W, U, T, Vc, V, fun A hA B hB a ha => (hall A B a hA hB ha).1, fun a ha => (hpot a ha).2.2.2.2, fun p q A B m n hp hq => ?_, h2⟩
  obtain ⟨hA, hmA⟩ := basisComps_mem hp
  obtain ⟨hB, hnB⟩ := basisComps_mem hq
  rw [h1 p q A B m n hp hq]
  exact list_sum_close _ _ _ _ fun a ha => (hall A B a hA hB ha).2.1 m n hmA hnB

/-! ## C100, what fails -/

theorem forShellPairs_first_ub {σ : Type} (A : Shell) (shells : List Shell) (s : σ) {body : Nat → Nat → Shell → Shell → σ → Outcome σ}
    (h : body 0 0 A A s = .ub) : forShellPairs (A :: shells) s body = .ub := by
  have hrd : rd (A :: shells) 0 = .ok A := rfl
  have h0 : ∀ s' : Nat × σ, s' = (0, s) → (do
      let bra ← rd (A :: shells) 0
      let r ← forRange (A :: shells).length ((0 : Nat), s'.2) fun j st2 => do
        let ket ← rd (A :: shells) j
        let s ← body s'.1 st2.1 bra ket st2.2
        Outcome.ok (st2.1 + ket.cart_size, s)
      Outcome.ok (s'.1 + bra.cart_size, r.2)) = .ub := by
    rintro s' rfl
    rw [hrd, Outcome.ok_bind, forRange_ub (k := 0) (fun _ (st : Nat × σ) => st = (0, s)) (by simp) rfl (fun i _ hi => absurd hi (by omega))]
    · rfl
    · rintro st rfl
      rw [hrd, Outcome.ok_bind]
      simp only [h]
      rfl
  unfold forShellPairs
  rw [forRange_ub (k := 0) (fun _ (st : Nat × σ) => st = (0, s)) (by simp) rfl (fun i _ hi => absurd hi (by omega)) h0]
  rfl

/-- **C100** (Fermi model, light nuclei): if the first atom is a ghost, hydrogen or helium, the estimate of the parameters fails, the driver ignores
this, and reads a variable that was never set, whatever the rest of the molecule. -/
theorem molecular_nuclear_fermi_light {G : Type} (env : NucEnv G) (A : Shell) (shells : List Shell) (a : Nat × Point) (atoms : List (Nat × Point))
    (h2 : a.1 ≤ 2) (buf M : List ℝ) (hM : (basisComps (A :: shells)).length * (basisComps (A :: shells)).length ≤ M.length) :
    evalNuclear env modelFermi (A :: shells) (a :: atoms) buf M = .ub := by
  rw [basisComps_length] at hM
  obtain ⟨M0, e0, -, -⟩ := memset0_spec (dimOf (A :: shells) * dimOf (A :: shells)) M hM
  unfold evalNuclear
  rw [basisDim_eq, Outcome.ok_bind, e0, Outcome.ok_bind, forShellPairs_first_ub]
  · rfl
  · rw [forRange_ub (k := 0) (fun _ _ => True) (by simp) trivial (fun i _ hi => absurd hi (by omega))]
    intro st _
    rw [show rd (a :: atoms) 0 = .ok a from rfl, Outcome.ok_bind, massNumber_table (by omega), Outcome.ok_bind,
      driver_light_params h2 modelFermi (Or.inl rfl)]
    rfl

/-- **C100** (Fermi model, light nuclei anywhere): a molecule with a ghost atom, hydrogen or helium at any place. -/
theorem molecular_nuclear_fermi_light_any {G : Type} (env : NucEnv G) (hi : env.init = true) (hk : env.sk = fermiSk skLiteral)
    {gen : Nat → List Comp} (ho : DocumentedOrder gen) (A : Shell) (shells : List Shell) (hA : A.InMolecule gen) (hL : A.L ≤ 7)
    (atoms : List (Nat × Point)) (a : Nat × Point) (ha : a ∈ atoms) (h2 : a.1 ≤ 2) (buf M : List ℝ) (hb : maxBuf ≤ buf.length)
    (hM : (basisComps (A :: shells)).length * (basisComps (A :: shells)).length ≤ M.length) :
    evalNuclear env modelFermi (A :: shells) atoms buf M = .ub := by
  rw [basisComps_length] at hM
  obtain ⟨M0, e0, -, -⟩ := memset0_spec (dimOf (A :: shells) * dimOf (A :: shells)) M hM
  obtain ⟨ia, hia, hga⟩ := List.getElem_of_mem ha
  unfold evalNuclear
  rw [basisDim_eq, Outcome.ok_bind, e0, Outcome.ok_bind, forShellPairs_first_ub]
  · rfl
  · have gA := hA.made.homog ho
    have hfit : A.cart_size * A.cart_size ≤ maxBuf := (Nat.mul_le_mul hA.size_le hA.size_le).trans (by unfold maxBuf; omega)
    refine (forRange_okUb (fun _ (st : List ℝ × List ℝ) => maxBuf ≤ st.1.length) hb fun i st hlt hst => ?_).2 ia hia fun st _ => ?_
    · rw [rd_ok hlt, Outcome.ok_bind]
      rcases Nat.lt_or_ge 130 atoms[i].1 with hz | hz
      · rw [massNumber_out hz]; exact Or.inr rfl
      rw [massNumber_table hz, Outcome.ok_bind]
      rcases Nat.lt_or_ge 2 atoms[i].1 with h3 | h3
      · obtain ⟨h6, h7, h8⟩ := driver_fermi_params h3 hz modelFermi (Or.inl rfl)
        obtain ⟨-, -, -, -, h5, -⟩ := nuclear_potentials env.sk (atoms[i].1 : Int)
        obtain ⟨f, Vc, h9, h10, -, -⟩ := h5 hk (nucleusHalf atoms[i].1) nucleusSkin [] h7 h8
        rw [h6, Outcome.ok_bind]
        obtain ⟨out, e, h11, h12⟩ := nuclearAttraction_spec env hi A A gA.wf gA.wf atoms[i].2 atoms[i].1 modelFermi [nucleusHalf atoms[i].1, nucleusSkin]
          _ (fun i' j' buf _ _ _ hb => nucPrim_numeric env A A gA gA (by omega) atoms[i].2 atoms[i].1 modelFermi (by unfold NumericModel; simp) _ f Vc h9 h10
            (A.alphaAt i') (A.alphaAt j') buf hb) st.1 (hfit.trans hst)
        rw [e, Outcome.ok_bind]
        exact ((addBlock_okUb _ _ _ _ _ _ _ _).1).bind fun m _ => Or.inl ⟨_, rfl, by simp only; rw [h12.1]; exact hst⟩
      · rw [driver_light_params h3 modelFermi (Or.inl rfl)]; exact Or.inr rfl
    · rw [rd_ok hia, Outcome.ok_bind, hga, massNumber_table (by omega), Outcome.ok_bind, driver_light_params h2 modelFermi (Or.inl rfl)]
      rfl

/-- **C100** (bubble model): the third parameter is never set. For every molecule, if some primitive of the first shell survives the screening. -/
theorem molecular_nuclear_bubble {G : Type} (env : NucEnv G) (hi : env.init = true) (A : Shell) (shells : List Shell) (hA : A.WF)
    (hn : 0 < A.num) (hc : 1e-13 ≤ |A.coeffs.getD 0 0 * A.coeffs.getD 0 0|) (hfit : A.cart_size * A.cart_size ≤ maxBuf)
    (a : Nat × Point) (atoms : List (Nat × Point)) (buf M : List ℝ) (hb : maxBuf ≤ buf.length)
    (hM : (basisComps (A :: shells)).length * (basisComps (A :: shells)).length ≤ M.length) :
    evalNuclear env modelBubble (A :: shells) (a :: atoms) buf M = .ub := by
  rw [basisComps_length] at hM
  obtain ⟨M0, e0, -, -⟩ := memset0_spec (dimOf (A :: shells) * dimOf (A :: shells)) M hM
  unfold evalNuclear
  rw [basisDim_eq, Outcome.ok_bind, e0, Outcome.ok_bind, forShellPairs_first_ub]
  · rfl
  · rw [forRange_ub (k := 0) (fun _ (st : List ℝ × List ℝ) => maxBuf ≤ st.1.length) (by simp) hb (fun i _ hi => absurd hi (by omega))]
    intro st hst
    rw [show rd (a :: atoms) 0 = .ok a from rfl, Outcome.ok_bind]
    rcases Nat.lt_or_ge 130 a.1 with hz | hz
    · rw [massNumber_out hz]; rfl
    rw [massNumber_table hz, Outcome.ok_bind]
    rcases Nat.lt_or_ge 2 a.1 with h3 | h3
    · rw [(driver_fermi_params h3 hz modelBubble (Or.inr rfl)).1, Outcome.ok_bind]
      have hub : nuclearAttraction env A A a.2 a.1 modelBubble [nucleusHalf a.1, nucleusSkin] st.1 = .ub := by
        obtain ⟨o0, e1, -, -⟩ := memset0_spec (A.cart_size * A.cart_size) st.1 (hfit.trans hst)
        unfold nuclearAttraction
        rw [Outcome.assert_pos hi]
        simp only [e1, Outcome.ok_bind]
        have hr := rd_getD (lt_of_lt_of_le hn hA.1)
        have hr' := rd_getD (lt_of_lt_of_le hn hA.2)
        rw [forRange_ub (k := 0) (fun _ _ => True) hn trivial (by intro i s hi; omega)]
        · rfl
        · intro s _
          rw [hr, Outcome.ok_bind, forRange_ub (k := 0) (fun _ _ => True) hn trivial (by intro i s hi; omega)]
          intro s _
          rw [hr, Outcome.ok_bind, if_neg (not_lt.2 hc), hr', Outcome.ok_bind, Outcome.ok_bind]
          rfl
      rw [hub]
      rfl
    · rw [driver_light_params h3 modelBubble (Or.inr rfl)]; rfl

/-! ## A molecule -/

theorem nuclearInput_example : NuclearInput cartesianDirac [exampleShell, sShell] [(92, fun _ => 1), (9, fun _ => 2)] := by
  refine ⟨?_, by simp, ?_⟩
  · simp only [List.mem_cons, List.not_mem_nil, or_false, forall_eq_or_imp, forall_eq]
    exact ⟨⟨exampleShell_usable.made, exampleShell_usable.L9⟩, sShell_usable.made, sShell_usable.L9⟩
  · rw [basisComps_length]
    norm_num [dimOf, exampleShell, sShell]

/-- Uranium and fluorine as point charges; the matrix of p and s functions is filled. -/
example {G : Type} (env : NucEnv G) (hi : env.init = true) (hb : env.sf.boys = boysLiteral) :
    ∃ M', evalNuclear env modelPoint [exampleShell, sShell] [(92, fun _ => 1), (9, fun _ => 2)] (List.replicate 10000 5) (List.replicate 17 7) = .ok M' := by
  obtain ⟨W, V, -, -, h⟩ := molecular_nuclear_point env hi hb (Or.inl rfl) _ _ nuclearInput_example (by
    simp only [List.mem_cons, List.not_mem_nil, or_false, forall_eq_or_imp, forall_eq]
    simp [InRange, exampleShell, sShell])
  obtain ⟨M', e, -⟩ := h (List.replicate 10000 5) (List.replicate 17 7) (by rw [List.length_replicate]; decide) (by
    rw [basisComps_length, List.length_replicate]; norm_num [dimOf, exampleShell, sShell])
  exact ⟨M', e⟩

/-- Uranium with the Fermi model, an s function at the nucleus. -/
example {G : Type} (env : NucEnv G) (hi : env.init = true) (hk : env.sk = fermiSk skLiteral) :
    ∃ x, evalNuclear env modelFermi [sShell] [(92, sShell.origin)] (List.replicate 10000 5) [7] = .ok [x] := by
  have hl : (basisComps [sShell]).length = 1 := by rw [basisComps_length]; simp [dimOf, sShell]
  obtain ⟨W, U, T, Vc, V, -, -, -, h⟩ := molecular_nuclear_numeric env hi hk (Or.inl rfl) [sShell] [(92, sShell.origin)]
    ⟨by simpa using ⟨sShell_usable.made, sShell_usable.L9⟩, by simp, by rw [hl]; norm_num⟩ modelFermi (Or.inr (Or.inr (Or.inr ⟨rfl, by simp⟩)))
    (by simp [sShell]) (by
      simp only [List.mem_singleton, forall_eq]
      intro i _ j _
      refine Or.inl ?_
      simp [vnorm, kVec, toC])
  obtain ⟨M', e, h1, h2⟩ := h (List.replicate 10000 5) [7] (by rw [List.length_replicate]; decide) (by rw [hl]; simp)
  have h3 := h2 0 0 (by rw [hl]; omega) (by rw [hl]; omega)
  have h4 : M'.length = 1 := h1.1
  match M', h4 with
  | [x], _ => exact ⟨x, e⟩

/-- Water with the Fermi model. -/
example {G : Type} (env : NucEnv G) (hi : env.init = true) (hk : env.sk = fermiSk skLiteral) (M : List ℝ) (hM : M.length = 16) :
    evalNuclear env modelFermi [exampleShell, sShell] [(8, fun _ => 0), (1, fun _ => 1), (1, fun _ => 2)] (List.replicate 10000 5) M = .ub :=
  molecular_nuclear_fermi_light_any env hi hk (Or.inl rfl) _ _ ⟨exampleShell_usable.made, exampleShell_usable.L9⟩ (by simp [exampleShell]) _
    (1, fun _ => 1) (by simp) (by simp) _ _ (by rw [List.length_replicate]; decide) (by
      rw [basisComps_length, hM]; norm_num [dimOf, exampleShell, sShell])

end Libgrpp
