import Verif.Lemmas.OuterCoreNumeric
import Verif.Props.Type2
import Verif.Props.Full

/-! Helper lemmas for the full integrals with the routines of the library. -/

namespace Libgrpp

open MeasureTheory Set

/-- All coefficients are zero or above the thresholds of the code. -/
def Kept (l : List ℝ) : Prop := ∀ c ∈ l, c = 0 ∨ 1e-14 < |c|

/-- A shell as the constructor makes it, with `L ≤ 9`, at least one primitive and no tiny coefficients. -/
structure Shell.Usable (gen : Nat → List Comp) (s : Shell) : Prop where
  made : s.Made gen
  L9 : s.L ≤ 9
  num : 0 < s.num
  kept : Kept s.coeffs

theorem Kept.noTiny {s : Shell} (h : Kept s.coeffs) : s.NoTiny := by
  intro i _ hc
  rcases Nat.lt_or_ge i s.coeffs.length with hi | hi
  · rw [List.getD_eq_getElem _ _ hi] at hc ⊢
    exact (h _ (List.getElem_mem hi)).resolve_right (not_lt.2 hc.le)
  · exact List.getD_eq_default _ _ hi

/-- Both shells at the centre of the pseudopotential. -/
def OnCentre (A B : Shell) (C : Point) : Prop := A.origin = C ∧ B.origin = C

/-- At least one shell is not at the centre, and the vectors `2 α (A - C)` with the first exponents are zero or longer than `1e-14`. -/
def OffCentre (A B : Shell) (C : Point) : Prop := VecOk (kDir A C) ∧ VecOk (kDir B C) ∧
  ¬ ((∑ i, toC A C i ^ 2) < 1e-14 ∧ (∑ i, toC B C i ^ 2) < 1e-14)

/-- What is required of a semilocal or spin-orbit potential. -/
structure SemiReady (A B : Shell) (C : Point) (u : Potential) : Prop where
  wf : u.WF
  regular : u.Regular
  kept : Kept u.coeffs
  nonneg : 0 ≤ u.L
  LA : u.L.toNat + A.L ≤ 14
  LB : u.L.toNat + B.L ≤ 14
  moments : OnCentre A B C → MomentsOk u (A.L + B.L)

/-- What is known about a table of radial integrals: on one centre they are exact; otherwise each is a screening estimate below `1e-16` or the sum
of one of the nine quadrature rules, up to the error of the Bessel functions. -/
def RadialTable {G : Type} (lib : Lib G) (A B : Shell) (C : Point) (u : Potential) (Q : ℕ → ℕ → ℕ → ℝ) : Prop :=
  (OnCentre A B C ∧ Q = semiExact (potentialRadial u) A B C) ∨
  (OffCentre A B C ∧ ∃ A' B' u', preparedShell lib.gen A = .ok A' ∧ preparedShell lib.gen B = .ok B' ∧ shrinkPotential u = .ok u' ∧
    ∀ l1 l2 n, l1 ≤ u.L.toNat + A.L → l2 ≤ u.L.toNat + B.L → n ≤ A.L + B.L →
      RadialEntry (lib.screen A' B' u' (∑ i, toC A C i ^ 2) (∑ i, toC B C i ^ 2) (n, l1, l2)) u A B C l1 l2 n (Q l1 l2 n))

theorem vecOk_centre {s : Shell} {C : Point} (h : s.origin = C) : toC s C = 0 ∧ VecOk (kDir s C) := by
  have e : toC s C = 0 := by funext i; simp [toC, h]
  refine ⟨e, Or.inl ?_⟩
  unfold kDir
  rw [e]
  simp [vnorm]

theorem radialTable_exists {G : Type} (lib : Lib G) (hbt : BesselOk lib.bt) (ho : DocumentedOrder lib.gen) {A B : Shell} (hA : A.Usable lib.gen)
    (hB : B.Usable lib.gen) {C : Point} (hpl : OnCentre A B C ∨ OffCentre A B C) {u : Potential} (hu : SemiReady A B C u) :
    ∃ t Q, RadialTable lib A B C u Q ∧
      radialType2 lib (u.L.toNat + A.L) (u.L.toNat + B.L) (A.L + B.L) (∑ i, toC A C i ^ 2) (∑ i, toC B C i ^ 2) u A B = .ok t ∧
      ∀ l1 l2 n, l1 ≤ u.L.toNat + A.L → l2 ≤ u.L.toNat + B.L → n ≤ A.L + B.L →
        getType2 (u.L.toNat + B.L) (A.L + B.L) t l1 l2 n = .ok (Q l1 l2 n) := by
  rcases hpl with h | h
  · obtain ⟨t, h1, h2⟩ := radialType2_centre lib A B hA.made.wf hB.made.wf hA.made.pos hB.made.pos C (vecOk_centre h.1).1 (vecOk_centre h.2).1
      u hu.wf hu.regular (u.L.toNat + A.L) (u.L.toNat + B.L) (A.L + B.L) (hu.moments h)
    exact ⟨t, _, Or.inl ⟨h, rfl⟩, h1, h2⟩
  · obtain ⟨t, Q, A', B', u', e1, e2, e3, h1, h2, h3⟩ := radialType2_numeric lib hbt A B hA.made.wf hB.made.wf hA.made.pos hB.made.pos C
      u hu.wf h.2.2 (u.L.toNat + A.L) (u.L.toNat + B.L) (A.L + B.L) hu.LA hu.LB
    exact ⟨t, Q, Or.inr ⟨h, A', B', u', e1, e2, e3, h3⟩, h1, h2⟩

/-- Bound for the error of a semilocal matrix element, from a table of radial integrals. -/
noncomputable def semiErr (A B : Shell) (C : Point) (u : Potential) (Q : ℕ → ℕ → ℕ → ℝ) (m n : ℕ) : ℝ :=
  16 * Real.pi ^ 2 * semiBound 1e-13 1e-16 (1.52 * 1.52 * (2 * u.L.toNat + 1)) (1.65e-13 * (2 * u.L.toNat + 1)) u.L.toNat
    (toC A C) (toC B C) Q (semiExact (potentialRadial u) A B C) (A.comp m) (B.comp n)

/-- Bound for the error of a spin-orbit matrix element. -/
noncomputable def soErr (A B : Shell) (C : Point) (u : Potential) (Q : ℕ → ℕ → ℕ → ℝ) (k : Fin 3) (m n : ℕ) : ℝ :=
  spinOrbitBound u.L.toNat (rotationMatrix u.L.toNat k) (toC A C) (toC B C) Q (semiExact (potentialRadial u) A B C) (A.comp m) (B.comp n)

theorem type2_numeric {G : Type} (lib : Lib G) (hi : lib.init = true) (ho : DocumentedOrder lib.gen) {A B : Shell} (hA : A.Usable lib.gen)
    (hB : B.Usable lib.gen) {C : Point} (hpl : OnCentre A B C ∨ OffCentre A B C) {u : Potential} (hu : SemiReady A B C u) {t : List ℝ}
    {Q : ℕ → ℕ → ℕ → ℝ}
    (ht : radialType2 lib (u.L.toNat + A.L) (u.L.toNat + B.L) (A.L + B.L) (∑ i, toC A C i ^ 2) (∑ i, toC B C i ^ 2) u A B = .ok t)
    (hQ : ∀ l1 l2 n, l1 ≤ u.L.toNat + A.L → l2 ≤ u.L.toNat + B.L → n ≤ A.L + B.L →
        getType2 (u.L.toNat + B.L) (A.L + B.L) t l1 l2 n = .ok (Q l1 l2 n)) :
    ∃ V : ℕ → ℕ → ℝ, (∀ out : List ℝ, A.cart_size * B.cart_size ≤ out.length → ∃ out', type2Integrals lib A B C u out = .ok out' ∧
        MatIs A.cart_size B.cart_size out' V ∧ SameBeyond (A.cart_size * B.cart_size) out' out) ∧
      ∀ m n, m < A.cart_size → n < B.cart_size →
        |V m n - semilocal u.L.toNat projector C (potentialRadial u) (basisFn A m) (basisFn B n)| ≤ semiErr A B C u Q m n := by
  have hkA := hpl.elim (fun h => (vecOk_centre h.1).2) fun h => h.1
  have hkB := hpl.elim (fun h => (vecOk_centre h.2).2) fun h => h.2.1
  refine ⟨_, fun out hlen => type2Integrals_spec lib hi A B (hA.made.homog ho) (hB.made.homog ho) hA.num hB.num C u hu.LA hu.LB t Q ht hQ out hlen,
    fun m n hm hn => ?_⟩
  have hs := projector_abs_sum u.L.toNat
  have := semi_element_error 1e-13 1e-16 (1.65e-13 * (2 * u.L.toNat + 1)) (by norm_num) (by norm_num) (radialPot_of_regular hu.regular).mild
    u.L.toNat projector A B (hA.made.homog ho) (hB.made.homog ho) hA.num hB.num C hu.LA hu.LB hkA hkB Q
    (angSumT2 u.L.toNat (kDir A C) (kDir B C))
    (fun l1 p l2 q a1 a2 => by unfold entrySum; rw [hs]; exact angSumT2_le _ _ _ a1 a2 p q)
    (fun l1 p l2 q a1 a2 => angSumT2_error _ _ _ a1 a2 p q) A.coeffs B.coeffs m n hm hn
  unfold entrySum at this
  rw [hs] at this
  exact this

theorem memset0_full {n : ℕ} {l : List ℝ} (h : l.length = n) : memset0 n l = .ok (List.replicate n 0) := by
  obtain ⟨m, h1, h2, h3⟩ := memset0_spec n l h.ge
  rw [h1]
  congr 1
  refine List.ext_getElem? fun i => ?_
  rcases Nat.lt_or_ge i n with hi | hi
  · rw [h2 i hi, List.getElem?_replicate_of_lt hi]
  · rw [h3.2 i hi, List.getElem?_eq_none (by omega), List.getElem?_eq_none (by simpa using hi)]

theorem semilocal_congr {L : ℕ} {W W' : ℕ → ℕ → ℝ} (h : ∀ i j, i < 2 * L + 1 → j < 2 * L + 1 → W i j = W' i j) (C : Point) (U : ℝ → ℝ)
    (f g : Point → ℝ) : semilocal L W C U f g = semilocal L W' C U f g := by
  unfold semilocal
  congr 1
  funext r
  congr 2
  exact Finset.sum_congr rfl fun i hi => Finset.sum_congr rfl fun j hj => by rw [h i j (Finset.mem_range.1 hi) (Finset.mem_range.1 hj)]

theorem entrySum_congr {L : ℕ} {W W' : ℕ → ℕ → ℝ} (h : ∀ i j, i < 2 * L + 1 → j < 2 * L + 1 → W i j = W' i j) : entrySum L W = entrySum L W' :=
  Finset.sum_congr rfl fun i hi => Finset.sum_congr rfl fun j hj => by rw [h i j (Finset.mem_range.1 hi) (Finset.mem_range.1 hj)]

theorem so_numeric {G : Type} (lib : Lib G) (hi : lib.init = true) (ho : DocumentedOrder lib.gen) {A B : Shell} (hA : A.Usable lib.gen)
    (hB : B.Usable lib.gen) {C : Point} (hpl : OnCentre A B C ∨ OffCentre A B C) {u : Potential} (hu : SemiReady A B C u) {t : List ℝ}
    {Q : ℕ → ℕ → ℕ → ℝ}
    (ht : radialType2 lib (u.L.toNat + A.L) (u.L.toNat + B.L) (A.L + B.L) (∑ i, toC A C i ^ 2) (∑ i, toC B C i ^ 2) u A B = .ok t)
    (hQ : ∀ l1 l2 n, l1 ≤ u.L.toNat + A.L → l2 ≤ u.L.toNat + B.L → n ≤ A.L + B.L →
        getType2 (u.L.toNat + B.L) (A.L + B.L) t l1 l2 n = .ok (Q l1 l2 n)) :
    ∃ V : Fin 3 → ℕ → ℕ → ℝ, (∀ l : Fin 3 → List ℝ, (∀ k, (l k).length = A.cart_size * B.cart_size) →
        ∃ l', (do let r ← spinOrbitIntegrals lib A B C u ⟨l 0, l 1, l 2⟩
                  .ok (![r.x, r.y, r.z] : Fin 3 → List ℝ)) = .ok l' ∧
          ∀ k, (l' k).length = A.cart_size * B.cart_size ∧ MatIs A.cart_size B.cart_size (l' k) (V k)) ∧
      ∀ k m n, m < A.cart_size → n < B.cart_size →
        |V k m n - semilocal u.L.toNat (rotationMatrix u.L.toNat k) C (potentialRadial u) (basisFn A m) (basisFn B n)| ≤ soErr A B C u Q k m n := by
  have hkA := hpl.elim (fun h => (vecOk_centre h.1).2) fun h => h.1
  have hkB := hpl.elim (fun h => (vecOk_centre h.2).2) fun h => h.2.1
  set N := A.cart_size * B.cart_size with hN
  set d := (2 * u.L.toNat + 1) * (2 * u.L.toNat + 1) with hd
  obtain ⟨R, M, h1, h2, h3, h4⟩ := spin_orbit_common lib hi A B (hA.made.homog ho) (hB.made.homog ho) hA.num hB.num C u hu.LA hu.LB hkA hkB
    (radialPot_of_regular hu.regular).mild A.coeffs B.coeffs t Q ht hQ ⟨List.replicate N 0, List.replicate N 0, List.replicate N 0⟩
    (by simp [hN]) (by simp [hN]) (by simp [hN]) ⟨List.replicate d 0, List.replicate d 0, List.replicate d 0⟩ (by simp [hd]) (by simp [hd]) (by simp [hd])
  obtain ⟨M', e1, e2, -⟩ := lmatRsh_spec u.L.toNat ⟨List.replicate d 0, List.replicate d 0, List.replicate d 0⟩ (by simp [hd]) (by simp [hd])
    (by simp [hd])
  rw [h2] at e1
  obtain rfl := Outcome.ok.inj e1
  have ent : ∀ (k : Fin 3) (w : List ℝ), MatIs (2 * u.L.toNat + 1) (2 * u.L.toNat + 1) w (lEntry u.L.toNat k) →
      ∀ i j, i < 2 * u.L.toNat + 1 → j < 2 * u.L.toNat + 1 → entryOf (2 * u.L.toNat + 1) w i j = rotationMatrix u.L.toNat k i j := by
    intro k w hw i j hi hj
    unfold entryOf
    rw [List.getD_eq_getElem?_getD, hw i j hi hj, Option.getD_some, lEntry_eq _ k hi hj]
  have key : ∀ (k : Fin 3) (o w : List ℝ), MatIs (2 * u.L.toNat + 1) (2 * u.L.toNat + 1) w (lEntry u.L.toNat k) →
      ((o = R.x ∧ w = M.x) ∨ (o = R.y ∧ w = M.y) ∨ (o = R.z ∧ w = M.z)) → ∀ m n, m < A.cart_size → n < B.cart_size →
      ∃ v, o[m * B.cart_size + n]? = some v ∧
        |v - semilocal u.L.toNat (rotationMatrix u.L.toNat k) C (potentialRadial u) (basisFn A m) (basisFn B n)| ≤ soErr A B C u Q k m n := by
    intro k o w hw how m n hm hn
    obtain ⟨v, v1, v2⟩ := h4 o w how m n hm hn
    rw [semilocal_congr (ent k w hw)] at v2
    unfold spinOrbitBound at v2
    rw [entrySum_congr (ent k w hw)] at v2
    exact ⟨v, v1, v2⟩
  have all : ∀ k m n, m < A.cart_size → n < B.cart_size → ∃ v, ((![R.x, R.y, R.z] : Fin 3 → List ℝ) k)[m * B.cart_size + n]? = some v ∧
        |v - semilocal u.L.toNat (rotationMatrix u.L.toNat k) C (potentialRadial u) (basisFn A m) (basisFn B n)| ≤ soErr A B C u Q k m n := by
    intro k
    match k with
    | 0 => exact key 0 R.x M.x e2.1 (Or.inl ⟨rfl, rfl⟩)
    | 1 => exact key 1 R.y M.y e2.2.1 (Or.inr (Or.inl ⟨rfl, rfl⟩))
    | 2 => exact key 2 R.z M.z e2.2.2 (Or.inr (Or.inr ⟨rfl, rfl⟩))
  choose! V hV1 hV2 using all
  refine ⟨V, fun l hl => ⟨![R.x, R.y, R.z], ?_, fun k => ⟨?_, fun m n hm hn => hV1 k m n hm hn⟩⟩, hV2⟩
  · have e : spinOrbitIntegrals lib A B C u ⟨l 0, l 1, l 2⟩ =
        spinOrbitIntegrals lib A B C u ⟨List.replicate N 0, List.replicate N 0, List.replicate N 0⟩ := by
      unfold spinOrbitIntegrals lmatZero
      rw [← hN]
      simp only [memset0_full (hl 0), memset0_full (hl 1), memset0_full (hl 2), memset0_full (List.length_replicate (n := N) (a := (0:ℝ)))]
    rw [e, h1, Outcome.ok_bind]
  · match k with
    | 0 => exact h3.1.1.trans (by simp)
    | 1 => exact h3.2.1.1.trans (by simp)
    | 2 => exact h3.2.2.1.trans (by simp)

end Libgrpp
