import Verif.Lemmas.Type2Main
import Verif.Props.Bessel
import Verif.Lemmas.NuclearEntry

/-! # Type-2 (semilocal) and spin-orbit integrals: C77-C80

The reference is `semilocal L W C U f g`, the matrix element of `U(r) Σ_mm' |S_Lm⟩ W_mm' ⟨S_Lm'|` about the point `C`, an integral over the
radius and two spheres. The bound `semiBound` adds up, over the monomials `p`, `q` of the two shells expanded about `C` and the orders `l1`, `l2`
of the partial waves, the errors of the radial integrals, the thresholds of the code and the errors of the angular integrals. -/

namespace Libgrpp

open MeasureTheory Set Filter Topology

/-- From the sum the code evaluates to the matrix element. -/
theorem semi_element_error (thrF thrQ e : ℝ) (hF : 0 ≤ thrF) (hQ : 0 ≤ thrQ) {U : ℝ → ℝ} (hU : Mild U) (L : ℕ) (W : ℕ → ℕ → ℝ) (A B : Shell)
    (hA : A.Homog) (hB : B.Homog) (nA : 0 < A.num) (nB : 0 < B.num) (C : Point) (hLA : L + A.L ≤ 14) (hLB : L + B.L ≤ 14)
    (hkA : VecOk (kDir A C)) (hkB : VecOk (kDir B C)) (Qt : ℕ → ℕ → ℕ → ℝ) (g : ℕ → Comp → ℕ → Comp → ℝ)
    (hg : ∀ l1 p l2 q, l1 ≤ 14 → l2 ≤ 14 → |g l1 p l2 q| ≤ 1.52 * 1.52 * entrySum L W)
    (hd : ∀ l1 p l2 q, l1 ≤ 14 → l2 ≤ 14 → |g l1 p l2 q - angSum L W (kDir A C) (kDir B C) l1 p l2 q| ≤ e)
    (cA cB : List ℝ) (m n : ℕ) (hm : m < A.cart_size) (hn : n < B.cart_size) :
    |semiSumCode thrF thrQ L (toC A C) (toC B C) Qt g (A.comp m) (B.comp n) * (16 * Real.pi * Real.pi) -
      semilocal L W C U (basisFn { A with coeffs := cA } m) (basisFn { B with coeffs := cB } n)| ≤
      16 * Real.pi ^ 2 * semiBound thrF thrQ (1.52 * 1.52 * entrySum L W) e L (toC A C) (toC B C) Qt
        (semiExact U { A with coeffs := cA } { B with coeffs := cB } C) (A.comp m) (B.comp n) := by
  have h := semilocal_exact hU L W { A with coeffs := cA } { B with coeffs := cB } hA.pos hB.pos nA nB C hkA hkB m n
  rw [h]
  have e1 := semiSum_error thrF thrQ (1.52 * 1.52 * entrySum L W) e hF hQ (mul_nonneg (by norm_num) (entrySum_nonneg L W)) L A.L B.L
    (toC A C) (toC B C) Qt (semiExact U { A with coeffs := cA } { B with coeffs := cB } C) g (angSum L W (kDir A C) (kDir B C))
    (fun l1 p l2 q a1 a2 a3 a4 => hg l1 p l2 q (by omega) (by omega))
    (fun l1 p l2 q a1 a2 a3 a4 => angSum_le L W (kDir A C) (kDir B C) (by omega) (by omega) p q)
    (fun l1 p l2 q a1 a2 a3 a4 => hd l1 p l2 q (by omega) (by omega))
    (fun l1 p l2 q => angSum_unused_left L W (kDir A C) (kDir B C) l1 p l2 q)
    (fun l1 p l2 q => angSum_unused_right L W (kDir A C) (kDir B C) l1 p l2 q)
    (A.comp m) (B.comp n) (hA.comp_deg hm) (hB.comp_deg hn)
  have e2 : ∀ s t : ℝ, s * (16 * Real.pi * Real.pi) - 16 * Real.pi ^ 2 * t = 16 * Real.pi ^ 2 * (s - t) := fun s t => by ring
  refine (le_of_eq (congrArg _ (e2 _ _))).trans ?_
  rw [abs_mul, abs_of_pos (by positivity)]
  exact mul_le_mul_of_nonneg_left e1 (by positivity)

/-- **C77.** Semilocal integrals, with at least one of the two shells away from `C`. The routine succeeds, writes only the elements of the matrix,
and each of them differs from the matrix element of `U(r) P_L` by at most the bound; the radial integrals in the bound are the ones tabulated, and
each is either a screening estimate below `1e-16` or the sum of one of the nine quadrature rules, up to the error of the Bessel functions.
`keepLarge` and `keepLargeTerms` drop the coefficients up to `1e-14`.
Preconditions: `L + L_A ≤ 14`, `L + L_B ≤ 14`; powers and exponents of the potential not negative, exponents of the shells positive; the vectors
`2 α (A - C)`, for the first exponent, are zero or longer than `1e-14`; the Bessel tables have been built. -/
theorem type2_correct {G : Type} (lib : Lib G) (hi : lib.init = true) (hbt : BesselOk lib.bt) (A B : Shell) (hA : A.Homog) (hB : B.Homog)
    (nA : 0 < A.num) (nB : 0 < B.num) (C : Point) (pot : Potential) (hp : pot.WF) (hr : pot.Regular) (hLA : pot.L.toNat + A.L ≤ 14)
    (hLB : pot.L.toNat + B.L ≤ 14) (hkA : VecOk (kDir A C)) (hkB : VecOk (kDir B C))
    (hfar : ¬ ((∑ i, toC A C i ^ 2) < 1e-14 ∧ (∑ i, toC B C i ^ 2) < 1e-14))
    (out : List ℝ) (hlen : A.cart_size * B.cart_size ≤ out.length) :
    ∃ out' Q A' B' pot', type2Integrals lib A B C pot out = .ok out' ∧ SameBeyond (A.cart_size * B.cart_size) out' out ∧
      (∀ m n, m < A.cart_size → n < B.cart_size → ∃ v, out'[m * B.cart_size + n]? = some v ∧
        |v - semilocal pot.L.toNat projector C (potentialRadial (keepLargeTerms pot)) (basisFn (keepLarge A) m) (basisFn (keepLarge B) n)| ≤
          16 * Real.pi ^ 2 * semiBound 1e-13 1e-16 (1.52 * 1.52 * (2 * pot.L.toNat + 1)) (1.65e-13 * (2 * pot.L.toNat + 1)) pot.L.toNat
            (toC A C) (toC B C) Q (semiExact (potentialRadial (keepLargeTerms pot)) (keepLarge A) (keepLarge B) C) (A.comp m) (B.comp n)) ∧
      (preparedShell lib.gen A = .ok A' ∧ preparedShell lib.gen B = .ok B' ∧ shrinkPotential pot = .ok pot') ∧
      ∀ l1 l2 n, l1 ≤ pot.L.toNat + A.L → l2 ≤ pot.L.toNat + B.L → n ≤ A.L + B.L →
        RadialEntry (lib.screen A' B' pot' (∑ i, toC A C i ^ 2) (∑ i, toC B C i ^ 2) (n, l1, l2)) pot A B C l1 l2 n (Q l1 l2 n) := by
  obtain ⟨t, Q, A', B', pot', e1, e2, e3, ht, hQ, hQ2⟩ := radialType2_numeric lib hbt A B hA.wf hB.wf hA.pos hB.pos C pot hp hfar
    (pot.L.toNat + A.L) (pot.L.toNat + B.L) (A.L + B.L) hLA hLB
  obtain ⟨out', h1, h2, h3⟩ := type2Integrals_spec lib hi A B hA hB nA nB C pot hLA hLB t Q ht hQ out hlen
  refine ⟨out', Q, A', B', pot', h1, h3, fun m n hm hn => ⟨_, h2 m n hm hn, ?_⟩, ⟨e1, e2, e3⟩, hQ2⟩
  have hs := projector_abs_sum pot.L.toNat
  have := semi_element_error 1e-13 1e-16 (1.65e-13 * (2 * pot.L.toNat + 1)) (by norm_num) (by norm_num) (radialPot_of_regular hr.keep).mild
    pot.L.toNat projector A B hA hB nA nB C hLA hLB hkA hkB Q (angSumT2 pot.L.toNat (kDir A C) (kDir B C))
    (fun l1 p l2 q a1 a2 => by unfold entrySum; rw [hs]; exact angSumT2_le _ _ _ a1 a2 p q)
    (fun l1 p l2 q a1 a2 => angSumT2_error _ _ _ a1 a2 p q)
    (keepLarge A).coeffs (keepLarge B).coeffs m n hm hn
  unfold entrySum at this
  rw [hs] at this
  exact this

/-- **C77.** The quadrature sums converge to the exact radial integrals as the number of points grows. -/
theorem type2_radial_converges (pot : Potential) (hr : pot.Regular) (A B : Shell) (hA : A.Pos) (hB : B.Pos) (C : Point) (l1 l2 n : ℕ) :
    Tendsto (fullQuad (semiIntegrand (potentialRadial (keepLargeTerms pot)) (keepLarge A) (keepLarge B) C l1 l2 n)) atTop
      (𝓝 (∫ r in Ioi (0:ℝ), r ^ 2 * (potentialRadial (keepLargeTerms pot) r * (r ^ n * (radF (keepLarge A) C l1 r * radF (keepLarge B) C l2 r))))) :=
  semiIntegrand_tendsto (radialPot_of_regular hr.keep) (keepLarge A) (keepLarge B) hA hB C l1 l2 n

/-- **C77.** Initialisation provides Bessel tables which are good enough for `type2_correct`. -/
theorem type2_tables (t0 : BesselTab) : ∃ t, pretabulateBessel t0 = .ok t ∧ BesselOk t := bessel_accuracy t0

/-- **C77.** Without coefficients between zero and `1e-14` nothing is dropped. -/
theorem type2_nothing_dropped (s : Shell) (hc : ∀ c ∈ s.coeffs, c = 0 ∨ 1e-14 < |c|) (p : Potential) (hp : ∀ c ∈ p.coeffs, c = 0 ∨ 1e-14 < |c|) :
    keepLarge s = s ∧ keepLargeTerms p = p := by
  have e : ∀ l : List ℝ, (∀ c ∈ l, c = 0 ∨ 1e-14 < |c|) → l.map (fun c => if |c| > zeroThresh then c else 0) = l := by
    intro l hl
    conv_rhs => rw [← List.map_id l]
    refine List.map_congr_left fun c h => ?_
    rcases hl c h with h0 | h0
    · rw [h0]
      split_ifs <;> rfl
    · rw [if_pos (show |c| > zeroThresh from h0)]
      rfl
  refine ⟨?_, ?_⟩
  · unfold keepLarge
    rw [e _ hc]
  · unfold keepLargeTerms
    rw [e _ hp]

/-- **C78.** Semilocal integrals with both shells at `C`: the radial integrals are the exact ones, so that only the thresholds and the rounding of
the angular tables remain. Precondition on the powers: no even power beyond 30 in a moment. -/
theorem type2_one_centre {G : Type} (lib : Lib G) (hi : lib.init = true) (A B : Shell) (hA : A.Homog) (hB : B.Homog)
    (nA : 0 < A.num) (nB : 0 < B.num) (C : Point) (pot : Potential) (hp : pot.WF) (hr : pot.Regular) (hLA : pot.L.toNat + A.L ≤ 14)
    (hLB : pot.L.toNat + B.L ≤ 14) (hcA : A.origin = C) (hcB : B.origin = C) (hm : MomentsOk pot (A.L + B.L))
    (out : List ℝ) (hlen : A.cart_size * B.cart_size ≤ out.length) :
    ∃ out', type2Integrals lib A B C pot out = .ok out' ∧ SameBeyond (A.cart_size * B.cart_size) out' out ∧
      ∀ m n, m < A.cart_size → n < B.cart_size → ∃ v, out'[m * B.cart_size + n]? = some v ∧
        |v - semilocal pot.L.toNat projector C (potentialRadial pot) (basisFn A m) (basisFn B n)| ≤
          16 * Real.pi ^ 2 * semiBound 1e-13 1e-16 (1.52 * 1.52 * (2 * pot.L.toNat + 1)) (1.65e-13 * (2 * pot.L.toNat + 1)) pot.L.toNat
            (fun _ => 0) (fun _ => 0) (semiExact (potentialRadial pot) A B C) (semiExact (potentialRadial pot) A B C) (A.comp m) (B.comp n) := by
  have tA : toC A C = fun _ => 0 := by funext i; simp [toC, hcA]
  have tB : toC B C = fun _ => 0 := by funext i; simp [toC, hcB]
  obtain ⟨t, ht, hQ⟩ := radialType2_centre lib A B hA.wf hB.wf hA.pos hB.pos C tA tB pot hp hr
    (pot.L.toNat + A.L) (pot.L.toNat + B.L) (A.L + B.L) hm
  obtain ⟨out', h1, h2, h3⟩ := type2Integrals_spec lib hi A B hA hB nA nB C pot hLA hLB t _ ht hQ out hlen
  refine ⟨out', h1, h3, fun m n hm hn => ⟨_, h2 m n hm hn, ?_⟩⟩
  have hs := projector_abs_sum pot.L.toNat
  have vk : ∀ s : Shell, toC s C = (fun _ => 0) → VecOk (kDir s C) := by
    intro s h
    left
    unfold kDir
    rw [h]
    simp [vnorm]
  have := semi_element_error 1e-13 1e-16 (1.65e-13 * (2 * pot.L.toNat + 1)) (by norm_num) (by norm_num) (radialPot_of_regular hr).mild
    pot.L.toNat projector A B hA hB nA nB C hLA hLB (vk A tA) (vk B tB) (semiExact (potentialRadial pot) A B C)
    (angSumT2 pot.L.toNat (kDir A C) (kDir B C))
    (fun l1 p l2 q a1 a2 => by unfold entrySum; rw [hs]; exact angSumT2_le _ _ _ a1 a2 p q)
    (fun l1 p l2 q a1 a2 => angSumT2_error _ _ _ a1 a2 p q) A.coeffs B.coeffs m n hm hn
  unfold entrySum at this
  rw [hs, tA, tB] at this
  rw [tA, tB]
  exact this

/-- The matrix stored row by row in an array, as a function of two natural numbers. -/
noncomputable def entryOf (n : ℕ) (a : List ℝ) (i j : ℕ) : ℝ := a.getD (i * n + j) 0

/-- The error of a spin-orbit element for the angular momentum matrix `W`. -/
noncomputable def spinOrbitBound (L : ℕ) (W : ℕ → ℕ → ℝ) (CA CB : Point) (Qt Q : ℕ → ℕ → ℕ → ℝ) (x y : Comp) : ℝ :=
  16 * Real.pi ^ 2 * semiBound 1e-14 1e-14 (1.52 * 1.52 * entrySum L W) (1.8e-13 * entrySum L W + 2.4e-14 * (2 * L + 1) ^ 2) L CA CB Qt Q x y

/-- Both branches of the spin-orbit routine, given the table of the radial integrals. -/
theorem spin_orbit_common {G : Type} (lib : Lib G) (hi : lib.init = true) (A B : Shell) (hA : A.Homog) (hB : B.Homog)
    (nA : 0 < A.num) (nB : 0 < B.num) (C : Point) (pot : Potential) (hLA : pot.L.toNat + A.L ≤ 14)
    (hLB : pot.L.toNat + B.L ≤ 14) (hkA : VecOk (kDir A C)) (hkB : VecOk (kDir B C)) {U : ℝ → ℝ} (hU : Mild U) (cA cB : List ℝ)
    (t : List ℝ) (Q : ℕ → ℕ → ℕ → ℝ)
    (ht : radialType2 lib (pot.L.toNat + A.L) (pot.L.toNat + B.L) (A.L + B.L) (∑ i, toC A C i ^ 2) (∑ i, toC B C i ^ 2) pot A B = .ok t)
    (hQ : ∀ l1 l2 n, l1 ≤ pot.L.toNat + A.L → l2 ≤ pot.L.toNat + B.L → n ≤ A.L + B.L →
      getType2 (pot.L.toNat + B.L) (A.L + B.L) t l1 l2 n = .ok (Q l1 l2 n))
    (out : LMat) (hx : A.cart_size * B.cart_size ≤ out.x.length) (hy : A.cart_size * B.cart_size ≤ out.y.length)
    (hz : A.cart_size * B.cart_size ≤ out.z.length) (l0 : LMat) (h0x : (2 * pot.L.toNat + 1) * (2 * pot.L.toNat + 1) ≤ l0.x.length)
    (h0y : (2 * pot.L.toNat + 1) * (2 * pot.L.toNat + 1) ≤ l0.y.length) (h0z : (2 * pot.L.toNat + 1) * (2 * pot.L.toNat + 1) ≤ l0.z.length) :
    ∃ out' M, spinOrbitIntegrals lib A B C pot out = .ok out' ∧ lmatRsh pot.L.toNat l0 = .ok M ∧
      LSame (A.cart_size * B.cart_size) out' out ∧
      ∀ o w, (o = out'.x ∧ w = M.x) ∨ (o = out'.y ∧ w = M.y) ∨ (o = out'.z ∧ w = M.z) → ∀ m n, m < A.cart_size → n < B.cart_size →
        ∃ v, o[m * B.cart_size + n]? = some v ∧
          |v - semilocal pot.L.toNat (entryOf (2 * pot.L.toNat + 1) w) C U (basisFn { A with coeffs := cA } m) (basisFn { B with coeffs := cB } n)| ≤
            spinOrbitBound pot.L.toNat (entryOf (2 * pot.L.toNat + 1) w) (toC A C) (toC B C) Q
              (semiExact U { A with coeffs := cA } { B with coeffs := cB } C) (A.comp m) (B.comp n) := by
  obtain ⟨M, hM, hM1, -⟩ := lmatRsh_spec pot.L.toNat l0 h0x h0y h0z
  obtain ⟨M0, hM0, hM2, -⟩ := lmatRsh_spec pot.L.toNat ⟨List.replicate ((2 * pot.L.toNat + 1) * (2 * pot.L.toNat + 1)) 0,
      List.replicate ((2 * pot.L.toNat + 1) * (2 * pot.L.toNat + 1)) 0, List.replicate ((2 * pot.L.toNat + 1) * (2 * pot.L.toNat + 1)) 0⟩
      (by simp) (by simp) (by simp)
  generalize hL : pot.L.toNat = L at *
  generalize hX : (fun i j => (rEl (cX L) (mOf L i) (mOf L j)).im) = X at *
  generalize hY : (fun i j => -(rEl (cY L) (mOf L i) (mOf L j)).re) = Y at *
  generalize hZ : (fun i j => (rEl (cZ L) (mOf L i) (mOf L j)).im) = Z at *
  obtain ⟨out', h1, h2, h3⟩ := spinOrbitIntegrals_spec lib hi A B hA hB nA nB C pot (by rw [hL]; exact hLA) (by rw [hL]; exact hLB) t Q
    (by rw [hL]; exact ht) (by rw [hL]; exact hQ) M0 (by rw [hL]; exact hM0) X Y Z (by rw [hL]; exact hM2) out hx hy hz
  rw [hL] at h2
  refine ⟨out', M, h1, hM, h3, ?_⟩
  have key : ∀ (o w : List ℝ) (W : ℕ → ℕ → ℝ), (W = X ∨ W = Y ∨ W = Z) → MatIs (2 * L + 1) (2 * L + 1) w W →
      MatIs A.cart_size B.cart_size o (fun m n => semiSumCode zeroThresh zeroThresh L (toC A C) (toC B C) Q
        (angSumT3 L X Y Z W (kDir A C) (kDir B C)) (A.comp m) (B.comp n) * (16 * Real.pi * Real.pi)) →
      ∀ m n, m < A.cart_size → n < B.cart_size → ∃ v, o[m * B.cart_size + n]? = some v ∧
          |v - semilocal L (entryOf (2 * L + 1) w) C U (basisFn { A with coeffs := cA } m) (basisFn { B with coeffs := cB } n)| ≤
            spinOrbitBound L (entryOf (2 * L + 1) w) (toC A C) (toC B C) Q
              (semiExact U { A with coeffs := cA } { B with coeffs := cB } C) (A.comp m) (B.comp n) := by
    intro o w W hW hw ho m n hm hn
    refine ⟨_, ho m n hm hn, ?_⟩
    have ew : ∀ i ∈ Finset.range (2 * L + 1), ∀ j ∈ Finset.range (2 * L + 1), entryOf (2 * L + 1) w i j = W i j := by
      intro i hi j hj
      unfold entryOf
      rw [List.getD_eq_getElem?_getD, hw i j (Finset.mem_range.1 hi) (Finset.mem_range.1 hj), Option.getD_some]
    have es : semilocal L (entryOf (2 * L + 1) w) C U (basisFn { A with coeffs := cA } m) (basisFn { B with coeffs := cB } n) =
        semilocal L W C U (basisFn { A with coeffs := cA } m) (basisFn { B with coeffs := cB } n) := by
      unfold semilocal
      congr 1
      funext r
      congr 2
      exact Finset.sum_congr rfl fun i hi => Finset.sum_congr rfl fun j hj => by rw [ew i hi j hj]
    have ee : entrySum L (entryOf (2 * L + 1) w) = entrySum L W := by
      unfold entrySum
      exact Finset.sum_congr rfl fun i hi => Finset.sum_congr rfl fun j hj => by rw [ew i hi j hj]
    unfold spinOrbitBound
    rw [es, ee]
    have hz : zeroThresh = (1e-14 : ℝ) := rfl
    beta_reduce
    rw [hz]
    exact semi_element_error 1e-14 1e-14 _ (by norm_num) (by norm_num) hU L W A B hA hB nA nB C hLA hLB hkA hkB Q _
      (fun l1 p l2 q a1 a2 => angSumT3_le L X Y Z W _ _ a1 a2 p q) (fun l1 p l2 q a1 a2 => angSumT3_error L X Y Z W hW _ _ a1 a2 p q)
      cA cB m n hm hn
  rintro o w (⟨rfl, rfl⟩ | ⟨rfl, rfl⟩ | ⟨rfl, rfl⟩)
  · exact key _ _ X (Or.inl rfl) hM1.1 h2.1
  · exact key _ _ Y (Or.inr (Or.inl rfl)) hM1.2.1 h2.2.1
  · exact key _ _ Z (Or.inr (Or.inr rfl)) hM1.2.2 h2.2.2

/-- **C79.** Spin-orbit integrals, with at least one of the two shells away from `C`. The routine succeeds, writes only the elements of the three
matrices, and the elements of each of them differ from the matrix elements of `U(r) Σ_mm' |S_Lm⟩ w_mm' ⟨S_Lm'|` by at most the bound, where `w` is
the corresponding angular momentum matrix (C45, C76), for whatever arrays `l0` these are written into. The preconditions and the meaning of the
bound are those of C77. -/
theorem spin_orbit_correct {G : Type} (lib : Lib G) (hi : lib.init = true) (hbt : BesselOk lib.bt) (A B : Shell) (hA : A.Homog) (hB : B.Homog)
    (nA : 0 < A.num) (nB : 0 < B.num) (C : Point) (pot : Potential) (hp : pot.WF) (hr : pot.Regular) (hLA : pot.L.toNat + A.L ≤ 14)
    (hLB : pot.L.toNat + B.L ≤ 14) (hkA : VecOk (kDir A C)) (hkB : VecOk (kDir B C))
    (hfar : ¬ ((∑ i, toC A C i ^ 2) < 1e-14 ∧ (∑ i, toC B C i ^ 2) < 1e-14))
    (out : LMat) (hx : A.cart_size * B.cart_size ≤ out.x.length) (hy : A.cart_size * B.cart_size ≤ out.y.length)
    (hz : A.cart_size * B.cart_size ≤ out.z.length) (l0 : LMat) (h0x : (2 * pot.L.toNat + 1) * (2 * pot.L.toNat + 1) ≤ l0.x.length)
    (h0y : (2 * pot.L.toNat + 1) * (2 * pot.L.toNat + 1) ≤ l0.y.length) (h0z : (2 * pot.L.toNat + 1) * (2 * pot.L.toNat + 1) ≤ l0.z.length) :
    ∃ out' M Q A' B' pot', spinOrbitIntegrals lib A B C pot out = .ok out' ∧ lmatRsh pot.L.toNat l0 = .ok M ∧
      (SameBeyond (A.cart_size * B.cart_size) out'.x out.x ∧ SameBeyond (A.cart_size * B.cart_size) out'.y out.y ∧
        SameBeyond (A.cart_size * B.cart_size) out'.z out.z) ∧
      (∀ o w, (o = out'.x ∧ w = M.x) ∨ (o = out'.y ∧ w = M.y) ∨ (o = out'.z ∧ w = M.z) → ∀ m n, m < A.cart_size → n < B.cart_size →
        ∃ v, o[m * B.cart_size + n]? = some v ∧
          |v - semilocal pot.L.toNat (entryOf (2 * pot.L.toNat + 1) w) C (potentialRadial (keepLargeTerms pot)) (basisFn (keepLarge A) m)
            (basisFn (keepLarge B) n)| ≤
            spinOrbitBound pot.L.toNat (entryOf (2 * pot.L.toNat + 1) w) (toC A C) (toC B C) Q
              (semiExact (potentialRadial (keepLargeTerms pot)) (keepLarge A) (keepLarge B) C) (A.comp m) (B.comp n)) ∧
      (preparedShell lib.gen A = .ok A' ∧ preparedShell lib.gen B = .ok B' ∧ shrinkPotential pot = .ok pot') ∧
      ∀ l1 l2 n, l1 ≤ pot.L.toNat + A.L → l2 ≤ pot.L.toNat + B.L → n ≤ A.L + B.L →
        RadialEntry (lib.screen A' B' pot' (∑ i, toC A C i ^ 2) (∑ i, toC B C i ^ 2) (n, l1, l2)) pot A B C l1 l2 n (Q l1 l2 n) := by
  obtain ⟨t, Q, A', B', pot', e1, e2, e3, ht, hQ, hQ2⟩ := radialType2_numeric lib hbt A B hA.wf hB.wf hA.pos hB.pos C pot hp hfar
    (pot.L.toNat + A.L) (pot.L.toNat + B.L) (A.L + B.L) hLA hLB
  obtain ⟨out', M, h1, h2, h3, h4⟩ := spin_orbit_common lib hi A B hA hB nA nB C pot hLA hLB hkA hkB (radialPot_of_regular hr.keep).mild
    (keepLarge A).coeffs (keepLarge B).coeffs t Q ht hQ out hx hy hz l0 h0x h0y h0z
  exact ⟨out', M, Q, A', B', pot', h1, h2, h3, h4, ⟨e1, e2, e3⟩, hQ2⟩

/-- **C79.** Spin-orbit integrals with both shells at `C`. -/
theorem spin_orbit_one_centre {G : Type} (lib : Lib G) (hi : lib.init = true) (A B : Shell) (hA : A.Homog) (hB : B.Homog)
    (nA : 0 < A.num) (nB : 0 < B.num) (C : Point) (pot : Potential) (hp : pot.WF) (hr : pot.Regular) (hLA : pot.L.toNat + A.L ≤ 14)
    (hLB : pot.L.toNat + B.L ≤ 14) (hcA : A.origin = C) (hcB : B.origin = C) (hm : MomentsOk pot (A.L + B.L))
    (out : LMat) (hx : A.cart_size * B.cart_size ≤ out.x.length) (hy : A.cart_size * B.cart_size ≤ out.y.length)
    (hz : A.cart_size * B.cart_size ≤ out.z.length) (l0 : LMat) (h0x : (2 * pot.L.toNat + 1) * (2 * pot.L.toNat + 1) ≤ l0.x.length)
    (h0y : (2 * pot.L.toNat + 1) * (2 * pot.L.toNat + 1) ≤ l0.y.length) (h0z : (2 * pot.L.toNat + 1) * (2 * pot.L.toNat + 1) ≤ l0.z.length) :
    ∃ out' M, spinOrbitIntegrals lib A B C pot out = .ok out' ∧ lmatRsh pot.L.toNat l0 = .ok M ∧
      (SameBeyond (A.cart_size * B.cart_size) out'.x out.x ∧ SameBeyond (A.cart_size * B.cart_size) out'.y out.y ∧
        SameBeyond (A.cart_size * B.cart_size) out'.z out.z) ∧
      ∀ o w, (o = out'.x ∧ w = M.x) ∨ (o = out'.y ∧ w = M.y) ∨ (o = out'.z ∧ w = M.z) → ∀ m n, m < A.cart_size → n < B.cart_size →
        ∃ v, o[m * B.cart_size + n]? = some v ∧
          |v - semilocal pot.L.toNat (entryOf (2 * pot.L.toNat + 1) w) C (potentialRadial pot) (basisFn A m) (basisFn B n)| ≤
            spinOrbitBound pot.L.toNat (entryOf (2 * pot.L.toNat + 1) w) (fun _ => 0) (fun _ => 0) (semiExact (potentialRadial pot) A B C)
              (semiExact (potentialRadial pot) A B C) (A.comp m) (B.comp n) := by
  have tA : toC A C = fun _ => 0 := by funext i; simp [toC, hcA]
  have tB : toC B C = fun _ => 0 := by funext i; simp [toC, hcB]
  have vk : ∀ s : Shell, toC s C = (fun _ => 0) → VecOk (kDir s C) := by
    intro s h
    left
    unfold kDir
    rw [h]
    simp [vnorm]
  obtain ⟨t, ht, hQ⟩ := radialType2_centre lib A B hA.wf hB.wf hA.pos hB.pos C tA tB pot hp hr
    (pot.L.toNat + A.L) (pot.L.toNat + B.L) (A.L + B.L) hm
  obtain ⟨out', M, h1, h2, h3, h4⟩ := spin_orbit_common lib hi A B hA hB nA nB C pot hLA hLB (vk A tA) (vk B tB) (radialPot_of_regular hr).mild
    A.coeffs B.coeffs t _ ht hQ out hx hy hz l0 h0x h0y h0z
  rw [tA, tB] at h4
  exact ⟨out', M, h1, h2, h3, h4⟩

/-- **C80.** Before initialisation both routines stop the program, with all arguments. -/
theorem semilocal_needs_init {G : Type} (lib : Lib G) (hi : lib.init = false) (A B : Shell) (C : Point) (pot : Potential) (out : List ℝ) (outs : LMat) :
    type2Integrals lib A B C pot out = .abort ∧ spinOrbitIntegrals lib A B C pot outs = .abort := by
  constructor
  · unfold type2Integrals
    rw [Outcome.assert_neg (by simp [hi])]
    rfl
  · unfold spinOrbitIntegrals
    rw [Outcome.assert_neg (by simp [hi])]
    rfl

/-- **C80.** For a shell without primitives the first exponent is read from an empty array. -/
theorem semilocal_no_primitives {G : Type} (lib : Lib G) (hi : lib.init = true) (A B : Shell) (hA : A.Homog) (hB : B.Homog) (C : Point)
    (pot : Potential) (h : A.alpha = []) (out : List ℝ) (hlen : A.cart_size * B.cart_size ≤ out.length) (outs : LMat)
    (hx : A.cart_size * B.cart_size ≤ outs.x.length) (hy : A.cart_size * B.cart_size ≤ outs.y.length)
    (hz : A.cart_size * B.cart_size ≤ outs.z.length) :
    type2Integrals lib A B C pot out = .ub ∧ spinOrbitIntegrals lib A B C pot outs = .ub := by
  constructor
  · obtain ⟨buf0, hm, -, hsb⟩ := memset0_spec (A.cart_size * B.cart_size) out hlen
    unfold type2Integrals
    rw [Outcome.assert_pos hi, Outcome.ok_bind, hm, Outcome.ok_bind]
    simp only []
    rw [hA.firstDegree, Outcome.ok_bind, hB.firstDegree, Outcome.ok_bind, h]
    rfl
  · obtain ⟨buf0, hm, -⟩ := lmatZero_spec (A.cart_size * B.cart_size) outs hx hy hz
    unfold spinOrbitIntegrals
    rw [Outcome.assert_pos hi, Outcome.ok_bind, hm, Outcome.ok_bind]
    simp only []
    rw [hA.firstDegree, Outcome.ok_bind, hB.firstDegree, Outcome.ok_bind, h]
    rfl

/-- A `p` potential with two terms, one of them with the power `0`, that is `r^(-2)`. -/
noncomputable def pPotential : Potential := { L := 1, J := 0, num := 2, powers := [2, 0], coeffs := [3, -1], alpha := [1, 4] }

theorem pPotential_ok : pPotential.WF ∧ pPotential.Regular := by
  refine ⟨by simp [Potential.WF, pPotential], fun k hk => ?_⟩
  have : k = 0 ∨ k = 1 := by simp only [pPotential] at hk; omega
  rcases this with rfl | rfl <;> norm_num [pPotential]

/-- A `p` shell away from the centre and an `s` shell at the centre: the preconditions of C77 and C79 hold. -/
theorem exampleFar : VecOk (kDir exampleShell fun _ => 0) ∧ VecOk (kDir sShell fun _ => 0) ∧
    ¬ ((∑ i, toC exampleShell (fun _ => 0) i ^ 2) < 1e-14 ∧ (∑ i, toC sShell (fun _ => 0) i ^ 2) < 1e-14) := by
  refine ⟨Or.inr ?_, Or.inl ?_, fun h => ?_⟩
  · unfold vnorm
    refine Real.lt_sqrt_of_sq_lt ?_
    simp [Fin.sum_univ_three, kDir, toC, exampleShell, Shell.alphaAt]
    norm_num
  · simp [vnorm, kDir, toC, sShell]
  · have := h.1
    simp [Fin.sum_univ_three, toC, exampleShell] at this
    norm_num at this

example {G : Type} (lib : Lib G) (hi : lib.init = true) (hbt : BesselOk lib.bt) :
    ∃ out', type2Integrals lib exampleShell sShell (fun _ => 0) pPotential [7, 7, 7, 5] = .ok out' ∧ out'[3]? = some 5 := by
  obtain ⟨out', _, _, _, _, h, ⟨_, h2⟩, -⟩ := type2_correct lib hi hbt exampleShell sShell exampleShell_homog sShell_homog (by simp [exampleShell])
    (by simp [sShell]) (fun _ => 0) pPotential pPotential_ok.1 pPotential_ok.2 (by simp [pPotential, exampleShell]) (by simp [pPotential, sShell])
    exampleFar.1 exampleFar.2.1 exampleFar.2.2 [7, 7, 7, 5] (by simp [exampleShell, sShell])
  exact ⟨out', h, by rw [h2 3 (by simp [exampleShell, sShell])]; rfl⟩

example {G : Type} (lib : Lib G) (hi : lib.init = true) (hbt : BesselOk lib.bt) :
    ∃ out', spinOrbitIntegrals lib exampleShell sShell (fun _ => 0) pPotential ⟨[7, 7, 7, 5], [1, 1, 1], [0, 0, 0]⟩ = .ok out' ∧
      out'.x[3]? = some 5 := by
  obtain ⟨out', _, _, _, _, _, h, -, ⟨⟨_, h2⟩, -⟩, -⟩ := spin_orbit_correct lib hi hbt exampleShell sShell exampleShell_homog sShell_homog
    (by simp [exampleShell])
    (by simp [sShell]) (fun _ => 0) pPotential pPotential_ok.1 pPotential_ok.2 (by simp [pPotential, exampleShell]) (by simp [pPotential, sShell])
    exampleFar.1 exampleFar.2.1 exampleFar.2.2 ⟨[7, 7, 7, 5], [1, 1, 1], [0, 0, 0]⟩ (by simp [exampleShell, sShell]) (by simp [exampleShell, sShell])
    (by simp [exampleShell, sShell]) ⟨List.replicate 9 0, List.replicate 9 0, List.replicate 9 0⟩ (by simp [pPotential]) (by simp [pPotential])
    (by simp [pPotential])
  exact ⟨out', h, by rw [h2 3 (by simp [exampleShell, sShell])]; rfl⟩

example {G : Type} (lib : Lib G) (hi : lib.init = true) (x : ℝ) :
    ∃ y, type2Integrals lib sShell sShell (fun _ => 0) { pPotential with L := 0 } [x] = .ok [y] := by
  obtain ⟨out', h, ⟨h1, -⟩, -⟩ := type2_one_centre lib hi sShell sShell sShell_homog sShell_homog
    (by simp [sShell]) (by simp [sShell]) (fun _ => 0) { pPotential with L := 0 } pPotential_ok.1 pPotential_ok.2 (by simp [sShell])
    (by simp [sShell]) rfl rfl (by
      intro k hk n hn
      have : k = 0 ∨ k = 1 := by simp only [pPotential] at hk; omega
      simp only [sShell] at hn
      rcases this with rfl | rfl <;> simp [pPotential] <;> omega) [x] (by simp [sShell])
  obtain ⟨y, rfl⟩ := List.length_eq_one_iff.1 h1
  exact ⟨y, h⟩

/-- A shell without primitives exists. -/
example : ({ sShell with num := 0, coeffs := [], alpha := [] } : Shell).Homog :=
  ⟨⟨by simp, by simp⟩, ⟨by simp [sShell], by simp [sShell]⟩, by simp [sShell], by simp [sShell], fun i hi => absurd hi (by simp)⟩

/-- The coefficients of the examples are all kept. -/
example : keepLarge exampleShell = exampleShell ∧ keepLargeTerms pPotential = pPotential :=
  type2_nothing_dropped _ (by intro c hc; right; simp [exampleShell] at hc; rcases hc with rfl | rfl <;> norm_num) _
    (by intro c hc; right; simp [pPotential] at hc; rcases hc with rfl | rfl <;> norm_num)

/-- The specification for `L = 0` and functions that depend on the distance from `C` only: the radial integral `∫ r² U 4π f g dr`. -/
example (C : Point) (U : ℝ → ℝ) (f g : ℝ → ℝ) :
    semilocal 0 projector C U (fun x => f (Real.sqrt (∑ i, (x i - C i) ^ 2))) (fun x => g (Real.sqrt (∑ i, (x i - C i) ^ 2))) =
      ∫ r in Ioi (0:ℝ), r ^ 2 * (U r * (4 * Real.pi * (f r * g r))) := by
  have h0 : ∀ ω, rsh 0 0 ω = Real.sqrt (1 / (4 * Real.pi)) := rsh_zero_zero
  have hp : ∀ (f : ℝ → ℝ) (r : ℝ), 0 < r → project 0 0 C (fun x => f (Real.sqrt (∑ i, (x i - C i) ^ 2))) r =
      4 * Real.pi * (Real.sqrt (1 / (4 * Real.pi)) * f r) := by
    intro f r hr
    rw [← sphInt_const_val]
    unfold project
    refine sphInt_congr fun ω hω => ?_
    have e : ∑ i, (C i + r * ω i - C i) ^ 2 = r ^ 2 := by
      have : ∀ i, (C i + r * ω i - C i) ^ 2 = r ^ 2 * ω i ^ 2 := fun i => by ring
      simp only [this]
      rw [← Finset.mul_sum, hω, mul_one]
    beta_reduce
    rw [h0, e, Real.sqrt_sq hr.le]
  unfold semilocal
  refine setIntegral_congr_fun measurableSet_Ioi fun r hr => ?_
  have hr : 0 < r := hr
  have hq : Real.sqrt (1 / (4 * Real.pi)) * Real.sqrt (1 / (4 * Real.pi)) = 1 / (4 * Real.pi) := Real.mul_self_sqrt (by positivity)
  simp only [mul_zero, zero_add, Finset.sum_range_one, projector, if_true, one_mul, Nat.cast_zero, sub_zero, hp _ r hr]
  congr 2
  have : 4 * Real.pi * (Real.sqrt (1 / (4 * Real.pi)) * f r) * (4 * Real.pi * (Real.sqrt (1 / (4 * Real.pi)) * g r)) =
    (4 * Real.pi) * (4 * Real.pi) * (Real.sqrt (1 / (4 * Real.pi)) * Real.sqrt (1 / (4 * Real.pi))) * (f r * g r) := by ring
  rw [this, hq]
  field_simp

end Libgrpp
