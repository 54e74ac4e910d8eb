import Verif.Lemmas.Type2
import Verif.Lemmas.Type2Limit
import Verif.Lemmas.LMatrix

/-! The public routines for type-2 and spin-orbit integrals. -/

namespace Libgrpp

theorem angSum_le (L : ℕ) (W : ℕ → ℕ → ℝ) (kA kB : Point) {l1 l2 : ℕ} (h1 : l1 ≤ 14) (h2 : l2 ≤ 14) (p q : Comp) :
    |angSum L W kA kB l1 p l2 q| ≤ 1.52 * 1.52 * ∑ i ∈ Finset.range (2 * L + 1), ∑ j ∈ Finset.range (2 * L + 1), |W i j| := by
  unfold angSum
  rw [Finset.mul_sum]
  refine (Finset.abs_sum_le_sum_abs _ _).trans (Finset.sum_le_sum fun i hi => ?_)
  rw [Finset.mul_sum]
  refine (Finset.abs_sum_le_sum_abs _ _).trans (Finset.sum_le_sum fun j hj => ?_)
  rw [Finset.mem_range] at hi hj
  rw [abs_mul, abs_mul, mul_comm]
  exact mul_le_mul_of_nonneg_right (mul_le_mul (angOmega2_le L _ (by omega) h1 p kA) (angOmega2_le L _ (by omega) h2 q kB) (abs_nonneg _)
    (by norm_num)) (abs_nonneg _)

theorem projector_abs_sum (L : ℕ) : ∑ i ∈ Finset.range (2 * L + 1), ∑ j ∈ Finset.range (2 * L + 1), |projector i j| = 2 * L + 1 := by
  have e : ∀ i j, |projector i j| = projector i j * 1 := by
    intro i j
    unfold projector
    split_ifs <;> simp
  simp only [e]
  rw [projector_sum (2 * L + 1) fun _ _ => 1, Finset.sum_const, Finset.card_range, nsmul_eq_mul]
  push_cast
  ring

theorem angSum_unused_left (L : ℕ) (W : ℕ → ℕ → ℝ) (kA kB : Point) (l1 : ℕ) (p : Comp) (l2 : ℕ) (q : Comp) (h : l1 ≤ L + cdeg p)
    (hn : ¬ orderUsed L (cdeg p) l1) : angSum L W kA kB l1 p l2 q = 0 := by
  refine angSum_zero_left L W kA kB l1 p l2 q ?_
  by_contra hc
  push Not at hc
  exact hn ⟨by omega, by omega⟩

theorem angSum_unused_right (L : ℕ) (W : ℕ → ℕ → ℝ) (kA kB : Point) (l1 : ℕ) (p : Comp) (l2 : ℕ) (q : Comp) (h : l2 ≤ L + cdeg q)
    (hn : ¬ orderUsed L (cdeg q) l2) : angSum L W kA kB l1 p l2 q = 0 := by
  refine angSum_zero_right L W kA kB l1 p l2 q ?_
  by_contra hc
  push Not at hc
  exact hn ⟨by omega, by omega⟩

/-! ## Spin-orbit: the angular sum -/

/-- The angular sum of the spin-orbit routine for one of the three matrices; `X`, `Y`, `Z` are the three matrices. -/
noncomputable def angSumT3 (L : ℕ) (X Y Z W : ℕ → ℕ → ℝ) (kA kB : Point) (l1 : ℕ) (p : Comp) (l2 : ℕ) (q : Comp) : ℝ :=
  ∑ i ∈ Finset.range (2 * L + 1), ∑ j ∈ Finset.range (2 * L + 1),
    if |X i j| < zeroThresh ∧ |Y i j| < zeroThresh ∧ |Z i j| < zeroThresh then 0 else
      cutAt zeroThresh (angOmega2Code L ((i : ℤ) - L) l1 p kA) * angOmega2Code L ((j : ℤ) - L) l2 q kB * W i j

theorem type3AngularSum_eq (L : ℕ) (hL : L ≤ 14) (M : LMat) (X Y Z : ℕ → ℕ → ℝ) (hM : LMatIs (2 * L + 1) M X Y Z) (kA kB : Point) (lmax : ℕ)
    (rA rB : List (List ℝ)) (hA : RowsOk lmax kA rA) (hB : RowsOk lmax kB rB) (l1 : ℕ) (p : Comp) (l2 : ℕ) (q : Comp) (h1 : l1 ≤ lmax)
    (h2 : l2 ≤ lmax) (p1 : cdeg p + l1 + L ≤ 29) (p2 : cdeg q + l2 + L ≤ 29) :
    type3AngularSum L M rA rB l1 p l2 q = .ok ![angSumT3 L X Y Z X kA kB l1 p l2 q, angSumT3 L X Y Z Y kA kB l1 p l2 q,
      angSumT3 L X Y Z Z kA kB l1 p l2 q] := by
  obtain ⟨vA, a1, a2, a3⟩ := hA l1 h1
  obtain ⟨vB, b1, b2, b3⟩ := hB l2 h2
  unfold type3AngularSum
  rw [rd_some a1, Outcome.ok_bind, rd_some b1, Outcome.ok_bind]
  let t : (ℕ → ℕ → ℝ) → ℕ → ℕ → ℝ := fun W i j => if |X i j| < zeroThresh ∧ |Y i j| < zeroThresh ∧ |Z i j| < zeroThresh then 0 else
      cutAt zeroThresh (angOmega2Code L ((i : ℤ) - L) l1 p kA) * angOmega2Code L ((j : ℤ) - L) l2 q kB * W i j
  rw [forRange_sumG (fun i => ∑ j ∈ Finset.range (2 * L + 1), (![t X i j, t Y i j, t Z i j] : Point)), zero_add]
  · congr 1
    funext c
    fin_cases c <;> simp [angSumT3, t, Finset.sum_apply]
  · intro i hi s
    refine forRange_sumG _ fun j hj s => ?_
    have r1 := hM.1 i j hi hj
    have r2 := hM.2.1 i j hi hj
    have r3 := hM.2.2 i j hi hj
    rw [mul_comm (2 * L + 1) i, rd_some r1, Outcome.ok_bind, rd_some r2, Outcome.ok_bind, rd_some r3, Outcome.ok_bind]
    by_cases c1 : |X i j| < zeroThresh ∧ |Y i j| < zeroThresh ∧ |Z i j| < zeroThresh
    · rw [if_pos c1]
      congr 1
      simp only [t, if_pos c1]
      funext c
      fin_cases c <;> simp
    · rw [if_neg c1, angType2_dir l1 L _ p kA vA (by omega) (by omega) (by omega) a2 a3 (Or.inl p1), Outcome.ok_bind]
      simp only [t, if_neg c1]
      by_cases c2 : |angOmega2Code L ((i : ℤ) - L) l1 p kA| < zeroThresh
      · rw [if_pos c2]
        congr 1
        have : cutAt zeroThresh (angOmega2Code L ((i : ℤ) - L) l1 p kA) = 0 := by
          unfold cutAt
          rw [if_pos c2]
        simp only [this, zero_mul]
        funext c
        fin_cases c <;> simp
      · rw [if_neg c2, angType2_dir l2 L _ q kB vB (by omega) (by omega) (by omega) b2 b3 (Or.inl p2), Outcome.ok_bind]
        have : cutAt zeroThresh (angOmega2Code L ((i : ℤ) - L) l1 p kA) = angOmega2Code L ((i : ℤ) - L) l1 p kA := by
          unfold cutAt
          rw [if_neg c2]
        rw [this]

/-- The sum of the absolute values of the elements of a matrix. -/
noncomputable def entrySum (L : ℕ) (W : ℕ → ℕ → ℝ) : ℝ := ∑ i ∈ Finset.range (2 * L + 1), ∑ j ∈ Finset.range (2 * L + 1), |W i j|

theorem entrySum_nonneg (L : ℕ) (W : ℕ → ℕ → ℝ) : 0 ≤ entrySum L W :=
  Finset.sum_nonneg fun i _ => Finset.sum_nonneg fun j _ => abs_nonneg _

theorem angSumT3_le (L : ℕ) (X Y Z W : ℕ → ℕ → ℝ) (kA kB : Point) {l1 l2 : ℕ} (h1 : l1 ≤ 14) (h2 : l2 ≤ 14) (p q : Comp) :
    |angSumT3 L X Y Z W kA kB l1 p l2 q| ≤ 1.52 * 1.52 * entrySum L W := by
  unfold angSumT3 entrySum
  rw [Finset.mul_sum]
  refine (Finset.abs_sum_le_sum_abs _ _).trans (Finset.sum_le_sum fun i hi => ?_)
  rw [Finset.mul_sum]
  refine (Finset.abs_sum_le_sum_abs _ _).trans (Finset.sum_le_sum fun j hj => ?_)
  rw [Finset.mem_range] at hi hj
  split_ifs
  · rw [abs_zero]
    positivity
  · rw [abs_mul]
    exact mul_le_mul_of_nonneg_right (omega_le (angOmega2Code_le L _ (by omega) h1 p kA) (angOmega2Code_le L _ (by omega) h2 q kB)) (abs_nonneg _)

theorem angSumT3_error (L : ℕ) (X Y Z W : ℕ → ℕ → ℝ) (hW : W = X ∨ W = Y ∨ W = Z) (kA kB : Point) {l1 l2 : ℕ} (h1 : l1 ≤ 14) (h2 : l2 ≤ 14)
    (p q : Comp) : |angSumT3 L X Y Z W kA kB l1 p l2 q - angSum L W kA kB l1 p l2 q| ≤ 1.8e-13 * entrySum L W + 2.4e-14 * (2 * L + 1) ^ 2 := by
  have key : |angSumT3 L X Y Z W kA kB l1 p l2 q - angSum L W kA kB l1 p l2 q| ≤
      ∑ i ∈ Finset.range (2 * L + 1), ∑ j ∈ Finset.range (2 * L + 1), (1.8e-13 * |W i j| + 2.4e-14) := by
    unfold angSumT3 angSum
    rw [← Finset.sum_sub_distrib]
    refine (Finset.abs_sum_le_sum_abs _ _).trans (Finset.sum_le_sum fun i hi => ?_)
    rw [← Finset.sum_sub_distrib]
    refine (Finset.abs_sum_le_sum_abs _ _).trans (Finset.sum_le_sum fun j hj => ?_)
    rw [Finset.mem_range] at hi hj
    have b1 := angOmega2_le L ((i : ℤ) - L) (by omega) h1 p kA
    have b2 := angOmega2_le L ((j : ℤ) - L) (by omega) h2 q kB
    split_ifs with c
    · have hw : |W i j| ≤ 1e-14 := by
        have : zeroThresh = (1e-14 : ℝ) := rfl
        rw [this] at c
        rcases hW with h | h | h
        · rw [h]; exact c.1.le
        · rw [h]; exact c.2.1.le
        · rw [h]; exact c.2.2.le
      rw [zero_sub, abs_neg, abs_mul, abs_mul]
      have := mul_le_mul hw (mul_le_mul b1 b2 (abs_nonneg _) (by norm_num)) (by positivity) (by norm_num)
      have := abs_nonneg (W i j)
      linarith
    · have e := omega_error (thr := zeroThresh) (by norm_num [zeroThresh]) b1 (angOmega2Code_le L _ (by omega) h2 q kB)
        (angOmega2_diff L _ (by omega) h1 p kA) (angOmega2_diff L ((j : ℤ) - L) (by omega) h2 q kB)
      rw [mul_comm (W i j), ← sub_mul, abs_mul]
      have h3 := mul_le_mul_of_nonneg_right e (abs_nonneg (W i j))
      have : zeroThresh = (1e-14 : ℝ) := rfl
      rw [this] at h3
      have := abs_nonneg (W i j)
      nlinarith
  refine key.trans (le_of_eq ?_)
  simp only [Finset.sum_add_distrib, ← Finset.mul_sum, Finset.sum_const, Finset.card_range, nsmul_eq_mul]
  unfold entrySum
  push_cast
  ring

/-! ## Storing in three arrays -/

theorem lmat_store2 (m n : ℕ) (val : ℕ → ℕ → Outcome Point) (g : ℕ → ℕ → Point) (M : LMat)
    (hval : ∀ i j, i < m → j < n → val i j = .ok (g i j))
    (hx : m * n ≤ M.x.length) (hy : m * n ≤ M.y.length) (hz : m * n ≤ M.z.length) :
    ∃ M', (forRange m M fun i M => forRange n M fun j M => do
        let v ← val i j
        lmatSet M (i * n + j) (v 0) (v 1) (v 2)) = .ok M' ∧
      ((MatIs m n M'.x (fun i j => g i j 0) ∧ MatIs m n M'.y (fun i j => g i j 1) ∧ MatIs m n M'.z fun i j => g i j 2) ∧ LSame (m * n) M' M) := by
  obtain ⟨x, e1, a1, a2⟩ := store_matrix m n (fun i j => .ok (g i j 0)) (fun i j => g i j 0) M.x (fun _ _ _ _ => rfl) hx
  obtain ⟨y, e2, b1, b2⟩ := store_matrix m n (fun i j => .ok (g i j 1)) (fun i j => g i j 1) M.y (fun _ _ _ _ => rfl) hy
  obtain ⟨z, e3, c1, c2⟩ := store_matrix m n (fun i j => .ok (g i j 2)) (fun i j => g i j 2) M.z (fun _ _ _ _ => rfl) hz
  refine ⟨⟨x, y, z⟩, ?_, ⟨a1, b1, c1⟩, a2, b2, c2⟩
  have key : ∀ (N : ℕ) (bx bhy bz : ℕ → List ℝ → Outcome (List ℝ)) (b : ℕ → LMat → Outcome LMat),
      (∀ i < N, ∀ s x' y' z', bx i s.x = .ok x' → bhy i s.y = .ok y' → bz i s.z = .ok z' → b i s = .ok ⟨x', y', z'⟩) →
      ∀ (s : LMat) x' y' z', forRange N s.x bx = .ok x' → forRange N s.y bhy = .ok y' → forRange N s.z bz = .ok z' →
        forRange N s b = .ok ⟨x', y', z'⟩ := by
    intro N bx bhy bz b
    induction N with
    | zero =>
      intro _ s x' y' z' h1 h2 h3
      rw [forRange_zero] at *
      rw [← Outcome.ok.inj h1, ← Outcome.ok.inj h2, ← Outcome.ok.inj h3]
    | succ N ih =>
      intro hb s x' y' z' h1 h2 h3
      rw [forRange_succ] at *
      obtain ⟨x1, f1, g1⟩ := Outcome.bind_eq_ok.1 h1
      obtain ⟨y1, f2, g2⟩ := Outcome.bind_eq_ok.1 h2
      obtain ⟨z1, f3, g3⟩ := Outcome.bind_eq_ok.1 h3
      rw [ih (fun i hi => hb i (by omega)) s x1 y1 z1 f1 f2 f3, Outcome.ok_bind]
      exact hb N (by omega) ⟨x1, y1, z1⟩ x' y' z' g1 g2 g3
  refine key m _ _ _ _ (fun i hi s x' y' z' h1 h2 h3 => ?_) M x y z e1 e2 e3
  refine key n _ _ _ _ (fun j hj s x' y' z' h1 h2 h3 => ?_) s x' y' z' h1 h2 h3
  rw [Outcome.ok_bind] at h1 h2 h3
  rw [hval i j hi hj, Outcome.ok_bind]
  unfold lmatSet
  rw [h1, Outcome.ok_bind, h2, Outcome.ok_bind, h3, Outcome.ok_bind]

/-! ## The routines -/

theorem toC_sq (s : Shell) (C : Point) : (C 0 - s.origin 0) * (C 0 - s.origin 0) + (C 1 - s.origin 1) * (C 1 - s.origin 1) +
    (C 2 - s.origin 2) * (C 2 - s.origin 2) = ∑ i, toC s C i ^ 2 := by
  rw [Fin.sum_univ_three]
  unfold toC
  ring

/-- The type-2 routine, given the table of the radial integrals. -/
theorem type2Integrals_spec {G : Type} (lib : Lib G) (hi : lib.init = true) (A B : Shell) (hA : A.Homog) (hB : B.Homog) (nA : 0 < A.num)
    (nB : 0 < B.num) (C : Point) (pot : Potential) (hLA : pot.L.toNat + A.L ≤ 14) (hLB : pot.L.toNat + B.L ≤ 14) (t : List ℝ) (Q : ℕ → ℕ → ℕ → ℝ)
    (ht : radialType2 lib (pot.L.toNat + A.L) (pot.L.toNat + B.L) (A.L + B.L) (∑ i, toC A C i ^ 2) (∑ i, toC B C i ^ 2) pot A B = .ok t)
    (hQ : ∀ l1 l2 n, l1 ≤ pot.L.toNat + A.L → l2 ≤ pot.L.toNat + B.L → n ≤ A.L + B.L →
      getType2 (pot.L.toNat + B.L) (A.L + B.L) t l1 l2 n = .ok (Q l1 l2 n))
    (out : List ℝ) (hlen : A.cart_size * B.cart_size ≤ out.length) :
    ∃ out', type2Integrals lib A B C pot out = .ok out' ∧
      MatIs A.cart_size B.cart_size out' (fun m n => semiSumCode 1e-13 1e-16 pot.L.toNat (toC A C) (toC B C) Q
        (angSumT2 pot.L.toNat (kDir A C) (kDir B C)) (A.comp m) (B.comp n) * (16 * Real.pi * Real.pi)) ∧
      SameBeyond (A.cart_size * B.cart_size) out' out := by
  obtain ⟨buf0, hm, -, hsb⟩ := memset0_spec (A.cart_size * B.cart_size) out hlen
  generalize hL : pot.L.toNat = L at *
  obtain ⟨rA, eA, okA⟩ := rshRows_ok 90 180 (max (max (L + A.L) (L + B.L)) L) (kDir A C) (by omega) (by omega) (by omega)
  obtain ⟨rB, eB, okB⟩ := rshRows_ok 90 180 (max (max (L + A.L) (L + B.L)) L) (kDir B C) (by omega) (by omega) (by omega)
  obtain ⟨out', hs, h1, h2, h3⟩ := storePairs_spec A B hA.listed hB.listed (fun x y => do
    let v ← semilocalElement 1e-13 1e-16 L (L + B.L) (A.L + B.L) (toC A C) (toC B C) t (type2AngularSum L rA rB) x y
    .ok (v * (16 * Real.pi * Real.pi)))
    (fun m n => semiSumCode 1e-13 1e-16 L (toC A C) (toC B C) Q
        (angSumT2 L (kDir A C) (kDir B C)) (A.comp m) (B.comp n) * (16 * Real.pi * Real.pi)) buf0
    (fun m n hm hn => by
      rw [semilocalElement_eq 1e-13 1e-16 L A.L B.L (by omega) (by omega) (toC A C) (toC B C) t Q hQ _
        (angSumT2 L (kDir A C) (kDir B C)) (fun l1 p l2 q a1 a2 a3 a4 => type2AngularSum_eq L (by omega) (kDir A C) (kDir B C) _ rA rB
          okA okB l1 p l2 q (by omega) (by omega) (by omega) (by omega)) _ _ (hA.comp_deg hm) (hB.comp_deg hn), Outcome.ok_bind])
    (by rw [hsb.1]; exact hlen)
  refine ⟨out', ?_, h1, h2.trans hsb.1, fun p hp => (h3 p hp).trans (hsb.2 p hp)⟩
  unfold type2Integrals
  rw [Outcome.assert_pos hi, Outcome.ok_bind, hm, Outcome.ok_bind]
  simp only []
  rw [hA.firstDegree, Outcome.ok_bind, hB.firstDegree, Outcome.ok_bind, rd_getD (lt_of_lt_of_le nA hA.wf.2), Outcome.ok_bind,
    rd_getD (lt_of_lt_of_le nB hB.wf.2), Outcome.ok_bind, hL, toC_sq, toC_sq, ht, Outcome.ok_bind]
  refine Eq.trans ?_ hs
  refine Eq.trans (congrArg (fun z : Outcome (List (List ℝ)) => z >>= _) eA) ?_
  rw [Outcome.ok_bind]
  refine Eq.trans (congrArg (fun z : Outcome (List (List ℝ)) => z >>= _) eB) ?_
  rw [Outcome.ok_bind]
  rfl

/-- The spin-orbit routine, given the table of the radial integrals. -/
theorem spinOrbitIntegrals_spec {G : Type} (lib : Lib G) (hi : lib.init = true) (A B : Shell) (hA : A.Homog) (hB : B.Homog) (nA : 0 < A.num)
    (nB : 0 < B.num) (C : Point) (pot : Potential) (hLA : pot.L.toNat + A.L ≤ 14) (hLB : pot.L.toNat + B.L ≤ 14) (t : List ℝ) (Q : ℕ → ℕ → ℕ → ℝ)
    (ht : radialType2 lib (pot.L.toNat + A.L) (pot.L.toNat + B.L) (A.L + B.L) (∑ i, toC A C i ^ 2) (∑ i, toC B C i ^ 2) pot A B = .ok t)
    (hQ : ∀ l1 l2 n, l1 ≤ pot.L.toNat + A.L → l2 ≤ pot.L.toNat + B.L → n ≤ A.L + B.L →
      getType2 (pot.L.toNat + B.L) (A.L + B.L) t l1 l2 n = .ok (Q l1 l2 n))
    (M : LMat) (hM : lmatRsh pot.L.toNat ⟨List.replicate ((2 * pot.L.toNat + 1) * (2 * pot.L.toNat + 1)) 0,
      List.replicate ((2 * pot.L.toNat + 1) * (2 * pot.L.toNat + 1)) 0, List.replicate ((2 * pot.L.toNat + 1) * (2 * pot.L.toNat + 1)) 0⟩ = .ok M)
    (X Y Z : ℕ → ℕ → ℝ) (hXYZ : LMatIs (2 * pot.L.toNat + 1) M X Y Z)
    (out : LMat) (hx : A.cart_size * B.cart_size ≤ out.x.length) (hy : A.cart_size * B.cart_size ≤ out.y.length)
    (hz : A.cart_size * B.cart_size ≤ out.z.length) :
    ∃ out', spinOrbitIntegrals lib A B C pot out = .ok out' ∧
      (MatIs A.cart_size B.cart_size out'.x (fun m n => semiSumCode zeroThresh zeroThresh pot.L.toNat (toC A C) (toC B C) Q
        (angSumT3 pot.L.toNat X Y Z X (kDir A C) (kDir B C)) (A.comp m) (B.comp n) * (16 * Real.pi * Real.pi)) ∧
      MatIs A.cart_size B.cart_size out'.y (fun m n => semiSumCode zeroThresh zeroThresh pot.L.toNat (toC A C) (toC B C) Q
        (angSumT3 pot.L.toNat X Y Z Y (kDir A C) (kDir B C)) (A.comp m) (B.comp n) * (16 * Real.pi * Real.pi)) ∧
      MatIs A.cart_size B.cart_size out'.z (fun m n => semiSumCode zeroThresh zeroThresh pot.L.toNat (toC A C) (toC B C) Q
        (angSumT3 pot.L.toNat X Y Z Z (kDir A C) (kDir B C)) (A.comp m) (B.comp n) * (16 * Real.pi * Real.pi))) ∧
      LSame (A.cart_size * B.cart_size) out' out := by
  obtain ⟨buf0, hm, s1, s2, s3⟩ := lmatZero_spec (A.cart_size * B.cart_size) out hx hy hz
  generalize hL : pot.L.toNat = L at *
  obtain ⟨rA, eA, okA⟩ := rshRows_ok 30 61 (max (max (L + A.L) (L + B.L)) L) (kDir A C) (by omega) (by omega) (by omega)
  obtain ⟨rB, eB, okB⟩ := rshRows_ok 30 61 (max (max (L + A.L) (L + B.L)) L) (kDir B C) (by omega) (by omega) (by omega)
  let g : ℕ → Comp → ℕ → Comp → Point := fun l1 p l2 q => ![angSumT3 L X Y Z X (kDir A C) (kDir B C) l1 p l2 q,
    angSumT3 L X Y Z Y (kDir A C) (kDir B C) l1 p l2 q, angSumT3 L X Y Z Z (kDir A C) (kDir B C) l1 p l2 q]
  obtain ⟨out', hs, ⟨h1, h2, h3⟩, s4, s5, s6⟩ := lmat_store2 A.cart_size B.cart_size (fun m n => do
    let x ← rd A.cartList m
    let y ← rd B.cartList n
    let v ← semilocalElement zeroThresh zeroThresh L (L + B.L) (A.L + B.L) (toC A C) (toC B C) t (type3AngularSum L M rA rB) x y
    .ok (fun c => v c * (16 * Real.pi * Real.pi)))
    (fun m n c => semiSumCode zeroThresh zeroThresh L (toC A C) (toC B C) Q g (A.comp m) (B.comp n) c * (16 * Real.pi * Real.pi)) buf0
    (fun m n hm hn => by
      rw [A.rd_comp hA.listed hm, Outcome.ok_bind, B.rd_comp hB.listed hn, Outcome.ok_bind,
        semilocalElement_eq zeroThresh zeroThresh L A.L B.L (by omega) (by omega) (toC A C) (toC B C) t Q hQ _
        g (fun l1 p l2 q a1 a2 a3 a4 => type3AngularSum_eq L (by omega) M X Y Z hXYZ (kDir A C) (kDir B C) _ rA rB
          okA okB l1 p l2 q (by omega) (by omega) (by omega) (by omega)) _ _ (hA.comp_deg hm) (hB.comp_deg hn), Outcome.ok_bind])
    (by rw [s1.1]; exact hx) (by rw [s2.1]; exact hy) (by rw [s3.1]; exact hz)
  have comp : ∀ (x y : Comp) (c : Fin 3), semiSumCode zeroThresh zeroThresh L (toC A C) (toC B C) Q g x y c =
      semiSumCode zeroThresh zeroThresh L (toC A C) (toC B C) Q (fun l1 p l2 q => g l1 p l2 q c) x y := by
    intro x y c
    unfold semiSumCode
    rw [Finset.sum_apply]
    refine Finset.sum_congr rfl fun p _ => ?_
    rw [Finset.sum_apply]
    refine Finset.sum_congr rfl fun q _ => ?_
    split_ifs
    · rfl
    · rw [Pi.smul_apply, Finset.sum_apply]
      congr 1
      refine Finset.sum_congr rfl fun l1 _ => ?_
      split_ifs
      · rw [Finset.sum_apply]
        refine Finset.sum_congr rfl fun l2 _ => ?_
        split_ifs <;> rfl
      · rfl
  refine ⟨out', ?_, ⟨?_, ?_, ?_⟩, ⟨s4.1.trans s1.1, fun p hp => (s4.2 p hp).trans (s1.2 p hp)⟩,
    ⟨s5.1.trans s2.1, fun p hp => (s5.2 p hp).trans (s2.2 p hp)⟩, s6.1.trans s3.1, fun p hp => (s6.2 p hp).trans (s3.2 p hp)⟩
  · unfold spinOrbitIntegrals
    rw [Outcome.assert_pos hi, Outcome.ok_bind, hm, Outcome.ok_bind]
    simp only []
    rw [hA.firstDegree, Outcome.ok_bind, hB.firstDegree, Outcome.ok_bind, rd_getD (lt_of_lt_of_le nA hA.wf.2), Outcome.ok_bind,
      rd_getD (lt_of_lt_of_le nB hB.wf.2), Outcome.ok_bind, hL, hM, Outcome.ok_bind]
    refine Eq.trans (congrArg (fun z : Outcome (List (List ℝ)) => z >>= _) eA) ?_
    rw [Outcome.ok_bind]
    refine Eq.trans (congrArg (fun z : Outcome (List (List ℝ)) => z >>= _) eB) ?_
    rw [Outcome.ok_bind, toC_sq, toC_sq, ht, Outcome.ok_bind]
    refine Eq.trans ?_ hs
    congr 1
    funext m s
    congr 1
    funext n s
    simp only [bind_assoc, Outcome.ok_bind]
    rfl
  · intro i j a b
    rw [h1 i j a b]
    beta_reduce
    rw [comp]
    rfl
  · intro i j a b
    rw [h2 i j a b]
    beta_reduce
    rw [comp]
    rfl
  · intro i j a b
    rw [h3 i j a b]
    beta_reduce
    rw [comp]
    rfl

end Libgrpp
