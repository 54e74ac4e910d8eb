import Verif.Lemmas.OneElectron

/-! What the primitive routines of `overlap.c`, `kinetic.c`, `momentum.c` compute, for any family `f` satisfying the
Obara-Saika relations. -/

namespace Libgrpp

/-- `f` satisfies the relations used by `fillS` for the Gaussian pair `(a, A)`, `(b, B)`. -/
def PairRel (a b : ℝ) (A B : Point) (f : Fin 3 → Nat → Nat → ℝ) : Prop :=
  ∀ c, OSRel (f c) (Real.sqrt (Real.pi / (a + b)) *
      Real.exp (-(a * b / (a + b)) * (A c - B c) * (A c - B c)))
    ((a * A c + b * B c) / (a + b) - A c) ((a * A c + b * B c) / (a + b) - B c) (1 / (2 * (a + b)))

/-- The recursion always defines such a family. -/
theorem exists_pairRel (a b : ℝ) (A B : Point) : ∃ f, PairRel a b A B f :=
  ⟨fun c => osRec (Real.sqrt (Real.pi / (a + b)) *
      Real.exp (-(a * b / (a + b)) * (A c - B c) * (A c - B c)))
    ((a * A c + b * B c) / (a + b) - A c) ((a * A c + b * B c) / (a + b) - B c) (1 / (2 * (a + b))),
    fun _ => osRec_rel _ _ _ _⟩

theorem overlapPrim_spec (A B : Shell) (hA : A.Listed) (hB : B.Listed) (hLA : A.L < maxBasisL) (hLB : B.L < maxBasisL)
    (a b : ℝ) (f : Fin 3 → Nat → Nat → ℝ) (hf : PairRel a b A.origin B.origin f) (buf : List ℝ)
    (hlen : A.cart_size * B.cart_size ≤ buf.length) :
    ∃ buf', overlapPrim A B a b buf = .ok buf' ∧
      (MatIs A.cart_size B.cart_size buf' (fun m n =>
        gaussianNormFactor A.L 0 0 a * gaussianNormFactor B.L 0 0 b * f 0 (A.comp m).1 (B.comp n).1 *
          f 1 (A.comp m).2.1 (B.comp n).2.1 * f 2 (A.comp m).2.2 (B.comp n).2.2) ∧
        SameBeyond (A.cart_size * B.cart_size) buf' buf) := by
  unfold overlapPrim
  obtain ⟨S, hS, hS'⟩ := fillS_spec maxBasisL A.L B.L hLA hLB a b A.origin B.origin f hf
  simp only [hS, Outcome.ok_bind]
  apply storePairs_spec A B hA hB
  · intro m n hm hn
    obtain ⟨a1, a2, a3⟩ := A.comp_le hA hm
    obtain ⟨b1, b2, b3⟩ := B.comp_le hB hn
    rw [tget_ok (by omega) (by omega) (hS' 0 _ _ a1 b1), tget_ok (by omega) (by omega) (hS' 1 _ _ a2 b2),
      tget_ok (by omega) (by omega) (hS' 2 _ _ a3 b3)]
    rfl
  · exact hlen

theorem fillD2_spec (iMax jMax : Nat) (hi : iMax < maxBasisL) (hj : jMax < maxBasisL) (a : ℝ) (S : Table)
    (f : Fin 3 → Nat → Nat → ℝ) (hS : ∀ c i j, i ≤ iMax + 2 → j ≤ jMax + 2 → S c i j = some (f c i j)) :
    ∃ D, fillD2 iMax jMax a S = .ok D ∧ ∀ c i j, i ≤ iMax → j ≤ jMax → D c i j = some
      (4 * a * a * f c (i + 2) j - 2 * a * (2 * (i : ℝ) + 1) * f c i j + (i : ℝ) * ((i : ℝ) - 1) * f c (i - 2) j) := by
  unfold fillD2
  apply fill_table maxBasisL iMax jMax hi hj (fun c i j =>
    4 * a * a * f c (i + 2) j - 2 * a * (2 * (i : ℝ) + 1) * f c i j + (i : ℝ) * ((i : ℝ) - 1) * f c (i - 2) j)
  intro c i j D h1 h2 _
  rw [tget_ok (by omega) (by omega) (hS c (i + 2) j (by omega) (by omega)),
    tget_ok (by omega) (by omega) (hS c i j (by omega) (by omega))]
  simp only [Outcome.ok_bind]
  by_cases h : i ≥ 2
  · rw [if_pos h, tget_ok (by omega) (by omega) (hS c (i - 2) j (by omega) (by omega))]
    simp
  · rw [if_neg h]
    obtain rfl | rfl : i = 0 ∨ i = 1 := by omega
    · simp
    · simp

theorem kineticPrim_spec (A B : Shell) (hA : A.Listed) (hB : B.Listed) (hLA : A.L < maxBasisL) (hLB : B.L < maxBasisL)
    (a b : ℝ) (f : Fin 3 → Nat → Nat → ℝ) (hf : PairRel a b A.origin B.origin f) (buf : List ℝ)
    (hlen : A.cart_size * B.cart_size ≤ buf.length) (D : Fin 3 → Nat → Nat → ℝ)
    (hD : ∀ c i j, D c i j =
      4 * a * a * f c (i + 2) j - 2 * a * (2 * (i : ℝ) + 1) * f c i j + (i : ℝ) * ((i : ℝ) - 1) * f c (i - 2) j) :
    ∃ buf', kineticPrim A B a b buf = .ok buf' ∧
      (MatIs A.cart_size B.cart_size buf' (fun m n =>
        -0.5 * gaussianNormFactor A.L 0 0 a * gaussianNormFactor B.L 0 0 b *
          (D 0 (A.comp m).1 (B.comp n).1 * f 1 (A.comp m).2.1 (B.comp n).2.1 * f 2 (A.comp m).2.2 (B.comp n).2.2 +
            f 0 (A.comp m).1 (B.comp n).1 * D 1 (A.comp m).2.1 (B.comp n).2.1 * f 2 (A.comp m).2.2 (B.comp n).2.2 +
            f 0 (A.comp m).1 (B.comp n).1 * f 1 (A.comp m).2.1 (B.comp n).2.1 * D 2 (A.comp m).2.2 (B.comp n).2.2)) ∧
        SameBeyond (A.cart_size * B.cart_size) buf' buf) := by
  unfold kineticPrim
  obtain ⟨S, hS, hS'⟩ := fillS_spec (maxBasisL + 2) (A.L + 2) (B.L + 2) (by omega) (by omega) a b
    A.origin B.origin f hf
  obtain ⟨T, hT, hT'⟩ := fillD2_spec A.L B.L hLA hLB a S f hS'
  simp only [hS, hT, Outcome.ok_bind]
  apply storePairs_spec A B hA hB
  · intro m n hm hn
    obtain ⟨a1, a2, a3⟩ := A.comp_le hA hm
    obtain ⟨b1, b2, b3⟩ := B.comp_le hB hn
    rw [tget_ok (by omega) (by omega) (hT' 0 _ _ a1 b1), tget_ok (by omega) (by omega) (hT' 1 _ _ a2 b2),
      tget_ok (by omega) (by omega) (hT' 2 _ _ a3 b3),
      tget_ok (by omega) (by omega) (hS' 0 _ _ (by omega) (by omega)),
      tget_ok (by omega) (by omega) (hS' 1 _ _ (by omega) (by omega)),
      tget_ok (by omega) (by omega) (hS' 2 _ _ (by omega) (by omega))]
    simp only [Outcome.ok_bind, hD]
  · exact hlen

theorem fillD1_spec (iMax jMax : Nat) (hi : iMax < maxBasisL) (hj : jMax < maxBasisL) (a : ℝ) (S : Table)
    (f : Fin 3 → Nat → Nat → ℝ) (hS : ∀ c i j, i ≤ iMax + 1 → j ≤ jMax + 1 → S c i j = some (f c i j)) :
    ∃ D, fillD1 iMax jMax a S = .ok D ∧ ∀ c i j, i ≤ iMax → j ≤ jMax → D c i j = some
      (2 * a * f c (i + 1) j - (i : ℝ) * f c (i - 1) j) := by
  unfold fillD1
  apply fill_table maxBasisL iMax jMax hi hj (fun c i j => 2 * a * f c (i + 1) j - (i : ℝ) * f c (i - 1) j)
  intro c i j D h1 h2 _
  rw [tget_ok (by omega) (by omega) (hS c (i + 1) j (by omega) (by omega))]
  simp only [Outcome.ok_bind]
  by_cases h : i ≥ 1
  · rw [if_pos h, tget_ok (by omega) (by omega) (hS c (i - 1) j (by omega) (by omega))]
    simp
  · rw [if_neg h]
    obtain rfl : i = 0 := by omega
    simp

theorem momentumPrim_spec (k : Fin 3) (A B : Shell) (hA : A.Listed) (hB : B.Listed) (hLA : A.L < maxBasisL)
    (hLB : B.L < maxBasisL)
    (a b : ℝ) (f : Fin 3 → Nat → Nat → ℝ) (hf : PairRel a b A.origin B.origin f) (buf : List ℝ)
    (hlen : A.cart_size * B.cart_size ≤ buf.length) (D : Fin 3 → Nat → Nat → ℝ)
    (hD : ∀ c i j, D c i j = 2 * a * f c (i + 1) j - (i : ℝ) * f c (i - 1) j) :
    ∃ buf', momentumPrim k A B a b buf = .ok buf' ∧
      (MatIs A.cart_size B.cart_size buf' (fun m n =>
        -gaussianNormFactor A.L 0 0 a * gaussianNormFactor B.L 0 0 b *
          (if k = 0 then D 0 (A.comp m).1 (B.comp n).1 else f 0 (A.comp m).1 (B.comp n).1) *
          (if k = 1 then D 1 (A.comp m).2.1 (B.comp n).2.1 else f 1 (A.comp m).2.1 (B.comp n).2.1) *
          (if k = 2 then D 2 (A.comp m).2.2 (B.comp n).2.2 else f 2 (A.comp m).2.2 (B.comp n).2.2)) ∧
        SameBeyond (A.cart_size * B.cart_size) buf' buf) := by
  unfold momentumPrim
  obtain ⟨S, hS, hS'⟩ := fillS_spec (maxBasisL + 1) (A.L + 1) (B.L + 1) (by omega) (by omega) a b
    A.origin B.origin f hf
  obtain ⟨T, hT, hT'⟩ := fillD1_spec A.L B.L hLA hLB a S f hS'
  simp only [hS, hT, Outcome.ok_bind]
  apply storePairs_spec A B hA hB
  · intro m n hm hn
    obtain ⟨a1, a2, a3⟩ := A.comp_le hA hm
    obtain ⟨b1, b2, b3⟩ := B.comp_le hB hn
    unfold momentumVal
    rw [tget_ok (by omega) (by omega) (hT' 0 _ _ a1 b1), tget_ok (by omega) (by omega) (hT' 1 _ _ a2 b2),
      tget_ok (by omega) (by omega) (hT' 2 _ _ a3 b3),
      tget_ok (by omega) (by omega) (hS' 0 _ _ (by omega) (by omega)),
      tget_ok (by omega) (by omega) (hS' 1 _ _ (by omega) (by omega)),
      tget_ok (by omega) (by omega) (hS' 2 _ _ (by omega) (by omega))]
    split_ifs <;> simp only [Outcome.ok_bind, hD]
  · exact hlen

end Libgrpp
