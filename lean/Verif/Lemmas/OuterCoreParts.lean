import Verif.Lemmas.OuterCore
import Verif.Model.SpecOuterCore

/-! Helper lemmas for the outer-core integrals: the two parts in terms of the Cartesian matrices. -/

namespace Libgrpp

theorem sandwich_one (d : ℕ) (a b : ℕ → ℝ) : sandwich d (fun i j => if i = j then 1 else 0) a b = ∑ k ∈ Finset.range d, a k * b k := by
  unfold sandwich
  refine Finset.sum_congr rfl fun k hk => ?_
  rw [Finset.sum_eq_single k]
  · simp
  · intro l _ hl
    simp [Ne.symm hl]
  · intro h
    exact absurd hk h

theorem sandwich_right (d : ℕ) (W : ℕ → ℕ → ℝ) (a b : ℕ → ℝ) :
    ∑ k ∈ Finset.range d, a k * ∑ l ∈ Finset.range d, W k l * b l = sandwich d W a b := by
  unfold sandwich
  refine Finset.sum_congr rfl fun k _ => ?_
  rw [Finset.mul_sum]
  exact Finset.sum_congr rfl fun l _ => by ring

theorem sandwich_left (d : ℕ) (W : ℕ → ℕ → ℝ) (a b : ℕ → ℝ) :
    ∑ k ∈ Finset.range d, (∑ l ∈ Finset.range d, a l * W l k) * b k = sandwich d W a b := by
  unfold sandwich
  rw [Finset.sum_comm]
  refine Finset.sum_congr rfl fun k _ => ?_
  rw [Finset.sum_mul]
  exact Finset.sum_congr rfl fun l _ => by ring

/-- The matrix between the spherical components for each of the four outputs. -/
noncomputable def ocW (L : ℕ) (q : Fin 4) (i j : ℕ) : ℝ := Fin.cases (if i = j then 1 else 0) (fun c => lEntry L c i j) q

/-- The factor for each of the four outputs. -/
noncomputable def ocFactor (L : ℕ) (J2 : ℤ) (q : Fin 4) : ℝ := Fin.cases (arepFactor L J2) (fun _ => esopFactor L J2) q

/-- What a Cartesian routine gives: a matrix in an array. -/
def Gives (r : Outcome (List ℝ)) (M N : ℕ) (g : ℕ → ℕ → ℝ) : Prop := ∃ R, r = .ok R ∧ Arr M N R g

/-- Spherical components of a matrix whose columns are Cartesian components. -/
noncomputable def sphComp (n : ℕ) (u : ℕ → ℕ → ℝ) (x : ℕ → ℝ) (mi : ℕ) : ℝ := ∑ k ∈ Finset.range n, u mi k * x k

theorem ocPart1Seen_spec (sf : SpecFun) (init : Bool) (A B : Shell) (C : Point) (pot : Potential) (s : Shell) (hL : s.L ≤ 14) (hs : s.Listed)
    (hd : ∀ c ∈ s.cartList, c.1 + c.2.1 + c.2.2 = s.L) {sa sb ua ub : ℕ → ℕ → ℝ}
    (hSB : Gives (overlapIntegrals s B (List.replicate (s.cart_size * B.cart_size) 0)) s.cart_size B.cart_size sb)
    (hSA : Gives (overlapIntegrals A s (List.replicate (A.cart_size * s.cart_size) 0)) A.cart_size s.cart_size sa)
    (hUB : Gives (type1Integrals sf init s B C (some pot) (List.replicate (s.cart_size * B.cart_size) 0)) s.cart_size B.cart_size ub)
    (hUA : Gives (type1Integrals sf init A s C (some pot) (List.replicate (A.cart_size * s.cart_size) 0)) A.cart_size s.cart_size ua)
    {out : Fin 4 → List ℝ} {o : Fin 4 → ℕ → ℕ → ℝ} (ho : ∀ q, Arr A.cart_size B.cart_size (out q) (o q)) :
    ∃ out', ocPart1Seen sf init A B C pot s out = .ok out' ∧ ∀ q, SameBeyond (A.cart_size * B.cart_size) (out' q) (out q) ∧
      Arr A.cart_size B.cart_size (out' q) fun i j => o q i j + ocFactor s.L pot.J q *
        (sandwich (2 * s.L + 1) (ocW s.L q) (sphComp s.cart_size (slm s.L s) (ua i)) (sphComp s.cart_size (slm s.L s) fun k => sb k j) +
         sandwich (2 * s.L + 1) (ocW s.L q) (sphComp s.cart_size (slm s.L s) (sa i)) (sphComp s.cart_size (slm s.L s) fun k => ub k j)) := by
  obtain ⟨S, hS, aS⟩ := slmCoef_arr s.L hL s hs hd
  obtain ⟨SBc, h1, a1⟩ := hSB
  obtain ⟨SAc, h2, a2⟩ := hSA
  obtain ⟨UBc, h3, a3⟩ := hUB
  obtain ⟨UAc, h4, a4⟩ := hUA
  have aS : Arr (2 * s.L + 1) s.cart_size S (slm s.L s) := aS
  obtain ⟨SA, h5, a5⟩ := transformKet_arr (out := List.replicate (A.cart_size * (2 * s.L + 1)) 0) a2 aS (by simp)
  obtain ⟨SB, h6, a6⟩ := transformBra_arr (out := List.replicate ((2 * s.L + 1) * B.cart_size) 0) a1 aS (by simp)
  obtain ⟨UA, h7, a7⟩ := transformKet_arr (out := List.replicate (A.cart_size * (2 * s.L + 1)) 0) a4 aS (by simp)
  obtain ⟨UB, h8, a8⟩ := transformBra_arr (out := List.replicate ((2 * s.L + 1) * B.cart_size) 0) a3 aS (by simp)
  obtain ⟨b1, h9, -, a9⟩ := mul_arr a5 a8 (arr_zero A.cart_size B.cart_size (A.cart_size * B.cart_size) le_rfl)
  obtain ⟨b2, h10, -, a10⟩ := mul_arr a7 a6 a9
  obtain ⟨M, h11, a11⟩ := ocL_arr s.L
  obtain ⟨so, h12, a12⟩ := forCoord_buf (nb := (2 * s.L + 1) * max A.cart_size B.cart_size) (b := List.replicate ((2 * s.L + 1) * max A.cart_size B.cart_size) (0 : ℝ))
    (so := fun _ => List.replicate (A.cart_size * B.cart_size) (0 : ℝ)) (nA := A.cart_size) (nB := B.cart_size) (body := fun c st => do
      let b ← memset0 ((2 * s.L + 1) * B.cart_size) st.1
      let b ← multiplyMatrices (2 * s.L + 1) B.cart_size (2 * s.L + 1) (M c) SB b
      let so ← multiplyMatrices A.cart_size B.cart_size (2 * s.L + 1) UA b (st.2 c)
      let b ← memset0 ((2 * s.L + 1) * A.cart_size) b
      let b ← multiplyMatrices A.cart_size (2 * s.L + 1) (2 * s.L + 1) SA (M c) b
      let so ← multiplyMatrices A.cart_size B.cart_size (2 * s.L + 1) b UB so
      .ok (b, Function.update st.2 c so))
    (gs := fun c i j => sandwich (2 * s.L + 1) (lEntry s.L c) (sphComp s.cart_size (slm s.L s) (ua i)) (sphComp s.cart_size (slm s.L s) fun k => sb k j) +
         sandwich (2 * s.L + 1) (lEntry s.L c) (sphComp s.cart_size (slm s.L s) (sa i)) (sphComp s.cart_size (slm s.L s) fun k => ub k j))
    (by simp) (fun _ => arr_zero A.cart_size B.cart_size _ le_rfl) (by
      intro c st hb hz
      have w1 : (2 * s.L + 1) * B.cart_size ≤ (2 * s.L + 1) * max A.cart_size B.cart_size := Nat.mul_le_mul le_rfl (le_max_right _ _)
      have w2 : (2 * s.L + 1) * A.cart_size ≤ (2 * s.L + 1) * max A.cart_size B.cart_size := Nat.mul_le_mul le_rfl (le_max_left _ _)
      obtain ⟨c1, e1, l1, t1⟩ := memset_arr (2 * s.L + 1) B.cart_size st.1 (by omega)
      obtain ⟨c2, e2, l2, t2⟩ := mul_arr (a11 c) a6 t1
      obtain ⟨c3, e3, l3, t3⟩ := mul_arr a7 t2 hz
      obtain ⟨c4, e4, l4, t4⟩ := memset_arr A.cart_size (2 * s.L + 1) c2 (by rw [mul_comm]; omega)
      rw [mul_comm A.cart_size (2 * s.L + 1)] at e4
      obtain ⟨c5, e5, l5, t5⟩ := mul_arr a5 (a11 c) t4
      obtain ⟨c6, e6, l6, t6⟩ := mul_arr t5 a8 t3
      refine ⟨c5, c6, by simp only [e1, e2, e3, e4, e5, e6, Outcome.ok_bind], by omega, t6.congr fun i j hi hj => ?_⟩
      simp only [zero_add]
      congr 1
      · exact sandwich_right _ _ _ _
      · exact sandwich_left _ _ _ _)
  obtain ⟨out', h13, ⟨a13, a14⟩, s1⟩ := ocAdd_arr (arepFactor s.L pot.J) (esopFactor s.L pot.J) a10 a12 ho
  refine ⟨out', ?_, fun q => ⟨s1 q, ?_⟩⟩
  · unfold ocPart1Seen
    simp only [hS, h1, h2, h3, h4, Outcome.ok_bind]
    rw [h5, Outcome.ok_bind, h6, Outcome.ok_bind, h7, Outcome.ok_bind, h8, Outcome.ok_bind, h9, Outcome.ok_bind, h10, Outcome.ok_bind, h11,
      Outcome.ok_bind, h12, Outcome.ok_bind]
    exact h13
  · refine Fin.cases ?_ (fun c => ?_) q
    · refine a13.congr fun i j hi hj => ?_
      simp only [zero_add]
      show _ = o 0 i j + arepFactor s.L pot.J * _
      congr 2
      show _ = sandwich (2 * s.L + 1) (fun i j => if i = j then 1 else 0) _ _ + sandwich (2 * s.L + 1) (fun i j => if i = j then 1 else 0) _ _
      rw [sandwich_one, sandwich_one, add_comm]
      rfl
    · exact a14 c

theorem ocPart1_spec (sf : SpecFun) (init : Bool) (A B : Shell) (C : Point) (pot : Potential) (s : Shell) (hL : s.L ≤ 14) (hs : s.Listed)
    (hd : ∀ c ∈ s.cartList, c.1 + c.2.1 + c.2.2 = s.L) {sa sb ua ub : ℕ → ℕ → ℝ}
    (hSB : Gives (overlapIntegrals (bindOrigin C s) B (List.replicate (s.cart_size * B.cart_size) 0)) s.cart_size B.cart_size sb)
    (hSA : Gives (overlapIntegrals A (bindOrigin C s) (List.replicate (A.cart_size * s.cart_size) 0)) A.cart_size s.cart_size sa)
    (hUB : Gives (type1Integrals sf init (bindOrigin C s) B C (some pot) (List.replicate (s.cart_size * B.cart_size) 0)) s.cart_size B.cart_size ub)
    (hUA : Gives (type1Integrals sf init A (bindOrigin C s) C (some pot) (List.replicate (A.cart_size * s.cart_size) 0)) A.cart_size s.cart_size ua)
    {out : Fin 4 → List ℝ} {o : Fin 4 → ℕ → ℕ → ℝ} (ho : ∀ q, Arr A.cart_size B.cart_size (out q) (o q)) :
    ∃ out', ocPart1 sf init A B C pot s out = .ok out' ∧ ∀ q, SameBeyond (A.cart_size * B.cart_size) (out' q) (out q) ∧
      Arr A.cart_size B.cart_size (out' q) fun i j => o q i j + ocFactor s.L pot.J q *
        (sandwich (2 * s.L + 1) (ocW s.L q) (sphComp s.cart_size (slm s.L s) (ua i)) (sphComp s.cart_size (slm s.L s) fun k => sb k j) +
         sandwich (2 * s.L + 1) (ocW s.L q) (sphComp s.cart_size (slm s.L s) (sa i)) (sphComp s.cart_size (slm s.L s) fun k => ub k j)) :=
  ocPart1Seen_spec sf init A B C pot (bindOrigin C s) hL hs hd hSB hSA hUB hUA ho

theorem ocPart2_spec (A B : Shell) (C : Point) (p1 : Potential) (s1 : Shell) (p2 : Potential) (s2 : Shell) (eL : p1.L = p2.L) (eJ : p1.J = p2.J)
    (hL1 : p1.L = s1.L) (hL : s1.L ≤ 14) (hs : s1.Listed) (hd : ∀ c ∈ s1.cartList, c.1 + c.2.1 + c.2.2 = s1.L) (hsize : s2.cart_size = s1.cart_size)
    (hlist : s2.cartList = s1.cartList) {sa sb : ℕ → ℕ → ℝ} {delta : ℝ}
    (hdelta : deltaIntegral p1 (bindOrigin C s1) p2 (bindOrigin C s2) = .ok delta)
    (hSB : Gives (overlapIntegrals (bindOrigin C s2) B (List.replicate (s2.cart_size * B.cart_size) 0)) s2.cart_size B.cart_size sb)
    (hSA : Gives (overlapIntegrals A (bindOrigin C s1) (List.replicate (A.cart_size * s1.cart_size) 0)) A.cart_size s1.cart_size sa)
    {out : Fin 4 → List ℝ} {o : Fin 4 → ℕ → ℕ → ℝ} (ho : ∀ q, Arr A.cart_size B.cart_size (out q) (o q)) :
    ∃ out', ocPart2 A B C p1 s1 p2 s2 out = .ok out' ∧ ∀ q, SameBeyond (A.cart_size * B.cart_size) (out' q) (out q) ∧
      Arr A.cart_size B.cart_size (out' q) fun i j => o q i j + -1 * delta * ocFactor s1.L p1.J q *
        sandwich (2 * s1.L + 1) (ocW s1.L q) (sphComp s1.cart_size (slm s1.L s1) (sa i)) (sphComp s2.cart_size (slm s1.L s2) fun k => sb k j) := by
  obtain ⟨S, hS, aS⟩ := slmCoef_arr s1.L hL (bindOrigin C s1) hs hd
  obtain ⟨SBc, h1, a1⟩ := hSB
  obtain ⟨SAc, h2, a2⟩ := hSA
  have aS : Arr (2 * s1.L + 1) s1.cart_size S (slm s1.L s1) := aS
  have eS : slm s1.L s2 = slm s1.L s1 := by
    funext mi ic
    unfold slm Shell.comp
    rw [hlist]
  rw [hsize] at h1 a1
  rw [eS, hsize]
  obtain ⟨SA, h5, a5⟩ := transformKet_arr (out := List.replicate (A.cart_size * (2 * s1.L + 1)) 0) a2 aS (by simp)
  obtain ⟨SB, h6, a6⟩ := transformBra_arr (out := List.replicate ((2 * s1.L + 1) * B.cart_size) 0) a1 aS (by simp)
  obtain ⟨b1, h9, -, a9⟩ := mul_arr a5 a6 (arr_zero A.cart_size B.cart_size (A.cart_size * B.cart_size) le_rfl)
  obtain ⟨M, h11, a11⟩ := ocL_arr s1.L
  obtain ⟨so, h12, a12⟩ := forCoord_buf (nb := (2 * s1.L + 1) * B.cart_size) (b := List.replicate ((2 * s1.L + 1) * B.cart_size) (0 : ℝ))
    (so := fun _ => List.replicate (A.cart_size * B.cart_size) (0 : ℝ)) (nA := A.cart_size) (nB := B.cart_size) (body := fun c st => do
        let b ← memset0 ((2 * s1.L + 1) * B.cart_size) st.1
        let b ← multiplyMatrices (2 * s1.L + 1) B.cart_size (2 * s1.L + 1) (M c) SB b
        let so ← multiplyMatrices A.cart_size B.cart_size (2 * s1.L + 1) SA b (st.2 c)
        .ok (b, Function.update st.2 c so))
    (gs := fun c i j => sandwich (2 * s1.L + 1) (lEntry s1.L c) (sphComp s1.cart_size (slm s1.L s1) (sa i)) (sphComp s1.cart_size (slm s1.L s1) fun k => sb k j))
    (by simp) (fun _ => arr_zero A.cart_size B.cart_size _ le_rfl) (by
      intro c st hb hz
      obtain ⟨c1, e1, l1, t1⟩ := memset_arr (2 * s1.L + 1) B.cart_size st.1 (by omega)
      obtain ⟨c2, e2, l2, t2⟩ := mul_arr (a11 c) a6 t1
      obtain ⟨c3, e3, l3, t3⟩ := mul_arr a5 t2 hz
      refine ⟨c2, c3, by simp only [e1, e2, e3, Outcome.ok_bind], by omega, t3.congr fun i j hi hj => ?_⟩
      simp only [zero_add]
      exact sandwich_right _ _ _ _)
  obtain ⟨out', h13, ⟨a13, a14⟩, s1'⟩ := ocAdd_arr (-1 * delta * arepFactor s1.L p1.J) (-1 * delta * esopFactor s1.L p1.J) a9 a12 ho
  refine ⟨out', ?_, fun q => ⟨s1' q, ?_⟩⟩
  · unfold ocPart2
    have e0 : p1.L.toNat = s1.L := by rw [hL1]; simp
    rw [if_neg (by simpa using eL), if_neg (by simpa using eJ)]
    simp only []
    rw [hdelta, Outcome.ok_bind, Outcome.valid_pos (by rw [hL1]; exact Int.natCast_nonneg _), Outcome.ok_bind]
    simp only [e0]
    rw [hS, Outcome.ok_bind]
    simp only [show (bindOrigin C s1).cart_size = s1.cart_size from rfl]
    rw [h1, Outcome.ok_bind, h2, Outcome.ok_bind, h5, Outcome.ok_bind, h6, Outcome.ok_bind, h9, Outcome.ok_bind, h11,
      Outcome.ok_bind, h12, Outcome.ok_bind]
    exact h13
  · refine Fin.cases ?_ (fun c => ?_) q
    · refine a13.congr fun i j hi hj => ?_
      simp only [zero_add]
      show _ = o 0 i j + -1 * delta * arepFactor s1.L p1.J * _
      congr 2
      show _ = sandwich (2 * s1.L + 1) (fun i j => if i = j then 1 else 0) _ _
      rw [sandwich_one]
      rfl
    · exact a14 c

end Libgrpp
