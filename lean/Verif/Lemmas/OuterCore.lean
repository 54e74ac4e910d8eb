import Verif.Model.OuterCore
import Verif.Lemmas.LMatrix
import Verif.Lemmas.Angular
import Verif.Lemmas.RadialLocal
import Verif.Props.Factorial

/-! Helper lemmas for the outer-core integrals: what the loops over matrices compute. -/

namespace Libgrpp

/-- An array with space for an `M × N` matrix which holds `g`. -/
structure Arr (M N : ℕ) (buf : List ℝ) (g : ℕ → ℕ → ℝ) : Prop where
  len : M * N ≤ buf.length
  val : MatIs M N buf g

theorem Arr.congr {M N : ℕ} {buf : List ℝ} {g g' : ℕ → ℕ → ℝ} (h : Arr M N buf g) (e : ∀ i j, i < M → j < N → g i j = g' i j) :
    Arr M N buf g' := ⟨h.len, fun i j hi hj => by rw [h.val i j hi hj, e i j hi hj]⟩

theorem Arr.rd {M N : ℕ} {buf : List ℝ} {g : ℕ → ℕ → ℝ} (h : Arr M N buf g) {i j : ℕ} (hi : i < M) (hj : j < N) :
    Libgrpp.rd buf (i * N + j) = .ok (g i j) := rd_some (h.val i j hi hj)

theorem arr_zero (M N n : ℕ) (h : M * N ≤ n) : Arr M N (List.replicate n 0) fun _ _ => 0 := by
  refine ⟨by simpa using h, fun i j hi hj => ?_⟩
  have := rowMajor_lt hi hj
  rw [List.getElem?_replicate, if_pos (by omega)]

theorem mul_arr {M N K : ℕ} {A B C : List ℝ} {a b c : ℕ → ℕ → ℝ} (hA : Arr M K A a) (hB : Arr K N B b) (hC : Arr M N C c) :
    ∃ C', multiplyMatrices M N K A B C = .ok C' ∧ C'.length = C.length ∧
      Arr M N C' fun i j => c i j + ∑ k ∈ Finset.range K, a i k * b k j := by
  obtain ⟨C', h1, h2, h3, -⟩ := multiply_matrices_correct M N K A B C hA.len hB.len hC.len
  refine ⟨C', h1, h2, by rw [h2]; exact hC.len, fun i j hi hj => ?_⟩
  rw [h3 i j hi hj, hC.val i j hi hj, Option.getD_some]
  congr 2
  refine Finset.sum_congr rfl fun k hk => ?_
  have hk := Finset.mem_range.1 hk
  rw [hA.val i k hi hk, hB.val k j hk hj]
  rfl

theorem memset_arr (M N : ℕ) (buf : List ℝ) (h : M * N ≤ buf.length) :
    ∃ b, memset0 (M * N) buf = .ok b ∧ b.length = buf.length ∧ Arr M N b fun _ _ => 0 := by
  obtain ⟨b, h1, h2, h3⟩ := memset0_spec (M * N) buf h
  refine ⟨b, h1, h3.1, by rw [h3.1]; exact h, fun i j hi hj => h2 _ (rowMajor_lt hi hj)⟩

theorem daxpy_arr {M N : ℕ} (w : ℝ) {x y : List ℝ} {gx gy : ℕ → ℕ → ℝ} (hx : Arr M N x gx) (hy : Arr M N y gy) :
    ∃ y', daxpy (M * N) w x y = .ok y' ∧ Arr M N y' (fun i j => gy i j + w * gx i j) ∧ SameBeyond (M * N) y' y := by
  obtain ⟨y', h1, h2, h3⟩ := daxpy_matIs M N w x y gx gy hx.val hx.len hy.val hy.len
  exact ⟨y', h1, ⟨by rw [h3.1]; exact hy.len, h2⟩, h3⟩

/-- Storing column by column. -/
theorem store_matrix_cols (M N : ℕ) (val : ℕ → ℕ → Outcome ℝ) (g : ℕ → ℕ → ℝ) (buf : List ℝ)
    (hval : ∀ i j, i < M → j < N → val i j = .ok (g i j)) (hlen : M * N ≤ buf.length) :
    ∃ buf', (forRange N buf fun j buf => forRange M buf fun i buf => do
        let v ← val i j
        wr buf (i * N + j) v) = .ok buf' ∧ (MatIs M N buf' g ∧ buf'.length = buf.length) := by
  refine forRange_spec (fun k (s : List ℝ) => s.length = buf.length ∧ (∀ i j, j < k → i < M → j < N → s[i * N + j]? = some (g i j)))
    ⟨rfl, by intro i j h; omega⟩ ?_ ?_
  · rintro j s hj ⟨hl, hd⟩
    refine forRange_spec (fun k (t : List ℝ) => t.length = buf.length ∧
      (∀ i j', j' < j → i < M → j' < N → t[i * N + j']? = some (g i j')) ∧
      (∀ i, i < k → i < M → t[i * N + j]? = some (g i j))) ⟨hl, hd, by intro j h; omega⟩ ?_ ?_
    · rintro i t hi ⟨hl, hd, he⟩
      have hp : i * N + j < M * N := rowMajor_lt hi hj
      have h1 : i * N + j < t.length := by omega
      refine ⟨t.set (i * N + j) (g i j), ?_, by simp [hl], ?_, ?_⟩
      · rw [hval i j hi hj]
        simp only [Outcome.ok_bind, wr_ok _ h1]
      · intro i' j' h3 h4 h5
        rw [List.getElem?_set_ne]
        · exact hd i' j' h3 h4 h5
        · intro h
          have := (rowMajor_inj hj h5 h).2
          omega
      · intro i' h3 h4
        by_cases h5 : i' = i
        · subst h5; rw [List.getElem?_set_self h1]
        · rw [List.getElem?_set_ne]
          · exact he i' (by omega) h4
          · intro h
            exact h5 (rowMajor_inj hj hj h).1.symm
    · rintro t ⟨hl, hd, he⟩
      refine ⟨hl, fun i j' h1 h2 h3 => ?_⟩
      by_cases h4 : j' = j
      · subst h4; exact he i h2 h2
      · exact hd i j' (by omega) h2 h3
  · rintro s ⟨hl, hd⟩
    exact ⟨fun i j hi hj => hd i j hj hi hj, hl⟩

theorem transformKet_arr {nA n d : ℕ} {X S out : List ℝ} {x u : ℕ → ℕ → ℝ} (hX : Arr nA n X x) (hS : Arr d n S u) (ho : nA * d ≤ out.length) :
    ∃ R, transformKet nA n d X out S = .ok R ∧ Arr nA d R fun i j => ∑ k ∈ Finset.range n, u j k * x i k := by
  obtain ⟨R, h1, h2, h3⟩ := store_matrix nA d (fun i j => forRange n (0 : ℝ) fun icart s => do
      let u ← rd S (n * j + icart)
      let a ← rd X (i * n + icart)
      .ok (s + u * a)) (fun i j => ∑ k ∈ Finset.range n, u j k * x i k) out (by
    intro i j hi hj
    rw [forRange_sum (fun k => u j k * x i k)]
    · rw [zero_add]
    · intro k hk s
      rw [mul_comm n j, hS.rd hj hk, hX.rd hi hk]
      rfl) ho
  exact ⟨R, h1, by rw [h3.1]; exact ho, h2⟩

theorem transformBra_arr {n d nB : ℕ} {X S out : List ℝ} {x u : ℕ → ℕ → ℝ} (hX : Arr n nB X x) (hS : Arr d n S u) (ho : d * nB ≤ out.length) :
    ∃ R, transformBra n d nB X out S = .ok R ∧ Arr d nB R fun i j => ∑ k ∈ Finset.range n, u i k * x k j := by
  obtain ⟨R, h1, h2, h3⟩ := store_matrix_cols d nB (fun i j => forRange n (0 : ℝ) fun icart s => do
      let u ← rd S (n * i + icart)
      let a ← rd X (icart * nB + j)
      .ok (s + u * a)) (fun i j => ∑ k ∈ Finset.range n, u i k * x k j) out (by
    intro i j hi hj
    rw [forRange_sum (fun k => u i k * x k j)]
    · rw [zero_add]
    · intro k hk s
      rw [mul_comm n i, hS.rd hi hk, hX.rd hk hj]
      rfl) ho
  exact ⟨R, h1, by rw [h3]; exact ho, h2⟩

/-- The angular normalisation. -/
noncomputable def angNorm (L : ℕ) : ℝ := 1 / (2 * Real.sqrt Real.pi) * Real.sqrt ((Nat.doubleFactorial (2 * L + 1) : ℕ) : ℝ)

/-- The coefficients of the transformation. -/
noncomputable def slm (L : ℕ) (s : Shell) (mi ic : ℕ) : ℝ := sphVal L ((mi : ℤ) - L) (s.comp ic).1 (s.comp ic).2.1 / angNorm L

theorem angNormFactor_eq (a b c : ℕ) (h : a + b + c ≤ 14) : angNormFactor a b c = .ok (angNorm (a + b + c)) := by
  unfold angNormFactor
  simp only []
  have e := double_factorial_correct (2 * (a + b + c) + 1) (by omega)
  push_cast at e
  push_cast
  rw [e]
  rfl

theorem slmCoef_arr (L : ℕ) (hL : L ≤ 14) (s : Shell) (hs : s.Listed) (hd : ∀ c ∈ s.cartList, c.1 + c.2.1 + c.2.2 = L) :
    ∃ S, slmCoef L s = .ok S ∧ Arr (2 * L + 1) s.cart_size S (slm L s) := by
  obtain ⟨S, h1, h2, h3⟩ := store_matrix (2 * L + 1) s.cart_size (fun mi icart => do
      let c ← rd s.cartList icart
      let u ← sphCoef L ((mi : Int) - L) c.1 c.2.1 c.2.2
      let f ← angNormFactor c.1 c.2.1 c.2.2
      .ok (u / f)) (slm L s) (List.replicate ((2 * L + 1) * s.cart_size) 0) (by
    intro mi ic hm hi
    have hc : s.comp ic ∈ s.cartList := by
      have h : ic < s.cartList.length := hs.1 ▸ hi
      simp [Shell.comp, List.getD, List.getElem?_eq_getElem h]
    have hdeg := hd _ hc
    rw [s.rd_comp hs hi, Outcome.ok_bind, sphCoef_eq L _ _ _ _ (by omega) (by omega) (by omega), Outcome.ok_bind,
      angNormFactor_eq _ _ _ (by omega), Outcome.ok_bind, hdeg]
    rfl) (by simp)
  refine ⟨S, ?_, by rw [h3.1, List.length_replicate], h2⟩
  rw [← h1]
  unfold slmCoef
  simp only [bind_assoc, Outcome.ok_bind, mul_comm s.cart_size]

/-- The elements of the three matrices of angular momentum. -/
noncomputable def lEntry (L : ℕ) (c : Fin 3) (i j : ℕ) : ℝ :=
  match c with
  | 0 => (rEl (cX L) (mOf L i) (mOf L j)).im
  | 1 => -(rEl (cY L) (mOf L i) (mOf L j)).re
  | 2 => (rEl (cZ L) (mOf L i) (mOf L j)).im

theorem ocL_arr (L : ℕ) : ∃ M, ocL L = .ok M ∧ ∀ c, Arr (2 * L + 1) (2 * L + 1) (M c) (lEntry L c) := by
  obtain ⟨M', h1, ⟨h2, h3, h4⟩, h5, h6, h7⟩ := lmatRsh_spec L ⟨List.replicate ((2 * L + 1) * (2 * L + 1)) 0,
    List.replicate ((2 * L + 1) * (2 * L + 1)) 0, List.replicate ((2 * L + 1) * (2 * L + 1)) 0⟩ (by simp) (by simp) (by simp)
  refine ⟨![M'.x, M'.y, M'.z], by unfold ocL; simp only [h1, Outcome.ok_bind], fun c => ?_⟩
  have e : ∀ {b : List ℝ}, SameBeyond ((2 * L + 1) * (2 * L + 1)) b (List.replicate ((2 * L + 1) * (2 * L + 1)) 0) →
      (2 * L + 1) * (2 * L + 1) ≤ b.length := fun h => by rw [h.1, List.length_replicate]
  match c with
  | 0 => exact ⟨e h5, h2⟩
  | 1 => exact ⟨e h6, h3⟩
  | 2 => exact ⟨e h7, h4⟩

theorem ocAdd_arr {nA nB : ℕ} (wA wS : ℝ) {arep : List ℝ} {so : Fin 3 → List ℝ} {out : Fin 4 → List ℝ} {ga : ℕ → ℕ → ℝ}
    {gs : Fin 3 → ℕ → ℕ → ℝ} {o : Fin 4 → ℕ → ℕ → ℝ} (ha : Arr nA nB arep ga) (hs : ∀ c, Arr nA nB (so c) (gs c))
    (ho : ∀ q, Arr nA nB (out q) (o q)) :
    ∃ out', ocAdd (nA * nB) wA wS arep so out = .ok out' ∧ (Arr nA nB (out' 0) (fun i j => o 0 i j + wA * ga i j) ∧
      ∀ c : Fin 3, Arr nA nB (out' c.succ) (fun i j => o c.succ i j + wS * gs c i j)) ∧ ∀ q, SameBeyond (nA * nB) (out' q) (out q) := by
  obtain ⟨y0, h0, a0, b0⟩ := daxpy_arr wA ha (ho 0)
  obtain ⟨y1, h1, a1, b1⟩ := daxpy_arr wS (hs 0) (ho 1)
  obtain ⟨y2, h2, a2, b2⟩ := daxpy_arr wS (hs 1) (ho 2)
  obtain ⟨y3, h3, a3, b3⟩ := daxpy_arr wS (hs 2) (ho 3)
  refine ⟨![y0, y1, y2, y3], by unfold ocAdd; simp only [h0, h1, h2, h3, Outcome.ok_bind], ⟨a0, fun c => ?_⟩, fun q => ?_⟩
  · fin_cases c
    · exact a1
    · exact a2
    · exact a3
  · fin_cases q
    · exact b0
    · exact b1
    · exact b2
    · exact b3

/-- The loop over the three coordinates with a work buffer, when the body stores the matrix of its coordinate. -/
theorem forCoord_buf {nb nA nB : ℕ} {b : List ℝ} {so : Fin 3 → List ℝ} {body : Fin 3 → List ℝ × (Fin 3 → List ℝ) → Outcome (List ℝ × (Fin 3 → List ℝ))}
    {gs : Fin 3 → ℕ → ℕ → ℝ} (hb : nb ≤ b.length) (hz : ∀ c, Arr nA nB (so c) fun _ _ => 0)
    (hbody : ∀ c (st : List ℝ × (Fin 3 → List ℝ)), nb ≤ st.1.length → Arr nA nB (st.2 c) (fun _ _ => 0) →
      ∃ b' l, body c st = .ok (b', Function.update st.2 c l) ∧ nb ≤ b'.length ∧ Arr nA nB l (gs c)) :
    ∃ st, forCoord (b, so) body = .ok st ∧ ∀ c, Arr nA nB (st.2 c) (gs c) := by
  refine forCoord_spec (fun k st => nb ≤ st.1.length ∧ ∀ c : Fin 3, (c.val < k → Arr nA nB (st.2 c) (gs c)) ∧
    (k ≤ c.val → Arr nA nB (st.2 c) fun _ _ => 0)) ⟨hb, fun c => ⟨fun h => by omega, fun _ => hz c⟩⟩ ?_ ?_
  · rintro c st ⟨h1, h2⟩
    obtain ⟨b', l, e1, e2, e3⟩ := hbody c st h1 ((h2 c).2 le_rfl)
    refine ⟨_, e1, e2, fun c' => ⟨fun h => ?_, fun h => ?_⟩⟩
    · by_cases hc : c' = c
      · subst hc
        simpa using e3
      · have : c'.val ≠ c.val := fun h => hc (Fin.ext h)
        simpa [hc] using (h2 c').1 (by omega)
    · have hc : c' ≠ c := by rintro rfl; omega
      simpa [hc] using (h2 c').2 (by omega)
  · rintro st ⟨-, h2⟩ c
    exact (h2 c).1 c.2

end Libgrpp
