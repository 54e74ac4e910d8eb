import Verif.Model.OneElectron
import Verif.Lemmas.Shell
import Verif.Props.Utils

/-! Helper lemmas for the one-electron integrals: what the table-filling, storing and contracting loops compute. -/

namespace Libgrpp

theorem tget_ok {d : Nat} {S : Table} {c : Fin 3} {i j : Nat} {v : ℝ} (hi : i < d) (hj : j < d)
    (h : S c i j = some v) : tget d S c i j = .ok v := by
  simp [tget, hi, hj, h]

theorem tset_ok {d : Nat} (S : Table) (c : Fin 3) {i j : Nat} (v : ℝ) (hi : i < d) (hj : j < d) :
    tset d S c i j v = .ok fun c' i' j' => if c' = c ∧ i' = i ∧ j' = j then some v else S c' i' j' := by
  simp [tset, hi, hj]

theorem tset_ub {d : Nat} (S : Table) (c : Fin 3) {i j : Nat} (v : ℝ) (h : ¬ (i < d ∧ j < d)) :
    tset d S c i j v = .ub := if_neg h

/-- Loop rule for the loop over the three coordinates. -/
theorem forCoord_spec {σ : Type _} {s : σ} {body : Fin 3 → σ → Outcome σ} {Q : σ → Prop}
    (I : Nat → σ → Prop) (h0 : I 0 s)
    (hstep : ∀ (c : Fin 3) s, I c.val s → ∃ s', body c s = .ok s' ∧ I (c.val + 1) s') (hpost : ∀ s, I 3 s → Q s) :
    ∃ s', forCoord s body = .ok s' ∧ Q s' := by
  obtain ⟨s1, h1, i1⟩ := hstep 0 s h0
  obtain ⟨s2, h2, i2⟩ := hstep 1 s1 i1
  obtain ⟨s3, h3, i3⟩ := hstep 2 s2 i2
  refine ⟨s3, ?_, hpost s3 i3⟩
  unfold forCoord
  rw [h1]; simp only [Outcome.ok_bind]
  rw [h2]; simp only [Outcome.ok_bind]
  exact h3

theorem forCoord_ub0 {σ : Type _} {s : σ} {body : Fin 3 → σ → Outcome σ} (h : body 0 s = .ub) :
    forCoord s body = .ub := by
  unfold forCoord; rw [h]; rfl

/-- A table is filled with `f` for all coordinates below `c`, and for coordinate `c` in the lexicographic range. -/
def FilledTo (S : Table) (f : Fin 3 → Nat → Nat → ℝ) (iMax jMax : Nat) (c i j : Nat) : Prop :=
  ∀ (c' : Fin 3) (i' j' : Nat), i' ≤ iMax → j' ≤ jMax →
    (c'.val < c ∨ (c'.val = c ∧ (i' < i ∨ (i' = i ∧ j' < j)))) → S c' i' j' = some (f c' i' j')

/-- A triple loop storing one element `f c i j` per iteration, where iteration `(c,i,j)` may rely on all earlier
elements, fills the table with `f`. -/
theorem fill_table (d iMax jMax : Nat) (hi : iMax < d) (hj : jMax < d) (f : Fin 3 → Nat → Nat → ℝ)
    (body : Fin 3 → Nat → Nat → Table → Outcome Table)
    (hbody : ∀ c i j S, i ≤ iMax → j ≤ jMax → FilledTo S f iMax jMax c.val i j →
      body c i j S = tset d S c i j (f c i j)) :
    ∃ S, (forCoord Table.uninit fun c S => forRange (iMax + 1) S fun i S => forRange (jMax + 1) S fun j S =>
      body c i j S) = .ok S ∧ ∀ c i j, i ≤ iMax → j ≤ jMax → S c i j = some (f c i j) := by
  refine forCoord_spec (fun c S => FilledTo S f iMax jMax c 0 0) ?_ ?_ ?_
  · intro c' i' j' _ _ h; omega
  · intro c S hS
    refine forRange_spec (fun i S => FilledTo S f iMax jMax c.val i 0) hS ?_ ?_
    · intro i S hi' hS
      refine forRange_spec (fun j S => FilledTo S f iMax jMax c.val i j) hS ?_ ?_
      · intro j S hj' hS
        rw [hbody c i j S (by omega) (by omega) hS, tset_ok S c _ (by omega) (by omega)]
        refine ⟨_, rfl, ?_⟩
        intro c' i' j' h1 h2 h3
        by_cases h : c' = c ∧ i' = i ∧ j' = j
        · obtain ⟨rfl, rfl, rfl⟩ := h
          simp
        · beta_reduce
          rw [if_neg h]
          apply hS c' i' j' h1 h2
          rcases h3 with h3 | ⟨h3, h4⟩
          · exact Or.inl h3
          · refine Or.inr ⟨h3, ?_⟩
            have hc : c' = c := Fin.ext h3
            rcases h4 with h4 | ⟨h4, h5⟩
            · exact Or.inl h4
            · refine Or.inr ⟨h4, ?_⟩
              rcases Nat.lt_succ_iff_lt_or_eq.mp h5 with h6 | h6
              · exact h6
              · exact absurd ⟨hc, h4, h6⟩ h
      · intro S hS c' i' j' h1 h2 h3
        apply hS c' i' j' h1 h2
        omega
    · intro S hS c' i' j' h1 h2 h3
      apply hS c' i' j' h1 h2
      omega
  · intro S hS c i j h1 h2
    exact hS c i j h1 h2 (Or.inl c.isLt)

/-- The Obara-Saika relations for one coordinate. -/
structure OSRel (f : Nat → Nat → ℝ) (s00 xpa xpb pfac : ℝ) : Prop where
  zero : f 0 0 = s00
  right : ∀ j : ℕ, f 0 (j + 1) = xpb * f 0 j + (j : ℝ) * pfac * f 0 (j - 1)
  left : ∀ i j : ℕ, f (i + 1) j = xpa * f i j + (i : ℝ) * pfac * f (i - 1) j + (j : ℝ) * pfac * f i (j - 1)

theorem osStep_eq (d iMax jMax : Nat) (a b : ℝ) (A B : Point) (f : Fin 3 → Nat → Nat → ℝ) (c : Fin 3)
    (hf : OSRel (f c) (Real.sqrt (Real.pi / (a + b)) *
        Real.exp (-(a * b / (a + b)) * (A c - B c) * (A c - B c)))
      ((a * A c + b * B c) / (a + b) - A c) ((a * A c + b * B c) / (a + b) - B c) (1 / (2 * (a + b))))
    (i j : Nat) (S : Table) (h1 : i ≤ iMax) (h2 : j ≤ jMax) (hd : (i ≤ d ∧ j < d) ∨ (i = 0 ∧ j ≤ d))
    (hS : FilledTo S f iMax jMax c.val i j) :
    osStep d c (a + b) (a * b / (a + b)) (A c - B c) ((a * A c + b * B c) / (a + b) - A c)
      ((a * A c + b * B c) / (a + b) - B c) (1 / (2 * (a + b))) i j S = tset d S c i j (f c i j) := by
  obtain ⟨r0, r1, r2⟩ := hf
  unfold osStep
  rcases Nat.eq_zero_or_pos i with rfl | hipos
  · rcases Nat.eq_zero_or_pos j with rfl | hjpos
    · rw [if_pos (by omega), r0]
    · obtain ⟨j, rfl⟩ : ∃ j', j = j' + 1 := ⟨j - 1, by omega⟩
      rw [if_neg (by omega), if_pos rfl]
      have e1 : S c 0 (j + 1 - 1) = some (f c 0 j) := hS c 0 j (by omega) (by omega) (by omega)
      rw [tget_ok (by omega) (by omega) e1]
      simp only [Outcome.ok_bind]
      rw [r1 j]
      rcases Nat.eq_zero_or_pos j with rfl | hjpos'
      · simp
      · have e2 : S c 0 (j + 1 - 2) = some (f c 0 (j - 1)) := hS c 0 (j - 1) (by omega) (by omega) (by omega)
        rw [if_pos (by omega), tget_ok (by omega) (by omega) e2]
        simp
  · obtain ⟨i, rfl⟩ : ∃ i', i = i' + 1 := ⟨i - 1, by omega⟩
    rw [if_neg (by omega), if_neg (by omega)]
    have e1 : S c (i + 1 - 1) j = some (f c i j) := hS c i j (by omega) (by omega) (by omega)
    rw [tget_ok (by omega) (by omega) e1]
    simp only [Outcome.ok_bind]
    rw [r2 i j]
    have e3 : 0 < j → tget d S c (i + 1 - 1) (j - 1) = .ok (f c i (j - 1)) := fun hjpos =>
      tget_ok (by omega) (by omega) (hS c i (j - 1) (by omega) (by omega) (by omega))
    have e2 : 0 < i → tget d S c (i + 1 - 2) j = .ok (f c (i - 1) j) := fun hipos =>
      tget_ok (by omega) (by omega) (hS c (i - 1) j (by omega) (by omega) (by omega))
    rcases Nat.eq_zero_or_pos i with rfl | hi' <;> rcases Nat.eq_zero_or_pos j with rfl | hj'
    · simp
    · rw [if_neg (by omega), if_pos hj', e3 hj']
      simp
    · rw [if_pos (by omega), e2 hi']
      simp
    · rw [if_pos (by omega), e2 hi']
      simp only [Outcome.ok_bind]
      rw [if_pos hj', e3 hj']
      simp

theorem fillS_spec (d iMax jMax : Nat) (hi : iMax < d) (hj : jMax < d) (a b : ℝ) (A B : Point)
    (f : Fin 3 → Nat → Nat → ℝ)
    (hf : ∀ c, OSRel (f c) (Real.sqrt (Real.pi / (a + b)) *
        Real.exp (-(a * b / (a + b)) * (A c - B c) * (A c - B c)))
      ((a * A c + b * B c) / (a + b) - A c) ((a * A c + b * B c) / (a + b) - B c) (1 / (2 * (a + b)))) :
    ∃ S, fillS d iMax jMax a b A B = .ok S ∧ ∀ c i j, i ≤ iMax → j ≤ jMax → S c i j = some (f c i j) := by
  unfold fillS
  apply fill_table d iMax jMax hi hj f
  intro c i j S h1 h2 hS
  exact osStep_eq d iMax jMax a b A B f c (hf c) i j S h1 h2 (by omega) hS

theorem filledTo_tset {S : Table} {f : Fin 3 → Nat → Nat → ℝ} {iMax jMax : Nat} {c : Fin 3} {i j : Nat}
    (hS : FilledTo S f iMax jMax c.val i j) :
    FilledTo (fun c' i' j' => if c' = c ∧ i' = i ∧ j' = j then some (f c i j) else S c' i' j') f iMax jMax c.val i
      (j + 1) := by
  intro c' i' j' h1 h2 h3
  by_cases h : c' = c ∧ i' = i ∧ j' = j
  · obtain ⟨rfl, rfl, rfl⟩ := h
    simp
  · beta_reduce
    rw [if_neg h]
    apply hS c' i' j' h1 h2
    rcases h3 with h3 | ⟨h3, h4⟩
    · exact Or.inl h3
    · refine Or.inr ⟨h3, ?_⟩
      have hc : c' = c := Fin.ext h3
      rcases h4 with h4 | ⟨h4, h5⟩
      · exact Or.inl h4
      · refine Or.inr ⟨h4, ?_⟩
        rcases Nat.lt_succ_iff_lt_or_eq.mp h5 with h6 | h6
        · exact h6
        · exact absurd ⟨hc, h4, h6⟩ h

/-- When the requested table does not fit into the declared array, filling it is undefined behaviour. -/
theorem fillS_ub (d iMax jMax : Nat) (hbig : d ≤ iMax ∨ d ≤ jMax) (a b : ℝ) (A B : Point)
    (f : Fin 3 → Nat → Nat → ℝ)
    (hf : ∀ c, OSRel (f c) (Real.sqrt (Real.pi / (a + b)) *
        Real.exp (-(a * b / (a + b)) * (A c - B c) * (A c - B c)))
      ((a * A c + b * B c) / (a + b) - A c) ((a * A c + b * B c) / (a + b) - B c) (1 / (2 * (a + b)))) :
    fillS d iMax jMax a b A B = .ub := by
  have h0 : FilledTo Table.uninit f iMax jMax (0 : Fin 3).val 0 0 := by intro c' i' j' _ _ h; simp at h
  unfold fillS
  have key : (forRange (iMax + 1) Table.uninit fun i S => forRange (jMax + 1) S fun j S =>
      osStep d 0 (a + b) (a * b / (a + b)) (A 0 - B 0) ((a * A 0 + b * B 0) / (a + b) - A 0)
        ((a * A 0 + b * B 0) / (a + b) - B 0) (1 / (2 * (a + b))) i j S) = .ub := by
    by_cases hj : d ≤ jMax
    · -- the first row already overflows
      apply forRange_ub (k := 0) (fun i S => FilledTo S f iMax jMax 0 i 0) (by omega) h0 (by intro i s hi; omega)
      intro S hS
      apply forRange_ub (k := d) (fun j S => FilledTo S f iMax jMax 0 0 j) (by omega) hS
      · intro j S hjd hS
        rw [osStep_eq d iMax jMax a b A B f 0 (hf 0) 0 j S (by omega) (by omega) (by omega) hS,
          tset_ok S 0 _ (by omega) (by omega)]
        exact ⟨_, rfl, filledTo_tset (c := 0) hS⟩
      · intro S hS
        rw [osStep_eq d iMax jMax a b A B f 0 (hf 0) 0 d S (by omega) (by omega) (by omega) hS]
        exact tset_ub S 0 _ (by omega)
    · apply forRange_ub (k := d) (fun i S => FilledTo S f iMax jMax 0 i 0) (by omega) h0
      · intro i S hi hS
        refine forRange_spec (fun j S => FilledTo S f iMax jMax 0 i j) hS ?_ ?_
        · intro j S hj' hS
          rw [osStep_eq d iMax jMax a b A B f 0 (hf 0) i j S (by omega) (by omega) (by omega) hS,
            tset_ok S 0 _ (by omega) (by omega)]
          exact ⟨_, rfl, filledTo_tset (c := 0) hS⟩
        · intro S hS c' i' j' h1 h2 h3
          apply hS c' i' j' h1 h2
          omega
      · intro S hS
        apply forRange_ub (k := 0) (fun j S => FilledTo S f iMax jMax 0 d j) (by omega) hS
          (by intro i s hi; omega)
        intro S hS
        rw [osStep_eq d iMax jMax a b A B f 0 (hf 0) d 0 S (by omega) (by omega) (by omega) hS]
        exact tset_ub S 0 _ (by omega)
  exact forCoord_ub0 key

/-- The table of the recursion, as a function (used when no analytic meaning is needed). -/
noncomputable def osRec (s00 xpa xpb pfac : ℝ) : Nat → Nat → ℝ
  | 0, 0 => s00
  | 0, j + 1 => xpb * osRec s00 xpa xpb pfac 0 j + (j : ℝ) * pfac * osRec s00 xpa xpb pfac 0 (j - 1)
  | i + 1, j => xpa * osRec s00 xpa xpb pfac i j + (i : ℝ) * pfac * osRec s00 xpa xpb pfac (i - 1) j +
      (j : ℝ) * pfac * osRec s00 xpa xpb pfac i (j - 1)
termination_by i j => (i, j)
decreasing_by all_goals simp_wf; try omega

theorem osRec_rel (s00 xpa xpb pfac : ℝ) : OSRel (osRec s00 xpa xpb pfac) s00 xpa xpb pfac where
  zero := by rw [osRec]
  right j := by rw [osRec]
  left i j := by rw [osRec]

/-! ## Storing the component pairs -/

/-- The first `M·N` elements of `buf` are the row-major matrix `g`. -/
def MatIs (M N : Nat) (buf : List ℝ) (g : Nat → Nat → ℝ) : Prop :=
  ∀ i j, i < M → j < N → buf[i * N + j]? = some (g i j)

/-- Outside the first `n` elements, `buf'` agrees with `buf`; the lengths agree. -/
def SameBeyond (n : Nat) (buf' buf : List ℝ) : Prop :=
  buf'.length = buf.length ∧ ∀ p, n ≤ p → buf'[p]? = buf[p]?

theorem store_matrix (M N : Nat) (val : Nat → Nat → Outcome ℝ) (g : Nat → Nat → ℝ) (buf : List ℝ)
    (hval : ∀ m n, m < M → n < N → val m n = .ok (g m n)) (hlen : M * N ≤ buf.length) :
    ∃ buf', (forRange M buf fun m buf => forRange N buf fun n buf => do
        let v ← val m n
        wr buf (m * N + n) v) = .ok buf' ∧ (MatIs M N buf' g ∧ SameBeyond (M * N) buf' buf) := by
  refine forRange_spec (fun k (s : List ℝ) => s.length = buf.length ∧
    (∀ i j, i < k → i < M → j < N → s[i * N + j]? = some (g i j)) ∧ (∀ p, M * N ≤ p → s[p]? = buf[p]?))
    ⟨rfl, by intro i j h; omega, fun _ _ => rfl⟩ ?_ ?_
  · rintro i s hi ⟨hl, hd, hu⟩
    refine forRange_spec (fun k (t : List ℝ) => t.length = buf.length ∧
      (∀ i' j, i' < i → i' < M → j < N → t[i' * N + j]? = some (g i' j)) ∧
      (∀ j, j < k → j < N → t[i * N + j]? = some (g i j)) ∧ (∀ p, M * N ≤ p → t[p]? = buf[p]?))
      ⟨hl, hd, by intro j h; omega, hu⟩ ?_ ?_
    · rintro j t hj ⟨hl, hd, he, hu⟩
      have hp : i * N + j < M * N := rowMajor_lt hi hj
      have h1 : i * N + j < t.length := by omega
      refine ⟨t.set (i * N + j) (g i j), ?_, by simp [hl], ?_, ?_, ?_⟩
      · rw [hval i j hi hj]
        simp only [Outcome.ok_bind, wr_ok _ h1]
      · intro i' j' h3 h4 h5
        rw [List.getElem?_set_ne]
        · exact hd i' j' h3 h4 h5
        · intro h
          have := (rowMajor_inj hj h5 h).1
          omega
      · intro j' h3 h4
        by_cases h5 : j' = j
        · subst h5; rw [List.getElem?_set_self h1]
        · rw [List.getElem?_set_ne (by omega)]
          exact he j' (by omega) h4
      · intro p h3
        rw [List.getElem?_set_ne (by omega)]
        exact hu p h3
    · rintro t ⟨hl, hd, he, hu⟩
      refine ⟨hl, fun i' j h1 h2 h3 => ?_, hu⟩
      by_cases h4 : i' = i
      · subst h4; exact he j h3 h3
      · exact hd i' j (by omega) h2 h3
  · rintro s ⟨hl, hd, hu⟩
    exact ⟨fun i j hi hj => hd i j hi hi hj, hl, hu⟩

/-- The component list of a shell has the stated number of entries, all with exponents at most `L`. Holds for every
shell built by `newShell` with a documented component order (`newShell_listed`). -/
def Shell.Listed (s : Shell) : Prop :=
  s.cart_size = s.cartList.length ∧ ∀ c ∈ s.cartList, c.1 ≤ s.L ∧ c.2.1 ≤ s.L ∧ c.2.2 ≤ s.L

/-- The `m`-th component of a shell. -/
def Shell.comp (s : Shell) (m : Nat) : Comp := s.cartList.getD m (0, 0, 0)

theorem Shell.rd_comp (s : Shell) (hs : s.Listed) {m : Nat} (hm : m < s.cart_size) :
    rd s.cartList m = .ok (s.comp m) := by
  have h : m < s.cartList.length := hs.1 ▸ hm
  rw [rd_ok h]
  simp [Shell.comp, List.getD, List.getElem?_eq_getElem h]

theorem Shell.comp_le (s : Shell) (hs : s.Listed) {m : Nat} (hm : m < s.cart_size) :
    (s.comp m).1 ≤ s.L ∧ (s.comp m).2.1 ≤ s.L ∧ (s.comp m).2.2 ≤ s.L := by
  have h : m < s.cartList.length := hs.1 ▸ hm
  apply hs.2
  simp [Shell.comp, List.getD, List.getElem?_eq_getElem h]

theorem storePairs_spec (A B : Shell) (hA : A.Listed) (hB : B.Listed) (val : Comp → Comp → Outcome ℝ)
    (g : Nat → Nat → ℝ) (buf : List ℝ)
    (hval : ∀ m n, m < A.cart_size → n < B.cart_size → val (A.comp m) (B.comp n) = .ok (g m n))
    (hlen : A.cart_size * B.cart_size ≤ buf.length) :
    ∃ buf', storePairs A B val buf = .ok buf' ∧
      (MatIs A.cart_size B.cart_size buf' g ∧ SameBeyond (A.cart_size * B.cart_size) buf' buf) := by
  have := store_matrix A.cart_size B.cart_size (fun m n => do
      let a ← rd A.cartList m
      let b ← rd B.cartList n
      val a b) g buf (by
      intro m n hm hn
      rw [A.rd_comp hA hm, B.rd_comp hB hn]
      exact hval m n hm hn) hlen
  obtain ⟨buf', h, h'⟩ := this
  refine ⟨buf', ?_, h'⟩
  rw [← h]
  unfold storePairs
  simp only [bind_assoc]

/-! ## The contraction loop -/

theorem memset0_spec (n : Nat) (m : List ℝ) (h : n ≤ m.length) :
    ∃ m', memset0 n m = .ok m' ∧ ((∀ i < n, m'[i]? = some 0) ∧ SameBeyond n m' m) := by
  unfold memset0
  refine forRange_spec (fun k (s : List ℝ) => s.length = m.length ∧ (∀ i < k, s[i]? = some 0) ∧
    (∀ p, k ≤ p → s[p]? = m[p]?)) ⟨rfl, by intro i h; omega, fun _ _ => rfl⟩ ?_ ?_
  · rintro i s hi ⟨hl, hd, hu⟩
    refine ⟨s.set i 0, wr_ok _ (by omega), by simp [hl], ?_, ?_⟩
    · intro j hj
      by_cases h5 : j = i
      · subst h5; rw [List.getElem?_set_self (by omega)]
      · rw [List.getElem?_set_ne (by omega)]; exact hd j (by omega)
    · intro p hp
      rw [List.getElem?_set_ne (by omega)]; exact hu p (by omega)
  · rintro s ⟨hl, hd, hu⟩
    exact ⟨hd, hl, hu⟩

/-- `i`-th exponent and coefficient. -/
noncomputable def Shell.alphaAt (s : Shell) (i : Nat) : ℝ := s.alpha.getD i 0
noncomputable def Shell.coeffAt (s : Shell) (i : Nat) : ℝ := s.coeffs.getD i 0

theorem rd_getD {l : List ℝ} {i : Nat} (h : i < l.length) : rd l i = .ok (l.getD i 0) := by
  rw [rd_ok h]; simp [List.getD, List.getElem?_eq_getElem h]

theorem daxpy_matIs (M N : Nat) (a : ℝ) (x y : List ℝ) (gx gy : Nat → Nat → ℝ) (hx : MatIs M N x gx)
    (hxl : M * N ≤ x.length) (hy : MatIs M N y gy) (hyl : M * N ≤ y.length) :
    ∃ y', daxpy (M * N) a x y = .ok y' ∧ MatIs M N y' (fun i j => gy i j + a * gx i j) ∧
      SameBeyond (M * N) y' y := by
  obtain ⟨y', h1, h2, h3, h4⟩ := daxpy_correct (M * N) a x y hxl hyl
  refine ⟨y', h1, ?_, h2, h4⟩
  intro i j hi hj
  have hp := rowMajor_lt hi hj
  rw [h3 _ hp]
  have e1 := hx i j hi hj
  have e2 := hy i j hi hj
  rw [List.getElem?_eq_getElem (by omega)] at e1 e2
  rw [Option.some.inj e1, Option.some.inj e2]

/-- The contraction loop computes `∑_i ∑_j c_i c_j g(α_i, α_j)` when the primitive routine overwrites its buffer
with the matrix `g`. -/
theorem contract_spec (A B : Shell) (hA : A.WF) (hB : B.WF) (prim : ℝ → ℝ → List ℝ → Outcome (List ℝ))
    (g : ℝ → ℝ → Nat → Nat → ℝ) (out : List ℝ)
    (hprim : ∀ i j buf, i < A.num → j < B.num → A.cart_size * B.cart_size ≤ buf.length →
      ∃ buf', prim (A.alphaAt i) (B.alphaAt j) buf = .ok buf' ∧
        (MatIs A.cart_size B.cart_size buf' (g (A.alphaAt i) (B.alphaAt j)) ∧
          SameBeyond (A.cart_size * B.cart_size) buf' buf))
    (hlen : A.cart_size * B.cart_size ≤ out.length) :
    ∃ out', contract A B prim out = .ok out' ∧
      MatIs A.cart_size B.cart_size out' (fun m n => ∑ i ∈ Finset.range A.num, ∑ j ∈ Finset.range B.num,
        A.coeffAt i * B.coeffAt j * g (A.alphaAt i) (B.alphaAt j) m n) ∧
      SameBeyond (A.cart_size * B.cart_size) out' out := by
  obtain ⟨out0, hm, hz, hsl, hsb⟩ := memset0_spec (A.cart_size * B.cart_size) out hlen
  let T : Nat → Nat → Nat → Nat → ℝ := fun i j m n =>
    A.coeffAt i * B.coeffAt j * g (A.alphaAt i) (B.alphaAt j) m n
  have key : ∃ r, (forRange A.num (List.replicate (A.cart_size * B.cart_size) (0 : ℝ), out0)
      fun i (st : List ℝ × List ℝ) =>
      forRange B.num st fun j (st : List ℝ × List ℝ) => do
        let ai ← rd A.alpha i
        let aj ← rd B.alpha j
        let ci ← rd A.coeffs i
        let cj ← rd B.coeffs j
        let buf ← prim ai aj st.1
        let out ← daxpy (A.cart_size * B.cart_size) (ci * cj) buf st.2
        .ok (buf, out)) = .ok r ∧
      (MatIs A.cart_size B.cart_size r.2 (fun m n => ∑ i ∈ Finset.range A.num, ∑ j ∈ Finset.range B.num, T i j m n) ∧
        SameBeyond (A.cart_size * B.cart_size) r.2 out) := by
    refine forRange_spec (fun k (st : List ℝ × List ℝ) => st.1.length = A.cart_size * B.cart_size ∧
      MatIs A.cart_size B.cart_size st.2 (fun m n => ∑ i ∈ Finset.range k, ∑ j ∈ Finset.range B.num, T i j m n) ∧
      SameBeyond (A.cart_size * B.cart_size) st.2 out) ⟨by simp, ?_, hsl, hsb⟩ ?_ ?_
    · intro i j hi hj
      simp only [Finset.range_zero, Finset.sum_empty]
      exact hz _ (rowMajor_lt hi hj)
    · rintro i ⟨buf, o⟩ hi ⟨hbl, hmat, hsame⟩
      refine forRange_spec (fun k (st : List ℝ × List ℝ) => st.1.length = A.cart_size * B.cart_size ∧
        MatIs A.cart_size B.cart_size st.2 (fun m n => (∑ i ∈ Finset.range i, ∑ j ∈ Finset.range B.num, T i j m n) +
          ∑ j ∈ Finset.range k, T i j m n) ∧
        SameBeyond (A.cart_size * B.cart_size) st.2 out) ⟨hbl, ?_, hsame⟩ ?_ ?_
      · intro m n hm hn
        simp only [Finset.range_zero, Finset.sum_empty, add_zero]
        exact hmat m n hm hn
      · rintro j ⟨buf, o⟩ hj ⟨hbl, hmat, hsame⟩
        simp only at hbl hmat hsame ⊢
        rw [rd_getD (show i < A.alpha.length from lt_of_lt_of_le hi hA.2),
          rd_getD (show j < B.alpha.length from lt_of_lt_of_le hj hB.2),
          rd_getD (show i < A.coeffs.length from lt_of_lt_of_le hi hA.1),
          rd_getD (show j < B.coeffs.length from lt_of_lt_of_le hj hB.1)]
        simp only [Outcome.ok_bind]
        obtain ⟨buf', hb, hb1, hb2, hb3⟩ := hprim i j buf hi hj (by omega)
        simp only [Shell.alphaAt] at hb
        rw [hb]
        simp only [Outcome.ok_bind]
        obtain ⟨o', ho, ho1, ho2, ho3⟩ := daxpy_matIs A.cart_size B.cart_size
          (A.coeffs.getD i 0 * B.coeffs.getD j 0) buf' o _ _ hb1 (by omega) hmat (by rw [hsame.1]; exact hlen)
        rw [ho]
        refine ⟨(buf', o'), rfl, by rw [← hbl]; exact hb2, ?_, ?_⟩
        · intro m n hm hn
          rw [ho1 m n hm hn]
          beta_reduce
          rw [Finset.sum_range_succ, ← add_assoc]
          rfl
        · exact ⟨by rw [← hsame.1, ← ho2], fun p hp => by rw [ho3 p hp, hsame.2 p hp]⟩
      · rintro ⟨buf, o⟩ ⟨h1, h2, h3⟩
        refine ⟨h1, ?_, h3⟩
        intro m n hm hn
        rw [h2 m n hm hn]
        beta_reduce
        rw [Finset.sum_range_succ]
    · rintro ⟨buf, o⟩ ⟨-, h2, h3⟩
      exact ⟨h2, h3⟩
  obtain ⟨r, hr, h1, h2⟩ := key
  refine ⟨r.2, ?_, h1, h2⟩
  unfold contract
  simp only [hm, Outcome.ok_bind]
  rw [hr]
  rfl

end Libgrpp
