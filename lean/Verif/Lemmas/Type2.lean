import Verif.Lemmas.Semilocal
import Verif.Model.Type2

/-! Type-2 and spin-orbit integrals: the sums the code evaluates, and their distance from the exact sums. -/

namespace Libgrpp

/-- The table of harmonics holds the values for the direction of `k`. -/
theorem rshRows_ok (rows cols lmax : ℕ) (k : Point) (hl : lmax ≤ 40) (hr : lmax < rows) (hc : 2 * lmax + 1 ≤ cols) :
    ∃ t, rshRows rows cols lmax k = .ok t ∧ ∀ lam ≤ lmax, ∃ row, t[lam]? = some row ∧ 2 * lam + 1 ≤ row.length ∧
      ∀ mi < 2 * lam + 1, row.getD mi 0 = rshDir lam ((mi : ℤ) - lam) k := by
  unfold rshRows
  obtain ⟨t, h1, -, h3, -⟩ := forRange_inv (n := lmax + 1) (s := List.replicate rows (List.replicate cols (0:ℝ)))
    (body := fun lam t => do
      let row ← rd t lam
      let row ← evalRshArray lam k row
      wr t lam row)
    (fun n t => t.length = rows ∧ (∀ lam < n, lam ≤ lmax → ∃ row, t[lam]? = some row ∧ 2 * lam + 1 ≤ row.length ∧
      ∀ mi < 2 * lam + 1, row.getD mi 0 = rshDir lam ((mi : ℤ) - lam) k) ∧
      ∀ lam, n ≤ lam → lam < rows → t[lam]? = some (List.replicate cols (0:ℝ)))
    ⟨by simp, by intro lam h; omega, fun lam _ h => by rw [List.getElem?_replicate, if_pos h]⟩ (by
      rintro i t hi ⟨a1, a2, a3⟩
      rw [rd_some (a3 i le_rfl (by omega)), Outcome.ok_bind]
      obtain ⟨row, e1, e2, e3, -⟩ := evalRshArray_eq i k (List.replicate cols 0) (by omega) (by rw [List.length_replicate]; omega)
      rw [e1, Outcome.ok_bind, wr_ok _ (by omega)]
      refine ⟨_, rfl, by simp [a1], fun lam h1 h2 => ?_, fun lam h1 h2 => ?_⟩
      · by_cases hli : lam = i
        · subst hli
          refine ⟨row, ?_, ?_, ?_⟩
          · rw [List.getElem?_set_self (by omega)]
          · rw [e2, List.length_replicate]
            omega
          · intro mi hmi
            have h4 := e3 mi hmi
            have h5 := evalRsh_eq lam ((mi : ℤ) - lam) k (by omega) (by omega)
            rw [evalRsh_dir lam _ (by omega) (by omega)] at h5
            rw [List.getD_eq_getElem?_getD, h4, Option.getD_some]
            exact (Outcome.ok.inj h5).symm
        · rw [List.getElem?_set_ne (by omega)]
          exact a2 lam (by omega) h2
      · rw [List.getElem?_set_ne (by omega)]
        exact a3 lam (by omega) h2)
  exact ⟨t, h1, fun lam h => h3 lam (by omega) h⟩

/-- A row of the table of harmonics. -/
def RowsOk (lmax : ℕ) (k : Point) (t : List (List ℝ)) : Prop := ∀ lam ≤ lmax, ∃ row, t[lam]? = some row ∧ 2 * lam + 1 ≤ row.length ∧
  ∀ mi < 2 * lam + 1, row.getD mi 0 = rshDir lam ((mi : ℤ) - lam) k

theorem angType2_dir (lam L : ℕ) (m : ℤ) (p : Comp) (k : Point) (row : List ℝ) (hlam : lam ≤ 40) (hL : L ≤ 40) (hm : m.natAbs ≤ L)
    (hl : 2 * lam + 1 ≤ row.length) (hrow : ∀ mi < 2 * lam + 1, row.getD mi 0 = rshDir lam ((mi : ℤ) - lam) k)
    (h : cdeg p + lam + L ≤ 29 ∨ (cdeg p + lam + L) % 2 = 1) :
    angType2 lam L m p.1 p.2.1 p.2.2 row = .ok (angOmega2Code L m lam p k) := by
  rw [angType2_eq lam L m p.1 p.2.1 p.2.2 row hlam hL hm hl h]
  congr 1
  unfold angOmega2Code gaunt monoAt
  exact Finset.sum_congr rfl fun mi hmi => by rw [hrow mi (Finset.mem_range.1 hmi)]

/-- A value that is skipped when it is below a threshold. -/
noncomputable def cutAt (thr x : ℝ) : ℝ := if |x| < thr then 0 else x

theorem cutAt_diff {thr : ℝ} (h : 0 ≤ thr) (x : ℝ) : |cutAt thr x - x| ≤ thr := by
  unfold cutAt
  split_ifs with hx
  · rw [zero_sub, abs_neg]
    exact hx.le
  · simpa using h

theorem cutAt_le (thr x : ℝ) : |cutAt thr x| ≤ |x| := by
  unfold cutAt
  split_ifs
  · simp
  · exact le_rfl

/-- The angular sum of the type-2 routine. -/
noncomputable def angSumT2 (L : ℕ) (kA kB : Point) (l1 : ℕ) (p : Comp) (l2 : ℕ) (q : Comp) : ℝ :=
  ∑ i ∈ Finset.range (2 * L + 1), cutAt 1e-16 (angOmega2Code L ((i : ℤ) - L) l1 p kA) * angOmega2Code L ((i : ℤ) - L) l2 q kB

theorem type2AngularSum_eq (L : ℕ) (hL : L ≤ 14) (kA kB : Point) (lmax : ℕ) (rA rB : List (List ℝ)) (hA : RowsOk lmax kA rA)
    (hB : RowsOk lmax kB rB) (l1 : ℕ) (p : Comp) (l2 : ℕ) (q : Comp) (h1 : l1 ≤ lmax) (h2 : l2 ≤ lmax)
    (p1 : cdeg p + l1 + L ≤ 29) (p2 : cdeg q + l2 + L ≤ 29) :
    type2AngularSum L rA rB l1 p l2 q = .ok (angSumT2 L kA kB l1 p l2 q) := by
  obtain ⟨vA, a1, a2, a3⟩ := hA l1 h1
  obtain ⟨vB, b1, b2, b3⟩ := hB l2 h2
  unfold type2AngularSum angSumT2
  rw [rd_some a1, Outcome.ok_bind, rd_some b1, Outcome.ok_bind]
  rw [forRange_sum (fun i => cutAt 1e-16 (angOmega2Code L ((i : ℤ) - L) l1 p kA) * angOmega2Code L ((i : ℤ) - L) l2 q kB), zero_add]
  intro i hi s
  rw [angType2_dir l1 L _ p kA vA (by omega) (by omega) (by omega) a2 a3 (Or.inl p1), Outcome.ok_bind]
  unfold cutAt
  split_ifs
  · rw [zero_mul, add_zero]
  · rw [angType2_dir l2 L _ q kB vB (by omega) (by omega) (by omega) b2 b3 (Or.inl p2), Outcome.ok_bind]

theorem omega_error {thr a a' b b' : ℝ} (ht : 0 ≤ thr) (ha : |a| ≤ 1.52) (hb' : |b'| ≤ 1.52)
    (da : |a' - a| ≤ 5.4e-14) (db : |b' - b| ≤ 5.4e-14) : |cutAt thr a' * b' - a * b| ≤ (2 * 5.4e-14 + thr) * 1.52 := by
  have e : cutAt thr a' * b' - a * b = (cutAt thr a' - a') * b' + (a' - a) * b' + a * (b' - b) := by ring
  rw [e]
  refine (abs_add_le _ _).trans ((add_le_add (abs_add_le _ _) le_rfl).trans ?_)
  rw [abs_mul, abs_mul, abs_mul]
  have h1 := mul_le_mul (cutAt_diff ht a') hb' (abs_nonneg b') ht
  have h2 := mul_le_mul da hb' (abs_nonneg b') (by norm_num)
  have h3 := mul_le_mul ha db (abs_nonneg _) (by norm_num)
  linarith

theorem omega_le {thr a b : ℝ} (ha : |a| ≤ 1.52) (hb : |b| ≤ 1.52) : |cutAt thr a * b| ≤ 1.52 * 1.52 := by
  rw [abs_mul]
  exact mul_le_mul ((cutAt_le _ _).trans ha) hb (abs_nonneg _) (by norm_num)

theorem angSumT2_le (L : ℕ) (kA kB : Point) {l1 l2 : ℕ} (h1 : l1 ≤ 14) (h2 : l2 ≤ 14) (p q : Comp) :
    |angSumT2 L kA kB l1 p l2 q| ≤ 1.52 * 1.52 * (2 * L + 1) := by
  unfold angSumT2
  refine (Finset.abs_sum_le_sum_abs _ _).trans ?_
  refine (Finset.sum_le_sum fun i hi => omega_le (angOmega2Code_le L _ (by have := Finset.mem_range.1 hi; omega) h1 p kA)
    (angOmega2Code_le L _ (by have := Finset.mem_range.1 hi; omega) h2 q kB)).trans ?_
  rw [Finset.sum_const, Finset.card_range, nsmul_eq_mul]
  push_cast
  linarith

theorem projector_sum (n : ℕ) (f : ℕ → ℕ → ℝ) : ∑ i ∈ Finset.range n, ∑ j ∈ Finset.range n, projector i j * f i j =
    ∑ i ∈ Finset.range n, f i i := by
  refine Finset.sum_congr rfl fun i hi => ?_
  unfold projector
  rw [Finset.sum_eq_single i]
  · simp
  · intro j _ h
    rw [if_neg (Ne.symm h), zero_mul]
  · intro h
    exact absurd hi h

theorem angSumT2_error (L : ℕ) (kA kB : Point) {l1 l2 : ℕ} (h1 : l1 ≤ 14) (h2 : l2 ≤ 14) (p q : Comp) :
    |angSumT2 L kA kB l1 p l2 q - angSum L projector kA kB l1 p l2 q| ≤ 1.65e-13 * (2 * L + 1) := by
  unfold angSumT2 angSum
  rw [projector_sum (2 * L + 1) fun i j => angOmega2 L ((i : ℤ) - L) l1 p kA * angOmega2 L ((j : ℤ) - L) l2 q kB, ← Finset.sum_sub_distrib]
  refine (Finset.abs_sum_le_sum_abs _ _).trans ?_
  refine (Finset.sum_le_sum fun i hi => omega_error (by norm_num) (angOmega2_le L _ (by have := Finset.mem_range.1 hi; omega) h1 p kA)
    (angOmega2Code_le L _ (by have := Finset.mem_range.1 hi; omega) h2 q kB)
    (angOmega2_diff L _ (by have := Finset.mem_range.1 hi; omega) h1 p kA)
    (angOmega2_diff L _ (by have := Finset.mem_range.1 hi; omega) h2 q kB)).trans ?_
  rw [Finset.sum_const, Finset.card_range, nsmul_eq_mul]
  push_cast
  have : (0:ℝ) ≤ L := Nat.cast_nonneg L
  nlinarith

/-- The angular sum vanishes for the orders that the code skips. -/
theorem angSum_zero_left (L : ℕ) (W : ℕ → ℕ → ℝ) (kA kB : Point) (l1 : ℕ) (p : Comp) (l2 : ℕ) (q : Comp)
    (h : l1 + cdeg p < L ∨ (L + cdeg p + l1) % 2 = 1) : angSum L W kA kB l1 p l2 q = 0 := by
  unfold angSum
  refine Finset.sum_eq_zero fun i hi => Finset.sum_eq_zero fun j _ => ?_
  have : angOmega2 L ((i : ℤ) - L) l1 p kA = 0 := by
    unfold angOmega2
    refine Finset.sum_eq_zero fun mi hmi => ?_
    rw [gaunt_zero L _ (by have := Finset.mem_range.1 hi; omega) l1 p mi (Finset.mem_range.1 hmi) h, zero_mul]
  rw [this]
  ring

theorem angSum_zero_right (L : ℕ) (W : ℕ → ℕ → ℝ) (kA kB : Point) (l1 : ℕ) (p : Comp) (l2 : ℕ) (q : Comp)
    (h : l2 + cdeg q < L ∨ (L + cdeg q + l2) % 2 = 1) : angSum L W kA kB l1 p l2 q = 0 := by
  unfold angSum
  refine Finset.sum_eq_zero fun i _ => Finset.sum_eq_zero fun j hj => ?_
  have : angOmega2 L ((j : ℤ) - L) l2 q kB = 0 := by
    unfold angOmega2
    refine Finset.sum_eq_zero fun mi hmi => ?_
    rw [gaunt_zero L _ (by have := Finset.mem_range.1 hj; omega) l2 q mi (Finset.mem_range.1 hmi) h, zero_mul]
  rw [this]
  ring

/-- The orders that the code takes into account. -/
def orderUsed (L P l : ℕ) : Prop := L - P ≤ l ∧ (L + P - l) % 2 = 0

instance (L P l : ℕ) : Decidable (orderUsed L P l) := by unfold orderUsed; infer_instance

/-- A loop over the orders, from the lowest one. -/
theorem order_sum {V : Type*} [AddCommMonoid V] (L P : ℕ) (f : ℕ → V) :
    ∑ i ∈ Finset.range (L + P + 1 - (L - P)), (if (L + P - (L - P + i)) % 2 ≠ 0 then 0 else f (L - P + i)) =
      ∑ l ∈ Finset.range (L + P + 1), if orderUsed L P l then f l else 0 := by
  have e : ∑ l ∈ Finset.range (L + P + 1), (if orderUsed L P l then f l else 0) =
      ∑ l ∈ Finset.Ico (L - P) (L + P + 1), if orderUsed L P l then f l else 0 := by
    refine (Finset.sum_subset (fun l hl => ?_) fun l hl hn => ?_).symm
    · rw [Finset.mem_Ico] at hl
      rw [Finset.mem_range]
      exact hl.2
    · rw [Finset.mem_range] at hl
      rw [Finset.mem_Ico] at hn
      rw [if_neg]
      rintro ⟨h, -⟩
      omega
  rw [e, Finset.sum_Ico_eq_sum_range]
  refine Finset.sum_congr rfl fun i _ => ?_
  by_cases h : (L + P - (L - P + i)) % 2 = 0
  · have u : orderUsed L P (L - P + i) := ⟨by omega, h⟩
    rw [if_neg (by simpa using h), if_pos u]
  · have u : ¬ orderUsed L P (L - P + i) := fun hh => h hh.2
    rw [if_pos h, if_neg u]

/-- The sum that the code evaluates for one pair of components. -/
noncomputable def semiSumCode {V : Type} [AddCommMonoid V] [SMul ℝ V] (thrF thrQ : ℝ) (L : ℕ) (CA CB : Point) (Q : ℕ → ℕ → ℕ → ℝ)
    (g : ℕ → Comp → ℕ → Comp → V) (x y : Comp) : V :=
  ∑ p ∈ box x, ∑ q ∈ box y, if |boxCoef x CA p * boxCoef y CB q| < thrF then 0 else (boxCoef x CA p * boxCoef y CB q) •
    ∑ l1 ∈ Finset.range (L + cdeg p + 1), if orderUsed L (cdeg p) l1 then
      ∑ l2 ∈ Finset.range (L + cdeg q + 1), (if orderUsed L (cdeg q) l2 then
        (if |Q l1 l2 (cdeg p + cdeg q)| < thrQ then 0 else Q l1 l2 (cdeg p + cdeg q) • g l1 p l2 q) else 0) else 0

theorem semilocalElement_eq {V : Type} [AddCommMonoid V] [SMul ℝ V] (thrF thrQ : ℝ) (L LA LB : ℕ) (hLA : LA ≤ 60) (hLB : LB ≤ 60)
    (CA CB : Point) (table : List ℝ) (Q : ℕ → ℕ → ℕ → ℝ)
    (ht : ∀ l1 l2 n, l1 ≤ L + LA → l2 ≤ L + LB → n ≤ LA + LB → getType2 (L + LB) (LA + LB) table l1 l2 n = .ok (Q l1 l2 n))
    (ang : ℕ → Comp → ℕ → Comp → Outcome V) (g : ℕ → Comp → ℕ → Comp → V)
    (hg : ∀ l1 p l2 q, cdeg p ≤ LA → cdeg q ≤ LB → l1 ≤ L + cdeg p → l2 ≤ L + cdeg q → ang l1 p l2 q = .ok (g l1 p l2 q))
    (x y : Comp) (hx : cdeg x = LA) (hy : cdeg y = LB) :
    semilocalElement thrF thrQ L (L + LB) (LA + LB) CA CB table ang x y = .ok (semiSumCode thrF thrQ L CA CB Q g x y) := by
  unfold cdeg at hx hy
  unfold semilocalElement semiSumCode
  rw [forMono_sum thrF CA CB x y (by omega) (by omega) _ (fun p q => (boxCoef x CA p * boxCoef y CB q) •
    ∑ l1 ∈ Finset.range (L + cdeg p + 1), if orderUsed L (cdeg p) l1 then
      ∑ l2 ∈ Finset.range (L + cdeg q + 1), (if orderUsed L (cdeg q) l2 then
        (if |Q l1 l2 (cdeg p + cdeg q)| < thrQ then 0 else Q l1 l2 (cdeg p + cdeg q) • g l1 p l2 q) else 0) else 0), zero_add]
  intro p hp q hq _ s
  rw [mem_box] at hp hq
  have dp : cdeg p ≤ LA := by unfold cdeg; omega
  have dq : cdeg q ≤ LB := by unfold cdeg; omega
  simp only []
  rw [show p.1 + p.2.1 + p.2.2 = cdeg p from rfl, show q.1 + q.2.1 + q.2.2 = cdeg q from rfl]
  generalize hP : cdeg p = P at *
  generalize hP' : cdeg q = P' at *
  rw [forRange_sumG (fun i1 => if (L + P - (L - P + i1)) % 2 ≠ 0 then 0 else
    ∑ i2 ∈ Finset.range (L + P' + 1 - (L - P')), if (L + P' - (L - P' + i2)) % 2 ≠ 0 then (0 : V) else
      (if |Q (L - P + i1) (L - P' + i2) (P + P')| < thrQ then 0 else Q (L - P + i1) (L - P' + i2) (P + P') • g (L - P + i1) p (L - P' + i2) q)),
    zero_add, Outcome.ok_bind]
  · rw [order_sum L P fun l1 => ∑ i2 ∈ Finset.range (L + P' + 1 - (L - P')), if (L + P' - (L - P' + i2)) % 2 ≠ 0 then (0 : V) else
      (if |Q l1 (L - P' + i2) (P + P')| < thrQ then 0 else Q l1 (L - P' + i2) (P + P') • g l1 p (L - P' + i2) q)]
    congr 3
    refine Finset.sum_congr rfl fun l1 _ => ?_
    rw [order_sum L P' fun l2 => if |Q l1 l2 (P + P')| < thrQ then (0 : V) else Q l1 l2 (P + P') • g l1 p l2 q]
  · intro i1 h1 s
    by_cases c1 : (L + P - (L - P + i1)) % 2 ≠ 0
    · rw [if_pos c1, if_pos c1, add_zero]
    · rw [if_neg c1, if_neg c1]
      refine forRange_sumG _ fun i2 h2 s => ?_
      by_cases c2 : (L + P' - (L - P' + i2)) % 2 ≠ 0
      · rw [if_pos c2, if_pos c2, add_zero]
      · rw [if_neg c2, if_neg c2, ht _ _ _ (by omega) (by omega) (by omega), Outcome.ok_bind]
        by_cases c3 : |Q (L - P + i1) (L - P' + i2) (P + P')| < thrQ
        · rw [if_pos c3, if_pos c3, add_zero]
        · rw [if_neg c3, if_neg c3, hg _ _ _ _ (by omega) (by omega) (by omega) (by omega), Outcome.ok_bind]

/-- The bound of the error of one element. -/
noncomputable def semiBound (thrF thrQ b e : ℝ) (L : ℕ) (CA CB : Point) (Qt Q : ℕ → ℕ → ℕ → ℝ) (x y : Comp) : ℝ :=
  ∑ p ∈ box x, ∑ q ∈ box y, ∑ l1 ∈ Finset.range (L + cdeg p + 1), ∑ l2 ∈ Finset.range (L + cdeg q + 1),
    (|boxCoef x CA p * boxCoef y CB q| * ((|Qt l1 l2 (cdeg p + cdeg q) - Q l1 l2 (cdeg p + cdeg q)| + thrQ) * b +
      |Q l1 l2 (cdeg p + cdeg q)| * e) + thrF * (|Q l1 l2 (cdeg p + cdeg q)| * b))

/-- The error of one element. -/
theorem semiSum_error (thrF thrQ b e : ℝ) (hF : 0 ≤ thrF) (hQ : 0 ≤ thrQ) (hb : 0 ≤ b) (L LA LB : ℕ) (CA CB : Point)
    (Qt Q : ℕ → ℕ → ℕ → ℝ) (g G : ℕ → Comp → ℕ → Comp → ℝ)
    (hg : ∀ l1 p l2 q, cdeg p ≤ LA → cdeg q ≤ LB → l1 ≤ L + cdeg p → l2 ≤ L + cdeg q → |g l1 p l2 q| ≤ b)
    (hG : ∀ l1 p l2 q, cdeg p ≤ LA → cdeg q ≤ LB → l1 ≤ L + cdeg p → l2 ≤ L + cdeg q → |G l1 p l2 q| ≤ b)
    (hd : ∀ l1 p l2 q, cdeg p ≤ LA → cdeg q ≤ LB → l1 ≤ L + cdeg p → l2 ≤ L + cdeg q → |g l1 p l2 q - G l1 p l2 q| ≤ e)
    (z1 : ∀ l1 p l2 q, l1 ≤ L + cdeg p → ¬ orderUsed L (cdeg p) l1 → G l1 p l2 q = 0)
    (z2 : ∀ l1 p l2 q, l2 ≤ L + cdeg q → ¬ orderUsed L (cdeg q) l2 → G l1 p l2 q = 0)
    (x y : Comp) (hx : cdeg x = LA) (hy : cdeg y = LB) :
    |semiSumCode thrF thrQ L CA CB Qt g x y - semiSum L CA CB Q G x y| ≤ semiBound thrF thrQ b e L CA CB Qt Q x y := by
  unfold semiSumCode semiSum semiBound
  rw [← Finset.sum_sub_distrib]
  refine (Finset.abs_sum_le_sum_abs _ _).trans (Finset.sum_le_sum fun p hp => ?_)
  rw [← Finset.sum_sub_distrib]
  refine (Finset.abs_sum_le_sum_abs _ _).trans (Finset.sum_le_sum fun q hq => ?_)
  rw [mem_box] at hp hq
  have dp : cdeg p ≤ LA := by unfold cdeg at *; omega
  have dq : cdeg q ≤ LB := by unfold cdeg at *; omega
  generalize boxCoef x CA p * boxCoef y CB q = F
  generalize hn : cdeg p + cdeg q = n
  have he : 0 ≤ e := (abs_nonneg _).trans (hd 0 p 0 q dp dq (by omega) (by omega))
  set Xt := ∑ l1 ∈ Finset.range (L + cdeg p + 1), if orderUsed L (cdeg p) l1 then
      ∑ l2 ∈ Finset.range (L + cdeg q + 1), (if orderUsed L (cdeg q) l2 then
        (if |Qt l1 l2 n| < thrQ then 0 else Qt l1 l2 n • g l1 p l2 q) else 0) else 0 with hXt
  set X := ∑ l1 ∈ Finset.range (L + cdeg p + 1), ∑ l2 ∈ Finset.range (L + cdeg q + 1), Q l1 l2 n * G l1 p l2 q with hX
  have hdiff : |Xt - X| ≤ ∑ l1 ∈ Finset.range (L + cdeg p + 1), ∑ l2 ∈ Finset.range (L + cdeg q + 1),
      ((|Qt l1 l2 n - Q l1 l2 n| + thrQ) * b + |Q l1 l2 n| * e) := by
    rw [hXt, hX, ← Finset.sum_sub_distrib]
    refine (Finset.abs_sum_le_sum_abs _ _).trans (Finset.sum_le_sum fun l1 h1 => ?_)
    rw [Finset.mem_range] at h1
    have nn : ∀ l2, 0 ≤ (|Qt l1 l2 n - Q l1 l2 n| + thrQ) * b + |Q l1 l2 n| * e := fun l2 => by positivity
    by_cases u1 : orderUsed L (cdeg p) l1
    · rw [if_pos u1, ← Finset.sum_sub_distrib]
      refine (Finset.abs_sum_le_sum_abs _ _).trans (Finset.sum_le_sum fun l2 h2 => ?_)
      rw [Finset.mem_range] at h2
      by_cases u2 : orderUsed L (cdeg q) l2
      · rw [if_pos u2]
        have b1 := hg l1 p l2 q dp dq (by omega) (by omega)
        have b2 := hd l1 p l2 q dp dq (by omega) (by omega)
        have ec : (if |Qt l1 l2 n| < thrQ then (0:ℝ) else Qt l1 l2 n • g l1 p l2 q) = cutAt thrQ (Qt l1 l2 n) * g l1 p l2 q := by
          unfold cutAt
          split_ifs
          · rw [zero_mul]
          · rfl
        rw [ec]
        have e2 : cutAt thrQ (Qt l1 l2 n) * g l1 p l2 q - Q l1 l2 n * G l1 p l2 q =
            ((Qt l1 l2 n - Q l1 l2 n) + (cutAt thrQ (Qt l1 l2 n) - Qt l1 l2 n)) * g l1 p l2 q + Q l1 l2 n * (g l1 p l2 q - G l1 p l2 q) := by ring
        rw [e2]
        refine (abs_add_le _ _).trans (add_le_add ?_ ?_)
        · rw [abs_mul]
          exact mul_le_mul ((abs_add_le _ _).trans (add_le_add le_rfl (cutAt_diff hQ _))) b1 (abs_nonneg _) (by positivity)
        · rw [abs_mul]
          exact mul_le_mul_of_nonneg_left b2 (abs_nonneg _)
      · rw [if_neg u2, z2 l1 p l2 q (by omega) u2, mul_zero, sub_zero, abs_zero]
        exact nn l2
    · rw [if_neg u1, Finset.sum_eq_zero fun l2 _ => by rw [z1 l1 p l2 q (by omega) u1, mul_zero], sub_zero, abs_zero]
      exact Finset.sum_nonneg fun l2 _ => nn l2
  have hsize : |X| ≤ ∑ l1 ∈ Finset.range (L + cdeg p + 1), ∑ l2 ∈ Finset.range (L + cdeg q + 1), |Q l1 l2 n| * b := by
    refine (Finset.abs_sum_le_sum_abs _ _).trans (Finset.sum_le_sum fun l1 h1 => ?_)
    refine (Finset.abs_sum_le_sum_abs _ _).trans (Finset.sum_le_sum fun l2 h2 => ?_)
    rw [Finset.mem_range] at h1 h2
    rw [abs_mul]
    exact mul_le_mul_of_nonneg_left (hG l1 p l2 q dp dq (by omega) (by omega)) (abs_nonneg _)
  have target : |(if |F| < thrF then (0:ℝ) else F • Xt) - F * X| ≤ |F| * |Xt - X| + thrF * |X| := by
    split_ifs with c
    · rw [zero_sub, abs_neg, abs_mul]
      have := mul_le_mul_of_nonneg_right c.le (abs_nonneg X)
      have := mul_nonneg (abs_nonneg F) (abs_nonneg (Xt - X))
      linarith
    · rw [smul_eq_mul, ← mul_sub, abs_mul]
      have := mul_nonneg hF (abs_nonneg X)
      linarith
  refine target.trans ?_
  have s1 := mul_le_mul_of_nonneg_left hdiff (abs_nonneg F)
  have s2 := mul_le_mul_of_nonneg_left hsize hF
  refine (add_le_add s1 s2).trans (le_of_eq ?_)
  simp only [Finset.mul_sum, ← Finset.sum_add_distrib]

end Libgrpp
