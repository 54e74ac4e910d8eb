import Verif.Lemmas.PlaneWaveDir
import Verif.Lemmas.RadialTable
import Verif.Lemmas.Type1
import Verif.Lemmas.OverlapGradient
import Verif.Lemmas.Angular
import Verif.Model.SpecLocal

/-! Value computed by the numerical routine for radially local potentials. -/

namespace Libgrpp

/-- A shell as built by the constructor: arrays allocated, components of degree `L` (at least one), positive exponents. -/
structure Shell.Homog (s : Shell) : Prop where
  wf : s.WF
  listed : s.Listed
  deg : ∀ c ∈ s.cartList, c.1 + c.2.1 + c.2.2 = s.L
  size : 0 < s.cart_size
  pos : s.Pos

theorem Shell.Made.homog {gen : Nat → List Comp} (hg : DocumentedOrder gen) {s : Shell} (h : s.Made gen) : s.Homog := by
  obtain ⟨h1, h2, h3⟩ := cartesian_turbomole_complete s.L
  have hl : s.cartList = cartesianTurbomole s.L := by rw [h.list, hg.eq]
  have hd : ∀ c ∈ s.cartList, c.1 + c.2.1 + c.2.2 = s.L := by
    rintro ⟨n, l, m⟩ hm
    rw [hl] at hm
    exact (h3 n l m).1 hm
  refine ⟨h.wf, ⟨by rw [h.size, hl, h1], fun c hc => ?_⟩, hd, ?_, h.pos⟩
  · have := hd c hc
    omega
  · rw [h.size]
    unfold cartSize
    have : 2 ≤ (s.L + 1) * (s.L + 2) := Nat.le_trans (by omega : 2 ≤ 1 * (s.L + 2)) (Nat.mul_le_mul_right _ (by omega))
    omega

theorem Shell.Homog.comp_deg {s : Shell} (h : s.Homog) {m : Nat} (hm : m < s.cart_size) :
    (s.comp m).1 + (s.comp m).2.1 + (s.comp m).2.2 = s.L := by
  have hl : m < s.cartList.length := h.listed.1 ▸ hm
  apply h.deg
  simp [Shell.comp, List.getD, List.getElem?_eq_getElem hl]

theorem Shell.Homog.firstDegree {s : Shell} (h : s.Homog) : firstDegree s = .ok s.L := by
  unfold Libgrpp.firstDegree
  rw [s.rd_comp h.listed h.size, Outcome.ok_bind, h.comp_deg h.size]

theorem rd_some {α : Type} {l : List α} {i : ℕ} {v : α} (h : l[i]? = some v) : rd l i = .ok v := by
  unfold rd
  rw [h]

/-- The number computed for one pair of components from the radial integrals `Q lam N`. -/
noncomputable def localSum (CA CB k : Point) (lmax : ℕ) (Q : ℕ → ℕ → ℝ) (x y : Comp) : ℝ :=
  ∑ p ∈ box x, ∑ q ∈ box y, if |boxCoef x CA p * boxCoef y CB q| < 1e-13 then 0 else
    boxCoef x CA p * boxCoef y CB q * ∑ lam ∈ Finset.range (lmax + 1),
      if |Q lam (p.1 + p.2.1 + p.2.2 + q.1 + q.2.1 + q.2.2)| < 1e-16 then 0 else
        angOmega lam (p + q) k * Q lam (p.1 + p.2.1 + p.2.2 + q.1 + q.2.1 + q.2.2)

theorem localElement_eq (CA CB k : Point) (lmax : ℕ) (hl : lmax ≤ 14) (table : List ℝ) (Q : ℕ → ℕ → ℝ)
    (ht : ∀ lam n, lam ≤ lmax → n ≤ lmax → table[lam * (lmax + 1) + n]? = some (Q lam n)) (x y : Comp)
    (hxy : x.1 + x.2.1 + x.2.2 + y.1 + y.2.1 + y.2.2 ≤ lmax) :
    localElement CA CB k lmax table x y = .ok (localSum CA CB k lmax Q x y) := by
  unfold localElement localSum
  rw [forMono_sum 1e-13 CA CB x y (by omega) (by omega) _ (fun p q => boxCoef x CA p * boxCoef y CB q *
    ∑ lam ∈ Finset.range (lmax + 1), if |Q lam (p.1 + p.2.1 + p.2.2 + q.1 + q.2.1 + q.2.2)| < 1e-16 then 0 else
        angOmega lam (p + q) k * Q lam (p.1 + p.2.1 + p.2.2 + q.1 + q.2.1 + q.2.2)), zero_add]
  intro p hp q hq _ s
  rw [mem_box] at hp hq
  simp only []
  rw [forRange_sum (fun lam => if |Q lam (p.1 + p.2.1 + p.2.2 + q.1 + q.2.1 + q.2.2)| < 1e-16 then 0 else
        angOmega lam (p + q) k * Q lam (p.1 + p.2.1 + p.2.2 + q.1 + q.2.1 + q.2.2)), zero_add, Outcome.ok_bind]
  intro lam hlam s
  have e := ht lam (p.1 + p.2.1 + p.2.2 + q.1 + q.2.1 + q.2.2) (by omega) (by omega)
  unfold getType1
  rw [rd_some e, Outcome.ok_bind]
  split_ifs
  · rw [add_zero]
  · rw [show angType1 lam (p.1 + q.1) (p.2.1 + q.2.1) (p.2.2 + q.2.2) k = .ok (angOmega lam (p + q) k) from
      angType1_dir lam (p + q) k (by omega) (Or.inl (by
        show p.1 + q.1 + (p.2.1 + q.2.1) + (p.2.2 + q.2.2) + lam ≤ 29
        omega)), Outcome.ok_bind]

/-- The vectors from the centres of the shells to the nucleus. -/
def toC (s : Shell) (C : Point) : Point := fun i => C i - s.origin i

/-- `k` of the code. -/
noncomputable def kVec (A B : Shell) (C : Point) (a b : ℝ) : Point := fun i => -2 * (a * toC A C i + b * toC B C i)

/-- The integrand of the radial integrals as the code evaluates it. -/
noncomputable def codeIntegrand (bt : BesselTab) (pot : ℝ → ℝ) (A B : Shell) (C : Point) (a b : ℝ) : Nat × Nat → ℝ → ℝ :=
  type1Integrand bt pot (∑ i, toC A C i ^ 2) (∑ i, toC B C i ^ 2) a b (vnorm (kVec A B C a b))
    (4 * Real.pi * gaussianNormFactor A.L 0 0 a * gaussianNormFactor B.L 0 0 b)

theorem radialLocal_spec {G : Type} (prm : LibParams G) (bt : BesselTab) (pot : ℝ → ℝ) (A B : Shell) (hA : A.Homog) (hB : B.Homog)
    (hL : A.L + B.L ≤ 14) (C : Point) (a b : ℝ) (buf : List ℝ) (hlen : A.cart_size * B.cart_size ≤ buf.length) :
    ∃ buf', radialLocal prm bt pot A B C a b buf = .ok buf' ∧
      (MatIs A.cart_size B.cart_size buf' (fun m n => localSum (toC A C) (toC B C) (kVec A B C a b) (A.L + B.L)
        (fun lam N => radialValue (codeIntegrand bt pot A B C a b) 2047 prm.radial none (N, lam)) (A.comp m) (B.comp n)) ∧
      SameBeyond (A.cart_size * B.cart_size) buf' buf) := by
  obtain ⟨buf0, hm, -, hsb⟩ := memset0_spec (A.cart_size * B.cart_size) buf hlen
  obtain ⟨t, ht, -, hv⟩ := tabulateType1_ok prm (codeIntegrand bt pot A B C a b) (A.L + B.L)
  obtain ⟨buf', hs, h1, h2, h3⟩ := storePairs_spec A B hA.listed hB.listed
    (localElement (toC A C) (toC B C) (kVec A B C a b) (A.L + B.L) t)
    (fun m n => localSum (toC A C) (toC B C) (kVec A B C a b) (A.L + B.L)
        (fun lam N => radialValue (codeIntegrand bt pot A B C a b) 2047 prm.radial none (N, lam)) (A.comp m) (B.comp n)) buf0
    (fun m n hm hn => localElement_eq _ _ _ _ hL t _ hv _ _ (by
      have := hA.comp_deg hm
      have := hB.comp_deg hn
      omega)) (by rw [hsb.1]; exact hlen)
  refine ⟨buf', ?_, h1, h2.trans hsb.1, fun p hp => (h3 p hp).trans (hsb.2 p hp)⟩
  unfold radialLocal
  rw [Outcome.assert_pos hA.size, Outcome.ok_bind, Outcome.assert_pos hB.size, Outcome.ok_bind, hm, Outcome.ok_bind]
  simp only []
  rw [hA.firstDegree, Outcome.ok_bind, hB.firstDegree, Outcome.ok_bind, Outcome.valid_pos (by omega), Outcome.ok_bind]
  have e1 : ∀ s : Shell, (C 0 - s.origin 0) * (C 0 - s.origin 0) + (C 1 - s.origin 1) * (C 1 - s.origin 1) +
      (C 2 - s.origin 2) * (C 2 - s.origin 2) = ∑ i, toC s C i ^ 2 := by
    intro s
    rw [Fin.sum_univ_three]
    unfold toC
    ring
  have e2 : kVec A B C a b 0 * kVec A B C a b 0 + kVec A B C a b 1 * kVec A B C a b 1 + kVec A B C a b 2 * kVec A B C a b 2 =
      ∑ i, kVec A B C a b i ^ 2 := by
    rw [Fin.sum_univ_three]
    ring
  simp only [e1]
  have e3 : ∀ i, -2 * (a * (C i - A.origin i) + b * (C i - B.origin i)) = kVec A B C a b i := fun i => rfl
  simp only [e3, e2]
  have := ht
  unfold codeIntegrand vnorm at this
  rw [this, Outcome.ok_bind]
  exact hs

end Libgrpp
