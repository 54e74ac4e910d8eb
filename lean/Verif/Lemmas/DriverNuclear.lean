import Verif.Model.DriverNuclear
import Verif.Lemmas.DriverGrpp
import Verif.Lemmas.NuclearAttraction
import Verif.Lemmas.Elements
import Mathlib.Analysis.Complex.ExponentialBounds
import Mathlib.Analysis.Real.Pi.Bounds

/-! # Helper lemmas for the nuclear-attraction matrix of the driver -/

namespace Libgrpp

/-- The routine fills, for the shells and atoms of the molecule, its array with `W A B atom`. -/
def NucFills {G : Type} (env : NucEnv G) (model : Int) (shells : List Shell) (atoms : List (Nat × Point))
    (W : Shell → Shell → Nat × Point → Nat → Nat → ℝ) : Prop :=
  ∀ a ∈ atoms, ∃ (mass : Nat) (mp : List ℝ), massNumberAbundant a.1 = .ok mass ∧ driverNucParams model (rmsJohnson mass) = .ok mp ∧
    ∀ A ∈ shells, ∀ B ∈ shells, ∀ buf : List ℝ, A.cart_size * B.cart_size ≤ buf.length →
      ∃ out, nuclearAttraction env A B a.2 a.1 model mp buf = .ok out ∧ out.length = buf.length ∧ MatIs A.cart_size B.cart_size out (W A B a)

theorem evalNuclear_spec {G : Type} {env : NucEnv G} {model : Int} {shells : List Shell} {atoms : List (Nat × Point)}
    {W : Shell → Shell → Nat × Point → Nat → Nat → ℝ} (hf : NucFills env model shells atoms W)
    (hd : dimOf shells * dimOf shells ≤ intMax + 1) (hfit : ∀ A ∈ shells, ∀ B ∈ shells, A.cart_size * B.cart_size ≤ maxBuf)
    (buf M : List ℝ) (hb : maxBuf ≤ buf.length) (hM : dimOf shells * dimOf shells ≤ M.length) :
    ∃ M', evalNuclear env model shells atoms buf M = .ok M' ∧ SameBeyond (dimOf shells * dimOf shells) M' M ∧
      ∀ i j m n, (hi : i < shells.length) → (hj : j < shells.length) → m < shells[i].cart_size → n < shells[j].cart_size →
        M'[(shellOff shells i + m) * dimOf shells + (shellOff shells j + n)]? =
          some (atoms.map fun a => W shells[i] shells[j] a m n).sum := by
  obtain ⟨M0, e0, z0, s0⟩ := memset0_spec (dimOf shells * dimOf shells) M hM
  obtain ⟨r, e, -, a⟩ := forShellPairs_spec (κ := Unit) shells ⟨0, fun _ => 0, 0, [], 0, [], []⟩
    (body := fun io jo bra ket (st : List ℝ × List ℝ) => forRange atoms.length st fun ia (st : List ℝ × List ℝ) => do
      let atom ← rd atoms ia
      let mass ← massNumberAbundant atom.1
      let mp ← driverNucParams model (rmsJohnson mass)
      let buf ← nuclearAttraction env bra ket atom.2 atom.1 model mp st.1
      let m ← addBlock (dimOf shells) st.2 bra.cart_size ket.cart_size buf io jo 1
      Outcome.ok (buf, m))
    (fun st => maxBuf ≤ st.1.length ∧ dimOf shells * dimOf shells ≤ st.2.length) (fun _ st => st.2)
    (fun _ A B m n => (atoms.map fun a => W A B a m n).sum) (buf, M0)
    ⟨hb, by rw [s0.1]; exact hM⟩ (by
      intro A hA B hB io jo st h1 h2 hst
      have step : ∀ ia (st : List ℝ × List ℝ), ia < atoms.length → (maxBuf ≤ st.1.length ∧ dimOf shells * dimOf shells ≤ st.2.length) →
          ∃ st' : List ℝ × List ℝ, (do
            let atom ← rd atoms ia
            let mass ← massNumberAbundant atom.1
            let mp ← driverNucParams model (rmsJohnson mass)
            let buf ← nuclearAttraction env A B atom.2 atom.1 model mp st.1
            let m ← addBlock (dimOf shells) st.2 A.cart_size B.cart_size buf io jo 1
            Outcome.ok (buf, m)) = .ok st' ∧ (maxBuf ≤ st'.1.length ∧ dimOf shells * dimOf shells ≤ st'.2.length) ∧
            ∀ _ : Unit, Added (dimOf shells) (blockAt io jo A.cart_size B.cart_size (W A B (atoms.getD ia (0, fun _ => 0)))) st.2 st'.2 := by
        rintro ia ⟨buf, m⟩ hia ⟨hb, hm⟩
        have hg : atoms.getD ia (0, fun _ => 0) = atoms[ia] := by simp [List.getD, hia]
        obtain ⟨mass, mp, e1, e2, h3⟩ := hf atoms[ia] (List.getElem_mem hia)
        obtain ⟨out, e3, l3, m3⟩ := h3 A hA B hB buf ((hfit A hA B hB).trans hb)
        obtain ⟨m', e4, a4⟩ := addBlock_spec hd h1 h2 m3 1 m hm
        refine ⟨(out, m'), ?_, ⟨by rw [l3]; exact hb, by rw [a4.len]; exact hm⟩, fun _ => ?_⟩
        · rw [rd_ok hia, Outcome.ok_bind]
          simp only [e1, e2, e3, e4, Outcome.ok_bind]
        · rw [hg]; simpa using a4
      obtain ⟨st', e5, i5, a5⟩ := added_loop (κ := Unit) (dim := dimOf shells) (n := atoms.length)
        (fun _ (st : List ℝ × List ℝ) => maxBuf ≤ st.1.length ∧ dimOf shells * dimOf shells ≤ st.2.length) (fun _ st => st.2)
        (fun _ ia => blockAt io jo A.cart_size B.cart_size (W A B (atoms.getD ia (0, fun _ => 0)))) st hst step
      refine ⟨st', e5, i5, fun k => (a5 k).congr fun p q _ _ => ?_⟩
      rw [sum_range_list atoms (0, fun _ => 0) fun a => blockAt io jo A.cart_size B.cart_size (W A B a) p q, blockAt_sum])
  refine ⟨r.2, ?_, ⟨(a ()).len.trans s0.1, fun p hp => ((a ()).same p hp).trans (s0.2 p hp)⟩, fun i j m n hi hj hm hn => ?_⟩
  · unfold evalNuclear
    rw [basisDim_eq, Outcome.ok_bind, e0, Outcome.ok_bind, e]
    rfl
  · rw [added_elements (E := fun A B m n => (atoms.map fun a => W A B a m n).sum) (a ()) hi hj hm hn, z0 _ (row_lt _ _)]
    · simp
    · have := shellOff_add_le shells i hi; omega
    · have := shellOff_add_le shells j hj; omega

/-! ## Parameters -/

theorem massNumber_table {z : Nat} (h : z ≤ 130) : massNumberAbundant z = .ok (periodicTable.getD z ⟨[], 0⟩).mass := by
  have h' : z < periodicTable.length := by rw [periodicTable_length]; omega
  unfold massNumberAbundant
  rw [Outcome.valid_pos (by omega), Outcome.ok_bind, Int.toNat_natCast, rd_ok h', Outcome.ok_bind, List.getD_eq_getElem?_getD,
    List.getElem?_eq_getElem h']
  rfl

theorem massNumber_out {z : Nat} (h : 130 < z) : massNumberAbundant z = .ub := by
  unfold massNumberAbundant
  rw [Outcome.valid_pos (by omega), Outcome.ok_bind, Int.toNat_natCast, rd_ub (by rw [periodicTable_length]; omega)]
  rfl

theorem table_mass {z : Nat} (h : z ≤ 130) : (3 ≤ z → 7 ≤ (periodicTable.getD z ⟨[], 0⟩).mass) ∧ z ≤ (periodicTable.getD z ⟨[], 0⟩).mass := by
  have h' : z < periodicTable.length := by rw [periodicTable_length]; omega
  have hg := List.getElem?_eq_getElem h'
  have := (periodicTable_facts z (by omega) _ hg).2.2
  rw [List.getD_eq_getElem?_getD, hg]
  exact this

theorem table_light : ∀ z, z ≤ 2 → (periodicTable.getD z ⟨[], 0⟩).mass ≤ 4 := by
  intro z h
  interval_cases z <;> simp [periodicTable]

theorem nucleusRadius_eq (z : Nat) : rmsJohnson ((periodicTable.getD z ⟨[], 0⟩).mass : Int) * fermiToAtomic = nucleusRadius z := by
  unfold rmsJohnson fermiToAtomic nucleusRadius
  push_cast
  ring

theorem nucleusRadius_pos (z : Nat) : 0 < nucleusRadius z := by
  unfold nucleusRadius
  positivity

/-- The estimate of the parameters of the Fermi model in the driver: for mass numbers from 7 on it succeeds, and `a ≤ c`; up to 4 it fails. -/
theorem fermi_estimate_mass (A : Nat) :
    (7 ≤ A → (estimateFermi (rmsJohnson A) 0).1 = 1 ∧
      2.3 / (4 * Real.log 3) ≤ Real.sqrt (5 / 3 * rmsJohnson A * rmsJohnson A -
        7 / 3 * Real.pi * Real.pi * (2.3 / (4 * Real.log 3)) * (2.3 / (4 * Real.log 3)))) ∧
    (A ≤ 4 → (estimateFermi (rmsJohnson A) 0).1 = -1) := by
  have l1 := Real.log_three_gt_d9
  have l2 := Real.log_three_lt_d9
  have p1 := Real.pi_gt_d4
  have p2 := Real.pi_lt_d4
  have ha1 : (2.3 / (4 * Real.log 3) : ℝ) ≤ 0.524 := by
    rw [div_le_iff₀ (by linarith)]; linarith
  have ha2 : 0.523 ≤ (2.3 / (4 * Real.log 3) : ℝ) := by
    rw [le_div_iff₀ (by linarith)]; linarith
  have hA0 : (0:ℝ) ≤ (A : ℝ) := by positivity
  unfold estimateFermi rmsJohnson
  simp only
  generalize (2.3 / (4 * Real.log 3) : ℝ) = a at *
  have hs : a * a ≤ 0.524 * 0.524 := mul_le_mul ha1 ha1 (by linarith) (by norm_num)
  have hs' : 0.523 * 0.523 ≤ a * a := mul_le_mul ha2 ha2 (by norm_num) (by linarith)
  have hpp : Real.pi * Real.pi ≤ 3.1416 * 3.1416 := mul_le_mul p2.le p2.le (by linarith) (by norm_num)
  have hpp' : 3.1415 * 3.1415 ≤ Real.pi * Real.pi := mul_le_mul p1.le p1.le (by norm_num) (by linarith)
  have q1 : Real.pi * Real.pi * (a * a) ≤ 3.1416 * 3.1416 * (0.524 * 0.524) := mul_le_mul hpp hs (by nlinarith) (by norm_num)
  have q2 : 3.1415 * 3.1415 * (0.523 * 0.523) ≤ Real.pi * Real.pi * (a * a) := mul_le_mul hpp' hs' (by norm_num) (by nlinarith)
  have e1 : 7 / 3 * Real.pi * Real.pi * a * a = 7 / 3 * (Real.pi * Real.pi * (a * a)) := by ring
  constructor
  · intro h7
    have hA : (7:ℝ) ≤ A := by exact_mod_cast h7
    have hroot : (1.9 : ℝ) ≤ (A : ℝ) ^ (1 / 3 : ℝ) := by
      have : (1.9 : ℝ) = ((1.9 : ℝ) ^ (3 : ℝ)) ^ (1 / 3 : ℝ) := by
        rw [← Real.rpow_mul (by norm_num)]; norm_num
      rw [this]
      refine Real.rpow_le_rpow (by positivity) ?_ (by norm_num)
      refine le_trans ?_ hA
      rw [show (3:ℝ) = ((3:ℕ):ℝ) by norm_num, Real.rpow_natCast]
      norm_num
    have hR : (2.158 : ℝ) ≤ 0.836 * (((A : Int) : ℝ)) ^ (1 / 3 : ℝ) + 0.570 := by push_cast; linarith
    generalize 0.836 * (((A : Int) : ℝ)) ^ (1 / 3 : ℝ) + 0.570 = R at *
    have hRR : (2.158 * 2.158 : ℝ) ≤ R * R := mul_le_mul hR hR (by norm_num) (by linarith)
    have hc2 : a * a ≤ 5 / 3 * R * R - 7 / 3 * Real.pi * Real.pi * a * a := by
      rw [e1]; nlinarith
    refine ⟨?_, ?_⟩
    · rw [if_neg (by nlinarith)]
    · refine Real.le_sqrt_of_sq_le ?_
      rw [pow_two]; exact hc2
  · intro h4
    have hA : (A : ℝ) ≤ 4 := by exact_mod_cast h4
    have hroot : (A : ℝ) ^ (1 / 3 : ℝ) ≤ 1.5875 := by
      have : (1.5875 : ℝ) = ((1.5875 : ℝ) ^ (3 : ℝ)) ^ (1 / 3 : ℝ) := by
        rw [← Real.rpow_mul (by norm_num)]; norm_num
      rw [this]
      refine Real.rpow_le_rpow hA0 ?_ (by norm_num)
      refine hA.trans ?_
      rw [show (3:ℝ) = ((3:ℕ):ℝ) by norm_num, Real.rpow_natCast]
      norm_num
    have h0 : (0:ℝ) ≤ (A : ℝ) ^ (1 / 3 : ℝ) := by positivity
    have hR : 0.836 * (((A : Int) : ℝ)) ^ (1 / 3 : ℝ) + 0.570 ≤ (1.8972 : ℝ) := by push_cast; linarith
    have hR0 : 0 ≤ 0.836 * (((A : Int) : ℝ)) ^ (1 / 3 : ℝ) + 0.570 := by push_cast; positivity
    generalize 0.836 * (((A : Int) : ℝ)) ^ (1 / 3 : ℝ) + 0.570 = R at *
    have hRR : R * R ≤ (1.8972 * 1.8972 : ℝ) := mul_le_mul hR hR hR0 (by norm_num)
    rw [if_pos]
    rw [e1]; nlinarith

/-- The parameters which the driver passes for a Fermi nucleus. -/
theorem driver_fermi_params {z : Nat} (h3 : 3 ≤ z) (h : z ≤ 130) (model : Int) (hm : model = modelFermi ∨ model = modelBubble) :
    driverNucParams model (rmsJohnson ((periodicTable.getD z ⟨[], 0⟩).mass : Int)) = .ok [nucleusHalf z, nucleusSkin] ∧
      0 < nucleusSkin ∧ nucleusSkin ≤ nucleusHalf z := by
  have hF : (0:ℝ) < fermiToAtomic := by unfold fermiToAtomic; norm_num
  obtain ⟨h1, h2⟩ := (fermi_estimate_mass (periodicTable.getD z ⟨[], 0⟩).mass).1 ((table_mass h).1 h3)
  have hsk : 2.3 / (4 * Real.log 3) * fermiToAtomic = nucleusSkin := by unfold nucleusSkin fermiToAtomic; ring
  have hlog : 0 < Real.log 3 := Real.log_pos (by norm_num)
  have hsk0 : 0 < nucleusSkin := by rw [← hsk]; positivity
  set R := rmsJohnson ((periodicTable.getD z ⟨[], 0⟩).mass : Int) with hR
  have hrad : R * fermiToAtomic = nucleusRadius z := nucleusRadius_eq z
  have hc : Real.sqrt (5 / 3 * R * R - 7 / 3 * Real.pi * Real.pi * (2.3 / (4 * Real.log 3)) * (2.3 / (4 * Real.log 3))) * fermiToAtomic =
      nucleusHalf z := by
    unfold nucleusHalf
    rw [← hrad, ← hsk, show (5 / 3 * (R * fermiToAtomic) ^ 2 - 7 / 3 * Real.pi ^ 2 * (2.3 / (4 * Real.log 3) * fermiToAtomic) ^ 2 : ℝ) =
      (5 / 3 * R * R - 7 / 3 * Real.pi * Real.pi * (2.3 / (4 * Real.log 3)) * (2.3 / (4 * Real.log 3))) * fermiToAtomic ^ 2 by ring,
      Real.sqrt_mul' _ (by positivity), Real.sqrt_sq hF.le]
  refine ⟨?_, hsk0, ?_⟩
  · unfold driverNucParams
    rw [if_neg (by rcases hm with rfl | rfl <;> decide), if_neg (by rcases hm with rfl | rfl <;> decide)]
    simp only
    rw [Outcome.valid_pos (by rw [h1]; norm_num), Outcome.ok_bind]
    have e : estimateFermi R 0 = (1, Real.sqrt (5 / 3 * R * R - 7 / 3 * Real.pi * Real.pi * (2.3 / (4 * Real.log 3)) * (2.3 / (4 * Real.log 3))),
        2.3 / (4 * Real.log 3)) := by
      unfold estimateFermi at h1 ⊢
      simp only at h1 ⊢
      split_ifs at h1 ⊢
      · norm_num at h1
      · rfl
    rw [e]
    simp only
    rw [hc, hsk]
  · rw [← hc, ← hsk]
    exact mul_le_mul_of_nonneg_right h2 hF.le

theorem driver_light_params {z : Nat} (h : z ≤ 2) (model : Int) (hm : model = modelFermi ∨ model = modelBubble) :
    driverNucParams model (rmsJohnson ((periodicTable.getD z ⟨[], 0⟩).mass : Int)) = .ub := by
  have h1 := (fermi_estimate_mass (periodicTable.getD z ⟨[], 0⟩).mass).2 (table_light z h)
  unfold driverNucParams
  rw [if_neg (by rcases hm with rfl | rfl <;> decide), if_neg (by rcases hm with rfl | rfl <;> decide)]
  simp only
  rw [Outcome.valid_neg (by rw [h1]; norm_num)]
  rfl

end Libgrpp
