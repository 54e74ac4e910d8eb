import Verif.Lemmas.RealHarmonic

/-! Polynomials on the unit sphere are combinations of real spherical harmonics. -/

namespace Libgrpp

open MeasureTheory Set Polynomial
open scoped Nat ComplexConjugate

theorem rsh_orthonormal' (l l' : ℕ) (m m' : ℤ) (hm : m.natAbs ≤ l) (hm' : m'.natAbs ≤ l') :
    sphInt (fun ω => rsh l m ω * rsh l' m' ω) = if l = l' ∧ m = m' then 1 else 0 := by
  obtain ⟨h1, h2, h3⟩ := rsh_orthonormal_aux l m.natAbs l' m'.natAbs hm hm'
  obtain ⟨_, _, h4⟩ := rsh_orthonormal_aux l' m'.natAbs l m.natAbs hm' hm
  rcases lt_or_ge m 0 with s | s <;> rcases lt_or_ge m' 0 with s' | s'
  · have e : m = -(m.natAbs : ℤ) := by omega
    have e' : m' = -(m'.natAbs : ℤ) := by omega
    simp only [rshC_im l m.natAbs (by omega), rshC_im l' m'.natAbs (by omega), ← e, ← e'] at h2
    rw [h2]
    congr 1
    apply propext
    constructor
    · rintro ⟨a, b, c⟩
      exact ⟨a, by omega⟩
    · rintro ⟨a, b⟩
      exact ⟨a, by omega, by omega⟩
  · have e : m = -(m.natAbs : ℤ) := by omega
    have e' : m' = (m'.natAbs : ℤ) := by omega
    simp only [rshC_im l m.natAbs (by omega), rshC_re, ← e, ← e'] at h4
    rw [if_neg (by omega), ← h4]
    congr 1
    funext ω
    ring
  · have e : m = (m.natAbs : ℤ) := by omega
    have e' : m' = -(m'.natAbs : ℤ) := by omega
    simp only [rshC_im l' m'.natAbs (by omega), rshC_re, ← e, ← e'] at h3
    rw [if_neg (by omega), ← h3]
  · have e : m = (m.natAbs : ℤ) := by omega
    have e' : m' = (m'.natAbs : ℤ) := by omega
    simp only [rshC_re, ← e, ← e'] at h1
    rw [h1]
    congr 1
    apply propext
    constructor
    · rintro ⟨a, b⟩
      exact ⟨a, by omega⟩
    · rintro ⟨a, b⟩
      exact ⟨a, by omega⟩

/-- All pairs `(l, m)` with `l ≤ D`, `|m| ≤ l`. -/
noncomputable def lmSet (D : ℕ) : Finset (Σ _ : ℕ, ℤ) := (Finset.range (D + 1)).sigma fun l => Finset.Icc (-(l : ℤ)) l

theorem mem_lmSet {D : ℕ} {p : Σ _ : ℕ, ℤ} : p ∈ lmSet D ↔ p.1 ≤ D ∧ p.2.natAbs ≤ p.1 := by
  simp only [lmSet, Finset.mem_sigma, Finset.mem_range, Finset.mem_Icc]
  omega

theorem lmSet_mono {D D' : ℕ} (h : D ≤ D') : lmSet D ⊆ lmSet D' := by
  intro p hp
  rw [mem_lmSet] at hp ⊢
  omega

/-- `f` is on the unit sphere a combination of spherical harmonics of degree at most `D`. -/
def Spanned (D : ℕ) (f : Point → ℂ) : Prop :=
  ∃ c : (Σ _ : ℕ, ℤ) → ℂ, ∀ ω : Point, ∑ k, ω k ^ 2 = 1 → f ω = ∑ p ∈ lmSet D, c p * rsh p.1 p.2 ω

theorem Spanned.mono {D D' : ℕ} (h : D ≤ D') {f : Point → ℂ} (hf : Spanned D f) : Spanned D' f := by
  obtain ⟨c, hc⟩ := hf
  refine ⟨fun p => if p ∈ lmSet D then c p else 0, fun ω hω => ?_⟩
  rw [hc ω hω]
  beta_reduce
  refine Eq.trans (Finset.sum_congr rfl fun p hp => ?_) (Finset.sum_subset (lmSet_mono h) fun p _ hp => ?_)
  · rw [if_pos hp]
  · rw [if_neg hp, zero_mul]

theorem Spanned.add {D : ℕ} {f g : Point → ℂ} (hf : Spanned D f) (hg : Spanned D g) : Spanned D fun ω => f ω + g ω := by
  obtain ⟨c, hc⟩ := hf
  obtain ⟨d, hd⟩ := hg
  refine ⟨fun p => c p + d p, fun ω hω => ?_⟩
  beta_reduce
  rw [hc ω hω, hd ω hω, ← Finset.sum_add_distrib]
  exact Finset.sum_congr rfl fun p _ => by ring

theorem Spanned.smul {D : ℕ} {f : Point → ℂ} (a : ℂ) (hf : Spanned D f) : Spanned D fun ω => a * f ω := by
  obtain ⟨c, hc⟩ := hf
  refine ⟨fun p => a * c p, fun ω hω => ?_⟩
  beta_reduce
  rw [hc ω hω, Finset.mul_sum]
  exact Finset.sum_congr rfl fun p _ => by ring

theorem Spanned.zero {D : ℕ} : Spanned D fun _ => 0 := ⟨fun _ => 0, fun ω _ => by simp⟩

theorem Spanned.sum {D : ℕ} {ι : Type*} (s : Finset ι) {f : ι → Point → ℂ} (hf : ∀ i ∈ s, Spanned D (f i)) :
    Spanned D fun ω => ∑ i ∈ s, f i ω := by
  classical
  induction s using Finset.induction_on with
  | empty => simpa using Spanned.zero
  | insert a s ha ih =>
    simp only [Finset.sum_insert ha]
    exact (hf a (by simp)).add (ih fun i hi => hf i (by simp [hi]))

theorem Spanned.congr {D : ℕ} {f g : Point → ℂ} (hf : Spanned D f) (h : ∀ ω : Point, ∑ k, ω k ^ 2 = 1 → g ω = f ω) : Spanned D g := by
  obtain ⟨c, hc⟩ := hf
  exact ⟨c, fun ω hω => by rw [h ω hω, hc ω hω]⟩

theorem Spanned.rsh {D l : ℕ} {m : ℤ} (hl : l ≤ D) (hm : m.natAbs ≤ l) : Spanned D fun ω => (Libgrpp.rsh l m ω : ℂ) := by
  refine ⟨fun p => if p = ⟨l, m⟩ then 1 else 0, fun ω _ => ?_⟩
  rw [Finset.sum_eq_single (⟨l, m⟩ : Σ _ : ℕ, ℤ)]
  · simp
  · intro p _ hp
    beta_reduce
    rw [if_neg hp, zero_mul]
  · intro h
    exact absurd (mem_lmSet.2 ⟨hl, hm⟩) h

theorem Spanned.rshC {D l m : ℕ} (hl : l ≤ D) (hm : m ≤ l) : Spanned D (Libgrpp.rshC l m) := by
  have h1 : Spanned D fun ω => (Libgrpp.rsh l m ω : ℂ) := Spanned.rsh hl (by simpa using hm)
  have h2 : Spanned D fun ω => (Libgrpp.rsh l (-(m : ℤ)) ω : ℂ) := Spanned.rsh hl (by simpa using hm)
  by_cases h0 : m = 0
  · refine h1.congr fun ω _ => ?_
    subst h0
    apply Complex.ext
    · rw [rshC_re]
      simp
    · simp [Libgrpp.rshC]
  · refine (h1.add (h2.smul Complex.I)).congr fun ω _ => ?_
    apply Complex.ext
    · simp [← rshC_re]
    · simp [← rshC_im l m (by omega)]

theorem Spanned.conj_rshC {D l m : ℕ} (hl : l ≤ D) (hm : m ≤ l) : Spanned D fun ω => conj (Libgrpp.rshC l m ω) := by
  have h1 : Spanned D fun ω => (Libgrpp.rsh l m ω : ℂ) := Spanned.rsh hl (by simpa using hm)
  have h2 : Spanned D fun ω => (Libgrpp.rsh l (-(m : ℤ)) ω : ℂ) := Spanned.rsh hl (by simpa using hm)
  by_cases h0 : m = 0
  · refine h1.congr fun ω _ => ?_
    subst h0
    apply Complex.ext
    · rw [Complex.conj_re, rshC_re]
      simp
    · simp [Libgrpp.rshC]
  · refine (h1.add (h2.smul (-Complex.I))).congr fun ω _ => ?_
    apply Complex.ext
    · simp [← rshC_re]
    · simp [← rshC_im l m (by omega)]

theorem rshNorm_pos (l m : ℕ) : 0 < rshNorm l m := by
  unfold rshNorm
  have : 0 < Real.sqrt ((2 * l + 1) / (2 * Real.pi) * (((l - m)! : ℝ) / ((l + m)! : ℝ))) := by
    apply Real.sqrt_pos.2
    have := Real.pi_pos
    positivity
  split_ifs
  · positivity
  · simpa using this

/-- `z^j u^m`, `z^j ū^m` -/
theorem Spanned.zu (w : Point → ℂ) (m : ℕ) (hw : ∀ l, m ≤ l → Spanned l fun ω => ((rshNorm l m * (legendreDeriv l m).eval (ω 2) : ℝ) : ℂ) * w ω) (j : ℕ) :
    Spanned (m + j) fun ω => (ω 2 : ℂ) ^ j * w ω := by
  induction j using Nat.strong_induction_on with
  | _ j ih =>
    have hN : (rshNorm (m + j) m : ℂ) ≠ 0 := by exact_mod_cast (rshNorm_pos _ _).ne'
    set a : ℕ → ℂ := fun i => 1 / (2 ^ (m + j) * ((m + j)! : ℂ)) * ((-1) ^ i * ((m + j).choose i : ℂ) *
      (((2 * (m + j) - 2 * i)! : ℂ) / ((m + j - m - 2 * i)! : ℂ))) with ha
    have ha0 : a 0 ≠ 0 := by
      simp only [ha]
      have n1 : ((m + j)! : ℂ) ≠ 0 := by exact_mod_cast (Nat.factorial_pos _).ne'
      have n2 : ((2 * (m + j))! : ℂ) ≠ 0 := by exact_mod_cast (Nat.factorial_pos _).ne'
      have n3 : ((m + j - m)! : ℂ) ≠ 0 := by exact_mod_cast (Nat.factorial_pos _).ne'
      simp [n1, n2, Nat.factorial_ne_zero]
    have hexp : ∀ ω : Point, ((rshNorm (m + j) m * (legendreDeriv (m + j) m).eval (ω 2) : ℝ) : ℂ) * w ω =
        rshNorm (m + j) m * (a 0 * ((ω 2 : ℂ) ^ j * w ω) + ∑ i ∈ Finset.range (j / 2), a (i + 1) * ((ω 2 : ℂ) ^ (j - 2 * (i + 1)) * w ω)) := by
      intro ω
      have he : (((legendreDeriv (m + j) m).eval (ω 2) : ℝ) : ℂ) = a 0 * (ω 2 : ℂ) ^ j +
          ∑ i ∈ Finset.range (j / 2), a (i + 1) * (ω 2 : ℂ) ^ (j - 2 * (i + 1)) := by
        rw [legendreDeriv_eval _ _ (by omega), show (m + j - m) / 2 + 1 = j / 2 + 1 by omega, Finset.sum_range_succ', add_comm]
        simp only [ha, show m + j - m = j by omega]
        push_cast
        congr 1
        · simp only [Nat.sub_zero]
          ring
        · refine Finset.sum_congr rfl fun i _ => ?_
          ring
      push_cast
      rw [he, mul_assoc, add_mul, Finset.sum_mul, ← mul_assoc (a 0)]
      congr 2
      exact Finset.sum_congr rfl fun i _ => by ring
    have hrest : Spanned (m + j) fun ω => ∑ i ∈ Finset.range (j / 2), a (i + 1) * ((ω 2 : ℂ) ^ (j - 2 * (i + 1)) * w ω) := by
      refine Spanned.sum _ fun i hi => ?_
      simp only [Finset.mem_range] at hi
      exact ((ih (j - 2 * (i + 1)) (by omega)).mono (by omega)).smul _
    refine (((hw (m + j) (by omega)).smul (1 / (rshNorm (m + j) m * a 0))).add (hrest.smul (-(1 / a 0)))).congr fun ω _ => ?_
    rw [hexp ω]
    field_simp
    ring

theorem Spanned.zuPow (j m : ℕ) : Spanned (m + j) fun ω => (ω 2 : ℂ) ^ j * uC ω ^ m :=
  Spanned.zu (fun ω => uC ω ^ m) m (fun _ hl => Spanned.rshC le_rfl hl) j

theorem Spanned.zvPow (j m : ℕ) : Spanned (m + j) fun ω => (ω 2 : ℂ) ^ j * conj (uC ω) ^ m :=
  Spanned.zu (fun ω => conj (uC ω) ^ m) m (fun _ hl => (Spanned.conj_rshC le_rfl hl).congr fun ω _ => by simp [Libgrpp.rshC]) j

theorem uC_mul_conj (ω : Point) (hω : ∑ k, ω k ^ 2 = 1) : uC ω * conj (uC ω) = 1 - (ω 2 : ℂ) ^ 2 := by
  rw [conj_uC, uC_eq]
  rw [Fin.sum_univ_three] at hω
  have : ((ω 0 : ℂ) ^ 2 + (ω 1 : ℂ) ^ 2 + (ω 2 : ℂ) ^ 2) = 1 := by exact_mod_cast hω
  linear_combination this - (ω 1 : ℂ) ^ 2 * Complex.I_sq

theorem Spanned.uvz (p q c : ℕ) : Spanned (p + q + c) fun ω => uC ω ^ p * conj (uC ω) ^ q * (ω 2 : ℂ) ^ c := by
  rcases le_total q p with h | h
  · have h1 : Spanned (p + q + c) fun ω => ∑ i ∈ Finset.range (q + 1), ((-1) ^ i * (q.choose i : ℂ)) * ((ω 2 : ℂ) ^ (c + 2 * i) * uC ω ^ (p - q)) := by
      refine Spanned.sum _ fun i hi => ?_
      simp only [Finset.mem_range] at hi
      exact ((Spanned.zuPow (c + 2 * i) (p - q)).mono (by omega)).smul _
    refine h1.congr fun ω hω => ?_
    have : uC ω ^ p = uC ω ^ (p - q) * uC ω ^ q := by rw [← pow_add]; congr 1; omega
    rw [this, mul_assoc (uC ω ^ (p - q)), ← mul_pow, uC_mul_conj ω hω, sub_eq_add_neg, add_comm (1 : ℂ), add_pow, Finset.mul_sum, Finset.sum_mul]
    refine Finset.sum_congr rfl fun i _ => ?_
    rw [neg_pow, ← pow_mul, one_pow, pow_add]
    ring
  · have h1 : Spanned (p + q + c) fun ω => ∑ i ∈ Finset.range (p + 1), ((-1) ^ i * (p.choose i : ℂ)) * ((ω 2 : ℂ) ^ (c + 2 * i) * conj (uC ω) ^ (q - p)) := by
      refine Spanned.sum _ fun i hi => ?_
      simp only [Finset.mem_range] at hi
      exact ((Spanned.zvPow (c + 2 * i) (q - p)).mono (by omega)).smul _
    refine h1.congr fun ω hω => ?_
    have : conj (uC ω) ^ q = conj (uC ω) ^ p * conj (uC ω) ^ (q - p) := by rw [← pow_add]; congr 1; omega
    rw [this, ← mul_assoc (uC ω ^ p), ← mul_pow, uC_mul_conj ω hω, sub_eq_add_neg, add_comm (1 : ℂ), add_pow, Finset.sum_mul, Finset.sum_mul]
    refine Finset.sum_congr rfl fun i _ => ?_
    rw [neg_pow, ← pow_mul, one_pow, pow_add]
    ring

/-- Every monomial is on the sphere a combination of harmonics up to its degree. -/
theorem Spanned.monomial (a b c : ℕ) : Spanned (a + b + c) fun ω => (ω 0 : ℂ) ^ a * (ω 1 : ℂ) ^ b * (ω 2 : ℂ) ^ c := by
  have h1 : Spanned (a + b + c) fun ω => ∑ i ∈ Finset.range (a + 1), ∑ j ∈ Finset.range (b + 1),
      ((a.choose i : ℂ) * (b.choose j : ℂ) * (1 / 2) ^ a * (1 / (2 * Complex.I)) ^ b * (-1) ^ (b - j)) *
        (uC ω ^ (i + j) * conj (uC ω) ^ ((a - i) + (b - j)) * (ω 2 : ℂ) ^ c) := by
    refine Spanned.sum _ fun i hi => Spanned.sum _ fun j hj => ?_
    simp only [Finset.mem_range] at hi hj
    exact ((Spanned.uvz (i + j) ((a - i) + (b - j)) c).mono (by omega)).smul _
  refine h1.congr fun ω _ => ?_
  have hI : (2 * Complex.I) ≠ 0 := by simp
  have hx : (ω 0 : ℂ) = (1 / 2) * (uC ω + conj (uC ω)) := by
    rw [conj_uC, uC_eq]
    ring
  have hy : (ω 1 : ℂ) = (1 / (2 * Complex.I)) * (uC ω + -conj (uC ω)) := by
    rw [conj_uC, uC_eq]
    field_simp
    ring
  rw [hx, hy, mul_pow, mul_pow, add_pow, add_pow]
  rw [show ((1:ℂ) / 2) ^ a * (∑ i ∈ Finset.range (a + 1), uC ω ^ i * conj (uC ω) ^ (a - i) * (a.choose i : ℂ)) *
      ((1 / (2 * Complex.I)) ^ b * ∑ j ∈ Finset.range (b + 1), uC ω ^ j * (-conj (uC ω)) ^ (b - j) * (b.choose j : ℂ)) * (ω 2 : ℂ) ^ c =
      ((1:ℂ) / 2) ^ a * (1 / (2 * Complex.I)) ^ b * (ω 2 : ℂ) ^ c * ((∑ i ∈ Finset.range (a + 1), uC ω ^ i * conj (uC ω) ^ (a - i) * (a.choose i : ℂ)) *
      ∑ j ∈ Finset.range (b + 1), uC ω ^ j * (-conj (uC ω)) ^ (b - j) * (b.choose j : ℂ)) by ring, Finset.sum_mul_sum, Finset.mul_sum]
  refine Finset.sum_congr rfl fun i _ => ?_
  rw [Finset.mul_sum]
  refine Finset.sum_congr rfl fun j _ => ?_
  rw [neg_pow (conj (uC ω)), pow_add, pow_add]
  ring

end Libgrpp
