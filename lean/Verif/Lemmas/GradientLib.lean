import Verif.Lemmas.GaussFormParts
import Verif.Props.FullLib
import Verif.Props.GrppGradient

/-! The gradient of the pseudopotential integrals with the routines of the library. -/

namespace Libgrpp

open MeasureTheory Set

/-! ## The pseudopotential as a form -/

/-- The outer-core part between two functions. -/
noncomputable def ocForm (C : Point) (oc : List (Potential × Shell)) (q : Fin 4) (f h : Point → ℝ) : ℝ :=
  ∑ a : Fin oc.length, spinorWeight oc[a].2.L oc[a].1.J q *
      (sandwich (2 * oc[a].2.L + 1) (ocMatrix oc[a].2.L q) (fun k => ∫ x, f x * potentialFn oc[a].1 C x * ocFn oc[a].2 C k x)
          (fun k => ∫ x, h x * ocFn oc[a].2 C k x) +
        sandwich (2 * oc[a].2.L + 1) (ocMatrix oc[a].2.L q) (fun k => ∫ x, f x * ocFn oc[a].2 C k x)
          (fun k => ∫ x, h x * potentialFn oc[a].1 C x * ocFn oc[a].2 C k x)) -
    ∑ a : Fin oc.length, ∑ b : Fin oc.length, if oc[a].1.L = oc[b].1.L ∧ oc[a].1.J = oc[b].1.J then
      ocDelta oc[a].1 oc[a].2 oc[b].1 oc[b].2 * spinorWeight oc[a].2.L oc[a].1.J q *
        sandwich (2 * oc[a].2.L + 1) (ocMatrix oc[a].2.L q) (fun k => ∫ x, f x * ocFn oc[a].2 C k x) (fun k => ∫ x, h x * ocFn oc[b].2 C k x)
      else 0

/-- The local part between two functions. -/
noncomputable def localForm (C : Point) (p : Option Potential) (f h : Point → ℝ) : ℝ :=
  match p with
  | none => 0
  | some p => ∫ r, f r * potentialFn p C r * h r

/-- The pseudopotential between two functions. -/
noncomputable def grppForm (C : Point) (g : GrppData) (q : Fin 4) (f h : Point → ℝ) : ℝ :=
  Fin.cases (localForm C g.local_ f h + (g.arep.map fun u => semilocal u.L.toNat projector C (potentialRadial u) f h).sum)
    (fun k => (g.esop.map fun u => 2 / (2 * (u.L : ℝ) + 1) * semilocal u.L.toNat (rotationMatrix u.L.toNat k) C (potentialRadial u) f h).sum) q +
    ocForm C g.oc q f h

theorem grppForm_basis (A B : Shell) (C : Point) (g : GrppData) (q : Fin 4) (m n : ℕ) :
    grppForm C g q (basisFn A m) (basisFn B n) = grppElement A B C g q m n := by
  unfold grppForm grppElement localForm localPotElement
  cases g.local_ <;> rfl

/-- The conditions on the pseudopotential under which it is a bounded form. -/
structure FormReady (gen : Nat → List Comp) (g : GrppData) : Prop where
  local_ : ∀ p, g.local_ = some p → p.Terms
  arep : ∀ u ∈ g.arep, u.Regular
  esop : ∀ u ∈ g.esop, u.Regular
  oc : ∀ e ∈ g.oc, OcBase gen e.1 e.2

theorem GForm.ite {C : Point} {W : (Point → ℝ) → (Point → ℝ) → ℝ} (c : Prop) [Decidable c] (h : c → GForm C W) :
    GForm C fun f g => if c then W f g else 0 := by
  by_cases hc : c
  · simpa only [if_pos hc] using h hc
  · simpa only [if_neg hc] using GForm.zero C

theorem grppForm_gform {gen : Nat → List Comp} (hg : DocumentedOrder gen) {g : GrppData} (h : FormReady gen g) (C : Point) (q : Fin 4) :
    GForm C (grppForm C g q) := by
  have hoc : GForm C (ocForm C g.oc q) := by
    have base : ∀ a : Fin g.oc.length, OcBase gen g.oc[a].1 g.oc[a].2 := fun a => h.oc _ (List.getElem_mem a.2)
    have comp : ∀ a : Fin g.oc.length, Complete g.oc[a].2 := fun a => (base a).made.complete hg
    unfold ocForm
    refine GForm.sub (GForm.sum _ fun a _ => GForm.const_mul (GForm.add ?_ ?_) _) (GForm.sum _ fun a _ => GForm.sum _ fun b _ => ?_)
    · exact GForm.sandwich _ _ (fun k hk => GLin.potential (base a).terms (comp a) (base a).made.pos C hk)
        (fun k hk => GLin.overlap (comp a) (base a).made.pos C hk)
    · exact GForm.sandwich _ _ (fun k hk => GLin.overlap (comp a) (base a).made.pos C hk)
        (fun k hk => GLin.potential (base a).terms (comp a) (base a).made.pos C hk)
    · refine GForm.ite _ fun hc => GForm.const_mul ?_ _
      have hL : g.oc[a].2.L = g.oc[b].2.L := by
        have := (base a).sameL.symm.trans (hc.1.trans (base b).sameL)
        exact_mod_cast this
      exact GForm.sandwich _ _ (fun k hk => GLin.overlap (comp a) (base a).made.pos C hk)
        (fun k hk => GLin.overlap (comp b) (base b).made.pos C (by rw [← hL]; exact hk))
  have hloc : GForm C (localForm C g.local_) := by
    unfold localForm
    cases hl : g.local_ with
    | none => exact GForm.zero C
    | some p => exact GForm.local (potential_weighted (h.local_ p hl) C)
  unfold grppForm
  refine GForm.add ?_ hoc
  refine Fin.cases ?_ (fun k => ?_) q
  · simp only [Fin.cases_zero]
    exact hloc.add (GForm.listSum _ fun u hu => GForm.semilocal (radialPot_of_regular (h.arep u hu)).mild _ _ C)
  · simp only [Fin.cases_succ]
    exact GForm.listSum _ fun u hu => (GForm.semilocal (radialPot_of_regular (h.esop u hu)).mild _ _ C).const_mul _

/-! ## Translation -/

theorem radius_translate (C r τ : Point) : radius (C + τ) (r + τ) = radius C r := by
  unfold radius; simp

theorem potentialFn_translate (p : Potential) (C r τ : Point) : potentialFn p (C + τ) (r + τ) = potentialFn p C r := by
  unfold potentialFn localTerm; simp only [radius_translate]

theorem ocFn_translate (s : Shell) (C : Point) (mi : ℕ) (x τ : Point) : ocFn s (C + τ) mi (x + τ) = ocFn s C mi x := by
  unfold ocFn; simp [radius_translate]

theorem project_translate (L : ℕ) (m : ℤ) (C τ : Point) (f : Point → ℝ) : project L m (C + τ) f = project L m C fun r => f (r + τ) := by
  funext r
  unfold project
  congr 1
  funext ω
  congr 2
  funext i
  simp only [Pi.add_apply]
  ring

theorem semilocal_translate (L : ℕ) (W : ℕ → ℕ → ℝ) (C τ : Point) (U : ℝ → ℝ) (f h : Point → ℝ) :
    semilocal L W (C + τ) U f h = semilocal L W C U (fun r => f (r + τ)) fun r => h (r + τ) := by
  unfold semilocal; simp only [project_translate]

theorem overlap_translate (s : Shell) (C τ : Point) (mi : ℕ) (f : Point → ℝ) :
    ∫ x, f x * ocFn s (C + τ) mi x = ∫ x, f (x + τ) * ocFn s C mi x := by
  rw [← integral_add_right_eq_self _ τ]
  simp only [ocFn_translate]

theorem potential_translate (p : Potential) (s : Shell) (C τ : Point) (mi : ℕ) (f : Point → ℝ) :
    ∫ x, f x * potentialFn p (C + τ) x * ocFn s (C + τ) mi x = ∫ x, f (x + τ) * potentialFn p C x * ocFn s C mi x := by
  rw [← integral_add_right_eq_self _ τ]
  simp only [ocFn_translate, potentialFn_translate]

theorem grppForm_translate (g : GrppData) (C : Point) (q : Fin 4) (f h : Point → ℝ) (τ : Point) :
    grppForm (C + τ) g q f h = grppForm C g q (fun r => f (r + τ)) fun r => h (r + τ) := by
  have hloc : localForm (C + τ) g.local_ f h = localForm C g.local_ (fun r => f (r + τ)) fun r => h (r + τ) := by
    unfold localForm
    cases g.local_ with
    | none => rfl
    | some p =>
      simp only []
      rw [← integral_add_right_eq_self _ τ]
      simp only [potentialFn_translate]
  unfold grppForm ocForm
  simp only [hloc, semilocal_translate, overlap_translate, potential_translate, potentialFn_translate]

/-! ## Derivatives -/

theorem basis_curve_dBasis (C : Point) {s : Shell} (hs : s.Pos) (k : Fin 3) (m : ℕ) :
    GCurve C (fun t => basisFn (s.moveTo k t) m) (dBasis s k m) (s.origin k) := by
  obtain ⟨f', h⟩ := basis_curve C hs k m
  have e : f' = dBasis s k m := by
    funext r
    exact (h.hasDerivAt r).deriv.symm
  rwa [e] at h

theorem grppForm_interaction {gen : Nat → List Comp} (hg : DocumentedOrder gen) {g : GrppData} (h : FormReady gen g) {A B : Shell}
    (hA : A.Pos) (hB : B.Pos) (C : Point) : Interaction (fun C => grppForm C g) A B C where
  translate := fun C q f k τ => grppForm_translate g C q f k τ
  diff := fun q k m n _ _ => by
    have := (grppForm_gform hg h C q).hasFDerivAt (basis_curve_dBasis C hA k m) (basis_curve_dBasis C hB k n)
    rw [moveTo_self, moveTo_self] at this
    exact this

theorem GForm.left_sub {C : Point} {W : (Point → ℝ) → (Point → ℝ) → ℝ} (hW : GForm C W) {s t u : Shell} (hs : s.Pos) (ht : t.Pos)
    (hu : u.Pos) (a b n : ℕ) (c : ℝ) :
    W (fun r => basisFn s a r - c * basisFn t b r) (basisFn u n) = W (basisFn s a) (basisFn u n) - c * W (basisFn t b) (basisFn u n) := by
  obtain ⟨β1, K1, p1, d1⟩ := basis_decays C hs a
  obtain ⟨β2, K2, p2, d2⟩ := basis_decays C ht b
  obtain ⟨β3, K3, p3, d3⟩ := basis_decays C hu n
  have := hW.left (min β1 (min β2 β3)) (lt_min p1 (lt_min p2 p3)) _ _ _ _ _ _ (-c) (d1.weaken (min_le_left _ _) le_rfl)
    (d2.weaken ((min_le_right _ _).trans (min_le_left _ _)) le_rfl) (d3.weaken ((min_le_right _ _).trans (min_le_right _ _)) le_rfl)
  simp only [neg_mul, ← sub_eq_add_neg] at this
  exact this

theorem GForm.right_sub {C : Point} {W : (Point → ℝ) → (Point → ℝ) → ℝ} (hW : GForm C W) {s t u : Shell} (hs : s.Pos) (ht : t.Pos)
    (hu : u.Pos) (a b n : ℕ) (c : ℝ) :
    W (basisFn u n) (fun r => basisFn s a r - c * basisFn t b r) = W (basisFn u n) (basisFn s a) - c * W (basisFn u n) (basisFn t b) := by
  obtain ⟨β1, K1, p1, d1⟩ := basis_decays C hs a
  obtain ⟨β2, K2, p2, d2⟩ := basis_decays C ht b
  obtain ⟨β3, K3, p3, d3⟩ := basis_decays C hu n
  have := hW.right (min β1 (min β2 β3)) (lt_min p1 (lt_min p2 p3)) _ _ _ _ _ _ (-c)
    (d3.weaken ((min_le_right _ _).trans (min_le_right _ _)) le_rfl) (d1.weaken (min_le_left _ _) le_rfl)
    (d2.weaken ((min_le_right _ _).trans (min_le_left _ _)) le_rfl)
  simp only [neg_mul, ← sub_eq_add_neg] at this
  exact this

end Libgrpp
