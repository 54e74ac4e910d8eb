import Verif.Model.Float
import Verif.Lemmas.OneElectronPrim
import Mathlib.Analysis.SpecialFunctions.Pow.Real
import Mathlib.Analysis.SpecialFunctions.Log.Basic
import Mathlib.Analysis.SpecialFunctions.Exp

/-! # Auxiliary lemmas for Props/Float: rounding errors -/

namespace Libgrpp

/-! ## Relative perturbations -/

/-- `v` is `x` times a factor between `exp (-w)` and `exp w`. -/
def Near (w v x : ℝ) : Prop := ∃ d, |d| ≤ w ∧ v = x * Real.exp d

theorem Near.refl {w : ℝ} (hw : 0 ≤ w) (x : ℝ) : Near w x x := ⟨0, by simpa using hw, by simp⟩

theorem Near.of_abs {u w v x : ℝ} (h0 : 0 ≤ u) (h1 : u < 1) (hw : u / (1 - u) ≤ w) (h : |v - x| ≤ u * |x|) : Near w v x := by
  have h2 : 0 < 1 - u := by linarith
  have hw0 : 0 ≤ u / (1 - u) := div_nonneg h0 h2.le
  by_cases hx : x = 0
  · subst hx
    exact ⟨0, by simpa using hw0.trans hw, by simpa using h⟩
  have hq : |v / x - 1| ≤ u := by
    rw [show v / x - 1 = (v - x) / x by field_simp, abs_div, div_le_iff₀ (abs_pos.2 hx)]
    exact h
  obtain ⟨q1, q2⟩ := abs_le.1 hq
  have hp : 0 < v / x := by linarith
  refine ⟨Real.log (v / x), ?_, by rw [Real.exp_log hp]; field_simp⟩
  refine le_trans ?_ hw
  rw [abs_le]
  constructor
  · have : Real.log (1 - u) ≤ Real.log (v / x) := Real.log_le_log h2 (by linarith)
    have h3 := Real.one_sub_inv_le_log_of_pos h2
    have h4 : 1 - (1 - u)⁻¹ = -(u / (1 - u)) := by field_simp; ring
    linarith
  · have h3 := Real.log_le_sub_one_of_pos hp
    have h4 : u ≤ u / (1 - u) := by
      rw [le_div_iff₀ h2]
      nlinarith
    linarith

theorem Near.mono {w w' v x : ℝ} (h : Near w v x) (hw : w ≤ w') : Near w' v x := by
  obtain ⟨d, h1, h2⟩ := h
  exact ⟨d, h1.trans hw, h2⟩

theorem Near.trans {w1 w2 v x y : ℝ} (h : Near w1 v x) (g : Near w2 x y) : Near (w1 + w2) v y := by
  obtain ⟨d, h1, rfl⟩ := h
  obtain ⟨e, g1, rfl⟩ := g
  exact ⟨d + e, (abs_add_le d e).trans (add_le_add h1 g1), by rw [Real.exp_add]; ring⟩

theorem Near.mul {w1 w2 v1 v2 x1 x2 : ℝ} (h : Near w1 v1 x1) (g : Near w2 v2 x2) : Near (w1 + w2) (v1 * v2) (x1 * x2) := by
  obtain ⟨d, h1, rfl⟩ := h
  obtain ⟨e, g1, rfl⟩ := g
  exact ⟨d + e, (abs_add_le d e).trans (add_le_add h1 g1), by rw [Real.exp_add]; ring⟩

theorem Near.div {w1 w2 v1 v2 x1 x2 : ℝ} (h : Near w1 v1 x1) (g : Near w2 v2 x2) : Near (w1 + w2) (v1 / v2) (x1 / x2) := by
  obtain ⟨d, h1, rfl⟩ := h
  obtain ⟨e, g1, rfl⟩ := g
  refine ⟨d - e, (abs_sub d e).trans (add_le_add h1 g1), ?_⟩
  rw [Real.exp_sub, mul_div_mul_comm]

theorem Near.neg {w v x : ℝ} (h : Near w v x) : Near w (-v) (-x) := by
  obtain ⟨d, h1, rfl⟩ := h
  exact ⟨d, h1, by ring⟩

theorem Near.pos {w v x : ℝ} (h : Near w v x) (hx : 0 < x) : 0 < v := by
  obtain ⟨d, -, rfl⟩ := h
  positivity

theorem Near.rpow {w v x s : ℝ} (hx : 0 < x) (hs : 0 ≤ s) (h : Near w v x) : Near (s * w) (v ^ s) (x ^ s) := by
  obtain ⟨d, h1, rfl⟩ := h
  refine ⟨s * d, by rw [abs_mul, abs_of_nonneg hs]; exact mul_le_mul_of_nonneg_left h1 hs, ?_⟩
  rw [Real.mul_rpow hx.le (Real.exp_pos d).le, ← Real.exp_mul, mul_comm d s]

theorem Near.sqrt {w v x : ℝ} (hx : 0 < x) (h : Near w v x) : Near (w / 2) (Real.sqrt v) (Real.sqrt x) := by
  have := h.rpow hx (s := 1 / 2) (by norm_num)
  rw [Real.sqrt_eq_rpow, Real.sqrt_eq_rpow]
  exact this.mono (by linarith)

theorem Near.exp {w v x θ : ℝ} (hw : 0 ≤ w) (h : Near w v x) (hx : |x| ≤ θ) : Near (θ * (Real.exp w - 1)) (Real.exp v) (Real.exp x) := by
  obtain ⟨d, h1, rfl⟩ := h
  refine ⟨x * Real.exp d - x, ?_, by rw [← Real.exp_add]; ring_nf⟩
  have e : x * Real.exp d - x = x * (Real.exp d - 1) := by ring
  rw [e, abs_mul]
  refine mul_le_mul hx ?_ (abs_nonneg _) ((abs_nonneg _).trans hx)
  obtain ⟨d1, d2⟩ := abs_le.1 h1
  rw [abs_le]
  constructor
  · have h3 : Real.exp (-w) ≤ Real.exp d := Real.exp_le_exp.2 d1
    have h4 : Real.exp w * Real.exp (-w) = 1 := by rw [← Real.exp_add]; simp
    have h5 := Real.add_one_le_exp w
    nlinarith [Real.exp_pos w, Real.exp_pos (-w), sq_nonneg (Real.exp w - 1)]
  · linarith [Real.exp_le_exp.2 d2]

/-! ## Errors relative to a majorant -/

/-- `v` differs from `x` by at most `exp e - 1` times the majorant `a`. -/
structure Close (e v x a : ℝ) : Prop where
  nonneg : 0 ≤ e
  bound : |x| ≤ a
  err : |v - x| ≤ (Real.exp e - 1) * a

theorem exp_sub_one_nonneg {e : ℝ} (h : 0 ≤ e) : 0 ≤ Real.exp e - 1 := by
  linarith [Real.add_one_le_exp e]

theorem abs_exp_sub_one_le {d w : ℝ} (h : |d| ≤ w) : |Real.exp d - 1| ≤ Real.exp w - 1 := by
  obtain ⟨d1, d2⟩ := abs_le.1 h
  rw [abs_le]
  constructor
  · have h3 : Real.exp (-w) ≤ Real.exp d := Real.exp_le_exp.2 d1
    have h4 : Real.exp w * Real.exp (-w) = 1 := by rw [← Real.exp_add]; simp
    nlinarith [Real.exp_pos w, Real.exp_pos (-w), sq_nonneg (Real.exp w - 1)]
  · linarith [Real.exp_le_exp.2 d2]

theorem Near.close {w v x a : ℝ} (h : Near w v x) (ha : |x| ≤ a) : Close w v x a := by
  obtain ⟨d, h1, rfl⟩ := h
  refine ⟨(abs_nonneg d).trans h1, ha, ?_⟩
  rw [show x * Real.exp d - x = (Real.exp d - 1) * x by ring, abs_mul]
  exact mul_le_mul (abs_exp_sub_one_le h1) ha (abs_nonneg _) (exp_sub_one_nonneg ((abs_nonneg d).trans h1))

theorem Close.maj {e v x a : ℝ} (h : Close e v x a) : 0 ≤ a := (abs_nonneg x).trans h.bound

theorem Close.abs_le {e v x a : ℝ} (h : Close e v x a) : |v| ≤ a * Real.exp e := by
  have := abs_add_le (v - x) x
  rw [sub_add_cancel] at this
  nlinarith [h.err, h.bound]

theorem Close.mono {e e' v x a : ℝ} (h : Close e v x a) (he : e ≤ e') : Close e' v x a :=
  ⟨h.nonneg.trans he, h.bound, h.err.trans (mul_le_mul_of_nonneg_right (by linarith [Real.exp_le_exp.2 he]) h.maj)⟩

theorem Close.mono_maj {e v x a a' : ℝ} (h : Close e v x a) (ha : a ≤ a') : Close e v x a' :=
  ⟨h.nonneg, h.bound.trans ha, h.err.trans (mul_le_mul_of_nonneg_left ha (exp_sub_one_nonneg h.nonneg))⟩

theorem Close.round {e w v' v x a : ℝ} (h : Close e v x a) (g : Near w v' v) : Close (e + w) v' x a := by
  obtain ⟨d, h1, rfl⟩ := g
  have hw : 0 ≤ w := (abs_nonneg d).trans h1
  refine ⟨add_nonneg h.nonneg hw, h.bound, ?_⟩
  have e1 : |v * Real.exp d - x| ≤ |v| * |Real.exp d - 1| + |v - x| := by
    rw [show v * Real.exp d - x = v * (Real.exp d - 1) + (v - x) by ring, ← abs_mul]
    exact abs_add_le _ _
  have e2 : |v| * |Real.exp d - 1| ≤ a * Real.exp e * (Real.exp w - 1) :=
    mul_le_mul h.abs_le (abs_exp_sub_one_le h1) (abs_nonneg _) (mul_nonneg h.maj (Real.exp_pos _).le)
  rw [Real.exp_add]
  nlinarith [h.err]

theorem Close.mul {e1 e2 v1 v2 x1 x2 a1 a2 : ℝ} (h : Close e1 v1 x1 a1) (g : Close e2 v2 x2 a2) :
    Close (e1 + e2) (v1 * v2) (x1 * x2) (a1 * a2) := by
  refine ⟨add_nonneg h.nonneg g.nonneg, by rw [abs_mul]; exact mul_le_mul h.bound g.bound (abs_nonneg _) h.maj, ?_⟩
  have e : |v1 * v2 - x1 * x2| ≤ |v1| * |v2 - x2| + |x2| * |v1 - x1| := by
    rw [show v1 * v2 - x1 * x2 = v1 * (v2 - x2) + x2 * (v1 - x1) by ring, ← abs_mul, ← abs_mul]
    exact abs_add_le _ _
  have f1 : |v1| * |v2 - x2| ≤ a1 * Real.exp e1 * ((Real.exp e2 - 1) * a2) :=
    mul_le_mul h.abs_le g.err (abs_nonneg _) (mul_nonneg h.maj (Real.exp_pos _).le)
  have f2 : |x2| * |v1 - x1| ≤ a2 * ((Real.exp e1 - 1) * a1) := mul_le_mul g.bound h.err (abs_nonneg _) g.maj
  rw [Real.exp_add]
  nlinarith

theorem Close.add {e v1 v2 x1 x2 a1 a2 : ℝ} (h : Close e v1 x1 a1) (g : Close e v2 x2 a2) : Close e (v1 + v2) (x1 + x2) (a1 + a2) := by
  refine ⟨h.nonneg, (abs_add_le _ _).trans (add_le_add h.bound g.bound), ?_⟩
  rw [show v1 + v2 - (x1 + x2) = (v1 - x1) + (v2 - x2) by ring, mul_add]
  exact (abs_add_le _ _).trans (add_le_add h.err g.err)

theorem Close.neg {e v x a : ℝ} (h : Close e v x a) : Close e (-v) (-x) a :=
  ⟨h.nonneg, by rw [abs_neg]; exact h.bound, by rw [show -v - -x = -(v - x) by ring, abs_neg]; exact h.err⟩

theorem Close.sub {e v1 v2 x1 x2 a1 a2 : ℝ} (h : Close e v1 x1 a1) (g : Close e v2 x2 a2) : Close e (v1 - v2) (x1 - x2) (a1 + a2) := by
  rw [sub_eq_add_neg, sub_eq_add_neg]
  exact h.add g.neg

theorem Close.refl {e : ℝ} (he : 0 ≤ e) (x : ℝ) : Close e x x |x| :=
  ⟨he, le_rfl, by simpa using mul_nonneg (exp_sub_one_nonneg he) (abs_nonneg x)⟩

theorem Close.zero {e : ℝ} (he : 0 ≤ e) : Close e 0 0 0 := by simpa using Close.refl he 0

/-! ## Results or traps -/

/-- The computation returns a value with the property, or is ended by a trap. -/
def OrTrap {α : Type} (x : Outcome α) (P : α → Prop) : Prop := x = .abort ∨ ∃ v, x = .ok v ∧ P v

theorem OrTrap.ok {α : Type} {v : α} {P : α → Prop} (h : P v) : OrTrap (.ok v) P := .inr ⟨v, rfl, h⟩

theorem OrTrap.bind {α β : Type} {x : Outcome α} {k : α → Outcome β} {P : α → Prop} {Q : β → Prop} (h : OrTrap x P)
    (g : ∀ v, P v → OrTrap (k v) Q) : OrTrap (x >>= k) Q := by
  rcases h with rfl | ⟨v, rfl, hv⟩
  · exact .inl rfl
  · exact g v hv

theorem OrTrap.mono {α : Type} {x : Outcome α} {P Q : α → Prop} (h : OrTrap x P) (g : ∀ v, P v → Q v) : OrTrap x Q := by
  rcases h with rfl | ⟨v, rfl, hv⟩
  · exact .inl rfl
  · exact .ok (g v hv)

theorem orTrap_forRange {σ : Type} {n : Nat} {s : σ} {body : Nat → σ → Outcome σ} {Q : σ → Prop} (I : Nat → σ → Prop) (h0 : I 0 s)
    (hstep : ∀ i s, i < n → I i s → OrTrap (body i s) (I (i + 1))) (hpost : ∀ s, I n s → Q s) : OrTrap (forRange n s body) Q := by
  refine OrTrap.mono ?_ hpost
  clear hpost
  induction n with
  | zero => exact .ok h0
  | succ n ih =>
    rw [forRange_succ]
    exact (ih fun i s hi => hstep i s (by omega)).bind fun v hv => hstep n v (by omega) hv

theorem orTrap_forCoord {σ : Type} {s : σ} {body : Fin 3 → σ → Outcome σ} {Q : σ → Prop} (I : Nat → σ → Prop) (h0 : I 0 s)
    (hstep : ∀ (c : Fin 3) s, I c.val s → OrTrap (body c s) (I (c.val + 1))) (hpost : ∀ s, I 3 s → Q s) : OrTrap (forCoord s body) Q := by
  unfold forCoord
  exact (hstep 0 s h0).bind fun s1 h1 => (hstep 1 s1 h1).bind fun s2 h2 => (hstep 2 s2 h2).mono hpost

/-- The standard model of floating-point arithmetic: unit roundoff `u` for the operations, `e` for the library functions. -/
structure Arith.Rounds (F : Arith) (u e : ℝ) : Prop where
  add : ∀ x y, OrTrap (F.add x y) fun v => |v - (x + y)| ≤ u * |x + y|
  sub : ∀ x y, OrTrap (F.sub x y) fun v => |v - (x - y)| ≤ u * |x - y|
  mul : ∀ x y, OrTrap (F.mul x y) fun v => |v - x * y| ≤ u * |x * y|
  div : ∀ x y, y ≠ 0 → OrTrap (F.div x y) fun v => |v - x / y| ≤ u * |x / y|
  sqrt : ∀ x, 0 ≤ x → OrTrap (F.sqrt x) fun v => |v - Real.sqrt x| ≤ u * |Real.sqrt x|
  exp : ∀ x, OrTrap (F.exp x) fun v => |v - Real.exp x| ≤ e * |Real.exp x|
  pow : ∀ x y, 0 < x → OrTrap (F.pow x y) fun v => |v - x ^ y| ≤ e * |x ^ y|
  pi : |F.pi - Real.pi| ≤ u * |Real.pi|

/-- The same with perturbations in the exponent. -/
structure Arith.Acc (F : Arith) (w z : ℝ) : Prop where
  nonneg : 0 ≤ w
  nonneg' : 0 ≤ z
  add : ∀ x y, OrTrap (F.add x y) fun v => Near w v (x + y)
  sub : ∀ x y, OrTrap (F.sub x y) fun v => Near w v (x - y)
  mul : ∀ x y, OrTrap (F.mul x y) fun v => Near w v (x * y)
  div : ∀ x y, y ≠ 0 → OrTrap (F.div x y) fun v => Near w v (x / y)
  sqrt : ∀ x, 0 ≤ x → OrTrap (F.sqrt x) fun v => Near w v (Real.sqrt x)
  exp : ∀ x, OrTrap (F.exp x) fun v => Near z v (Real.exp x)
  pow : ∀ x y, 0 < x → OrTrap (F.pow x y) fun v => Near z v (x ^ y)
  pi : Near w F.pi Real.pi

theorem Arith.Rounds.acc {F : Arith} {u e : ℝ} (h : F.Rounds u e) (hu : 0 ≤ u) (hu1 : u < 1) (he : 0 ≤ e) (he1 : e < 1) :
    F.Acc (u / (1 - u)) (e / (1 - e)) where
  nonneg := div_nonneg hu (by linarith)
  nonneg' := div_nonneg he (by linarith)
  add x y := (h.add x y).mono fun _ hv => Near.of_abs hu hu1 le_rfl hv
  sub x y := (h.sub x y).mono fun _ hv => Near.of_abs hu hu1 le_rfl hv
  mul x y := (h.mul x y).mono fun _ hv => Near.of_abs hu hu1 le_rfl hv
  div x y hy := (h.div x y hy).mono fun _ hv => Near.of_abs hu hu1 le_rfl hv
  sqrt x hx := (h.sqrt x hx).mono fun _ hv => Near.of_abs hu hu1 le_rfl hv
  exp x := (h.exp x).mono fun _ hv => Near.of_abs he he1 le_rfl hv
  pow x y hx := (h.pow x y hx).mono fun _ hv => Near.of_abs he he1 le_rfl hv
  pi := Near.of_abs hu hu1 le_rfl h.pi

section
variable {F : Arith} {w z : ℝ} (hF : F.Acc w z)
include hF

theorem Arith.Acc.mulN {e1 e2 v1 v2 x1 x2 : ℝ} (h : Near e1 v1 x1) (g : Near e2 v2 x2) :
    OrTrap (F.mul v1 v2) fun v => Near (e1 + e2 + w) v (x1 * x2) :=
  (hF.mul v1 v2).mono fun _ hv => (hv.trans (h.mul g)).mono (by linarith)

theorem Arith.Acc.divN {e1 e2 v1 v2 x1 x2 : ℝ} (h : Near e1 v1 x1) (g : Near e2 v2 x2) (hx : 0 < x2) :
    OrTrap (F.div v1 v2) fun v => Near (e1 + e2 + w) v (x1 / x2) :=
  (hF.div v1 v2 (g.pos hx).ne').mono fun _ hv => (hv.trans (h.div g)).mono (by linarith)

theorem Arith.Acc.mulC {e1 e2 v1 v2 x1 x2 a1 a2 : ℝ} (h : Close e1 v1 x1 a1) (g : Close e2 v2 x2 a2) :
    OrTrap (F.mul v1 v2) fun v => Close (e1 + e2 + w) v (x1 * x2) (a1 * a2) :=
  (hF.mul v1 v2).mono fun _ hv => (h.mul g).round hv

theorem Arith.Acc.divC {e1 e2 v1 v2 x1 x2 a1 : ℝ} (h : Close e1 v1 x1 a1) (g : Near e2 v2 x2) (hx : 0 < x2) :
    OrTrap (F.div v1 v2) fun v => Close (e1 + e2 + w) v (x1 / x2) (a1 / x2) := by
  refine (hF.div v1 v2 (g.pos hx).ne').mono fun _ hv => ?_
  have h1 : Near e2 (1 / v2) (1 / x2) := ((Near.refl le_rfl 1).div g).mono (by linarith)
  have := (h.mul (h1.close le_rfl)).round (by rw [mul_one_div]; exact hv)
  rw [mul_one_div, abs_of_pos (by positivity), mul_one_div] at this
  exact this

theorem Arith.Acc.addC {e v1 v2 x1 x2 a1 a2 : ℝ} (h : Close e v1 x1 a1) (g : Close e v2 x2 a2) :
    OrTrap (F.add v1 v2) fun v => Close (e + w) v (x1 + x2) (a1 + a2) :=
  (hF.add v1 v2).mono fun _ hv => (h.add g).round hv

theorem Arith.Acc.subC {e v1 v2 x1 x2 a1 a2 : ℝ} (h : Close e v1 x1 a1) (g : Close e v2 x2 a2) :
    OrTrap (F.sub v1 v2) fun v => Close (e + w) v (x1 - x2) (a1 + a2) :=
  (hF.sub v1 v2).mono fun _ hv => (h.sub g).round hv

/-! ## The normalisation factor -/

theorem flNormFactor_near (L : Nat) {a : ℝ} (ha : 0 < a) :
    OrTrap (flNormFactor F L 0 0 a) fun v => Near ((4 + L / 2) * w + 2 * z) v (gaussianNormFactor L 0 0 a) := by
  have hw := hF.nonneg
  unfold flNormFactor gaussianNormFactor
  refine (hF.mul 2 a).bind fun x1 h1 => ?_
  refine (hF.divN h1 hF.pi Real.pi_pos).bind fun x2 h2 => ?_
  have p2 : 0 < 2 * a / Real.pi := by positivity
  refine (hF.pow x2 0.75 (h2.pos p2)).bind fun x3 h3 => ?_
  have h3 := h3.trans (h2.rpow p2 (s := 0.75) (by norm_num))
  refine (hF.mul 4 a).bind fun y1 g1 => ?_
  have p4 : 0 < 4 * a := by positivity
  refine (hF.pow y1 _ (g1.pos p4)).bind fun y2 g2 => ?_
  have g2 := g2.trans (g1.rpow p4 (s := 0.5 * ((L : ℝ) + (0 : ℕ) + (0 : ℕ))) (by positivity))
  refine (hF.mulN h3 g2).mono fun v hv => hv.mono ?_
  push_cast
  ring_nf
  nlinarith

end

end Libgrpp
