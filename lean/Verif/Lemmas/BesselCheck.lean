import Verif.Model.Bessel
import Verif.Lemmas.Bessel
import Verif.Lemmas.BoysTable

/-! # Every number of `bessel_table_0` and `rfun_coeffs` against the function

For a row `x = i/100` the ratios `i_{l+1}/i_l` are enclosed from order 80 downwards by the recurrence, and the scaled
functions upwards from `exp(-x) i_0(x) = (1 - exp(-2x))/(2x)`. All in integers, evaluated by the kernel. -/

namespace Libgrpp

/-- `lo/S ≤ v ≤ hi/S` -/
def EnclS (S : ℕ) (v : ℝ) (p : ℕ × ℕ) : Prop := (p.1 : ℝ) ≤ v * S ∧ v * S ≤ (p.2 : ℝ)

/-- Ratio of order `n-1` from the ratio of order `n`, scale `10^40`. -/
def rhoStep (i n : ℕ) (p : ℕ × ℕ) : ℕ × ℕ :=
  (i * 10 ^ 80 / ((2 * n + 1) * 100 * 10 ^ 40 + i * p.2), i * 10 ^ 80 / ((2 * n + 1) * 100 * 10 ^ 40 + i * p.1) + 1)

/-- Ratios of orders `n-1, ..., 0` in front of `acc`. -/
def rhoGo (i : ℕ) : ℕ → ℕ × ℕ → List (ℕ × ℕ) → List (ℕ × ℕ)
  | 0, _, acc => acc
  | n + 1, p, acc => let q := rhoStep i (n + 1) p; rhoGo i n q (q :: acc)

/-- Ratios of orders `0, ..., 79`. -/
def rhoAll (i : ℕ) : List (ℕ × ℕ) := rhoGo i 80 (0, 10 ^ 40 * i / 16300 + 1) []

/-- Compare a number of the table with an enclosure of scale `10^250`. -/
def cmpEntry (e : ℕ) (p : ℕ × ℕ) : Bool :=
  let q := e % 1000
  let t := e / 1000 * 10 ^ (234 - q)
  Nat.ble q 234 && Nat.ble (t * 1000000000000) (p.1 * 1000000000002) && Nat.ble (p.2 * 999999999998) (t * 1000000000000) &&
    Nat.ble t (p.1 + 7 * 10 ^ 235) && Nat.ble p.2 (t + 7 * 10 ^ 235)

/-- Compare the remaining `n` numbers of a row. -/
def cmpGo : ℕ → ℕ → List (ℕ × ℕ) → ℕ × ℕ → Bool
  | 0, _, _, _ => true
  | n + 1, r, rho, p => cmpEntry (r % 10 ^ 20) p && (match rho with
    | [] => false
    | q :: rho => cmpGo n (r / 10 ^ 20) rho (p.1 * q.1 / 10 ^ 40, p.2 * q.2 / 10 ^ 40 + 1))

/-- Check row `i`; `e` encloses `exp(-i/50)`, scale `10^50`. -/
def cmpRow (i : ℕ) (r : ℕ) (e : ℕ × ℕ) : Bool :=
  cmpGo 60 r (rhoAll i) ((10 ^ 50 - e.2) * 50 * 10 ^ 200 / i, (10 ^ 50 - e.1) * 50 * 10 ^ 200 / i + 1)

/-- Lower bound of `exp(-0.02)`, scale `10^50`; the upper bound is one more. -/
def expFiftieth : ℕ := 98019867330675530222081410422530886629971240046914

/-- Next point. -/
def expStep50 (e : ℕ × ℕ) : ℕ × ℕ := (e.1 * expFiftieth / 10 ^ 50, e.2 * (expFiftieth + 1) / 10 ^ 50 + 1)

/-- Check rows from `i` on. -/
def cmpRows : List ℕ → ℕ → ℕ × ℕ → Bool
  | [], _, _ => true
  | r :: rs, i, e => cmpRow i r e && cmpRows rs (i + 1) (expStep50 e)

/-- Exponential enclosure after `n` points. -/
def expAt (e : ℕ × ℕ) : ℕ → ℕ × ℕ
  | 0 => e
  | n + 1 => expAt (expStep50 e) n

end Libgrpp
