import Verif.Lemmas.SkChain
import Verif.Lemmas.BoysTable
import Verif.Model.SkTable

/-! # The numbers of `specfunc_fermi_sk_table` are values of `S_k`

From row to row the functions are continued by Taylor's formula of order 9 with step 0.005, in integers of scale `10^50`,
with a running bound of the error; the first row comes from the series at `x = -10`. The kernel evaluates this for the whole
table. -/

namespace Libgrpp

/-- Value of a polynomial, scale `10^50`. -/
def evalI (Y : ℤ) : List ℤ → ℤ
  | [] => 0
  | c :: l => c * 10 ^ 50 + Y * evalI Y l / 10 ^ 50

/-- Bound of its error if the argument has an error of at most `10^21`. -/
def evalErr : List ℤ → ℕ
  | [] => 0
  | _ :: l => evalErr l + (l.map Int.natAbs).sum * 10 ^ 21 + 1

/-- Taylor polynomial with step 1/200. -/
def taylorI : ℕ → List ℤ → ℤ
  | _, [] => 0
  | m, w :: ws => w + taylorI (m + 1) ws / ((200 * m : ℕ) : ℤ)

/-- The chain from order 7 to order -7. -/
def wList (V : List ℤ) (Y : ℤ) : List ℤ :=
  V ++ [0, 1, 2, 3, 4, 5, 6, 7].map fun p => evalI Y (lowC p)

/-- Values at the next point, for the orders 7 to 1. -/
def nextV (W : List ℤ) : List ℤ :=
  [taylorI 1 (W.take 9), taylorI 1 ((W.drop 1).take 9), taylorI 1 ((W.drop 2).take 9), taylorI 1 ((W.drop 3).take 9),
    taylorI 1 ((W.drop 4).take 9), taylorI 1 ((W.drop 5).take 9), taylorI 1 ((W.drop 6).take 9)]

/-- `e^x/(1+e^x)` from a lower bound of `e^x`. -/
def logiI (e : ℕ) : ℕ := e * 10 ^ 50 / (10 ^ 50 + e)

/-- Lower bound of `exp(0.005)`; the upper bound is one more. -/
def expStepUp : ℕ := 100501252085940106338356624112406858073487553859395

/-- Enclosure of the next exponential. -/
def expUp (e : ℕ × ℕ) : ℕ × ℕ := (e.1 * expStepUp / 10 ^ 50, e.2 * (expStepUp + 1) / 10 ^ 50 + 1)

/-- The literals (scale `10^21`, highest order first) agree with the values to within `2e-12`, given the error bound. -/
def rowOk (err : ℕ) : List ℕ → List ℤ → Bool
  | r :: rs, w :: ws => decide (((r : ℤ) * 10 ^ 29 - w).natAbs + err ≤ 2 * 10 ^ 38) && rowOk err rs ws
  | _, _ => true

/-- Next error bound. -/
def nextErr (err : ℕ) : ℕ := err + (err + 1) / 199 + 1 + 10 ^ 30

/-- Check the rows and the state after them; `n` is the number of columns checked, from the right. -/
def skRun (n : ℕ) : List (List ℕ) → List ℤ → ℕ × ℕ → ℕ → List ℤ → ℕ × ℕ → ℕ → Bool
  | [], V, e, err, V', e', err' => decide (V = V') && decide (e = e') && decide (err = err')
  | r :: rs, V, e, err, V', e', err' =>
    let W := wList V (logiI e.1 : ℤ)
    Nat.beq r.length 10 && Nat.ble e.2 (e.1 + 10 ^ 20) && rowOk err (r.reverse.take n) W &&
      skRun n rs (nextV W) (expUp e) (nextErr err) V' e' err'

end Libgrpp
