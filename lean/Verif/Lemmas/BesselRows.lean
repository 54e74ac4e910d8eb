import Verif.Lemmas.BesselCheck

/-! # Kernel evaluation of the check of `bessel_table_0`, a hundred rows at a time -/

namespace Libgrpp

set_option maxRecDepth 100000

/-- Enclosure of `exp(-0.02)`. -/
def expStart : ℕ × ℕ := (expFiftieth, expFiftieth + 1)

theorem cmpRows_0 : cmpRows (besselRows0.drop 1) 1 expStart = true := by decide +kernel

theorem cmpRows_1 : cmpRows besselRows1 100 (expAt expStart 99) = true := by decide +kernel

theorem cmpRows_2 : cmpRows besselRows2 200 (expAt expStart 199) = true := by decide +kernel

theorem cmpRows_3 : cmpRows besselRows3 300 (expAt expStart 299) = true := by decide +kernel

theorem cmpRows_4 : cmpRows besselRows4 400 (expAt expStart 399) = true := by decide +kernel

theorem cmpRows_5 : cmpRows besselRows5 500 (expAt expStart 499) = true := by decide +kernel

theorem cmpRows_6 : cmpRows besselRows6 600 (expAt expStart 599) = true := by decide +kernel

theorem cmpRows_7 : cmpRows besselRows7 700 (expAt expStart 699) = true := by decide +kernel

theorem cmpRows_8 : cmpRows besselRows8 800 (expAt expStart 799) = true := by decide +kernel

theorem cmpRows_9 : cmpRows besselRows9 900 (expAt expStart 899) = true := by decide +kernel

theorem cmpRows_10 : cmpRows besselRows10 1000 (expAt expStart 999) = true := by decide +kernel

theorem cmpRows_11 : cmpRows besselRows11 1100 (expAt expStart 1099) = true := by decide +kernel

theorem cmpRows_12 : cmpRows besselRows12 1200 (expAt expStart 1199) = true := by decide +kernel

theorem cmpRows_13 : cmpRows besselRows13 1300 (expAt expStart 1299) = true := by decide +kernel

theorem cmpRows_14 : cmpRows besselRows14 1400 (expAt expStart 1399) = true := by decide +kernel

theorem cmpRows_15 : cmpRows besselRows15 1500 (expAt expStart 1499) = true := by decide +kernel

theorem cmpRows_16 : cmpRows besselRows16 1600 (expAt expStart 1599) = true := by decide +kernel

end Libgrpp
