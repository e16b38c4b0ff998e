import Verif.Py.Float32
/-!
# Rounding of decimal literals to IEEE 754 binary64

The theorems hold for every rounding (`Uni.roundF`); this is the one CPython uses, for concrete runs.
-/

namespace Verif

/-- The binary64 number nearest to a positive number, ties to even. -/
def f64Pos (a : Rat) : PyFloat :=
  let e := max (ilog2 a - 52) (-1074)
  let y := (roundHalfEven (a / pow2 e) : Rat) * pow2 e
  if y < pow2 1024 then .fin y else .inf false

/-- `float("…")` of a decimal number, with 0 for both zeros. -/
def f64 (q : Rat) : PyFloat :=
  if q = 0 then .fin 0
  else if q < 0 then
    match f64Pos (-q) with
    | .fin y => .fin (-y)
    | .inf _ => .inf true
  else f64Pos q

/-- ASCII tables with the number conversions of a current CPython: binary64 and at most 4300 digits. -/
def cpythonUni : Uni := { asciiUni with roundF := f64, intLimit := some 4300 }

example : f64 (1 / 10) = .fin (3602879701896397 / 2 ^ 55) := by decide +kernel
example : f64 (-3 / 2) = .fin (-3 / 2) := by decide +kernel
example : f64 (10 ^ 309) = .inf false := by decide +kernel
example : f64 (2 ^ 53 + 1) = .fin (2 ^ 53) := by decide +kernel
example : f64 (1 / 10 ^ 330) = .fin 0 := by decide +kernel

end Verif
