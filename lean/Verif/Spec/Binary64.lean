import Verif.Py.Basic
import Mathlib.Algebra.Order.Field.Rat
import Mathlib.Algebra.Order.Field.Power
import Mathlib.Algebra.Order.Group.Abs
/-!
# binary64 numbers

The numbers of IEEE 754 binary64 by mantissa and exponent, and what a decimal number is read as. Written without reference to the
rounding algorithm.
-/

namespace Verif.Spec
open Verif

/-- The finite binary64 numbers. -/
def Binary64 (q : ℚ) : Prop := ∃ k e : ℤ, |k| < 2 ^ 53 ∧ -1074 ≤ e ∧ e ≤ 971 ∧ q = k * 2 ^ e

/-- Those whose last bit is 0: the mantissa, written with all 53 bits if the exponent allows, is even. -/
def EvenBinary64 (q : ℚ) : Prop :=
  ∃ k e : ℤ, |k| < 2 ^ 53 ∧ -1074 ≤ e ∧ e ≤ 971 ∧ (2 ^ 52 ≤ |k| ∨ e = -1074) ∧ k % 2 = 0 ∧ q = k * 2 ^ e

/-- `y` is `q` rounded to binary64: no binary64 number is nearer, and if another is as near, the last bit of `y` is 0. -/
def Rounded64 (q y : ℚ) : Prop :=
  Binary64 y ∧ ∀ z, Binary64 z → |y - q| ≤ |z - q| ∧ (|y - q| = |z - q| → z = y ∨ EvenBinary64 y)

/-- Half way between the largest binary64 number and the next power of two. -/
def overflow64 : ℚ := (2 ^ 54 - 1) * 2 ^ 970

/-- What a decimal number is read as. -/
inductive Reads64 (q : ℚ) : PyFloat → Prop
  | near {y : ℚ} : |q| < overflow64 → Rounded64 q y → Reads64 q (.fin y)
  | high : overflow64 ≤ q → Reads64 q (.inf false)
  | low : q ≤ -overflow64 → Reads64 q (.inf true)

/-- At most fifteen significant digits, and not so small that digits are lost. -/
def FifteenDigits (q : ℚ) : Prop :=
  (∃ m j : ℤ, |m| < 10 ^ 15 ∧ q = m * 10 ^ j) ∧ (q = 0 ∨ 1 / 2 ^ 1022 ≤ |q|)

end Verif.Spec
