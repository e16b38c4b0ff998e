import Verif.Model.AST
import Verif.Py.Bytes
import Mathlib.Algebra.Order.Field.Rat
import Mathlib.Algebra.Order.Field.Power
import Mathlib.Algebra.Order.Group.Abs
/-!
# binary32 numbers and what remains of a value after encoding

The numbers of IEEE 754 binary32 by mantissa and exponent, without reference to bit patterns.
-/

namespace Verif.Spec
open Verif

/-- The finite binary32 numbers. -/
def Binary32 (q : ℚ) : Prop := ∃ k e : ℤ, |k| < 2 ^ 24 ∧ -149 ≤ e ∧ e ≤ 104 ∧ q = k * 2 ^ e

/-- Those whose last bit is 0: the mantissa, written with all 24 bits if the exponent allows, is even. -/
def EvenBinary32 (q : ℚ) : Prop :=
  ∃ k e : ℤ, |k| < 2 ^ 24 ∧ -149 ≤ e ∧ e ≤ 104 ∧ (2 ^ 23 ≤ |k| ∨ e = -149) ∧ k % 2 = 0 ∧ q = k * 2 ^ e

/-- `y` is `q` rounded to binary32: no binary32 number is nearer, and if another is as near, the last bit of `y` is 0. -/
def Rounded (q y : ℚ) : Prop :=
  Binary32 y ∧ ∀ z, Binary32 z → |y - q| ≤ |z - q| ∧ (|y - q| = |z - q| → z = y ∨ EvenBinary32 y)

/-- `Returns U ty v w`: a token of type `ty` with value `v`, if it can be encoded and decoded at all, comes back with value
`w`. Finite floats are rounded; strings lose as many bytes of their UTF-8 form as it is longer than the string, and are
`None` if nothing is left. -/
inductive Returns (U : Uni) : TokenType → TVal → TVal → Prop
  | none {ty : TokenType} : ty ≠ .int → ty ≠ .float → Returns U ty .none .none
  | int (i : Int) : Returns U .int (.int i) (.int i)
  | fin {q y : ℚ} : Rounded q y → Returns U .float (.flt (.fin q)) (.flt (.fin y))
  | inf (neg : Bool) : Returns U .float (.flt (.inf neg)) (.flt (.inf neg))
  | floatInt {i : Int} {q y : ℚ} : U.roundF i = .fin q → Rounded q y → Returns U .float (.int i) (.flt (.fin y))
  | empty {ty : TokenType} : ty ≠ .int → ty ≠ .float → Returns U ty (.str []) .none
  | str {ty : TokenType} {s t : Str} : ty ≠ .int → ty ≠ .float → s ≠ [] → utf8 t = (utf8 s).take s.length →
      Returns U ty (.str s) (.str t)

end Verif.Spec
