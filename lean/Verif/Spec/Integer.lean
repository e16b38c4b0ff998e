import Verif.Py.Basic

/-!
# Texts of integers

What Python's `int(s)` and `int(s, 16)` accept and the number it is, as a grammar: spaces around, a sign, for base 16 a
prefix, and digits that may be separated by single underscores.
-/

namespace Verif.Spec

/-- The letters of hexadecimal digits, by their value from 10 on. -/
def lowerHex : Str := "abcdef".toList
def upperHex : Str := "ABCDEF".toList

/-- A character that stands for the digit `d`. -/
def DigitOf (U : Uni) (base : Nat) (c : Char) (d : Nat) : Prop :=
  d < base ∧ (U.digitVal c = some d ∨ 10 ≤ d ∧ (lowerHex[d - 10]? = some c ∨ upperHex[d - 10]? = some c))

/-- Digits, with at most one underscore between two of them. -/
inductive Digits (U : Uni) (base : Nat) : Str → List Nat → Prop
  | one {c d} : DigitOf U base c d → Digits U base [c] [d]
  | next {c d s ds} : DigitOf U base c d → Digits U base s ds → Digits U base (c :: s) (d :: ds)
  | sep {c d s ds} : DigitOf U base c d → Digits U base s ds → Digits U base (c :: '_' :: s) (d :: ds)

/-- The number of a list of digits. -/
def digitsValue (base : Nat) : List Nat → Nat
  | [] => 0
  | d :: ds => d * base ^ ds.length + digitsValue base ds

/-- What may stand between the sign and the digits. -/
def intPrefixes (base : Nat) : List Str :=
  if base = 16 then [[], "0x".toList, "0X".toList, "0x_".toList, "0X_".toList] else [[]]

/-- `t` is `s` without the spaces around it. -/
def Stripped (U : Uni) (s t : Str) : Prop :=
  ∃ pre post, s = pre ++ (t ++ post) ∧ (∀ c ∈ pre, U.isSpace c = true) ∧ (∀ c ∈ post, U.isSpace c = true) ∧
    (∀ c, t.head? = some c → U.isSpace c = false) ∧ (∀ c, t.getLast? = some c → U.isSpace c = false)

/-- `s` is an integer in the base and `v` its value; in base 10 the number of digits may be limited. -/
def IntText (U : Uni) (base : Nat) (s : Str) (v : Int) : Prop :=
  ∃ sign p t ds, Stripped U s (sign ++ (p ++ t)) ∧ sign ∈ [[], ['+'], ['-']] ∧ p ∈ intPrefixes base ∧
    Digits U base t ds ∧ (base = 10 → ∀ m, U.intLimit = some m → ds.length ≤ m) ∧
    v = if sign = ['-'] then -(digitsValue base ds : Int) else digitsValue base ds

end Verif.Spec
