import Verif.Spec.Binary64
import Verif.Spec.Semantics
/-!
# Numbers written in policies

Numerals as they are written, the numbers they stand for, and what they are read as.
-/

namespace Verif.Spec
open Verif

/-- A number as written: sign, digits, and the digits after the point if there is one. -/
structure Numeral where
  neg : Bool
  ip : Str
  fp : Option Str
deriving DecidableEq, Repr

/-- The digits `0` to `9`. -/
def Digit (c : Char) : Prop := '0'.toNat ≤ c.toNat ∧ c.toNat ≤ '9'.toNat

instance (c : Char) : Decidable (Digit c) := by unfold Digit; infer_instance

/-- There are digits, before the point and after it. -/
def Numeral.WF (n : Numeral) : Prop :=
  n.ip ≠ [] ∧ (∀ c ∈ n.ip, Digit c) ∧ ∀ s, n.fp = some s → s ≠ [] ∧ ∀ c ∈ s, Digit c

/-- How it is written. -/
def Numeral.text (n : Numeral) : Str :=
  (if n.neg then ['-'] else []) ++ n.ip ++ match n.fp with | none => [] | some s => '.' :: s

/-- The number some digits stand for. -/
def decimalValue (s : Str) : ℕ := s.foldl (fun n c => 10 * n + (c.toNat - '0'.toNat)) 0

/-- The number it stands for. -/
def Numeral.value (n : Numeral) : ℚ :=
  (if n.neg then -1 else 1) * (decimalValue n.ip + match n.fp with | none => 0 | some s => decimalValue s / 10 ^ s.length)

/-- What it is read as: itself without a point, else the nearest binary64 number. -/
def Numeral.Read (n : Numeral) (f : PyFloat) : Prop :=
  match n.fp with
  | none => f = .fin n.value
  | some _ => Reads64 n.value f

/-- Read without loss of order: there is a point, or it is an integer of at most 2^53. -/
def Numeral.Tame (n : Numeral) : Prop := n.fp = none → |n.value| ≤ 2 ^ 53

/-- The comparisons of numbers: how they are written and what they mean. -/
def comparisons : List (String × (ℚ → ℚ → Bool)) :=
  [("=", fun a b => decide (a = b)), ("!=", fun a b => decide (a ≠ b)), ("<", fun a b => decide (a < b)),
   (">", fun a b => decide (a > b)), ("<=", fun a b => decide (a ≤ b)), (">=", fun a b => decide (a ≥ b))]

/-- A policy that compares two numbers, with any white space. -/
structure Comparison (U : Uni) where
  left : Numeral
  right : Numeral
  op : String
  holds : ℚ → ℚ → Bool
  listed : (op, holds) ∈ comparisons
  (s1 s2 s3 s4 : Str)
  spaces : ∀ c ∈ s1 ++ s2 ++ s3 ++ s4, U.isSpace c = true
  leftOk : left.WF
  rightOk : right.WF
  /-- Python refuses to read integers that are too long -/
  limit : ∀ m, U.intLimit = some m → left.ip.length ≤ m ∧ right.ip.length ≤ m

/-- Its text. -/
def Comparison.text {U : Uni} (c : Comparison U) : Str :=
  c.s1 ++ c.left.text ++ c.s2 ++ c.op.toList ++ c.s3 ++ c.right.text ++ c.s4

/-- A comparison extended to the infinities. -/
def extended (holds : ℚ → ℚ → Bool) : PyFloat → PyFloat → Bool
  | .fin a, .fin b => holds a b
  | .fin _, .inf neg => if neg then holds 1 0 else holds 0 1
  | .inf neg, .fin _ => if neg then holds 0 1 else holds 1 0
  | .inf m, .inf n => if m = n then holds 0 0 else if m then holds 0 1 else holds 1 0

/-- A truth value of Python as one of the policy language. -/
def truthOf (b : Bool) : Tri := if b then .true else .false

/-- The operand is what the number is read as: a literal other than zero, or an attribute. -/
inductive Stands (A : Atts) : Operand → ℚ → Prop
  | int {t : Token} {i : ℤ} : t.type = .int → t.value = .int i → i ≠ 0 → |i| ≤ 2 ^ 53 → Stands A (.atom t) i
  | float {t : Token} {f : PyFloat} {q : ℚ} : t.type = .float → t.value = .flt f → f ≠ .fin 0 → Reads64 q f → Stands A (.atom t) q
  | att {t : Token} {ty : SymType} {x : Scalar} {f : PyFloat} {q : ℚ} : A t.type (attName t) = some (ty, .sc x) →
      fits ty (.sc x) = true → x.num = some f → Reads64 q f → Stands A (.att t) q

end Verif.Spec
