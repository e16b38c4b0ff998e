import Verif.Py.Basic
/-!
# Tokens (`hgpl/lexing.py:6-66`)
-/

namespace Verif

/-- `TokenType`, `hgpl/lexing.py:7-30`. -/
inductive TokenType where
  | op | boolOp | notOp | usrAtt | objAtt | envAtt | admAtt | conAtt | unkAtt | unkId | null | bool
  | int | float | string | lset | rset | lparn | rparn | comma | start | «end»
deriving DecidableEq, Repr

/-- The `value` attribute of `TokenType`, `hgpl/lexing.py:9-30`. -/
def TokenType.value : TokenType → Nat
  | .op => 1 | .boolOp => 2 | .notOp => 3 | .usrAtt => 4 | .objAtt => 5 | .envAtt => 6
  | .admAtt => 7 | .conAtt => 8 | .unkAtt => 9 | .unkId => 10 | .null => 11 | .bool => 12
  | .int => 13 | .float => 14 | .string => 15 | .lset => 16 | .rset => 17 | .lparn => 18
  | .rparn => 19 | .comma => 20 | .start => 21 | .«end» => 22

/-- Values a token can carry: `None`, `str`, `int` or `float`. -/
inductive TVal where
  | none
  | str (s : Str)
  | int (i : Int)
  | flt (f : PyFloat)
deriving DecidableEq, Repr

/-- `Token`, `hgpl/lexing.py:33-37`. `pos` may be `-1` (the default), hence an `Int`. -/
structure Token where
  type : TokenType
  pos : Int := -1
  value : TVal := .none
deriving DecidableEq, Repr

/-- `Token.__eq__`, `hgpl/lexing.py:60-63`. Values of equal token types have equal Python types for
all tokens the lexer makes, so Python's `==` on the values is structural equality here (a hand made INT token with a float
value is outside the model). -/
def Token.eq (a b : Token) : Bool := a.type == b.type && a.value == b.value && a.pos == b.pos

end Verif
