import Verif.Spec.Grammar
import Verif.Spec.Lexical
/-!
# Printing policies and forgetting positions
-/

namespace Verif.Spec
open Verif

/-- A token without its position. -/
def Token.strip (t : Token) : Token := { t with pos := 0 }

def Operand.strip : Operand → Operand
  | .att t => .att (Token.strip t)
  | .atom t => .atom (Token.strip t)
  | .set l es => .set (Token.strip l) (es.map Token.strip)

def Policy.strip : Policy → Policy
  | .cmp l o r => .cmp l.strip (Token.strip o) r.strip
  | .lit t => .lit (Token.strip t)
  | .att t => .att (Token.strip t)
  | .not n p => .not (Token.strip n) p.strip
  | .bin o p q => .bin (Token.strip o) p.strip q.strip

mutual
/-- An AST without token positions. -/
def Node.strip : Node → Node
  | .mk k t i r cs => .mk k (Token.strip t) i r (Node.stripList cs)
def Node.stripList : List Node → List Node
  | [] => []
  | n :: ns => Node.strip n :: Node.stripList ns
end

/-- The syntax trees the grammar can describe. -/
def Operand.WF : Operand → Prop
  | .att t => AttTok t
  | .atom t => AtomTok false t
  | .set l es => l.type = .lset ∧ ∀ t ∈ es, AtomTok false t

/-- The syntax trees the grammar can describe. -/
def Policy.WF : Policy → Prop
  | .cmp l o r => l.WF ∧ o.type = .op ∧ r.WF
  | .lit t => BoolTok t
  | .att t => AttTok t
  | .not n p => n.type = .notOp ∧ p.WF
  | .bin o p q => (AndTok o ∨ OrTok o) ∧ p.WF ∧ q.WF

/-- A punctuation token. -/
def punctTok (ty : TokenType) : Token := ⟨ty, 0, .none⟩

/-- Elements of a set after the first. -/
def printTail : List Token → List Token
  | [] => []
  | t :: ts => punctTok .comma :: t :: printTail ts

def Operand.print : Operand → List Token
  | .att t => [t]
  | .atom t => [t]
  | .set l [] => [l, punctTok .rset]
  | .set l (t :: ts) => l :: ((t :: printTail ts) ++ [punctTok .rset])

/-- Parenthesise. -/
def parens (ts : List Token) : List Token := punctTok .lparn :: (ts ++ [punctTok .rparn])

/-- The tokens of a policy with every operand of NOT, AND and OR in parentheses. -/
def Policy.print : Policy → List Token
  | .cmp l o r => l.print ++ o :: r.print
  | .lit t => [t]
  | .att t => [t]
  | .not n p => n :: parens p.print
  | .bin o p q => parens p.print ++ o :: parens q.print

/-- The spelling of a token: punctuation is itself, the rest is given. -/
def spell (sp : Token → Str) (t : Token) : Str :=
  match t.type with
  | .lparn => ['(']
  | .rparn => [')']
  | .comma => [',']
  | .rset => ['}']
  | _ => sp t

/-- The text of a policy, each token preceded by a blank. -/
def Policy.text (sp : Token → Str) (p : Policy) : Str :=
  (p.print.map fun t => ' ' :: spell sp t).flatten

/-- `n` written with exactly `m` decimal digits. -/
def padded : Nat → Nat → Str
  | 0, _ => []
  | m + 1, n => Char.ofNat (48 + n / 10 ^ m) :: padded m (n % 10 ^ m)

/-- Tokens that have a spelling: the values the language can express. -/
def Printable (U : Uni) (t : Token) : Prop :=
  (IsAtt t.type ∧ ∃ ident, t.value = .str ident ∧ ident ≠ [] ∧ ∀ c ∈ ident, IdChar U c) ∨
  (t.type = .int ∧ ∃ i : Int, t.value = .int i ∧
    ∃ m, 0 < m ∧ i.natAbs < 10 ^ m ∧ ∀ l, U.intLimit = some l → m ≤ l) ∨
  (t.type = .float ∧ ∃ (neg : Bool) (a b m : Nat), b < 10 ^ m ∧ 0 < m ∧ t.value =
    .flt (U.roundF ((if neg then -1 else 1) * ((a : Rat) + (b : Rat) / 10 ^ m)))) ∨
  (t.type = .string ∧ ∃ s, t.value = .str s ∧ ∀ c ∈ s, StrChar c) ∨
  (∃ kw v, (kw, t.type, v) ∈ keywords ∧ t.value = .str v.toList) ∨
  (∃ w v, (w, t.type, v) ∈ punctuation ∧ t.value = optVal v) ∨
  (t.type = .op ∧ (t.value = .str ['>'] ∨ t.value = .str ['<']))

end Verif.Spec
