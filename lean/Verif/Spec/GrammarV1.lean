import Verif.Spec.Semantics
/-!
# The grammar of version 1 (`hgpl/docs/HGPL_ABNF_V1.txt`) over tokens

The rules follow lines 1 to 5 of the ABNF; `var`, `set` and `setval` are those of version 2 without `boolean` as `atomic`, which is what
line 16 of version 1 says. In line 1 the rest of a policy after the first operator is the right operand, without precedence between AND and OR.
The second alternative `( policy )` of line 2 is read as a policy in parenthesis tokens; as ABNF it could also be a mere grouping, which
derives nothing new.

Rows describe how a policy is written, for both versions.
-/

namespace Verif.Spec
open Verif

/-- `bool_op = "AND" / "OR"` -/
def BoolOpTok (t : Token) : Prop := AndTok t ∨ OrTok t

/-- `var op var` and `[ "NOT" ] bool_var` -/
inductive DLeaf : List Token → Policy → Prop
  | cmp {ts o us l r} (hl : DVar false ts l) (ho : o.type = .op) (hr : DVar false us r) : DLeaf (ts ++ o :: us) (.cmp l o r)
  | lit {t} (ht : BoolTok t) : DLeaf [t] (.lit t)
  | att {t} (ht : AttTok t) : DLeaf [t] (.att t)
  | notLit {n t} (hn : n.type = .notOp) (ht : BoolTok t) : DLeaf [n, t] (.not n (.lit t))
  | notAtt {n t} (hn : n.type = .notOp) (ht : AttTok t) : DLeaf [n, t] (.not n (.att t))

mutual
/-- `exp = var op var / [ "NOT" ] bool_var / [ "NOT" ] "(" policy ")"` -/
inductive D1Exp : List Token → Policy → Prop
  | leaf {ts p} (h : DLeaf ts p) : D1Exp ts p
  | paren {l r ts p} (hl : l.type = .lparn) (h : D1Policy ts p) (hr : r.type = .rparn) : D1Exp (l :: (ts ++ [r])) p
  | notParen {n l r ts p} (hn : n.type = .notOp) (hl : l.type = .lparn) (h : D1Policy ts p) (hr : r.type = .rparn) :
      D1Exp (n :: l :: (ts ++ [r])) (.not n p)
/-- `policy = exp [ bool_op policy ] / ( policy )` -/
inductive D1Policy : List Token → Policy → Prop
  | exp {ts p} (h : D1Exp ts p) : D1Policy ts p
  | more {ts o us p q} (hp : D1Exp ts p) (ho : BoolOpTok o) (hq : D1Policy us q) : D1Policy (ts ++ o :: us) (.bin o p q)
  | paren {l r ts p} (hl : l.type = .lparn) (h : D1Policy ts p) (hr : r.type = .rparn) : D1Policy (l :: (ts ++ [r])) p
end

/-- The text is a policy of version 1, with the given syntax tree. -/
def PolicyV1 (U : Uni) (text : Str) (p : Policy) : Prop := ∃ ts e, Tokenizes U text 0 (ts ++ [e]) ∧ D1Policy ts p

/-! ### How a policy is written -/

mutual
/-- What stands between two operators. -/
inductive Piece where
  | leaf (ts : List Token) (p : Policy)
  | group (l : Token) (c : OpRow) (r : Token)
  | negGroup (n l : Token) (c : OpRow) (r : Token)
/-- Items with operators between them. -/
inductive OpRow where
  | one (e : Piece)
  | more (e : Piece) (o : Token) (c : OpRow)
end

mutual
/-- The tokens as they are written. -/
def Piece.tokens : Piece → List Token
  | .leaf ts _ => ts
  | .group l c r => l :: (c.tokens ++ [r])
  | .negGroup n l c r => n :: l :: (c.tokens ++ [r])
def OpRow.tokens : OpRow → List Token
  | .one e => e.tokens
  | .more e o c => e.tokens ++ o :: c.tokens
end

mutual
/-- The tokens fit their places. -/
def Piece.Ok : Piece → Prop
  | .leaf ts p => DLeaf ts p
  | .group l c r => l.type = .lparn ∧ c.Ok ∧ r.type = .rparn
  | .negGroup n l c r => n.type = .notOp ∧ l.type = .lparn ∧ c.Ok ∧ r.type = .rparn
def OpRow.Ok : OpRow → Prop
  | .one e => e.Ok
  | .more e o c => e.Ok ∧ BoolOpTok o ∧ c.Ok
end

mutual
/-- Version 1: what follows an operator is its right operand. -/
def Piece.tree1 : Piece → Policy
  | .leaf _ p => p
  | .group _ c _ => c.tree1
  | .negGroup n _ c _ => .not n c.tree1
def OpRow.tree1 : OpRow → Policy
  | .one e => e.tree1
  | .more e o c => .bin o e.tree1 c.tree1
end

/-- Put an operand behind an unfinished operation. -/
def attach : Option (Policy × Token) → Policy → Policy
  | none, p => p
  | some (q, o), p => .bin o q p

mutual
/-- Version 2: AND before OR, both from the left. -/
def Piece.tree2 : Piece → Policy
  | .leaf _ p => p
  | .group _ c _ => c.grow none none
  | .negGroup n _ c _ => .not n (c.grow none none)
/-- The tree from an unfinished disjunction and an unfinished conjunction. -/
def OpRow.grow (d t : Option (Policy × Token)) : OpRow → Policy
  | .one e => attach d (attach t e.tree2)
  | .more e o c =>
    if o.value = .str "AND".toList then c.grow d (some (attach t e.tree2, o)) else c.grow (some (attach d (attach t e.tree2), o)) none
end

def OpRow.tree2 (c : OpRow) : Policy := c.grow none none

/-- The operators between the items of a row, true for AND. -/
def OpRow.ops : OpRow → List Bool
  | .one _ => []
  | .more _ o c => decide (o.value = .str "AND".toList) :: c.ops

/-- No AND has an OR behind it. -/
def Sorted : List Bool → Prop
  | [] => True
  | o :: l => (o = true → false ∉ l) ∧ Sorted l

mutual
/-- No AND has an OR behind it in the same row, in no parentheses either. -/
def Piece.Calm : Piece → Prop
  | .leaf _ _ => True
  | .group _ c _ => c.Calm ∧ Sorted c.ops
  | .negGroup _ _ c _ => c.Calm ∧ Sorted c.ops
/-- The items are calm. -/
def OpRow.Calm : OpRow → Prop
  | .one e => e.Calm
  | .more e _ c => e.Calm ∧ c.Calm
end

mutual
/-- What stands in negated parentheses is calm. -/
def Piece.Positive : Piece → Prop
  | .leaf _ _ => True
  | .group _ c _ => c.Positive
  | .negGroup _ _ c _ => c.Calm ∧ Sorted c.ops
def OpRow.Positive : OpRow → Prop
  | .one e => e.Positive
  | .more e _ c => e.Positive ∧ c.Positive
end

/-- The text is written as the row. -/
def WrittenAs (U : Uni) (text : Str) (c : OpRow) : Prop := c.Ok ∧ ∃ e, Tokenizes U text 0 (c.tokens ++ [e])

/-- What the text would give if it were read by version 1. -/
def Gives1 (U : Uni) (A : Atts) (level : Option Int) (c : OpRow) (t : Tri) : Prop :=
  outcome level (semPolicy U A c.tree1) = .ok (.truth t)

end Verif.Spec
