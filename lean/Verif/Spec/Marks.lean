import Verif.Spec.Semantics
/-!
# What the nodes of an evaluated AST hold

Written on the syntax trees of `Spec/Grammar.lean` with the semantics of `Spec/Semantics.lean`. A subexpression is marked with its
meaning once it is reached; what comes after an error is not reached. Constants are marked from the start.
-/

namespace Verif.Spec
open Verif

/-- A tree of tokens, each with a meaning or without. -/
inductive Marked where
  | mk (t : Token) (d : Option Den) (cs : List Marked)

/-- The meaning, if there is one. -/
def meaning (o : Eff Den) : Option Den :=
  match o.2 with
  | .ok d => some d
  | .error _ => none

/-- A constant is marked with its value, even if evaluation rejects it. -/
def markAtom (t : Token) : Marked :=
  .mk t (if t.type = .null then some (.const .null)
    else match t.value with
      | .none => none
      | .str s => some (.const (.str s))
      | .int i => some (.const (.int i))
      | .flt f => some (.const (.flt f))) []

/-- An operand that was not reached. -/
def blankOperand : Operand → Marked
  | .att t => .mk t none []
  | .atom t => markAtom t
  | .set l es => .mk l none (es.map markAtom)

/-- An operand that was reached. -/
def markOperand (A : Atts) : Operand → Marked
  | .att t => .mk t (meaning (semAtt A t)) []
  | .atom t => markAtom t
  | .set l es => .mk l (meaning (semOperand A (.set l es))) (es.map markAtom)

/-- A policy that was not reached. -/
def blankPolicy (U : Uni) : Policy → Marked
  | .cmp l o r => .mk o none [blankOperand l, blankOperand r]
  | .lit t => .mk t (some (.truth (litTri U t))) []
  | .att t => .mk t none []
  | .not n p => .mk n none [blankPolicy U p]
  | .bin o p q => .mk o none [blankPolicy U p, blankPolicy U q]

/-- A policy that was reached. The right side is reached if the left side has a meaning. -/
def marks (U : Uni) (A : Atts) : Policy → Marked
  | .cmp l o r => .mk o (meaning (sem U A (.cmp l o r)))
      [markOperand A l, if (meaning (semOperand A l)).isSome then markOperand A r else blankOperand r]
  | .lit t => .mk t (some (.truth (litTri U t))) []
  | .att t => .mk t (meaning (semAtt A t)) []
  | .not n p => .mk n (meaning (sem U A (.not n p))) [marks U A p]
  | .bin o p q => .mk o (meaning (sem U A (.bin o p q)))
      [marks U A p, if (meaning (sem U A p)).isSome then marks U A q else blankPolicy U q]

/-- The meaning at the root. -/
def Marked.top : Marked → Option Den
  | .mk _ d _ => d

mutual
/-- Every node has a meaning. -/
def Marked.full : Marked → Bool
  | .mk _ d cs => d.isSome && Marked.fulls cs

def Marked.fulls : List Marked → Bool
  | [] => true
  | m :: ms => m.full && Marked.fulls ms
end

end Verif.Spec
