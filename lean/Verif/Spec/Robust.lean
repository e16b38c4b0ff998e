import Verif.Spec.Semantics
/-!
# Policies that never raise

A condition on the text of a policy alone.
-/

namespace Verif.Spec
open Verif

/-- No literal `0`, `0.0` or `""` in the operand. -/
def Operand.NoFalsy : Operand → Prop
  | .att _ => True
  | .atom t => constOf t ≠ none
  | .set _ es => ∀ t ∈ es, constOf t ≠ none

/-- A set literal that contains NULL. -/
def Operand.WithNull : Operand → Prop
  | .set _ es => ∃ t ∈ es, t.type = .null
  | _ => False

/-- The token is this operator. -/
def Operates (o : Token) (s : String) : Prop := o.value = .str s.toList

/-- Comparisons that never raise: no falsy literals; no NULL in a set compared by `=` or `!=` with another set, in a set
an attribute is looked for by IN, or in an operand of SUBSET; NULL itself is not looked for in an attribute. -/
def CmpRobust (l : Operand) (o : Token) (r : Operand) : Prop :=
  l.NoFalsy ∧ r.NoFalsy ∧
  (Operates o "=" ∨ Operates o "!=" → (∃ b es, l = .set b es) → (∃ b es, r = .set b es) → ¬ l.WithNull ∧ ¬ r.WithNull) ∧
  (Operates o "IN" → (∀ t, l = .atom t → t.type = .null → ∀ u, r ≠ .att u) ∧ (∀ u, l = .att u → ¬ r.WithNull)) ∧
  (Operates o "SUBSET" → ¬ l.WithNull ∧ ¬ r.WithNull)

/-- Conditions that never raise below a connective: comparisons that never raise, and TRUE. -/
def CondRobust (U : Uni) : Policy → Prop
  | .cmp l o r => CmpRobust l o r
  | .lit t => litTri U t = .true
  | .att _ => False
  | .not _ p => CondRobust U p
  | .bin _ p q => CondRobust U p ∧ CondRobust U q

/-- Policies that never raise; also a bare attribute, but no bare literal. -/
def Robust (U : Uni) : Policy → Prop
  | .att _ => True
  | .lit _ => False
  | p => CondRobust U p

/-- The attribute of an operand. -/
def Operand.atts : Operand → List Token
  | .att t => [t]
  | _ => []

/-- The attributes of a policy. -/
def Policy.atts : Policy → List Token
  | .cmp l _ r => l.atts ++ r.atts
  | .lit _ => []
  | .att t => [t]
  | .not _ p => p.atts
  | .bin _ p q => p.atts ++ q.atts

end Verif.Spec
