import Verif.Spec.Typing
import Verif.Model.Interpreter
/-!
# Decisions that do not depend on missing attributes

Policies that mention each attribute once, and tables in which attributes are missing or keep their promises.
-/

namespace Verif.Spec
open Verif

/-- No attribute is mentioned twice, also not with other letters in upper case. -/
def ReadOnce (U : Uni) (p : Policy) : Prop := (p.atts.map (attKey U)).Nodup

/-- A single literal that is not infinite. -/
def Operand.Finite : Operand → Prop
  | .atom t => ∀ b, t.value ≠ .flt (.inf b)
  | _ => False

/-- Each comparison is of an attribute and a single literal. -/
def Policy.OneSided : Policy → Prop
  | .cmp (.att _) _ r => r.Finite
  | .cmp l _ (.att _) => l.Finite
  | .cmp _ _ _ => False
  | .lit _ => True
  | .att _ => True
  | .not _ p => p.OneSided
  | .bin _ p q => p.OneSided ∧ q.OneSided

/-- Attributes are missing or keep their promises. -/
def KeptOrMissing (U : Uni) (Γ : Promises) (A : Atts) (l : List Token) : Prop :=
  ∀ t ∈ l, A t.type (attName t) = none ∨ (Γ (attKey U t)).Kept (A t.type (attName t))

/-- The second table has what the first has. -/
def Completes (U : Uni) (E F : SymEnv) : Prop :=
  ∀ name r, E.tab.lookup U name = some r → ∃ r', F.tab.lookup U name = some r' ∧
    (F.heap r').type = (E.heap r).type ∧ (F.heap r').value = (E.heap r).value

end Verif.Spec
