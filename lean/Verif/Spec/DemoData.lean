import Verif.Spec.Typing
import Verif.Spec.PolicyGui
/-!
# Tables whose attributes hold values of their types
-/

namespace Verif.Spec
open Verif

/-- The promises made by the types of a table. -/
def declared (E : SymEnv) : Promises := fun k =>
  match E.tab.get k with
  | some r => promiseOf (E.heap r).type
  | none => .truth

/-- Every attribute of a table is listed and has a value of its type. -/
def Furnished (E : SymEnv) : Prop :=
  ∀ r ∈ E.tab.symbols, (E.heap r).attType ∈ listedClasses ∧ (promiseOf (E.heap r).type).Kept (some ((E.heap r).type, (E.heap r).value))

/-- All attributes of a policy are in a table. -/
def Known (U : Uni) (E : SymEnv) (p : Policy) : Prop := ∀ t ∈ p.atts, (E.tab.get (attKey U t)).isSome = true

end Verif.Spec
