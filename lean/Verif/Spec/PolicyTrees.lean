import Mathlib.Data.List.Forall2
import Verif.Model.PolicyTrees
import Verif.Spec.Marks
import Verif.Spec.Checking
/-!
# What the trees of the policy demo show
-/

namespace Verif.Spec
open Verif

/-- The symbol an attribute of a policy stands for. -/
def symbolFor (U : Uni) (E : SymEnv) (t : Token) : Option Symbol :=
  (E.tab.lookup U (fullPrefix (some t.type) ++ attName t)).map E.heap

/-- A cell shows the meaning at a token: attributes with a value show their symbol. -/
def CellShows (U : Uni) (E : SymEnv) (t : Token) : Cell → Option Den → Prop
  | .nothing, d => d = none
  | .truth v, d => d = some (.truth v)
  | .const a, d => d = some (.const a)
  | .list l, d => d = some (.lit l)
  | .symbol s, d => symbolFor U E t = some s ∧ d = some (valueDen s.value)

/-- The rows show the tree. -/
inductive RowsShow (U : Uni) (E : SymEnv) : Drawn → Marked → Prop
  | mk {t : Token} {c : Cell} {rows : List Drawn} {d : Option Den} {ms : List Marked} (hc : CellShows U E t c d)
      (hr : List.Forall₂ (RowsShow U E) rows ms) : RowsShow U E (.mk t.type t.value c rows) (.mk t d ms)

/-- The row for an attribute: its full name, and type and value in the table, if there is one with this attribute, or the
inferred type and None. -/
def symbolRow (U : Uni) (p : Policy) (E : Option SymEnv) (t : Token) : Str × SymType × PyVal :=
  (fullPrefix (some t.type) ++ U.lower (attName t),
    match E.bind fun E => symbolFor U E t with
    | some s => (s.type, stored s.value)
    | none => (typeAt U p.cmps (attKey U t), .sc .none))

/-- One row for every attribute, in the order of their first occurrences. -/
def attributeRows (U : Uni) (p : Policy) (E : Option SymEnv) : List (Str × SymType × PyVal) :=
  (firsts [] (p.attToks.map (attKey U))).filterMap fun k =>
    (p.attToks.find? (fun t => attKey U t = k)).map (symbolRow U p E)

end Verif.Spec
