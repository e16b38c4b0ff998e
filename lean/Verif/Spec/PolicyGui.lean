import Verif.Model.PolicyGui
import Verif.Spec.Integer
import Verif.Spec.Authority

/-!
# What editing an attribute in the policy demo means
-/

namespace Verif.Spec

/-- The elements written in a text, with or without braces and single quotes; the empty text has one, the empty text. -/
def SetText (U : Uni) (s : Str) (es : List Str) : Prop :=
  ∃ ps, Parts ',' (s.filter (· ∉ ['{', '}', '\''])) ps ∧ List.Forall₂ (Stripped U) ps es

/-- The value a text gives an attribute of a type. -/
inductive EditedTo (U : Uni) (toFloat : Str → Except PyExc PyFloat) (s : Str) : SymType → PyVal → Prop
  | int {i} : IntText U 10 s i → EditedTo U toFloat s .int (.sc (.atom (.int i)))
  | float {f} : toFloat s = .ok f → EditedTo U toFloat s .float (.sc (.atom (.flt f)))
  | string : EditedTo U toFloat s .string (.sc (.atom (.str s)))
  | set {es} : SetText U s es → EditedTo U toFloat s .set (.set (es.map (fun e => .atom (.str e))))
  | yes {t} : Stripped U (U.lower s) t → t ∈ ["true".toList, "t".toList, "1".toList] → EditedTo U toFloat s .bool (.sc (.tri .true))
  | no {t} : Stripped U (U.lower s) t → t ∉ ["true".toList, "t".toList, "1".toList] → EditedTo U toFloat s .bool (.sc (.tri .false))

/-- The classes under which attributes are listed. -/
def listedClasses : List TokenType := [.usrAtt, .objAtt, .envAtt, .admAtt, .conAtt]

/-- A table as `SymbolTableBuilder` builds it: each symbol is filed under its name, which is that of its class and attribute. -/
structure Filed (U : Uni) (E : SymEnv) : Prop where
  name : ∀ r ∈ E.tab.symbols, E.tab.lookup U (E.heap r).name = some r
  parts : ∀ r ∈ E.tab.symbols, (E.heap r).name = attTypePrefix (some (E.heap r).attType) ++ (E.heap r).attName

end Verif.Spec
