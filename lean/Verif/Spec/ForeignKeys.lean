import Verif.Model.ForeignKeys
import Verif.Spec.Authority

/-!
# What the foreign keys of the attribute authority demand
-/

namespace Verif.Spec

/-- Every assignment among the first rows names a user and an attribute among the others. -/
def LinkedIn (collate : Str → Str) (rows all : List AARow) : Prop :=
  ∀ a, .assignment a ∈ rows →
    (∃ u, .user u ∈ all ∧ u.id = a.userId) ∧ ∃ t, .attribute t ∈ all ∧ collate t.id = collate a.attId

/-- No assignment is left over. -/
def Linked (collate : Str → Str) (rows : List AARow) : Prop := LinkedIn collate rows rows

/-- Some user has the number. -/
def HasUser (rows : List AARow) (n : Int) : Prop := ∃ u, .user u ∈ rows ∧ u.id = n

/-- A use of the tools on a database: the command `populate`, `gen_atts` and `pop_and_gen`. -/
inductive ToolUse where
  | sample
  | generate (n : Int)
  | popGenerate (n : Int)

end Verif.Spec
