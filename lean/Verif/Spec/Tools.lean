import Verif.Model.Tools
import Verif.Spec.Integer

/-!
# What the tools are meant to do

The rows left by filling a database, the attributes generated, and the commands of the command line.
-/

namespace Verif.Spec

/-- The rows that stay when the tables of a service are wiped. -/
def keptRows {R : Type} (T : Tables R) (service : Str) (wipe : Bool) (old : List R) : List R :=
  if wipe then old.filter (fun r => decide (T.base r ≠ service)) else old

/-- New rows can be added: their primary keys are new. -/
def NewRows {R : Type} (T : Tables R) (old new : List R) : Prop :=
  (new.map T.key).Nodup ∧ ∀ r ∈ new, ∀ s ∈ old, T.key r ≠ T.key s

/-- The section of the configuration, and the name of the engine, used for a service. -/
def dbSection (name : Str) : Bool → Str
  | false => name
  | true => name ++ ['_', 'T', 'E', 'S', 'T']

/-- The id of a generated attribute. -/
def genId (i : Nat) : Str := "/attribute/user/a".toList ++ decimal i

/-- A generated attribute. -/
def genAttribute (i : Nat) : DbAttribute := ⟨genId i, 'a' :: decimal i, .int⟩

/-- Its assignment to the first user. -/
def genAssignment (i : Nat) : DbAssignment := ⟨1, genId i, some (decimal i)⟩

/-- The texts that are commands, in lower case. -/
def toolCommands : List Str :=
  ["build", "genkey", "populate", "pop", "password", "pass", "genatts"].map String.toList

end Verif.Spec
