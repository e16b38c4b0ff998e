import Verif.Model.Concurrent

/-!
# Requests one after another

What calls of `start_session` at the same time are compared with.
-/

namespace Verif.Spec

/-- Calls made one after another from a first to a last state of the database, all of them granted, with their answers. -/
inductive OneByOne (X : Crypto) (collate : Str → Str) (db : PAuthDb) : List (StartCall × SessionReturn) → PAuthDb → Prop
  | none : OneByOne X collate db [] db
  | next {l : List (StartCall × SessionReturn)} {mid db' : PAuthDb} {q : StartCall} {r : SessionReturn}
      (before : OneByOne X collate db l mid)
      (granted : startSession X collate mid q.env q.serviceUid q.set q.exports = (db', .ok r)) :
      OneByOne X collate db (l ++ [(q, r)]) db'

/-- The calls that were granted, with their answers, in the order in which they were made. -/
def grantedCalls : List (StartCall × Job) → List (StartCall × SessionReturn)
  | [] => []
  | (q, .done (.ok r)) :: l => (q, r) :: grantedCalls l
  | _ :: l => grantedCalls l

/-- No certificate with the serial number of the row is stored. -/
def Unstored (collate : Str → Str) (db : PAuthDb) (row : ACRow) : Prop :=
  ∀ r ∈ db.certs, collate r.serial ≠ collate row.serial

end Verif.Spec
