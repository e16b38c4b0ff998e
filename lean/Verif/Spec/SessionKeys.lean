import Verif.Model.SessionKeys
import Verif.Spec.Sessions

/-!
# What holds of the tables of the policy authority while it serves
-/

namespace Verif.Spec

/-- The certificate of every assignment is stored. -/
def CertsStored (collate : Str → Str) (db : PAuthDb) : Prop :=
  ∀ a ∈ db.assignments, ∃ c ∈ db.certs, collate c.serial = collate a.acSerial

/-- What holds of the tables even if certificates are missing. -/
structure SessionsSound (X : Crypto) (collate : Str → Str) (db : PAuthDb) : Prop where
  keys : PAKeys collate db
  /-- certificates are stored with their hash, which is that of nothing for the format BYTES -/
  hashed : ∀ row ∈ db.certs, row.hash = b64 (X.sha256 (if row.format = 0 then [] else row.certificate))
  /-- the session of an assignment is stored -/
  started : ∀ a ∈ db.assignments, ∃ s ∈ db.sessions, collate s.id = collate a.sessionId
  /-- a session has an assignment -/
  backed : ∀ s ∈ db.sessions, ∃ a ∈ db.assignments, collate a.sessionId = collate s.id
  /-- a session ends with its certificates or after a day -/
  bounded : ∀ s ∈ db.sessions, s.sessionValidTill = min s.certValidTill (s.sessionStart + 86400)

/-- No table is wiped. -/
def Unwiped (es : List PoolEvent) : Prop := .wipe ∉ es

/-- The assignments are deleted before the certificates and the sessions. -/
def ChildrenFirst (order : List PATable) : Prop :=
  ∃ before after, order = before ++ .assignments :: after ∧ .certs ∉ before ∧ .sessions ∉ before

/-- An empty database. -/
def noRows : PAuthDb := ⟨[], [], [], [], []⟩

end Verif.Spec
