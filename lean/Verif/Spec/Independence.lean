import Verif.Spec.Authority
/-!
# What the answer to a request for a certificate may depend on
-/

namespace Verif.Spec

/-- Two databases say the same about the users with a name: the rows with the name, what is assigned to these users, and the
attributes assigned to them. Nothing is asked about anything else. -/
structure SameFor (collate : Str → Str) (name : Str) (db db' : AAuthDb) : Prop where
  users : db.users.filter (fun u => decide (collate u.username = collate name)) =
    db'.users.filter (fun u => decide (collate u.username = collate name))
  assignments : ∀ u ∈ db.users, collate u.username = collate name →
    db.assignments.filter (fun x => decide (x.userId = u.id)) = db'.assignments.filter (fun x => decide (x.userId = u.id))
  attributes : ∀ u ∈ db.users, collate u.username = collate name → ∀ x ∈ db.assignments, x.userId = u.id →
    db.attributes.filter (fun t => decide (collate t.id = collate x.attId)) =
      db'.attributes.filter (fun t => decide (collate t.id = collate x.attId))

/-- A request that is turned away: nobody has the name, or the password of the user with the name is another one. The last
condition is about the hash in the debug log. -/
def TurnedAway (U : Uni) (B : Bcrypt) (collate : Str → Str) (db : AAuthDb) (debug : Bool) (username : Str) (given : Bytes) :
    Prop :=
  (∀ u, ¬ UserNamed collate db (U.lower username) u) ∨
  ∃ u, UserNamed collate db (U.lower username) u ∧ B.checkpw given (utf8 u.password) = .ok false ∧
    (debug = true → ∃ x, B.hashpw given (utf8 u.password) = .ok x)

/-- A key a certificate has room for: 49149 bytes, which are 65532 characters in base 64, and 65533 characters for the name of
the cipher and the size. -/
def KeyFits (key : PublicKeyArg) : Prop :=
  key.publicKey.length ≤ 49149 ∧ key.cipher.length + (decimal key.keySize).length < 65534

/-- The ids of the connection attributes about the client's key. -/
def keyIds : List Str :=
  ["/attribute/connection/pub_key".toList, "/attribute/connection/pub_key_size".toList,
    "/attribute/connection/pub_key_algo".toList]

/-- bcrypt as it is up to version 4: of a password without NUL only the first 72 bytes count. -/
def Counts72 (B : Bcrypt) : Prop := ∀ x y s : Bytes, 0 ∉ x → 0 ∉ y → x.take 72 = y.take 72 →
  B.checkpw x s = B.checkpw y s ∧ B.hashpw x s = B.hashpw y s

end Verif.Spec
