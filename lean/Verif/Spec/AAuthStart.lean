import Verif.Model.AAuthStart

/-!
# What is recorded when the attribute authority is set up
-/

namespace Verif.Spec

/-- The records of the authority itself: `key` is how its public key is shown. -/
def setupRecords (name uri : Option Str) (revocations key : Str) : List (Nat × Str) :=
  [(10, "Setup AttributeAuthority with following attributes: aauth_id: ".toList ++ name.getD "None".toList ++
      ", a_uri: ".toList ++ uri.getD "None".toList ++ ", rev_uri: ".toList ++ revocations ++ ", pub_key: ".toList ++ key ++
      ", aa_ver: 1, ac_ver: 1, c_types: [0]".toList),
    (10, "Setting up issuer AC section.".toList),
    (10, "Setting up database session for AttributeAuthority".toList)]

/-- One line of printable ASCII characters. -/
def PrintableAscii (t : Str) : Prop := ∀ c ∈ t, 32 ≤ c.toNat ∧ c.toNat < 127

/-- Two authorities that differ in secrets only: in the pepper and the private key, but not in the public key. -/
structure SamePublic {X : Crypto} (a a' : Authority X) : Prop where
  aauthId : a.aauthId = a'.aauthId
  aUri : a.aUri = a'.aUri
  revUrl : a.revUrl = a'.revUrl
  aauthUrl : a.aauthUrl = a'.aauthUrl
  expire : a.expire = a'.expire
  key : X.exportPub a.key = X.exportPub a'.key
  keyBits : a.keyBits = a'.keyBits

/-- Two ways of reading key files that find the same public keys, or fail alike, whatever the passwords. -/
def SameKeys (X : Crypto) (readKey readKey' : Option Str → Option Str → Except PyExc (X.PrivKey × Int)) : Prop :=
  ∀ file pass pass', (readKey file pass).map (fun k => (X.exportPub k.1, k.2)) =
    (readKey' file pass').map (fun k => (X.exportPub k.1, k.2))

end Verif.Spec
