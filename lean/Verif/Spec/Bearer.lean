import Verif.Spec.Sessions

/-!
# What a session knows of its certificates and of its caller

Two certificates are alike for a session if they carry the same number and the same times of issue and expiry. Two
databases are alike if they differ at most in the certificates as sent, and in the addresses sessions were started from.
-/

namespace Verif.Spec

/-- The number and the two times a session is made of. Nothing is said of the issuer, the holder, the attributes, the
rules of delegation, the places revocations are published, the extensions and the signature. -/
def Alike (c c' : AttCert) : Prop :=
  c.info.serial = c'.info.serial ∧ c.info.issued = c'.info.issued ∧ c.revRules.validBefore = c'.revRules.validBefore

/-- The row of a session without the address it was started from. -/
def unplaced (s : SessionRow) : SessionRow := { s with serviceIp := [] }

/-- The row of a certificate without the certificate. -/
def certless (r : ACRow) : ACRow := { r with certificate := [], format := 0, hash := [] }

/-- The same sessions up to their addresses, with the same assignments. -/
structure SameSessions (db db' : PAuthDb) : Prop where
  authorities : db.authorities = db'.authorities
  policies : db.policies = db'.policies
  assignments : db.assignments = db'.assignments
  sessions : db.sessions.map unplaced = db'.sessions.map unplaced
  certs : db.certs.map certless = db'.certs.map certless

end Verif.Spec
