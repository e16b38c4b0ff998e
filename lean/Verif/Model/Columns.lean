import Verif.Model.SampleData
/-!
# Column types of the databases, `hgaa/schema/aauth.py` and `hgaa/schema/pauth.py`

What a MySQL server in strict mode (its default since version 5.7) does with values that do not fit their columns: it refuses
the statement, so that the commit fails. SQLite does not look at lengths; for it `Model/PAuth.lean` alone applies.
SQLAlchemy makes VARCHAR(n) of `String(n)`, INTEGER of `Integer`, TEXT of `Text` and BLOB of `LargeBinary`. Simplified: texts that are
too long only by blanks at their end, which MySQL cuts off, count as too long, and the character set of the server knows all
characters. Which exception is raised is an input; if a key is in use as well, IntegrityError is raised here.
-/

namespace Verif

/-- VARCHAR(n): so many characters. -/
def fitsString (n : Nat) (s : Str) : Bool := decide (s.length ≤ n)
/-- TEXT: 65535 bytes. -/
def fitsText (s : Str) : Bool := decide ((utf8 s).length ≤ 65535)
/-- BLOB: 65535 bytes. -/
def fitsBlob (b : Bytes) : Bool := decide (b.length ≤ 65535)
/-- INTEGER: 32 bits with sign. -/
def fitsInteger (n : Int) : Bool := decide (-2147483648 ≤ n ∧ n ≤ 2147483647)

/-- `pauth_attribute_certificates`, `hgaa/schema/pauth.py:52-59`. -/
def ACRow.fits (r : ACRow) : Bool :=
  fitsString 50 r.serial && fitsBlob r.certificate && fitsInteger r.format && fitsInteger r.version && fitsInteger r.validTill &&
    fitsText r.hash

/-- `pauth_attribute_certificate_assignments`, `hgaa/schema/pauth.py:64-67`. -/
def ACARow.fits (r : ACARow) : Bool := fitsString 50 r.acSerial && fitsString 50 r.sessionId

/-- `pauth_sessions`, `hgaa/schema/pauth.py:73-81`. -/
def SessionRow.fits (r : SessionRow) : Bool :=
  fitsString 50 r.id && fitsInteger r.certStart && fitsInteger r.certValidTill && fitsInteger r.sessionStart &&
    fitsString 100 r.serviceIp && fitsString 100 r.serviceUid && fitsInteger r.sessionValidTill

/-- `pauth_attribute_authorities`, `hgaa/schema/pauth.py:13-21`. -/
def PAAuthority.fits (r : PAAuthority) : Bool :=
  fitsString 100 r.uid && fitsString 100 r.name && fitsString 100 r.url && fitsString 100 r.keyCipher && fitsInteger r.keySize &&
    fitsText r.pubKey && fitsInteger r.trustLevel

/-- All tables of the policy authority that can be filled from outside, `hgaa/schema/pauth.py`. -/
def PARow.fits : PARow → Bool
  | .authority a => a.fits
  | .policy name p => fitsString 100 p.uid && fitsString 100 name && fitsText p.policy
  | .attribute t => fitsString 100 t.uid && fitsString 100 t.name && fitsString 100 t.value
  | .cert r => r.fits
  | .assignment r => r.fits
  | .session r => r.fits

/-- The tables of the attribute authority, `hgaa/schema/aauth.py:13-42`. -/
def AARow.fits : AARow → Bool
  | .user u => fitsInteger u.id && fitsString 25 u.username && fitsString 60 u.password
  | .attribute t => fitsString 100 t.id && fitsString 100 t.name
  | .assignment a => fitsInteger a.userId && fitsString 100 a.attId && a.value.all (fitsString 100)

/-- `start_session`, `hgaa/services/pauth.py:215-301`, with a database that refuses what does not fit: the rows added are looked at
in the commit (294-295). -/
def startSessionStrict (X : Crypto) (collate : Str → Str) (refused : PyExc) (db : PAuthDb) (env : PAEnv) (serviceUid : Option Str)
    (set : Option (List RawCert)) (exports : Dict Str) : PAuthDb × Except PyExc SessionReturn :=
  match startSessionE X collate db env serviceUid set exports with
  | .ok (db', r) =>
    if (db'.certs.drop db.certs.length).all ACRow.fits && (db'.assignments.drop db.assignments.length).all ACARow.fits &&
        (db'.sessions.drop db.sessions.length).all SessionRow.fits then (db', .ok r)
    else (db, .error refused)
  | .error e => (db, .error e)

end Verif
