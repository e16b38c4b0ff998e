import Verif.Model.AAuth
import Verif.Model.TypeChecker

/-!
# Model of the policy authority, `hgaa/services/pauth.py`

The database is a list of rows per table (`hgaa/schema/pauth.py`); texts are compared by the database after applying
`collate`, as in `Model/AAuth.lean`. A commit checks primary keys and NOT NULL and may fail for any other reason, given by
`PAEnv.commitFault`; a commit that fails changes nothing. Records are in `Model/PAuthLog.lean`; sizes of columns are in `Model/Columns.lean`; the transport is not modelled.
Attachments have been received: reading them gives their bytes.
-/

namespace Verif

/-! ### Data -/

/-- A row of `pauth_attribute_authorities`, `hgaa/schema/pauth.py:13-21`. -/
structure PAAuthority where
  uid : Str
  name : Str
  url : Str
  keyCipher : Str
  keySize : Int
  pubKey : Str
  trustLevel : Int
deriving DecidableEq, Repr

/-- A row of `pauth_policies`, `hgaa/schema/pauth.py:42-47`, without the name and the `ast` nothing reads. -/
structure PAPolicy where
  uid : Str
  policy : Str
deriving DecidableEq, Repr

/-- A row of `pauth_attribute_certificates`, `hgaa/schema/pauth.py:52-59`. -/
structure ACRow where
  serial : Str
  certificate : Bytes
  format : Int
  version : Int
  validTill : Int
  hash : Str
deriving DecidableEq, Repr

/-- A row of `pauth_attribute_certificate_assignments`, `hgaa/schema/pauth.py:64-67`. -/
structure ACARow where
  acSerial : Str
  sessionId : Str
deriving DecidableEq, Repr

/-- A row of `pauth_sessions`, `hgaa/schema/pauth.py:73-81`. -/
structure SessionRow where
  id : Str
  certStart : Int
  certValidTill : Int
  sessionStart : Int
  serviceIp : Str
  serviceUid : Str
  sessionValidTill : Int
deriving DecidableEq, Repr

/-- The tables of the policy authority. -/
structure PAuthDb where
  authorities : List PAAuthority
  policies : List PAPolicy
  certs : List ACRow
  assignments : List ACARow
  sessions : List SessionRow
deriving DecidableEq, Repr

/-- `AttributeCertificateType`, `hgaa/services/pauth.py:55-59`, with the bytes of the attachment. -/
structure RawCert where
  data : Bytes
  version : Int
  format : Int
deriving DecidableEq, Repr

/-- `SessionReturn`, `hgaa/services/pauth.py:75-78`. -/
structure SessionReturn where
  sessionId : Nat
  start : Int
  validTill : Int
deriving DecidableEq, Repr

/-- What differs from request to request apart from its arguments. -/
structure PAEnv where
  /-- `int(time.time())`, `hgaa/services/pauth.py:228` -/
  now : Int
  /-- the clock when the certificates are checked, by their position -/
  clock : Nat → Int
  /-- `getrandbits(160)` -/
  random : Nat
  /-- a failure of the commit that does not come from the keys -/
  commitFault : Option PyExc

/-! ### `start_session` -/

/-- Raising a `ClientFault` after logging the address of the client: KeyError if that is missing. -/
def clientFaultLogged (exports : Dict Str) (msg : String) : PyExc :=
  if (exports.get "REMOTE_ADDR".toList).isSome then .clientFault msg.toList else .keyError

/-- `aauth_dict`, `hgaa/services/pauth.py:220-223`. -/
def PAuthDb.authorityDict (db : PAuthDb) : Dict PAAuthority :=
  db.authorities.foldl (fun (d : Dict PAAuthority) a => d.put a.uid a) []

/-- `_check_cert`, `hgaa/services/pauth.py:172-208`: the certificate and what decoding leaves of the data. The issuer is
never missing after an import. -/
def checkCert (X : Crypto) (authorities : Dict PAAuthority) (exports : Dict Str) (clock : Int) (data : ACData)
    (version : Int) (f : ExportFormat) : Except PyExc (AttCert × ACData) :=
  if version ≠ 1 then
    .error (clientFaultLogged exports "Unsupported attribute certificate version in certificate set.")
  else if f ≠ .bytes ∧ f ≠ .base64 ∧ f ≠ .base64full then
    .error (clientFaultLogged exports "Unsupported attribute certificate format in certificate set.")
  else match AttCert.importAC X data f true with
    | .error _ => .error (clientFaultLogged exports
        "Could to verify signature of attribute certificate in certificate set.")
    | .ok (cert, rest) =>
      match cert.issuer with
      | none => .error .attributeError
      | some issuer =>
        match authorities.get issuer.uid with
        | none => .error (clientFaultLogged exports
            "An attribute authority in an attribute certificate in your certificate set is not trusted.")
        | some a =>
          if a.trustLevel ≤ 0 then .error (clientFaultLogged exports
            "An attribute authority in an attribute certificate in your certificate set is not trusted.")
          else if cert.verifyTime clock then .ok (cert, rest)
          else .error (clientFaultLogged exports "An attribute certificate in your certificate set is expired.")

/-- `_int_to_b64(n, 160)`, `hgaa/services/pauth.py:210-212`. -/
def intToB64 (n : Int) : Except PyExc Str := (toBytes 20 n).map b64Text

/-- The bytes of what is left after an import. -/
def ACData.rest : ACData → Bytes
  | .bytearray b | .bytes b => b
  | .str s => utf8 s

/-- The variables of the loop in `start_session`: `processed_att_certs`, `min_valid_date`, `max_start_date` and `to_add`,
the latter by table. -/
structure StartAcc where
  processed : Dict AttCert := []
  minValid : Int := -1
  maxStart : Int := -1
  certs : List ACRow := []
  assignments : List ACARow := []
deriving DecidableEq, Repr

/-- `query(AC).filter(AC.serial == b64_serial).first()`, `hgaa/services/pauth.py:264`. -/
def PAuthDb.findCert (collate : Str → Str) (db : PAuthDb) (serial : Str) : Option ACRow :=
  db.certs.find? (fun r => decide (collate r.serial = collate serial))

/-- The row added for a certificate that is not stored yet; the error for one that is stored with another hash,
`hgaa/services/pauth.py:264-275`. -/
def newRow (collate : Str → Str) (db : PAuthDb) (exports : Dict Str) (row : ACRow) : Except PyExc (List ACRow) :=
  match db.findCert collate row.serial with
  | none => .ok [row]
  | some h =>
    if h.hash ≠ row.hash then .error (clientFaultLogged exports "Certificate serial already in use.") else .ok []

/-- One round of the loop, `hgaa/services/pauth.py:243-277`. The hash is taken after the import, which consumes the data in
the BYTES format. -/
def startStep (X : Crypto) (collate : Str → Str) (db : PAuthDb) (exports : Dict Str) (session : Str) (clock : Int)
    (acc : StartAcc) (raw : RawCert) : Except PyExc StartAcc := do
  let f ← ExportFormat.ofValue raw.format
  let (cert, rest) ← checkCert X db.authorityDict exports clock (.bytearray raw.data) raw.version f
  let serial ← intToB64 cert.info.serial
  let rows ← newRow collate db exports
    ⟨serial, raw.data, f.value, raw.version, cert.revRules.validBefore, b64Text (X.sha256 rest.rest)⟩
  return {
    processed := acc.processed.put serial cert
    minValid := if acc.minValid = -1 ∨ cert.revRules.validBefore < acc.minValid then cert.revRules.validBefore
      else acc.minValid
    maxStart := if acc.maxStart = -1 ∨ acc.maxStart < cert.info.issued then cert.info.issued else acc.maxStart
    certs := acc.certs ++ rows
    assignments := acc.assignments ++ [⟨serial, session⟩] }

/-- The loop over the certificates, `hgaa/services/pauth.py:243-277`, from position `i` on. -/
def startLoop (X : Crypto) (collate : Str → Str) (db : PAuthDb) (exports : Dict Str) (session : Str) (clock : Nat → Int) :
    Nat → StartAcc → List RawCert → Except PyExc StartAcc
  | _, acc, [] => .ok acc
  | i, acc, raw :: raws => do
    let acc ← startStep X collate db exports session (clock i) acc raw
    startLoop X collate db exports session clock (i + 1) acc raws

/-- New keys do not repeat and are not in the table. -/
def newKeys {α : Type} [DecidableEq α] (old new : List α) : Bool := decide (new.Nodup ∧ ∀ k ∈ new, k ∉ old)

/-- `s.add_all(to_add); s.commit()`, `hgaa/services/pauth.py:294-295`: IntegrityError for keys in use and a NULL
`service_uid`. -/
def PAuthDb.commit (collate : Str → Str) (db : PAuthDb) (fault : Option PyExc) (certs : List ACRow)
    (assignments : List ACARow) (session : Str → SessionRow) (serviceUid : Option Str) : Except PyExc PAuthDb :=
  match fault, serviceUid with
  | some e, _ => .error e
  | none, none => .error .integrityError
  | none, some uid =>
    if newKeys (db.certs.map (fun r => collate r.serial)) (certs.map (fun r => collate r.serial)) &&
        newKeys (db.assignments.map (fun r => (collate r.acSerial, collate r.sessionId)))
          (assignments.map (fun r => (collate r.acSerial, collate r.sessionId))) &&
        newKeys (db.sessions.map (fun r => collate r.id)) [collate (session uid).id] then
      .ok { db with
        certs := db.certs ++ certs
        assignments := db.assignments ++ assignments
        sessions := db.sessions ++ [session uid] }
    else .error .integrityError

/-- `start_session` up to the answer, `hgaa/services/pauth.py:215-301`: the database afterwards and the answer. `set` is
`none` if the set or the list in it is `None`. -/
def startSessionE (X : Crypto) (collate : Str → Str) (db : PAuthDb) (env : PAEnv) (serviceUid : Option Str)
    (set : Option (List RawCert)) (exports : Dict Str) : Except PyExc (PAuthDb × SessionReturn) := do
  let raws := set.getD []
  if raws.length < 1 then .error (clientFaultLogged exports "Need attribute certificate set to start session.")
  else do
    let session ← intToB64 env.random
    let acc ← startLoop X collate db exports session env.clock 0 {} raws
    let till := if acc.minValid < env.now + 86400 then acc.minValid else env.now + 86400
    if acc.processed.length < 1 then
      .error (clientFaultLogged exports "Need at least one valid attribute certificate in your certificate set.")
    else do
      let addr ← remoteAddr exports
      let db ← db.commit collate env.commitFault acc.certs acc.assignments
        (fun uid => ⟨session, acc.maxStart, acc.minValid, env.now, addr, uid, till⟩) serviceUid
      return (db, ⟨env.random, env.now, till⟩)

/-- `start_session`: the database afterwards, also if it raises. -/
def startSession (X : Crypto) (collate : Str → Str) (db : PAuthDb) (env : PAEnv) (serviceUid : Option Str)
    (set : Option (List RawCert)) (exports : Dict Str) : PAuthDb × Except PyExc SessionReturn :=
  match startSessionE X collate db env serviceUid set exports with
  | .ok (db, r) => (db, .ok r)
  | .error e => (db, .error e)

/-! ### `evaluate` -/

/-- `ObjectAttribute`, `hgaa/services/pauth.py:67-72`, as far as it is used. -/
structure ObjectAtt where
  name : Option Str
  uid : Option Str
deriving DecidableEq, Repr

/-- The argument of `evaluate`. The outer `Option` of the first two tells whether the object has the attribute at all:
`PolicyObjectAttPair` (`hgaa/services/pauth.py:92-95`) declares neither. -/
structure PolicyArg where
  policyUid : Option (Option Str)
  policyString : Option (Option Str)
  objectAttributes : Option (List ObjectAtt)
deriving DecidableEq, Repr

/-- What Ladon passes: the declared attributes are `policy` and `object_attributes`. -/
def PolicyArg.declared (objectAttributes : Option (List ObjectAtt)) : PolicyArg := ⟨none, none, objectAttributes⟩

/-- Reading an attribute: AttributeError if there is none. -/
def getAttr {α : Type} (x : Option α) : Except PyExc α := x.elim (.error .attributeError) .ok

/-- The text of the policy, `hgaa/services/pauth.py:308-323`. The query joins sessions and policies and returns a session,
which has no attribute `policy`. -/
def policyText (collate : Str → Str) (db : PAuthDb) (pair : PolicyArg) (exports : Dict Str) : Except PyExc Str := do
  let uid ← getAttr pair.policyUid
  match uid with
  | some uid =>
    if db.sessions ≠ [] ∧ (∃ p ∈ db.policies, collate p.uid = collate uid) then .error .attributeError
    else .error (clientFaultLogged exports "Unknown policy uid.")
  | none => do
    let text ← getAttr pair.policyString
    match text with
    | none => .error (clientFaultLogged exports "Need to give policy uid or policy string.")
    | some text => return text

/-- The policy is checked, `hgaa/services/pauth.py:325-336`; `describe` is the text of an exception. The
symbol objects and node ids of the checker start at `r` and `k`. -/
def policyCheck (U : Uni) (h : Heap) (r k : Nat) (describe : PyExc → String) (exports : Dict Str) (text : Str) : Except PyExc Unit :=
  match checkText U h r k (some 0) text with
  | .ok (_, .ok _) => .ok ()
  | .ok (_, .error e) | .error e => .error (clientFaultLogged exports ("Invalid policy: " ++ describe e))

/-- The object attributes are checked, `hgaa/services/pauth.py:338-344`. -/
def objectAttCheck (exports : Dict Str) (l : List ObjectAtt) : Except PyExc Unit :=
  if ∃ a ∈ l, a.name = none ∧ a.uid = none then
    .error (clientFaultLogged exports "Attribute without name or uid, need one or the other.")
  else .ok ()

/-- `evaluate`, `hgaa/services/pauth.py:304-393`. `idMatches` is how the database compares the text of an id with a number.
The `Session` found has no attribute `valid_till` (it is called `session_valid_till`), so that the rest of the function is
not reached; the function contains no `return`, so that its value would be `None`, written `()` here. -/
def evaluateRequest (U : Uni) (h : Heap) (r k : Nat) (describe : PyExc → String) (collate : Str → Str)
    (idMatches : Str → Int → Bool) (db : PAuthDb) (sessionId : Int) (pair : PolicyArg) (exports : Dict Str) : Except PyExc Unit := do
  let text ← policyText collate db pair exports
  policyCheck U h r k describe exports text
  objectAttCheck exports (pair.objectAttributes.getD [])
  match db.sessions.find? (fun s => idMatches s.id sessionId) with
  | none => .error (clientFaultLogged exports "Unknown session_id.")
  | some _ => .error .attributeError

/-! ### `trusted_attribute_authorities`, `info` and `__init__` -/

/-- `trusted_attribute_authorities`, `hgaa/services/pauth.py:134-157`; the fields of a row are copied. -/
def trustedAuthorities (db : PAuthDb) (exports : Dict Str) : Except PyExc (List PAAuthority) := do
  let _ ← remoteAddr exports
  return db.authorities.foldl (fun l a => l ++ [a]) []

/-- The fields of `PolicyAuthority`, `hgaa/services/pauth.py:98-128`. -/
structure PAService where
  name : Option Str
  uid : Option Str
  url : Str
deriving DecidableEq, Repr

/-- `__init__`, `hgaa/services/pauth.py:108-128`. -/
def PAService.init (U : Uni) (c : Config) : Except PyExc PAService := do
  let name ← getConf U c "PAUTH_NAME".toList true "PAUTH".toList
  let uid ← getConf U c "PAUTH_UID".toList true "PAUTH".toList
  let host ← getConf U c "SERVICE_HOST".toList true "LADON".toList
  let port ← getConf U c "SERVICE_PORT".toList true "LADON".toList
  let url ← serviceUrl U host port "/PolicyAuthority/jsonwsp/".toList
  return ⟨name, uid, url⟩

/-- `PolicyAuthorityInfo`, `hgaa/services/pauth.py:45-52`. -/
structure PAInfo where
  name : Option Str
  uid : Option Str
  version : Int
  acVersion : Int
  url : Str
  plVersion : Int
deriving DecidableEq, Repr

/-- `info`, `hgaa/services/pauth.py:159-170`. -/
def PAService.info (p : PAService) (exports : Dict Str) : Except PyExc PAInfo := do
  let _ ← remoteAddr exports
  return ⟨p.name, p.uid, 1, 1, p.url, 1⟩

end Verif
