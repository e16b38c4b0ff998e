import Verif.Model.AAuthLog
import Verif.Model.PAuth

/-!
# Model of what the policy authority writes to the log, `hgaa/services/pauth.py`

`Verif/Model/PAuth.lean` leaves the log out. Here the same functions are given with the records they make through
`PolicyAuthority.LOG`, as in `Verif/Model/AAuthLog.lean`. The message of a record is made before the record, so that a missing
`REMOTE_ADDR` raises KeyError and leaves no record.
-/

namespace Verif

/-! ### Messages -/

/-- `'ClientFault: ' … ' from %s' % exports['REMOTE_ADDR']`: the form of most messages of level ERROR. -/
def faultRecord (what : String) (addr : Str) : Str := "ClientFault: ".toList ++ what.toList ++ " from ".toList ++ addr

/-- The message about a serial in use, `hgaa/services/pauth.py:272-274`. -/
def serialRecord (serial addr : Str) : Str :=
  "ClientFault: Cert with serial ".toList ++ serial ++ " in request from ".toList ++ addr ++
    " is already in database but hash does not match!".toList

/-- The message about an invalid policy, `hgaa/services/pauth.py:333-335`. -/
def policyRecord (addr err : Str) : Str :=
  "ClientFault: Invalid policy in evaluate request from ".toList ++ addr ++ ", error is ".toList ++ err

/-- The message about a new session, `hgaa/services/pauth.py:292-293`. -/
def addingRecord (addr : Str) : Str :=
  "Adding session and attribute certs as result of start_session request from ".toList ++ addr

/-- `LOG.error(record % exports['REMOTE_ADDR'])` followed by `raise ClientFault(fault)`. -/
def refuse {α : Type} (exports : Dict Str) (record : Str → Str) (fault : String) : AuditM α := do
  let addr ← auditLift (remoteAddr exports)
  note 40 (record addr)
  auditLift (.error (.clientFault fault.toList))

/-! ### `start_session` -/

/-- `_check_cert`, `hgaa/services/pauth.py:172-208`. -/
def checkCertLog (X : Crypto) (authorities : Dict PAAuthority) (exports : Dict Str) (clock : Int) (data : ACData)
    (version : Int) (f : ExportFormat) : AuditM (AttCert × ACData) :=
  if version ≠ 1 then
    refuse exports (faultRecord "Invalid ac version in request")
      "Unsupported attribute certificate version in certificate set."
  else if f ≠ .bytes ∧ f ≠ .base64 ∧ f ≠ .base64full then
    refuse exports (faultRecord "Invalid ac format in request")
      "Unsupported attribute certificate format in certificate set."
  else match AttCert.importAC X data f true with
    | .error _ => refuse exports (faultRecord "Could not verify ac in request")
        "Could to verify signature of attribute certificate in certificate set."
    | .ok (cert, rest) =>
      match cert.issuer with
      | none => auditLift (.error .attributeError)
      | some issuer =>
        match authorities.get issuer.uid with
        | none => refuse exports (faultRecord "aauth in ac is not trusted in request")
            "An attribute authority in an attribute certificate in your certificate set is not trusted."
        | some a =>
          if a.trustLevel ≤ 0 then refuse exports (faultRecord "aauth in ac is not trusted in request")
            "An attribute authority in an attribute certificate in your certificate set is not trusted."
          else if cert.verifyTime clock then pure (cert, rest)
          else refuse exports (faultRecord "ac is expired in evaluate")
            "An attribute certificate in your certificate set is expired."

/-- `hgaa/services/pauth.py:264-275` -/
def newRowLog (collate : Str → Str) (db : PAuthDb) (exports : Dict Str) (row : ACRow) : AuditM (List ACRow) :=
  match db.findCert collate row.serial with
  | none => pure [row]
  | some h =>
    if h.hash ≠ row.hash then refuse exports (serialRecord row.serial) "Certificate serial already in use."
    else pure []

/-- One round of the loop, `hgaa/services/pauth.py:243-277`. -/
def startStepLog (X : Crypto) (collate : Str → Str) (db : PAuthDb) (exports : Dict Str) (session : Str) (clock : Int)
    (acc : StartAcc) (raw : RawCert) : AuditM StartAcc := do
  let f ← auditLift (ExportFormat.ofValue raw.format)
  let (cert, rest) ← checkCertLog X db.authorityDict exports clock (.bytearray raw.data) raw.version f
  let serial ← auditLift (intToB64 cert.info.serial)
  let rows ← newRowLog collate db exports
    ⟨serial, raw.data, f.value, raw.version, cert.revRules.validBefore, b64Text (X.sha256 rest.rest)⟩
  return {
    processed := acc.processed.put serial cert
    minValid := if acc.minValid = -1 ∨ cert.revRules.validBefore < acc.minValid then cert.revRules.validBefore
      else acc.minValid
    maxStart := if acc.maxStart = -1 ∨ acc.maxStart < cert.info.issued then cert.info.issued else acc.maxStart
    certs := acc.certs ++ rows
    assignments := acc.assignments ++ [⟨serial, session⟩] }

/-- The loop, `hgaa/services/pauth.py:243-277`. -/
def startLoopLog (X : Crypto) (collate : Str → Str) (db : PAuthDb) (exports : Dict Str) (session : Str) (clock : Nat → Int) :
    Nat → StartAcc → List RawCert → AuditM StartAcc
  | _, acc, [] => pure acc
  | i, acc, raw :: raws => do
    let acc ← startStepLog X collate db exports session (clock i) acc raw
    startLoopLog X collate db exports session clock (i + 1) acc raws

/-- `start_session`, `hgaa/services/pauth.py:215-301`. The session is recorded before the commit. -/
def startSessionLog (X : Crypto) (collate : Str → Str) (db : PAuthDb) (env : PAEnv) (serviceUid : Option Str)
    (set : Option (List RawCert)) (exports : Dict Str) : AuditM (PAuthDb × SessionReturn) := do
  let raws := set.getD []
  if raws.length < 1 then
    refuse exports (faultRecord "No att cert set in start_session request") "Need attribute certificate set to start session."
  else do
    let session ← auditLift (intToB64 env.random)
    let acc ← startLoopLog X collate db exports session env.clock 0 {} raws
    let till := if acc.minValid < env.now + 86400 then acc.minValid else env.now + 86400
    if acc.processed.length < 1 then
      refuse exports (faultRecord "No valid certs in start_session request")
        "Need at least one valid attribute certificate in your certificate set."
    else do
      let addr ← auditLift (remoteAddr exports)
      note 20 (addingRecord addr)
      let db ← auditLift (db.commit collate env.commitFault acc.certs acc.assignments
        (fun uid => ⟨session, acc.maxStart, acc.minValid, env.now, addr, uid, till⟩) serviceUid)
      return (db, ⟨env.random, env.now, till⟩)

/-! ### `evaluate` -/

/-- `hgaa/services/pauth.py:308-323` -/
def policyTextLog (collate : Str → Str) (db : PAuthDb) (pair : PolicyArg) (exports : Dict Str) : AuditM Str := do
  let uid ← auditLift (getAttr pair.policyUid)
  match uid with
  | some uid =>
    if db.sessions ≠ [] ∧ (∃ p ∈ db.policies, collate p.uid = collate uid) then auditLift (.error .attributeError)
    else refuse exports (faultRecord "Unknown policy uid in evaluate request") "Unknown policy uid."
  | none => do
    let text ← auditLift (getAttr pair.policyString)
    match text with
    | none =>
      refuse exports (faultRecord "Need to give policy uid or policy string in evaluate request")
        "Need to give policy uid or policy string."
    | some text => return text

/-- `hgaa/services/pauth.py:325-336` -/
def policyCheckLog (U : Uni) (h : Heap) (r k : Nat) (describe : PyExc → String) (exports : Dict Str) (text : Str) : AuditM Unit :=
  match checkText U h r k (some 0) text with
  | .ok (_, .ok _) => pure ()
  | .ok (_, .error e) | .error e =>
    refuse exports (fun addr => policyRecord addr (describe e).toList) ("Invalid policy: " ++ describe e)

/-- `hgaa/services/pauth.py:338-344` -/
def objectAttCheckLog (exports : Dict Str) (l : List ObjectAtt) : AuditM Unit :=
  if ∃ a ∈ l, a.name = none ∧ a.uid = none then
    refuse exports (faultRecord "Attribute without name or uid in evaluate request")
      "Attribute without name or uid, need one or the other."
  else pure ()

/-- `evaluate`, `hgaa/services/pauth.py:304-393` -/
def evaluateRequestLog (U : Uni) (h : Heap) (r k : Nat) (describe : PyExc → String) (collate : Str → Str)
    (idMatches : Str → Int → Bool) (db : PAuthDb) (sessionId : Int) (pair : PolicyArg) (exports : Dict Str) : AuditM Unit := do
  let text ← policyTextLog collate db pair exports
  policyCheckLog U h r k describe exports text
  objectAttCheckLog exports (pair.objectAttributes.getD [])
  match db.sessions.find? (fun s => idMatches s.id sessionId) with
  | none => refuse exports (faultRecord "Unknown session_id in evaluate request") "Unknown session_id."
  | some _ => auditLift (.error .attributeError)

/-! ### `trusted_attribute_authorities`, `info` and `__init__` -/

/-- `trusted_attribute_authorities`, `hgaa/services/pauth.py:134-157` -/
def trustedAuthoritiesLog (db : PAuthDb) (exports : Dict Str) : AuditM (List PAAuthority) := do
  let addr ← auditLift (remoteAddr exports)
  note 20 ("Trusted attribute authorities request on PolicyAuthority from ".toList ++ addr ++ ['.'])
  return db.authorities.foldl (fun l a => l ++ [a]) []

/-- `info`, `hgaa/services/pauth.py:159-170` -/
def PAService.infoLog (p : PAService) (exports : Dict Str) : AuditM PAInfo := do
  let addr ← auditLift (remoteAddr exports)
  note 20 ("Info request on PolicyAuthority from ".toList ++ addr ++ ['.'])
  return ⟨p.name, p.uid, 1, 1, p.url, 1⟩

/-- `__init__`, `hgaa/services/pauth.py:108-128` -/
def PAService.initLog (U : Uni) (c : Config) : AuditM PAService := do
  let name ← auditLift (getConf U c "PAUTH_NAME".toList true "PAUTH".toList)
  let uid ← auditLift (getConf U c "PAUTH_UID".toList true "PAUTH".toList)
  let host ← auditLift (getConf U c "SERVICE_HOST".toList true "LADON".toList)
  let port ← auditLift (getConf U c "SERVICE_PORT".toList true "LADON".toList)
  let url ← auditLift (serviceUrl U host port "/PolicyAuthority/jsonwsp/".toList)
  note 10 ("Setup PolicyAuthority with following attributes: name: ".toList ++ showOpt name ++ ", uid: ".toList ++ showOpt uid ++
    ", pa_ver: 1, ac_ver: 1, pl_ver: 1, url: ".toList ++ url)
  note 10 "Setting up database session for PolicyAuthority".toList
  return ⟨name, uid, url⟩

end Verif
