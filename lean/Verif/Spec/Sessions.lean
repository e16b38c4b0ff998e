import Verif.Model.PAuth
import Verif.Spec.Certificate

/-!
# What starting a session is meant to do

When a certificate is accepted, and which rows a session adds to the database, in terms of the request, the clock and the
rows stored before.
-/

namespace Verif.Spec

/-- The primary keys of the schema. -/
structure PAKeys (collate : Str → Str) (db : PAuthDb) : Prop where
  authorities : (db.authorities.map (fun r => collate r.uid)).Nodup
  certs : (db.certs.map (fun r => collate r.serial)).Nodup
  assignments : (db.assignments.map (fun r => (collate r.acSerial, collate r.sessionId))).Nodup
  sessions : (db.sessions.map (fun r => collate r.id)).Nodup

/-- The encoded certificate sent in one of the two formats that work: BYTES and BASE64. -/
def SentBytes (raw : RawCert) (b : Bytes) : Prop :=
  raw.format = 0 ∧ b = raw.data ∨ raw.format = 3 ∧ b64decode raw.data = .ok b

/-- The authority is known and trusted. -/
def Trusted (db : PAuthDb) (uid : Str) : Prop := ∃ a ∈ db.authorities, a.uid = uid ∧ 0 < a.trustLevel

/-- A certificate that passes every check at the time `now`. -/
structure Accepted (X : Crypto) (db : PAuthDb) (now : Int) (raw : RawCert) (c : AttCert) : Prop where
  version : raw.version = 1
  sent : ∃ b, SentBytes raw b ∧ CertWire c b
  verified : c.verifySignature X = .ok true
  trusted : ∃ i, c.issuer = some i ∧ Trusted db i.uid
  started : c.revRules.validAfter < now
  unexpired : now < c.revRules.validBefore

/-- How numbers of 160 bits are stored: the base64 text of their bytes, least significant first. -/
def numberText (n : Int) : Str := b64 (packLE 20 n.toNat)

/-- How the serial number of a certificate is stored. -/
def serialText (c : AttCert) : Str := numberText c.info.serial

/-- The hash stored for a certificate: that of what was sent, but of nothing at all for the BYTES format. -/
def hashText (X : Crypto) (raw : RawCert) : Str := b64 (X.sha256 (if raw.format = 0 then [] else raw.data))

/-- The row stored for a certificate. -/
def certRow (X : Crypto) (raw : RawCert) (c : AttCert) : ACRow :=
  ⟨serialText c, raw.data, raw.format, 1, c.revRules.validBefore, hashText X raw⟩

/-- No certificate with this serial number is stored. -/
def isNew (collate : Str → Str) (db : PAuthDb) (c : AttCert) : Bool :=
  db.certs.all (fun r => decide (collate r.serial ≠ collate (serialText c)))

/-- The rows added for certificates that are not stored yet. -/
def newCerts (X : Crypto) (collate : Str → Str) (db : PAuthDb) (sent : List (RawCert × AttCert)) : List ACRow :=
  (sent.filter (fun p => isNew collate db p.2)).map (fun p => certRow X p.1 p.2)

/-- Why a certificate is refused, and what the client is told. -/
inductive Reason (X : Crypto) (collate : Str → Str) (db : PAuthDb) (now : Int) (raw : RawCert) : String → Prop
  | version : raw.version ≠ 1 → Reason X collate db now raw "Unsupported attribute certificate version in certificate set."
  | format : raw.version = 1 → raw.format = 1 ∨ raw.format = 2 →
      Reason X collate db now raw "Unsupported attribute certificate format in certificate set."
  | unverified : raw.version = 1 → raw.format = 0 ∨ raw.format = 3 ∨ raw.format = 4 →
      (∀ b c, SentBytes raw b → CertWire c b → c.verifySignature X ≠ .ok true) →
      Reason X collate db now raw "Could to verify signature of attribute certificate in certificate set."
  | untrusted {b c i} : raw.version = 1 → SentBytes raw b → CertWire c b → c.verifySignature X = .ok true →
      c.issuer = some i → ¬ Trusted db i.uid → Reason X collate db now raw
        "An attribute authority in an attribute certificate in your certificate set is not trusted."
  | expired {b c i} : raw.version = 1 → SentBytes raw b → CertWire c b → c.verifySignature X = .ok true →
      c.issuer = some i → Trusted db i.uid → ¬ (c.revRules.validAfter < now ∧ now < c.revRules.validBefore) →
      Reason X collate db now raw "An attribute certificate in your certificate set is expired."
  | reused {c h} : Accepted X db now raw c → h ∈ db.certs → collate h.serial = collate (serialText c) →
      h.hash ≠ hashText X raw → Reason X collate db now raw "Certificate serial already in use."

/-- A session started with certificates `cs`, the rows it adds and the answer. -/
structure Started (X : Crypto) (collate : Str → Str) (db : PAuthDb) (env : PAEnv) (serviceUid : Option Str)
    (raws : List RawCert) (exports : Dict Str) (cs : List AttCert) (db' : PAuthDb) (r : SessionReturn) : Prop where
  accepted : List.Forall₂ (fun p c => Accepted X db (env.clock p.2) p.1 c) raws.zipIdx cs
  sameHash : List.Forall₂ (fun raw c => ∀ h ∈ db.certs, collate h.serial = collate (serialText c) → h.hash = hashText X raw)
    raws cs
  distinct : (cs.map (fun c => collate (serialText c))).Nodup
  fresh : ∀ s ∈ db.sessions, collate s.id ≠ collate (numberText env.random)
  unassigned : ∀ c ∈ cs, ∀ a ∈ db.assignments,
    (collate a.acSerial, collate a.sessionId) ≠ (collate (serialText c), collate (numberText env.random))
  noFault : env.commitFault = none
  result : ∃ addr uid first last, exports.get "REMOTE_ADDR".toList = some addr ∧ serviceUid = some uid ∧
    (cs.map (fun c => c.revRules.validBefore)).min? = some first ∧ (cs.map (fun c => c.info.issued)).max? = some last ∧
    db' = { db with
      certs := db.certs ++ newCerts X collate db (raws.zip cs)
      assignments := db.assignments ++ cs.map (fun c => ⟨serialText c, numberText env.random⟩)
      sessions := db.sessions ++
        [⟨numberText env.random, last, first, env.now, addr, uid, min first (env.now + 86400)⟩] } ∧
    r = ⟨env.random, env.now, min first (env.now + 86400)⟩

end Verif.Spec
