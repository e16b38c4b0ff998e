import Verif.Spec.Sessions

/-!
# What the policy authority is meant to leave in its log

For every fault a client is told, the record that goes with it; the texts are written out in full.
-/

namespace Verif.Spec

/-- The message of level ERROR that goes with a fault of `start_session`. A serial number is named only if it is that of a
certificate in the request that is accepted, but stored with another hash. -/
inductive StartRecord (X : Crypto) (collate : Str → Str) (db : PAuthDb) (clock : Nat → Int) (raws : List RawCert) (addr : Str) :
    String → Str → Prop
  | none : StartRecord X collate db clock raws addr "Need attribute certificate set to start session."
      ("ClientFault: No att cert set in start_session request from ".toList ++ addr)
  | version : StartRecord X collate db clock raws addr "Unsupported attribute certificate version in certificate set."
      ("ClientFault: Invalid ac version in request from ".toList ++ addr)
  | format : StartRecord X collate db clock raws addr "Unsupported attribute certificate format in certificate set."
      ("ClientFault: Invalid ac format in request from ".toList ++ addr)
  | unverified : StartRecord X collate db clock raws addr
      "Could to verify signature of attribute certificate in certificate set."
      ("ClientFault: Could not verify ac in request from ".toList ++ addr)
  | untrusted : StartRecord X collate db clock raws addr
      "An attribute authority in an attribute certificate in your certificate set is not trusted."
      ("ClientFault: aauth in ac is not trusted in request from ".toList ++ addr)
  | expired : StartRecord X collate db clock raws addr "An attribute certificate in your certificate set is expired."
      ("ClientFault: ac is expired in evaluate from ".toList ++ addr)
  | reused {raw : RawCert} {c : AttCert} {h : ACRow} {i : Nat} (hr : raw ∈ raws) (ha : Accepted X db (clock i) raw c)
      (hh : h ∈ db.certs) (hs : collate h.serial = collate (serialText c)) (hn : h.hash ≠ hashText X raw) :
      StartRecord X collate db clock raws addr "Certificate serial already in use."
      ("ClientFault: Cert with serial ".toList ++ serialText c ++ " in request from ".toList ++ addr ++
        " is already in database but hash does not match!".toList)

/-- The message of level ERROR that goes with a fault of `evaluate`; `E` are the texts of what is wrong with the policy. -/
inductive EvaluateRecord (E : String → Prop) (addr : Str) : String → Str → Prop
  | nothing : EvaluateRecord E addr "Need to give policy uid or policy string."
      ("ClientFault: Need to give policy uid or policy string in evaluate request from ".toList ++ addr)
  | uid : EvaluateRecord E addr "Unknown policy uid." ("ClientFault: Unknown policy uid in evaluate request from ".toList ++ addr)
  | invalid {err : String} (h : E err) : EvaluateRecord E addr ("Invalid policy: " ++ err)
      ("ClientFault: Invalid policy in evaluate request from ".toList ++ addr ++ ", error is ".toList ++ err.toList)
  | attribute : EvaluateRecord E addr "Attribute without name or uid, need one or the other."
      ("ClientFault: Attribute without name or uid in evaluate request from ".toList ++ addr)
  | session : EvaluateRecord E addr "Unknown session_id."
      ("ClientFault: Unknown session_id in evaluate request from ".toList ++ addr)

/-- The message of level INFO about a new session. -/
def startedRecord (addr : Str) : Str :=
  "Adding session and attribute certs as result of start_session request from ".toList ++ addr

end Verif.Spec
