import Verif.Model.AAuthLog

/-!
# Model of what the attribute authority records when it is set up and asked for its description

`Authority.init` and `Authority.info` of `Verif/Model/AAuth.lean` with the records they make. Together with
`Verif/Model/AAuthLog.lean` these are all records of `hgaa/services/aauth.py`.

The records of `__init__` are made by `AttributeAuthority.LOG`, those of `get_engine` by a child of `SERVICE_LOG`.
-/

namespace Verif

/-- The message about the settings, `hgaa/services/aauth.py:129-137`. The credential types are shown as a list. -/
def setupMsg {X : Crypto} (a : Authority X) : Str :=
  "Setup AttributeAuthority with following attributes: aauth_id: ".toList ++ showOpt a.aauthId ++ ", a_uri: ".toList ++
    showOpt a.aUri ++ ", rev_uri: ".toList ++ a.revUrl ++ ", pub_key: ".toList ++ bytesRepr (X.exportPub a.key) ++
    ", aa_ver: ".toList ++ decimal 1 ++ ", ac_ver: ".toList ++ decimal 1 ++ ", c_types: [".toList ++
    commaJoin [decimal 0] ++ [']']

/-- `__init__` with its records, `hgaa/services/aauth.py:90-147`: the authority, and the engines and the engine of its
sessions. The constructor of `ACIssuer` (`:140-144`) only stores its arguments. -/
def Authority.initLog (U : Uni) (X : Crypto) (c : Config)
    (readKey : Option Str → Option Str → Except PyExc (X.PrivKey × Int)) (create : Str → Except PyExc Unit) (st : Engines) :
    AuditM (Authority X × Engines × Option Engine) := do
  let a ← auditLift (Authority.init U X c readKey)
  note 10 (setupMsg a)
  note 10 "Setting up issuer AC section.".toList
  note 10 "Setting up database session for AttributeAuthority".toList
  let engine ← getEngineLog U c create st "AAUTH".toList
  return (a, engine)

/-- The message of `info`, `hgaa/services/aauth.py:157`. -/
def infoMsg (addr : Str) : Str := "Info request on AttributeAuthority from ".toList ++ addr ++ ['.']

/-- `info` with its record, `hgaa/services/aauth.py:155-183`. -/
def Authority.infoLog {X : Crypto} (a : Authority X) (exports : Dict Str) : AuditM AAInfo := do
  let addr ← auditLift (remoteAddr exports)
  note 20 (infoMsg addr)
  let aauthId ← auditLift (infoAttr "aauth_id" a.aauthId)
  let aUri ← auditLift (infoAttr "a_uri" a.aUri)
  return ⟨aauthId, 1, 1, aUri, a.revUrl, X.exportPub a.key, [("USER_PASS".toList, 0)], "RSA".toList, a.keyBits,
    "SHA256".toList, "RSASSA-PKCS1-v1_5".toList⟩

end Verif
