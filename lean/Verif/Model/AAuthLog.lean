import Verif.Model.AAuth
import Verif.Model.Database

/-!
# Model of what the attribute authority and `get_engine` write to the log

`Verif/Model/AAuth.lean` and `Verif/Model/Database.lean` leave the log out. Here the same functions are given with the
records they make. A record is a level and a message; the logger they are made by is `AttributeAuthority.LOG`, and the child of
`parent_log` for `get_engine`.

Simplifications: the durations in messages are arbitrary texts.
-/

namespace Verif

/-- Records in the order they are made: level and message. -/
abbrev Trail := List (Nat × Str)

/-- A computation that makes records; those made before an exception stay. -/
abbrev AuditM (α : Type) := EStateM PyExc Trail α

/-- `LOG.info(msg)` (level 20), `LOG.debug(msg)` (level 10) and `LOG.error(msg)` (level 40) -/
def note (level : Nat) (msg : Str) : AuditM Unit := fun t => .ok () (t ++ [(level, msg)])

/-- A value or an exception. -/
def auditLift {α : Type} (x : Except PyExc α) : AuditM α := fun t =>
  match x with
  | .ok a => .ok a t
  | .error e => .error e t

/-- `', '.join(l)` -/
def commaJoin : List Str → Str
  | [] => []
  | [x] => x
  | x :: y :: r => x ++ ", ".toList ++ commaJoin (y :: r)

/-- One hexadecimal digit, in lower case. -/
def hexDigit (n : Nat) : Char := "0123456789abcdef".toList.getD n '0'

/-- The characters `repr` of a `bytes` object shows a byte as. -/
def byteRepr (quote : Char) (b : UInt8) : Str :=
  let c := Char.ofNat b.toNat
  if c = quote ∨ c = '\\' then ['\\', c]
  else if c = '\t' then "\\t".toList
  else if c = '\n' then "\\n".toList
  else if c = '\r' then "\\r".toList
  else if b.toNat < 32 ∨ 127 ≤ b.toNat then ['\\', 'x', hexDigit (b.toNat / 16), hexDigit (b.toNat % 16)]
  else [c]

/-- `'%s' % b` and `repr(b)` of a `bytes` object. -/
def bytesRepr (b : Bytes) : Str :=
  let quote : Char := if (39 : UInt8) ∈ b ∧ (34 : UInt8) ∉ b then '"' else '\''
  ['b', quote] ++ b.flatMap (byteRepr quote) ++ [quote]

/-! ### `attribute_request` -/

/-- The message about an id that is not assigned, `hgaa/services/aauth.py:489-490`: the literal goes over two lines of the source
and contains the blanks the second begins with. -/
def noIdMsg (username : Str) (i : Option Str) : Str :=
  username ++ " requested the attribute ".toList ++ showOpt i ++ " but they have not been assigned ".toList ++
    List.replicate 28 ' ' ++ "that attribute.".toList

/-- The message about a name that is not assigned, `hgaa/services/aauth.py:499-501`. -/
def noNameMsg (username : Str) (n : Option Str) : Str :=
  username ++ " requested the attribute by name (".toList ++ showOpt n ++
    ") but they have not been assigned an attribute with that name.".toList

/-- The loop over the requested ids, `hgaa/services/aauth.py:486-494`. -/
def selectIdsLog (username : Str) (byId : Dict UserAtt) : Dict UserAtt → List (Option Str) → AuditM (Dict UserAtt)
  | sel, [] => pure sel
  | sel, i :: is =>
    match i.bind byId.get with
    | none => do
      note 20 (noIdMsg username i)
      auditLift (.error (.clientFault
        ("Invalid attribute id: You have not been assigned the attribute ".toList ++ showOpt i ++ ['.'])))
    | some x => selectIdsLog username byId (sel.put x.att.id x) is

/-- The loop over the requested names, `hgaa/services/aauth.py:496-505`. -/
def selectNamesLog (username : Str) (byName : Dict UserAtt) : Dict UserAtt → List (Option Str) → AuditM (Dict UserAtt)
  | sel, [] => pure sel
  | sel, n :: ns =>
    match n.bind byName.get with
    | none => do
      note 20 (noNameMsg username n)
      auditLift (.error (.clientFault
        ("Invalid attribute id: You have not been assigned an attribute with the name ".toList ++ showOpt n ++ ['.'])))
    | some x => selectNamesLog username byName (if (sel.get x.att.id).isSome then sel else sel.put x.att.id x) ns

/-- The choice of attributes, `hgaa/services/aauth.py:459-505`. -/
def selectAttsLog (username : Str) (atts : List UserAtt) (req : AttributeListArg) : AuditM (Dict UserAtt) := do
  let ids ← auditLift (lenOf req.ids)
  let names ← auditLift (lenOf req.names)
  let ids := dropWildcards ids
  let names := dropWildcards names
  if ids.length + names.length = 0 then do
    note 10 (username ++ " has requested all attributes.".toList)
    return atts.foldl (fun d x => d.put x.att.id x) []
  else do
    note 10 (username ++ " has requested a subset or their attributes.".toList)
    let byName : Dict UserAtt := atts.foldl (fun d x => d.put x.att.name x) []
    let byId : Dict UserAtt := atts.foldl (fun d x => d.put x.att.id x) []
    let sel ← selectIdsLog username byId [] ids
    selectNamesLog username byName sel names

/-- The messages of `attribute_request`. -/
def requestMsg (addr : Str) : Str := "Attribute request on AttributeAuthority from ".toList ++ addr ++ ['.']
def noUserMsg (username addr : Str) : Str :=
  "ClientFault: No such username (".toList ++ username ++ ") found in attribute_request from ".toList ++ addr
def hashMsg (h : Bytes) : Str := "Hash for request is: ".toList ++ bytesRepr h
def loginMsg (username addr : Str) : Str := "Successful login by ".toList ++ username ++ " from ".toList ++ addr ++ ['.']
def badPasswordMsg (username addr : Str) : Str :=
  "ClientFault: Bad password for user ".toList ++ username ++ " in attribute_request from ".toList ++ addr
def badTypeMsg (type : Int) (addr : Str) : Str :=
  "ClientFault: Unsupported credential type: ".toList ++ decimal type ++ " in attribute_request from ".toList ++ addr
def activatedMsg (username : Str) (ids : List Str) : Str :=
  username ++ " has activated the following attributes: [".toList ++ commaJoin ids ++ [']']
def timeMsg (what secs : Str) : Str := what ++ secs ++ " seconds.".toList

/-- `attribute_request` up to the response with its records, `hgaa/services/aauth.py:428-534` and `:412-422`. `secs` are the durations
shown. -/
def Authority.requestLog {X : Crypto} (U : Uni) (B : Bcrypt) (collate : Str → Str) (secs : Nat → Str) (a : Authority X) (db : AAuthDb)
    (env : RequestEnv) (cred : Credentials) (key : PublicKeyArg) (req : AttributeListArg) (exports : Dict Str) :
    AuditM Bytes := do
  let addr ← auditLift (remoteAddr exports)
  note 20 (requestMsg addr)
  if cred.type = 0 then do
    let username ← auditLift (cred.username.elim (.error .attributeError) .ok)
    match db.findUser collate (U.lower username) with
    | none => do
      note 20 (noUserMsg username addr)
      auditLift (.error (.clientFault "Invalid credentials.".toList))
    | some user => do
      let given := utf8 (showOpt cred.password ++ showOpt a.pepper)
      if env.debug then do
        let h ← auditLift (B.hashpw given (utf8 user.password))
        note 10 (hashMsg h)
      else pure ()
      let good ← auditLift (B.checkpw given (utf8 user.password))
      if good then do
        note 20 (loginMsg username addr)
        note 20 (timeMsg "Time to login: ".toList (secs 0))
        note 20 (timeMsg "Time to get atts: ".toList (secs 1))
        let sel ← selectAttsLog username (db.userAttributes collate user.id) req
        note 20 (activatedMsg username (sel.map Prod.fst))
        note 20 (timeMsg "Time to proccess atts: ".toList (secs 2))
        let c ← auditLift (a.makeCert U env cred.type username key sel exports)
        let b ← auditLift (a.exportCert c)
        note 20 (timeMsg "AC generation time: ".toList (secs 3))
        note 20 ("AC Byte Encoded Size: ".toList ++ decimal b.length ++ " bytes.".toList)
        note 20 (timeMsg "Time make AC: ".toList (secs 4))
        note 20 (timeMsg "Time to add attachment: ".toList (secs 5))
        return b
      else do
        note 20 (badPasswordMsg username addr)
        auditLift (.error (.clientFault "Invalid credentials.".toList))
  else do
    note 10 (badTypeMsg cred.type addr)
    auditLift (.error (.clientFault "Unsupported credential type.".toList))

/-! ### `get_engine` -/

/-- `get_engine` with its records, `hgaa/database.py:53-84`: the engines afterwards, and the result. -/
def getEngineLog (U : Uni) (c : Config) (create : Str → Except PyExc Unit) (st : Engines) (name : Str) :
    AuditM (Engines × Option Engine) :=
  match st.active.get name with
  | some e => pure (st, some e)
  | none => do
    let dbname ← auditLift (getConf U c "DB_NAME".toList true name)
    let dbuser ← auditLift (getConf U c "DB_USER".toList true name)
    let dbpass ← auditLift (getConf U c "DB_PASS".toList true name)
    let dbport ← auditLift (getConf U c "DB_PORT".toList true name)
    let dbhost ← auditLift (getConf U c "DB_HOST".toList true name)
    let dbtype ← auditLift (getConf U c "DB_TYPE".toList true name)
    let _ ← auditLift (getConf U c "LOG_NAME".toList true name)
    note 20 ("Creating ".toList ++ formatOpt dbtype ++ " database engine for ".toList ++ name)
    match dbtype with
    | none => auditLift (.error .attributeError)
    | some t =>
      match connectString (U.upper t) dbuser dbpass dbhost dbport dbname with
      | none => do
        note 40 ("Database type ".toList ++ t ++ " is not supported.".toList)
        return (st, none)
      | some s => do
        note 10 ("Connection string: ".toList ++ s)
        auditLift (create s)
        let e : Engine := ⟨st.created, s⟩
        return (⟨st.active.put name e, st.created + 1⟩, some e)

end Verif
