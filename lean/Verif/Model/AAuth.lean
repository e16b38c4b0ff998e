import Verif.Model.AttCert
import Verif.Model.Config

/-!
# Model of the attribute authority, `hgaa/services/aauth.py`

The database is a list of rows per table (`hgaa/schema/aauth.py`). Texts are compared by the database after applying
`collate`, the identity for SQLite and something coarser for MySQL; the order in which rows are returned is the order
of the lists. Strings read from the database are not `None`, and the `type` of an attribute is not NULL although the
schema allows it. bcrypt, the clock, random numbers and RSA are parameters. Files that cannot be written, logging and
the transport of the response are not modelled; writing a file is, because the response is read back from it.
-/

namespace Verif

/-! ### Texts -/

/-- `s.strip()`. -/
def pyStrip (U : Uni) (s : Str) : Str := ((s.dropWhile U.isSpace).reverse.dropWhile U.isSpace).reverse

/-- `s.split(c)` for a single character. -/
def pySplit (c : Char) : Str → List Str
  | [] => [[]]
  | x :: s =>
    if x = c then [] :: pySplit c s
    else match pySplit c s with
      | [] => [[x]]
      | w :: ws => (x :: w) :: ws

/-- The value of a digit in a base up to 16. -/
def baseDigit (U : Uni) (base : Nat) (c : Char) : Option Nat :=
  let v := match U.digitVal c with
    | some d => some d
    | none =>
      if 97 ≤ c.toNat ∧ c.toNat ≤ 102 then some (c.toNat - 87)
      else if 65 ≤ c.toNat ∧ c.toNat ≤ 70 then some (c.toNat - 55)
      else none
  v.filter (· < base)

/-- The digits of `int(s, base)`, which may be separated by single underscores; `last` tells whether the character in
front was a digit. -/
def baseDigits (U : Uni) (base : Nat) : Nat → Bool → Str → Option Nat
  | acc, last, [] => if last then some acc else none
  | acc, last, c :: s =>
    if c = '_' then if last then baseDigits U base acc false s else none
    else match baseDigit U base c with
      | some d => baseDigits U base (acc * base + d) true s
      | none => none

/-- The optional `0x` in front of hexadecimal digits, with an optional underscore behind it. -/
def dropHexPrefix : Str → Str
  | '0' :: 'x' :: '_' :: s | '0' :: 'X' :: '_' :: s | '0' :: 'x' :: s | '0' :: 'X' :: s => s
  | s => s

/-- An optional sign in front of a number. -/
def intSign : Str → Bool × Str
  | '-' :: r => (true, r)
  | '+' :: r => (false, r)
  | r => (false, r)

/-- The number behind the sign; ValueError for anything but digits and for decimal numbers with too many of them. -/
def intDigits (U : Uni) (base : Nat) (s : Str) : Except PyExc Nat :=
  match baseDigits U base 0 false s with
  | some n =>
    if base = 10 && U.intLimit.any (fun m => decide (m < (s.filter (· ≠ '_')).length)) then .error .valueError else .ok n
  | none => .error .valueError

/-- `int(s)` and `int(s, 16)`: spaces around, a sign, digits. -/
def pyIntBase (U : Uni) (base : Nat) (s : Str) : Except PyExc Int := do
  let (neg, s) := intSign (pyStrip U s)
  let n ← intDigits U base (if base = 16 then dropHexPrefix s else s)
  return if neg then -(n : Int) else n

/-- `'%0.2X' % n` for a natural number: upper case hexadecimal digits, at least two. -/
def hexUpper (n : Nat) : Str :=
  let d := (Nat.toDigits 16 n).map asciiUpper
  if d.length < 2 then '0' :: d else d

/-- `str(b)` -/
def showBool (b : Bool) : Str := if b then "True".toList else "False".toList

/-! ### Data -/

/-- A row of `aauth_users`, `hgaa/schema/aauth.py:23-30`. -/
structure DbUser where
  id : Int
  username : Str
  password : Str
deriving DecidableEq, Repr

/-- A row of `aauth_attributes`, `hgaa/schema/aauth.py:13-20`. -/
structure DbAttribute where
  id : Str
  name : Str
  type : AttType
deriving DecidableEq, Repr

/-- A row of `aauth_attribute_assignments`, `hgaa/schema/aauth.py:33-42`. -/
structure DbAssignment where
  userId : Int
  attId : Str
  value : Option Str
deriving DecidableEq, Repr

/-- The tables of the attribute authority. -/
structure AAuthDb where
  users : List DbUser
  attributes : List DbAttribute
  assignments : List DbAssignment
deriving DecidableEq, Repr

/-- An `Attribute` object with the value put into it, `hgaa/services/aauth.py:474`. -/
structure UserAtt where
  att : DbAttribute
  value : Option Str
deriving DecidableEq, Repr

/-- `Credentials`, `hgaa/services/aauth.py:26-30`. -/
structure Credentials where
  type : Int
  username : Option Str
  password : Option Str
deriving DecidableEq, Repr

/-- `PublicKey` with its `KeyAlgorithm`, `hgaa/services/aauth.py:44-51`. -/
structure PublicKeyArg where
  publicKey : Bytes
  cipher : Str
  keySize : Int
deriving DecidableEq, Repr

/-- `AttributeList`, `hgaa/services/aauth.py:33-36`; the lists may contain `None`. -/
structure AttributeListArg where
  names : Option (List (Option Str))
  ids : Option (List (Option Str))
deriving DecidableEq, Repr

/-- `AttributeCertificateType`, `hgaa/services/aauth.py:72-76`, with the content of the attachment. -/
structure ACResponse where
  version : Int
  format : Int
  data : Bytes
deriving DecidableEq, Repr

/-- bcrypt. Both functions raise ValueError for a malformed hash and, in some versions, for passwords containing
NUL or longer than 72 bytes. -/
structure Bcrypt where
  checkpw : Bytes → Bytes → Except PyExc Bool
  hashpw : Bytes → Bytes → Except PyExc Bytes

/-- What `_make_con_att_set` learns from the clock, `hgaa/services/aauth.py:257-258`: the time, the fields of
`gmtime`, and the names of the day and the month in local time. -/
structure ConTime where
  t : Int
  mon : Int
  mday : Int
  wday : Int
  year : Int
  yday : Int
  hour : Int
  min : Int
  sec : Int
  isdst : Int
  weekdayName : Str
  monthName : Str
deriving DecidableEq, Repr

/-- What differs from request to request apart from its arguments: random bits, the clock and the log level. -/
structure RequestEnv where
  /-- `getrandbits(160)` -/
  random : Nat
  /-- `int(time.time())` in `ACInformation` -/
  now : Int
  con : ConTime
  /-- `LOG.isEnabledFor(DEBUG)` -/
  debug : Bool
deriving DecidableEq, Repr

/-- The files in the directory of certificates. -/
abbrev Files := Str → Option Bytes

/-- The fields of `AttributeAuthority`, `hgaa/services/aauth.py:79-147`. -/
structure Authority (X : Crypto) where
  aauthId : Option Str
  aUri : Option Str
  revUrl : Str
  aauthUrl : Str
  pepper : Option Str
  expire : Int
  key : X.PrivKey
  /-- `key.size_in_bits()` -/
  keyBits : Int

/-! ### `__init__` and `info` -/

/-- `'localhost' if host.strip() == '' else host`, `hgaa/services/aauth.py:102`. -/
def hostOrLocal (U : Uni) (host : Str) : Str := if pyStrip U host = [] then "localhost".toList else host

/-- `'http://' + host + ':' + port + path`, `hgaa/services/aauth.py:101-108`: None has no `strip` and cannot be added to a
text. -/
def serviceUrl (U : Uni) (host port : Option Str) (path : Str) : Except PyExc Str := do
  let host ← host.elim (.error .attributeError) .ok
  let port ← lenOf port
  return "http://".toList ++ hostOrLocal U host ++ [':'] ++ port ++ path

/-- The URL of the revocation list, `hgaa/services/aauth.py:95` and `:100-104`: a default if it is not configured. -/
def revocationUrl (U : Uni) (url host port : Option Str) : Except PyExc Str :=
  if pyStrip U (url.getD []) = [] then serviceUrl U host port "/AttributeAuthority/jsonwsp/revocation_list".toList
  else .ok (url.getD [])

/-- `__init__`, `hgaa/services/aauth.py:90-147`. `readKey` reads and decrypts the key file and tells the size of the key. -/
def Authority.init (U : Uni) (X : Crypto) (c : Config)
    (readKey : Option Str → Option Str → Except PyExc (X.PrivKey × Int)) : Except PyExc (Authority X) := do
  let aauthId ← getConf U c "AAUTH_ID".toList true "AAUTH".toList
  let aUri ← getConf U c "A_URI".toList true "AAUTH".toList
  let revUrl ← getConf U c "REV_URI".toList true "AAUTH".toList
  let host ← getConf U c "SERVICE_HOST".toList true "LADON".toList
  let port ← getConf U c "SERVICE_PORT".toList true "LADON".toList
  let revUrl ← revocationUrl U revUrl host port
  let aauthUrl ← serviceUrl U host port "/AttributeAuthority/jsonwsp/".toList
  let pepper ← getConf U c "PASS_PEPPER".toList true "AAUTH".toList
  let expireText ← getConf U c "AC_EXPIRE_LENGTH".toList true "AAUTH".toList
  let expireStr ← lenOf expireText
  let expire ← pyIntBase U 10 expireStr
  let keyFile ← getConf U c "KEY_FILE".toList true "AAUTH".toList
  let keyPass ← getConf U c "KEY_PASS".toList true "AAUTH".toList
  let (key, bits) ← readKey keyFile keyPass
  return ⟨aauthId, aUri, revUrl, aauthUrl, pepper, expire, key, bits⟩

/-- `self.ac_issuer`, `hgaa/services/aauth.py:140-144`, except for the uid, which may be `None`. -/
def Authority.issuer {X : Crypto} (a : Authority X) (uid : Str) : ACIssuer :=
  ⟨some (X.exportPub a.key), some ("RSA[".toList ++ decimal a.keyBits ++ [']']), uid, a.aauthId, some a.aauthUrl⟩

/-- `AttributeAuthorityInfo`, `hgaa/services/aauth.py:59-69`; the credential types are pairs of name and value. -/
structure AAInfo where
  aauthId : Str
  aaVersion : Int
  acVersion : Int
  attributeUri : Str
  revocationUrl : Str
  publicKey : Bytes
  credentialTypes : List (Str × Int)
  cipher : Str
  keySize : Int
  hashAlgorithm : Str
  signatureAlgorithm : Str
deriving DecidableEq, Repr

/-- `_get_info_attr`, `hgaa/services/aauth.py:149-153`. -/
def infoAttr {α : Type} (attr : String) : Option α → Except PyExc α
  | some x => .ok x
  | none => .error (.serverFault ("Attribute authority does not have ".toList ++ attr.toList ++ " attribute set.".toList))

/-- `exports['REMOTE_ADDR']`: KeyError if it is missing. -/
def remoteAddr (exports : Dict Str) : Except PyExc Str :=
  (exports.get "REMOTE_ADDR".toList).elim (.error .keyError) .ok

/-- `info`, `hgaa/services/aauth.py:155-183`. -/
def Authority.info {X : Crypto} (a : Authority X) (exports : Dict Str) : Except PyExc AAInfo := do
  let _ ← remoteAddr exports
  let aauthId ← infoAttr "aauth_id" a.aauthId
  let aUri ← infoAttr "a_uri" a.aUri
  return ⟨aauthId, 1, 1, aUri, a.revUrl, X.exportPub a.key, [("USER_PASS".toList, 0)], "RSA".toList, a.keyBits,
    "SHA256".toList, "RSASSA-PKCS1-v1_5".toList⟩

/-! ### Connection attributes -/

/-- An entry of `con_att_set`, the value already turned into a text (`hgaa/services/aauth.py:393`). -/
structure ConAtt where
  name : Str
  id : Str
  type : AttType
  value : Str
deriving DecidableEq, Repr

/-- An entry of `con_att_set` whose key is `key`. -/
def conEntry (key name : Str) (type : AttType) (value : Str) : Str × ConAtt :=
  (key, ⟨name, "/attribute/connection/".toList ++ name, type, value⟩)

/-- An entry of `con_att_set` whose name is its key. -/
def conAtt (key : Str) (type : AttType) (value : Str) : Str × ConAtt := conEntry key key type value

/-- The entries for the export variables, `hgaa/services/aauth.py:191-196`. -/
def exportAtts (U : Uni) (exports : Dict Str) : List (Str × ConAtt) :=
  (["REMOTE_ADDR", "REMOTE_HOST", "REMOTE_IDENT", "REMOTE_USER"].map String.toList).filterMap (fun var =>
    (exports.get var).map (conAtt (U.lower var) .string))

/-- The loops over the parts of an address, `hgaa/services/aauth.py:212-217` and `:229-234`. -/
def addrParts (U : Uni) (base : Nat) (label : Str) : Nat → List Str → Except PyExc (List (Str × ConAtt))
  | _, [] => .ok []
  | i, p :: ps => do
    let v ← pyIntBase U base p
    let rest ← addrParts U base label (i + 1) ps
    return conAtt (label ++ decimal i) .int (decimal v) :: rest

/-- The entries describing the remote address, `hgaa/services/aauth.py:199-234`. -/
def addrAtts (U : Uni) (exports : Dict Str) : Except PyExc (List (Str × ConAtt)) :=
  match exports.get "REMOTE_ADDR".toList with
  | none => .ok []
  | some addr =>
    if '.' ∈ addr then do
      let parts ← addrParts U 10 "remote_addr_v4_oct".toList 0 (pySplit '.' addr)
      return conAtt "ip_v4".toList .bool (showBool true) :: conAtt "ip_v6".toList .bool (showBool false) :: parts
    else if ':' ∈ addr then do
      let parts ← addrParts U 16 "remote_addr_v6_hex".toList 0 (pySplit ':' addr)
      return conAtt "ip_v4".toList .bool (showBool false) :: conAtt "ip_v6".toList .bool (showBool true) :: parts
    else .ok []

/-- The entries for the client's key, `hgaa/services/aauth.py:237-255`. -/
def keyAtts (credType : Int) (key : PublicKeyArg) : List (Str × ConAtt) :=
  [conAtt "auth_method".toList .int (decimal credType),
   conAtt "pub_key".toList .string (b64Text key.publicKey),
   conAtt "pub_key_size".toList .int (decimal key.keySize),
   conAtt "pub_key_algo".toList .string key.cipher]

/-- The entries for the time, `hgaa/services/aauth.py:257-311`. -/
def timeAtts (c : ConTime) : List (Str × ConAtt) :=
  [conAtt "con_time".toList .int (decimal c.t),
   conEntry "con_time_weekdayname".toList "con_time_weekday".toList .string c.weekdayName,
   conAtt "con_time_monthname".toList .string c.monthName,
   conAtt "con_time_month".toList .int (decimal c.mon),
   conAtt "con_time_day".toList .int (decimal c.mday),
   conAtt "con_time_weekday".toList .int (decimal c.wday),
   conAtt "con_time_year".toList .int (decimal c.year),
   conAtt "con_time_yearday".toList .int (decimal c.yday),
   conAtt "con_time_hour".toList .int (decimal c.hour),
   conAtt "con_time_min".toList .int (decimal c.min),
   conAtt "con_time_sec".toList .int (decimal c.sec),
   conAtt "con_time_zone".toList .string "GMT".toList] ++
  (if 0 ≤ c.isdst then [conAtt "con_time_dst".toList .bool (showBool (decide (c.isdst = 1)))] else [])

/-- The entries for the authority and the certificate, `hgaa/services/aauth.py:313-354`. -/
def authAtts {X : Crypto} (a : Authority X) (serial : Int) : List (Str × ConAtt) :=
  [conAtt "aauth_uid".toList .string (showOpt a.aUri),
   conAtt "aauth_name".toList .string (showOpt a.aauthId),
   conAtt "aauth_url".toList .string a.aauthUrl,
   conAtt "aauth_pub_key".toList .string (b64Text (X.exportPub a.key)),
   conAtt "aauth_pub_key_size".toList .int (decimal a.keyBits),
   conAtt "aauth_pub_key_algo".toList .string "RSA".toList,
   conAtt "aauth_version".toList .int (decimal 1),
   conAtt "ac_version".toList .int (decimal 1),
   conAtt "session_id".toList .int (decimal serial),
   conAtt "session_length".toList .int (decimal a.expire)]

/-- `_make_con_att_set`, `hgaa/services/aauth.py:185-356`: the assignments to the dictionary one after the other. -/
def makeConAttSet {X : Crypto} (U : Uni) (a : Authority X) (credType : Int) (key : PublicKeyArg) (exports : Dict Str)
    (con : ConTime) (serial : Int) : Except PyExc (Dict ConAtt) := do
  let addr ← addrAtts U exports
  let entries := exportAtts U exports ++ addr ++ keyAtts credType key ++ timeAtts con ++ authAtts a serial
  return entries.foldl (fun d e => d.put e.1 e.2) []

/-! ### Selecting the user's attributes -/

/-- `while x in l: l.remove(x)`, `hgaa/services/aauth.py:463-468`. -/
def whileRemove (x : Option Str) (l : List (Option Str)) : List (Option Str) :=
  if h : x ∈ l then whileRemove x (l.erase x) else l
termination_by l.length
decreasing_by
  rw [List.length_erase_of_mem h]
  have := List.length_pos_of_mem h
  omega

/-- The three loops for one list, `hgaa/services/aauth.py:463-465` and `:466-468`. -/
def dropWildcards (l : List (Option Str)) : List (Option Str) :=
  whileRemove (some []) (whileRemove (some "*".toList) (whileRemove none l))

/-- `query(User).filter(User.username == name).first()`, `hgaa/services/aauth.py:435`. -/
def AAuthDb.findUser (collate : Str → Str) (db : AAuthDb) (name : Str) : Option DbUser :=
  db.users.find? (fun u => decide (collate u.username = collate name))

/-- `query(Attribute, AttributeAssignment.value).join(Attribute.values).filter_by(user_id=id).all()` with the values put
into the attributes, `hgaa/services/aauth.py:452-453` and `:474`. -/
def AAuthDb.userAttributes (collate : Str → Str) (db : AAuthDb) (id : Int) : List UserAtt :=
  (db.assignments.filter (fun a => decide (a.userId = id))).flatMap (fun a =>
    (db.attributes.filter (fun t => decide (collate t.id = collate a.attId))).map (fun t => ⟨t, a.value⟩))

/-- The loop over the requested ids, `hgaa/services/aauth.py:486-494`; `none` stands for the `None` removed before. -/
def selectIds (byId : Dict UserAtt) : Dict UserAtt → List (Option Str) → Except PyExc (Dict UserAtt)
  | sel, [] => .ok sel
  | sel, i :: is =>
    match i.bind byId.get with
    | none => .error (.clientFault
        ("Invalid attribute id: You have not been assigned the attribute ".toList ++ showOpt i ++ ['.']))
    | some x => selectIds byId (sel.put x.att.id x) is

/-- The loop over the requested names, `hgaa/services/aauth.py:496-505`. -/
def selectNames (byName : Dict UserAtt) : Dict UserAtt → List (Option Str) → Except PyExc (Dict UserAtt)
  | sel, [] => .ok sel
  | sel, n :: ns =>
    match n.bind byName.get with
    | none => .error (.clientFault
        ("Invalid attribute id: You have not been assigned an attribute with the name ".toList ++ showOpt n ++ ['.']))
    | some x => selectNames byName (if (sel.get x.att.id).isSome then sel else sel.put x.att.id x) ns

/-- The choice of attributes, `hgaa/services/aauth.py:459-505`. The four calls of `map` only fail if the list is
`None`: nothing consumes the iterators they return. -/
def selectAtts (atts : List UserAtt) (req : AttributeListArg) : Except PyExc (Dict UserAtt) := do
  let ids ← lenOf req.ids
  let names ← lenOf req.names
  let ids := dropWildcards ids
  let names := dropWildcards names
  if ids.length + names.length = 0 then
    return atts.foldl (fun d x => d.put x.att.id x) []
  else do
    let byName : Dict UserAtt := atts.foldl (fun d x => d.put x.att.name x) []
    let byId : Dict UserAtt := atts.foldl (fun d x => d.put x.att.id x) []
    let sel ← selectIds byId [] ids
    selectNames byName sel names

/-! ### Requests -/

/-- The attributes of a certificate, `hgaa/services/aauth.py:376-395`. -/
def certAtts (user : Dict UserAtt) (con : Dict ConAtt) : List ACAttribute :=
  user.map (fun e => ACAttribute.make e.2.att.id e.2.att.type (some (showOpt e.2.value)) (some e.2.att.name)) ++
  con.map (fun e => ACAttribute.make e.2.id e.2.type (some e.2.value) (some e.2.name))

/-- `SIG_ALGO + ':' + HASH_ALGO`, `hgaa/services/aauth.py:410`. -/
def aauthSigAlgo : Str := "RSASSA-PKCS1-v1_5:SHA256".toList

/-- `_make_ac` up to the export, `hgaa/services/aauth.py:358-404`: the certificate before it is signed. The uid of the
authority is needed when it is encoded. -/
def Authority.makeCert {X : Crypto} (U : Uni) (a : Authority X) (env : RequestEnv) (credType : Int) (username : Str)
    (key : PublicKeyArg) (user : Dict UserAtt) (exports : Dict Str) : Except PyExc AttCert := do
  let info := ACInfo.make env.random env.now 1
  let con ← makeConAttSet U a credType key exports env.con info.serial
  let uid ← lenOf a.aUri
  return {
    issuer := some (a.issuer uid)
    holder := ⟨key.publicKey, key.cipher ++ ['['] ++ decimal key.keySize ++ [']'],
      uid ++ "/user/".toList ++ username, some username⟩
    info := info
    attSet := some (certAtts user con)
    revRules := ACRevocation.make 0 0 (some info.issued) (some (info.issued + a.expire)) (some a.revUrl)
    delRules := some ⟨none⟩ }

/-- The name of the file a certificate is stored in, `hgaa/services/aauth.py:417-418`. -/
def acFileName (acDir : Str) (serial : Nat) : Str := acDir ++ ['/'] ++ hexUpper serial ++ ".ac".toList

/-- `export_ac` in `_make_ac`, `hgaa/services/aauth.py:406-411`: the bytes written. -/
def Authority.exportCert {X : Crypto} (a : Authority X) (c : AttCert) : Except PyExc Bytes := do
  let (d, _) ← c.exportAC X (.yes (some a.key) aauthSigAlgo) .bytes
  match d with
  | .bytearray b | .bytes b => return b
  | .str s => return utf8 s

/-- The hash computed for the log, `hgaa/services/aauth.py:442-445`. -/
def debugHash (B : Bcrypt) (debug : Bool) (given stored : Bytes) : Except PyExc Unit :=
  if debug then (B.hashpw given stored).map (fun _ => ()) else .ok ()

/-- `attribute_request` up to the certificate, `hgaa/services/aauth.py:428-516`: the bytes of the certificate, or the
exception. -/
def Authority.issue {X : Crypto} (U : Uni) (B : Bcrypt) (collate : Str → Str) (a : Authority X) (db : AAuthDb)
    (env : RequestEnv) (cred : Credentials) (key : PublicKeyArg) (req : AttributeListArg) (exports : Dict Str) :
    Except PyExc Bytes := do
  let _ ← remoteAddr exports
  if cred.type = 0 then do
    let username ← cred.username.elim (.error .attributeError) .ok
    match db.findUser collate (U.lower username) with
    | none => .error (.clientFault "Invalid credentials.".toList)
    | some user => do
      let given := utf8 (showOpt cred.password ++ showOpt a.pepper)
      let _ ← debugHash B env.debug given (utf8 user.password)
      let good ← B.checkpw given (utf8 user.password)
      if good then do
        let sel ← selectAtts (db.userAttributes collate user.id) req
        let c ← a.makeCert U env cred.type username key sel exports
        a.exportCert c
      else .error (.clientFault "Invalid credentials.".toList)
  else .error (.clientFault "Unsupported credential type.".toList)

/-- `attribute_request`, `hgaa/services/aauth.py:428-534`: the files afterwards and the response, whose content is read
back from the file. `acDir` is `AC_DIR`. -/
def Authority.attributeRequest {X : Crypto} (U : Uni) (B : Bcrypt) (collate : Str → Str) (acDir : Str) (a : Authority X)
    (db : AAuthDb) (files : Files) (env : RequestEnv) (cred : Credentials) (key : PublicKeyArg) (req : AttributeListArg)
    (exports : Dict Str) : Files × Except PyExc ACResponse :=
  match a.issue U B collate db env cred key req exports with
  | .error e => (files, .error e)
  | .ok b =>
    let name := acFileName acDir env.random
    let files := fun n => if n = name then some b else files n
    (files, .ok ⟨1, ExportFormat.bytes.value, (files name).getD []⟩)

end Verif
