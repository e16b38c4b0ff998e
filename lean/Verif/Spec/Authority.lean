import Verif.Model.AAuth
import Verif.Spec.Certificate
import Verif.Spec.Integer

/-!
# What the attribute authority is meant to do

Assignment of attributes and what a request asks for, in terms of the database and the request only.
-/

namespace Verif.Spec

/-- The attribute `x.att` is assigned to the user with the value `x.value`. -/
def Assigned (collate : Str → Str) (db : AAuthDb) (user : Int) (x : UserAtt) : Prop :=
  x.att ∈ db.attributes ∧
  ∃ a ∈ db.assignments, a.userId = user ∧ collate a.attId = collate x.att.id ∧ a.value = x.value

/-- The primary keys of the schema: attribute ids are unique, and so are pairs of user and attribute id. -/
structure PrimaryKeys (collate : Str → Str) (db : AAuthDb) : Prop where
  attributes : (db.attributes.map (fun t => collate t.id)).Nodup
  assignments : (db.assignments.map (fun a => (a.userId, collate a.attId))).Nodup

/-- What a list in a request asks for: `None`, `*` and the empty text ask for nothing. -/
def wanted (l : List (Option Str)) : List Str :=
  l.filterMap (fun x => if x = none ∨ x = some "*".toList ∨ x = some [] then none else x)

/-- `x` is the attribute meant by a name: the last one in the list that has it. -/
def Named (atts : List UserAtt) (n : Str) (x : UserAtt) : Prop :=
  ∃ before after, atts = before ++ x :: after ∧ x.att.name = n ∧ ∀ y ∈ after, y.att.name ≠ n

/-- The attributes a request selects from those assigned: all if it asks for none in particular, else those it asks for
by id and those meant by the names in it. -/
def Selected (atts : List UserAtt) (ids names : List Str) (x : UserAtt) : Prop :=
  x ∈ atts ∧ (ids = [] ∧ names = [] ∨ x.att.id ∈ ids ∨ ∃ n ∈ names, Named atts n x)

/-- Everything a request asks for is there. -/
def Available (atts : List UserAtt) (ids names : List Str) : Prop :=
  (∀ i ∈ ids, ∃ x ∈ atts, x.att.id = i) ∧ ∀ n ∈ names, ∃ x ∈ atts, x.att.name = n

/-- The user a name belongs to: the first row whose name the database takes for equal. -/
def UserNamed (collate : Str → Str) (db : AAuthDb) (name : Str) (u : DbUser) : Prop :=
  ∃ before after, db.users = before ++ u :: after ∧ collate u.username = collate name ∧
    ∀ v ∈ before, collate v.username ≠ collate name

/-- The attribute of a certificate made for an assigned attribute: NULL values become the text `None`. -/
def certified (x : UserAtt) : ACAttribute :=
  ⟨x.att.id, x.att.type, cleanOpt (some (x.value.getD "None".toList)), cleanOpt (some x.att.name), none⟩

/-! ### Connection attributes -/

/-- A row of the table of connection attributes: name, type and value. -/
abbrev Row := Str × AttType × Str

/-- The attribute of a certificate made for a row. -/
def Row.certified (r : Row) : ACAttribute :=
  ⟨"/attribute/connection/".toList ++ r.1, r.2.1, cleanOpt (some r.2.2), some r.1, none⟩

/-- The parts of a text between separators. -/
def Parts (c : Char) (s : Str) (ps : List Str) : Prop := ps ≠ [] ∧ (∀ p ∈ ps, c ∉ p) ∧ s = List.intercalate [c] ps

/-- Rows for what the web server tells about the client. -/
def remoteRows (exports : Dict Str) : List Row :=
  ([("REMOTE_ADDR", "remote_addr"), ("REMOTE_HOST", "remote_host"), ("REMOTE_IDENT", "remote_ident"),
    ("REMOTE_USER", "remote_user")].map (fun p => (p.1.toList, p.2.toList))).filterMap (fun p =>
      (exports.get p.1).map (fun v => (p.2, .string, v)))

/-- The numbers in an address. -/
def Numbers (U : Uni) (base : Nat) (c : Char) (addr : Str) (vs : List Int) : Prop :=
  ∃ ps, Parts c addr ps ∧ List.Forall₂ (IntText U base) ps vs

/-- Rows for numbered values. -/
def numbered (label : String) (vs : List Int) : List Row :=
  vs.mapIdx (fun i v => (label.toList ++ decimal i, .int, decimal v))

/-- Rows for the kind of address and its numbers: dotted addresses are version 4, others with a colon version 6. -/
def AddressRows (U : Uni) (exports : Dict Str) (rows : List Row) : Prop :=
  match exports.get "REMOTE_ADDR".toList with
  | none => rows = []
  | some addr =>
    if '.' ∈ addr then ∃ vs, Numbers U 10 '.' addr vs ∧
      rows = ("ip_v4".toList, .bool, "True".toList) :: ("ip_v6".toList, .bool, "False".toList) ::
        numbered "remote_addr_v4_oct" vs
    else if ':' ∈ addr then ∃ vs, Numbers U 16 ':' addr vs ∧
      rows = ("ip_v4".toList, .bool, "False".toList) :: ("ip_v6".toList, .bool, "True".toList) ::
        numbered "remote_addr_v6_hex" vs
    else rows = []

/-- Rows for the client's key, the time, the authority and the certificate. -/
def otherRows {X : Crypto} (a : Authority X) (key : PublicKeyArg) (con : ConTime) (credType serial : Int) : List Row :=
  [("auth_method".toList, .int, decimal credType),
   ("pub_key".toList, .string, b64Text key.publicKey),
   ("pub_key_size".toList, .int, decimal key.keySize),
   ("pub_key_algo".toList, .string, key.cipher),
   ("con_time".toList, .int, decimal con.t),
   ("con_time_weekday".toList, .string, con.weekdayName),
   ("con_time_monthname".toList, .string, con.monthName),
   ("con_time_month".toList, .int, decimal con.mon),
   ("con_time_day".toList, .int, decimal con.mday),
   ("con_time_weekday".toList, .int, decimal con.wday),
   ("con_time_year".toList, .int, decimal con.year),
   ("con_time_yearday".toList, .int, decimal con.yday),
   ("con_time_hour".toList, .int, decimal con.hour),
   ("con_time_min".toList, .int, decimal con.min),
   ("con_time_sec".toList, .int, decimal con.sec),
   ("con_time_zone".toList, .string, "GMT".toList)] ++
  (if con.isdst < 0 then [] else [("con_time_dst".toList, .bool, (if con.isdst = 1 then "True" else "False").toList)]) ++
  [("aauth_uid".toList, .string, a.aUri.getD "None".toList),
   ("aauth_name".toList, .string, a.aauthId.getD "None".toList),
   ("aauth_url".toList, .string, a.aauthUrl),
   ("aauth_pub_key".toList, .string, b64Text (X.exportPub a.key)),
   ("aauth_pub_key_size".toList, .int, decimal a.keyBits),
   ("aauth_pub_key_algo".toList, .string, "RSA".toList),
   ("aauth_version".toList, .int, "1".toList),
   ("ac_version".toList, .int, "1".toList),
   ("session_id".toList, .int, decimal serial),
   ("session_length".toList, .int, decimal a.expire)]

/-- The connection attributes of a certificate. -/
def ConnectionRows {X : Crypto} (U : Uni) (a : Authority X) (key : PublicKeyArg) (exports : Dict Str) (con : ConTime)
    (credType serial : Int) (rows : List Row) : Prop :=
  ∃ addr, AddressRows U exports addr ∧ rows = remoteRows exports ++ addr ++ otherRows a key con credType serial

/-- The certificate the authority makes for a user, their selected attributes and the rows of connection attributes,
before it is signed. -/
def certificate {X : Crypto} (a : Authority X) (uri : Str) (env : RequestEnv) (username : Str) (key : PublicKeyArg)
    (atts : List UserAtt) (rows : List Row) : AttCert where
  issuer := some ⟨some (X.exportPub a.key), some ("RSA[".toList ++ decimal a.keyBits ++ "]".toList), uri, a.aauthId,
    some a.aauthUrl⟩
  holder := ⟨key.publicKey, key.cipher ++ "[".toList ++ decimal key.keySize ++ "]".toList,
    uri ++ "/user/".toList ++ username, some username⟩
  info := ⟨1, env.random, env.now⟩
  attSet := some (atts.map certified ++ rows.map Row.certified)
  revRules := ⟨env.now, env.now + a.expire, some a.revUrl, none⟩
  delRules := some ⟨none⟩
  extensions := none
  signature := none

/-- All texts an issued certificate can contain are ASCII. -/
structure AsciiInputs {X : Crypto} (a : Authority X) (db : AAuthDb) (env : RequestEnv) (cred : Credentials)
    (key : PublicKeyArg) (exports : Dict Str) : Prop where
  aauthId : AsciiOpt a.aauthId
  aUri : AsciiOpt a.aUri
  revUrl : Ascii a.revUrl
  aauthUrl : Ascii a.aauthUrl
  username : AsciiOpt cred.username
  cipher : Ascii key.cipher
  exports : ∀ n, AsciiOpt (exports.get n)
  weekday : Ascii env.con.weekdayName
  month : Ascii env.con.monthName
  attributes : ∀ t ∈ db.attributes, Ascii t.id ∧ Ascii t.name
  assignments : ∀ t ∈ db.assignments, AsciiOpt t.value

end Verif.Spec
