import Mathlib.Data.List.Forall2
import Verif.Model.AttCert
/-!
# What attribute certificates look like on the wire

A description of the byte format and of the content of a certificate that does not mention the encoder and decoder.
Only the data types of the model are used.
-/

namespace Verif.Spec

/-- `n` stored in `k` bytes, least significant first. -/
abbrev le (k n : Nat) : Bytes := packLE k n

/-- A number that fits two bytes. -/
abbrev Fits16 (n : Nat) : Prop := n < 65536

/-- Fields of variable size: their sizes, two bytes each. -/
def sizes (fs : List Bytes) : Bytes := fs.flatMap (fun f => le 2 f.length)

/-- All fields are short enough for their size to be stored. -/
def SizesFit (fs : List Bytes) : Prop := ∀ f ∈ fs, Fits16 f.length

/-- An optional text on the wire: absent texts take no bytes, present ones are not empty. -/
def OptText (s : Option Str) (b : Bytes) : Prop :=
  match s with
  | none => b = []
  | some s => b = utf8 s ∧ b ≠ []

/-- Optional bytes on the wire. -/
def OptBytes (x : Option Bytes) (b : Bytes) : Prop :=
  match x with
  | none => b = []
  | some x => b = x ∧ b ≠ []

/-- Information: version, size of the serial number, serial number, time of issue. -/
def InfoWire (size : Nat) (i : ACInfo) (bs : Bytes) : Prop :=
  ∃ v n t : Nat, i = ⟨v, n, t⟩ ∧ v < 256 ∧ size < 256 ∧ n < 256 ^ size ∧ t < 4294967296 ∧
    bs = le 1 v ++ le 1 size ++ le size n ++ le 4 t

/-- Issuer: five sizes, then key, algorithm, uid, name and URL. -/
def IssuerWire (i : ACIssuer) (bs : Bytes) : Prop :=
  ∃ key algo name url, i.pubKey = some key ∧ i.keyAlgo = some algo ∧ OptText i.name name ∧ OptText i.url url ∧
    let fs := [key, utf8 algo, utf8 i.uid, name, url]
    SizesFit fs ∧ bs = sizes fs ++ fs.flatten

/-- Holder: four sizes, then key, algorithm, uid and name. -/
def HolderWire (h : ACHolder) (bs : Bytes) : Prop :=
  ∃ name, OptText h.name name ∧
    let fs := [h.pubKey, utf8 h.keyAlgo, utf8 h.uid, name]
    SizesFit fs ∧ bs = sizes fs ++ fs.flatten

/-- Attribute: four sizes, the number of its type, then id, value, name and extension bytes. -/
def AttributeWire (a : ACAttribute) (bs : Bytes) : Prop :=
  ∃ value name extra, OptText a.value value ∧ OptText a.name name ∧ OptBytes a.extra extra ∧
    let fs := [utf8 a.id, value, name, extra]
    SizesFit fs ∧ bs = sizes fs ++ le 1 a.type.value ++ fs.flatten

/-- Revocation rules: two sizes, the ends of the period of validity, then URL and extension bytes. -/
def RevocationWire (r : ACRevocation) (bs : Bytes) : Prop :=
  ∃ (va vb : Nat) (url extra : Bytes), r.validAfter = va ∧ r.validBefore = vb ∧ va < 4294967296 ∧ vb < 4294967296 ∧
    OptText r.url url ∧ OptBytes r.extra extra ∧
    let fs := [url, extra]
    SizesFit fs ∧ bs = sizes fs ++ le 4 va ++ le 4 vb ++ fs.flatten

/-- Delegation rules: a size and extension bytes; no rules and rules without content look the same. -/
def DelegationWire (d : Option ACDelegation) (bs : Bytes) : Prop :=
  match d with
  | none => bs = [0, 0]
  | some d => ∃ b, d.extra = some b ∧ b ≠ [] ∧ Fits16 b.length ∧ bs = le 2 b.length ++ b

/-- Extension: two sizes, id and extension bytes. -/
def ExtensionWire (e : ACExtension) (bs : Bytes) : Prop :=
  ∃ extra, OptBytes e.extra extra ∧
    let fs := [utf8 e.eid, extra]
    SizesFit fs ∧ bs = sizes fs ++ fs.flatten

/-- A counted list. -/
def ListWire {α : Type} (wire : α → Bytes → Prop) (xs : List α) (bs : Bytes) : Prop :=
  ∃ ws : List Bytes, List.Forall₂ wire xs ws ∧ Fits16 xs.length ∧ bs = le 2 xs.length ++ ws.flatten

/-- The signed part of a certificate. Decoded certificates have a list of attributes, possibly empty, and no empty list of
extensions. -/
def BodyWire (size : Nat) (c : AttCert) (bs : Bytes) : Prop :=
  ∃ issuer atts exts wi wh wn wa wr wd we, c.issuer = some issuer ∧ c.attSet = some atts ∧
    c.extensions = (if exts = [] then none else some exts) ∧
    IssuerWire issuer wi ∧ HolderWire c.holder wh ∧ InfoWire size c.info wn ∧ ListWire AttributeWire atts wa ∧
    RevocationWire c.revRules wr ∧ DelegationWire c.delRules wd ∧ ListWire ExtensionWire exts we ∧
    bs = wi ++ wh ++ wn ++ wa ++ wr ++ wd ++ we

/-- The signature at the end of the bytes: two sizes, algorithm and value, of which the last bytes may be missing. -/
def SignatureWire (g : ACSignature) (bs : Bytes) : Prop :=
  ∃ (na nv : Nat) (a v : Bytes), Fits16 na ∧ Fits16 nv ∧ bs = le 2 na ++ le 2 nv ++ a ++ v ∧
    (a.length = na ∧ v.length ≤ nv ∨ a.length < na ∧ v = []) ∧
    (match g.algo with | none => na = 0 | some s => na ≠ 0 ∧ a = utf8 s) ∧
    (match g.value with | none => nv = 0 | some x => nv ≠ 0 ∧ v = x)

/-- A whole certificate: body and signature; sizes zero mean that there is none. -/
def CertWire (c : AttCert) (bs : Bytes) : Prop :=
  ∃ size body sig g, BodyWire size c body ∧ SignatureWire g sig ∧ bs = body ++ sig ∧
    c.signature = if g = ⟨none, none⟩ then none else some g

/-! ### Content -/

/-- Empty texts and byte strings carry no content. -/
def cleanOpt {α : Type} (x : Option (List α)) : Option (List α) :=
  match x with
  | some [] => none
  | x => x

/-- The content of an issuer. -/
def cleanIssuer (i : ACIssuer) : ACIssuer := { i with name := cleanOpt i.name, url := cleanOpt i.url }
/-- The content of a holder. -/
def cleanHolder (h : ACHolder) : ACHolder := { h with name := cleanOpt h.name }
/-- The content of an attribute. -/
def cleanAttribute (a : ACAttribute) : ACAttribute :=
  { a with value := cleanOpt a.value, name := cleanOpt a.name, extra := cleanOpt a.extra }
/-- The content of revocation rules. -/
def cleanRevocation (r : ACRevocation) : ACRevocation := { r with url := cleanOpt r.url, extra := cleanOpt r.extra }
/-- The content of an extension. -/
def cleanExtension (e : ACExtension) : ACExtension := { e with extra := cleanOpt e.extra }
/-- The content of delegation rules: none without bytes. -/
def cleanDelegation (d : Option ACDelegation) : Option ACDelegation :=
  match d with
  | some ⟨some (b :: bs)⟩ => some ⟨some (b :: bs)⟩
  | _ => none
/-- The content of a signature. -/
def cleanSignature (g : Option ACSignature) : Option ACSignature :=
  match g with
  | none => none
  | some g => match cleanOpt g.algo, cleanOpt g.value with
    | none, none => none
    | a, v => some ⟨a, v⟩

/-- The content of a certificate: what is left when empty optional fields are taken for missing ones, the list of
attributes for present and an empty list of extensions for missing. -/
def content (c : AttCert) : AttCert where
  issuer := c.issuer.map cleanIssuer
  holder := cleanHolder c.holder
  info := c.info
  attSet := some ((c.attSet.getD []).map cleanAttribute)
  revRules := cleanRevocation c.revRules
  delRules := cleanDelegation c.delRules
  extensions := cleanOpt (some ((c.extensions.getD []).map cleanExtension))
  signature := cleanSignature c.signature

/-- ASCII text. -/
def Ascii (s : Str) : Prop := ∀ c ∈ s, c.toNat < 128
/-- Optional ASCII text. -/
def AsciiOpt (s : Option Str) : Prop := ∀ t, s = some t → Ascii t

/-- All texts of a certificate. -/
def texts (c : AttCert) : List Str :=
  (match c.issuer with
    | none => []
    | some i => i.keyAlgo.toList ++ [i.uid] ++ i.name.toList ++ i.url.toList) ++
  [c.holder.keyAlgo, c.holder.uid] ++ c.holder.name.toList ++
  (c.attSet.getD []).flatMap (fun a => [a.id] ++ a.value.toList ++ a.name.toList) ++
  c.revRules.url.toList ++ (c.extensions.getD []).map ACExtension.eid

/-- The size of an optional field. -/
def size {α : Type} (x : Option (List α)) : Nat := (x.getD []).length

/-- The fields of the signed part fit their places: this many bytes for numbers, texts and byte strings shorter than
65536 and not more entries. -/
structure Fits (c : AttCert) : Prop where
  issuer : ∃ i key algo, c.issuer = some i ∧ i.pubKey = some key ∧ i.keyAlgo = some algo ∧ Fits16 key.length ∧
    Fits16 algo.length ∧ Fits16 i.uid.length ∧ Fits16 (size i.name) ∧ Fits16 (size i.url)
  holder : Fits16 c.holder.pubKey.length ∧ Fits16 c.holder.keyAlgo.length ∧ Fits16 c.holder.uid.length ∧
    Fits16 (size c.holder.name)
  version : 0 ≤ c.info.version ∧ c.info.version < 256
  serial : 0 ≤ c.info.serial ∧ c.info.serial < 2 ^ 160
  issued : 0 ≤ c.info.issued ∧ c.info.issued < 2 ^ 32
  atts : Fits16 (size c.attSet) ∧ ∀ a ∈ c.attSet.getD [], Fits16 a.id.length ∧ Fits16 (size a.value) ∧
    Fits16 (size a.name) ∧ Fits16 (size a.extra)
  rev : (0 ≤ c.revRules.validAfter ∧ c.revRules.validAfter < 2 ^ 32) ∧
    (0 ≤ c.revRules.validBefore ∧ c.revRules.validBefore < 2 ^ 32) ∧ Fits16 (size c.revRules.url) ∧
    Fits16 (size c.revRules.extra)
  del : ∀ d, c.delRules = some d → Fits16 (size d.extra)
  exts : Fits16 (size c.extensions) ∧ ∀ e ∈ c.extensions.getD [], Fits16 e.eid.length ∧ Fits16 (size e.extra)

/-! ### The TEXT format as lines -/

/-- A labelled line, left out for a missing text. -/
def optLines (label : String) : Option Str → List Str
  | none => []
  | some s => [label.toList ++ s]

/-- Base64 of bytes as text. -/
def b64 (b : Bytes) : Str := (b64encode b).map (fun x => Char.ofNat x.toNat)

/-- A number in decimal. -/
def number (n : Int) : Str := (toString n).toList

/-- A block of lines between two markers. -/
def block (name : String) (ls : List Str) : List Str :=
  ["==== BEGIN ".toList ++ name.toList ++ " ====".toList] ++ ls ++ ["==== END ".toList ++ name.toList ++ " ====".toList]

/-- A block for one entry of a list. -/
def entry (kind : String) (id : Str) (ls : List Str) : List Str :=
  ["#### BEGIN ".toList ++ kind.toList ++ ": ".toList ++ id ++ " ####".toList] ++ ls ++
    ["#### END ".toList ++ kind.toList ++ ": ".toList ++ id ++ " ####".toList]

def infoLines (i : ACInfo) : List Str := block "INFORMATION"
  ["VERSION: ".toList ++ number i.version, "SERIAL: ".toList ++ number i.serial, "ISSUED: ".toList ++ number i.issued]

/-- For an issuer with key and algorithm. -/
def issuerLines (i : ACIssuer) : List Str := block "ISSUER"
  (["PUBLIC KEY: ".toList ++ b64 (i.pubKey.getD []), "KEY ALGORITHM: ".toList ++ i.keyAlgo.getD [],
    "UID: ".toList ++ i.uid] ++ optLines "NAME: " i.name ++ optLines "URL: " i.url)

def holderLines (h : ACHolder) : List Str := block "HOLDER"
  (["PUBLIC KEY: ".toList ++ b64 h.pubKey, "KEY ALGORITHM: ".toList ++ h.keyAlgo, "UID: ".toList ++ h.uid] ++
    optLines "NAME: " h.name)

def attributeLines (a : ACAttribute) : List Str := entry "ATTRIBUTE" a.id
  (["ATTRIBUTE ID: ".toList ++ a.id, "ATTRIBUTE TYPE: ".toList ++ a.type.name] ++
    optLines "ATTRIBUTE VALUE: " a.value ++ optLines "ATTRIBUTE NAME: " a.name ++
    optLines "EXTENSION BYTES: " (a.extra.map b64))

def revocationLines (r : ACRevocation) : List Str := block "REVOCATION RULES"
  (["VALID AFTER: ".toList ++ number r.validAfter, "VALID BEFORE: ".toList ++ number r.validBefore] ++
    optLines "URL: " r.url ++ optLines "EXTENSION BYTES: " (r.extra.map b64))

def delegationLines (d : Option ACDelegation) : List Str :=
  match d.bind (·.extra) with
  | none => []
  | some b => block "DELEGATION RULES" ["EXTENSION BYTES: ".toList ++ b64 b]

def extensionLines (e : ACExtension) : List Str := entry "EXTENSION" e.eid
  (["EXTENSION ID: ".toList ++ e.eid] ++ optLines "EXTENSION BYTES: " (e.extra.map b64))

def listLines {α : Type} (name : String) (f : α → List Str) (xs : Option (List α)) : List Str :=
  match xs.getD [] with
  | [] => []
  | l => block name (l.flatMap f)

/-- For a signature with algorithm and value. -/
def signatureLines : Option ACSignature → List Str
  | none => []
  | some g => block "SIGNATURE" ["SIGNATURE ALGORITHM: ".toList ++ g.algo.getD [],
      "SIGNATURE VALUE: ".toList ++ b64 (g.value.getD [])]

/-- The lines of the TEXT format. -/
def certLines (c : AttCert) : List Str :=
  ["---- BEGIN ATTRIBUTE CERTIFICATE ----".toList, "FORMAT: TEXT".toList, "VERSION: ".toList ++ number c.info.version] ++
  infoLines c.info ++ (c.issuer.map issuerLines).getD [] ++ holderLines c.holder ++
  listLines "ATTRIBUTE SET" attributeLines c.attSet ++ revocationLines c.revRules ++ delegationLines c.delRules ++
  listLines "EXTENSIONS" extensionLines c.extensions ++ signatureLines c.signature ++
  ["---- END ATTRIBUTE CERTIFICATE ----".toList]

/-- Issuer and signature are complete. -/
def Complete (c : AttCert) : Prop :=
  (∃ i, c.issuer = some i ∧ i.pubKey ≠ none ∧ i.keyAlgo ≠ none) ∧
  ∀ g, c.signature = some g → g.algo ≠ none ∧ g.value ≠ none

/-- No text of the certificate, nor its signature algorithm, has a line break. -/
def SingleLine (c : AttCert) : Prop :=
  (∀ t ∈ texts c, '\n' ∉ t) ∧ ∀ g, c.signature = some g → '\n' ∉ g.algo.getD []

end Verif.Spec
