import Verif.Model.CertTree
import Verif.Spec.Certificate
import Mathlib.Data.List.Forall2

/-!
# What the tree of a certificate is meant to show

Sections are found by their titles, fields by their place below a title. `Visible` is what a person can read in the tree.
-/

namespace Verif.Spec

/-- The rows below a title. -/
def sectionOf (title : Str) (rows : List CertRow) : List CertRow :=
  ((rows.dropWhile (fun r => !(r.depth == 0 && r.text == title))).drop 1).takeWhile (fun r => r.depth != 0)

/-- The titles from top to bottom. -/
def titles (rows : List CertRow) : List Str := (rows.filter (fun r => r.depth == 0)).map (·.text)

/-- The groups of a section: a row of depth 1, and the rows below it. -/
def groups : List CertRow → List (CertRow × List CertRow)
  | [] => []
  | r :: rest => if r.depth = 1 then (r, rest.takeWhile (fun r => r.depth != 1)) :: groups rest else groups rest

/-- Rows that name those of the fields that there are. -/
def fields (depth : Nat) (l : List (String × Option CertCell)) : List CertRow :=
  l.filterMap (fun p => p.2.map (fun x => ⟨depth, p.1.toList, some x⟩))

/-- What is shown of an attribute. -/
structure VisibleAttribute where
  id : Str
  name : Option Str
  type : AttType
  value : Option Str
deriving DecidableEq, Repr

/-- What is shown of a certificate: dates as texts, no further bytes of attributes, no empty parts. -/
structure Visible where
  version : Int
  serial : Int
  issued : Str
  issuer : ACIssuer
  holder : ACHolder
  atts : List VisibleAttribute
  validAfter : Str
  validBefore : Str
  url : Option Str
  revExtra : Option Bytes
  delExtra : Option Bytes
  exts : List ACExtension
  signature : Option (Option Str × Bytes)
deriving DecidableEq, Repr

/-- A value is shown unless it is absent or the word `none` in any case. -/
def ValueShown (U : Uni) (value shown : Option Str) : Prop :=
  (∃ v, value = some v ∧ U.lower v ≠ "none".toList ∧ shown = some v) ∨
  ((value = none ∨ ∃ v, value = some v ∧ U.lower v = "none".toList) ∧ shown = none)

/-- `v` is what there is to be seen of an attribute. -/
def AttributeSeen (U : Uni) (a : ACAttribute) (v : VisibleAttribute) : Prop :=
  v.id = a.id ∧ v.name = a.name ∧ v.type = a.type ∧ ValueShown U a.value v.value

/-- `v` is what there is to be seen of a certificate, if it can be drawn at all. -/
structure Sees (U : Uni) (date : Int → Except PyExc Str) (c : AttCert) (v : Visible) : Prop where
  version : v.version = c.info.version
  serial : v.serial = c.info.serial
  issued : date c.info.issued = .ok v.issued
  issuer : c.issuer = some v.issuer
  holder : v.holder = c.holder
  atts : ∃ l, c.attSet = some l ∧ List.Forall₂ (AttributeSeen U) l v.atts
  validAfter : date c.revRules.validAfter = .ok v.validAfter
  validBefore : date c.revRules.validBefore = .ok v.validBefore
  url : v.url = c.revRules.url
  revExtra : v.revExtra = c.revRules.extra
  delExtra : v.delExtra = none ∧ c.delRules = none ∨ ∃ d, c.delRules = some d ∧ v.delExtra = d.extra
  exts : c.extensions = some v.exts ∨ c.extensions = none ∧ v.exts = []
  signature : c.signature = none ∧ v.signature = none ∨
    ∃ algo b, c.signature = some ⟨algo, some b⟩ ∧ v.signature = some (algo, b)

/-- The rows of an attribute: its id, then id, name, type and value. -/
def attributeGroup (v : VisibleAttribute) : CertRow × List CertRow :=
  (⟨1, v.id, none⟩, fields 2 [("id", some (.text v.id)), ("name", v.name.map .text), ("type", some (.text v.type.member)),
    ("value", v.value.map .text)])

/-- The rows of an extension: its id, then id and bytes. -/
def extensionGroup (e : ACExtension) : CertRow × List CertRow :=
  (⟨1, e.eid, none⟩, fields 2 [("eid", some (.text e.eid)), ("extra_bytes", some (.ofBytes e.extra))])

/-- `v` can be read in the tree, and nothing else can. -/
structure TreeReads (rows : List CertRow) (v : Visible) : Prop where
  titles : titles rows = ["Information", "Issuer", "Holder", "Attribute Set", "Revocation Rules", "Delegation Rules",
    "Extensions", "Signature"].map String.toList
  starts : ∃ r, rows.head? = some r ∧ r.depth = 0
  bare : ∀ r ∈ rows, r.depth = 0 → r.value = none
  info : sectionOf "Information".toList rows = fields 1 [("version", some (.int v.version)),
    ("serial", some (.text (serialText v.serial))), ("issued", some (.text v.issued))]
  issuer : sectionOf "Issuer".toList rows = fields 1 [("pub_key", some (.ofBytes v.issuer.pubKey)),
    ("key_algo", some (.ofText v.issuer.keyAlgo)), ("uid", some (.text v.issuer.uid)), ("name", v.issuer.name.map .text),
    ("url", v.issuer.url.map .text)]
  holder : sectionOf "Holder".toList rows = fields 1 [("pub_key", some (.bytes v.holder.pubKey)),
    ("key_algo", some (.text v.holder.keyAlgo)), ("uid", some (.text v.holder.uid)), ("name", v.holder.name.map .text)]
  atts : groups (sectionOf "Attribute Set".toList rows) = v.atts.map attributeGroup
  rev : sectionOf "Revocation Rules".toList rows = fields 1 [("valid_after", some (.text v.validAfter)),
    ("valid_before", some (.text v.validBefore)), ("url", v.url.map .text), ("extra_bytes", v.revExtra.map .bytes)]
  del : sectionOf "Delegation Rules".toList rows = fields 1 [("extra_bytes", v.delExtra.map .bytes)]
  exts : groups (sectionOf "Extensions".toList rows) = v.exts.map extensionGroup
  signature : sectionOf "Signature".toList rows =
    match v.signature with
    | none => []
    | some (algo, b) => fields 1 [("sig_algo", some (.ofText algo)), ("sig_value", some (.bytes (hexlify b)))]

/-- What may stop the drawing, from top to bottom. -/
def obstacles (date : Int → Except PyExc Str) (c : AttCert) : List (Option PyExc) :=
  let failure (x : Except PyExc Str) : Option PyExc := match x with | .ok _ => none | .error e => some e
  [failure (date c.info.issued), if c.issuer = none then some .attributeError else none,
    if c.attSet = none then some .typeError else none, failure (date c.revRules.validAfter),
    failure (date c.revRules.validBefore), if ∃ g, c.signature = some g ∧ g.value = none then some .typeError else none]

/-- Times of 32 bits have dates: so it is where `time_t` has 64 bits. -/
def DatesKnown (date : Int → Except PyExc Str) : Prop := ∀ t, 0 ≤ t → t < 4294967296 → ∃ s, date t = .ok s

/-- A function gives a date wherever another does, and the same. -/
def Extends (date' date : Int → Except PyExc Str) : Prop := ∀ t s, date t = .ok s → date' t = .ok s

end Verif.Spec
