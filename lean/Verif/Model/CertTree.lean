import Verif.Model.AAuthGui

/-!
# Model of the tree of a certificate in the attribute authority demo

`_build_ac_tree` of `hgaa/clients/demos/aauth.py:196-294`. A tree is the list of its rows from top to bottom with their depth;
every row is inserted at the end below the parent last inserted, so this is also the order of insertion. A row has a text and
at most one value, kept as the object given to the widget: how `ttk` writes numbers, `None` and bytes is not modelled. If an
exception is raised, the rows inserted before it remain. `datetime.fromtimestamp(t).strftime(…)` is a parameter, which may
fail. Removing the tree shown before, columns and scroll bars are not modelled.
-/

namespace Verif

/-- The value of a row. -/
inductive CertCell where
  | nothing
  | int (n : Int)
  | text (s : Str)
  | bytes (b : Bytes)
deriving DecidableEq, Repr

/-- A row of the tree: sections have depth 0. -/
structure CertRow where
  depth : Nat
  text : Str
  value : Option CertCell := none
deriving DecidableEq, Repr

/-- A field that may be `None`. -/
def CertCell.ofBytes : Option Bytes → CertCell
  | some b => .bytes b
  | none => .nothing

/-- A field that may be `None`. -/
def CertCell.ofText : Option Str → CertCell
  | some s => .text s
  | none => .nothing

/-- `att.att_type.name` (`hgaa/attcert.py:12-18`). -/
def AttType.member : AttType → Str
  | .null => "NULL".toList | .int => "INT".toList | .float => "FLOAT".toList | .string => "STRING".toList
  | .bool => "BOOL".toList | .set => "SET".toList

/-- `('0x%0.2X' % n)[2:]`, `hgaa/clients/demos/aauth.py:215`. -/
def serialText (n : Int) : Str := if n < 0 then '-' :: hexUpper n.natAbs else hexUpper n.toNat

/-- Two hexadecimal digits of a byte. -/
def hexByte (b : UInt8) : Bytes :=
  let digit (n : Nat) : UInt8 := if n < 10 then UInt8.ofNat (48 + n) else UInt8.ofNat (87 + n)
  [digit (b.toNat / 16), digit (b.toNat % 16)]

/-- `binascii.hexlify(b)`, `hgaa/clients/demos/aauth.py:292`. -/
def hexlify (b : Bytes) : Bytes := b.flatMap hexByte

/-- Drawing: the rows inserted, and the exception that ended it. -/
abbrev Drawing := List CertRow × Option PyExc

/-- One drawing after the other. -/
def Drawing.andThen (a b : Drawing) : Drawing :=
  match a.2 with
  | none => (a.1 ++ b.1, b.2)
  | some e => (a.1, some e)

/-- A row that is only there if a field is not `None`. -/
def optRow {α : Type} (depth : Nat) (label : Str) (cell : α → CertCell) : Option α → List CertRow
  | none => []
  | some x => [⟨depth, label, some (cell x)⟩]

/-- A date, which is computed before the row is inserted. -/
def drawDate (date : Int → Except PyExc Str) (label : Str) (t : Int) : Drawing :=
  match date t with
  | .ok s => ([⟨1, label, some (.text s)⟩], none)
  | .error e => ([], some e)

/-- The issuer, `hgaa/clients/demos/aauth.py:222-234`: `None` has no `pub_key`. -/
def drawIssuer : Option ACIssuer → Drawing
  | none => ([⟨0, "Issuer".toList, none⟩], some .attributeError)
  | some i =>
    ([⟨0, "Issuer".toList, none⟩, ⟨1, "pub_key".toList, some (.ofBytes i.pubKey)⟩,
      ⟨1, "key_algo".toList, some (.ofText i.keyAlgo)⟩, ⟨1, "uid".toList, some (.text i.uid)⟩] ++
      optRow 1 "name".toList .text i.name ++ optRow 1 "url".toList .text i.url, none)

/-- The holder, `hgaa/clients/demos/aauth.py:236-245`. -/
def holderRows (h : ACHolder) : List CertRow :=
  [⟨0, "Holder".toList, none⟩, ⟨1, "pub_key".toList, some (.bytes h.pubKey)⟩, ⟨1, "key_algo".toList, some (.text h.keyAlgo)⟩,
    ⟨1, "uid".toList, some (.text h.uid)⟩] ++ optRow 1 "name".toList .text h.name

/-- The value of an attribute if it is shown, `hgaa/clients/demos/aauth.py:254`. -/
def shownValue (U : Uni) : Option Str → Option Str
  | none => none
  | some v => if U.lower v = "none".toList then none else some v

/-- An attribute, `hgaa/clients/demos/aauth.py:249-255`. -/
def attributeRows (U : Uni) (a : ACAttribute) : List CertRow :=
  [⟨1, a.id, none⟩, ⟨2, "id".toList, some (.text a.id)⟩] ++ optRow 2 "name".toList .text a.name ++
    [⟨2, "type".toList, some (.text a.type.member)⟩] ++ optRow 2 "value".toList .text (shownValue U a.value)

/-- The attributes, `hgaa/clients/demos/aauth.py:247-255`: `None` cannot be iterated. -/
def drawAttributes (U : Uni) : Option (List ACAttribute) → Drawing
  | none => ([⟨0, "Attribute Set".toList, none⟩], some .typeError)
  | some l => (⟨0, "Attribute Set".toList, none⟩ :: l.flatMap (attributeRows U), none)

/-- The delegation rules, `hgaa/clients/demos/aauth.py:274-278`. -/
def delegationRows (d : Option ACDelegation) : List CertRow :=
  ⟨0, "Delegation Rules".toList, none⟩ :: optRow 1 "extra_bytes".toList .bytes (d.bind (·.extra))

/-- An extension, `hgaa/clients/demos/aauth.py:283-286`. -/
def extensionRows (e : ACExtension) : List CertRow :=
  [⟨1, e.eid, none⟩, ⟨2, "eid".toList, some (.text e.eid)⟩, ⟨2, "extra_bytes".toList, some (.ofBytes e.extra)⟩]

/-- The extensions, `hgaa/clients/demos/aauth.py:280-286`. -/
def extensionsRows (l : Option (List ACExtension)) : List CertRow :=
  ⟨0, "Extensions".toList, none⟩ :: (l.getD []).flatMap extensionRows

/-- The signature, `hgaa/clients/demos/aauth.py:288-294`: `None` cannot be written as hexadecimal digits. -/
def drawSignature : Option ACSignature → Drawing
  | none => ([⟨0, "Signature".toList, none⟩], none)
  | some g =>
    let rows := [⟨0, "Signature".toList, none⟩, ⟨1, "sig_algo".toList, some (.ofText g.algo)⟩]
    match g.value with
    | some v => (rows ++ [⟨1, "sig_value".toList, some (.bytes (hexlify v))⟩], none)
    | none => (rows, some .typeError)

/-- `_build_ac_tree`, `hgaa/clients/demos/aauth.py:196-294`. -/
def certTree (U : Uni) (date : Int → Except PyExc Str) (c : AttCert) : Drawing :=
  let info : Drawing := ([⟨0, "Information".toList, none⟩, ⟨1, "version".toList, some (.int c.info.version)⟩,
    ⟨1, "serial".toList, some (.text (serialText c.info.serial))⟩], none)
  info.andThen <| (drawDate date "issued".toList c.info.issued).andThen <| (drawIssuer c.issuer).andThen <|
    Drawing.andThen (holderRows c.holder, none) <| (drawAttributes U c.attSet).andThen <|
    Drawing.andThen ([⟨0, "Revocation Rules".toList, none⟩], none) <|
    (drawDate date "valid_after".toList c.revRules.validAfter).andThen <|
    (drawDate date "valid_before".toList c.revRules.validBefore).andThen <|
    Drawing.andThen (optRow 1 "url".toList .text c.revRules.url ++ optRow 1 "extra_bytes".toList .bytes c.revRules.extra ++
      delegationRows c.delRules ++ extensionsRows c.extensions, none) <| drawSignature c.signature

end Verif
