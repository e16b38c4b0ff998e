import Verif.Py.Bytes
/-!
# Attribute certificates: `hgaa/attcert.py`

Parts are records with the fields of the Python objects, `None` being `none`. The decoders of the code remove what they
read from the front of the `bytearray` they are given (`byte_array[:] = byte_array[n:]`); here they return the rest. What
is left in the caller's bytearray when an exception is raised is not modelled, nor is the difference between `bytes`
and `bytearray` as field values (`==` does not see it). Mandatory fields are present and of their documented types,
except that the issuer, its public key and its key algorithm may be `None`, which `verify_signature` tests for.
RSA and SHA-256 are parameters.
-/

namespace Verif

/-- `AttributeType` (`hgaa/attcert.py:12-18`). -/
inductive AttType where
  | null | int | float | string | bool | set
deriving DecidableEq, Repr

/-- The number of an `AttributeType` (`hgaa/attcert.py:13-18`). -/
def AttType.value : AttType → Nat
  | .null => 0 | .int => 1 | .float => 2 | .string => 3 | .bool => 4 | .set => 5

/-- `AttributeType(n)` (`hgaa/attcert.py:257`): ValueError for other numbers. -/
def AttType.ofValue : Nat → Except PyExc AttType
  | 0 => .ok .null | 1 => .ok .int | 2 => .ok .float | 3 => .ok .string | 4 => .ok .bool | 5 => .ok .set
  | _ => .error .valueError

/-- The name of an `AttributeType`, for `%s` (`hgaa/attcert.py:13-18`, `:219`). -/
def AttType.name : AttType → Str
  | .null => "AttributeType.NULL".toList | .int => "AttributeType.INT".toList
  | .float => "AttributeType.FLOAT".toList | .string => "AttributeType.STRING".toList
  | .bool => "AttributeType.BOOL".toList | .set => "AttributeType.SET".toList

/-- `ACInformation` (`hgaa/attcert.py:32-46`). -/
structure ACInfo where
  version : Int
  serial : Int
  issued : Int
deriving DecidableEq, Repr

/-- `ACIssuer` (`hgaa/attcert.py:81-87`). -/
structure ACIssuer where
  pubKey : Option Bytes
  keyAlgo : Option Str
  uid : Str
  name : Option Str := none
  url : Option Str := none
deriving DecidableEq, Repr

/-- `ACHolder` (`hgaa/attcert.py:151-156`). -/
structure ACHolder where
  pubKey : Bytes
  keyAlgo : Str
  uid : Str
  name : Option Str := none
deriving DecidableEq, Repr

/-- `ACAttribute` (`hgaa/attcert.py:210-216`). -/
structure ACAttribute where
  id : Str
  type : AttType
  value : Option Str
  name : Option Str := none
  extra : Option Bytes := none
deriving DecidableEq, Repr

/-- `ACRevocationRules` (`hgaa/attcert.py:280-295`). -/
structure ACRevocation where
  validAfter : Int
  validBefore : Int
  url : Option Str := none
  extra : Option Bytes := none
deriving DecidableEq, Repr

/-- `ACDelegationRules` (`hgaa/attcert.py:345-347`). -/
structure ACDelegation where
  extra : Option Bytes := none
deriving DecidableEq, Repr

/-- `ACExtensions` (`hgaa/attcert.py:376-379`). -/
structure ACExtension where
  eid : Str
  extra : Option Bytes := none
deriving DecidableEq, Repr

/-- `ACSignature` (`hgaa/attcert.py:421-424`). -/
structure ACSignature where
  algo : Option Str
  value : Option Bytes
deriving DecidableEq, Repr

/-- `AttributeCertificate` (`hgaa/attcert.py:463-473`). -/
structure AttCert where
  issuer : Option ACIssuer
  holder : ACHolder
  info : ACInfo
  attSet : Option (List ACAttribute)
  revRules : ACRevocation
  delRules : Option ACDelegation := none
  extensions : Option (List ACExtension) := none
  signature : Option ACSignature := none
deriving DecidableEq, Repr

/-- The constructor of `ACAttribute` stores `None` for the empty value and name (`hgaa/attcert.py:211-216`). -/
def ACAttribute.make (id : Str) (type : AttType) (value : Option Str) (name : Option Str := none)
    (extra : Option Bytes := none) : ACAttribute :=
  ⟨id, type, if value = some [] then none else value, if name = some [] then none else name, extra⟩

/-- The constructor of `ACInformation`: serial and time default to random bits and the clock (`hgaa/attcert.py:35-46`). -/
def ACInfo.make (random now : Int) (version : Int := 0) (serial issued : Option Int := none) : ACInfo :=
  ⟨version, serial.getD random, issued.getD now⟩

/-- The constructor of `ACRevocationRules`; it asks the clock separately for both ends (`hgaa/attcert.py:283-295`). -/
def ACRevocation.make (now now' : Int) (validAfter validBefore : Option Int := none) (url : Option Str := none)
    (extra : Option Bytes := none) : ACRevocation :=
  ⟨validAfter.getD now, validBefore.getD (now' + 86400), url, extra⟩

/-! ### Encoding -/

/-- `len(x) if x is not None else 0`. -/
def optLen {α : Type} (x : Option (List α)) : Int := (x.getD []).length

/-- `struct.pack('<%ss' % len(s), s.encode('utf-8'))`: the size is the number of characters, and `struct` cuts off the
bytes that exceed it. -/
def packStr (s : Str) : Bytes := (utf8 s).take s.length

/-- The same for an optional string, nothing for `None`. -/
def packOptStr (s : Option Str) : Bytes := packStr (s.getD [])

/-- A mandatory value on which `len` is called: TypeError for `None`. -/
def lenOf {α : Type} : Option α → Except PyExc α
  | none => .error .typeError
  | some x => .ok x

/-- `n.to_bytes(k, 'little')`: OverflowError if `k` bytes do not suffice and for negative numbers. -/
def toBytes (k : Nat) (n : Int) : Except PyExc Bytes :=
  if 0 ≤ n ∧ n < (256 : Int) ^ k then .ok (packLE k n.toNat) else .error .overflowError

/-- `ACInformation.encode` (`hgaa/attcert.py:57-62`). -/
def ACInfo.encode (i : ACInfo) : Except PyExc Bytes := do
  let h1 ← packU 1 i.version
  let h2 ← packU 1 20
  let s ← toBytes 20 i.serial
  let t ← packU 4 i.issued
  return h1 ++ h2 ++ s ++ t

/-- `ACIssuer.encode` (`hgaa/attcert.py:101-127`). -/
def ACIssuer.encode (i : ACIssuer) : Except PyExc Bytes := do
  let key ← lenOf i.pubKey
  let algo ← lenOf i.keyAlgo
  let h1 ← packU 2 key.length
  let h2 ← packU 2 algo.length
  let h3 ← packU 2 i.uid.length
  let h4 ← packU 2 (optLen i.name)
  let h5 ← packU 2 (optLen i.url)
  return h1 ++ h2 ++ h3 ++ h4 ++ h5 ++ key ++ packStr algo ++ packStr i.uid ++ packOptStr i.name ++ packOptStr i.url

/-- `ACHolder.encode` (`hgaa/attcert.py:167-187`). -/
def ACHolder.encode (h : ACHolder) : Except PyExc Bytes := do
  let h1 ← packU 2 h.pubKey.length
  let h2 ← packU 2 h.keyAlgo.length
  let h3 ← packU 2 h.uid.length
  let h4 ← packU 2 (optLen h.name)
  return h1 ++ h2 ++ h3 ++ h4 ++ h.pubKey ++ packStr h.keyAlgo ++ packStr h.uid ++ packOptStr h.name

/-- `ACAttribute.encode` (`hgaa/attcert.py:234-250`). -/
def ACAttribute.encode (a : ACAttribute) : Except PyExc Bytes := do
  let h1 ← packU 2 a.id.length
  let h2 ← packU 2 (optLen a.value)
  let h3 ← packU 2 (optLen a.name)
  let h4 ← packU 2 (optLen a.extra)
  let h5 ← packU 1 a.type.value
  return h1 ++ h2 ++ h3 ++ h4 ++ h5 ++ packStr a.id ++ packOptStr a.value ++ packOptStr a.name ++ a.extra.getD []

/-- `ACRevocationRules.encode` (`hgaa/attcert.py:309-321`). -/
def ACRevocation.encode (r : ACRevocation) : Except PyExc Bytes := do
  let h1 ← packU 2 (optLen r.url)
  let h2 ← packU 2 (optLen r.extra)
  let h3 ← packU 4 r.validAfter
  let h4 ← packU 4 r.validBefore
  return h1 ++ h2 ++ h3 ++ h4 ++ packOptStr r.url ++ r.extra.getD []

/-- `ACDelegationRules.encode` (`hgaa/attcert.py:358-361`). -/
def ACDelegation.encode (d : ACDelegation) : Except PyExc Bytes := do
  let h ← packU 2 (optLen d.extra)
  return h ++ d.extra.getD []

/-- `ACExtensions.encode` (`hgaa/attcert.py:388-400`). -/
def ACExtension.encode (e : ACExtension) : Except PyExc Bytes := do
  let h1 ← packU 2 e.eid.length
  let h2 ← packU 2 (optLen e.extra)
  return h1 ++ h2 ++ packStr e.eid ++ e.extra.getD []

/-- `ACSignature.encode` (`hgaa/attcert.py:432-439`). -/
def ACSignature.encode (s : ACSignature) : Except PyExc Bytes := do
  let algo ← lenOf s.algo
  let value ← lenOf s.value
  let h1 ← packU 2 algo.length
  let h2 ← packU 2 value.length
  return h1 ++ h2 ++ packStr algo ++ value

/-- The loops joining the encodings of the attributes and extensions (`hgaa/attcert.py:619-621`, `:627-629`). -/
def encodeAll {α : Type} (enc : α → Except PyExc Bytes) : List α → Except PyExc Bytes
  | [] => .ok []
  | x :: xs => do
    let b ← enc x
    let bs ← encodeAll enc xs
    return b ++ bs

/-- A counted list, two zero bytes if it is `None` or empty (`hgaa/attcert.py:617-632`). -/
def encodeList {α : Type} (enc : α → Except PyExc Bytes) (xs : Option (List α)) : Except PyExc Bytes :=
  match xs.getD [] with
  | [] => .ok [0, 0]
  | x :: l => do
    let h ← packU 2 (x :: l).length
    let b ← encodeAll enc (x :: l)
    return h ++ b

/-- The issuer; `None` has no method `encode` (`hgaa/attcert.py:611`). -/
def encodeIssuer : Option ACIssuer → Except PyExc Bytes
  | none => .error .attributeError
  | some i => i.encode

/-- The delegation rules, two zero bytes for `None` (`hgaa/attcert.py:615`). -/
def encodeDel : Option ACDelegation → Except PyExc Bytes
  | none => .ok [0, 0]
  | some d => d.encode

/-- `_encode_body` (`hgaa/attcert.py:610-635`), the bytes that are signed. -/
def AttCert.encodeBody (c : AttCert) : Except PyExc Bytes := do
  let issuer ← encodeIssuer c.issuer
  let holder ← c.holder.encode
  let info ← c.info.encode
  let rev ← c.revRules.encode
  let del ← encodeDel c.delRules
  let atts ← encodeList ACAttribute.encode c.attSet
  let exts ← encodeList ACExtension.encode c.extensions
  return issuer ++ holder ++ info ++ atts ++ rev ++ del ++ exts

/-! ### Decoding -/

/-- `x.decode('utf-8') if x != b'' else None`. -/
def decodeOptStr (bs : Bytes) : Except PyExc (Option Str) :=
  if bs = [] then .ok none else (utf8Decode bs).map some

/-- `slice.decode('utf-8') if size != 0 else None` (`hgaa/attcert.py:329`, `:445`). -/
def decodeSized (size : Nat) (slice : Bytes) : Except PyExc (Option Str) :=
  if size = 0 then .ok none else (utf8Decode slice).map some

/-- `bytes(slice) if size != 0 else None`: slices may be shorter than the size they were cut for. -/
def optSlice (size : Nat) (slice : Bytes) : Option Bytes := if size = 0 then none else some slice

/-- `ACInformation.decode` (`hgaa/attcert.py:65-74`). -/
def ACInfo.decode (bs : Bytes) : Except PyExc (ACInfo × Bytes) := do
  let (version, r) ← getU 1 bs
  let (size, r) ← getU 1 r
  let serial := unpackLE (r.take size)
  let (issued, r) ← getU 4 (r.drop size)
  return (⟨version, serial, issued⟩, r)

/-- `ACIssuer.decode` (`hgaa/attcert.py:130-144`). -/
def ACIssuer.decode (bs : Bytes) : Except PyExc (ACIssuer × Bytes) := do
  let (keySize, r) ← getU 2 bs
  let (algoSize, r) ← getU 2 r
  let (uidSize, r) ← getU 2 r
  let (nameSize, r) ← getU 2 r
  let (urlSize, r) ← getU 2 r
  let key := r.take keySize
  let (algo, r) ← takeBytes algoSize (r.drop keySize)
  let (uid, r) ← takeBytes uidSize r
  let (name, r) ← takeBytes nameSize r
  let (url, r) ← takeBytes urlSize r
  let algo ← utf8Decode algo
  let uid ← utf8Decode uid
  let url ← decodeOptStr url
  let name ← decodeOptStr name
  return (⟨some key, some algo, uid, name, url⟩, r)

/-- `ACHolder.decode` (`hgaa/attcert.py:190-203`). -/
def ACHolder.decode (bs : Bytes) : Except PyExc (ACHolder × Bytes) := do
  let (keySize, r) ← getU 2 bs
  let (algoSize, r) ← getU 2 r
  let (uidSize, r) ← getU 2 r
  let (nameSize, r) ← getU 2 r
  let key := r.take keySize
  let (algo, r) ← takeBytes algoSize (r.drop keySize)
  let (uid, r) ← takeBytes uidSize r
  let (name, r) ← takeBytes nameSize r
  let algo ← utf8Decode algo
  let uid ← utf8Decode uid
  let name ← decodeOptStr name
  return (⟨key, algo, uid, name⟩, r)

/-- `ACAttribute.decode` (`hgaa/attcert.py:253-272`). -/
def ACAttribute.decode (bs : Bytes) : Except PyExc (ACAttribute × Bytes) := do
  let (idSize, r) ← getU 2 bs
  let (valueSize, r) ← getU 2 r
  let (nameSize, r) ← getU 2 r
  let (extraSize, r) ← getU 2 r
  let (ty, r) ← getU 1 r
  let ty ← AttType.ofValue ty
  let (id, r) ← takeBytes idSize r
  let (value, r) ← takeBytes valueSize r
  let (name, r) ← takeBytes nameSize r
  let id ← utf8Decode id
  let value ← decodeOptStr value
  let name ← decodeOptStr name
  return (⟨id, ty, value, name, optSlice extraSize (r.take extraSize)⟩, r.drop extraSize)

/-- `ACRevocationRules.decode` (`hgaa/attcert.py:324-338`). -/
def ACRevocation.decode (bs : Bytes) : Except PyExc (ACRevocation × Bytes) := do
  let (urlSize, r) ← getU 2 bs
  let (extraSize, r) ← getU 2 r
  let (after, r) ← getU 4 r
  let (before, r) ← getU 4 r
  let url ← decodeSized urlSize (r.take urlSize)
  let r := r.drop urlSize
  return (⟨after, before, url, optSlice extraSize (r.take extraSize)⟩, r.drop extraSize)

/-- `ACDelegationRules.decode` (`hgaa/attcert.py:364-370`). -/
def ACDelegation.decode (bs : Bytes) : Except PyExc (ACDelegation × Bytes) := do
  let (size, r) ← getU 2 bs
  return (⟨optSlice size (r.take size)⟩, r.drop size)

/-- `ACExtensions.decode` (`hgaa/attcert.py:403-415`). -/
def ACExtension.decode (bs : Bytes) : Except PyExc (ACExtension × Bytes) := do
  let (eidSize, r) ← getU 2 bs
  let (extraSize, r) ← getU 2 r
  let eid ← utf8Decode (r.take eidSize)
  let r := r.drop eidSize
  return (⟨eid, optSlice extraSize (r.take extraSize)⟩, r.drop extraSize)

/-- `ACSignature.decode` (`hgaa/attcert.py:442-449`). -/
def ACSignature.decode (bs : Bytes) : Except PyExc (ACSignature × Bytes) := do
  let (algoSize, r) ← getU 2 bs
  let (valueSize, r) ← getU 2 r
  let algo ← decodeSized algoSize (r.take algoSize)
  let r := r.drop algoSize
  return (⟨algo, optSlice valueSize (r.take valueSize)⟩, r.drop valueSize)

/-- The loops `for i in range(n)` (`hgaa/attcert.py:647-648`, `:662-663`). -/
def decodeMany {α : Type} (dec : Bytes → Except PyExc (α × Bytes)) : Nat → Bytes → Except PyExc (List α × Bytes)
  | 0, bs => .ok ([], bs)
  | n + 1, bs => do
    let (x, r) ← dec bs
    let (xs, r) ← decodeMany dec n r
    return (x :: xs, r)

/-- The delegation rules are only decoded if their first two bytes are not zero (`hgaa/attcert.py:652-657`). -/
def decodeDel (bs : Bytes) : Except PyExc (Option ACDelegation × Bytes) := do
  let (check, r) ← getU 2 bs
  if check ≠ 0 then
    let (d, r) ← ACDelegation.decode bs
    return (some d, r)
  else return (none, r)

/-- `_decode_body` (`hgaa/attcert.py:638-670`). -/
def AttCert.decodeBody (bs : Bytes) : Except PyExc (AttCert × Bytes) := do
  let (issuer, r) ← ACIssuer.decode bs
  let (holder, r) ← ACHolder.decode r
  let (info, r) ← ACInfo.decode r
  let (n, r) ← getU 2 r
  let (atts, r) ← decodeMany ACAttribute.decode n r
  let (rev, r) ← ACRevocation.decode r
  let (del, r) ← decodeDel r
  let (n, r) ← getU 2 r
  let (exts, r) ← decodeMany ACExtension.decode n r
  return (⟨some issuer, holder, info, some atts, rev, del, if exts = [] then none else some exts, none⟩, r)

/-! ### Signatures -/

/-- RSA keys, PKCS #1 v1.5 signatures and SHA-256 of pycryptodome. `verify` is whether
`pkcs1_15.new(key).verify(hash, sig)` returns instead of raising ValueError. -/
structure Crypto where
  PubKey : Type
  PrivKey : Type
  sha256 : Bytes → Bytes
  /-- `RSA.import_key` -/
  importKey : Bytes → Except PyExc PubKey
  /-- `pkcs1_15.new(key).sign(hash)` -/
  sign : PrivKey → Bytes → Except PyExc Bytes
  verify : PubKey → Bytes → Bytes → Bool
  /-- `key.publickey().exportKey()` -/
  exportPub : PrivKey → Bytes

/-- What the theorems assume about RSA: what a private key signs verifies under its exported public key, and signatures
are not empty. Unforgeability is not a property of functions and is not assumed. -/
structure Crypto.Lawful (X : Crypto) : Prop where
  sign_verify : ∀ k h s, X.sign k h = .ok s → ∃ p, X.importKey (X.exportPub k) = .ok p ∧ X.verify p h s = true
  sign_ne_nil : ∀ k h s, X.sign k h = .ok s → s ≠ []

/-- `AttributeCertificate.sign` (`hgaa/attcert.py:582-587`). -/
def AttCert.sign (X : Crypto) (c : AttCert) (key : X.PrivKey) (algo : Str) : Except PyExc AttCert := do
  let encoded ← c.encodeBody
  let sig ← X.sign key (X.sha256 encoded)
  return { c with signature := some ⟨some algo, some sig⟩ }

/-- `verify_signature` (`hgaa/attcert.py:594-608`); errors of `RSA.import_key` and of encoding are not caught. -/
def AttCert.verifySignature (X : Crypto) (c : AttCert) : Except PyExc Bool :=
  match c.signature, c.issuer with
  | some ⟨some _, some sig⟩, some ⟨some key, some _, _, _, _⟩ => do
    let pub ← X.importKey key
    let encoded ← c.encodeBody
    return X.verify pub (X.sha256 encoded) sig
  | _, _ => .ok false

/-- `verify_time` with the time given or read from the clock (`hgaa/attcert.py:589-592`). -/
def AttCert.verifyTime (c : AttCert) (clock : Int) (now : Option Int := none) : Bool :=
  let now := now.getD clock
  c.revRules.validAfter < now && now < c.revRules.validBefore

/-- What is asked of `encode` and `export_ac` about signing (`hgaa/attcert.py:504`, `:549`): not at all, or with a key,
which may be missing, and the name of an algorithm. -/
inductive SignArg (X : Crypto) where
  | no
  | yes (key : Option X.PrivKey) (algo : Str)

/-- `if sign: …` (`hgaa/attcert.py:551-555`, `:514-518`). -/
def AttCert.signArg (X : Crypto) (c : AttCert) : SignArg X → Except PyExc AttCert
  | .no => .ok c
  | .yes none _ => .error (.exception "Need prvi_key to sign.")
  | .yes (some k) algo => c.sign X k algo

/-- `encode` (`hgaa/attcert.py:549-562`): the bytes, and the certificate, which signing changes. -/
def AttCert.encode (X : Crypto) (c : AttCert) (s : SignArg X) : Except PyExc (Bytes × AttCert) := do
  let body ← c.encodeBody
  let c ← c.signArg X s
  let sig ← match c.signature with
    | some g => g.encode
    | none => .ok [0, 0, 0, 0]
  return (body ++ sig, c)

/-- `decode` (`hgaa/attcert.py:565-580`): the certificate and what is left of the byte array, which is nothing. -/
def AttCert.decode (X : Crypto) (bs : Bytes) (verify : Bool) : Except PyExc (AttCert × Bytes) := do
  let (c, r) ← AttCert.decodeBody bs
  let (g, r) ← ACSignature.decode r
  let c := { c with signature := if g.value = none ∧ g.algo = none then none else some g }
  if 0 < r.length then .error (.exception "Extra bytes on end of certificate.")
  else if verify then
    let ok ← c.verifySignature X
    if ok then return (c, r) else .error (.exception "Bad signature.")
  else return (c, r)

/-! ### Text -/

/-- `'%d' % n` and `str(n)`. -/
def decimal (n : Int) : Str := (toString n).toList

/-- `base64.b64encode(b).decode('utf-8')`. -/
def b64Text (b : Bytes) : Str := (b64encode b).map (fun x => Char.ofNat x.toNat)

/-- `base64.b64encode` of a field that may be `None`: TypeError. -/
def b64TextOf (b : Option Bytes) : Except PyExc Str := (lenOf b).map b64Text

/-- `'%s' % x` of an optional string. -/
def showOpt (s : Option Str) : Str := s.getD "None".toList

/-- A line `LABEL: value`, left out for `None`. -/
def optLine (label : String) (s : Option Str) : Str :=
  match s with
  | none => []
  | some s => label.toList ++ s ++ ['\n']

/-- The `EXTENSION BYTES` line. -/
def extraLine (b : Option Bytes) : Str := optLine "EXTENSION BYTES: " (b.map b64Text)

/-- `ACInformation.__str__` (`hgaa/attcert.py:48-55`). -/
def ACInfo.text (i : ACInfo) : Str :=
  "==== BEGIN INFORMATION ====\nVERSION: ".toList ++ decimal i.version ++ "\nSERIAL: ".toList ++ decimal i.serial ++
    "\nISSUED: ".toList ++ decimal i.issued ++ "\n==== END INFORMATION ====\n".toList

/-- `ACIssuer.__str__` (`hgaa/attcert.py:89-99`). -/
def ACIssuer.text (i : ACIssuer) : Except PyExc Str := do
  let key ← b64TextOf i.pubKey
  return "==== BEGIN ISSUER ====\nPUBLIC KEY: ".toList ++ key ++ "\nKEY ALGORITHM: ".toList ++ showOpt i.keyAlgo ++
    "\nUID: ".toList ++ i.uid ++ ['\n'] ++ optLine "NAME: " i.name ++ optLine "URL: " i.url ++
    "==== END ISSUER ====\n".toList

/-- `ACHolder.__str__` (`hgaa/attcert.py:158-165`). -/
def ACHolder.text (h : ACHolder) : Str :=
  "==== BEGIN HOLDER ====\nPUBLIC KEY: ".toList ++ b64Text h.pubKey ++ "\nKEY ALGORITHM: ".toList ++ h.keyAlgo ++
    "\nUID: ".toList ++ h.uid ++ ['\n'] ++ optLine "NAME: " h.name ++ "==== END HOLDER ====\n".toList

/-- `ACAttribute.__str__` (`hgaa/attcert.py:218-232`). -/
def ACAttribute.text (a : ACAttribute) : Str :=
  "#### BEGIN ATTRIBUTE: ".toList ++ a.id ++ " ####\nATTRIBUTE ID: ".toList ++ a.id ++ "\nATTRIBUTE TYPE: ".toList ++
    a.type.name ++ ['\n'] ++ optLine "ATTRIBUTE VALUE: " a.value ++ optLine "ATTRIBUTE NAME: " a.name ++
    extraLine a.extra ++ "#### END ATTRIBUTE: ".toList ++ a.id ++ " ####\n".toList

/-- `ACRevocationRules.__str__` (`hgaa/attcert.py:297-307`). -/
def ACRevocation.text (r : ACRevocation) : Str :=
  "==== BEGIN REVOCATION RULES ====\nVALID AFTER: ".toList ++ decimal r.validAfter ++ "\nVALID BEFORE: ".toList ++
    decimal r.validBefore ++ ['\n'] ++ optLine "URL: " r.url ++ extraLine r.extra ++
    "==== END REVOCATION RULES ====\n".toList

/-- `ACDelegationRules.__str__` (`hgaa/attcert.py:349-356`). -/
def ACDelegation.text (d : ACDelegation) : Str :=
  match d.extra with
  | none => []
  | some b => "==== BEGIN DELEGATION RULES ====\n".toList ++ extraLine (some b) ++ "==== END DELEGATION RULES ====\n".toList

/-- `ACExtensions.__str__` (`hgaa/attcert.py:381-386`). -/
def ACExtension.text (e : ACExtension) : Str :=
  "#### BEGIN EXTENSION: ".toList ++ e.eid ++ " ####\nEXTENSION ID: ".toList ++ e.eid ++ ['\n'] ++ extraLine e.extra ++
    "#### END EXTENSION: ".toList ++ e.eid ++ " ####\n".toList

/-- `ACSignature.__str__` (`hgaa/attcert.py:426-430`). -/
def ACSignature.text (s : ACSignature) : Except PyExc Str := do
  let v ← b64TextOf s.value
  return "==== BEGIN SIGNATURE ====\nSIGNATURE ALGORITHM: ".toList ++ showOpt s.algo ++ "\nSIGNATURE VALUE: ".toList ++
    v ++ "\n==== END SIGNATURE ====\n".toList

/-- A block around a list that is left out if the list is `None` or empty (`hgaa/attcert.py:481-485`, `:492-496`). -/
def textList {α : Type} (label : String) (f : α → Str) (xs : Option (List α)) : Str :=
  match xs.getD [] with
  | [] => []
  | x :: l => "==== BEGIN ".toList ++ label.toList ++ " ====\n".toList ++ (x :: l).flatMap f ++ "==== END ".toList ++
      label.toList ++ " ====\n".toList

/-- The header of the text formats (`hgaa/attcert.py:476`, `:522`). -/
def acHeader (format : String) (version : Int) : Str :=
  "---- BEGIN ATTRIBUTE CERTIFICATE ----\nFORMAT: ".toList ++ format.toList ++ "\nVERSION: ".toList ++ decimal version ++
    ['\n']

/-- `AttributeCertificate.__str__` (`hgaa/attcert.py:475-502`). `None.__str__()` is the text `None`. -/
def AttCert.text (c : AttCert) : Except PyExc Str := do
  let issuer ← match c.issuer with
    | none => .ok "None".toList
    | some i => i.text
  let sig ← match c.signature with
    | none => .ok []
    | some g => g.text
  return acHeader "TEXT" c.info.version ++ c.info.text ++ issuer ++ c.holder.text ++
    textList "ATTRIBUTE SET" ACAttribute.text c.attSet ++ c.revRules.text ++
    (match c.delRules with | none => [] | some d => d.text) ++
    textList "EXTENSIONS" ACExtension.text c.extensions ++ sig ++ "---- END ATTRIBUTE CERTIFICATE ----".toList

/-! ### Export and import -/

/-- `ExportFormat` (`hgaa/attcert.py:455-460`). -/
inductive ExportFormat where
  | bytes | text | xml | base64 | base64full
deriving DecidableEq, Repr

/-- `ExportFormat(n)` (`hgaa/attcert.py:455-460`): ValueError for other numbers. -/
def ExportFormat.ofValue (n : Int) : Except PyExc ExportFormat :=
  if n = 0 then .ok .bytes else if n = 1 then .ok .text else if n = 2 then .ok .xml
  else if n = 3 then .ok .base64 else if n = 4 then .ok .base64full else .error .valueError

/-- The number of a format (`hgaa/attcert.py:455-460`). -/
def ExportFormat.value : ExportFormat → Int
  | .bytes => 0 | .text => 1 | .xml => 2 | .base64 => 3 | .base64full => 4

/-- What exports return and imports accept: mutable and immutable bytes and text. -/
inductive ACData where
  | bytearray (b : Bytes)
  | bytes (b : Bytes)
  | str (s : Str)
deriving DecidableEq, Repr

/-- `export_ac` (`hgaa/attcert.py:504-526`). -/
def AttCert.exportAC (X : Crypto) (c : AttCert) (s : SignArg X) : ExportFormat → Except PyExc (ACData × AttCert)
  | .bytes => do
    let (b, c) ← c.encode X s
    return (.bytearray b, c)
  | .base64 => do
    let (b, c) ← c.encode X s
    return (.bytes (b64encode b), c)
  | .xml => .error (.exception "XML format not yet supported.")
  | .text => do
    let c ← c.signArg X s
    let t ← c.text
    return (.str t, c)
  | .base64full => do
    let (b, c') ← c.encode X s
    return (.str (acHeader "BASE64" c.info.version ++ b64Text b ++ "\n---- END ATTRIBUTE CERTIFICATE ----".toList), c')

/-- `base64.b64decode`: text must be ASCII, else ValueError. -/
def b64decodeData : ACData → Except PyExc Bytes
  | .bytearray b | .bytes b => b64decode b
  | .str s => if s.all isAscii then b64decode (s.map (fun c => UInt8.ofNat c.toNat)) else .error .valueError

/-- `s.split('\n')`. -/
def splitLines : Str → List Str
  | [] => [[]]
  | c :: s =>
    if c = '\n' then [] :: splitLines s
    else match splitLines s with
      | [] => [[c]]
      | l :: ls => (c :: l) :: ls

/-- `import_ac` for the formats that do not call it again (`hgaa/attcert.py:529-542`, `:545-547`): the certificate and
the input afterwards. Immutable bytes can be decoded only until the first part is to be removed from them, and
`struct.unpack` refuses text; both are TypeErrors. -/
def AttCert.importBytes (X : Crypto) (verify : Bool) : ACData → Except PyExc (AttCert × ACData)
  | .bytearray b => do
    let (c, r) ← AttCert.decode X b verify
    return (c, .bytearray r)
  | .bytes b => do
    let _ ← ACIssuer.decode b
    .error .typeError
  | .str _ => .error .typeError

/-- `import_ac(input, BASE64, verify)` (`hgaa/attcert.py:532-534`). -/
def AttCert.importBase64 (X : Crypto) (verify : Bool) (d : ACData) : Except PyExc (AttCert × ACData) := do
  let b ← b64decodeData d
  let (c, _) ← AttCert.decode X b verify
  return (c, d)

/-- `import_ac` (`hgaa/attcert.py:529-547`). `BASE64FULL` takes the fourth line of a text; bytes cannot be split at a
text. -/
def AttCert.importAC (X : Crypto) (d : ACData) (f : ExportFormat) (verify : Bool) : Except PyExc (AttCert × ACData) :=
  match f with
  | .bytes => AttCert.importBytes X verify d
  | .base64 => AttCert.importBase64 X verify d
  | .xml => .error (.exception "XML format not yet supported.")
  | .text => .error (.exception "TEXT import not yet supported.")
  | .base64full =>
    match d with
    | .str s =>
      match (splitLines s)[3]? with
      | some l => do
        let (c, _) ← AttCert.importBase64 X verify (.str l)
        return (c, d)
      | none => .error .indexError
    | _ => .error .typeError

/-! ### Equality -/

/-- `ACInformation.__eq__` (`hgaa/attcert.py:76-78`). -/
def ACInfo.eqv (a b : ACInfo) : Bool := a.version == b.version && a.serial == b.serial && a.issued == b.issued

/-- `ACIssuer.__eq__`, which ignores the name (`hgaa/attcert.py:146-148`). -/
def ACIssuer.eqv (a b : ACIssuer) : Bool :=
  a.pubKey == b.pubKey && a.keyAlgo == b.keyAlgo && a.uid == b.uid && a.url == b.url

/-- `ACHolder.__eq__`, which ignores the name (`hgaa/attcert.py:205-207`). -/
def ACHolder.eqv (a b : ACHolder) : Bool := a.pubKey == b.pubKey && a.keyAlgo == b.keyAlgo && a.uid == b.uid

/-- `ACAttribute.__eq__` (`hgaa/attcert.py:274-277`). -/
def ACAttribute.eqv (a b : ACAttribute) : Bool :=
  a.id == b.id && a.name == b.name && a.type == b.type && a.value == b.value && a.extra == b.extra

/-- `ACRevocationRules.__eq__` (`hgaa/attcert.py:340-342`). -/
def ACRevocation.eqv (a b : ACRevocation) : Bool :=
  a.validBefore == b.validBefore && a.validAfter == b.validAfter && a.url == b.url && a.extra == b.extra

/-- `ACDelegationRules.__eq__` (`hgaa/attcert.py:372-373`). -/
def ACDelegation.eqv (a b : ACDelegation) : Bool := a.extra == b.extra

/-- `ACExtensions.__eq__` (`hgaa/attcert.py:417-418`). -/
def ACExtension.eqv (a b : ACExtension) : Bool := a.extra == b.extra && a.eid == b.eid

/-- `ACSignature.__eq__` (`hgaa/attcert.py:451-452`). -/
def ACSignature.eqv (a b : ACSignature) : Bool := a.value == b.value && a.algo == b.algo

/-- `==` of two objects that may be `None`. -/
def optEqv {α : Type} (eqv : α → α → Bool) : Option α → Option α → Bool
  | none, none => true
  | some a, some b => eqv a b
  | _, _ => false

/-- The inner loops over the other certificate's list: the first entry with the same id decides
(`hgaa/attcert.py:699-704`, `:717-722`). -/
def findEqv {α : Type} (ident : α → Str) (eqv : α → α → Bool) (a : α) : List α → Bool
  | [] => false
  | b :: bs => if ident a = ident b then eqv a b else findEqv ident eqv a bs

/-- The comparison of attribute lists and of extension lists (`hgaa/attcert.py:693-708`, `:711-726`): `len(None)` is a
TypeError. -/
def listEqv {α : Type} (ident : α → Str) (eqv : α → α → Bool) : Option (List α) → Option (List α) → Except PyExc Bool
  | none, none => .ok true
  | some xs, some ys =>
    if xs.length = ys.length then .ok (xs.all (fun a => findEqv ident eqv a ys)) else .ok false
  | _, _ => .error .typeError

/-- The delegation rules are equal, or missing on one side and without content on the other
(`hgaa/attcert.py:677-682`). -/
def delEqv (a b : Option ACDelegation) : Bool :=
  optEqv ACDelegation.eqv a b ||
    match a, b with
    | none, some d | some d, none => d.extra == none
    | _, _ => false

/-- The same for signatures (`hgaa/attcert.py:684-690`). -/
def sigEqv (a b : Option ACSignature) : Bool :=
  optEqv ACSignature.eqv a b ||
    match a, b with
    | none, some g | some g, none => g.value == none && g.algo == none
    | _, _ => false

/-- `AttributeCertificate.__eq__` (`hgaa/attcert.py:672-730`). -/
def AttCert.eqv (a b : AttCert) : Except PyExc Bool :=
  if optEqv ACIssuer.eqv a.issuer b.issuer && a.holder.eqv b.holder && a.info.eqv b.info && a.revRules.eqv b.revRules then
    if !delEqv a.delRules b.delRules then .ok false
    else if !sigEqv a.signature b.signature then .ok false
    else do
      let atts ← listEqv ACAttribute.id ACAttribute.eqv a.attSet b.attSet
      if !atts then .ok false
      else listEqv ACExtension.eid ACExtension.eqv a.extensions b.extensions
  else .ok false

end Verif
