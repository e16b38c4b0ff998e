import Verif.Spec.Certificate
import Verif.Spec.Encoding
import Verif.Spec.Authority
/-!
# How many bytes certificates and encoded policies take

Numbers of bytes, counted from the fields of a certificate and the nodes of a tree. A text counts as many bytes as it has
characters.
-/

namespace Verif.Spec

/-- An attribute of a certificate: four sizes and a type, then id, value, name and extension. -/
def attributeBytes (a : ACAttribute) : Nat := 9 + a.id.length + size a.value + size a.name + size a.extra

/-- An extension: two sizes, id and content. -/
def extensionBytes (e : ACExtension) : Nat := 4 + e.eid.length + size e.extra

/-- The issuer: five sizes, key, algorithm, uid, name and URL. -/
def issuerBytes (i : ACIssuer) : Nat := 10 + size i.pubKey + size i.keyAlgo + i.uid.length + size i.name + size i.url

/-- The holder: four sizes, key, algorithm, uid and name. -/
def holderBytes (h : ACHolder) : Nat := 8 + h.pubKey.length + h.keyAlgo.length + h.uid.length + size h.name

/-- The signature: two sizes, algorithm and value; four bytes if there is none. -/
def signatureBytes (g : Option ACSignature) : Nat := 4 + size (g.bind ACSignature.algo) + size (g.bind ACSignature.value)

/-- The signed part. Version, serial number and time of issue take 26 bytes, the rules for revocation 12, and the lists and the
rules for delegation two bytes each, besides what they hold. -/
def bodyBytes (c : AttCert) : Nat :=
  (c.issuer.map issuerBytes).getD 0 + holderBytes c.holder + 26 +
  (2 + ((c.attSet.getD []).map attributeBytes).sum) +
  (12 + size c.revRules.url + size c.revRules.extra) +
  (2 + size (c.delRules.bind ACDelegation.extra)) +
  (2 + ((c.extensions.getD []).map extensionBytes).sum)

/-- A whole certificate. -/
def certBytes (c : AttCert) : Nat := bodyBytes c + signatureBytes c.signature

/-- Bytes in base 64. -/
def base64Bytes (n : Nat) : Nat := (n + 2) / 3 * 4

/-- Attributes of users: nine bytes, id, value (`None` for NULL) and name. -/
def userBytes (x : UserAtt) : Nat := 9 + x.att.id.length + (x.value.getD "None".toList).length + x.att.name.length

/-- Connection attributes: the name is also in the id, after `/attribute/connection/`. -/
def rowBytes (r : Row) : Nat := 31 + 2 * r.1.length + r.2.2.length

/-- A certificate issued by an authority, with a signature of this many bytes. -/
def issuedBytes {X : Crypto} (a : Authority X) (uri username : Str) (key : PublicKeyArg) (atts : List UserAtt) (rows : List Row)
    (signature : Nat) : Nat :=
  103 + (X.exportPub a.key).length + (decimal a.keyBits).length + 2 * uri.length + size a.aauthId + a.aauthUrl.length +
  key.publicKey.length + key.cipher.length + (decimal key.keySize).length + 2 * username.length + a.revUrl.length +
  (atts.map userBytes).sum + (rows.map rowBytes).sum + signature

/-- A certificate can be issued: every part is short enough, and the numbers are small enough. -/
structure IssuedFits {X : Crypto} (a : Authority X) (uri : Str) (env : RequestEnv) (username : Str) (key : PublicKeyArg)
    (atts : List UserAtt) (rows : List Row) : Prop where
  authKey : (X.exportPub a.key).length < 65536
  authAlgo : (decimal a.keyBits).length + 5 < 65536
  authId : size a.aauthId < 65536
  authUrl : a.aauthUrl.length < 65536
  holderKey : key.publicKey.length < 65536
  holderAlgo : key.cipher.length + (decimal key.keySize).length + 2 < 65536
  uid : uri.length + username.length + 6 < 65536
  serial : env.random < 2 ^ 160
  starts : 0 ≤ env.now ∧ env.now < 2 ^ 32
  ends : 0 ≤ env.now + a.expire ∧ env.now + a.expire < 2 ^ 32
  url : a.revUrl.length < 65536
  number : atts.length + rows.length < 65536
  texts : ∀ x ∈ atts, x.att.id.length < 65536 ∧ (x.value.getD "None".toList).length < 65536 ∧ x.att.name.length < 65536
  rowTexts : ∀ r ∈ rows, r.1.length + 22 < 65536 ∧ r.2.2.length < 65536

/-! ### Trees -/

/-- The value of a token: four bytes for a number. -/
def valueBytes (t : Token) : Nat :=
  match t.type, t.value with
  | .int, _ => 4
  | .float, _ => 4
  | _, .str s => s.length
  | _, _ => 0

/-- A tree: three bytes, and twelve for each node besides the value of its token. -/
def treeBytes (n : Node) : Nat := 3 + ((preorder n).map (fun m => 12 + valueBytes m.tok)).sum

/-- A rational number that is rounded to a finite binary32 number. -/
def SmallFloat (q : Rat) : Prop := -((2 ^ 25 - 1) * 2 ^ 103) < q ∧ q < (2 ^ 25 - 1) * 2 ^ 103

/-- The value of a token can be stored: ints of 32 bits, floats that are not rounded to more than the largest binary32 number;
for all other tokens a text or nothing. -/
def Storable (U : Uni) (t : Token) : Prop :=
  match t.type, t.value with
  | .int, .int i => -2 ^ 31 ≤ i ∧ i < 2 ^ 31
  | .int, _ => False
  | .float, .flt (.fin q) => SmallFloat q
  | .float, .flt (.inf _) => True
  | .float, .int i => ∃ q, U.roundF i = .fin q ∧ SmallFloat q
  | .float, _ => False
  | _, .none => True
  | _, .str _ => True
  | _, _ => False

/-- The literals of a policy that can be stored. -/
def StorableLiteral (t : Token) : Prop :=
  (∀ i, t.value = .int i → -2 ^ 31 ≤ i ∧ i < 2 ^ 31) ∧ ∀ q, t.value = .flt (.fin q) → SmallFloat q

end Verif.Spec
