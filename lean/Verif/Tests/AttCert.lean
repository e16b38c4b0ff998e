import Verif.Tests.Basic
import Verif.Props.AttCert
/-!
# The unit tests of `hgaa/test/test_attcert.py`, restated for the model

Keys and signatures are those of `toyCrypto`, a lawful signature scheme with short keys; random serial numbers, keys and the
clock are fixed. These are tests on single inputs, not proofs: they check that the model agrees with what the authors of the
code recorded. Left out: `test_init` and `test_str` assert nothing.
-/

namespace Verif.Tests

open Props

/-- The bytes of an ASCII text. -/
def bytesOf (s : Str) : Bytes := utf8 s

/-- The bytes that follow what is decoded. -/
def moreBytes : Bytes := bytesOf txt!"testing some Extra b3tes!!!"

/-- `random.getrandbits(160)`. -/
def serial : Int := 1234567890123456789012345678901234567890123456

/-- `int(time.time())`. -/
def clock : Int := 1500000000

/-- Encoding, then decoding with more bytes behind: an equal object, and the bytes behind are left. -/
def roundTrip {α : Type} (encode : α → Except PyExc Bytes) (decode : Bytes → Except PyExc (α × Bytes)) (eqv : α → α → Bool)
    (x : α) (more : Bytes) : Bool :=
  match encode x with
  | .error _ => false
  | .ok b =>
    match decode (b ++ more) with
    | .error _ => false
    | .ok (y, r) => eqv x y && r == more

/-! ### `TestACInformation`, `hgaa/test/test_attcert.py:12-41` -/

def infoDefault : ACInfo := .make serial clock
def infoCustom : ACInfo := .make 0 0 5 (some serial) (some (clock - 1000))

example : roundTrip ACInfo.encode ACInfo.decode ACInfo.eqv infoDefault [] = true := by decide +kernel
example : roundTrip ACInfo.encode ACInfo.decode ACInfo.eqv infoCustom moreBytes = true := by decide +kernel
example : infoCustom.issued = clock - 1000 ∧ infoCustom.version = 5 ∧ infoCustom.serial = serial := ⟨rfl, rfl, rfl⟩
example : infoDefault.issued = clock ∧ infoDefault.version = 0 := ⟨rfl, rfl⟩

/-! ### `TestACIssuer`, `hgaa/test/test_attcert.py:44-100` -/

def pubKey : Bytes := [48, 130, 1, 34, 0, 255]
def keyAlgo : Str := txt!"RSA[2048]"
def acUid : Str := txt!"hgaa.testing.testac"
def acName : Option Str := some txt!"My Test AC"
def acUrl : Option Str := some txt!"http://hgaa.test/testing/testac?test=1234abc&abc=4#test"

example : roundTrip ACIssuer.encode ACIssuer.decode ACIssuer.eqv ⟨some pubKey, some keyAlgo, acUid, acName, acUrl⟩ moreBytes =
    true := by decide +kernel
example : roundTrip ACIssuer.encode ACIssuer.decode ACIssuer.eqv ⟨some pubKey, some keyAlgo, acUid, none, none⟩ [] =
    true := by decide +kernel
example : roundTrip ACIssuer.encode ACIssuer.decode ACIssuer.eqv ⟨some pubKey, some keyAlgo, acUid, acName, none⟩ [] =
    true := by decide +kernel
example : roundTrip ACIssuer.encode ACIssuer.decode ACIssuer.eqv ⟨some pubKey, some keyAlgo, acUid, none, acUrl⟩ [] =
    true := by decide +kernel

/-! ### `TestACHolder`, `hgaa/test/test_attcert.py:103-139` -/

def holderNamed : ACHolder := ⟨pubKey, keyAlgo, txt!"hgaa.testing.testacholder", some txt!"My Test AC Holder"⟩
def holderUnnamed : ACHolder := ⟨pubKey, keyAlgo, txt!"hgaa.testing.testacholder.withnoname", none⟩

example : roundTrip ACHolder.encode ACHolder.decode ACHolder.eqv holderNamed [] = true := by decide +kernel
example : roundTrip ACHolder.encode ACHolder.decode ACHolder.eqv holderUnnamed
    (bytesOf txt!"testing some Extra b3tes!!!123") = true := by decide +kernel

/-! ### `TestACAttribute`, `hgaa/test/test_attcert.py:142-178` -/

def attId : Str := txt!"hgabac:attr:usr:localhost:testing:mytestatt"
def attName : Option Str := some txt!"My Test Att"
def attExtra : Option Bytes := some (bytesOf txt!"This is some extra bytes!!!!")
def hello : Option Str := some txt!"Hello World"

example : roundTrip ACAttribute.encode ACAttribute.decode ACAttribute.eqv (.make attId .string hello attName attExtra)
    moreBytes = true := by decide +kernel
example : roundTrip ACAttribute.encode ACAttribute.decode ACAttribute.eqv (.make attId .string hello none none) [] =
    true := by decide +kernel
example : roundTrip ACAttribute.encode ACAttribute.decode ACAttribute.eqv (.make attId .string hello none attExtra) [] =
    true := by decide +kernel
example : roundTrip ACAttribute.encode ACAttribute.decode ACAttribute.eqv (.make attId .string hello attName none) [] =
    true := by decide +kernel

/-! ### `TestACRevocationRules`, `hgaa/test/test_attcert.py:181-234` -/

def revUrl : Option Str := some txt!"http://myhgaatest/testing/revocation/rules?a=b&abc=123#test"
def someExtra : Option Bytes := some (bytesOf txt!"Some extra Bytes for the test 1234!@#$")
def revDefault : ACRevocation := .make clock clock
def revCustom : ACRevocation := .make clock clock (some (clock - 12345)) (some (clock + 12345)) revUrl someExtra

example : roundTrip ACRevocation.encode ACRevocation.decode ACRevocation.eqv revDefault moreBytes = true := by decide +kernel
example : roundTrip ACRevocation.encode ACRevocation.decode ACRevocation.eqv revCustom [] = true := by decide +kernel
example : roundTrip ACRevocation.encode ACRevocation.decode ACRevocation.eqv (.make clock clock none none revUrl none) [] =
    true := by decide +kernel
example : roundTrip ACRevocation.encode ACRevocation.decode ACRevocation.eqv (.make clock clock none none none someExtra) [] =
    true := by decide +kernel
example : roundTrip ACRevocation.encode ACRevocation.decode ACRevocation.eqv (.make clock clock none none none none) [] =
    true := by decide +kernel
example : revDefault = ⟨clock, clock + 86400, none, none⟩ := by decide +kernel
example : ACRevocation.make clock clock (some 1337) (some 121022472) revUrl someExtra = ⟨1337, 121022472, revUrl, someExtra⟩ := rfl

/-! ### `TestACDelegationRules`, `TestACExtensions`, `TestACSignature`, `hgaa/test/test_attcert.py:237-294` -/

example : roundTrip ACDelegation.encode ACDelegation.decode ACDelegation.eqv ⟨someExtra⟩ moreBytes = true := by decide +kernel
example : roundTrip ACDelegation.encode ACDelegation.decode ACDelegation.eqv ⟨none⟩ [] = true := by decide +kernel

def extId : Str := txt!"hgabac:ext:mytestext:someeid:sometest"

example : roundTrip ACExtension.encode ACExtension.decode ACExtension.eqv ⟨extId, someExtra⟩ moreBytes = true := by decide +kernel
example : roundTrip ACExtension.encode ACExtension.decode ACExtension.eqv ⟨extId, none⟩ [] = true := by decide +kernel

def signedData : Bytes :=
  toyCrypto.sha256 (bytesOf txt!"This is some test data that a signature will be taken of! 1234 23 asdf 3412r 5!@#$!@#$")

/-- `test_encode_decode_real`: the signature decoded still verifies. -/
example : ∃ sig, toyCrypto.sign pubKey signedData = .ok sig ∧
    roundTrip ACSignature.encode ACSignature.decode ACSignature.eqv ⟨some txt!"RSA[2048],SHA256", some sig⟩ moreBytes = true ∧
    toyCrypto.verify pubKey signedData sig = true := ⟨pubKey ++ signedData, by decide +kernel⟩
example : roundTrip ACSignature.encode ACSignature.decode ACSignature.eqv
    ⟨some txt!"This is my algo", some (bytesOf txt!"This are some bytes in my sig value.")⟩ [] = true := by decide +kernel

/-! ### The certificates of `TestAttributeCertificate`, `hgaa/test/test_attcert.py:297-487` -/

/-- `_make_basic_ac`, with the key and algorithm of the issuer. -/
def basicAC (key : Bytes) (algo : Str) : AttCert :=
  ⟨some ⟨some key, some algo, acUid, acName, acUrl⟩, holderNamed, infoDefault, some [], revDefault, none, none, none⟩

/-- `_make_full_ac` -/
def fullAC (key : Bytes) (algo : Str) : AttCert where
  issuer := some ⟨some key, some algo, txt!"uidwithoutanydots_-", some txt!"MyTestAC1234_-1234567890.", acUrl⟩
  holder := ⟨pubKey, keyAlgo, txt!"hgaatestingtestacholderwithoutanydotsandverylong1234567890_-",
    some txt!"MyTestAC1234_-1234567890."⟩
  info := infoCustom
  attSet := some [
    .make attId .string hello attName attExtra,
    .make txt!"hgabac:myint" .int (some txt!"5") (some txt!"mytestint")
      (some (bytesOf txt!"1234567890_-.~`@#$%^&*()+=abcdefghijklmnopqrstuvwxyz")),
    .make txt!"hgabac:attr:usr:localhost:testing:Another_Test_Att_With_A_Float" .float (some txt!"3.14")
      (some txt!"Another Test Att for a Float1234_-.") (some (bytesOf txt!"ABCDEFGHIJKLMNOPQRSTUVWXYZ{}|[]\\:\";'<>?,./")),
    .make txt!"hgabac:attr:usr:localhost:testing:my test bool" .bool (some txt!"TRUE") (some txt!"test_bool_att")
      (some [0, 1, 2, 3, 4, 5, 6, 7, 8, 9, 10]),
    .make txt!"nullatt" .null none (some txt!"null") (some [255, 240, 162, 99, 59]),
    .make txt!"nullattstr" .string (some []) (some txt!"nullstr") (some [255, 240, 162, 99, 59]),
    .make txt!"hgabac:attr:usr:localhost:testing:mytestsetatt" .set
      (some txt!"(0,1,2,3,4,5,6,7,8,9,10,11,12,13,14,15,16,17,18,19,20)") (some txt!"My Test Set Att") attExtra]
  revRules := revCustom
  delRules := some ⟨someExtra⟩
  extensions := some [⟨extId, someExtra⟩, ⟨txt!"hgabac:ext2", some [0, 1, 2, 3, 4, 5, 6, 7, 8, 9, 10]⟩,
    ⟨txt!"null byte ext1234567890+=_-.:", none⟩]

/-- `_make_full_ac_with_nones` -/
def nonesAC (key : Bytes) (algo : Str) : AttCert where
  issuer := some ⟨some key, some algo, acUid, none, none⟩
  holder := holderUnnamed
  info := infoDefault
  attSet := some [.make attId .string hello none none,
    .make txt!"hgabac:attr:usr:localhost:testing:mytestatt1" .string hello none attExtra,
    .make txt!"hgabac:attr:usr:localhost:testing:mytestatt2" .string hello attName none]
  revRules := .make clock clock
  delRules := some ⟨none⟩
  extensions := some [⟨extId, none⟩]

/-- `_make_full_ac_with_half_nones` -/
def halfNonesAC (key : Bytes) (algo : Str) : AttCert where
  issuer := some ⟨some key, some algo, acUid, none, acUrl⟩
  holder := holderUnnamed
  info := infoDefault
  attSet := some []
  revRules := .make clock clock none none none someExtra
  delRules := some ⟨none⟩
  extensions := some [⟨extId, none⟩]

def allACs (key : Bytes) (algo : Str) : List AttCert := [basicAC key algo, fullAC key algo, nonesAC key algo, halfNonesAC key algo]

/-! ### `test_encode_decode_body` and `test_full_encode_decode_no_sig`, `hgaa/test/test_attcert.py:497-516`, `:613-632` -/

example : (allACs pubKey keyAlgo).all (fun c =>
    match c.encodeBody with
    | .ok b => (match AttCert.decodeBody b with | .ok (c', _) => c.eqv c' == .ok true | .error _ => false)
    | .error _ => false) = true := by decide +kernel

example : (allACs pubKey keyAlgo).all (fun c =>
    match c.encode toyCrypto .no with
    | .ok (b, c1) => (match AttCert.decode toyCrypto b false with | .ok (c', _) => c1.eqv c' == .ok true | .error _ => false)
    | .error _ => false) = true := by decide +kernel

/-! ### `test_signing`, `hgaa/test/test_attcert.py:518-553` -/

/-- `key`, another one than in the certificates. -/
def signKey : Bytes := [11, 12, 13, 14]

def sigAlgo : Str := txt!"RSASSA-PKCS1-v1_5:SHA256"

def signedTest (c : AttCert) (change : AttCert → AttCert) : Except PyExc Bool := do
  (change (← c.sign toyCrypto signKey sigAlgo)).verifySignature toyCrypto

example : (allACs signKey keyAlgo).all (fun c =>
    match c.sign toyCrypto signKey sigAlgo with
    | .ok c => (match c.signature with | some g => g.algo == some sigAlgo | none => false) &&
        c.verifySignature toyCrypto == .ok true
    | .error _ => false) = true := by decide +kernel

/-! ### `test_bad_signature`, `hgaa/test/test_attcert.py:555-611` -/

example : signedTest (basicAC signKey keyAlgo) (fun c => { c with holder := { c.holder with uid := txt!"bad uid" } }) =
    .ok false := by decide +kernel
example : signedTest (fullAC signKey keyAlgo) (fun c => { c with
    attSet := c.attSet.map (fun l => l.modifyHead (fun a => { a with id := txt!"bad att_id" })) }) = .ok false := by decide +kernel
example : signedTest (nonesAC signKey keyAlgo) (fun c => { c with info := { c.info with version := 100 } }) =
    .ok false := by decide +kernel
example : signedTest (halfNonesAC signKey keyAlgo) (fun c => { c with
    signature := match (basicAC signKey keyAlgo).sign toyCrypto signKey sigAlgo with
      | .ok c1 => (match c1.signature with | some g => some ⟨some sigAlgo, g.value⟩ | none => none)
      | .error _ => none }) = .ok false := by decide +kernel
example : signedTest (fullAC signKey txt!"bad key algo") (fun c => { c with
    issuer := c.issuer.map (fun i => { i with uid := txt!"bad uid" }) }) = .ok false := by decide +kernel
example : (basicAC signKey keyAlgo).verifySignature toyCrypto = .ok false := by decide +kernel
example : signedTest (basicAC signKey keyAlgo) (fun c => { c with
    signature := c.signature.map (fun g => { g with algo := none }) }) = .ok false := by decide +kernel
example : signedTest (basicAC signKey keyAlgo) (fun c => { c with
    signature := c.signature.map (fun g => { g with value := none }) }) = .ok false := by decide +kernel

/-! ### `test_full_encode_decode_with_sig`, `hgaa/test/test_attcert.py:634-681` -/

example : (allACs signKey keyAlgo).all (fun c =>
    match c.encode toyCrypto (.yes (some signKey) sigAlgo) with
    | .ok (b, c1) =>
      (match AttCert.decode toyCrypto b true with
       | .ok (c', _) => c1.eqv c' == .ok true && c1.verifySignature toyCrypto == .ok true &&
          (match c1.signature with | some g => g.value != none && g.algo == some sigAlgo | none => false)
       | .error _ => false)
    | .error _ => false) = true := by decide +kernel

/-! ### `test_import_export`, `hgaa/test/test_attcert.py:706-769` -/

/-- Export and import in a format. -/
def exportImport (f : ExportFormat) (signed : Bool) : Bool :=
  match (fullAC signKey keyAlgo).exportAC toyCrypto (if signed then .yes (some signKey) sigAlgo else .no) f with
  | .error _ => false
  | .ok (d, c) =>
    (f == .text || match AttCert.importAC toyCrypto d f signed with
      | .ok (c', _) => c.eqv c' == .ok true && (!signed || c'.verifySignature toyCrypto == .ok true)
      | .error _ => false) && (!signed || c.verifySignature toyCrypto == .ok true)

example : exportImport .bytes false = true := by decide +kernel
example : exportImport .base64 false = true := by decide +kernel
example : exportImport .base64full false = true := by decide +kernel
example : exportImport .text false = true := by decide +kernel
example : exportImport .bytes true = true := by decide +kernel
example : exportImport .base64 true = true := by decide +kernel
example : exportImport .base64full true = true := by decide +kernel
example : exportImport .text true = true := by decide +kernel

end Verif.Tests
