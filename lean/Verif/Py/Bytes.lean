import Verif.Py.Basic
/-!
# Bytes: `struct`, UTF-8 and base64

Python `bytes` and `bytearray` contents are lists of `UInt8`.
-/

namespace Verif

abbrev Bytes := List UInt8

/-- The `k` low bytes of a number, least significant first. -/
def packLE : Nat → Nat → Bytes
  | 0, _ => []
  | k + 1, n => UInt8.ofNat n :: packLE k (n / 256)

/-- The number with these bytes, least significant first. -/
def unpackLE : Bytes → Nat
  | [] => 0
  | b :: bs => b.toNat + 256 * unpackLE bs

/-- `struct.pack` of one unsigned field of `k` bytes (`B`, `H`, `I`, little endian): struct.error out of range. -/
def packU (k : Nat) (v : Int) : Except PyExc Bytes :=
  if 0 ≤ v ∧ v < (256 : Int) ^ k then .ok (packLE k v.toNat) else .error .structError

/-- `struct.pack('<i', v)`. -/
def packI32 (v : Int) : Except PyExc Bytes :=
  if -(2 ^ 31 : Int) ≤ v ∧ v < (2 ^ 31 : Int) then .ok (packLE 4 (v % (2 ^ 32 : Int)).toNat) else .error .structError

/-- `struct.unpack('<i', bs)` of four bytes. -/
def unpackI32 (bs : Bytes) : Int :=
  let n := unpackLE bs
  if n < 2 ^ 31 then n else (n : Int) - 2 ^ 32

/-- The first `k` bytes and the rest; `struct.unpack` fails on slices that are too short. -/
def takeBytes (k : Nat) (bs : Bytes) : Except PyExc (Bytes × Bytes) :=
  if k ≤ bs.length then .ok (bs.take k, bs.drop k) else .error .structError

/-- `struct.unpack` of one unsigned field at the beginning. -/
def getU (k : Nat) (bs : Bytes) : Except PyExc (Nat × Bytes) := do
  let (a, r) ← takeBytes k bs
  return (unpackLE a, r)

/-! ### UTF-8 -/

/-- UTF-8 of one character. -/
def utf8Char (c : Char) : Bytes :=
  let v := c.toNat
  if v < 0x80 then [UInt8.ofNat v]
  else if v < 0x800 then [UInt8.ofNat (0xC0 + v / 64), UInt8.ofNat (0x80 + v % 64)]
  else if v < 0x10000 then
    [UInt8.ofNat (0xE0 + v / 4096), UInt8.ofNat (0x80 + v / 64 % 64), UInt8.ofNat (0x80 + v % 64)]
  else [UInt8.ofNat (0xF0 + v / 262144), UInt8.ofNat (0x80 + v / 4096 % 64), UInt8.ofNat (0x80 + v / 64 % 64),
    UInt8.ofNat (0x80 + v % 64)]

/-- `bytes(s, 'utf-8')`. -/
def utf8 (s : Str) : Bytes := s.flatMap utf8Char

/-- The code point announced by the first bytes, valid or not. -/
def utf8Guess : Bytes → Nat
  | [] => 0
  | b :: bs =>
    let v := b.toNat
    let c := fun (i : Nat) => (bs[i]?.getD 0).toNat % 64
    if v < 0x80 then v
    else if v < 0xE0 then v % 32 * 64 + c 0
    else if v < 0xF0 then v % 16 * 4096 + c 0 * 64 + c 1
    else v % 8 * 262144 + c 0 * 4096 + c 1 * 64 + c 2

/-- Strict decoding of the first character: the bytes must be exactly the encoding of a character. -/
def utf8DecodeOne (bs : Bytes) : Option (Char × Bytes) :=
  let c := Char.ofNat (utf8Guess bs)
  if (utf8Char c).isPrefixOf bs then some (c, bs.drop (utf8Char c).length) else none

/-- `bs.decode('utf-8')` with enough fuel: UnicodeDecodeError for bytes that are no UTF-8. -/
def utf8DecodeAux : Nat → Bytes → Option Str
  | _, [] => some []
  | 0, _ :: _ => none
  | n + 1, b :: bs =>
    match utf8DecodeOne (b :: bs) with
    | none => none
    | some (c, r) => (utf8DecodeAux n r).map (c :: ·)

/-- `bs.decode('utf-8')`; every character takes a byte, so their number bounds the recursion. -/
def utf8Decode (bs : Bytes) : Except PyExc Str :=
  match utf8DecodeAux bs.length bs with
  | some s => .ok s
  | none => .error .unicodeError

/-! ### base64 -/

/-- The alphabet of base64. -/
def b64Alphabet : Str := "ABCDEFGHIJKLMNOPQRSTUVWXYZabcdefghijklmnopqrstuvwxyz0123456789+/".toList

/-- The byte for a 6 bit number. -/
def b64Digit (n : Nat) : UInt8 :=
  if n < 26 then UInt8.ofNat (65 + n) else if n < 52 then UInt8.ofNat (71 + n)
  else if n < 62 then UInt8.ofNat (n - 4) else if n = 62 then 43 else 47

/-- The 6 bit number of a byte, `none` outside the alphabet. -/
def b64Value (b : UInt8) : Option Nat :=
  let v := b.toNat
  if 65 ≤ v ∧ v ≤ 90 then some (v - 65) else if 97 ≤ v ∧ v ≤ 122 then some (v - 71)
  else if 48 ≤ v ∧ v ≤ 57 then some (v + 4) else if v = 43 then some 62 else if v = 47 then some 63 else none

/-- `base64.b64encode`. -/
def b64encode : Bytes → Bytes
  | [] => []
  | [a] => [b64Digit (a.toNat / 4), b64Digit (a.toNat % 4 * 16), 61, 61]
  | [a, b] =>
    [b64Digit (a.toNat / 4), b64Digit (a.toNat % 4 * 16 + b.toNat / 16), b64Digit (b.toNat % 16 * 4), 61]
  | a :: b :: c :: r =>
    b64Digit (a.toNat / 4) :: b64Digit (a.toNat % 4 * 16 + b.toNat / 16) ::
      b64Digit (b.toNat % 16 * 4 + c.toNat / 64) :: b64Digit (c.toNat % 64) :: b64encode r

/-- The loop of CPython's `binascii.a2b_base64` without strict mode: `quad` characters of the current group of four read,
`left` holds the bits left over, `pads` counts padding. Characters outside the alphabet are skipped, complete padding ends
the input, and an incomplete group is an error. -/
def b64Loop (quad left pads : Nat) : Bytes → Option Bytes
  | [] => if quad = 0 then some [] else none
  | b :: bs =>
    if b = 61 then
      if 2 ≤ quad then
        if 4 ≤ quad + (pads + 1) then some [] else b64Loop quad left (pads + 1) bs
      else b64Loop quad left pads bs
    else
      match b64Value b with
      | none => b64Loop quad left pads bs
      | some v =>
        match quad with
        | 0 => b64Loop 1 v 0 bs
        | 1 => (b64Loop 2 (v % 16) 0 bs).map (UInt8.ofNat (left * 4 + v / 16) :: ·)
        | 2 => (b64Loop 3 (v % 4) 0 bs).map (UInt8.ofNat (left * 16 + v / 4) :: ·)
        | _ => (b64Loop 0 0 0 bs).map (UInt8.ofNat (left * 64 + v) :: ·)

/-- `base64.b64decode`; `binascii.Error` is a ValueError. -/
def b64decode (bs : Bytes) : Except PyExc Bytes :=
  match b64Loop 0 0 0 bs with
  | some r => .ok r
  | none => .error .valueError

end Verif
