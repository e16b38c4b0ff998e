import Verif.Py.Bytes
/-!
# `struct` format `f`: IEEE 754 binary32

Python packs a `float` (binary64) by rounding to the nearest binary32 number, ties to even, and raises OverflowError if
that is infinite for a finite argument. NaN is not a `PyFloat` of the model: where decoding meets the bit pattern of a NaN
the result is a parameter.
-/

namespace Verif

/-- `2 ^ e` for an integer exponent. -/
def pow2 (e : Int) : Rat := if 0 ≤ e then ((2 ^ e.toNat : Nat) : Rat) else 1 / ((2 ^ (-e).toNat : Nat) : Rat)

/-- The largest `e` with `2 ^ e ≤ q`, for positive `q`. -/
def ilog2 (q : Rat) : Int :=
  let c : Int := (Nat.log2 q.num.natAbs : Int) - (Nat.log2 q.den : Int)
  if pow2 c ≤ q then c else c - 1

/-- The integer nearest to a non-negative number, the even one of two. -/
def roundHalfEven (q : Rat) : Nat :=
  let f := q.floor
  let d := q - f
  if d < 1 / 2 then f.toNat
  else if 1 / 2 < d then f.toNat + 1
  else if f.toNat % 2 = 0 then f.toNat else f.toNat + 1

/-- The 31 low bits for a positive number: exponents below -149 do not exist; a mantissa that rounds up to the next power
of two carries into the exponent. -/
def f32Bits (a : Rat) : Nat :=
  let e := max (ilog2 a - 23) (-149)
  (e + 149).toNat * 2 ^ 23 + roundHalfEven (a / pow2 e)

/-- `struct.pack('<f', x)`. -/
def packF32 : PyFloat → Except PyExc Bytes
  | .inf neg => .ok (packLE 4 ((if neg then 2 ^ 31 else 0) + 255 * 2 ^ 23))
  | .fin q =>
    if q = 0 then .ok (packLE 4 0)
    else
      let bits := f32Bits (if q < 0 then -q else q)
      if bits < 255 * 2 ^ 23 then .ok (packLE 4 ((if q < 0 then 2 ^ 31 else 0) + bits)) else .error .overflowError

/-- The value of the 31 low bits if the exponent is not 255. -/
def f32Value (r : Nat) : Rat :=
  if r < 2 ^ 23 then (r : Rat) * pow2 (-149)
  else ((2 ^ 23 + r % 2 ^ 23 : Nat) : Rat) * pow2 ((r / 2 ^ 23 : Nat) - 150)

/-- `struct.unpack('<f', bs)` of four bytes; `nan` stands for NaN. -/
def unpackF32 (nan : PyFloat) (bs : Bytes) : PyFloat :=
  let n := unpackLE bs
  let neg : Bool := 2 ^ 31 ≤ n
  let r := n % 2 ^ 31
  if r < 255 * 2 ^ 23 then .fin (if neg then -f32Value r else f32Value r)
  else if r = 255 * 2 ^ 23 then .inf neg
  else nan

/-- The numbers a binary32 can hold. -/
def IsF32 : PyFloat → Prop
  | .inf _ => True
  | .fin q => ∃ (neg : Bool) (r : Nat), r < 255 * 2 ^ 23 ∧ q = if neg then -f32Value r else f32Value r

example : packF32 (.fin (1 / 10)) = .ok [0xcd, 0xcc, 0xcc, 0x3d] := by decide +kernel
example : packF32 (.fin (-3 / 2)) = .ok [0, 0, 0xc0, 0xbf] := by decide +kernel
example : unpackF32 (.fin 0) [0, 0, 0xc0, 0xbf] = .fin (-3 / 2) := by decide +kernel
example : packF32 (.fin (2 ^ 128)) = .error .overflowError := by decide +kernel
example : packF32 (.fin (1 / 2 ^ 149)) = .ok [1, 0, 0, 0] := by decide +kernel

end Verif
