import Verif.Model.NodeCount
/-!
# How many nodes a call can make
-/

namespace Verif.Spec
open Verif

/-- The number of records an encoding announces, low byte first. -/
def recordCount : Bytes → Nat
  | _ :: a :: b :: _ => a.toNat + 256 * b.toNat
  | _ => 0

/-- The bytes of an encoding. -/
def rawOf (bs : Bytes) : Bool → Option Bytes
  | false => some bs
  | true => match b64decode bs with | .ok raw => some raw | .error _ => none

/-- A bound on the nodes a call can make: one for each character of a text, one for each ten bytes of an encoding. -/
def nodeBound : NodeCall → Nat
  | .parse text => text.length
  | .decode bs base64 => match rawOf bs base64 with | some raw => raw.length / 10 | none => 0

/-- The number of ids the encoding has room for. -/
def idRoom : Nat := 65536

end Verif.Spec
