import Verif.Py.Float32
import Verif.Model.AST
/-!
# The binary format of ASTs, as a description of byte strings

Independent of how `ASTEncoder` walks them. A file is `version: 1 byte, number of records: 2, id of the root: 2`, then the
records; all numbers are little endian.
-/

namespace Verif.Spec
open Verif

/-- The fields of a record as stored. -/
structure Rec where
  id : Nat
  ntype : Nat
  ttype : Nat
  pos : Nat
  size : Nat
  val : Bytes
  cids : List Nat
deriving DecidableEq, Repr

/-- All numbers fit their fields. -/
structure Rec.Fits (r : Rec) : Prop where
  id : r.id < 65536
  ntype : r.ntype < 256
  ttype : r.ttype < 256
  pos : r.pos < 65536
  size : r.size < 65536
  num : r.cids.length < 65536
  cids : ∀ c ∈ r.cids, c < 65536

/-- The bytes of a record. -/
def Rec.bytes (r : Rec) : Bytes :=
  packLE 2 r.id ++ packLE 1 r.ntype ++ packLE 1 r.ttype ++ packLE 2 r.pos ++ packLE 2 r.size ++ packLE 2 r.cids.length ++
    r.val ++ r.cids.flatMap (packLE 2)

/-- The bytes of a file. -/
def fileBytes (version : Nat) (num root : Nat) (body : Bytes) : Bytes :=
  packLE 1 version ++ packLE 2 num ++ packLE 2 root ++ body

/-- Token types 13 (INT) and 14 (FLOAT) have values of four bytes. -/
def Rec.numeric (r : Rec) : Prop := r.ttype = 13 ∨ r.ttype = 14

/-- `Stored bs recs rest`: the bytes `bs` are the records `recs` followed by `rest`. A number at the very end of the
input may claim to be longer than its four bytes. -/
inductive Stored : Bytes → List Rec → Bytes → Prop
  | nil (rest : Bytes) : Stored rest [] rest
  | cons {r : Rec} {bs recs rest} : r.Fits → r.size = r.val.length → Stored bs recs rest →
      Stored (r.bytes ++ bs) (r :: recs) rest
  | cut {r : Rec} : r.Fits → r.numeric → r.val.length = 4 → 4 < r.size → r.cids = [] → Stored r.bytes [r] []

/-- The number of each token type. -/
def typeNumber : List (Nat × TokenType) :=
  [(1, .op), (2, .boolOp), (3, .notOp), (4, .usrAtt), (5, .objAtt), (6, .envAtt), (7, .admAtt), (8, .conAtt),
   (9, .unkAtt), (10, .unkId), (11, .null), (12, .bool), (13, .int), (14, .float), (15, .string), (16, .lset),
   (17, .rset), (18, .lparn), (19, .rparn), (20, .comma), (21, .start), (22, .«end»)]

/-- The number of each node class. -/
def kindNumber : List (Nat × Kind) :=
  [(0, .node), (11, .op), (12, .boolOp), (13, .not), (21, .boolVal), (30, .val), (31, .intVal), (32, .floatVal),
   (33, .stringVal), (35, .nullVal), (41, .set), (50, .att), (51, .usrAtt), (52, .objAtt), (53, .admAtt), (54, .conAtt),
   (55, .envAtt)]

/-- What the bytes of a value mean for a token of type `ty`: nothing is `None`; INT is two's complement, FLOAT is binary32,
and everything else UTF-8. -/
inductive ValMeans (nan : PyFloat) : TokenType → Bytes → TVal → Prop
  | none (ty : TokenType) : ValMeans nan ty [] .none
  | int {bs : Bytes} : bs.length = 4 → ValMeans nan .int bs (.int (unpackI32 bs))
  | float {bs : Bytes} : bs.length = 4 → ValMeans nan .float bs (.flt (unpackF32 nan bs))
  | str {ty : TokenType} {s : Str} : ty ≠ .int → ty ≠ .float → s ≠ [] → ValMeans nan ty (utf8 s) (.str s)

/-- What a record means: class, token. -/
structure Rec.Means (nan : PyFloat) (r : Rec) (k : Kind) (t : Token) : Prop where
  kind : (r.ntype, k) ∈ kindNumber
  type : (r.ttype, t.type) ∈ typeNumber
  pos : t.pos = (r.pos : Int)
  value : ValMeans nan t.type r.val t.value

/-- How values are stored. Strings keep as many *bytes* as they have *characters*. An INT or FLOAT token takes a number,
all others a text or nothing. -/
inductive ValStored (U : Uni) : TokenType → TVal → Bytes → Prop
  | none {ty : TokenType} : ty ≠ .int → ty ≠ .float → ValStored U ty .none []
  | str {ty : TokenType} (s : Str) : ty ≠ .int → ty ≠ .float → ValStored U ty (.str s) ((utf8 s).take s.length)
  | int {i : Int} {bs : Bytes} : -2 ^ 31 ≤ i → i < 2 ^ 31 → bs.length = 4 → unpackI32 bs = i →
      ValStored U .int (.int i) bs
  | float {f : PyFloat} {bs : Bytes} : packF32 f = .ok bs → ValStored U .float (.flt f) bs
  | floatInt {i : Int} {q : Rat} {bs : Bytes} : U.roundF i = .fin q → packF32 (.fin q) = .ok bs →
      ValStored U .float (.int i) bs

/-- The record of a node. -/
structure RecOf (U : Uni) (n : Node) (r : Rec) : Prop where
  id : r.id = n.id
  kind : (r.ntype, n.kind) ∈ kindNumber
  type : (r.ttype, n.tok.type) ∈ typeNumber
  pos : n.tok.pos = (r.pos : Int)
  value : ValStored U n.tok.type n.tok.value r.val
  size : r.size = r.val.length
  cids : r.cids = n.children.map Node.id

mutual
/-- The nodes of a tree, parents before children. -/
def preorder : Node → List Node
  | .mk k t i r cs => .mk k t i r cs :: preorderList cs
/-- The nodes of several trees. -/
def preorderList : List Node → List Node
  | [] => []
  | n :: ns => preorder n ++ preorderList ns
end

/-- The values that survive encoding and decoding: ints of 32 bits, binary32 numbers, non-empty ASCII strings, and `None`
where there is no number. -/
def Survives (t : Token) : Prop :=
  match t.type, t.value with
  | .int, .int i => -2 ^ 31 ≤ i ∧ i < 2 ^ 31
  | .int, _ => False
  | .float, .flt f => IsF32 f
  | .float, _ => False
  | _, .none => True
  | _, .str s => s ≠ [] ∧ s.all isAscii = true
  | _, _ => False

end Verif.Spec
