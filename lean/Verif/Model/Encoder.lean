import Verif.Model.AST
import Verif.Py.Float32
/-!
# Binary encoding of ASTs (`ASTEncoder`, `hgpl/ast.py:327-467`)

Positions in the byte string are modelled by the bytes not yet read. Node objects made by `decode` refer to each other and
may form any graph; they are kept in a dictionary from ids to nodes, with the ids of the children in place of `_node_list`.
`decode` also advances the process-wide id counter by the number of nodes it makes (the ids are overwritten,
`hgpl/ast.py:451`): see `Verif.Model.NodeCount`. Not modelled: the `print` calls before the bare exception at 356-357.
-/

namespace Verif

/-- `node.ntype().value`, `hgpl/ast.py:98-117,162-163`. -/
def Kind.value : Kind → Nat
  | .node => 0 | .op => 11 | .boolOp => 12 | .not => 13 | .boolVal => 21 | .val => 30 | .intVal => 31 | .floatVal => 32
  | .stringVal => 33 | .nullVal => 35 | .set => 41 | .att => 50 | .usrAtt => 51 | .objAtt => 52 | .admAtt => 53
  | .conAtt => 54 | .envAtt => 55

/-- All node classes. -/
def Kind.all : List Kind :=
  [.node, .op, .boolOp, .not, .boolVal, .val, .intVal, .floatVal, .stringVal, .nullVal, .set, .att, .usrAtt, .objAtt,
   .admAtt, .conAtt, .envAtt]

/-- All token types. -/
def TokenType.all : List TokenType :=
  [.op, .boolOp, .notOp, .usrAtt, .objAtt, .envAtt, .admAtt, .conAtt, .unkAtt, .unkId, .null, .bool, .int, .float,
   .string, .lset, .rset, .lparn, .rparn, .comma, .start, .«end»]

/-- `TokenType(n)`. -/
def TokenType.ofValue (n : Nat) : Except PyExc TokenType :=
  match TokenType.all.find? (fun t => t.value == n) with
  | some t => .ok t
  | none => .error .valueError

/-- `ASTNodeType(n)`, the class of that name and the check that it takes a token (`hgpl/ast.py:448-450`): `ASTNullVal`
(34) takes no argument, `Unknown` (255) is no class. -/
def Kind.ofValue (n : Nat) : Except PyExc Kind :=
  match Kind.all.find? (fun k => k.value == n) with
  | some k => .ok k
  | none => if n = 34 then .error .typeError else if n = 255 then .error .attributeError else .error .valueError

/-! ### Encoding -/

/-- `tval_size`, `hgpl/ast.py:334-359`. -/
def tvalSize (t : Token) : Except PyExc Nat :=
  match t.type with
  | .int | .float => .ok 4
  | _ =>
    match t.value with
    | .none => .ok 0
    | .str s => .ok s.length
    | _ => .error (.exception "")

/-- `struct.pack` of the token value, `hgpl/ast.py:363-366`. Format `Ns` keeps the first `N` bytes. `f` takes ints as
well, after converting them to binary64. -/
def packTval (U : Uni) (t : Token) (size : Nat) : Except PyExc Bytes :=
  if 0 < size then
    match t.type, t.value with
    | .int, .int i => packI32 i
    | .int, _ => .error .structError
    | .float, .flt f => packF32 f
    | .float, .int i =>
      match U.roundF i with
      | .fin q => packF32 (.fin q)
      | .inf _ => .error .structError
    | .float, _ => .error .structError
    | _, .str s => .ok ((utf8 s).take size)
    | _, _ => .ok []
  else .ok []

/-- `struct.pack('<nH', *ids)`, `hgpl/ast.py:368-373`. -/
def packIds : List Nat → Except PyExc Bytes
  | [] => .ok []
  | i :: is => do
    let a ← packU 2 i
    let b ← packIds is
    return a ++ b

/-- One record, `hgpl/ast.py:334-375`. -/
def encodeRec (U : Uni) (kind : Kind) (tok : Token) (id : Nat) (cids : List Nat) : Except PyExc Bytes := do
  let size ← tvalSize tok
  let h1 ← packU 2 id
  let h2 ← packU 1 kind.value
  let h3 ← packU 1 tok.type.value
  let h4 ← packU 2 tok.pos
  let h5 ← packU 2 size
  let h6 ← packU 2 cids.length
  let v ← packTval U tok size
  let c ← packIds cids
  return h1 ++ h2 ++ h3 ++ h4 ++ h5 ++ h6 ++ v ++ c

mutual
/-- `ASTEncoder._encode_node`, `hgpl/ast.py:332-388`. -/
def encodeNode (U : Uni) : Node → Except PyExc (List Bytes)
  | .mk kind tok id _ cs => do
    let r ← encodeRec U kind tok id (cs.map Node.id)
    let rs ← encodeNodes U cs
    return r :: rs
/-- The loop over the children, `hgpl/ast.py:385-386`. -/
def encodeNodes (U : Uni) : List Node → Except PyExc (List Bytes)
  | [] => .ok []
  | c :: cs => do
    let a ← encodeNode U c
    let b ← encodeNodes U cs
    return a ++ b
end

/-- `ASTEncoder.encode`, `hgpl/ast.py:390-399`. -/
def astEncode (U : Uni) (n : Node) (base64 : Bool := false) : Except PyExc Bytes := do
  let recs ← encodeNode U n
  let h1 ← packU 1 1
  let h2 ← packU 2 recs.length
  let h3 ← packU 2 n.id
  let enc := h1 ++ h2 ++ h3 ++ recs.flatten
  return if base64 then b64encode enc else enc

/-! ### Decoding -/

/-- A decoded node: class, token, result and the ids of its children. -/
structure GNode where
  kind : Kind
  tok : Token
  res : Res
  cids : List Nat
deriving DecidableEq, Repr

/-- A Python dictionary from node ids to nodes, in the order of insertion. -/
abbrev IdDict := List (Nat × GNode)

/-- `nodes.get(i)` -/
def IdDict.get (d : IdDict) (i : Nat) : Option GNode := (List.find? (fun e => e.1 == i) d).map Prod.snd

/-- `nodes[i] = x` -/
def IdDict.put : IdDict → Nat → GNode → IdDict
  | [], i, x => [(i, x)]
  | e :: d, i, x => if e.1 == i then (i, x) :: d else e :: IdDict.put d i x

/-- The node objects `decode` leaves behind, and the id of the one it returns. -/
structure Graph where
  nodes : IdDict
  root : Nat
deriving DecidableEq, Repr

/-- The token value, `hgpl/ast.py:419-439`. The slice may be shorter than the size says at the end of the input. -/
def decodeTval (nan : PyFloat) (ttype size : Nat) (bs : Bytes) : Except PyExc (TVal × Bytes) :=
  if 0 < size then
    let slice := bs.take size
    let rest := bs.drop size
    if ttype = TokenType.int.value then
      if slice.length = 4 then .ok (.int (unpackI32 slice), rest) else .error .structError
    else if ttype = TokenType.float.value then
      if slice.length = 4 then .ok (.flt (unpackF32 nan slice), rest) else .error .structError
    else if slice.length = size then
      match utf8Decode slice with
      | .ok s => .ok (.str s, rest)
      | .error e => .error e
    else .error .structError
  else .ok (.none, bs)

/-- `struct.unpack('<nH', …)`, `hgpl/ast.py:441-445`. -/
def decodeIds : Nat → Bytes → Except PyExc (List Nat × Bytes)
  | 0, bs => .ok ([], bs)
  | n + 1, bs => do
    let (i, r) ← getU 2 bs
    let (is, r') ← decodeIds n r
    return (i :: is, r')

/-- One turn of the loop, `hgpl/ast.py:413-453`. -/
def decodeRec (U : Uni) (nan : PyFloat) (bs : Bytes) : Except PyExc ((Nat × GNode) × Bytes) := do
  let (id, r1) ← getU 2 bs
  let (ntype, r2) ← getU 1 r1
  let (ttype, r3) ← getU 1 r2
  let (pos, r4) ← getU 2 r3
  let (size, r5) ← getU 2 r4
  let (num, r6) ← getU 2 r5
  let (val, r7) ← decodeTval nan ttype size r6
  let (cids, r8) ← decodeIds num r7
  let ty ← TokenType.ofValue ttype
  let kind ← Kind.ofValue ntype
  let tok : Token := ⟨ty, pos, val⟩
  let res ← initRes U kind tok
  return ((id, ⟨kind, tok, res, cids⟩), r8)

/-- The loop over the records, `hgpl/ast.py:411-453`. -/
def decodeRecs (U : Uni) (nan : PyFloat) : Nat → Bytes → IdDict → Except PyExc IdDict
  | 0, _, d => .ok d
  | n + 1, bs, d => do
    let ((i, x), r) ← decodeRec U nan bs
    decodeRecs U nan n r (d.put i x)

/-- `ASTEncoder.decode` of plain bytes, `hgpl/ast.py:406-467`. -/
def astDecodeRaw (U : Uni) (nan : PyFloat) (bs : Bytes) : Except PyExc Graph := do
  let (_, r1) ← getU 1 bs
  let (num, r2) ← getU 2 r1
  let (root, r3) ← getU 2 r2
  let d ← decodeRecs U nan num r3 []
  if d.all (fun e => e.2.cids.all (fun c => (d.get c).isSome)) then
    if (d.get root).isSome then return ⟨d, root⟩ else .error (.exception "")
  else .error (.exception "")

/-- `ASTEncoder.decode`, `hgpl/ast.py:401-467`. -/
def astDecode (U : Uni) (nan : PyFloat) (bs : Bytes) (base64 : Bool := false) : Except PyExc Graph := do
  let raw ← if base64 then b64decode bs else .ok bs
  astDecodeRaw U nan raw

end Verif
