import Verif.Model.Parser
import Verif.Model.Encoder
/-!
# The process-wide node counter (`ASTNode._last_id`, `hgpl/ast.py:119-127`)

Every `ASTNode` made in a process takes the next id, also if the call that makes it fails later, and also in `decode`, which then
overwrites the id (`hgpl/ast.py:450-451`). The definitions here are those of `Model/Parser` and `Model/Encoder` with the counter at the time
of the exception; `nextId` is `_last_id + 1`.
-/

namespace Verif

/-- An exception and the counter when it is raised. -/
abbrev Counted (α : Type) := Except (PyExc × Nat) α

/-- A part that makes no node before it fails. -/
def counted {α : Type} (k : Nat) : Except PyExc α → Counted α
  | .ok a => .ok a
  | .error e => .error (e, k)

/-- A node constructor, `hgpl/ast.py:124-139`: the id is taken before the result is set (127, 236-242). -/
def PState.mkNodeC (U : Uni) (s : PState) (k : Kind) (t : Token) (ch : List Node) : Counted (Node × PState) :=
  counted (s.nextId + 1) (s.mkNode U k t ch)

/-- `Parser._bool_var_rule`, `hgpl/parsing.py:76-81`. -/
def boolVarRuleC (U : Uni) (s : PState) : Counted (Node × PState) := do
  let c ← counted s.nextId s.cur
  if c.type = .bool then do
    let (t, s) ← counted s.nextId (s.eat .bool "bool_var"); s.mkNodeC U .boolVal t []
  else counted s.nextId (attNameRule U s)

/-- The `while` loop of `Parser._set_rule`, `hgpl/parsing.py:103-106`. -/
def setLoopC (U : Uni) : Nat → List Node → PState → Counted (List Node × PState)
  | 0, _, s => .error (.outOfFuel, s.nextId)
  | n + 1, acc, s => do
    let c ← counted s.nextId s.cur
    if c.type ≠ .rset then do
      let (_, s) ← counted s.nextId (s.eat .comma "set")
      let (node, s) ← counted s.nextId (atomicRule U s)
      setLoopC U n (acc ++ [node]) s
    else return (acc, s)

/-- `Parser._set_rule`, `hgpl/parsing.py:96-110`. -/
def setRuleC (U : Uni) (s : PState) : Counted (Node × PState) := do
  let (start, s) ← counted s.nextId (s.eat .lset "set")
  let c ← counted s.nextId s.cur
  let (nodes, s) ←
    if c.type ≠ .rset then do
      let (node, s) ← counted s.nextId (atomicRule U s)
      setLoopC U (s.toks.length + 1) [node] s
    else pure ([], s)
  let (_, s) ← counted s.nextId (s.eat .rset "set")
  s.mkNodeC U .set start nodes

/-- `Parser._const_rule`, `hgpl/parsing.py:112-117`. -/
def constRuleC (U : Uni) (s : PState) : Counted (Node × PState) := do
  let c ← counted s.nextId s.cur
  if c.isAtomic then counted s.nextId (atomicRule U s) else setRuleC U s

/-- `Parser._var_rule`, `hgpl/parsing.py:119-128`. -/
def varRuleC (U : Uni) (s : PState) : Counted (Node × PState) := do
  let c ← counted s.nextId s.cur
  if c.isAtt then counted s.nextId (attNameRule U s)
  else if c.isConst then constRuleC U s
  else .error (.parserError c.pos "var", s.nextId)

mutual
/-- `Parser._exp_rule`, `hgpl/parsing.py:130-160`. -/
def expRuleC (U : Uni) : Nat → PState → Counted (Node × PState)
  | 0, s => .error (.outOfFuel, s.nextId)
  | n + 1, s => do
    let c ← counted s.nextId s.cur
    if c.type = .notOp then do
      let (notTok, s) ← counted s.nextId (s.eat .notOp "exp")
      let c ← counted s.nextId s.cur
      if c.type = .lparn then do
        let (_, s) ← counted s.nextId (s.eat .lparn "exp")
        let (sub, s) ← policyRuleC U n s
        let (_, s) ← counted s.nextId (s.eat .rparn "exp")
        s.mkNodeC U .not notTok [sub]
      else do
        let (sub, s) ← boolVarRuleC U s
        s.mkNodeC U .not notTok [sub]
    else if c.type = .lparn then do
      let (_, s) ← counted s.nextId (s.eat .lparn "exp")
      let (node, s) ← policyRuleC U n s
      let (_, s) ← counted s.nextId (s.eat .rparn "exp")
      return (node, s)
    else do
      let isCmp ← counted s.nextId (isComparison s c)
      if isCmp then do
        let (left, s) ← varRuleC U s
        let (opTok, s) ← counted s.nextId (s.eat .op "exp")
        let (right, s) ← varRuleC U s
        s.mkNodeC U .op opTok [left, right]
      else if c.type = .bool ∨ c.isAtt = true then boolVarRuleC U s
      else .error (.parserError c.pos "exp", s.nextId)

/-- The loop of `Parser._term_rule`, `hgpl/parsing.py:165-166`. -/
def termLoopC (U : Uni) : Nat → Node → PState → Counted (Node × PState)
  | 0, _, s => .error (.outOfFuel, s.nextId)
  | n + 1, node, s => do
    let c ← counted s.nextId s.cur
    if c.type = .boolOp ∧ c.value = .str "AND".toList then do
      let (opTok, s) ← counted s.nextId (s.eat .boolOp "term")
      let (right, s) ← expRuleC U n s
      let (node, s) ← s.mkNodeC U .boolOp opTok [node, right]
      termLoopC U n node s
    else return (node, s)

/-- `Parser._term_rule`, `hgpl/parsing.py:162-168`. -/
def termRuleC (U : Uni) : Nat → PState → Counted (Node × PState)
  | 0, s => .error (.outOfFuel, s.nextId)
  | n + 1, s => do
    let (node, s) ← expRuleC U n s
    termLoopC U n node s

/-- The loop of `Parser._policy_rule`, `hgpl/parsing.py:189-190`. -/
def policyLoopC (U : Uni) : Nat → Node → PState → Counted (Node × PState)
  | 0, _, s => .error (.outOfFuel, s.nextId)
  | n + 1, node, s => do
    let c ← counted s.nextId s.cur
    if c.type = .boolOp ∧ c.value = .str "OR".toList then do
      let (opTok, s) ← counted s.nextId (s.eat .boolOp "policy")
      let (right, s) ← termRuleC U n s
      let (node, s) ← s.mkNodeC U .boolOp opTok [node, right]
      policyLoopC U n node s
    else return (node, s)

/-- `Parser._policy_rule`, `hgpl/parsing.py:170-192`. -/
def policyRuleC (U : Uni) : Nat → PState → Counted (Node × PState)
  | 0, s => .error (.outOfFuel, s.nextId)
  | n + 1, s => do
    let (node, s) ← termRuleC U n s
    policyLoopC U n node s
end

/-- `Parser.parse`, `hgpl/parsing.py:194-199`. -/
def PState.parseC (U : Uni) (s : PState) : Counted (Node × PState) := do
  let (_, s) ← counted s.nextId (s.eat .start "parse")
  let (node, s) ← policyRuleC U (3 * s.toks.length + 3) s
  let (_, s) ← counted s.nextId (s.eat .«end» "parse")
  return (node, s)

/-- `Parser(tokens).parse()`, `hgpl/parsing.py:7-21`. -/
def parseTokensC (U : Uni) (k : Nat) (toks : List Token) : Counted (Node × Nat) :=
  match toks with
  | [] => .error (.indexError, k)
  | _ => do
    let (n, s) ← (PState.mk toks k).parseC U
    return (n, s.nextId)

/-- `Parser(Lexer(text)).parse()`: tokens are made before nodes. -/
def parseTextC (U : Uni) (k : Nat) (text : Str) : Counted (Node × Nat) := do
  let toks ← counted k (lexTokens U text)
  parseTokensC U k toks

/-! ### Decoding -/

/-- One turn of the loop of `decode`, `hgpl/ast.py:413-453`: the node is made at 450, after all that can fail but the result of
a boolean (237). -/
def decodeRecC (U : Uni) (nan : PyFloat) (k : Nat) (bs : Bytes) : Counted ((Nat × GNode) × Bytes) := do
  let (id, r1) ← counted k (getU 2 bs)
  let (ntype, r2) ← counted k (getU 1 r1)
  let (ttype, r3) ← counted k (getU 1 r2)
  let (pos, r4) ← counted k (getU 2 r3)
  let (size, r5) ← counted k (getU 2 r4)
  let (num, r6) ← counted k (getU 2 r5)
  let (val, r7) ← counted k (decodeTval nan ttype size r6)
  let (cids, r8) ← counted k (decodeIds num r7)
  let ty ← counted k (TokenType.ofValue ttype)
  let kind ← counted k (Kind.ofValue ntype)
  let tok : Token := ⟨ty, pos, val⟩
  let res ← counted (k + 1) (initRes U kind tok)
  return ((id, ⟨kind, tok, res, cids⟩), r8)

/-- The loop over the records, `hgpl/ast.py:411-453`, and the counter after it. -/
def decodeRecsC (U : Uni) (nan : PyFloat) : Nat → Nat → Bytes → IdDict → Counted (IdDict × Nat)
  | 0, k, _, d => .ok (d, k)
  | n + 1, k, bs, d => do
    let ((i, x), r) ← decodeRecC U nan k bs
    decodeRecsC U nan n (k + 1) r (d.put i x)

/-- `ASTEncoder.decode`, `hgpl/ast.py:401-467`, and the counter after it. -/
def astDecodeC (U : Uni) (nan : PyFloat) (k : Nat) (bs : Bytes) (base64 : Bool := false) : Counted (Graph × Nat) := do
  let raw ← counted k (if base64 then b64decode bs else .ok bs)
  let (_, r1) ← counted k (getU 1 raw)
  let (num, r2) ← counted k (getU 2 r1)
  let (root, r3) ← counted k (getU 2 r2)
  let (d, k') ← decodeRecsC U nan num k r3 []
  if d.all (fun e => e.2.cids.all (fun c => (d.get c).isSome)) then
    if (d.get root).isSome then return (⟨d, root⟩, k') else .error (.exception "", k')
  else .error (.exception "", k')

/-! ### A process -/

/-- Calls that make nodes. -/
inductive NodeCall where
  /-- `Parser(Lexer(text)).parse()` -/
  | parse (text : Str)
  /-- `ASTEncoder.decode(bs, base64)` -/
  | decode (bs : Bytes) (base64 : Bool)
deriving DecidableEq, Repr

/-- The counter after an outcome. -/
def Counted.next {α : Type} : Counted (α × Nat) → Nat
  | .ok (_, k) => k
  | .error (_, k) => k

/-- The counter after a call. -/
def NodeCall.next (U : Uni) (nan : PyFloat) (k : Nat) : NodeCall → Nat
  | .parse text => (parseTextC U k text).next
  | .decode bs b => (astDecodeC U nan k bs b).next

/-- The counter after calls. -/
def counterAfter (U : Uni) (nan : PyFloat) : Nat → List NodeCall → Nat
  | k, [] => k
  | k, c :: cs => counterAfter U nan (c.next U nan k) cs

end Verif
