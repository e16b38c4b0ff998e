import Verif.Model.AST
import Verif.Model.Lexer
/-!
# The parser (`hgpl/parsing.py`)

State: `toks` is `_token_list[_pos:]` and `nextId` is `ASTNode._last_id + 1`, the id the next
node gets (`hgpl/ast.py:122,127`). Recursive descent is bounded by fuel; `Props/Parser.lean`
shows that the bound used by `parse` is never reached.
-/

namespace Verif

/-- Parser state, `hgpl/parsing.py:7-21`, with the global node counter of `hgpl/ast.py:122`. -/
structure PState where
  toks : List Token
  nextId : Nat
deriving DecidableEq, Repr

/-- `self._current_token.type` fails with AttributeError when `_current_token` is `None`. -/
def PState.cur (s : PState) : Except PyExc Token :=
  match s.toks with
  | t :: _ => .ok t
  | [] => .error .attributeError

/-- `Parser._peek()`, `hgpl/parsing.py:26-29`: the bound check uses `>` instead of `>=`, so peeking
at the last token raises IndexError. -/
def PState.peek (s : PState) : Except PyExc (Option Token) :=
  match s.toks with
  | [] => .ok none
  | [_] => .error .indexError
  | _ :: t :: _ => .ok (some t)

/-- `Parser._eat` (with `_advance`), `hgpl/parsing.py:31-47`. -/
def PState.eat (s : PState) (ty : TokenType) (rule : String) : Except PyExc (Token × PState) :=
  match s.toks with
  | [] => .error .attributeError
  | t :: ts =>
    if t.type = ty then .ok (t, { s with toks := ts })
    else .error (.parserError t.pos rule)

/-- Creating a node: constructor and global id, `hgpl/ast.py:124-139`. -/
def PState.mkNode (U : Uni) (s : PState) (k : Kind) (t : Token) (ch : List Node) :
    Except PyExc (Node × PState) := do
  let r ← initRes U k t
  return (.mk k t s.nextId r ch, { s with nextId := s.nextId + 1 })

/-- `Parser._is_att`, `hgpl/parsing.py:53-56`. -/
def Token.isAtt (t : Token) : Bool :=
  t.type ∈ [.usrAtt, .objAtt, .admAtt, .envAtt, .conAtt]

/-- `Parser._is_atomic`, `hgpl/parsing.py:58-60`. -/
def Token.isAtomic (t : Token) : Bool := t.type ∈ [.int, .float, .string, .null]

/-- `Parser._is_const`, `hgpl/parsing.py:49-51`. -/
def Token.isConst (t : Token) : Bool := t.isAtomic || t.type == .lset

/-- `Parser._att_name_rule`, `hgpl/parsing.py:62-74`. -/
def attNameRule (U : Uni) (s : PState) : Except PyExc (Node × PState) := do
  let c ← s.cur
  if c.type = .usrAtt then do
    let (t, s) ← s.eat .usrAtt "att_name"; s.mkNode U .usrAtt t []
  else if c.type = .objAtt then do
    let (t, s) ← s.eat .objAtt "att_name"; s.mkNode U .objAtt t []
  else if c.type = .admAtt then do
    let (t, s) ← s.eat .admAtt "att_name"; s.mkNode U .admAtt t []
  else if c.type = .envAtt then do
    let (t, s) ← s.eat .envAtt "att_name"; s.mkNode U .envAtt t []
  else do
    let (t, s) ← s.eat .conAtt "att_name"; s.mkNode U .conAtt t []

/-- `Parser._bool_var_rule`, `hgpl/parsing.py:76-81`. -/
def boolVarRule (U : Uni) (s : PState) : Except PyExc (Node × PState) := do
  let c ← s.cur
  if c.type = .bool then do
    let (t, s) ← s.eat .bool "bool_var"; s.mkNode U .boolVal t []
  else attNameRule U s

/-- `Parser._atomic_rule`, `hgpl/parsing.py:83-94`. -/
def atomicRule (U : Uni) (s : PState) : Except PyExc (Node × PState) := do
  let c ← s.cur
  if c.type = .int then do
    let (t, s) ← s.eat .int "atomic"; s.mkNode U .intVal t []
  else if c.type = .float then do
    let (t, s) ← s.eat .float "atomic"; s.mkNode U .floatVal t []
  else if c.type = .string then do
    let (t, s) ← s.eat .string "atomic"; s.mkNode U .stringVal t []
  else do
    let (t, s) ← s.eat .null "atomic"; s.mkNode U .nullVal t []

/-- The `while` loop of `Parser._set_rule`, `hgpl/parsing.py:103-106`. -/
def setLoop (U : Uni) : Nat → List Node → PState → Except PyExc (List Node × PState)
  | 0, _, _ => .error .outOfFuel
  | n + 1, acc, s => do
    let c ← s.cur
    if c.type ≠ .rset then do
      let (_, s) ← s.eat .comma "set"
      let (node, s) ← atomicRule U s
      setLoop U n (acc ++ [node]) s
    else return (acc, s)

/-- `Parser._set_rule`, `hgpl/parsing.py:96-110`; the loop consumes tokens, so their number bounds
it. -/
def setRule (U : Uni) (s : PState) : Except PyExc (Node × PState) := do
  let (start, s) ← s.eat .lset "set"
  let c ← s.cur
  let (nodes, s) ←
    if c.type ≠ .rset then do
      let (node, s) ← atomicRule U s
      setLoop U (s.toks.length + 1) [node] s
    else pure ([], s)
  let (_, s) ← s.eat .rset "set"
  s.mkNode U .set start nodes

/-- `Parser._const_rule`, `hgpl/parsing.py:112-117`. -/
def constRule (U : Uni) (s : PState) : Except PyExc (Node × PState) := do
  let c ← s.cur
  if c.isAtomic then atomicRule U s else setRule U s

/-- `Parser._var_rule`, `hgpl/parsing.py:119-128`. -/
def varRule (U : Uni) (s : PState) : Except PyExc (Node × PState) := do
  let c ← s.cur
  if c.isAtt then attNameRule U s
  else if c.isConst then constRule U s
  else .error (.parserError c.pos "var")

/-- The condition of the third branch of `Parser._exp_rule`, `hgpl/parsing.py:146-148`; `_peek`
is only called when the token is not LSET. -/
def isComparison (s : PState) (c : Token) : Except PyExc Bool :=
  if c.type = .lset then .ok true
  else do
    let p ← s.peek
    match p with
    | some t => return (t.type == .op && (c.isAtt || c.isConst))
    | none => return false

mutual
/-- `Parser._exp_rule`, `hgpl/parsing.py:130-160`. -/
def expRule (U : Uni) : Nat → PState → Except PyExc (Node × PState)
  | 0, _ => .error .outOfFuel
  | n + 1, s => do
    let c ← s.cur
    if c.type = .notOp then do
      let (notTok, s) ← s.eat .notOp "exp"
      let c ← s.cur
      if c.type = .lparn then do
        let (_, s) ← s.eat .lparn "exp"
        let (sub, s) ← policyRule U n s
        let (_, s) ← s.eat .rparn "exp"
        s.mkNode U .not notTok [sub]
      else do
        let (sub, s) ← boolVarRule U s
        s.mkNode U .not notTok [sub]
    else if c.type = .lparn then do
      let (_, s) ← s.eat .lparn "exp"
      let (node, s) ← policyRule U n s
      let (_, s) ← s.eat .rparn "exp"
      return (node, s)
    else do
      let isCmp ← isComparison s c
      if isCmp then do
        let (left, s) ← varRule U s
        let (opTok, s) ← s.eat .op "exp"
        let (right, s) ← varRule U s
        s.mkNode U .op opTok [left, right]
      else if c.type = .bool ∨ c.isAtt = true then boolVarRule U s
      else .error (.parserError c.pos "exp")

/-- The loop of `Parser._term_rule`, `hgpl/parsing.py:165-166`. -/
def termLoop (U : Uni) : Nat → Node → PState → Except PyExc (Node × PState)
  | 0, _, _ => .error .outOfFuel
  | n + 1, node, s => do
    let c ← s.cur
    if c.type = .boolOp ∧ c.value = .str "AND".toList then do
      let (opTok, s) ← s.eat .boolOp "term"
      let (right, s) ← expRule U n s
      let (node, s) ← s.mkNode U .boolOp opTok [node, right]
      termLoop U n node s
    else return (node, s)

/-- `Parser._term_rule`, `hgpl/parsing.py:162-168`. -/
def termRule (U : Uni) : Nat → PState → Except PyExc (Node × PState)
  | 0, _ => .error .outOfFuel
  | n + 1, s => do
    let (node, s) ← expRule U n s
    termLoop U n node s

/-- The loop of `Parser._policy_rule`, `hgpl/parsing.py:189-190`. -/
def policyLoop (U : Uni) : Nat → Node → PState → Except PyExc (Node × PState)
  | 0, _, _ => .error .outOfFuel
  | n + 1, node, s => do
    let c ← s.cur
    if c.type = .boolOp ∧ c.value = .str "OR".toList then do
      let (opTok, s) ← s.eat .boolOp "policy"
      let (right, s) ← termRule U n s
      let (node, s) ← s.mkNode U .boolOp opTok [node, right]
      policyLoop U n node s
    else return (node, s)

/-- `Parser._policy_rule`, `hgpl/parsing.py:170-192`. -/
def policyRule (U : Uni) : Nat → PState → Except PyExc (Node × PState)
  | 0, _ => .error .outOfFuel
  | n + 1, s => do
    let (node, s) ← termRule U n s
    policyLoop U n node s
end

/-- `Parser.parse`, `hgpl/parsing.py:194-199`. The state returned is the one a second call of
`parse` starts from. -/
def PState.parse (U : Uni) (s : PState) : Except PyExc (Node × PState) := do
  let (_, s) ← s.eat .start "parse"
  let (node, s) ← policyRule U (3 * s.toks.length + 3) s
  let (_, s) ← s.eat .«end» "parse"
  return (node, s)

/-- `Parser(tokens).parse()` with node ids from `k` on, `hgpl/parsing.py:7-21`; an empty token list
fails with IndexError in the constructor (21). -/
def parseTokens (U : Uni) (k : Nat) (toks : List Token) : Except PyExc (Node × Nat) :=
  match toks with
  | [] => .error .indexError
  | _ => do
    let (n, s) ← (PState.mk toks k).parse U
    return (n, s.nextId)

/-- `Parser(Lexer(text)).parse()`. -/
def parseText (U : Uni) (k : Nat) (text : Str) : Except PyExc (Node × Nat) := do
  let toks ← lexTokens U text
  parseTokens U k toks

end Verif
