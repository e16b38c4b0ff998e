import Verif.Model.TypeChecker
import Verif.Model.Encoder
/-!
# Recursion limits (`hgpl/parsing.py`, `hgpl/interpreting.py`, `hgpl/semantics.py`, `hgpl/ast.py`)

Python allows a bounded number of nested calls and raises RecursionError beyond it. The definitions here are those of the
other modules with a number of frames `d`: the calls of the recursive functions that may still be nested. Only the functions
that call themselves or each other again count: `_policy_rule`, `_term_rule` and `_exp_rule` of the parser, `_evaluate_node`,
`_scan_tree`, `_encode_node` and `ASTNode.__eq__`. The functions they call besides (`_eat`, `_var_rule`, constructors, the
operators) nest a fixed number of further calls and are not counted, nor are the frames of the caller; so `d` is the limit
of the interpreter up to a constant. The texts of the messages play no role.
-/

namespace Verif

/-- What a call under a recursion limit raises. -/
inductive Raised where
  | py (e : PyExc)
  | recursion
deriving DecidableEq, Repr

/-- The outcome of a part that does not recurse. -/
def liftR {α : Type} : Except PyExc α → Except Raised α
  | .ok a => .ok a
  | .error e => .error (.py e)

/-! ### The parser -/

mutual
/-- `Parser._exp_rule` with `d` frames, `hgpl/parsing.py:130-160`. -/
def expRuleD (U : Uni) : Nat → Nat → PState → Except Raised (Node × PState)
  | 0, _, _ => .error (.py .outOfFuel)
  | _ + 1, 0, _ => .error .recursion
  | n + 1, d + 1, s => do
    let c ← liftR s.cur
    if c.type = .notOp then do
      let (notTok, s) ← liftR (s.eat .notOp "exp")
      let c ← liftR s.cur
      if c.type = .lparn then do
        let (_, s) ← liftR (s.eat .lparn "exp")
        let (sub, s) ← policyRuleD U n d s
        let (_, s) ← liftR (s.eat .rparn "exp")
        liftR (s.mkNode U .not notTok [sub])
      else do
        let (sub, s) ← liftR (boolVarRule U s)
        liftR (s.mkNode U .not notTok [sub])
    else if c.type = .lparn then do
      let (_, s) ← liftR (s.eat .lparn "exp")
      let (node, s) ← policyRuleD U n d s
      let (_, s) ← liftR (s.eat .rparn "exp")
      return (node, s)
    else do
      let isCmp ← liftR (isComparison s c)
      if isCmp then do
        let (left, s) ← liftR (varRule U s)
        let (opTok, s) ← liftR (s.eat .op "exp")
        let (right, s) ← liftR (varRule U s)
        liftR (s.mkNode U .op opTok [left, right])
      else if c.type = .bool ∨ c.isAtt = true then liftR (boolVarRule U s)
      else .error (.py (.parserError c.pos "exp"))

/-- The loop of `Parser._term_rule`, `hgpl/parsing.py:165-166`; `d` frames below that of `_term_rule`. -/
def termLoopD (U : Uni) : Nat → Nat → Node → PState → Except Raised (Node × PState)
  | 0, _, _, _ => .error (.py .outOfFuel)
  | n + 1, d, node, s => do
    let c ← liftR s.cur
    if c.type = .boolOp ∧ c.value = .str "AND".toList then do
      let (opTok, s) ← liftR (s.eat .boolOp "term")
      let (right, s) ← expRuleD U n d s
      let (node, s) ← liftR (s.mkNode U .boolOp opTok [node, right])
      termLoopD U n d node s
    else return (node, s)

/-- `Parser._term_rule` with `d` frames, `hgpl/parsing.py:162-168`. -/
def termRuleD (U : Uni) : Nat → Nat → PState → Except Raised (Node × PState)
  | 0, _, _ => .error (.py .outOfFuel)
  | _ + 1, 0, _ => .error .recursion
  | n + 1, d + 1, s => do
    let (node, s) ← expRuleD U n d s
    termLoopD U n d node s

/-- The loop of `Parser._policy_rule`, `hgpl/parsing.py:189-190`; `d` frames below that of `_policy_rule`. -/
def policyLoopD (U : Uni) : Nat → Nat → Node → PState → Except Raised (Node × PState)
  | 0, _, _, _ => .error (.py .outOfFuel)
  | n + 1, d, node, s => do
    let c ← liftR s.cur
    if c.type = .boolOp ∧ c.value = .str "OR".toList then do
      let (opTok, s) ← liftR (s.eat .boolOp "policy")
      let (right, s) ← termRuleD U n d s
      let (node, s) ← liftR (s.mkNode U .boolOp opTok [node, right])
      policyLoopD U n d node s
    else return (node, s)

/-- `Parser._policy_rule` with `d` frames, `hgpl/parsing.py:170-192`. -/
def policyRuleD (U : Uni) : Nat → Nat → PState → Except Raised (Node × PState)
  | 0, _, _ => .error (.py .outOfFuel)
  | _ + 1, 0, _ => .error .recursion
  | n + 1, d + 1, s => do
    let (node, s) ← termRuleD U n d s
    policyLoopD U n d node s
end

/-- `Parser.parse` with `d` frames, `hgpl/parsing.py:194-199`. -/
def PState.parseD (U : Uni) (d : Nat) (s : PState) : Except Raised (Node × PState) := do
  let (_, s) ← liftR (s.eat .start "parse")
  let (node, s) ← policyRuleD U (3 * s.toks.length + 3) d s
  let (_, s) ← liftR (s.eat .«end» "parse")
  return (node, s)

/-- `Parser(tokens).parse()` with `d` frames, `hgpl/parsing.py:7-21`. -/
def parseTokensD (U : Uni) (d k : Nat) (toks : List Token) : Except Raised (Node × Nat) :=
  match toks with
  | [] => .error (.py .indexError)
  | _ => do
    let (n, s) ← (PState.mk toks k).parseD U d
    return (n, s.nextId)

/-- `Parser(Lexer(text)).parse()` with `d` frames; the lexer does not recurse. -/
def parseTextD (U : Uni) (d k : Nat) (text : Str) : Except Raised (Node × Nat) := do
  let toks ← liftR (lexTokens U text)
  parseTokensD U d k toks

/-! ### The interpreter -/

mutual
/-- `Interpreter._evaluate_node` with `d` frames, `hgpl/interpreting.py:258-274`. -/
def evalNodeD (U : Uni) (E : SymEnv) : Nat → Node → Node × List Warn × Option Raised
  | 0, n => (n, [], some .recursion)
  | d + 1, .mk k t i r cs =>
    match evalChildrenD U E d cs with
    | (cs', w, some e) => (.mk k t i r cs', w, some e)
    | (cs', w, none) =>
      match evalSelf U E k t r cs' with
      | (r', w', e) => (.mk k t i r' cs', w ++ w', e.map .py)
/-- The loop over the children, `hgpl/interpreting.py:259-261`; `d` frames below that of `_evaluate_node`. -/
def evalChildrenD (U : Uni) (E : SymEnv) : Nat → List Node → List Node × List Warn × Option Raised
  | _, [] => ([], [], none)
  | d, n :: ns =>
    if n.res.truthy then
      match evalChildrenD U E d ns with
      | (ns', w, e) => (n :: ns', w, e)
    else
      match evalNodeD U E d n with
      | (n', w, some e) => (n' :: ns, w, some e)
      | (n', w, none) =>
        match evalChildrenD U E d ns with
        | (ns', w', e) => (n' :: ns', w ++ w', e)
end

/-- `Interpreter.evaluate` with `d` frames, `hgpl/interpreting.py:279-291`. -/
def Interp.evaluateD (U : Uni) (E : SymEnv) (level : Option Int) (d : Nat) (s : Interp) :
    Interp × Except Raised Res :=
  match evalNodeD U E d s.ast with
  | (n, w, some e) => (⟨n, s.warnings ++ w⟩, .error e)
  | (n, w, none) =>
    match raiseWarnings level (s.warnings ++ w) with
    | some e => (⟨n, s.warnings ++ w⟩, .error (.py e))
    | none => (⟨n, s.warnings ++ w⟩, .ok n.res)

/-! ### The type checker -/

namespace TC

mutual
/-- `_scan_tree` with `d` frames, `hgpl/semantics.py:196-204`. -/
def scanD (U : Uni) : Nat → Node → TC → TC × Option Raised
  | 0, _, s => (s, some .recursion)
  | d + 1, .mk k t i r cs, s =>
    match scanListD U d cs s with
    | (s1, some e) => (s1, some e)
    | (s1, none) =>
      match s1.visit U (.mk k t i r cs) with
      | .ok s2 => (s2, none)
      | .error e => (s1, some (.py e))
/-- The loop of `_scan_tree`, `hgpl/semantics.py:197-199`; `d` frames below that of `_scan_tree`. -/
def scanListD (U : Uni) : Nat → List Node → TC → TC × Option Raised
  | _, [], s => (s, none)
  | d, n :: ns, s =>
    if skipped n then scanListD U d ns s
    else
      match scanD U d n s with
      | (s1, some e) => (s1, some e)
      | (s1, none) => scanListD U d ns s1
end

/-- `check` with `d` frames, `hgpl/semantics.py:231-240`. -/
def checkD (U : Uni) (level : Option Int) (d : Nat) (ast : Node) (s : TC) : TC × Except Raised (List Issue) :=
  match scanD U d ast s with
  | (s1, some e) => (s1, .error e)
  | (s1, none) =>
    let s2 := { s1 with checked := true }
    match raiseIssues level s2.issues with
    | some e => (s2, .error (.py e))
    | none => (s2, .ok s2.issues)

end TC

/-! ### The encoder and the comparison of trees -/

mutual
/-- `ASTEncoder._encode_node` with `d` frames, `hgpl/ast.py:332-388`. -/
def encodeNodeD (U : Uni) : Nat → Node → Except Raised (List Bytes)
  | 0, _ => .error .recursion
  | d + 1, .mk kind tok id _ cs => do
    let r ← liftR (encodeRec U kind tok id (cs.map Node.id))
    let rs ← encodeNodesD U d cs
    return r :: rs
/-- The loop over the children, `hgpl/ast.py:385-386`; `d` frames below that of `_encode_node`. -/
def encodeNodesD (U : Uni) : Nat → List Node → Except Raised (List Bytes)
  | _, [] => .ok []
  | d, c :: cs => do
    let a ← encodeNodeD U d c
    let b ← encodeNodesD U d cs
    return a ++ b
end

/-- `ASTEncoder.encode` with `d` frames, `hgpl/ast.py:390-399`. -/
def astEncodeD (U : Uni) (d : Nat) (n : Node) (base64 : Bool := false) : Except Raised Bytes := do
  let recs ← encodeNodeD U d n
  let h1 ← liftR (packU 1 1)
  let h2 ← liftR (packU 2 recs.length)
  let h3 ← liftR (packU 2 n.id)
  let enc := h1 ++ h2 ++ h3 ++ recs.flatten
  return if base64 then b64encode enc else enc

mutual
/-- `ASTNode.__eq__` with `d` frames, `hgpl/ast.py:211-220`; `none` is RecursionError. -/
def Node.eqD : Nat → Node → Node → Option Bool
  | 0, _, _ => none
  | d + 1, .mk _ t1 _ _ c1, .mk _ t2 _ _ c2 =>
    if t1.eq t2 && c1.length == c2.length then Node.eqListD d c1 c2 else some false
/-- The loop of `ASTNode.__eq__`, `hgpl/ast.py:213-217`; `d` frames below that of `__eq__`. -/
def Node.eqListD : Nat → List Node → List Node → Option Bool
  | d, n :: ns, m :: ms =>
    match Node.eqD d n m with
    | none => none
    | some true => Node.eqListD d ns ms
    | some false => some false
  | _, [], _ => some true
  | _, _ :: _, [] => some false
end

end Verif
