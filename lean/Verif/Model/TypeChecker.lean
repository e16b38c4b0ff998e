import Verif.Model.Interpreter
/-!
# The type checker (`hgpl/semantics.py`)

Symbol objects live in a heap, as for the interpreter. The texts of messages are dropped; the policy text kept for
`near` is modelled in `Model/Errors.lean`.
-/

namespace Verif

/-- `TypeCheckerError` and `TypeCheckerWarning` as recorded by `_type_error`, `hgpl/errors.py:59-73`. -/
structure Issue where
  warn : Bool
  pos : Int
  check : String
  tok : Token
  left : Token
  right : Token
deriving DecidableEq, Repr

/-- `ErrorType.ERROR`, `hgpl/errors.py:7`. -/
def levelERROR : Int := 3

/-- The field `type` of an issue: WARN for warnings, ERROR otherwise, `hgpl/errors.py:59-73`. -/
def Issue.type (i : Issue) : Int := if i.warn then levelWARN else levelERROR

/-- The exception an issue is. -/
def Issue.exc (i : Issue) : PyExc :=
  if i.warn then .typeCheckerWarning i.pos i.check else .typeCheckerError i.pos i.check

/-- `TypeCheckerResult`, `hgpl/semantics.py:10-15`. -/
inductive TCResult where
  | none | pass | warn | error
deriving DecidableEq, Repr

/-- The fields of `TypeChecker`, `hgpl/semantics.py:20-23`, with the heap and its next free reference. -/
structure TC where
  heap : Heap
  next : Nat
  tab : SymTab := {}
  issues : List Issue := []
  checked : Bool := false

namespace TC

/-- `_att_node`, `hgpl/semantics.py:37-39`; `Symbol` calls `.lower()` on the value of the token. -/
def attNode (U : Uni) (s : TC) (t : Token) : Except PyExc TC :=
  match t.value with
  | .str v =>
    let h := s.heap.write s.next (Symbol.new U v (some t.type) (some .unknown) (.sc .none))
    .ok { s with heap := h, next := s.next + 1, tab := (s.tab.define U h s.next).1 }
  | _ => .error .attributeError

/-- `_type_error`, `hgpl/semantics.py:93-100`. -/
def typeError (s : TC) (n : Node) (check : String) (l r : Node) : TC :=
  { s with issues := s.issues ++ [⟨check == "att_check", n.tok.pos, check, n.tok, l.tok, r.tok⟩] }

/-- `t in (SymbolType.INT, SymbolType.FLOAT)` -/
def _root_.Verif.SymType.isNum (t : SymType) : Bool := t == .int || t == .float

/-- `_att_check`, `hgpl/semantics.py:41-91`. The conditions of the first two branches for two attributes contradict
themselves, as in the code (55, 58). -/
def attCheck (U : Uni) (s : TC) (n : Node) : Except PyExc TC :=
  match n.left, n.right with
  | some l, some r =>
    if l.kind.isAtt && r.kind.isAtt then do
      let ln ← attToSymbolName l.kind l.tok
      let rn ← attToSymbolName r.kind r.tok
      match s.tab.lookup U ln, s.tab.lookup U rn with
      | some a, some b =>
        if (s.heap a).type = .unknown ∧ (s.heap a).type ≠ .unknown then do
          let (h, _) ← s.tab.switchType U s.heap (s.heap a).name (s.heap b).type
          return { s with heap := h.write a { h a with type := (h b).type } }
        else if (s.heap b).type = .unknown ∧ (s.heap b).type ≠ .unknown then do
          let (h, _) ← s.tab.switchType U s.heap (s.heap b).name (s.heap a).type
          return { s with heap := h.write b { h b with type := (h a).type } }
        else if (s.heap a).type ≠ (s.heap b).type ∧
            ((s.heap a).type.isNum && (s.heap b).type.isNum) = false then
          return s.typeError n "att_check" l r
        else return s
      | _, _ => .error (.exception "")
    else do
      let (a, v) := if l.kind.isAtt then (l, r) else (r, l)
      let name ← attToSymbolName a.kind a.tok
      let vt := SymType.convertTokenType v.tok.type
      match s.tab.lookup U name with
      | some x =>
        if (s.heap x).type = .unknown then do
          let (h, _) ← s.tab.switchType U s.heap (s.heap x).name vt
          return { s with heap := h }
        else if (s.heap x).type ≠ vt ∧ ((s.heap x).type.isNum && vt.isNum) = false then
          return s.typeError n "att_check" l r
        else return s
      | none => .error (.exception "")
  | _, _ => .error (.exception "")

/-- `_num_check`, `hgpl/semantics.py:102-121`. -/
def numCheck (U : Uni) (s : TC) (n : Node) : Except PyExc TC :=
  match n.left, n.right with
  | some l, some r =>
    if l.kind = .stringVal ∨ r.kind = .stringVal then .ok (s.typeError n "num_check" l r)
    else if l.kind = .nullVal ∨ r.kind = .nullVal then .ok (s.typeError n "num_check" l r)
    else if l.kind.isAtt || r.kind.isAtt then s.attCheck U n
    else if l.kind = .set ∨ r.kind = .set then .ok (s.typeError n "num_check" l r)
    else .ok s
  | _, _ => .error (.exception "")

/-- `_eq_check`, `hgpl/semantics.py:123-144`. -/
def eqCheck (U : Uni) (s : TC) (n : Node) : Except PyExc TC :=
  match n.left, n.right with
  | some l, some r =>
    if l.kind.isAtt || r.kind.isAtt then s.attCheck U n
    else if (l.kind = .nullVal ∧ r.kind ≠ .nullVal) ∨ (l.kind ≠ .nullVal ∧ r.kind = .nullVal) then
      .ok (s.typeError n "eq_check" l r)
    else if (l.kind = .stringVal ∧ r.kind ≠ .stringVal) ∨ (l.kind ≠ .stringVal ∧ r.kind = .stringVal) then
      .ok (s.typeError n "eq_check" l r)
    else if (l.kind = .set ∧ r.kind ≠ .set) ∨ (l.kind ≠ .set ∧ r.kind = .set) then
      .ok (s.typeError n "eq_check" l r)
    else .ok s
  | _, _ => .error (.exception "")

/-- `_in_check`, `hgpl/semantics.py:146-168`. -/
def inCheck (s : TC) (n : Node) : Except PyExc TC :=
  match n.left, n.right with
  | some l, some r =>
    if r.kind = .nullVal then .ok (s.typeError n "in_check" l r)
    else if l.kind = .set then .ok (s.typeError n "in_check" l r)
    else if r.kind = .stringVal then .ok (s.typeError n "in_check" l r)
    else if r.kind = .intVal then .ok (s.typeError n "in_check" l r)
    else if r.kind = .floatVal then .ok (s.typeError n "in_check" l r)
    else .ok s
  | _, _ => .error (.exception "")

/-- `_subset_check`, `hgpl/semantics.py:170-181`. -/
def subsetCheck (s : TC) (n : Node) : Except PyExc TC :=
  match n.left, n.right with
  | some l, some r =>
    if ((l.kind == .set || l.kind.isAtt) && (r.kind == .set || r.kind.isAtt)) = false then
      .ok (s.typeError n "subset_check" l r)
    else .ok s
  | _, _ => .error (.exception "")

/-- `_op_node`, `hgpl/semantics.py:183-194`; `.upper()` fails on a value that is no string. -/
def opNode (U : Uni) (s : TC) (n : Node) : Except PyExc TC :=
  match n.tok.value with
  | .str v =>
    if v ∈ [">", "<", "<=", ">="].map String.toList then s.numCheck U n
    else if v ∈ ["=", "!="].map String.toList then s.eqCheck U n
    else if U.upper v = "IN".toList then s.inCheck n
    else if U.upper v = "SUBSET".toList then s.subsetCheck n
    else .error (.exception "")
  | _ => .error .attributeError

/-- The nodes `_scan_tree` does not descend into, `hgpl/semantics.py:198`. -/
def skipped (n : Node) : Bool := n.kind == .set || n.kind.isVal || n.kind == .boolVal

/-- The second half of `_scan_tree`, `hgpl/semantics.py:201-204`. -/
def visit (U : Uni) (s : TC) (n : Node) : Except PyExc TC :=
  if n.kind.isAtt then s.attNode U n.tok
  else if n.kind = .op then s.opNode U n
  else .ok s

mutual
/-- `_scan_tree`, `hgpl/semantics.py:196-204`. The issues recorded before an exception stay. -/
def scan (U : Uni) : Node → TC → TC × Option PyExc
  | .mk k t i r cs, s =>
    match scanList U cs s with
    | (s1, some e) => (s1, some e)
    | (s1, none) =>
      match s1.visit U (.mk k t i r cs) with
      | .ok s2 => (s2, none)
      | .error e => (s1, some e)
/-- The loop of `_scan_tree`, `hgpl/semantics.py:197-199`. -/
def scanList (U : Uni) : List Node → TC → TC × Option PyExc
  | [], s => (s, none)
  | n :: ns, s =>
    if skipped n then scanList U ns s
    else
      match scan U n s with
      | (s1, some e) => (s1, some e)
      | (s1, none) => scanList U ns s1
end

/-- `get_errors`, `hgpl/semantics.py:206-208`. -/
def getErrors (s : TC) : List Issue := s.issues.filter (fun x => x.type == levelERROR)

/-- `get_warnings`, `hgpl/semantics.py:210-212`. -/
def getWarnings (s : TC) : List Issue := s.issues.filter (fun x => x.type == levelWARN)

/-- `get_result`, `hgpl/semantics.py:214-222`. -/
def getResult (s : TC) : TCResult :=
  if s.checked = false then .none
  else if s.issues.length = 0 then .pass
  else if s.issues.any (fun x => x.type == levelERROR) then .error
  else .warn

/-- The loop over the issues in `check`, `hgpl/semantics.py:236-238`; comparing with `None` raises TypeError. -/
def raiseIssues (level : Option Int) : List Issue → Option PyExc
  | [] => none
  | i :: is =>
    match level with
    | none => some .typeError
    | some m => if i.type ≥ m then some i.exc else raiseIssues level is

/-- `check`, `hgpl/semantics.py:231-240`. -/
def check (U : Uni) (level : Option Int) (ast : Node) (s : TC) : TC × Except PyExc (List Issue) :=
  match scan U ast s with
  | (s1, some e) => (s1, .error e)
  | (s1, none) =>
    let s2 := { s1 with checked := true }
    match raiseIssues level s2.issues with
    | some e => (s2, .error e)
    | none => (s2, .ok s2.issues)

end TC

/-- `TypeChecker(Parser(Lexer(text))).check(level)`, `hgpl/semantics.py:20-29`: node ids from `k` on, symbol objects from
`r` on; the outer exceptions are those of the constructors. -/
def checkText (U : Uni) (h : Heap) (r k : Nat) (level : Option Int) (text : Str) :
    Except PyExc (TC × Except PyExc (List Issue)) := do
  let (n, _) ← parseText U k text
  return TC.check U level n { heap := h, next := r }

end Verif
