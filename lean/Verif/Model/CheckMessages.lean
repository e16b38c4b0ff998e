import Verif.Model.TypeChecker
import Verif.Model.Messages
/-!
# The messages of the type checker (`hgpl/semantics.py`)

The functions of `Model/TypeChecker.lean` again, with the messages of the issues in a list beside them. `Props/CheckMessages.lean`
shows that forgetting the messages gives back the functions of that model.
-/

namespace Verif

/-- A type checker with the messages of its issues. -/
structure TCM where
  tc : TC
  msgs : List Str := []

/-- The message of `hgpl/semantics.py:65-66`. -/
def msgAtts (l r : Str) : Str :=
  "Possible type error with attributes ".toList ++ l ++ " and ".toList ++ r ++
    ". Attributes compared with different types and each other".toList

/-- The message of `hgpl/semantics.py:87-88`. -/
def msgAttLit (n : Str) : Str :=
  "Possible type error with attribute ".toList ++ n ++ ". Attribute compared with different types.".toList

/-- `hgpl/semantics.py:108` -/
def msgNumString : Str := "Type Error, strings can not be compared using inequality operations.".toList
/-- `hgpl/semantics.py:111` -/
def msgNumNull : Str := "Type Error, NULL value can not be compared using inequality operations.".toList
/-- `hgpl/semantics.py:116` -/
def msgNumSet : Str := "Type Error, sets can not be compared using inequality operations.".toList
/-- `hgpl/semantics.py:132-133` -/
def msgEqNull : Str := "Type Error, NULL value can only be compared with other NULL values and attributes.".toList
/-- `hgpl/semantics.py:136-137` -/
def msgEqString : Str := "Type Error, string values can only be compared with other string values and attributes.".toList
/-- `hgpl/semantics.py:140-141` -/
def msgEqSet : Str := "Type Error, sets can only be compared with other sets and attributes.".toList
/-- `hgpl/semantics.py:152-153` -/
def msgInNull : Str := "Type Error, NULL value can only be used on the left hand side of IN operations.".toList
/-- `hgpl/semantics.py:155-156` -/
def msgInSet : Str := "Type Error, set values can only be used on the right hand side of IN operations.".toList
/-- `hgpl/semantics.py:158-159` -/
def msgInString : Str := "Type Error, string value can only be used on the left hand side of IN operations.".toList
/-- `hgpl/semantics.py:161-162` -/
def msgInInt : Str := "Type Error, int value can only be used on the left hand side of IN operations.".toList
/-- `hgpl/semantics.py:164-165` -/
def msgInFloat : Str := "Type Error, float value can only be used on the left hand side of IN operations.".toList
/-- `hgpl/semantics.py:177-178` -/
def msgSubset : Str := "Type Error, only sets and attributes can be compared using the SUBSET operation.".toList

namespace TCM

/-- `_type_error`, `hgpl/semantics.py:93-100`. -/
def typeError (s : TCM) (n : Node) (msg : Str) (check : String) (l r : Node) : TCM :=
  ⟨s.tc.typeError n check l r, s.msgs ++ [msg]⟩

/-- `_att_check`, `hgpl/semantics.py:41-91`. -/
def attCheck (U : Uni) (s : TCM) (n : Node) : Except PyExc TCM :=
  match n.left, n.right with
  | some l, some r =>
    if l.kind.isAtt && r.kind.isAtt then do
      let ln ← attToSymbolName l.kind l.tok
      let rn ← attToSymbolName r.kind r.tok
      match s.tc.tab.lookup U ln, s.tc.tab.lookup U rn with
      | some a, some b =>
        if (s.tc.heap a).type = .unknown ∧ (s.tc.heap a).type ≠ .unknown then do
          let (h, _) ← s.tc.tab.switchType U s.tc.heap (s.tc.heap a).name (s.tc.heap b).type
          return { s with tc := { s.tc with heap := h.write a { h a with type := (h b).type } } }
        else if (s.tc.heap b).type = .unknown ∧ (s.tc.heap b).type ≠ .unknown then do
          let (h, _) ← s.tc.tab.switchType U s.tc.heap (s.tc.heap b).name (s.tc.heap a).type
          return { s with tc := { s.tc with heap := h.write b { h b with type := (h a).type } } }
        else if (s.tc.heap a).type ≠ (s.tc.heap b).type ∧
            ((s.tc.heap a).type.isNum && (s.tc.heap b).type.isNum) = false then
          return s.typeError n (msgAtts (s.tc.heap a).name (s.tc.heap b).name) "att_check" l r
        else return s
      | _, _ => .error (.exception "")
    else do
      let (a, v) := if l.kind.isAtt then (l, r) else (r, l)
      let name ← attToSymbolName a.kind a.tok
      let vt := SymType.convertTokenType v.tok.type
      match s.tc.tab.lookup U name with
      | some x =>
        if (s.tc.heap x).type = .unknown then do
          let (h, _) ← s.tc.tab.switchType U s.tc.heap (s.tc.heap x).name vt
          return { s with tc := { s.tc with heap := h } }
        else if (s.tc.heap x).type ≠ vt ∧ ((s.tc.heap x).type.isNum && vt.isNum) = false then
          return s.typeError n (msgAttLit (s.tc.heap x).name) "att_check" l r
        else return s
      | none => .error (.exception "")
  | _, _ => .error (.exception "")

/-- `_num_check`, `hgpl/semantics.py:102-121`. -/
def numCheck (U : Uni) (s : TCM) (n : Node) : Except PyExc TCM :=
  match n.left, n.right with
  | some l, some r =>
    if l.kind = .stringVal ∨ r.kind = .stringVal then .ok (s.typeError n msgNumString "num_check" l r)
    else if l.kind = .nullVal ∨ r.kind = .nullVal then .ok (s.typeError n msgNumNull "num_check" l r)
    else if l.kind.isAtt || r.kind.isAtt then s.attCheck U n
    else if l.kind = .set ∨ r.kind = .set then .ok (s.typeError n msgNumSet "num_check" l r)
    else .ok s
  | _, _ => .error (.exception "")

/-- `_eq_check`, `hgpl/semantics.py:123-144`. -/
def eqCheck (U : Uni) (s : TCM) (n : Node) : Except PyExc TCM :=
  match n.left, n.right with
  | some l, some r =>
    if l.kind.isAtt || r.kind.isAtt then s.attCheck U n
    else if (l.kind = .nullVal ∧ r.kind ≠ .nullVal) ∨ (l.kind ≠ .nullVal ∧ r.kind = .nullVal) then
      .ok (s.typeError n msgEqNull "eq_check" l r)
    else if (l.kind = .stringVal ∧ r.kind ≠ .stringVal) ∨ (l.kind ≠ .stringVal ∧ r.kind = .stringVal) then
      .ok (s.typeError n msgEqString "eq_check" l r)
    else if (l.kind = .set ∧ r.kind ≠ .set) ∨ (l.kind ≠ .set ∧ r.kind = .set) then
      .ok (s.typeError n msgEqSet "eq_check" l r)
    else .ok s
  | _, _ => .error (.exception "")

/-- `_in_check`, `hgpl/semantics.py:146-168`. -/
def inCheck (s : TCM) (n : Node) : Except PyExc TCM :=
  match n.left, n.right with
  | some l, some r =>
    if r.kind = .nullVal then .ok (s.typeError n msgInNull "in_check" l r)
    else if l.kind = .set then .ok (s.typeError n msgInSet "in_check" l r)
    else if r.kind = .stringVal then .ok (s.typeError n msgInString "in_check" l r)
    else if r.kind = .intVal then .ok (s.typeError n msgInInt "in_check" l r)
    else if r.kind = .floatVal then .ok (s.typeError n msgInFloat "in_check" l r)
    else .ok s
  | _, _ => .error (.exception "")

/-- `_subset_check`, `hgpl/semantics.py:170-181`. -/
def subsetCheck (s : TCM) (n : Node) : Except PyExc TCM :=
  match n.left, n.right with
  | some l, some r =>
    if ((l.kind == .set || l.kind.isAtt) && (r.kind == .set || r.kind.isAtt)) = false then
      .ok (s.typeError n msgSubset "subset_check" l r)
    else .ok s
  | _, _ => .error (.exception "")

/-- `_op_node`, `hgpl/semantics.py:183-194`. -/
def opNode (U : Uni) (s : TCM) (n : Node) : Except PyExc TCM :=
  match n.tok.value with
  | .str v =>
    if v ∈ [">", "<", "<=", ">="].map String.toList then s.numCheck U n
    else if v ∈ ["=", "!="].map String.toList then s.eqCheck U n
    else if U.upper v = "IN".toList then s.inCheck n
    else if U.upper v = "SUBSET".toList then s.subsetCheck n
    else .error (.exception "")
  | _ => .error .attributeError

/-- The second half of `_scan_tree`, `hgpl/semantics.py:201-204`. -/
def visit (U : Uni) (s : TCM) (n : Node) : Except PyExc TCM :=
  if n.kind.isAtt then (s.tc.attNode U n.tok).map (⟨·, s.msgs⟩)
  else if n.kind = .op then s.opNode U n
  else .ok s

mutual
/-- `_scan_tree`, `hgpl/semantics.py:196-204`. -/
def scan (U : Uni) : Node → TCM → TCM × Option PyExc
  | .mk k t i r cs, s =>
    match scanList U cs s with
    | (s1, some e) => (s1, some e)
    | (s1, none) =>
      match s1.visit U (.mk k t i r cs) with
      | .ok s2 => (s2, none)
      | .error e => (s1, some e)
/-- The loop of `_scan_tree`, `hgpl/semantics.py:197-199`. -/
def scanList (U : Uni) : List Node → TCM → TCM × Option PyExc
  | [], s => (s, none)
  | n :: ns, s =>
    if TC.skipped n then scanList U ns s
    else
      match scan U n s with
      | (s1, some e) => (s1, some e)
      | (s1, none) => scanList U ns s1
end

end TCM

/-- `TypeCheckerError` and `TypeCheckerWarning` as raised: class, position, check and tokens, and the message,
`hgpl/errors.py:59-73`; or an exception of another class. -/
inductive CheckErr where
  | issue (i : Issue) (msg : Str)
  | other (e : PyExc)
deriving DecidableEq

/-- The exception without message and tokens. -/
def CheckErr.exc : CheckErr → PyExc
  | .issue i _ => i.exc
  | .other e => e

/-- The loop over the issues in `check`, `hgpl/semantics.py:236-238`. -/
def raiseIssuesM (level : Option Int) : List (Issue × Str) → Option CheckErr
  | [] => none
  | (i, m) :: is =>
    match level with
    | none => some (.other .typeError)
    | some l => if i.type ≥ l then some (.issue i m) else raiseIssuesM level is

/-- `check`, `hgpl/semantics.py:231-240`. -/
def TCM.check (U : Uni) (level : Option Int) (ast : Node) (s : TCM) : TCM × Except CheckErr (List Issue) :=
  match TCM.scan U ast s with
  | (s1, some e) => (s1, .error (.other e))
  | (s1, none) =>
    let s2 : TCM := { s1 with tc := { s1.tc with checked := true } }
    match raiseIssuesM level (s2.tc.issues.zip s2.msgs) with
    | some e => (s2, .error e)
    | none => (s2, .ok s2.tc.issues)

/-- What `hgaa/services/pauth.py:325-330` shows of a policy: `str(e)` of the exception, `none` if there is none. `builtin` is what
Python shows of exceptions of its own, and of `Exception()`. -/
def policyFault (U : Uni) (builtin : PyExc → Str) (h : Heap) (r k : Nat) (text : Str) : Option Str :=
  match parseTextM U k text with
  | .error e => some ((e.str U (some text)).getD (builtin e.exc))
  | .ok (n, _) =>
    match (TCM.check U (some 0) n ⟨{ heap := h, next := r }, []⟩).2 with
    | .ok _ => none
    | .error (.issue i m) => some (HGPLError.str ⟨m, some text, i.pos⟩)
    | .error (.other e) => some (builtin e)

end Verif
