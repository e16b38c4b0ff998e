import Verif.Model.Symbols
import Verif.Model.Parser
/-!
# The interpreter (`hgpl/interpreting.py`)

Evaluation writes `node.result` in place and appends to `_warnings`, and both survive an exception,
so every function returns the new state together with an optional exception. The symbol table is read only;
`SymEnv` is the table and the heap of symbol objects.
-/

namespace Verif

/-- A recorded `InterpreterWarning`, `hgpl/interpreting.py:21-31`; its `type` is always WARN
(`hgpl/errors.py:83-86`). Message and operands are dropped. -/
structure Warn where
  pos : Int
  rule : String
deriving DecidableEq, Repr

/-- The symbol table an evaluation reads, with the objects its entries refer to. -/
structure SymEnv where
  tab : SymTab
  heap : Heap

/-- Python truthiness of `node.result`, used in `if not n.result` (`hgpl/interpreting.py:260`) and
`if n.result and …` (252). `ASTResult.__bool__`: `hgpl/ast.py:81-82`; symbols and `ASTNullVal` have no
`__bool__` and are truthy. -/
def Res.truthy : Res → Bool
  | .none => false
  | .tri t => t.truth
  | .atom (.int i) => decide (i ≠ 0)
  | .atom (.flt f) => decide (f ≠ .fin 0)
  | .atom (.str s) => decide (s ≠ [])
  | .atom .null => true
  | .list l => decide (l ≠ [])
  | .sym _ => true

/-- `Interpreter._evaluate_att_node`, `hgpl/interpreting.py:45-65`. -/
def evalAtt (U : Uni) (E : SymEnv) (k : Kind) (t : Token) (r : Res) :
    Res × List Warn × Option PyExc :=
  match attToSymbolName k t with
  | .error e => (r, [], some e)
  | .ok name =>
    match E.tab.lookup U name with
    | some ref =>
      let s := E.heap ref
      let w : Warn := ⟨t.pos, "evaluate_att_node"⟩
      let w1 : List Warn := if s.value = .sc .none then [w] else []
      if s.checkValType = false then (.tri .undef, w1 ++ [w], none)
      else if s.type = .bool then
        match s.value with
        | .sc (.tri b) => (.tri b, w1, none)
        | _ => (r, w1, some .typeError) -- unreachable: `checkValType` holds
      else (.sym ref, w1, none)
    | none => (.tri .undef, [⟨t.pos, "evaluate_att_node"⟩], none)

/-- `Interpreter._evaluate_not_node`, `hgpl/interpreting.py:67-72`. -/
def evalNot (t : Token) (r : Res) (cs : List Node) : Res × List Warn × Option PyExc :=
  match cs[0]?.map Node.res with
  | some (.tri v) => (.tri v.not, [], none)
  | _ => (r, [], some (.interpreterError t.pos "evaluate_not_node"))

/-- `Interpreter._evaluate_bool_op_node`, `hgpl/interpreting.py:74-87`; `.upper()` of a token value that
is no string raises AttributeError. -/
def evalBoolOp (U : Uni) (t : Token) (r : Res) (cs : List Node) : Res × List Warn × Option PyExc :=
  match cs[0]?.map Node.res, cs[1]?.map Node.res with
  | some (.tri a), some (.tri b) =>
    match t.value with
    | .str s =>
      if U.upper s = "AND".toList then (.tri (a.and b), [], none)
      else if U.upper s = "OR".toList then (.tri (a.or b), [], none)
      else (r, [], some (.interpreterError t.pos "evaluate_bool_op_node"))
    | _ => (r, [], some .attributeError)
  | _, _ => (r, [], some (.interpreterError t.pos "evaluate_bool_op_node"))

/-- An operand that is not a symbol, as a Python value. -/
def Res.plain : Res → PyVal
  | .none => .sc .none
  | .tri t => .sc (.tri t)
  | .atom a => .sc (.atom a)
  | .list l => .list (l.map Scalar.atom)
  | .sym _ => .sc .none

/-- `isinstance(other_val, (set, list)) or isinstance(other_val, Symbol)`, `hgpl/interpreting.py:94`, for a
node result. -/
def Res.isColl : Res → Bool
  | .list _ | .sym _ => true
  | _ => false

/-- `Interpreter._symbol_to_val`, `hgpl/interpreting.py:89-100`; `wrap` is mode 0. -/
def symbolToVal (v : PyVal) (other : Res) (wrap : Bool) : Except PyExc PyVal :=
  match v with
  | .set l => .ok (.set l)
  | .list l => (mkSet l).map .set
  | .sc x =>
    if other.isColl then
      if wrap then (mkSet [x]).map .set else .ok (.sc x)
    else .ok (.sc x)

/-- `if isinstance(x, Symbol): x = self._symbol_to_val(x, other, mode)`. -/
def operand (E : SymEnv) (x other : Res) (wrap : Bool) : Except PyExc PyVal :=
  match x with
  | .sym ref => symbolToVal (E.heap ref).value other wrap
  | x => .ok x.plain

/-- `if isinstance(x, Symbol): x = x.value`, `hgpl/interpreting.py:126-130`. -/
def rawOperand (E : SymEnv) (x : Res) : PyVal :=
  match x with
  | .sym ref => (E.heap ref).value
  | x => x.plain

/-- Result of a comparison: the value and the warnings recorded. Warnings about operators carry position -1,
because no node is passed (`hgpl/interpreting.py:118-119`, 28-29). -/
abbrev OpOut := Except PyExc (Tri × List Warn)

/-- UNDEF with the warning of a rule. -/
def undefOp (rule : String) : OpOut := .ok (.undef, [⟨-1, rule⟩])

/-- `Interpreter._eq_op`, `hgpl/interpreting.py:102-120`. -/
def eqOp (E : SymEnv) (l r : Res) : OpOut := do
  let a ← operand E l r true
  let b ← operand E r l true
  match a, b with
  | .sc x, .sc y =>
    match x.num, y.num with
    | some m, some n => return (Tri.fromBool (decide (m = n)), [])
    | _, _ =>
      match x, y with
      | .atom (.str s), .atom (.str t) => return (Tri.fromBool (decide (s = t)), [])
      | .atom .null, .atom .null => return (.true, [])
      | _, _ => undefOp "eq_op"
  | .set x, .set y => return (Tri.fromBool (setEqL x y), [])
  | .list x, .list y => do
    let x' ← mkSet x
    let y' ← mkSet y
    return (Tri.fromBool (setEqL x' y'), [])
  | _, _ => undefOp "eq_op"

/-- `Interpreter._neq_op`, `hgpl/interpreting.py:122-123`. -/
def neqOp (E : SymEnv) (l r : Res) : OpOut := do
  let (v, w) ← eqOp E l r
  return (v.not, w)

/-- The common shape of the inequality operators, `hgpl/interpreting.py:125-175`. -/
def numOp (rule : String) (cmp : PyFloat → PyFloat → Bool) (E : SymEnv) (l r : Res) : OpOut :=
  match rawOperand E l, rawOperand E r with
  | .sc x, .sc y =>
    match x.num, y.num with
    | some m, some n => .ok (Tri.fromBool (cmp m n), [])
    | _, _ => undefOp rule
  | _, _ => undefOp rule

/-- `Interpreter._gt_op`, `hgpl/interpreting.py:125-136` (the rule is spelled `qt_op` there). -/
def gtOp : SymEnv → Res → Res → OpOut := numOp "qt_op" (fun m n => n.lt m)
/-- `Interpreter._lt_op`, `hgpl/interpreting.py:138-149`. -/
def ltOp : SymEnv → Res → Res → OpOut := numOp "lt_op" (fun m n => m.lt n)
/-- `Interpreter._gte_op`, `hgpl/interpreting.py:151-162`. -/
def gteOp : SymEnv → Res → Res → OpOut := numOp "gte_op" (fun m n => n.le m)
/-- `Interpreter._lte_op`, `hgpl/interpreting.py:164-175`. -/
def lteOp : SymEnv → Res → Res → OpOut := numOp "lte_op" (fun m n => m.le n)

/-- `any(x in l for x in r)` for a set `l`, `hgpl/interpreting.py:191`: stops at the first hit. -/
def anyInSet (l : List Scalar) : List Scalar → Except PyExc Bool
  | [] => .ok false
  | x :: xs => do
    let b ← x.memS l
    if b then return true else anyInSet l xs

/-- `isinstance(x, (int, float, str))`. -/
def Scalar.isNumStr (x : Scalar) : Bool :=
  x.num.isSome || (match x with | .atom (.str _) => true | _ => false)

/-- `Interpreter._in_op`, `hgpl/interpreting.py:177-194`. -/
def inOp (E : SymEnv) (l r : Res) : OpOut := do
  let a ← operand E l r false
  let b ← operand E r l true
  match b with
  | .set ys =>
    match a with
    | .sc x =>
      if x.isNumStr then return (Tri.fromBool (x.memL ys), [])
      else if x = .atom .null then .error .typeError
      else undefOp "in_op"
    | .set xs => do
      let v ← anyInSet xs ys
      return (Tri.fromBool v, [])
    | .list xs => return (Tri.fromBool (ys.any (fun y => y.memL xs)), [])
  | .list ys =>
    match a with
    | .sc x =>
      if x.isNumStr then return (Tri.fromBool (x.memL ys), [])
      else if x = .atom .null then return (Tri.fromBool (x.memL ys), [])
      else undefOp "in_op"
    | .set xs => do
      let v ← anyInSet xs ys
      return (Tri.fromBool v, [])
    | .list xs => return (Tri.fromBool (ys.any (fun y => y.memL xs)), [])
  | .sc _ => undefOp "in_op"

/-- `elif isinstance(x, list): x = set(x)` after the symbol case, `hgpl/interpreting.py:198-206`. -/
def subsetOperand (E : SymEnv) (x other : Res) : Except PyExc PyVal :=
  match x with
  | .sym ref => symbolToVal (E.heap ref).value other true
  | .list l => (mkSet (l.map Scalar.atom)).map .set
  | x => .ok x.plain

/-- `Interpreter._subset_op`, `hgpl/interpreting.py:196-213`. -/
def subsetOp (E : SymEnv) (l r : Res) : OpOut := do
  let a ← subsetOperand E l r
  let b ← subsetOperand E r l
  match a, b with
  | .set x, .set y => return (Tri.fromBool (subsetL x y), [])
  | _, _ => undefOp "subset_op"

/-- The dispatch of `_evaluate_op_node` on the operator, `hgpl/interpreting.py:227-245`. The operator was tested
to be one of the eight, in upper case, before (220). -/
def applyOp (U : Uni) (E : SymEnv) (s : Str) (l r : Res) : Option OpOut :=
  if s = "=".toList then some (eqOp E l r)
  else if s = "!=".toList then some (neqOp E l r)
  else if s = ">".toList then some (gtOp E l r)
  else if s = "<".toList then some (ltOp E l r)
  else if s = ">=".toList then some (gteOp E l r)
  else if s = "<=".toList then some (lteOp E l r)
  else if U.upper s = "IN".toList then some (inOp E l r)
  else if U.upper s = "SUBSET".toList then some (subsetOp E l r)
  else none

/-- `Interpreter._evaluate_op_node`, `hgpl/interpreting.py:215-247`. `lresult == ASTResult.UNDEF` is
`False` for symbols (their name is never "UNDEF", `hgpl/symbols.py:104-105`), lists and constants. -/
def evalOp (U : Uni) (E : SymEnv) (t : Token) (r : Res) (cs : List Node) :
    Res × List Warn × Option PyExc :=
  match cs[0]?.map Node.res, cs[1]?.map Node.res with
  | some l, some rr =>
    if l = .none ∨ rr = .none then (r, [], some (.interpreterError t.pos "evaluate_op_node"))
    else
      match t.value with
      | .str s =>
        if U.upper s ∈ ["=", "!=", "<", ">", "<=", ">=", "IN", "SUBSET"].map String.toList then
          if l = .tri .undef ∨ rr = .tri .undef then (.tri .undef, [], none)
          else
            match applyOp U E s l rr with
            | some (.ok (v, w)) => (.tri v, w, none)
            | some (.error e) => (r, [], some e)
            | none => (r, [], some (.interpreterError t.pos "evaluate_op_node"))
        else (r, [], some (.interpreterError t.pos "evaluate_op_node"))
      | _ => (r, [], some .attributeError)
  | _, _ => (r, [], some (.interpreterError t.pos "evaluate_op_node"))

/-- The loop of `_evaluate_set_node`, `hgpl/interpreting.py:250-256`; the elements before an invalid one stay in
`node.result`. -/
def evalSetLoop (acc : List Atom) : List Node → List Atom × Bool
  | [] => (acc, true)
  | n :: ns =>
    match n.res with
    | .atom a => if n.res.truthy then evalSetLoop (acc ++ [a]) ns else (acc, false)
    | _ => (acc, false)

/-- `Interpreter._evaluate_set_node`, `hgpl/interpreting.py:249-256`. -/
def evalSet (t : Token) (cs : List Node) : Res × List Warn × Option PyExc :=
  match evalSetLoop [] cs with
  | (l, true) => (.list l, [], none)
  | (l, false) => (.list l, [], some (.interpreterError t.pos "evaluate_set_node"))

/-- The dispatch of `_evaluate_node` on the node class, `hgpl/interpreting.py:263-274`. -/
def evalSelf (U : Uni) (E : SymEnv) (k : Kind) (t : Token) (r : Res) (cs : List Node) :
    Res × List Warn × Option PyExc :=
  if k.isAtt then evalAtt U E k t r
  else
    match k with
    | .not => evalNot t r cs
    | .set => evalSet t cs
    | .boolOp => evalBoolOp U t r cs
    | .op => evalOp U E t r cs
    | _ => (r, [], some (.interpreterError t.pos "evaluate_node"))

mutual
/-- `Interpreter._evaluate_node`, `hgpl/interpreting.py:258-274`. -/
def evalNode (U : Uni) (E : SymEnv) : Node → Node × List Warn × Option PyExc
  | .mk k t i r cs =>
    match evalChildren U E cs with
    | (cs', w, some e) => (.mk k t i r cs', w, some e)
    | (cs', w, none) =>
      match evalSelf U E k t r cs' with
      | (r', w', e) => (.mk k t i r' cs', w ++ w', e)
/-- The loop over the children, `hgpl/interpreting.py:259-261`: only children with a falsy result are
evaluated. -/
def evalChildren (U : Uni) (E : SymEnv) : List Node → List Node × List Warn × Option PyExc
  | [] => ([], [], none)
  | n :: ns =>
    if n.res.truthy then
      match evalChildren U E ns with
      | (ns', w, e) => (n :: ns', w, e)
    else
      match evalNode U E n with
      | (n', w, some e) => (n' :: ns, w, some e)
      | (n', w, none) =>
        match evalChildren U E ns with
        | (ns', w', e) => (n' :: ns', w ++ w', e)
end

/-- An `Interpreter` object, `hgpl/interpreting.py:8-19`. -/
structure Interp where
  ast : Node
  warnings : List Warn := []

/-- `ErrorType.WARN`, `hgpl/errors.py:8`. -/
def levelWARN : Int := 2

/-- The loop over the warnings in `evaluate`, `hgpl/interpreting.py:287-289`: `none` is the default
`min_warn_level=None`, with which `>=` raises TypeError. -/
def raiseWarnings (level : Option Int) : List Warn → Option PyExc
  | [] => none
  | w :: ws =>
    match level with
    | none => some .typeError
    | some m => if levelWARN ≥ m then some (.interpreterWarning w.pos w.rule) else raiseWarnings level ws

/-- `Interpreter.evaluate`, `hgpl/interpreting.py:279-291`. The table `None` stands for an empty one
(280-283). -/
def Interp.evaluate (U : Uni) (E : SymEnv) (level : Option Int) (s : Interp) :
    Interp × Except PyExc Res :=
  match evalNode U E s.ast with
  | (n, w, some e) => (⟨n, s.warnings ++ w⟩, .error e)
  | (n, w, none) =>
    match raiseWarnings level (s.warnings ++ w) with
    | some e => (⟨n, s.warnings ++ w⟩, .error e)
    | none => (⟨n, s.warnings ++ w⟩, .ok n.res)

/-- `Interpreter(Parser(Lexer(text))).evaluate(table, level)`, `hgpl/interpreting.py:8-19`, 279-291: the
constructor may raise, otherwise the interpreter and the outcome of the call. -/
def evaluateText (U : Uni) (E : SymEnv) (level : Option Int) (k : Nat) (text : Str) :
    Except PyExc (Interp × Except PyExc Res) := do
  let (n, _) ← parseText U k text
  return Interp.evaluate U E level ⟨n, []⟩

end Verif
