import Verif.Model.Interpreter
import Verif.Model.Errors
/-!
# The messages of the interpreter (`hgpl/interpreting.py`)

The functions of `Model/Interpreter.lean` that record warnings or raise, again, with the messages. The operands kept in warnings
(`left`, `right`) and the node are dropped. `Props/InterpMessages.lean` shows that forgetting the messages gives back that model.
-/

namespace Verif

/-- A recorded `InterpreterWarning` with its message, `hgpl/interpreting.py:21-31`. -/
structure WarnM where
  pos : Int
  rule : String
  msg : Str
deriving DecidableEq, Repr

/-- The warning without its message. -/
def WarnM.warn (w : WarnM) : Warn := ⟨w.pos, w.rule⟩

/-- An `InterpreterError` with its message, `hgpl/interpreting.py:33-43`; or an exception of another class. -/
inductive EvalErr where
  | said (pos : Int) (rule : String) (msg : Str)
  | other (e : PyExc)
deriving DecidableEq, Repr

/-- The exception without its message. -/
def EvalErr.exc : EvalErr → PyExc
  | .said p r _ => .interpreterError p r
  | .other e => e

/-- `hgpl/interpreting.py:51` -/
def msgNoValue (n : Str) : Str := "Interpreter Warning, the attribute ".toList ++ n ++ " has no value.".toList
/-- `hgpl/interpreting.py:55` -/
def msgBadType (n : Str) : Str := "Interpreter Warning, the attribute ".toList ++ n ++ " has an invalid type.".toList
/-- `hgpl/interpreting.py:63` -/
def msgUnknownAtt (n : Str) : Str := "Interpreter Warning, unknown attribute ".toList ++ n ++ " found in policy.".toList
/-- `hgpl/interpreting.py:71`, 86, 247, 255 -/
def msgChild : Str := "Interpreter Error, invalid child node or invalid child node result.".toList
/-- `hgpl/interpreting.py:118` -/
def msgEqOp : Str := "Interpreter Warning, invalid type used in '=' or '!=' operation.".toList
/-- `hgpl/interpreting.py:135` -/
def msgGtOp : Str := "Interpreter Warning, invalid type used in '>' operation.".toList
/-- `hgpl/interpreting.py:148` -/
def msgLtOp : Str := "Interpreter Warning, invalid type used in '<' operation.".toList
/-- `hgpl/interpreting.py:161` -/
def msgGteOp : Str := "Interpreter Warning, invalid type used in '>=' operation.".toList
/-- `hgpl/interpreting.py:174` -/
def msgLteOp : Str := "Interpreter Warning, invalid type used in '<=' operation.".toList
/-- `hgpl/interpreting.py:193` -/
def msgInOp : Str := "Interpreter Warning, invalid type used in 'IN' operation.".toList
/-- `hgpl/interpreting.py:211` -/
def msgSubsetOp : Str := "Interpreter Warning, invalid type used in 'SUBSET' operation.".toList
/-- `hgpl/interpreting.py:245` -/
def msgOperation : Str := "Interpreter Error, invalid operation.".toList
/-- `hgpl/interpreting.py:274` -/
def msgNodeType : Str := "Interpreter Error, invalid node type.".toList

/-- `Interpreter._evaluate_att_node`, `hgpl/interpreting.py:45-65`. -/
def evalAttM (U : Uni) (E : SymEnv) (k : Kind) (t : Token) (r : Res) :
    Res × List WarnM × Option EvalErr :=
  match attToSymbolName k t with
  | .error e => (r, [], some (.other e))
  | .ok name =>
    match E.tab.lookup U name with
    | some ref =>
      let s := E.heap ref
      let w1 : List WarnM := if s.value = .sc .none then [⟨t.pos, "evaluate_att_node", msgNoValue name⟩] else []
      if s.checkValType = false then (.tri .undef, w1 ++ [⟨t.pos, "evaluate_att_node", msgBadType name⟩], none)
      else if s.type = .bool then
        match s.value with
        | .sc (.tri b) => (.tri b, w1, none)
        | _ => (r, w1, some (.other .typeError)) -- unreachable: `checkValType` holds
      else (.sym ref, w1, none)
    | none => (.tri .undef, [⟨t.pos, "evaluate_att_node", msgUnknownAtt name⟩], none)

/-- `Interpreter._evaluate_not_node`, `hgpl/interpreting.py:67-72`. -/
def evalNotM (t : Token) (r : Res) (cs : List Node) : Res × List WarnM × Option EvalErr :=
  match cs[0]?.map Node.res with
  | some (.tri v) => (.tri v.not, [], none)
  | _ => (r, [], some (.said t.pos "evaluate_not_node" msgChild))

/-- `Interpreter._evaluate_bool_op_node`, `hgpl/interpreting.py:74-87`. -/
def evalBoolOpM (U : Uni) (t : Token) (r : Res) (cs : List Node) : Res × List WarnM × Option EvalErr :=
  match cs[0]?.map Node.res, cs[1]?.map Node.res with
  | some (.tri a), some (.tri b) =>
    match t.value with
    | .str s =>
      if U.upper s = "AND".toList then (.tri (a.and b), [], none)
      else if U.upper s = "OR".toList then (.tri (a.or b), [], none)
      else (r, [], some (.said t.pos "evaluate_bool_op_node" msgChild))
    | _ => (r, [], some (.other .attributeError))
  | _, _ => (r, [], some (.said t.pos "evaluate_bool_op_node" msgChild))

/-- Result of a comparison with the warnings recorded. -/
abbrev OpOutM := Except PyExc (Tri × List WarnM)

/-- UNDEF with the warning of a rule. -/
def undefOpM (rule : String) (msg : Str) : OpOutM := .ok (.undef, [⟨-1, rule, msg⟩])

/-- `Interpreter._eq_op`, `hgpl/interpreting.py:102-120`. -/
def eqOpM (E : SymEnv) (l r : Res) : OpOutM := do
  let a ← operand E l r true
  let b ← operand E r l true
  match a, b with
  | .sc x, .sc y =>
    match x.num, y.num with
    | some m, some n => return (Tri.fromBool (decide (m = n)), [])
    | _, _ =>
      match x, y with
      | .atom (.str s), .atom (.str t) => return (Tri.fromBool (decide (s = t)), [])
      | .atom .null, .atom .null => return (.true, [])
      | _, _ => undefOpM "eq_op" msgEqOp
  | .set x, .set y => return (Tri.fromBool (setEqL x y), [])
  | .list x, .list y => do
    let x' ← mkSet x
    let y' ← mkSet y
    return (Tri.fromBool (setEqL x' y'), [])
  | _, _ => undefOpM "eq_op" msgEqOp

/-- `Interpreter._neq_op`, `hgpl/interpreting.py:122-123`. -/
def neqOpM (E : SymEnv) (l r : Res) : OpOutM := do
  let (v, w) ← eqOpM E l r
  return (v.not, w)

/-- The common shape of the inequality operators, `hgpl/interpreting.py:125-175`. -/
def numOpM (rule : String) (msg : Str) (cmp : PyFloat → PyFloat → Bool) (E : SymEnv) (l r : Res) : OpOutM :=
  match rawOperand E l, rawOperand E r with
  | .sc x, .sc y =>
    match x.num, y.num with
    | some m, some n => .ok (Tri.fromBool (cmp m n), [])
    | _, _ => undefOpM rule msg
  | _, _ => undefOpM rule msg

/-- `Interpreter._gt_op`, `hgpl/interpreting.py:125-136`. -/
def gtOpM : SymEnv → Res → Res → OpOutM := numOpM "qt_op" msgGtOp (fun m n => n.lt m)
/-- `Interpreter._lt_op`, `hgpl/interpreting.py:138-149`. -/
def ltOpM : SymEnv → Res → Res → OpOutM := numOpM "lt_op" msgLtOp (fun m n => m.lt n)
/-- `Interpreter._gte_op`, `hgpl/interpreting.py:151-162`. -/
def gteOpM : SymEnv → Res → Res → OpOutM := numOpM "gte_op" msgGteOp (fun m n => n.le m)
/-- `Interpreter._lte_op`, `hgpl/interpreting.py:164-175`. -/
def lteOpM : SymEnv → Res → Res → OpOutM := numOpM "lte_op" msgLteOp (fun m n => m.le n)

/-- `Interpreter._in_op`, `hgpl/interpreting.py:177-194`. -/
def inOpM (E : SymEnv) (l r : Res) : OpOutM := do
  let a ← operand E l r false
  let b ← operand E r l true
  match b with
  | .set ys =>
    match a with
    | .sc x =>
      if x.isNumStr then return (Tri.fromBool (x.memL ys), [])
      else if x = .atom .null then .error .typeError
      else undefOpM "in_op" msgInOp
    | .set xs => do
      let v ← anyInSet xs ys
      return (Tri.fromBool v, [])
    | .list xs => return (Tri.fromBool (ys.any (fun y => y.memL xs)), [])
  | .list ys =>
    match a with
    | .sc x =>
      if x.isNumStr then return (Tri.fromBool (x.memL ys), [])
      else if x = .atom .null then return (Tri.fromBool (x.memL ys), [])
      else undefOpM "in_op" msgInOp
    | .set xs => do
      let v ← anyInSet xs ys
      return (Tri.fromBool v, [])
    | .list xs => return (Tri.fromBool (ys.any (fun y => y.memL xs)), [])
  | .sc _ => undefOpM "in_op" msgInOp

/-- `Interpreter._subset_op`, `hgpl/interpreting.py:196-213`. -/
def subsetOpM (E : SymEnv) (l r : Res) : OpOutM := do
  let a ← subsetOperand E l r
  let b ← subsetOperand E r l
  match a, b with
  | .set x, .set y => return (Tri.fromBool (subsetL x y), [])
  | _, _ => undefOpM "subset_op" msgSubsetOp

/-- The dispatch of `_evaluate_op_node` on the operator, `hgpl/interpreting.py:227-245`. -/
def applyOpM (U : Uni) (E : SymEnv) (s : Str) (l r : Res) : Option OpOutM :=
  if s = "=".toList then some (eqOpM E l r)
  else if s = "!=".toList then some (neqOpM E l r)
  else if s = ">".toList then some (gtOpM E l r)
  else if s = "<".toList then some (ltOpM E l r)
  else if s = ">=".toList then some (gteOpM E l r)
  else if s = "<=".toList then some (lteOpM E l r)
  else if U.upper s = "IN".toList then some (inOpM E l r)
  else if U.upper s = "SUBSET".toList then some (subsetOpM E l r)
  else none

/-- `Interpreter._evaluate_op_node`, `hgpl/interpreting.py:215-247`. -/
def evalOpM (U : Uni) (E : SymEnv) (t : Token) (r : Res) (cs : List Node) :
    Res × List WarnM × Option EvalErr :=
  match cs[0]?.map Node.res, cs[1]?.map Node.res with
  | some l, some rr =>
    if l = .none ∨ rr = .none then (r, [], some (.said t.pos "evaluate_op_node" msgChild))
    else
      match t.value with
      | .str s =>
        if U.upper s ∈ ["=", "!=", "<", ">", "<=", ">=", "IN", "SUBSET"].map String.toList then
          if l = .tri .undef ∨ rr = .tri .undef then (.tri .undef, [], none)
          else
            match applyOpM U E s l rr with
            | some (.ok (v, w)) => (.tri v, w, none)
            | some (.error e) => (r, [], some (.other e))
            | none => (r, [], some (.said t.pos "evaluate_op_node" msgOperation))
        else (r, [], some (.said t.pos "evaluate_op_node" msgChild))
      | _ => (r, [], some (.other .attributeError))
  | _, _ => (r, [], some (.said t.pos "evaluate_op_node" msgChild))

/-- `Interpreter._evaluate_set_node`, `hgpl/interpreting.py:249-256`. -/
def evalSetM (t : Token) (cs : List Node) : Res × List WarnM × Option EvalErr :=
  match evalSetLoop [] cs with
  | (l, true) => (.list l, [], none)
  | (l, false) => (.list l, [], some (.said t.pos "evaluate_set_node" msgChild))

/-- The dispatch of `_evaluate_node` on the node class, `hgpl/interpreting.py:263-274`. -/
def evalSelfM (U : Uni) (E : SymEnv) (k : Kind) (t : Token) (r : Res) (cs : List Node) :
    Res × List WarnM × Option EvalErr :=
  if k.isAtt then evalAttM U E k t r
  else
    match k with
    | .not => evalNotM t r cs
    | .set => evalSetM t cs
    | .boolOp => evalBoolOpM U t r cs
    | .op => evalOpM U E t r cs
    | _ => (r, [], some (.said t.pos "evaluate_node" msgNodeType))

mutual
/-- `Interpreter._evaluate_node`, `hgpl/interpreting.py:258-274`. -/
def evalNodeM (U : Uni) (E : SymEnv) : Node → Node × List WarnM × Option EvalErr
  | .mk k t i r cs =>
    match evalChildrenM U E cs with
    | (cs', w, some e) => (.mk k t i r cs', w, some e)
    | (cs', w, none) =>
      match evalSelfM U E k t r cs' with
      | (r', w', e) => (.mk k t i r' cs', w ++ w', e)
/-- The loop over the children, `hgpl/interpreting.py:259-261`. -/
def evalChildrenM (U : Uni) (E : SymEnv) : List Node → List Node × List WarnM × Option EvalErr
  | [] => ([], [], none)
  | n :: ns =>
    if n.res.truthy then
      match evalChildrenM U E ns with
      | (ns', w, e) => (n :: ns', w, e)
    else
      match evalNodeM U E n with
      | (n', w, some e) => (n' :: ns, w, some e)
      | (n', w, none) =>
        match evalChildrenM U E ns with
        | (ns', w', e) => (n' :: ns', w ++ w', e)
end

/-- An `Interpreter` object, `hgpl/interpreting.py:8-19`. -/
structure InterpM where
  ast : Node
  warnings : List WarnM := []

/-- What `evaluate` raises: an `InterpreterWarning` or what evaluation raised. -/
inductive RaisedM where
  | warning (w : WarnM)
  | error (e : EvalErr)
deriving DecidableEq, Repr

/-- The exception without its message. -/
def RaisedM.exc : RaisedM → PyExc
  | .warning w => .interpreterWarning w.pos w.rule
  | .error e => e.exc

/-- The loop over the warnings in `evaluate`, `hgpl/interpreting.py:287-289`. -/
def raiseWarningsM (level : Option Int) : List WarnM → Option RaisedM
  | [] => none
  | w :: ws =>
    match level with
    | none => some (.error (.other .typeError))
    | some m => if levelWARN ≥ m then some (.warning w) else raiseWarningsM level ws

/-- `Interpreter.evaluate`, `hgpl/interpreting.py:279-291`. -/
def InterpM.evaluate (U : Uni) (E : SymEnv) (level : Option Int) (s : InterpM) :
    InterpM × Except RaisedM Res :=
  match evalNodeM U E s.ast with
  | (n, w, some e) => (⟨n, s.warnings ++ w⟩, .error (.error e))
  | (n, w, none) =>
    match raiseWarningsM level (s.warnings ++ w) with
    | some e => (⟨n, s.warnings ++ w⟩, .error e)
    | none => (⟨n, s.warnings ++ w⟩, .ok n.res)

/-- `str(w)` of a warning, `hgpl/errors.py:31-37`; `policy` is what the interpreter has as text (`hgpl/interpreting.py:12-19`):
that of the parser, or the second argument of the constructor. -/
def WarnM.str (policy : Option Str) (w : WarnM) : Str := HGPLError.str ⟨w.msg, policy, w.pos⟩

/-- `str(e)` of what `evaluate` raises; `builtin` is what Python shows of exceptions of its own. -/
def RaisedM.str (builtin : PyExc → Str) (policy : Option Str) : RaisedM → Str
  | .warning w => w.str policy
  | .error (.said p _ m) => HGPLError.str ⟨m, policy, p⟩
  | .error (.other e) => builtin e

/-- `Interpreter(Parser(Lexer(text))).evaluate(table, level)`, `hgpl/interpreting.py:8-19`, 279-291. -/
def evaluateTextM (U : Uni) (E : SymEnv) (level : Option Int) (k : Nat) (text : Str) :
    Except PyExc (InterpM × Except RaisedM Res) := do
  let (n, _) ← parseText U k text
  return InterpM.evaluate U E level ⟨n, []⟩

end Verif
