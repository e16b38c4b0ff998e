import Verif.Spec.Semantics
import Verif.Spec.CheckErrors
/-!
# What evaluation says

Which warnings a policy gives for a state of the attributes, word for word, in order; and what its errors say. Values of operands
come from `Spec/Semantics.lean`.
-/

namespace Verif.Spec
open Verif

/-- One thing said: at a position, or nowhere in particular. -/
structure Remark where
  pos : Option Int
  text : Str
deriving DecidableEq, Repr

/-- The five classes of attributes as written in front of a name. -/
def classText : TokenType → Str
  | .usrAtt => "user.".toList
  | .objAtt => "object.".toList
  | .envAtt => "env.".toList
  | .conAtt => "connect.".toList
  | .admAtt => "admin.".toList
  | _ => []

/-- An attribute as it is called in warnings. -/
def calledName (t : Token) : Str := classText t.type ++ attName t

/-- What is said about an attribute. -/
def remarksAtt (A : Atts) (t : Token) : List Remark :=
  let n := calledName t
  let unknown : Str := "Interpreter Warning, unknown attribute ".toList ++ n ++ " found in policy.".toList
  let empty : Str := "Interpreter Warning, the attribute ".toList ++ n ++ " has no value.".toList
  let misfit : Str := "Interpreter Warning, the attribute ".toList ++ n ++ " has an invalid type.".toList
  match A t.type (attName t) with
  | none => [⟨some t.pos, unknown⟩]
  | some (_, .sc .none) => [⟨some t.pos, empty⟩, ⟨some t.pos, misfit⟩]
  | some (ty, v) => if fits ty v then [] else [⟨some t.pos, misfit⟩]

/-- What is said about an operand. -/
def remarksOperand (A : Atts) : Operand → List Remark
  | .att t => remarksAtt A t
  | _ => []

/-- How an operator is called in warnings. -/
def opText : List (String × String) :=
  [("=", "'=' or '!='"), ("!=", "'=' or '!='"), ("<", "'<'"), (">", "'>'"), ("<=", "'<='"), (">=", "'>='"),
   ("IN", "'IN'"), ("SUBSET", "'SUBSET'")]

/-- What is said about two operands with values. -/
def remarksCmp (o : Token) (a b : Den) : List Remark :=
  if (semCmp o a b).1 = [] then []
  else
    match opText.find? (fun e => o.value = .str e.1.toList) with
    | some (_, s) => [⟨none, "Interpreter Warning, invalid type used in ".toList ++ s.toList ++ " operation.".toList⟩]
    | none => []

/-- What is said after a computation: nothing if it fails. -/
def after {α} (x : Except PyExc α) (f : α → List Remark) : List Remark :=
  match x with
  | .error _ => []
  | .ok a => f a

/-- What is said about a policy: left to right, inside out, up to the first error. -/
def remarks (U : Uni) (A : Atts) : Policy → List Remark
  | .cmp l o r => remarksOperand A l ++ after (semOperand A l).2 fun a =>
      remarksOperand A r ++ after (semOperand A r).2 fun b => remarksCmp o a b
  | .lit _ => []
  | .att t => remarksAtt A t
  | .not _ p => remarks U A p
  | .bin _ p q => remarks U A p ++ after (sem U A p).2 fun _ => remarks U A q

/-- A remark as shown, with the text of the policy (empty if there is none). -/
def Remark.shown (policy : Str) (r : Remark) : Str :=
  match r.pos with
  | none => r.text
  | some p => shownError r.text p.toNat policy

/-- What an error of evaluation says. -/
def evalComplaint (rule : String) : Str :=
  if rule = "evaluate_node" then "Interpreter Error, invalid node type.".toList
  else "Interpreter Error, invalid child node or invalid child node result.".toList

/-- What is shown when `evaluate` raises: its error; or the first remark, if the level is WARN (2) or lower. No level is a TypeError as
soon as there is something to say. `builtin` is what Python shows of its own exceptions. -/
def evalShown (U : Uni) (A : Atts) (builtin : PyExc → Str) (level : Option Int) (text : Str) (p : Policy) : Option Str :=
  match (semPolicy U A p).2 with
  | .error (.interpreterError pos rule) => some (shownError (evalComplaint rule) pos.toNat text)
  | .error e => some (builtin e)
  | .ok _ =>
    match remarks U A p with
    | [] => none
    | r :: _ =>
      match level with
      | none => some (builtin .typeError)
      | some m => if m ≤ 2 then some (r.shown text) else none

/-! ### What warnings can depend on -/

/-- The kinds of attributes warnings tell apart. -/
inductive AttSort where
  | unknown | noValue | misfit | number | text | decided | undecided | collection | unhashable
deriving DecidableEq, Repr

/-- The kind of a single value. -/
def sortScalar : Scalar → AttSort
  | .tri .undef => .undecided
  | .tri _ => .decided
  | .atom (.str _) => .text
  | _ => .number

/-- The kind of an attribute. -/
def sortOf : Option (SymType × PyVal) → AttSort
  | none => .unknown
  | some (_, .sc .none) => .noValue
  | some (ty, v) =>
    if fits ty v then
      match v with
      | .sc x => sortScalar x
      | .set _ => .collection
      | .list l => if l.all Scalar.hashable then .collection else .unhashable
    else .misfit

end Verif.Spec
