import Verif.Spec.Grammar
import Verif.Spec.Lexical
import Verif.Model.Interpreter
/-!
# What a policy means

A compositional semantics of the syntax trees of `Spec/Grammar.lean`: no nodes, no stored results, no symbol
objects. A policy denotes a value, or the exception evaluation ends with, together with the
warnings recorded on the way. From the model it uses the types `Warn`, `SymType` and `PyVal` only.
-/

namespace Verif.Spec
open Verif

/-- What is known about attributes: class and name to declared type and value. -/
abbrev Atts := TokenType → Str → Option (SymType × PyVal)

/-- What an operand or policy can denote. -/
inductive Den where
  /-- a truth value -/
  | truth (t : Tri)
  /-- a constant -/
  | const (a : Atom)
  /-- a set literal -/
  | lit (l : List Atom)
  /-- an attribute with a single value -/
  | single (x : Scalar)
  /-- an attribute with a collection of values -/
  | many (l : List Scalar)
  /-- an attribute whose list holds values Python cannot put in a set -/
  | manyBad
deriving DecidableEq, Repr

/-- Warnings and result of a computation. -/
abbrev Eff (α : Type) := List Warn × Except PyExc α

/-- Sequence two computations. -/
def Eff.bind {α β} (x : Eff α) (f : α → Eff β) : Eff β :=
  match x with
  | (w, .error e) => (w, .error e)
  | (w, .ok a) => (w ++ (f a).1, (f a).2)

/-- A computation that only returns. -/
def Eff.pure {α} (a : α) : Eff α := ([], .ok a)
/-- A computation that fails. -/
def Eff.fail {α} (e : PyExc) : Eff α := ([], .error e)

/-- A value fits a declared type. -/
def fits : SymType → PyVal → Bool
  | .int, .sc x => x.num.isSome
  | .float, .sc x => x.num.isSome
  | .string, .sc (.atom (.str _)) => true
  | .bool, .sc (.tri _) => true
  | .set, .set _ => true
  | .set, .list _ => true
  | _, _ => false

/-- Denotation of a fitting value. -/
def valueDen : PyVal → Den
  | .sc (.tri t) => .truth t
  | .sc x => .single x
  | .set l => .many l
  | .list l => if l.all Scalar.hashable then .many l else .manyBad

/-- The name in an attribute token. -/
def attName (t : Token) : Str := match t.value with | .str s => s | _ => []

/-- An attribute: UNDEF with a warning when it is unknown or its value does not fit its type, with two
warnings when it has no value. -/
def semAtt (A : Atts) (t : Token) : Eff Den :=
  let w : Warn := ⟨t.pos, "evaluate_att_node"⟩
  match A t.type (attName t) with
  | none => ([w], .ok (.truth .undef))
  | some (_, .sc .none) => ([w, w], .ok (.truth .undef))
  | some (ty, v) => if fits ty v then ([], .ok (valueDen v)) else ([w], .ok (.truth .undef))

/-- The constant of an atomic token; none for the falsy ones `0`, `0.0` and `""`, which evaluation
rejects. -/
def constOf (t : Token) : Option Atom :=
  if t.type = .null then some .null
  else match t.value with
    | .none => none
    | .str s => if s = [] then none else some (.str s)
    | .int i => if i = 0 then none else some (.int i)
    | .flt f => if f = .fin 0 then none else some (.flt f)

/-- The error evaluation reports at a literal it cannot handle. -/
def badLiteral (t : Token) : PyExc := .interpreterError t.pos "evaluate_node"

/-- The elements of a set literal. -/
def semElems : List Token → Except PyExc (List Atom)
  | [] => .ok []
  | t :: ts =>
    match constOf t with
    | none => .error (badLiteral t)
    | some a => (semElems ts).map (a :: ·)

/-- Denotation of an operand. -/
def semOperand (A : Atts) : Operand → Eff Den
  | .att t => semAtt A t
  | .atom t =>
    match constOf t with
    | none => Eff.fail (badLiteral t)
    | some a => Eff.pure (.const a)
  | .set _ es => ([], (semElems es).map .lit)

/-- Equality of two single values of the same kind. -/
def sameKindEq (x y : Scalar) : Option Bool :=
  match x, y with
  | .atom (.str s), .atom (.str t) => some (decide (s = t))
  | .atom .null, .atom .null => some true
  | x, y =>
    match x.num, y.num with
    | some m, some n => some (decide (m = n))
    | _, _ => none

/-- Two collections have the same elements. -/
def sameElems (a b : List Scalar) : Bool :=
  decide ((∀ x ∈ a, ∃ y ∈ b, x.pyEq y = true) ∧ (∀ y ∈ b, ∃ x ∈ a, y.pyEq x = true))

/-- Some element is in both. -/
def overlap (a b : List Scalar) : Bool := decide (∃ x ∈ a, ∃ y ∈ b, x.pyEq y = true)

/-- All elements of the first are in the second. -/
def included (a b : List Scalar) : Bool := decide (∀ x ∈ a, ∃ y ∈ b, x.pyEq y = true)

/-- The elements of a set literal as values. -/
def atoms (l : List Atom) : List Scalar := l.map .atom

/-- Operators answer yes, no, or "operands do not fit the operator"; Python sets cannot hold NULL, which shows as
TypeError. -/
abbrev Answer := Except PyExc (Option Bool)

/-- `=` -/
def semEq : Den → Den → Answer
  | .manyBad, _ => .error .typeError
  | _, .manyBad => .error .typeError
  | .const a, .const b => .ok (sameKindEq (.atom a) (.atom b))
  | .const a, .single y => .ok (sameKindEq (.atom a) y)
  | .single x, .const b => .ok (sameKindEq x (.atom b))
  | .single x, .single y => .ok (some (x.pyEq y))
  | .single x, .many m => .ok (some (sameElems [x] m))
  | .many l, .single y => .ok (some (sameElems l [y]))
  | .many l, .many m => .ok (some (sameElems l m))
  | .lit l, .lit m =>
    if Atom.null ∈ l ∨ Atom.null ∈ m then .error .typeError
    else .ok (some (sameElems (atoms l) (atoms m)))
  | _, _ => .ok none

/-- The number an operand denotes. -/
def Den.number : Den → Option PyFloat
  | .const a => (Scalar.atom a).num
  | .single x => x.num
  | _ => none

/-- Order of numbers. -/
def numLt : PyFloat → PyFloat → Prop
  | .fin a, .fin b => a < b
  | .fin _, .inf neg => neg = false
  | .inf neg, .fin _ => neg = true
  | .inf m, .inf n => m = true ∧ n = false

instance (a b : PyFloat) : Decidable (numLt a b) := by
  cases a <;> cases b <;> unfold numLt <;> infer_instance

/-- `<`, `>`, `<=`, `>=` -/
def semOrd (f : PyFloat → PyFloat → Bool) (l r : Den) : Answer :=
  match l.number, r.number with
  | some m, some n => .ok (some (f m n))
  | _, _ => .ok none

/-- Look for the first element of a set literal that is in a Python set; NULL before it cannot be
looked up. -/
def scan (m : List Scalar) : List Atom → Answer
  | [] => .ok (some false)
  | a :: as =>
    if a = .null then .error .typeError
    else if ∃ y ∈ m, (Scalar.atom a).pyEq y = true then .ok (some true) else scan m as

/-- `IN`: membership of a single value, overlap of collections. -/
def semIn : Den → Den → Answer
  | .manyBad, _ => .error .typeError
  | _, .manyBad => .error .typeError
  | .const a, .lit m => .ok (some (included [.atom a] (atoms m)))
  | .const a, .many m => if a = .null then .error .typeError else .ok (some (included [.atom a] m))
  | .single x, .lit m => .ok (some (included [x] (atoms m)))
  | .single x, .many m => .ok (some (included [x] m))
  | .single x, .single y => .ok (some (x.pyEq y))
  | .lit l, .lit m => .ok (some (overlap (atoms m) (atoms l)))
  | .lit l, .many m => .ok (some (overlap m (atoms l)))
  | .lit l, .single y => .ok (some (overlap [y] (atoms l)))
  | .many l, .lit m => scan l m
  | .many l, .many m => .ok (some (overlap m l))
  | .many l, .single y => .ok (some (overlap [y] l))
  | _, _ => .ok none

/-- Operands Python cannot turn into a set. -/
def Den.unsettable : Den → Bool
  | .manyBad => true
  | .lit l => decide (Atom.null ∈ l)
  | _ => false

/-- The operand as a set; a single value only beside another collection or attribute. -/
def Den.asSet (other : Den) : Den → Option (List Scalar)
  | .lit l => some (atoms l)
  | .many l => some l
  | .single x =>
    match other with
    | .lit _ | .single _ | .many _ | .manyBad => some [x]
    | _ => none
  | _ => none

/-- `SUBSET` -/
def semSubset (l r : Den) : Answer :=
  if l.unsettable || r.unsettable then .error .typeError
  else
    match Den.asSet r l, Den.asSet l r with
    | some a, some b => .ok (some (included a b))
    | _, _ => .ok none

/-- Negate an answer. -/
def Answer.neg (a : Answer) : Answer := a.map (fun o => o.map (fun b => !b))

/-- The operators, with the rule name their warnings carry. -/
def operators : List (String × String × (Den → Den → Answer)) :=
  [("=", "eq_op", semEq),
   ("!=", "eq_op", fun l r => Answer.neg (semEq l r)),
   ("<", "lt_op", semOrd fun m n => decide (numLt m n)),
   (">", "qt_op", semOrd fun m n => decide (numLt n m)),
   ("<=", "lte_op", semOrd fun m n => decide (¬ numLt n m)),
   (">=", "gte_op", semOrd fun m n => decide (¬ numLt m n)),
   ("IN", "in_op", semIn),
   ("SUBSET", "subset_op", semSubset)]

/-- The truth value of an answer: UNDEF with a warning when the operands do not fit. -/
def answerOut (rule : String) (a : Answer) : Eff Den :=
  match a with
  | .error e => ([], .error e)
  | .ok none => ([⟨-1, rule⟩], .ok (.truth .undef))
  | .ok (some true) => ([], .ok (.truth .true))
  | .ok (some false) => ([], .ok (.truth .false))

/-- A comparison: UNDEF when an operand is. -/
def semCmp (o : Token) (a b : Den) : Eff Den :=
  if a = .truth .undef ∨ b = .truth .undef then Eff.pure (.truth .undef)
  else
    match operators.find? (fun e => o.value = .str e.1.toList) with
    | some (_, rule, f) => answerOut rule (f a b)
    | none => Eff.fail (.interpreterError o.pos "evaluate_op_node")

/-- Strong Kleene connectives. -/
def kleene (o : Token) (a b : Tri) : Tri :=
  if o.value = .str "AND".toList then
    if a = .false ∨ b = .false then .false else if a = .true ∧ b = .true then .true else .undef
  else
    if a = .true ∨ b = .true then .true else if a = .false ∧ b = .false then .false else .undef

/-- Strong Kleene negation. -/
def kleeneNot : Tri → Tri
  | .true => .false
  | .false => .true
  | .undef => .undef

/-- Meaning of a policy as part of a larger one. A literal FALSE or UNDEF is rejected; connectives need
truth values. -/
def sem (U : Uni) (A : Atts) : Policy → Eff Den
  | .cmp l o r => (semOperand A l).bind fun a => (semOperand A r).bind fun b => semCmp o a b
  | .lit t => if litTri U t = .true then Eff.pure (.truth .true) else Eff.fail (badLiteral t)
  | .att t => semAtt A t
  | .not n p => (sem U A p).bind fun
    | .truth v => Eff.pure (.truth (kleeneNot v))
    | _ => Eff.fail (.interpreterError n.pos "evaluate_not_node")
  | .bin o p q => (sem U A p).bind fun a => (sem U A q).bind fun b =>
    match a, b with
    | .truth v, .truth w => Eff.pure (.truth (kleene o v w))
    | _, _ => Eff.fail (.interpreterError o.pos "evaluate_bool_op_node")

/-- Meaning of a whole policy: a bare literal is rejected, TRUE included. -/
def semPolicy (U : Uni) (A : Atts) : Policy → Eff Den
  | .lit t => Eff.fail (badLiteral t)
  | p => sem U A p

/-- The text is a policy, with the given syntax tree. -/
def PolicyOf (U : Uni) (text : Str) (p : Policy) : Prop :=
  ∃ ts e, Tokenizes U text 0 (ts ++ [e]) ∧ DPolicy false ts p

/-- How `evaluate` ends for a meaning: exceptions of the evaluation first, then the warning level. No level
is a TypeError as soon as there is a warning; levels up to WARN (2) raise the first warning. -/
def outcome (level : Option Int) : Eff Den → Except PyExc Den
  | (_, .error e) => .error e
  | ([], .ok d) => .ok d
  | (w :: _, .ok d) =>
    match level with
    | none => .error .typeError
    | some m => if m ≤ 2 then .error (.interpreterWarning w.pos w.rule) else .ok d

/-- Comparison operators are the eight of the language, as the lexer writes them. -/
def Policy.OpsOk : Policy → Prop
  | .cmp _ o _ => ∃ e ∈ operators, o.value = .str e.1.toList
  | .lit _ => True
  | .att _ => True
  | .not _ p => p.OpsOk
  | .bin _ p q => p.OpsOk ∧ q.OpsOk

/-- Attribute tokens carry names. -/
def Operand.NamesOk : Operand → Prop
  | .att t => ∃ s, t.value = .str s
  | _ => True

def Policy.NamesOk : Policy → Prop
  | .cmp l _ r => l.NamesOk ∧ r.NamesOk
  | .lit _ => True
  | .att t => ∃ s, t.value = .str s
  | .not _ p => p.NamesOk
  | .bin _ p q => p.NamesOk ∧ q.NamesOk

end Verif.Spec
