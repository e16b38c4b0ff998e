import Verif.Spec.Checking
import Verif.Spec.Robust
/-!
# Types that promise a decision

Attributes are promised to hold a number, a text, TRUE or FALSE, or a collection. A policy is well typed under such promises if
each operator can be applied to operands of these types.
-/

namespace Verif.Spec
open Verif

/-- What an attribute is promised to hold. -/
inductive Promise where
  | number | text | truth | collection
deriving DecidableEq, Repr

/-- Promises by full name in lower case. -/
abbrev Promises := Str → Promise

/-- An attribute keeps a promise: its declared type fits and it has a value of the type. -/
def Promise.Kept : Promise → Option (SymType × PyVal) → Prop
  | .number, x => ∃ ty v, x = some (ty, .sc v) ∧ (ty = .int ∨ ty = .float) ∧ v.num.isSome = true
  | .text, x => ∃ s, x = some (.string, .sc (.atom (.str s)))
  | .truth, x => x = some (.bool, .sc (.tri .true)) ∨ x = some (.bool, .sc (.tri .false))
  | .collection, x => (∃ l, x = some (.set, .set l)) ∨ ∃ l, x = some (.set, .list l) ∧ l.all Scalar.hashable = true

/-- All attributes of a policy keep their promises. -/
def KeptBy (U : Uni) (Γ : Promises) (A : Atts) (l : List Token) : Prop :=
  ∀ t ∈ l, (Γ (attKey U t)).Kept (A t.type (attName t))

/-- What is known of an operand before the attributes have values. -/
inductive OperandType where
  | att (p : Promise)
  | number
  | text
  | null
  /-- a set literal, with or without NULL -/
  | set (null : Bool)
  /-- a literal `0`, `0.0` or `""`, or a set literal with one -/
  | rejected
deriving DecidableEq, Repr

/-- The type of a constant. -/
def constType : Option Atom → OperandType
  | none => .rejected
  | some .null => .null
  | some (.str _) => .text
  | some _ => .number

/-- The type of an operand. -/
def Operand.typed (U : Uni) (Γ : Promises) : Operand → OperandType
  | .att t => .att (Γ (attKey U t))
  | .atom t => constType (constOf t)
  | .set _ es =>
    if ∃ t ∈ es, constOf t = none then .rejected else .set (decide (∃ t ∈ es, constOf t = some .null))

/-- Attributes that can be compared with each other. -/
def Promise.comparable (p : Promise) : Prop := p ≠ .truth

/-- `=` and `!=`: literals of one type, numbers and texts with attributes of their type, sets without NULL, attributes with each other
whatever they hold, unless it is a truth value. -/
def EqTyped : OperandType → OperandType → Prop
  | .number, b => b = .number ∨ b = .att .number
  | .text, b => b = .text ∨ b = .att .text
  | .null, b => b = .null
  | .set n, b => n = false ∧ b = .set false
  | .att p, b => (p = .number ∧ b = .number) ∨ (p = .text ∧ b = .text) ∨ (p.comparable ∧ ∃ q, b = .att q ∧ q.comparable)
  | .rejected, _ => False

/-- `<`, `>`, `<=`, `>=`: numbers. -/
def OrdTyped (a b : OperandType) : Prop := (a = .number ∨ a = .att .number) ∧ (b = .number ∨ b = .att .number)

/-- `IN`: on the right a set literal or an attribute. A constant is not looked for in a single value, NULL in no attribute, and no
collection is looked for in a set with NULL. -/
def InTyped : OperandType → OperandType → Prop
  | .number, b | .text, b => (∃ n, b = .set n) ∨ b = .att .collection
  | .null, b => ∃ n, b = .set n
  | .set _, b => (∃ n, b = .set n) ∨ ∃ q, b = .att q ∧ q.comparable
  | .att p, b => p.comparable ∧ ((∃ n, b = .set n ∧ (p = .collection → n = false)) ∨ ∃ q, b = .att q ∧ q.comparable)
  | .rejected, _ => False

/-- Operands of `SUBSET`. -/
def SetTyped : OperandType → Prop
  | .set n => n = false
  | .att p => p.comparable
  | _ => False

/-- The operator fits the types of the operands. -/
def CmpTyped (o : Token) (a b : OperandType) : Prop :=
  (Operates o "=" ∨ Operates o "!=" → EqTyped a b) ∧
  (Operates o "<" ∨ Operates o ">" ∨ Operates o "<=" ∨ Operates o ">=" → OrdTyped a b) ∧
  (Operates o "IN" → InTyped a b) ∧
  (Operates o "SUBSET" → SetTyped a ∧ SetTyped b)

/-- Well typed below a connective. -/
def CondTyped (U : Uni) (Γ : Promises) : Policy → Prop
  | .cmp l o r => CmpTyped o (l.typed U Γ) (r.typed U Γ)
  | .lit t => litTri U t = .true
  | .att t => Γ (attKey U t) = .truth
  | .not _ p => CondTyped U Γ p
  | .bin _ p q => CondTyped U Γ p ∧ CondTyped U Γ q

/-- Well typed. -/
def PromiseTyped (U : Uni) (Γ : Promises) : Policy → Prop
  | .lit _ => False
  | p => CondTyped U Γ p

/-- A decision without remarks. -/
def Decided (x : Eff Den) : Prop := x = ([], .ok (.truth .true)) ∨ x = ([], .ok (.truth .false))

/-! ### The policies the type checker is right about -/

/-- An attribute, or a single literal that is not rejected. -/
def Operand.Simple : Operand → Prop
  | .att _ => True
  | .atom t => constOf t ≠ none
  | .set _ _ => False

/-- Orderings and equalities with a literal on one side at least, that is not NULL beside an attribute. -/
def Cmp.Plain (c : Cmp) : Prop :=
  (c.ordering ∨ c.equality) ∧ c.l.Simple ∧ c.r.Simple ∧
  (c.l.kind = .att → c.r.kind ≠ .att ∧ c.r.kind ≠ .null) ∧ (c.r.kind = .att → c.l.kind ≠ .null)

/-- The attributes of a policy that are no operands. -/
def Policy.bare : Policy → List Token
  | .att t => [t]
  | .cmp _ _ _ => []
  | .lit _ => []
  | .not _ p => p.bare
  | .bin _ p q => p.bare ++ q.bare

/-- The literals of a policy that are no operands. -/
def Policy.lits : Policy → List Token
  | .lit t => [t]
  | .cmp _ _ _ => []
  | .att _ => []
  | .not _ p => p.lits
  | .bin _ p q => p.lits ++ q.lits

/-- A policy of plain comparisons, attributes that are not compared, and TRUE, but not TRUE alone. -/
def Policy.Plain (U : Uni) (p : Policy) : Prop :=
  (∀ t, p ≠ .lit t) ∧ (∀ c ∈ p.cmps, c.Plain) ∧ (∀ t ∈ p.lits, litTri U t = .true) ∧
  ∀ t ∈ p.bare, ∀ c ∈ p.cmps, ∀ u ∈ c.l.atts ++ c.r.atts, attKey U t ≠ attKey U u

/-- The promise that goes with a type the checker infers. -/
def promiseOf : SymType → Promise
  | .int | .float => .number
  | .string => .text
  | .set => .collection
  | _ => .truth

/-- The promises inferred from a policy. -/
def inferred (U : Uni) (p : Policy) : Promises := fun k => promiseOf (typeAt U p.cmps k)

end Verif.Spec
