import Verif.Spec.Semantics
import Verif.Spec.SymbolMap
import Verif.Spec.Printing
/-!
# What type checking reports

Over the syntax trees of `Spec/Grammar.lean`: no nodes, no tables, no symbol objects. What the checker knows about an
attribute is determined by the comparisons before the one it looks at.
-/

namespace Verif.Spec
open Verif

/-- A comparison. -/
structure Cmp where
  l : Operand
  o : Token
  r : Operand
deriving DecidableEq, Repr

/-- The comparisons of a policy from left to right. -/
def Policy.cmps : Policy → List Cmp
  | .cmp l o r => [⟨l, o, r⟩]
  | .lit _ => []
  | .att _ => []
  | .not _ p => p.cmps
  | .bin _ p q => p.cmps ++ q.cmps

/-- The attribute of an operand. -/
def Operand.attToks : Operand → List Token
  | .att t => [t]
  | _ => []

/-- The attributes of a policy from left to right. -/
def Policy.attToks : Policy → List Token
  | .cmp l _ r => l.attToks ++ r.attToks
  | .lit _ => []
  | .att t => [t]
  | .not _ p => p.attToks
  | .bin _ p q => p.attToks ++ q.attToks

/-- Full name of an attribute, lower-cased. -/
def attKey (U : Uni) (t : Token) : Str := U.lower (fullPrefix (some t.type) ++ attName t)

/-- Lower-casing the name and then the full name is lower-casing the full name. -/
def Folds (U : Uni) (t : Token) : Prop :=
  U.lower (fullPrefix (some t.type) ++ U.lower (attName t)) = attKey U t

/-- Type of a literal; NULL has none, which shows as UNKNOWN. -/
def Operand.litType : Operand → SymType
  | .att _ => .unknown
  | .atom t =>
    match t.type with
    | .int => .int
    | .float => .float
    | .string => .string
    | _ => .unknown
  | .set _ _ => .set

/-- Operators that order numbers. -/
def Cmp.ordering (c : Cmp) : Prop := c.o.value ∈ [">", "<", "<=", ">="].map fun s => TVal.str s.toList
/-- Operators that compare for equality. -/
def Cmp.equality (c : Cmp) : Prop := c.o.value ∈ ["=", "!="].map fun s => TVal.str s.toList
/-- `IN` -/
def Cmp.membership (c : Cmp) : Prop := c.o.value = .str "IN".toList
/-- `SUBSET` -/
def Cmp.inclusion (c : Cmp) : Prop := c.o.value = .str "SUBSET".toList

instance (c : Cmp) : Decidable c.ordering := by unfold Cmp.ordering; infer_instance
instance (c : Cmp) : Decidable c.equality := by unfold Cmp.equality; infer_instance
instance (c : Cmp) : Decidable c.membership := by unfold Cmp.membership; infer_instance
instance (c : Cmp) : Decidable c.inclusion := by unfold Cmp.inclusion; infer_instance

/-- Kinds of operands. -/
inductive OpKind where
  | att | number | string | null | set
deriving DecidableEq, Repr

/-- Kind of an operand. -/
def Operand.kind : Operand → OpKind
  | .att _ => .att
  | .atom t =>
    match t.type with
    | .int | .float => .number
    | .string => .string
    | _ => .null
  | .set _ _ => .set

/-- The operator cannot be applied to operands of these kinds, whatever the attributes are. -/
def Cmp.clash (c : Cmp) : Prop :=
  let a := c.l.kind
  let b := c.r.kind
  if c.ordering then
    a = .string ∨ b = .string ∨ a = .null ∨ b = .null ∨ (a ≠ .att ∧ b ≠ .att ∧ (a = .set ∨ b = .set))
  else if c.equality then a ≠ .att ∧ b ≠ .att ∧ a ≠ b
  else if c.membership then a = .set ∨ (b ≠ .set ∧ b ≠ .att)
  else (a ≠ .set ∧ a ≠ .att) ∨ (b ≠ .set ∧ b ≠ .att)

instance (c : Cmp) : Decidable c.clash := by unfold Cmp.clash; infer_instance

/-- Name of the check that reports a clash. -/
def Cmp.checkName (c : Cmp) : String :=
  if c.ordering then "num_check" else if c.equality then "eq_check"
  else if c.membership then "in_check" else "subset_check"

/-- What a comparison tells about the type of an attribute. -/
def Cmp.evidence (c : Cmp) : Option (Token × SymType) :=
  if (c.ordering ∨ c.equality) ∧ ¬ c.clash then
    match c.l, c.r with
    | .att _, .att _ => none
    | .att t, v => some (t, v.litType)
    | v, .att t => some (t, v.litType)
    | _, _ => none
  else none

/-- The type of the first literal with a type the attribute was compared with. -/
def typeAt (U : Uni) (prior : List Cmp) (k : Str) : SymType :=
  (prior.findSome? fun c => c.evidence.bind fun e =>
    if attKey U e.1 = k ∧ e.2 ≠ .unknown then some e.2 else none).getD .unknown

/-- Types that may be compared: equal ones, and numbers. -/
def Compatible (a b : SymType) : Prop := a = b ∨ ((a = .int ∨ a = .float) ∧ (b = .int ∨ b = .float))

instance (a b : SymType) : Decidable (Compatible a b) := by unfold Compatible; infer_instance

/-- The types known so far are at odds: two attributes of incompatible types, UNKNOWN included, or an attribute of known
type and a literal of another, NULL included. Only looked at for orderings and equalities. -/
def Cmp.doubtful (U : Uni) (prior : List Cmp) (c : Cmp) : Prop :=
  (c.ordering ∨ c.equality) ∧ ¬ c.clash ∧
  match c.l, c.r with
  | .att t, .att u => ¬ Compatible (typeAt U prior (attKey U t)) (typeAt U prior (attKey U u))
  | .att t, v => typeAt U prior (attKey U t) ≠ .unknown ∧ ¬ Compatible (typeAt U prior (attKey U t)) v.litType
  | v, .att t => typeAt U prior (attKey U t) ≠ .unknown ∧ ¬ Compatible (typeAt U prior (attKey U t)) v.litType
  | _, _ => False

instance (U : Uni) (prior : List Cmp) (c : Cmp) : Decidable (c.doubtful U prior) := by
  obtain ⟨l, o, r⟩ := c
  unfold Cmp.doubtful
  cases l <;> cases r <;> dsimp only <;> infer_instance

/-- First token of an operand. -/
def Operand.first : Operand → Token
  | .att t => t
  | .atom t => t
  | .set l _ => l

/-- What is reported for a comparison: kind of report (warning or error), position, check and tokens. -/
structure Report where
  warn : Bool
  pos : Int
  check : String
  tok : Token
  left : Token
  right : Token
deriving DecidableEq, Repr

/-- An error for a clash, a warning for doubtful types. -/
def Cmp.report (U : Uni) (prior : List Cmp) (c : Cmp) : Option Report :=
  if c.clash then some ⟨false, c.o.pos, c.checkName, c.o, c.l.first, c.r.first⟩
  else if c.doubtful U prior then some ⟨true, c.o.pos, "att_check", c.o, c.l.first, c.r.first⟩
  else none

/-- The reports for comparisons after others. -/
def reports (U : Uni) : List Cmp → List Cmp → List Report
  | _, [] => []
  | prior, c :: cs => (c.report U prior).toList ++ reports U (prior ++ [c]) cs

/-- Names in order of first occurrence. -/
def firsts : List Str → List Str → List Str
  | acc, [] => acc
  | acc, k :: ks => firsts (if k ∈ acc then acc else acc ++ [k]) ks

/-- The table after checking: one symbol for every attribute, without value, of the inferred type. -/
def checkedMap (U : Uni) (atts : List Token) (prior : List Cmp) : SymMap where
  order := firsts [] (atts.map (attKey U))
  content k := (atts.find? (fun t => attKey U t = k)).map fun t =>
    ⟨typeAt U prior k, t.type, .sc .none, U.lower (attName t), fullPrefix (some t.type) ++ U.lower (attName t)⟩

end Verif.Spec
