import Verif.Spec.Checking
import Verif.Spec.Semantics
import Verif.Spec.Relevant
/-!
# Attributes that speak for access, and attributes that speak against it
-/

namespace Verif.Spec
open Verif

/-- FALSE is below UNDEF and UNDEF below TRUE. -/
def TruthLe (a b : Tri) : Prop := a = .false ∨ b = .true ∨ a = b

/-- What an attribute holds rises: it stays the same, a truth value becomes truer, where a missing one is between FALSE and TRUE, or a
number becomes no smaller. -/
inductive Rises : Option (SymType × PyVal) → Option (SymType × PyVal) → Prop
  | same (x) : Rises x x
  | truth {v w : Tri} (h : TruthLe v w) : Rises (some (.bool, .sc (.tri v))) (some (.bool, .sc (.tri w)))
  | given : Rises none (some (.bool, .sc (.tri .true)))
  | taken : Rises (some (.bool, .sc (.tri .false))) none
  | number {ty ty' : SymType} {x y : Scalar} {m n : PyFloat} (h : ty = .int ∨ ty = .float) (h' : ty' = .int ∨ ty' = .float)
      (hx : x.num = some m) (hy : y.num = some n) (hle : ¬ numLt n m) : Rises (some (ty, .sc x)) (some (ty', .sc y))

/-- Comparisons that become truer as their left operand rises, or as it falls. -/
def Upward (up : Bool) (o : Token) : Prop :=
  if up then o.value = .str ">".toList ∨ o.value = .str ">=".toList else o.value = .str "<".toList ∨ o.value = .str "<=".toList

/-- Every mention of the attribute with this full name speaks for the policy, or against it if `up` is false: it stands for itself,
or is the left or right side of a comparison that counts as speaking for the policy on this side, under an even number of negations,
or is a side that counts as speaking against it, under an odd number. -/
def Policy.Speaks (left right : Bool → Token → Prop) (U : Uni) (key : Str) : Bool → Policy → Prop
  | up, .cmp l o r =>
    (∀ t ∈ l.atts ++ r.atts, attKey U t ≠ key) ∨
    (∃ t, l = .att t ∧ (∀ u ∈ r.atts, attKey U u ≠ key) ∧ left up o) ∨
    ∃ t, r = .att t ∧ (∀ u ∈ l.atts, attKey U u ≠ key) ∧ right up o
  | _, .lit _ => True
  | up, .att t => attKey U t ≠ key ∨ up = true
  | up, .not _ p => p.Speaks left right U key (!up)
  | up, .bin _ p q => p.Speaks left right U key up ∧ q.Speaks left right U key up

/-- For truth values and numbers: the larger side of an ordering speaks for a policy and the smaller side against it. -/
def Policy.Polar : Uni → Str → Bool → Policy → Prop := Policy.Speaks Upward fun up => Upward !up

/-- The attribute holds a collection with these elements. -/
def Collects (l : List Scalar) (x : Option (SymType × PyVal)) : Prop :=
  x = some (.set, .set l) ∨ x = some (.set, .list l) ∧ l.all Scalar.hashable = true

/-- What an attribute holds grows: it is a collection, and each element is also in the other one. -/
def Grows (x y : Option (SymType × PyVal)) : Prop :=
  ∃ l m, Collects l x ∧ Collects m y ∧ ∀ a ∈ l, ∃ b ∈ m, a.pyEq b = true

/-- For collections: both sides of IN and the right side of SUBSET speak for a policy, the left side of SUBSET against it. -/
def Policy.Gathers : Uni → Str → Bool → Policy → Prop :=
  Policy.Speaks (fun up o => o.value = .str (if up then "IN".toList else "SUBSET".toList))
    fun up o => up = true ∧ (o.value = .str "IN".toList ∨ o.value = .str "SUBSET".toList)

end Verif.Spec
