import Verif.Model.ThreeVal
/-!
# Strong Kleene logic, specified by ranks

`FALSE < UNDEF < TRUE` as `0 < 1 < 2`; conjunction is minimum, disjunction maximum and negation
reverses the order. This file does not mention the model's connectives.
-/

namespace Verif.Spec

/-- The truth order. -/
def rank : Tri → Nat
  | .false => 0
  | .undef => 1
  | .true => 2

/-- The information order: `UNDEF` is below everything, `TRUE` and `FALSE` are incomparable. -/
def InfoLe (a b : Tri) : Prop := a = .undef ∨ a = b

/-- Propositional formulas over attributes numbered by `Nat`. -/
inductive Formula where
  | var (i : Nat)
  | const (t : Tri)
  | not (f : Formula)
  | and (f g : Formula)
  | or (f g : Formula)
deriving Repr

/-- Rank semantics of a formula. -/
def Formula.rank (ρ : Nat → Tri) : Formula → Nat
  | .var i => Spec.rank (ρ i)
  | .const t => Spec.rank t
  | .not f => 2 - f.rank ρ
  | .and f g => min (f.rank ρ) (g.rank ρ)
  | .or f g => max (f.rank ρ) (g.rank ρ)

/-- Two-valued semantics of a formula without `UNDEF` constants. -/
def Formula.bool (ρ : Nat → Bool) : Formula → Option Bool
  | .var i => some (ρ i)
  | .const .true => some true
  | .const .false => some false
  | .const .undef => none
  | .not f => (f.bool ρ).map (!·)
  | .and f g => do return (← f.bool ρ) && (← g.bool ρ)
  | .or f g => do return (← f.bool ρ) || (← g.bool ρ)

end Verif.Spec
