import Verif.Spec.Kleene
import Verif.Model.Interpreter
/-!
# Laws of policies

Templates are policies with places for policies; they are filled with texts. A law relates two templates.
-/

namespace Verif.Spec
open Verif

/-- A policy with places for policies. -/
inductive Template where
  | place (i : Nat)
  | neg (f : Template)
  | conj (f g : Template)
  | disj (f g : Template)
deriving DecidableEq, Repr

namespace Template

/-- The places filled with texts, everything in parentheses. -/
def fill (T : Nat → Str) : Template → Str
  | place i => T i
  | neg f => "NOT (".toList ++ f.fill T ++ ")".toList
  | conj f g => "(".toList ++ f.fill T ++ ") AND (".toList ++ g.fill T ++ ")".toList
  | disj f g => "(".toList ++ f.fill T ++ ") OR (".toList ++ g.fill T ++ ")".toList

/-- The places. -/
def places : Template → List Nat
  | place i => [i]
  | neg f => f.places
  | conj f g => f.places ++ g.places
  | disj f g => f.places ++ g.places

/-- The rank of the truth value for given truth values of the places. -/
def truth (ρ : Nat → Tri) : Template → Nat
  | place i => rank (ρ i)
  | neg f => 2 - f.truth ρ
  | conj f g => min (f.truth ρ) (g.truth ρ)
  | disj f g => max (f.truth ρ) (g.truth ρ)

/-- More than a place. -/
def Proper : Template → Prop
  | place _ => False
  | _ => True

/-- The second template has the truth value of the first, and no other places. -/
def Simplifies (f g : Template) : Prop := (∀ i ∈ g.places, i ∈ f.places) ∧ ∀ ρ, f.truth ρ = g.truth ρ

end Template

/-- Interpreting the text returns the truth value. -/
def Gives (U : Uni) (E : SymEnv) (level : Option Int) (text : Str) (t : Tri) : Prop :=
  ∃ k s, evaluateText U E level k text = .ok (s, .ok (.tri t))

end Verif.Spec
