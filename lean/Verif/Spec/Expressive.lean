import Verif.Spec.Kleene
import Verif.Spec.Lexical
import Verif.Spec.Polarity
import Verif.Proofs.InterpSem
/-!
# Decision tables
-/

namespace Verif.Spec
open Verif

/-- Names for user attributes: identifiers, different after conversion to lower case. -/
structure UserNames (U : Uni) (name : Nat → Str) : Prop where
  some : ∀ i, name i ≠ []
  chars : ∀ i, ∀ c ∈ name i, IdChar U c
  apart : ∀ i j, U.lower ("user.".toList ++ name i) = U.lower ("user.".toList ++ name j) → i = j

/-- The first user attributes have these truth values, where those that are UNDEF may be missing. -/
def Holds (U : Uni) (name : Nat → Str) (n : Nat) (E : SymEnv) (ρ : Nat → Tri) : Prop :=
  ∀ i < n, attsOf U E .usrAtt (name i) = some (.bool, .sc (.tri (ρ i))) ∨ ρ i = .undef ∧ attsOf U E .usrAtt (name i) = none

/-- Knowing more of the first attributes never changes TRUE or FALSE. -/
def Steady (n : Nat) (f : (Nat → Tri) → Tri) : Prop := ∀ ρ σ, (∀ i < n, InfoLe (ρ i) (σ i)) → InfoLe (f ρ) (f σ)

/-- If all of the first attributes are TRUE or FALSE, so is the decision. -/
def Resolved (n : Nat) (f : (Nat → Tri) → Tri) : Prop := ∀ ρ, (∀ i < n, ρ i ≠ .undef) → f ρ ≠ .undef

/-- Raising one of the first attributes does not lower the decision. -/
def Rising (n : Nat) (f : (Nat → Tri) → Tri) : Prop :=
  ∀ ρ, ∀ i < n, ∀ v, TruthLe (ρ i) v → TruthLe (f ρ) (f fun j => if j = i then v else ρ j)

/-- However the first attributes that are UNDEF are replaced by TRUE and FALSE, the decision is this one. -/
def Certainly (n : Nat) (f : (Nat → Bool) → Bool) (ρ : Nat → Tri) (v : Bool) : Prop :=
  ∀ a : Nat → Bool, (∀ i < n, InfoLe (ρ i) (if a i then .true else .false)) → f a = v

/-- No comparisons: attributes and TRUE, and connectives. -/
def Policy.Bare : Policy → Prop
  | .cmp _ _ _ => False
  | .lit _ => True
  | .att _ => True
  | .not _ p => p.Bare
  | .bin _ p q => p.Bare ∧ q.Bare

end Verif.Spec
