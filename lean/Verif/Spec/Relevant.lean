import Verif.Spec.Certain
/-!
# Attributes a decision depends on
-/

namespace Verif.Spec
open Verif

/-- No boolean constant stands for a condition. -/
def Policy.NoConstants : Policy → Prop
  | .cmp _ _ _ => True
  | .lit _ => False
  | .att _ => True
  | .not _ p => p.NoConstants
  | .bin _ p q => p.NoConstants ∧ q.NoConstants

/-- Two tables differ in the attribute with this full name only. -/
def DifferOnly (U : Uni) (key : Str) (A B : Atts) : Prop :=
  ∀ ty n, U.lower (fullPrefix (some ty) ++ n) ≠ key → A ty n = B ty n

end Verif.Spec
