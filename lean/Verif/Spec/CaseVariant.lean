import Verif.Spec.Grammar
import Verif.Spec.Lexical
/-!
# Texts that differ in letter case only
-/

namespace Verif.Spec
open Verif

/-- `CaseEq q s t`: the texts have the same length and agree position by position, exactly inside string literals and up to
the case of ASCII letters outside. `q` says that the texts start inside a string literal. -/
def CaseEq : Bool → Str → Str → Prop
  | _, [], [] => True
  | q, c :: s, d :: t =>
    (if q then c = d else asciiLower c = asciiLower d) ∧ CaseEq (if c = '"' then !q else q) s t
  | _, _, _ => False

instance : ∀ (q : Bool) (s t : Str), Decidable (CaseEq q s t)
  | _, [], [] => isTrue trivial
  | q, c :: s, d :: t =>
    have := instDecidableCaseEq (if c = '"' then !q else q) s t
    inferInstanceAs (Decidable ((if q then c = d else asciiLower c = asciiLower d) ∧
      CaseEq (if c = '"' then !q else q) s t))
  | _, [], _ :: _ => isFalse id
  | _, _ :: _, [] => isFalse id

/-- Tokens that differ in the case of an attribute name at most. -/
def CaseTok (a b : Token) : Prop :=
  a.type = b.type ∧ a.pos = b.pos ∧
  (a.value = b.value ∨ AttTok a ∧ ∃ s t : Str, a.value = .str s ∧ b.value = .str t ∧
    s.map asciiLower = t.map asciiLower)

/-- Operands that differ in the case of attribute names at most. -/
def Operand.CaseRel : Operand → Operand → Prop
  | .att t, .att u => CaseTok t u
  | .atom t, .atom u => t = u
  | .set l es, .set m fs => l = m ∧ es = fs
  | _, _ => False

/-- Policies that differ in the case of attribute names at most. -/
def Policy.CaseRel : Policy → Policy → Prop
  | .cmp l o r, .cmp l' o' r' => l.CaseRel l' ∧ o = o' ∧ r.CaseRel r'
  | .lit t, .lit u => t = u
  | .att t, .att u => CaseTok t u
  | .not n p, .not m q => n = m ∧ p.CaseRel q
  | .bin o p q, .bin o' p' q' => o = o' ∧ p.CaseRel p' ∧ q.CaseRel q'
  | _, _ => False

end Verif.Spec
