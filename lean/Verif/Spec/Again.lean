import Verif.Spec.Semantics
/-!
# What policies mean when one interpreter evaluates them several times

Histories are lists of what the symbol tables said about attributes, the latest first.
-/

namespace Verif.Spec
open Verif

/-- Results that are kept: TRUE and symbols, but not FALSE and UNDEF. -/
def Lasting : Den → Prop
  | .truth .true => True
  | .truth _ => False
  | _ => True

instance (d : Den) : Decidable (Lasting d) := by
  cases d <;> unfold Lasting
  · rename_i v; cases v <;> infer_instance
  all_goals infer_instance

/-- What is kept of an attribute: the oldest lasting result. -/
def held (t : Token) : List Atts → Option Den
  | [] => none
  | A :: h =>
    match held t h with
    | some d => some d
    | none =>
      match (semAtt A t).2 with
      | .ok d => if Lasting d then some d else none
      | .error _ => none

/-- An attribute below the root: what is kept of it, or what the latest table says. -/
def attAgain (t : Token) : List Atts → Eff Den
  | [] => Eff.fail .typeError
  | A :: h =>
    match held t h with
    | some d => Eff.pure d
    | none => semAtt A t

/-- Operands; constants do not depend on tables. -/
def operandAgain : Operand → List Atts → Eff Den
  | .att t, h => attAgain t h
  | v, _ => semOperand (fun _ _ => none) v

/-- A condition that was TRUE stays TRUE; others are computed again. -/
def stick (body : List Atts → Eff Den) : List Atts → Eff Den
  | [] => Eff.fail .typeError
  | A :: h => if (stick body h).2 = .ok (.truth .true) then Eff.pure (.truth .true) else body (A :: h)

/-- The evaluations in which something did not raise. -/
def visits (f : List Atts → Eff Den) : List Atts → List Atts
  | [] => []
  | A :: h => match (f (A :: h)).2 with
    | .ok _ => A :: visits f h
    | .error _ => visits f h

/-- Two parts, the second reached only if the first does not raise. -/
def both (f g : List Atts → Eff Den) (c : Den → Den → Eff Den) (h : List Atts) : Eff Den :=
  (f h).bind fun a => (g (visits f h)).bind fun b => c a b

/-- NOT, AND and OR of results. -/
def notAgain (n : Token) : Den → Eff Den
  | .truth v => Eff.pure (.truth (kleeneNot v))
  | _ => Eff.fail (.interpreterError n.pos "evaluate_not_node")

def binAgain (o : Token) : Den → Den → Eff Den
  | .truth v, .truth w => Eff.pure (.truth (kleene o v w))
  | _, _ => Eff.fail (.interpreterError o.pos "evaluate_bool_op_node")

/-- A condition below the root in the latest of several evaluations. -/
def again (U : Uni) : Policy → List Atts → Eff Den
  | .cmp l o r => stick (both (operandAgain l) (operandAgain r) (semCmp o))
  | .lit t => fun _ => sem U (fun _ _ => none) (.lit t)
  | .att t => attAgain t
  | .not n p => stick fun h => (again U p h).bind (notAgain n)
  | .bin o p q => stick (both (again U p) (again U q) (binAgain o))

/-- A whole policy in the latest of several evaluations: the root is always computed again. -/
def policyAgain (U : Uni) : Policy → List Atts → Eff Den
  | .cmp l o r => both (operandAgain l) (operandAgain r) (semCmp o)
  | .lit t => fun _ => semPolicy U (fun _ _ => none) (.lit t)
  | .att t => fun | [] => Eff.fail .typeError | A :: _ => semAtt A t
  | .not n p => fun h => (again U p h).bind (notAgain n)
  | .bin o p q => both (again U p) (again U q) (binAgain o)

/-- Warnings of all evaluations, oldest first; they are never removed. -/
def warningsAgain (U : Uni) (p : Policy) : List Atts → List Warn
  | [] => []
  | A :: h => warningsAgain U p h ++ (policyAgain U p (A :: h)).1

end Verif.Spec
