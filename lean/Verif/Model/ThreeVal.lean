/-!
# `ASTResult` (`hgpl/ast.py:9-94`)
-/

namespace Verif

/-- `ASTResult`, `hgpl/ast.py:10-13`. -/
inductive Tri where
  | true | false | undef
deriving DecidableEq, Repr

namespace Tri

/-- `ASTResult.from_bool`, `hgpl/ast.py:15-20`. -/
def fromBool (b : Bool) : Tri := if b then .true else .false

/-- `ASTResult.__eq__` on two results, `hgpl/ast.py:72-76`: equality of the enum values. -/
def eq (a b : Tri) : Bool := decide (a = b)

/-- `ASTResult.__not__`, `hgpl/ast.py:42-48` (and `tri_not`, 22-24). -/
def not (self : Tri) : Tri :=
  if self.eq .true then .false
  else if self.eq .false then .true
  else .undef

/-- `ASTResult.__and__`, `hgpl/ast.py:50-59`. The `isinstance` guard is discharged by the type. -/
def and (self other : Tri) : Tri :=
  if other.eq .false || self.eq .false then .false
  else if other.eq .undef || self.eq .undef then .undef
  else .true

/-- `ASTResult.__or__`, `hgpl/ast.py:61-70`. -/
def or (self other : Tri) : Tri :=
  if self.eq .true || other.eq .true then .true
  else if self.eq .undef || other.eq .undef then .undef
  else .false

/-- `ASTResult.truth` and `__bool__`, `hgpl/ast.py:81-88`. -/
def truth (self : Tri) : Bool := if self.eq .true then Bool.true else Bool.false

end Tri
end Verif
