import Verif.Spec.Authority
/-!
# Whom certificates name

When two pairs of an authority and a name of a user give the same uid.
-/

namespace Verif.Spec

/-- The uid of a user. -/
def UserUid (uri name : Str) : Str := uri ++ "/user/".toList ++ name

/-- The name of the algorithm of a holder's key. -/
def AlgoText (cipher : Str) (size : Int) : Str := cipher ++ "[".toList ++ decimal size ++ "]".toList

/-- A user of one authority has the same uid as a user of another one with a longer uid: this continues the uid of the first
one and what is added is taken from the name of the user. -/
def Nested (uri name uri' name' : Str) : Prop :=
  uri' = uri ++ "/user".toList ∧ name = "user/".toList ++ name' ∨
  ∃ m, uri' = uri ++ "/user/".toList ++ m ∧ name = m ++ "/user/".toList ++ name'

end Verif.Spec
