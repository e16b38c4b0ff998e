import Verif.Py.Basic
/-!
# Long texts as lists of characters
-/

namespace Verif

/-- A text as the list of its characters. The kernel is slow at splitting long string literals, so the list is written out when
the term is elaborated. -/
macro:max "txt!" s:str : term => do
  let cs := s.getString.toList.map fun c => Lean.Syntax.mkCharLit c
  `(([$(cs.toArray),*] : Str))

example : txt!"a \"b" = "a \"b".toList := rfl

end Verif
