import Verif.Model.AST
/-!
# What `str(ast)` is meant to show

The tree with the types and values of tokens and the texts of results; positions, ids and classes of nodes are left out.
-/

namespace Verif.Spec
open Verif

/-- A tree of token types, token values and texts of results. -/
inductive Outline where
  | mk (type : TokenType) (value : TVal) (result : Except PyExc Str) (children : List Outline)

mutual
/-- The outline of a tree, given the texts of results. -/
def outline (f : Res → Except PyExc Str) : Node → Outline
  | .mk _ t _ r cs => .mk t.type t.value (f r) (outlines f cs)
/-- Companion of `outline`. -/
def outlines (f : Res → Except PyExc Str) : List Node → List Outline
  | [] => []
  | n :: ns => outline f n :: outlines f ns
end

mutual
/-- The results of a node and the nodes below it. -/
def results : Node → List Res
  | .mk _ _ _ r cs => r :: resultsList cs
/-- Companion of `results`. -/
def resultsList : List Node → List Res
  | [] => []
  | n :: ns => results n ++ resultsList ns
end

end Verif.Spec
