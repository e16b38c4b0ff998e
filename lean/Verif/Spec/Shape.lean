import Verif.Spec.Grammar
/-!
# Shapes of parsed ASTs and traversals
-/

namespace Verif.Spec
open Verif

/-- A leaf holding an atomic constant: class, token type and stored value belong together. -/
inductive AtomLeaf : Node → Prop
  | int (p : Int) (v : TVal) (i : Nat) (r : Res) : AtomLeaf (.mk .intVal ⟨.int, p, v⟩ i r [])
  | float (p : Int) (v : TVal) (i : Nat) (r : Res) : AtomLeaf (.mk .floatVal ⟨.float, p, v⟩ i r [])
  | string (p : Int) (v : TVal) (i : Nat) (r : Res) : AtomLeaf (.mk .stringVal ⟨.string, p, v⟩ i r [])
  | null (p : Int) (v : TVal) (i : Nat) : AtomLeaf (.mk .nullVal ⟨.null, p, v⟩ i (.atom .null) [])

/-- A leaf holding an attribute, not yet evaluated. -/
inductive AttLeaf : Node → Prop
  | usr (p : Int) (v : TVal) (i : Nat) : AttLeaf (.mk .usrAtt ⟨.usrAtt, p, v⟩ i .none [])
  | obj (p : Int) (v : TVal) (i : Nat) : AttLeaf (.mk .objAtt ⟨.objAtt, p, v⟩ i .none [])
  | env (p : Int) (v : TVal) (i : Nat) : AttLeaf (.mk .envAtt ⟨.envAtt, p, v⟩ i .none [])
  | adm (p : Int) (v : TVal) (i : Nat) : AttLeaf (.mk .admAtt ⟨.admAtt, p, v⟩ i .none [])
  | con (p : Int) (v : TVal) (i : Nat) : AttLeaf (.mk .conAtt ⟨.conAtt, p, v⟩ i .none [])

/-- What a comparison compares. -/
inductive ValueShape : Node → Prop
  | att {n} (h : AttLeaf n) : ValueShape n
  | atom {n} (h : AtomLeaf n) : ValueShape n
  | set (t : Token) (i : Nat) (cs : List Node) (ht : t.type = .lset) (hc : ∀ c ∈ cs, AtomLeaf c) :
      ValueShape (.mk .set t i .none cs)

/-- What the parser returns. -/
inductive PolicyShape : Node → Prop
  | cmp (t : Token) (i : Nat) (l r : Node) (ht : t.type = .op) (hl : ValueShape l)
      (hr : ValueShape r) : PolicyShape (.mk .op t i .none [l, r])
  | lit (t : Token) (i : Nat) (v : Tri) (ht : t.type = .bool) :
      PolicyShape (.mk .boolVal t i (.tri v) [])
  | att {n} (h : AttLeaf n) : PolicyShape n
  | not (t : Token) (i : Nat) (c : Node) (ht : t.type = .notOp) (hc : PolicyShape c) :
      PolicyShape (.mk .not t i .none [c])
  | bin (t : Token) (i : Nat) (l r : Node) (ht : t.type = .boolOp)
      (hv : t.value = .str "AND".toList ∨ t.value = .str "OR".toList) (hl : PolicyShape l)
      (hr : PolicyShape r) : PolicyShape (.mk .boolOp t i .none [l, r])

mutual
/-- The tokens of an AST in source order: infix operators stand between their operands. -/
def inorder : Node → List Token
  | .mk .op t _ _ (l :: cs) => inorder l ++ t :: inorderList cs
  | .mk .boolOp t _ _ (l :: cs) => inorder l ++ t :: inorderList cs
  | .mk _ t _ _ cs => t :: inorderList cs
def inorderList : List Node → List Token
  | [] => []
  | n :: ns => inorder n ++ inorderList ns
end

mutual
/-- Ids of an AST, children before parents: the order of creation. -/
def postIds : Node → List Nat
  | .mk _ _ i _ cs => postIdsList cs ++ [i]
def postIdsList : List Node → List Nat
  | [] => []
  | n :: ns => postIds n ++ postIdsList ns
end

/-- What `ASTNode.__eq__` is meant to compare: tokens and structure. -/
inductive Tree where
  | node (t : Token) (cs : List Tree)

mutual
def treeOf : Node → Tree
  | .mk _ t _ _ cs => .node t (treesOf cs)
def treesOf : List Node → List Tree
  | [] => []
  | n :: ns => treeOf n :: treesOf ns
end

end Verif.Spec
