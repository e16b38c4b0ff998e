import Verif.Model.Token
import Verif.Model.ThreeVal
/-!
# AST nodes (`hgpl/ast.py:97-324`)
-/

namespace Verif

/-- The node classes, `hgpl/ast.py:98-117` and 226-324. `att` and `val` are the base classes
`AttNode` and `ValNode`, `node` is `ASTNode` itself; the parser never creates these three. -/
inductive Kind where
  | node | op | boolOp | not | boolVal | val | intVal | floatVal | stringVal | nullVal | set
  | att | usrAtt | objAtt | admAtt | conAtt | envAtt
deriving DecidableEq, Repr

/-- `isinstance(node, AttNode)`, `hgpl/ast.py:302-324`. -/
def Kind.isAtt : Kind → Bool
  | .att | .usrAtt | .objAtt | .admAtt | .conAtt | .envAtt => true
  | _ => false

/-- `isinstance(node, ValNode)`, `hgpl/ast.py:245-274`. -/
def Kind.isVal : Kind → Bool
  | .val | .intVal | .floatVal | .stringVal | .nullVal => true
  | _ => false

/-- Constants as Python values: `int`, `float`, `str` and `ASTNullVal()`. -/
inductive Atom where
  | int (i : Int)
  | flt (f : PyFloat)
  | str (s : Str)
  | null
deriving DecidableEq, Repr

/-- What `node.result` can hold: `None`, an `ASTResult`, a constant, a list of constants (set
literals) or a reference to a `Symbol` object. -/
inductive Res where
  | none
  | tri (t : Tri)
  | atom (a : Atom)
  | list (l : List Atom)
  | sym (ref : Nat)
deriving DecidableEq, Repr

/-- `ASTNode`, `hgpl/ast.py:120-139`: class, token, id, result and `_node_list`. The `end_token` of
`SetNode` is omitted: only `__repr__` reads it. -/
inductive Node where
  | mk (kind : Kind) (tok : Token) (id : Nat) (res : Res) (children : List Node)
deriving Repr

mutual
/-- Decidable structural equality of modelled nodes (for concrete examples; not part of /repo). -/
def Node.decEq : (a b : Node) → Decidable (a = b)
  | .mk k t i r cs, .mk k' t' i' r' cs' =>
    if h : k = k' ∧ t = t' ∧ i = i' ∧ r = r' then
      match Node.decEqList cs cs' with
      | isTrue hc => isTrue (by obtain ⟨h1, h2, h3, h4⟩ := h; rw [h1, h2, h3, h4, hc])
      | isFalse hc => isFalse (by intro e; injection e with _ _ _ _ e; exact hc e)
    else isFalse (by intro e; injection e with e1 e2 e3 e4; exact h ⟨e1, e2, e3, e4⟩)
/-- Companion of `Node.decEq`. -/
def Node.decEqList : (a b : List Node) → Decidable (a = b)
  | [], [] => isTrue rfl
  | [], _ :: _ => isFalse (by simp)
  | _ :: _, [] => isFalse (by simp)
  | a :: as, b :: bs =>
    match Node.decEq a b with
    | isTrue h =>
      match Node.decEqList as bs with
      | isTrue hs => isTrue (by rw [h, hs])
      | isFalse hs => isFalse (by intro e; injection e with _ e; exact hs e)
    | isFalse h => isFalse (by intro e; injection e with e _; exact h e)
end

instance : DecidableEq Node := Node.decEq

namespace Node
def kind : Node → Kind | mk k _ _ _ _ => k
def tok : Node → Token | mk _ t _ _ _ => t
def id : Node → Nat | mk _ _ i _ _ => i
def res : Node → Res | mk _ _ _ r _ => r
/-- `ASTNode.children`, `hgpl/ast.py:174-175`. -/
def children : Node → List Node | mk _ _ _ _ c => c
/-- `ASTNode.left`, `hgpl/ast.py:141-145`. -/
def left (n : Node) : Option Node := n.children[0]?
/-- `ASTNode.right`, `hgpl/ast.py:147-151`. -/
def right (n : Node) : Option Node := n.children[1]?
end Node

/-- `ValNode.__init__`: `self.result = self.tvalue()`, `hgpl/ast.py:245-248`. -/
def TVal.toRes : TVal → Res
  | .none => .none
  | .str s => .atom (.str s)
  | .int i => .atom (.int i)
  | .flt f => .atom (.flt f)

/-- The result a constructor leaves in a new node: `BoolValNode` (`hgpl/ast.py:234-242`), `ValNode`
(245-248), `NullValNode` (271-274), `None` otherwise (126). A `BoolValNode` whose token value is
not a string fails with AttributeError in `.upper()`. -/
def initRes (U : Uni) (k : Kind) (t : Token) : Except PyExc Res :=
  match k with
  | .boolVal =>
    match t.value with
    | .str s =>
      if U.upper s = "TRUE".toList then .ok (.tri .true)
      else if U.upper s = "FALSE".toList then .ok (.tri .false)
      else .ok (.tri .undef)
    | _ => .error .attributeError
  | .nullVal => .ok (.atom .null)
  | .val | .intVal | .floatVal | .stringVal => .ok t.value.toRes
  | _ => .ok .none

mutual
/-- `ASTNode.__eq__`, `hgpl/ast.py:211-220`. -/
def Node.eq : Node → Node → Bool
  | .mk _ t1 _ _ c1, .mk _ t2 _ _ c2 =>
    if t1.eq t2 && c1.length == c2.length then Node.eqList c1 c2 else false
/-- The loop of `ASTNode.__eq__`, `hgpl/ast.py:213-217`. -/
def Node.eqList : List Node → List Node → Bool
  | n :: ns, m :: ms => if Node.eq n m then Node.eqList ns ms else false
  | [], _ => true
  | _ :: _, [] => false
end

mutual
/-- `ASTNode.calc_num_nodes`, `hgpl/ast.py:177-185`. -/
def Node.calcNum : Node → Nat
  | .mk _ _ _ _ c => 1 + Node.calcNumList c
/-- The loop of `_calc_num_nodes`, `hgpl/ast.py:180-181`. -/
def Node.calcNumList : List Node → Nat
  | [] => 0
  | n :: ns => Node.calcNum n + Node.calcNumList ns
end

end Verif
