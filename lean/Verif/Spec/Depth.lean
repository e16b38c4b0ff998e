import Verif.Spec.Grammar
/-!
# Nesting of parentheses and height of trees
-/

namespace Verif.Spec
open Verif

/-- The number of opening parentheses less that of closing ones. -/
def balance (ts : List Token) : Int :=
  (ts.countP (fun t => t.type == .lparn) : Int) - (ts.countP (fun t => t.type == .rparn) : Int)

/-- The largest number of parentheses open at the same time is `m`. -/
def Nesting (ts : List Token) (m : Nat) : Prop :=
  (∀ i, balance (ts.take i) ≤ m) ∧ ∃ i, balance (ts.take i) = m

/-- The length of the longest path from a node down, counting only the children `p` keeps. -/
inductive Path (p : Node → Bool) : Node → Nat → Prop
  | here (n : Node) : Path p n 1
  | down {n c : Node} {m : Nat} (hc : c ∈ n.children) (hp : p c = true) (h : Path p c m) : Path p n (m + 1)

/-- The longest path down has `m` nodes. -/
def Height (p : Node → Bool) (n : Node) (m : Nat) : Prop := Path p n m ∧ ∀ j, Path p n j → j ≤ m

/-- The number of AND and OR on the way down to the left: for a policy without parentheses or NOT at its front, the
conditions joined less one. -/
def Policy.joins : Policy → Nat
  | .bin _ p _ => p.joins + 1
  | _ => 0

end Verif.Spec
