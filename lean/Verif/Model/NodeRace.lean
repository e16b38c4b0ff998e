import Verif.Model.Encoder
import Verif.Model.Parser
/-!
# Threads that take node ids (`hgpl/ast.py:119-127`)

`self.id = ASTNode._last_id = ASTNode._last_id + 1` reads the attribute of the class, and writes it later: CPython may run other threads in
between. (The policy authority parses policies while it handles requests, `hgaa/services/pauth.py:327-329`.) A step is the read or the
write of one thread; the store to `self.id`, which no other thread sees, is part of the write. `next` is `_last_id + 1`.

No rule of the parser looks at an id, so the tree a thread makes is the one it would make alone, with other ids.
-/

namespace Verif

/-- A step of a thread in the constructor of a node. -/
inductive RaceStep
  /-- `ASTNode._last_id + 1` is computed. -/
  | load (thread : Nat)
  /-- It is assigned to `ASTNode._last_id` and `self.id`. -/
  | store (thread : Nat)
deriving DecidableEq, Repr

/-- The shared counter, the numbers computed and not yet assigned, and the nodes made, as threads and ids. -/
structure Race where
  next : Nat
  held : Nat → Option Nat := fun _ => none
  made : List (Nat × Nat) := []

namespace Race

/-- One step, `hgpl/ast.py:127`. -/
def step (s : Race) : RaceStep → Race
  | .load i => { s with held := fun j => if j = i then some s.next else s.held j }
  | .store i =>
    match s.held i with
    | none => s
    | some v => { next := v + 1, held := fun j => if j = i then none else s.held j, made := s.made ++ [(i, v)] }

/-- Several steps. -/
def run (s : Race) (l : List RaceStep) : Race := l.foldl step s

/-- The ids of the nodes a thread made, in order. -/
def idsOf (s : Race) (i : Nat) : List Nat := (s.made.filter (fun e => e.1 == i)).map Prod.snd

end Race

mutual
/-- The tree with other ids. -/
def Node.renumber (f : Nat → Nat) : Node → Node
  | .mk k t i r cs => .mk k t (f i) r (Node.renumbers f cs)
/-- The same for several trees. -/
def Node.renumbers (f : Nat → Nat) : List Node → List Node
  | [] => []
  | n :: ns => Node.renumber f n :: Node.renumbers f ns
end

/-- `Parser(Lexer(text)).parse()` in a thread whose nodes get the given ids, one after the other. -/
def parseTaking (U : Uni) (ids : List Nat) (text : Str) : Except PyExc Node :=
  (parseText U 0 text).map (fun r => r.1.renumber (fun i => ids.getD i 0))

end Verif
