import Verif.Model.AST
/-!
# Python values of attributes

The values a client can store in a symbol: `None`, `bool`, numbers, strings, `ASTResult`s,
`ASTNullVal`s, other objects, and sets and lists of these.
-/

namespace Verif

/-- A Python value that is not a `set` or `list`. `obj h n` is any other object: `h` tells whether it is hashable, and
its `==` is identity (`n`). Collections inside collections count as such objects. -/
inductive Scalar where
  | none
  | bool (b : Bool)
  | tri (t : Tri)
  | atom (a : Atom)
  | obj (hashable : Bool) (n : Nat)
deriving DecidableEq, Repr

/-- A Python value. The list of a `set` stands for the set of its elements: order and repetitions do not
matter in any definition below. -/
inductive PyVal where
  | sc (s : Scalar)
  | set (l : List Scalar)
  | list (l : List Scalar)
deriving DecidableEq, Repr

/-- The number a value is, if `isinstance(v, (int, float))`. Python's `bool` is a subclass of `int`.
Comparison of ints and floats is exact in Python, so both are extended rationals. -/
def Scalar.num : Scalar → Option PyFloat
  | .bool b => some (.fin (if b then 1 else 0))
  | .atom (.int i) => some (.fin i)
  | .atom (.flt f) => some f
  | _ => Option.none

/-- Python's `<` on numbers. -/
def PyFloat.lt : PyFloat → PyFloat → Bool
  | .fin a, .fin b => decide (a < b)
  | .fin _, .inf n => !n
  | .inf n, .fin _ => n
  | .inf n, .inf m => n && !m

/-- Python's `<=` on numbers (without NaN). -/
def PyFloat.le : PyFloat → PyFloat → Bool
  | .fin a, .fin b => decide (a ≤ b)
  | .fin _, .inf n => !n
  | .inf n, .fin _ => n
  | .inf n, .inf m => n || !m

/-- Python's `==` on scalars: numbers by value across types, everything else within its type
(`ASTResult.__eq__` `hgpl/ast.py:72-76`, `ASTNullVal.__eq__` 263-265). -/
def Scalar.pyEq (a b : Scalar) : Bool :=
  match a.num, b.num with
  | some x, some y => decide (x = y)
  | Option.none, Option.none => decide (a = b)
  | _, _ => false

/-- `hash(x)` works. `ASTResult` and `ASTNullVal` define `__eq__` without `__hash__`, which makes them
unhashable (`hgpl/ast.py:72,263`). -/
def Scalar.hashable : Scalar → Bool
  | .tri _ => false
  | .atom .null => false
  | .obj h _ => h
  | _ => true

/-- `x in l` for a list `l`. -/
def Scalar.memL (x : Scalar) (l : List Scalar) : Bool := l.any (fun y => x.pyEq y)

/-- `x in c` for a set `c`: hashes `x` first. -/
def Scalar.memS (x : Scalar) (l : List Scalar) : Except PyExc Bool :=
  if x.hashable then .ok (x.memL l) else .error .typeError

/-- `set(l)`. -/
def mkSet (l : List Scalar) : Except PyExc (List Scalar) :=
  if l.all Scalar.hashable then .ok l else .error .typeError

/-- `a.issubset(b)` for sets. -/
def subsetL (a b : List Scalar) : Bool := a.all (fun x => x.memL b)

/-- `a == b` for sets. -/
def setEqL (a b : List Scalar) : Bool := subsetL a b && subsetL b a

end Verif
