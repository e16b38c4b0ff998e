import Verif.Model.Interpreter
import Verif.Model.LexerObj
/-!
# Texts of tokens, nodes, symbols and symbol tables

`__str__` and `__repr__` of `hgpl/lexing.py`, `hgpl/ast.py` and `hgpl/symbols.py`.

Simplifications: a float -0.0 is not told from 0.0 (as everywhere in the model), the addresses in the default texts of
objects are one fixed text, `repr` of an `int` has no limit on digits (every integer the lexer reads is within the limit,
which is the same one), and recursion has no limit.
-/

namespace Verif

/-- What the texts take from the Python runtime. -/
structure Texts where
  /-- `c.isprintable()` for characters outside ASCII. -/
  printable : Char → Bool
  /-- `repr(x)` of a finite float. -/
  flt : Rat → Str
  /-- `repr(x)` of an `ASTNullVal`. -/
  null : Str
  /-- `repr(x)` of other objects. -/
  obj : Bool → Nat → Str
  /-- `repr(x)` of sets, where the order is that of the hash table. -/
  set : List Scalar → Str

/-- `repr(i)` and `str(i)` of an `int`. -/
def intText (i : Int) : Str := (toString i).toList

/-- `n` hexadecimal digits in lower case. -/
def hexText : Nat → Nat → Str
  | 0, _ => []
  | k + 1, n => hexText k (n / 16) ++ ["0123456789abcdef".toList.getD (n % 16) '0']

/-- The characters `repr` of a string shows a character as (CPython's `unicode_repr`). -/
def charRepr (T : Texts) (quote c : Char) : Str :=
  if c = quote ∨ c = '\\' then ['\\', c]
  else if c = '\t' then ['\\', 't']
  else if c = '\n' then ['\\', 'n']
  else if c = '\r' then ['\\', 'r']
  else if c.toNat < 32 ∨ c.toNat = 127 then '\\' :: 'x' :: hexText 2 c.toNat
  else if c.toNat < 127 ∨ T.printable c = true then [c]
  else if c.toNat ≤ 0xff then '\\' :: 'x' :: hexText 2 c.toNat
  else if c.toNat ≤ 0xffff then '\\' :: 'u' :: hexText 4 c.toNat
  else '\\' :: 'U' :: hexText 8 c.toNat

/-- `repr(s)` of a string: double quotes are used if it contains single quotes and no double quotes. -/
def strRepr (T : Texts) (s : Str) : Str :=
  let quote : Char := if '\'' ∈ s ∧ '"' ∉ s then '"' else '\''
  quote :: (s.flatMap (charRepr T quote) ++ [quote])

/-- `repr(x)` and `str(x)` of a float. -/
def fltText (T : Texts) : PyFloat → Str
  | .fin q => T.flt q
  | .inf false => "inf".toList
  | .inf true => "-inf".toList

/-- `repr(token.value)`. -/
def TVal.repr (T : Texts) : TVal → Str
  | .none => "None".toList
  | .str s => strRepr T s
  | .int i => intText i
  | .flt f => fltText T f

/-- `str(token.value)`. -/
def TVal.text (T : Texts) : TVal → Str
  | .str s => s
  | v => v.repr T

/-- Truth value of `token.value`. -/
def TVal.truthy : TVal → Bool
  | .none => false
  | .str s => decide (s ≠ [])
  | .int i => decide (i ≠ 0)
  | .flt f => decide (f ≠ .fin 0)

/-- `Token.__str__`, `hgpl/lexing.py:39-46`. A true value never has an empty text. -/
def Token.str (T : Texts) (t : Token) : Str :=
  if t.value.truthy && decide (t.value.text T ≠ []) then
    if t.type = .string then "Token(".toList ++ (t.type.name ++ (", ".toList ++ (t.value.repr T ++ ")".toList)))
    else "Token(".toList ++ (t.type.name ++ (", ".toList ++ (t.value.text T ++ ")".toList)))
  else "Token(".toList ++ (t.type.name ++ ")".toList)

/-- `Token.__repr__`, `hgpl/lexing.py:48-58`. -/
def Token.repr (T : Texts) (t : Token) : Str :=
  if t.value.truthy && decide (t.value.repr T ≠ []) then
    if t.pos ≥ 0 then
      "Token(TokenType.".toList ++ (t.type.name ++ (", ".toList ++ (intText t.pos ++ (", ".toList ++
        (t.value.repr T ++ ")".toList)))))
    else "Token(TokenType.".toList ++ (t.type.name ++ (", value=".toList ++ (t.value.repr T ++ ")".toList)))
  else if t.pos ≥ 0 then
    "Token(TokenType.".toList ++ (t.type.name ++ (", ".toList ++ (intText t.pos ++ ")".toList)))
  else "Token(TokenType.".toList ++ (t.type.name ++ ")".toList)

/-- `self.__class__.__name__` of nodes, `hgpl/ast.py:120-324`. -/
def Kind.className : Kind → Str
  | .node => "ASTNode".toList | .op => "OpNode".toList | .boolOp => "BoolOpNode".toList | .not => "NotNode".toList
  | .boolVal => "BoolValNode".toList | .val => "ValNode".toList | .intVal => "IntValNode".toList
  | .floatVal => "FloatValNode".toList | .stringVal => "StringValNode".toList | .nullVal => "NullValNode".toList
  | .set => "SetNode".toList | .att => "AttNode".toList | .usrAtt => "UsrAttNode".toList
  | .objAtt => "ObjAttNode".toList | .admAtt => "AdmAttNode".toList | .conAtt => "ConAttNode".toList
  | .envAtt => "EnvAttNode".toList

/-- `repr(end_token)`, `hgpl/ast.py:293`. -/
def endRepr (T : Texts) : Option Token → Str
  | none => "None".toList
  | some t => t.repr T

/-- `', '.join(l)` -/
def joinComma : List Str → Str
  | [] => []
  | [x] => x
  | x :: y :: r => x ++ (", ".toList ++ joinComma (y :: r))

/-- `ASTNode.__repr__`, `hgpl/ast.py:198-209`, and `SetNode.__repr__`, 292-294, with the texts of the children. Nodes are always
true. -/
def nodeText (T : Texts) (k : Kind) (t : Token) (stop : Option Token) (xs : List Str) : Str :=
  if k = .set then
    k.className ++ ("(".toList ++ (t.repr T ++ (", ".toList ++ (endRepr T stop ++ (", [".toList ++ (joinComma xs ++ "])".toList))))))
  else
    match xs with
    | [] => k.className ++ ("(".toList ++ (t.repr T ++ ")".toList))
    | [a] => k.className ++ ("(".toList ++ (t.repr T ++ (", ".toList ++ (a ++ ")".toList))))
    | [a, b] => k.className ++ ("(".toList ++ (t.repr T ++ (", ".toList ++ (a ++ (", ".toList ++ (b ++ ")".toList))))))
    | xs => k.className ++ ("(".toList ++ (t.repr T ++ (",[".toList ++ (joinComma xs ++ "])".toList))))

mutual
/-- `repr(node)`. `ends` gives the `end_token` of a `SetNode` by the id of the node, which the model of nodes does not keep. -/
def Node.repr (T : Texts) (ends : Nat → Option Token) : Node → Str
  | .mk k t i _ cs => nodeText T k t (ends i) (Node.reprs T ends cs)
/-- `repr` of each of `self._node_list`. -/
def Node.reprs (T : Texts) (ends : Nat → Option Token) : List Node → List Str
  | [] => []
  | n :: ns => Node.repr T ends n :: Node.reprs T ends ns
end

/-- `ASTResult.__str__`, `hgpl/ast.py:90-91`. -/
def Tri.name : Tri → Str
  | .true => "TRUE".toList
  | .false => "FALSE".toList
  | .undef => "UNDEF".toList

/-- `repr(x)` of a constant. -/
def Atom.repr (T : Texts) : Atom → Str
  | .int i => intText i
  | .flt f => fltText T f
  | .str s => strRepr T s
  | .null => T.null

/-- `str(x)` of a constant. -/
def Atom.text (T : Texts) : Atom → Str
  | .str s => s
  | a => a.repr T

/-- `repr(v)` of a value in a symbol; `ASTResult.__repr__` is `hgpl/ast.py:93-94`. -/
def Scalar.repr (T : Texts) : Scalar → Str
  | .none => "None".toList
  | .bool b => if b then "True".toList else "False".toList
  | .tri t => "ASTResult.".toList ++ t.name
  | .atom a => a.repr T
  | .obj h n => T.obj h n

/-- `str(v)` of a value in a symbol. -/
def Scalar.str (T : Texts) : Scalar → Str
  | .tri t => t.name
  | .atom a => a.text T
  | v => v.repr T

/-- `repr(v)`. -/
def PyVal.repr (T : Texts) : PyVal → Str
  | .sc s => s.repr T
  | .set l => T.set l
  | .list l => "[".toList ++ joinComma (l.map (Scalar.repr T)) ++ "]".toList

/-- `str(v)`. -/
def PyVal.str (T : Texts) : PyVal → Str
  | .sc s => s.str T
  | v => v.repr T

/-- The `name` of members of `SymbolType`, `hgpl/symbols.py:7-15`; AttributeError for `None`. -/
def SymType.memberName : SymType → Except PyExc Str
  | .int => .ok "INT".toList | .float => .ok "FLOAT".toList | .string => .ok "STRING".toList
  | .bool => .ok "BOOL".toList | .unknown => .ok "UNKNOWN".toList | .set => .ok "SET".toList
  | .custom => .ok "CUSTOM".toList | .pyNone => .error .attributeError

/-- `Symbol.__str__`, `hgpl/symbols.py:97-98`. -/
def Symbol.str (T : Texts) (s : Symbol) : Except PyExc Str :=
  s.type.memberName.map fun ty =>
    "<".toList ++ (s.name ++ (", ".toList ++ (ty ++ (", ".toList ++ (s.value.str T ++ ">".toList)))))

/-- `str(node.result)`. -/
def Res.str (T : Texts) (H : Heap) : Res → Except PyExc Str
  | .none => .ok "None".toList
  | .tri t => .ok t.name
  | .atom a => .ok (a.text T)
  | .list l => .ok ("[".toList ++ joinComma (l.map (Atom.repr T)) ++ "]".toList)
  | .sym r => (H r).str T

mutual
/-- `ASTNode._print_tree`, `hgpl/ast.py:187-193`. -/
def Node.printTree (T : Texts) (H : Heap) (indent : Nat) : Node → Except PyExc Str
  | .mk _ t _ r cs => do
    let res ← r.str T H
    let below ← Node.printTrees T H (indent + 3) cs
    pure (List.replicate indent ' ' ++ (t.type.name ++ (": ".toList ++ (t.value.repr T ++ (" -> ".toList ++ (res ++ "\n".toList))))) ++
      below)
/-- The loop of `_print_tree`, `hgpl/ast.py:191-192`. -/
def Node.printTrees (T : Texts) (H : Heap) (indent : Nat) : List Node → Except PyExc Str
  | [] => pure []
  | n :: ns => do
    let a ← Node.printTree T H indent n
    let b ← Node.printTrees T H indent ns
    pure (a ++ b)
end

/-- `ASTNode.__str__`, `hgpl/ast.py:195-196`. -/
def Node.str (T : Texts) (H : Heap) (n : Node) : Except PyExc Str := n.printTree T H 0

/-- `SymbolTable.__str__`, `hgpl/symbols.py:205-211`: the loop goes over the keys of the dictionary, which are strings and
have no attribute `name`. -/
def SymTab.str (t : SymTab) : Except PyExc Str :=
  match t.entries with
  | [] => .ok "Name\t\tSymbol Type\t\tValue\t\tAtt Type\n".toList
  | _ :: _ => .error .attributeError

end Verif
