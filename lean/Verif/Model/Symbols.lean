import Verif.Py.Value
/-!
# Symbols and symbol tables (`hgpl/symbols.py`)

`Symbol` objects are shared and mutable: a table holds references to them, the interpreter stores
references in AST nodes. Objects live in a heap `Nat → Symbol`.
-/

namespace Verif

/-- `SymbolType`, `hgpl/symbols.py:7-15`. `pyNone` is Python's `None` where a type is stored:
`convert_token_type` returns it for tokens that are no values. -/
inductive SymType where
  | int | float | string | bool | unknown | set | custom | pyNone
deriving DecidableEq, Repr

/-- `SymbolType.convert_token_type`, `hgpl/symbols.py:17-25`. -/
def SymType.convertTokenType : TokenType → SymType
  | .int => .int
  | .float => .float
  | .bool => .bool
  | .string => .string
  | .lset => .set
  | .rset => .set
  | .null => .unknown
  | _ => .pyNone

/-- The fields of `Symbol`, `hgpl/symbols.py:28-46`. -/
structure Symbol where
  type : SymType
  attType : TokenType
  value : PyVal
  attName : Str
  name : Str
deriving DecidableEq, Repr

/-- `Symbol._att_type_to_policy_var_prefix`, `hgpl/symbols.py:59-65`; `none` is Python's `None`. -/
def attTypePrefix : Option TokenType → Str
  | some .usrAtt => "user.".toList
  | some .objAtt => "object.".toList
  | some .envAtt => "env.".toList
  | some .admAtt => "admin.".toList
  | some .conAtt => "connect.".toList
  | _ => "unkown.".toList

/-- The setter of `Symbol.value`, `hgpl/symbols.py:52-57`: Python booleans become `ASTResult`s. -/
def setterVal : PyVal → PyVal
  | .sc (.bool b) => .sc (.tri (Tri.fromBool b))
  | v => v

/-- `Symbol.__init__`, `hgpl/symbols.py:29-46`. -/
def Symbol.new (U : Uni) (attName : Str) (attType : Option TokenType) (stype : Option SymType)
    (value : PyVal) : Symbol where
  type := stype.getD .unknown
  attType := attType.getD .unkAtt
  value := setterVal value
  attName := U.lower attName
  name := attTypePrefix attType ++ U.lower attName

/-- `Symbol.check_val_type`, `hgpl/symbols.py:67-75`. -/
def Symbol.checkValType (s : Symbol) : Bool :=
  match s.value with
  | .sc v =>
    (v.num.isSome && (s.type == .int || s.type == .float)) ||
    (match v with
     | .atom (.str _) => s.type == .string
     | .tri _ => s.type == .bool
     | _ => false)
  | .set _ | .list _ => s.type == .set

/-- `Symbol.att_to_symbol_name`, `hgpl/symbols.py:77-95`; concatenation with a value that is not a
string raises TypeError. -/
def attToSymbolName (k : Kind) (t : Token) : Except PyExc Str := do
  let pre ← match k with
    | .usrAtt => .ok "user.".toList
    | .objAtt => .ok "object.".toList
    | .admAtt => .ok "admin.".toList
    | .conAtt => .ok "connect.".toList
    | .envAtt => .ok "env.".toList
    | .att => .ok "unknown.".toList
    | _ => .error (.exception "")
  match t.value with
  | .str s => return pre ++ s
  | _ => .error .typeError

/-- `Symbol.__eq__` on symbols, `hgpl/symbols.py:104-105`. -/
def Symbol.eq (a b : Symbol) : Bool := a.name == b.name && a.type == b.type

/-- All `Symbol` objects of the process, by reference. -/
abbrev Heap := Nat → Symbol

/-- Write to an object. -/
def Heap.write (h : Heap) (r : Nat) (s : Symbol) : Heap := fun i => if i = r then s else h i

/-- `SymbolTable`, `hgpl/symbols.py:111-113`: a dict from lower-cased names to symbol objects, in
insertion order. -/
structure SymTab where
  entries : List (Str × Nat) := []
deriving DecidableEq, Repr

namespace SymTab

/-- `self._symbols.get(key)`. -/
def get (t : SymTab) (key : Str) : Option Nat :=
  (t.entries.find? (fun e => e.1 == key)).map Prod.snd

/-- `SymbolTable.define`, `hgpl/symbols.py:115-120`. -/
def define (U : Uni) (h : Heap) (t : SymTab) (r : Nat) : SymTab × Bool :=
  if (t.get (U.lower (h r).name)).isNone then
    (⟨t.entries ++ [(U.lower (h r).name, r)]⟩, true)
  else (t, false)

/-- `SymbolTable.lookup`, `hgpl/symbols.py:122-126`. -/
def lookup (U : Uni) (t : SymTab) (name : Str) : Option Nat := t.get (U.lower name)

/-- `SymbolTable.lookup_type`, `hgpl/symbols.py:128-136`; `none` is Python's `None`. -/
def lookupType (U : Uni) (h : Heap) (t : SymTab) (name : Str) : Option SymType :=
  (t.get (U.lower name)).map (fun r => (h r).type)

/-- `SymbolTable.lookup_att_type`, `hgpl/symbols.py:138-146`. -/
def lookupAttType (U : Uni) (h : Heap) (t : SymTab) (name : Str) : Option TokenType :=
  (t.get (U.lower name)).map (fun r => (h r).attType)

/-- `SymbolTable.lookup_att_name`, `hgpl/symbols.py:148-156`. -/
def lookupAttName (U : Uni) (h : Heap) (t : SymTab) (name : Str) : Option Str :=
  (t.get (U.lower name)).map (fun r => (h r).attName)

/-- `SymbolTable.exists`, `hgpl/symbols.py:158-161`. -/
def «exists» (U : Uni) (t : SymTab) (name : Str) : Bool := (t.get (U.lower name)).isSome

/-- `SymbolTable.names`, `hgpl/symbols.py:163-164`. -/
def names (t : SymTab) : List Str := t.entries.map Prod.fst

/-- `SymbolTable.symbols`, `hgpl/symbols.py:166-167`. -/
def symbols (t : SymTab) : List Nat := t.entries.map Prod.snd

/-- `SymbolTable.lookup_value`, `hgpl/symbols.py:169-178`. -/
def lookupValue (U : Uni) (h : Heap) (t : SymTab) (name : Str) : Except PyExc PyVal :=
  match t.get (U.lower name) with
  | some r => .ok (h r).value
  | none => .error (.exception "")

/-- `SymbolTable.set_value`, `hgpl/symbols.py:180-189`. -/
def setValue (U : Uni) (h : Heap) (t : SymTab) (name : Str) (v : PyVal) : Except PyExc Heap :=
  match t.get (U.lower name) with
  | some r => .ok (h.write r { h r with value := setterVal v })
  | none => .error (.exception "")

/-- `SymbolTable.switch_type`, `hgpl/symbols.py:191-203`. -/
def switchType (U : Uni) (h : Heap) (t : SymTab) (name : Str) (ty : SymType) :
    Except PyExc (Heap × SymType) :=
  match t.get (U.lower name) with
  | some r => .ok (h.write r { h r with type := ty }, (h r).type)
  | none => .error (.exception "")

end SymTab

/-! ### `SymbolTableBuilder` -/

/-- A Python dict from strings, in insertion order. -/
abbrev Dict (α : Type) := List (Str × α)

namespace Dict
/-- `d.get(k)`. -/
def get {α} (d : Dict α) (k : Str) : Option α := (List.find? (fun e => e.1 == k) d).map Prod.snd
/-- `d[k] = v`: an existing key keeps its place. -/
def put {α} : Dict α → Str → α → Dict α
  | [], k, v => [(k, v)]
  | (k', v') :: d, k, v => if k' = k then (k', v) :: d else (k', v') :: put d k v
end Dict

/-- `SymbolTableBuilder.__init__`, `hgpl/symbols.py:217-247`. -/
structure Builder where
  types : Dict SymType := []
  user : Dict PyVal := []
  object : Dict PyVal := []
  env : Dict PyVal := []
  admin : Dict PyVal := []
  connect : Dict PyVal := []
deriving DecidableEq, Repr

/-- `_to_att_type_name`, `hgpl/symbols.py:249-251`: the part before the first dot. -/
def toAttTypeName (s : Str) : Str := s.takeWhile (· ≠ '.')

/-- `_to_att_name`, `hgpl/symbols.py:253-255`: the part after the first dot, IndexError without one. -/
def toAttName (s : Str) : Except PyExc Str :=
  match s.dropWhile (· ≠ '.') with
  | _ :: tl => .ok tl
  | [] => .error .indexError

/-- `reset_values`, `hgpl/symbols.py:257-267`. -/
def Builder.resetValues (b : Builder) : Builder := { types := b.types }

/-- One iteration of `load_mixed_att_val_dict`, `hgpl/symbols.py:273-279`. -/
def Builder.loadOne (b : Builder) (full : Str) (v : PyVal) : Except PyExc Builder :=
  if toAttTypeName full = "user".toList then do
    let n ← toAttName full; return { b with user := b.user.put n v }
  else if toAttTypeName full = "object".toList then do
    let n ← toAttName full; return { b with object := b.object.put n v }
  else if toAttTypeName full = "env".toList then do
    let n ← toAttName full; return { b with env := b.env.put n v }
  else if toAttTypeName full = "admin".toList then do
    let n ← toAttName full; return { b with admin := b.admin.put n v }
  else if toAttTypeName full = "connect".toList then do
    let n ← toAttName full; return { b with connect := b.connect.put n v }
  else .error (.exception "")

/-- `load_mixed_att_val_dict`, `hgpl/symbols.py:269-279`. The entries before an offending one stay loaded, hence the
state in the result. -/
def Builder.load (b : Builder) : Dict PyVal → Builder × Option PyExc
  | [] => (b, none)
  | (k, v) :: d =>
    match b.loadOne k v with
    | .ok b' => b'.load d
    | .error e => (b, some e)

/-- The symbols `build` creates for one class, in order, `hgpl/symbols.py:285-289`. -/
def Builder.classSymbols (U : Uni) (b : Builder) (ty : TokenType) (d : Dict PyVal) : List Symbol :=
  d.map (fun e =>
    let s := Symbol.new U e.1 (some ty) none e.2
    { s with type := (b.types.get s.name).getD .unknown })

/-- All symbols `build` creates, `hgpl/symbols.py:281-290`. -/
def Builder.symbols (U : Uni) (b : Builder) : List Symbol :=
  b.classSymbols U .usrAtt b.user ++ b.classSymbols U .objAtt b.object ++
  b.classSymbols U .envAtt b.env ++ b.classSymbols U .admAtt b.admin ++
  b.classSymbols U .conAtt b.connect

/-- Define consecutive new objects with references from `r` on. -/
def defineAll (U : Uni) : Heap → SymTab → Nat → List Symbol → Heap × SymTab
  | h, t, _, [] => (h, t)
  | h, t, r, s :: ss =>
    let h' := h.write r s
    defineAll U h' (t.define U h' r).1 (r + 1) ss

/-- `SymbolTableBuilder.build`, `hgpl/symbols.py:281-291`; the new symbol objects get references from `r`
on. -/
def Builder.build (U : Uni) (b : Builder) (h : Heap) (r : Nat) : Heap × SymTab :=
  defineAll U h {} r (b.symbols U)

end Verif
