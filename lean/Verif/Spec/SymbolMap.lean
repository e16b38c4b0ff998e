import Verif.Model.Symbols
import Verif.Spec.Lexical
/-!
# Symbol tables as finite maps

No objects and no references: a map from lower-cased names to records, with the order of insertion. From the model it
uses the record type `Symbol`.
-/

namespace Verif.Spec
open Verif

/-- The prefix of an attribute class in full names; attributes of no class get the prefix `unkown.` (as spelled in the
code). -/
def fullPrefix (ty : Option TokenType) : Str :=
  match attClasses.find? (fun c => some c.2 = ty) with
  | some (kw, _) => (kw ++ ".").toList
  | none => "unkown.".toList

/-- Python booleans are stored as truth values. -/
def stored : PyVal → PyVal
  | .sc (.bool true) => .sc (.tri .true)
  | .sc (.bool false) => .sc (.tri .false)
  | v => v

/-- Calls on a symbol table. -/
inductive SymOp where
  /-- `define(Symbol(n, ty, st, v))` -/
  | define (n : Str) (ty : Option TokenType) (st : Option SymType) (v : PyVal)
  | lookup (name : Str)
  | lookupType (name : Str)
  | lookupAttType (name : Str)
  | lookupAttName (name : Str)
  | «exists» (name : Str)
  | names
  | symbols
  | lookupValue (name : Str)
  | setValue (name : Str) (v : PyVal)
  | switchType (name : Str) (ty : SymType)

/-- What a caller sees. -/
inductive SymObs where
  | bool (b : Bool)
  | unit
  | symbol (s : Option Symbol)
  | type (t : Option SymType)
  | attType (t : Option TokenType)
  | attName (s : Option Str)
  | names (l : List Str)
  | symbols (l : List Symbol)
  | value (v : PyVal)
  | raised (e : PyExc)
deriving DecidableEq

/-- A finite map with insertion order. -/
structure SymMap where
  order : List Str := []
  content : Str → Option Symbol := fun _ => none

/-- Change one key. -/
def SymMap.set (m : SymMap) (k : Str) (s : Symbol) : SymMap :=
  { m with content := fun i => if i = k then some s else m.content i }

/-- One call on the abstract map. -/
def SymMap.step (U : Uni) (m : SymMap) : SymOp → SymMap × SymObs
  | .define n ty st v =>
    let name := fullPrefix ty ++ U.lower n
    match m.content (U.lower name) with
    | some _ => (m, .bool false)
    | none =>
      ({ (m.set (U.lower name) ⟨st.getD .unknown, ty.getD .unkAtt, stored v, U.lower n, name⟩) with
          order := m.order ++ [U.lower name] }, .bool true)
  | .lookup n => (m, .symbol (m.content (U.lower n)))
  | .lookupType n => (m, .type ((m.content (U.lower n)).map (·.type)))
  | .lookupAttType n => (m, .attType ((m.content (U.lower n)).map (·.attType)))
  | .lookupAttName n => (m, .attName ((m.content (U.lower n)).map (·.attName)))
  | .exists n => (m, .bool (m.content (U.lower n)).isSome)
  | .names => (m, .names m.order)
  | .symbols => (m, .symbols (m.order.filterMap m.content))
  | .lookupValue n =>
    match m.content (U.lower n) with
    | some s => (m, .value s.value)
    | none => (m, .raised (.exception ""))
  | .setValue n v =>
    match m.content (U.lower n) with
    | some s => (m.set (U.lower n) { s with value := stored v }, .unit)
    | none => (m, .raised (.exception ""))
  | .switchType n ty =>
    match m.content (U.lower n) with
    | some s => (m.set (U.lower n) { s with type := ty }, .type (some s.type))
    | none => (m, .raised (.exception ""))

/-- A sequence of calls. -/
def SymMap.run (U : Uni) : SymMap → List SymOp → List SymObs
  | _, [] => []
  | m, o :: os => (m.step U o).2 :: SymMap.run U (m.step U o).1 os

/-! ### What a table built from loaded attributes contains -/

/-- Read `class.name`. -/
def parseFull (full : Str) : Option (TokenType × Str) :=
  attClasses.findSome? fun c =>
    if (c.1.toList ++ ['.']).isPrefixOf full then some (c.2, full.drop (c.1.length + 1)) else none

/-- The symbol of a loaded entry: declared type or UNKNOWN, booleans as truth values. -/
def loadedSymbol (U : Uni) (types : Dict SymType) (ty : TokenType) (n : Str) (v : PyVal) : Symbol :=
  let name := fullPrefix (some ty) ++ U.lower n
  ⟨(types.get name).getD .unknown, ty, stored v, U.lower n, name⟩

/-- The symbols of loaded entries that are filed under a key, in the order of the dictionary. -/
def loadedUnder (U : Uni) (types : Dict SymType) (d : Dict PyVal) (key : Str) : List Symbol :=
  d.filterMap fun e => (parseFull e.1).bind fun p =>
    let s := loadedSymbol U types p.1 p.2 e.2
    if U.lower s.name = key then some s else none

end Verif.Spec
