import Verif.Model.PolicyGui
/-!
# The trees of the policy demo (`hgpl/gui/demos.py`)

Rows of the four `Treeview`s, as the objects passed to `insert`. Tk keeps their texts, so later changes of an object do not show; a
result that is a symbol is therefore recorded with the symbol's fields. Members of `SymbolType` are assumed where `.type.name` is
taken. Headings and layout are not modelled.
-/

namespace Verif

/-- A result as it shows, `hgpl/gui/demos.py:93`. -/
inductive Cell where
  | nothing
  | truth (t : Tri)
  | const (a : Atom)
  | list (l : List Atom)
  | symbol (s : Symbol)
deriving DecidableEq, Repr

/-- The result of a node at the time it is drawn. -/
def cellOf (H : Heap) : Res → Cell
  | .none => .nothing
  | .tri t => .truth t
  | .atom a => .const a
  | .list l => .list l
  | .sym r => .symbol (H r)

/-- Rows of the AST tree below each other: type and value of the token, and the result. -/
inductive Drawn where
  | mk (type : TokenType) (value : TVal) (result : Cell) (rows : List Drawn)

mutual
/-- `_insert_ast_nodes`, `hgpl/gui/demos.py:92-95`. -/
def drawNode (H : Heap) : Node → Drawn
  | .mk _ t _ r cs => .mk t.type t.value (cellOf H r) (drawNodes H cs)

def drawNodes (H : Heap) : List Node → List Drawn
  | [] => []
  | n :: ns => drawNode H n :: drawNodes H ns
end

/-- The rows of `_build_token_list`, `hgpl/gui/demos.py:66-68`. -/
def tokenRows (ts : List Token) : List (TokenType × TVal × Int) := ts.map fun t => (t.type, t.value, t.pos)

/-- The rows of `_build_symbol_table`, `hgpl/gui/demos.py:88-90`. -/
def symbolRows (H : Heap) (tab : SymTab) : List (Str × SymType × PyVal) :=
  tab.symbols.map fun r => ((H r).name, (H r).type, (H r).value)

/-- The loop that copies values and types into the table of the type checker, `hgpl/gui/demos.py:403-406`. -/
def copySymbols (U : Uni) (E : SymEnv) (tab : SymTab) (H : Heap) : List Nat → Except PyExc Heap
  | [] => .ok H
  | r :: rs =>
    if E.tab.exists U (H r).name then do
      let v ← E.tab.lookupValue U E.heap (H r).name
      let H ← tab.setValue U H (H r).name v
      let (H, _) ← tab.switchType U H (H r).name ((E.tab.lookupType U E.heap (H r).name).getD .pyNone)
      copySymbols U E tab H rs
    else copySymbols U E tab H rs

/-- The trees. `atts` is the value in the row of each symbol of the attribute table. -/
structure Trees where
  tokens : List (TokenType × TVal × Int) := []
  ast : Option Drawn := none
  symbols : List (Str × SymType × PyVal) := []
  atts : Nat → PyVal

/-- The frame with its trees. -/
structure Window where
  gui : PolicyGui
  trees : Trees

namespace Window
open PolicyGui

/-- A new frame: `_build_widgets` draws the attributes and empty trees, `hgpl/gui/demos.py:142-150,206,229,235,253`. -/
def make (g : PolicyGui) : Window := ⟨g, { atts := fun r => (g.env.heap r).value }⟩

/-- `_command_tokenize`, `hgpl/gui/demos.py:271-273,291`. -/
def tokenize (U : Uni) (w : Window) : Trees :=
  match lexTokens U w.gui.text with
  | .error _ => { w.trees with tokens := [], ast := none, symbols := [] }
  | .ok ts => { w.trees with tokens := tokenRows ts, ast := none, symbols := [] }

/-- `_command_parse`, `hgpl/gui/demos.py:306-307,323`. -/
def parse (U : Uni) (w : Window) : Trees :=
  let t := { w.trees with ast := none, symbols := [] }
  match w.gui.tokens with
  | none => t
  | some ts =>
    match parseTokens U w.gui.nextId ts with
    | .error _ => t
    | .ok (n, _) => { t with ast := some (drawNode w.gui.env.heap n) }

/-- `_command_type_check`, `hgpl/gui/demos.py:333,366`. -/
def typeCheck (U : Uni) (w : Window) : Trees :=
  let t := { w.trees with symbols := [] }
  match w.gui.ast with
  | none => t
  | some n =>
    match TC.check U (some levelCRIT) n (newChecker U) with
    | (_, .error _) => t
    | (s, .ok _) => { t with symbols := symbolRows s.heap s.tab }

/-- `_command_interpret`, `hgpl/gui/demos.py:393-412`: trees are drawn after the name of the result was taken, from the evaluated
AST and the table copied to. -/
def interpret (U : Uni) (w : Window) : Trees :=
  match w.gui.ast, w.gui.checked with
  | some n, some s =>
    match Interp.evaluate U w.gui.env (some levelERROR) ⟨n, []⟩ with
    | (_, .error _) => w.trees
    | (i, .ok r) =>
      match copySymbols U w.gui.env s.tab s.heap s.tab.symbols, resultName w.gui.env r with
      | .ok H, some _ => { w.trees with symbols := symbolRows H s.tab, ast := some (drawNode w.gui.env.heap i.ast) }
      | _, _ => w.trees
  | _, _ => w.trees

/-- `_update_att`, `hgpl/gui/demos.py:174-177`: the row shows the new value before it is stored. -/
def edit (U : Uni) (toFloat : Str → Except PyExc PyFloat) (w : Window) (row : Nat) (value : Str) : Trees :=
  match newValue U toFloat (w.gui.env.heap row).type value with
  | .ok (some v) => { w.trees with atts := fun r => if r = row then v else w.trees.atts r }
  | _ => w.trees

/-- One event. -/
def step (U : Uni) (toFloat : Str → Except PyExc PyFloat) (w : Window) (e : Event) : Window :=
  ⟨(w.gui.step U toFloat e).1,
    match e with
    | .setText _ => w.trees
    | .tokenize => if w.gui.tokenizeOn then w.tokenize U else w.trees
    | .parse => if w.gui.parseOn then w.parse U else w.trees
    | .typeCheck => if w.gui.checkOn then w.typeCheck U else w.trees
    | .interpret => if w.gui.interpretOn then w.interpret U else w.trees
    | .reset => { w.trees with tokens := [], ast := none, symbols := [] }
    | .edit row value => if row ∈ w.gui.env.tab.symbols then w.edit U toFloat row value else w.trees⟩

/-- The window after a list of events. -/
def run (U : Uni) (toFloat : Str → Except PyExc PyFloat) (w : Window) : List Event → Window
  | [] => w
  | e :: es => run U toFloat (w.step U toFloat e) es

end Window

end Verif
