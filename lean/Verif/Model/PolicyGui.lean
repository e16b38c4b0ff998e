import Verif.Model.TypeChecker
import Verif.Model.Interpreter
import Verif.Model.AAuth

/-!
# Model of the policy demo, `LexerDemoFrame` of `hgpl/gui/demos.py`

The state of the frame is the policy in the combo box, the results of the stages, which buttons are enabled, the attribute
table and what was written to the console. Texts of the console are in `PolicyConsole`, the trees that display tokens, nodes and
symbols in `PolicyTrees`; layout is not modelled. Symbols of the type checker live in a heap of their own, as nothing else refers
to them. Node ids used up by a parse that fails are not counted. Events for disabled widgets do nothing.
-/

namespace Verif

/-- `ErrorType.CRIT`, `hgpl/errors.py:6`, the default of `TypeChecker.check`, `hgpl/semantics.py:231`. -/
def levelCRIT : Int := 4

/-- Subclasses of `HGPLError`, `hgpl/errors.py:13-87`. -/
def PyExc.isHGPL : PyExc → Bool
  | .lexerError _ | .parserError _ _ | .interpreterError _ _ | .interpreterWarning _ _ | .typeCheckerError _ _
  | .typeCheckerWarning _ _ => true
  | _ => false

/-- What a command reports on the console. -/
inductive GuiEntry where
  | tokenized (n : Nat)
  | parsed
  | checked (errors warnings : List Issue) (result : TCResult)
  | interpreted (warnings : List Warn) (name : Str)
  | error (e : PyExc)
deriving DecidableEq, Repr

/-- The fields of the frame, `hgpl/gui/demos.py:37-46`, and the state of its widgets. -/
structure PolicyGui where
  text : Str
  env : SymEnv
  combo : Bool := true
  tokens : Option (List Token) := none
  ast : Option Node := none
  checked : Option TC := none
  tokenizeOn : Bool := true
  parseOn : Bool := false
  checkOn : Bool := false
  interpretOn : Bool := false
  nextId : Nat := 0
  console : List GuiEntry := []

namespace PolicyGui

/-- `except HGPLError as e`, e.g. `hgpl/gui/demos.py:287-288`; other exceptions leave the command. -/
def fail (g : PolicyGui) (e : PyExc) : PolicyGui × Option PyExc :=
  if e.isHGPL then ({ g with console := g.console ++ [.error e] }, none) else (g, some e)

/-- `_command_tokenize`, `hgpl/gui/demos.py:261-296`. -/
def tokenize (U : Uni) (g : PolicyGui) : PolicyGui × Option PyExc :=
  let g := { g with tokens := none, ast := none, checked := none, parseOn := false, checkOn := false, interpretOn := false,
                    combo := false }
  match lexTokens U g.text with
  | .error e => g.fail e
  | .ok ts =>
    ({ g with tokens := some ts, parseOn := true, tokenizeOn := false, console := g.console ++ [.tokenized ts.length] }, none)

/-- `_command_parse`, `hgpl/gui/demos.py:298-328`; for a token list `None` the constructor raises Exception. -/
def parse (U : Uni) (g : PolicyGui) : PolicyGui × Option PyExc :=
  let g := { g with ast := none, checked := none, checkOn := false, interpretOn := false, tokenizeOn := false }
  match g.tokens with
  | none => g.fail (.exception "")
  | some ts =>
    match parseTokens U g.nextId ts with
    | .error e => g.fail e
    | .ok (n, k) =>
      ({ g with ast := some n, nextId := k, checkOn := true, parseOn := false, console := g.console ++ [.parsed] }, none)

/-- The state of a new `TypeChecker`, `hgpl/semantics.py:20-23`. -/
def newChecker (U : Uni) : TC := { heap := fun _ => Symbol.new U [] none none (.sc .none), next := 0 }

/-- `_command_type_check`, `hgpl/gui/demos.py:330-373`. -/
def typeCheck (U : Uni) (g : PolicyGui) : PolicyGui × Option PyExc :=
  let g := { g with checked := none, interpretOn := false, tokenizeOn := false, parseOn := false }
  match g.ast with
  | none => g.fail (.exception "")
  | some n =>
    match TC.check U (some levelCRIT) n (newChecker U) with
    | (_, .error e) => g.fail e
    | (s, .ok _) =>
      let g := { g with checked := some s, console := g.console ++ [.checked s.getErrors s.getWarnings s.getResult] }
      if s.getResult = .pass ∨ s.getResult = .warn then ({ g with interpretOn := true, checkOn := false }, none)
      else (g, none)

/-- `result.name`, `hgpl/gui/demos.py:410`: the name of an `ASTResult` or of a `Symbol`; other objects have none. -/
def resultName (E : SymEnv) : Res → Option Str
  | .tri .true => some "TRUE".toList
  | .tri .false => some "FALSE".toList
  | .tri .undef => some "UNDEF".toList
  | .sym r => some (E.heap r).name
  | _ => none

/-- `_command_interpret`, `hgpl/gui/demos.py:381-419`: the AST evaluated is replaced by the copy made before. Copying values and
types into the table of the type checker succeeds and is undone as well. -/
def interpret (U : Uni) (g : PolicyGui) : PolicyGui × Option PyExc :=
  let g := { g with checkOn := false, tokenizeOn := false, parseOn := false }
  match g.ast with
  | none => g.fail (.exception "")
  | some n =>
    match Interp.evaluate U g.env (some levelERROR) ⟨n, []⟩ with
    | (_, .error e) => g.fail e
    | (i, .ok r) =>
      match g.checked with
      | none => g.fail .attributeError
      | some _ =>
        match resultName g.env r with
        | none => (g, some .attributeError)
        | some name => ({ g with console := g.console ++ [.interpreted i.warnings name] }, none)

/-- `_command_reset`, `hgpl/gui/demos.py:421-448`. -/
def reset (g : PolicyGui) : PolicyGui :=
  { g with tokens := none, ast := none, checked := none, tokenizeOn := true, parseOn := false, checkOn := false,
           interpretOn := false, combo := true, console := [] }

/-! ### Editing attributes -/

/-- The text in front of an attribute's name, `hgpl/gui/demos.py:154-156`, from the class under which it is listed, `:142-150`. -/
def rowPrefix : TokenType → Str
  | .usrAtt => "user.".toList
  | .objAtt => "object.".toList
  | .envAtt => "env.".toList
  | .admAtt => "admin.".toList
  | .conAtt => "connect.".toList
  | _ => []

/-- `{x.strip() for x in value.replace('{', '').replace('}', '').replace('\'', '').split(',')}`, `hgpl/gui/demos.py:165`. -/
def setElements (U : Uni) (value : Str) : List Str :=
  (pySplit ',' (value.filter (fun c => c ≠ '{' && c ≠ '}' && c ≠ '\''))).map (pyStrip U)

/-- The new value, `hgpl/gui/demos.py:158-172`; `none` if there is none. `float(value)` is left to the caller. -/
def newValue (U : Uni) (toFloat : Str → Except PyExc PyFloat) (type : SymType) (value : Str) : Except PyExc (Option PyVal) :=
  match type with
  | .int => (pyIntBase U 10 value).map (fun i => some (.sc (.atom (.int i))))
  | .float => (toFloat value).map (fun f => some (.sc (.atom (.flt f))))
  | .set => .ok (some (.set ((setElements U value).map (fun s => .atom (.str s)))))
  | .string => .ok (some (.sc (.atom (.str value))))
  | .bool => .ok (some (.sc (.bool (decide (pyStrip U (U.lower value) ∈ ["true".toList, "t".toList, "1".toList])))))
  | _ => .ok none

/-- `_update_att`, `hgpl/gui/demos.py:152-178`, for the row of a symbol; a ValueError is printed. -/
def edit (U : Uni) (toFloat : Str → Except PyExc PyFloat) (g : PolicyGui) (row : Nat) (value : Str) : PolicyGui × Option PyExc :=
  match newValue U toFloat (g.env.heap row).type value with
  | .error .valueError => (g, none)
  | .error e => (g, some e)
  | .ok none => (g, none)
  | .ok (some v) =>
    match g.env.tab.setValue U g.env.heap (rowPrefix (g.env.heap row).attType ++ (g.env.heap row).attName) v with
    | .error e => (g, some e)
    | .ok h => ({ g with env := { g.env with heap := h } }, none)

/-! ### The event loop -/

/-- What the user can do. -/
inductive Event where
  | setText (text : Str)
  | tokenize | parse | typeCheck | interpret | reset
  | edit (row : Nat) (value : Str)

/-- One event; `_optimize_button` is never enabled. -/
def step (U : Uni) (toFloat : Str → Except PyExc PyFloat) (g : PolicyGui) : Event → PolicyGui × Option PyExc
  | .setText t => (if g.combo then { g with text := t } else g, none)
  | .tokenize => if g.tokenizeOn then g.tokenize U else (g, none)
  | .parse => if g.parseOn then g.parse U else (g, none)
  | .typeCheck => if g.checkOn then g.typeCheck U else (g, none)
  | .interpret => if g.interpretOn then g.interpret U else (g, none)
  | .reset => (g.reset, none)
  | .edit row value => if row ∈ g.env.tab.symbols then g.edit U toFloat row value else (g, none)

/-- The state after a list of events; exceptions end a command, not the program. -/
def run (U : Uni) (toFloat : Str → Except PyExc PyFloat) (g : PolicyGui) : List Event → PolicyGui
  | [] => g
  | e :: es => run U toFloat (g.step U toFloat e).1 es

end PolicyGui

end Verif
