import Verif.Model.PolicyGui
import Verif.Model.Texts
import Verif.Model.CheckMessages
import Verif.Model.InterpMessages
/-!
# The console of the policy demo (`hgpl/gui/demos.py`)

What the commands of `Model/PolicyGui.lean` insert into the console, as text. An exception that is no `HGPLError` leaves the command:
what was inserted before stays.
-/

namespace Verif
namespace PolicyGui

/-- The line for an error, e.g. `hgpl/gui/demos.py:288`. -/
def wroteError (s : Str) : Str := "ERROR: ".toList ++ s ++ "\n\n".toList

/-- What is inserted for an error of lexer or parser: nothing if it is no `HGPLError`. -/
def wroteSyntax (U : Uni) (text : Str) (e : SyntaxErr) : Str :=
  match e.str U (some text) with
  | some s => wroteError s
  | none => []

/-- A list of errors or warnings, if there are any, `hgpl/gui/demos.py:350-358,398-401`. -/
def wroteList (title : String) : List Str → Str
  | [] => []
  | l => title.toList ++ ":\n".toList ++ l.flatMap (fun s => "  * ".toList ++ s ++ "\n".toList)

/-- Inserted by `_command_tokenize`, `hgpl/gui/demos.py:281-290`. -/
def wroteTokenize (U : Uni) (g : PolicyGui) : Str :=
  "Running lexical analysis of policy \"".toList ++ g.text ++ "\"...\n".toList ++
    match lexTokensM U g.text with
    | .error e => wroteSyntax U g.text e
    | .ok ts => "Successfully tokenized policy!\nFound ".toList ++ intText ts.length ++ " tokens.\n\n".toList

/-- Inserted by `_command_parse`, `hgpl/gui/demos.py:315-322`. -/
def wroteParse (U : Uni) (g : PolicyGui) : Str :=
  "Running parser on token list...\n".toList ++
    match g.tokens with
    | none => []
    | some ts =>
      match parseTokensM U g.nextId ts with
      | .error e => wroteSyntax U g.text e
      | .ok _ => "Successfully build AST from token list!\n\n".toList

/-- `TypeCheckerResult.name`, `hgpl/semantics.py:7-11`. -/
def TCResult.name : TCResult → Str
  | .none => "NONE".toList
  | .pass => "PASS".toList
  | .warn => "WARN".toList
  | .error => "ERROR".toList

/-- `str` of issues, with their messages. -/
def issueTexts (text : Str) (l : List (Issue × Str)) : List Str := l.map (fun e => HGPLError.str ⟨e.2, some text, e.1.pos⟩)

/-- Inserted by `_command_type_check`, `hgpl/gui/demos.py:343-364`. -/
def wroteCheck (U : Uni) (g : PolicyGui) : Str :=
  "Running type checker and symbol table builder on AST...\n".toList ++
    match g.ast with
    | none => []
    | some n =>
      match TCM.check U (some levelCRIT) n ⟨newChecker U, []⟩ with
      | (_, .error (.issue i m)) => wroteError (HGPLError.str ⟨m, some g.text, i.pos⟩)
      | (_, .error (.other _)) => []
      | (s, .ok _) =>
        let issues := s.tc.issues.zip s.msgs
        wroteList "Errors" (issueTexts g.text (issues.filter (fun x => x.1.type == levelERROR))) ++
        wroteList "Warnings" (issueTexts g.text (issues.filter (fun x => x.1.type == levelWARN))) ++
        "Successfully type checked AST!\nResult: ".toList ++ TCResult.name s.tc.getResult ++ "\n\n".toList

/-- Inserted by `_command_interpret`, `hgpl/gui/demos.py:392-410`; the name of the result is taken last, at line 410. -/
def wroteInterpret (U : Uni) (g : PolicyGui) : Str :=
  "Running interpreter on AST and symbol table...\n".toList ++
    match g.ast with
    | none => []
    | some n =>
      match InterpM.evaluate U g.env (some levelERROR) ⟨n, []⟩ with
      | (_, .error (.warning w)) => wroteError (w.str (some g.text))
      | (_, .error (.error (.said pos _ msg))) => wroteError (HGPLError.str ⟨msg, some g.text, pos⟩)
      | (_, .error (.error (.other _))) => []
      | (i, .ok r) =>
        wroteList "Warnings" (i.warnings.map (WarnM.str (some g.text))) ++
        match resultName g.env r with
        | none => []
        | some name => "Successfully interpreted AST!\nResult: ".toList ++ name ++ "\n\n".toList

end PolicyGui

/-- The frame with the text in its console. -/
structure Console where
  gui : PolicyGui
  shown : Str := []

/-- One event: what is inserted at the end of the console; `_command_reset` empties it first, `hgpl/gui/demos.py:444-446`. -/
def Console.step (U : Uni) (toFloat : Str → Except PyExc PyFloat) (c : Console) (e : PolicyGui.Event) : Console × Option PyExc :=
  let g := c.gui
  (⟨(g.step U toFloat e).1,
    match e with
    | .tokenize => if g.tokenizeOn then c.shown ++ g.wroteTokenize U else c.shown
    | .parse => if g.parseOn then c.shown ++ g.wroteParse U else c.shown
    | .typeCheck => if g.checkOn then c.shown ++ g.wroteCheck U else c.shown
    | .interpret => if g.interpretOn then c.shown ++ g.wroteInterpret U else c.shown
    | .reset => "Reset.\n\n".toList
    | .setText _ => c.shown
    | .edit _ _ => c.shown⟩, (g.step U toFloat e).2)

/-- The frame after a list of events. -/
def Console.run (U : Uni) (toFloat : Str → Except PyExc PyFloat) (c : Console) : List PolicyGui.Event → Console
  | [] => c
  | e :: es => Console.run U toFloat (c.step U toFloat e).1 es

end Verif
