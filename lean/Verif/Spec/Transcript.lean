import Verif.Spec.Warnings
/-!
# What the console of the policy demo shows
-/

namespace Verif.Spec
open Verif

/-- A paragraph that ends with an error; nothing is written about exceptions Python has itself. -/
def errorLine (s : Str) : Str := say "ERROR: " s "\n\n"

def syntaxLine (U : Uni) (text : Str) : SyntaxErr → Str
  | .other _ => []
  | e => errorLine (shownSyntax U (fun _ => []) text e)

/-- A titled list, unless it is empty. -/
def bullets (title : String) (l : List Str) : Str :=
  if l = [] then [] else title.toList ++ ":\n".toList ++ l.flatMap (fun s => say "  * " s "\n")

/-- The paragraph of Tokenize. -/
def TokenizeSays (U : Uni) (text w : Str) : Prop :=
  (∃ ts, Tokenizes U text 0 ts ∧ w = say "Running lexical analysis of policy \"" text "\"...\n" ++
    say "Successfully tokenized policy!\nFound " (intText (ts.length + 1)) " tokens.\n\n") ∨
  ∃ r, LexFails U text 0 r ∧ w = say "Running lexical analysis of policy \"" text "\"...\n" ++ syntaxLine U text r

/-- The paragraph of Parse. -/
def ParseSays (U : Uni) (text w : Str) : Prop :=
  (∃ p, PolicyOf U text p ∧ w = "Running parser on token list...\nSuccessfully build AST from token list!\n\n".toList) ∨
  ∃ ts r, Tokenizes U text 0 ts ∧ walk .exp [] ts = some r ∧ w = "Running parser on token list...\n".toList ++ syntaxLine U text r

/-- The result of the type checker. -/
def checkName (rs : List Report) : Str :=
  if rs = [] then "PASS".toList else if ∀ r ∈ rs, r.warn = true then "WARN".toList else "ERROR".toList

/-- The paragraph of Type Check: errors first, then warnings, each list in the order of the policy. -/
def CheckSays (U : Uni) (text : Str) (p : Policy) (w : Str) : Prop :=
  ∃ ms : List Str, ms.length = (reports U [] p.cmps).length ∧
    (∀ e ∈ (reports U [] p.cmps).zip ms, Says U p.attToks e.1.warn e.1.check e.1.left e.1.right e.2) ∧
    let lines (warn : Bool) : List Str := (((reports U [] p.cmps).zip ms).filter (fun e => e.1.warn == warn)).map
      fun e => shownError e.2 e.1.pos.toNat text
    w = "Running type checker and symbol table builder on AST...\n".toList ++ bullets "Errors" (lines false) ++
      bullets "Warnings" (lines true) ++ say "Successfully type checked AST!\nResult: " (checkName (reports U [] p.cmps)) "\n\n"

/-- How a result is called: a truth value by its name, an attribute by the name its symbol has. -/
def calledResult (names : Token → Option Str) (p : Policy) : Den → Option Str
  | .truth .true => some "TRUE".toList
  | .truth .false => some "FALSE".toList
  | .truth .undef => some "UNDEF".toList
  | _ => match p with
    | .att t => names t
    | _ => none

/-- The paragraph of Interpret. An error hides the warnings before it. -/
def InterpretSays (U : Uni) (A : Atts) (names : Token → Option Str) (text : Str) (p : Policy) (w : Str) : Prop :=
  match (semPolicy U A p).2 with
  | .error (.interpreterError pos rule) => w = "Running interpreter on AST and symbol table...\n".toList ++
      errorLine (shownError (evalComplaint rule) pos.toNat text)
  | .error _ => w = "Running interpreter on AST and symbol table...\n".toList
  | .ok d => ∃ n, calledResult names p d = some n ∧ w = "Running interpreter on AST and symbol table...\n".toList ++
      bullets "Warnings" ((remarks U A p).map (Remark.shown text)) ++ say "Successfully interpreted AST!\nResult: " n "\n\n"

end Verif.Spec
