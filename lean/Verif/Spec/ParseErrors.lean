import Verif.Spec.Grammar
import Verif.Spec.LexErrors
import Verif.Model.LexerObj
import Verif.Model.Texts
/-!
# What the parser rejects, and with which error

A table of the places in a policy, for each of them the tokens that may come next, and what is said if none of them comes. The
automaton reads the tokens from left to right, keeps the parentheses that are open, and looks one token ahead at the
beginning of an expression. It knows nothing of the rules of the parser. Only the names of the token types and the decimal
notation of integers are shared with the model.
-/

namespace Verif.Spec
open Verif

/-- Where in a policy one can be. `left` says whether an operand is the left one. -/
inductive Place where
  /-- Before an expression. -/
  | exp
  /-- After NOT. -/
  | neg
  /-- After a left operand. -/
  | op
  /-- Before a right operand. -/
  | var
  /-- After '{'. -/
  | first (left : Bool)
  /-- After ',' in a set. -/
  | item (left : Bool)
  /-- After an element of a set. -/
  | more (left : Bool)
  /-- After an expression. -/
  | done
deriving DecidableEq, Repr

/-- The place after an operand. -/
def Place.after (left : Bool) : Place := if left then .op else .done

/-- What is said about a token that may not come at a place; `opened` are the open parentheses, innermost first. -/
def complaint (opened : List Token) (t : Token) : Place → Str × String
  | .exp => (say "Syntax error, unexpected " t.type.name " at char " ++ say "" (intText t.pos) ". Expected start of EXP rule.", "exp")
  | .neg => (say "Syntax error, expected attribute name and not " t.type.name ".", "att_name")
  | .op => (say "Syntax error, expected operation not " t.type.name ".", "exp")
  | .var =>
    (say "Syntax error, unexpected " t.type.name " at char " ++ say "" (intText t.pos) ". Expected attribute or constant.", "var")
  | .first _ => (say "Syntax error, expected atomic constant and not " t.type.name ".", "atomic")
  | .item _ => (say "Syntax error, expected atomic constant and not " t.type.name ".", "atomic")
  | .more _ => (say "Syntax error, expected ',' not " t.type.name " in set notation.", "set")
  | .done =>
    match opened with
    | l :: _ => (say "Syntax error, '(' at char " (intText l.pos) " is missing matching ')'.", "exp")
    | [] => ("Syntax error, expected END token marking end of policy.".toList, "parse")

/-- The error with this complaint. -/
def refusal (pl : Place) (opened : List Token) (t : Token) : SyntaxErr :=
  .parser (complaint opened t pl).1 t.pos t (complaint opened t pl).2

/-- What a token leads to. -/
inductive Move where
  | go (pl : Place) (opened : List Token)
  | stop
  | fail (r : SyntaxErr)
deriving DecidableEq, Repr

/-- A literal or an attribute that is an expression by itself. -/
def single (pl : Place) (opened : List Token) (t : Token) : Move :=
  if AttTok t then .go .done opened
  else if t.type = .bool then
    match t.value with
    | .str _ => .go .done opened
    | _ => .fail (.other .attributeError)
  else .fail (refusal pl opened t)

/-- The table: the token `t` at a place, with `next` as the type of the token after it. -/
def move (pl : Place) (opened : List Token) (t : Token) (next : Option TokenType) : Move :=
  match pl with
  | .exp =>
    if t.type = .notOp then .go .neg opened
    else if t.type = .lparn then .go .exp (t :: opened)
    else if t.type = .lset then .go (.first true) opened
    else if next = none then .fail (.other .indexError)
    else if (AttTok t ∨ AtomTok false t) ∧ next = some .op then .go .op opened
    else single .exp opened t
  | .neg => if t.type = .lparn then .go .exp (t :: opened) else single .neg opened t
  | .op => if t.type = .op then .go .var opened else .fail (refusal .op opened t)
  | .var =>
    if AttTok t ∨ AtomTok false t then .go .done opened
    else if t.type = .lset then .go (.first false) opened
    else .fail (refusal .var opened t)
  | .first l =>
    if t.type = .rset then .go (.after l) opened
    else if AtomTok false t then .go (.more l) opened else .fail (refusal (.first l) opened t)
  | .item l => if AtomTok false t then .go (.more l) opened else .fail (refusal (.item l) opened t)
  | .more l =>
    if t.type = .rset then .go (.after l) opened
    else if t.type = .comma then .go (.item l) opened else .fail (refusal (.more l) opened t)
  | .done =>
    if AndTok t ∨ OrTok t then .go .exp opened
    else match opened with
      | _ :: o => if t.type = .rparn then .go .done o else .fail (refusal .done opened t)
      | [] => if t.type = .«end» then .stop else .fail (refusal .done opened t)

/-- Reading the tokens from a place on: the error, or nothing if they make a policy with its END. -/
def walk (pl : Place) (opened : List Token) : List Token → Option SyntaxErr
  | [] => some (.other .attributeError)
  | t :: ts =>
    match move pl opened t (ts.head?.map Token.type) with
    | .go pl' o' => walk pl' o' ts
    | .stop => none
    | .fail r => some r

/-- The error of a list of tokens, or nothing if it is START, a policy and END. -/
def verdict : List Token → Option SyntaxErr
  | [] => some (.other .indexError)
  | s :: ts =>
    if s.type = .start then walk .exp [] ts
    else some (.parser "Syntax error, missing START token at beginning of token list.".toList s.pos s "parse")

end Verif.Spec
