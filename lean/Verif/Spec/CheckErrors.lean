import Verif.Spec.Checking
import Verif.Spec.LexErrors
import Verif.Spec.ParseErrors
/-!
# The texts of what is wrong with a policy

An error of the type checker has a text that depends on the operator and on the kinds of the two operands; a warning names the
attributes. What is shown of an error is its text, its position and the policy around it.
-/

namespace Verif.Spec
open Verif

/-- The text of an error: `check` tells the operator, `l` and `r` are the types of the first tokens of the operands. -/
def clashText (check : String) (l r : TokenType) : Str :=
  if check = "num_check" then
    if l = .string ∨ r = .string then "Type Error, strings can not be compared using inequality operations.".toList
    else if l = .null ∨ r = .null then "Type Error, NULL value can not be compared using inequality operations.".toList
    else "Type Error, sets can not be compared using inequality operations.".toList
  else if check = "eq_check" then
    if l = .null ∨ r = .null then "Type Error, NULL value can only be compared with other NULL values and attributes.".toList
    else if l = .string ∨ r = .string then
      "Type Error, string values can only be compared with other string values and attributes.".toList
    else "Type Error, sets can only be compared with other sets and attributes.".toList
  else if check = "in_check" then
    if r = .null then "Type Error, NULL value can only be used on the left hand side of IN operations.".toList
    else if l = .lset then "Type Error, set values can only be used on the right hand side of IN operations.".toList
    else if r = .string then "Type Error, string value can only be used on the left hand side of IN operations.".toList
    else if r = .int then "Type Error, int value can only be used on the left hand side of IN operations.".toList
    else "Type Error, float value can only be used on the left hand side of IN operations.".toList
  else "Type Error, only sets and attributes can be compared using the SUBSET operation.".toList

/-- An attribute as it is shown: the name is lower-cased. -/
def shownName (U : Uni) (u : Token) : Str := fullPrefix (some u.type) ++ U.lower (attName u)

/-- How the attribute `t` is shown: like the first attribute of the policy with the same full name. -/
def Shown (U : Uni) (atts : List Token) (t : Token) (n : Str) : Prop :=
  ∃ u, atts.find? (fun u => decide (U.lower (shownName U u) = attKey U t)) = some u ∧ n = shownName U u

/-- The text of a report about a comparison. -/
def Says (U : Uni) (atts : List Token) (warn : Bool) (check : String) (l r : Token) (m : Str) : Prop :=
  if warn = true then
    (AttTok l ∧ AttTok r ∧ ∃ a b, Shown U atts l a ∧ Shown U atts r b ∧
      m = say "Possible type error with attributes " a " and " ++
        say "" b ". Attributes compared with different types and each other") ∨
    (∃ t, ((t = l ∧ ¬ AttTok r) ∨ (t = r ∧ ¬ AttTok l)) ∧ AttTok t ∧ ∃ a, Shown U atts t a ∧
      m = say "Possible type error with attribute " a ". Attribute compared with different types.")
  else m = clashText check l.type r.type

/-- The characters at most ten places away from a position. -/
def around (text : Str) (p : Nat) : Str :=
  (text.zipIdx.filter (fun e => decide (p ≤ e.2 + 10 ∧ e.2 ≤ p + 10))).map Prod.fst

/-- What is shown of an error with a text and a position. -/
def shownError (m : Str) (p : Nat) (text : Str) : Str :=
  say "" m " @ char " ++ intText p ++ (if text = [] then [] else say " near '" (around text p) "'")

/-- What is shown of an error of lexer or parser. `builtin` is what Python shows of its own exceptions. -/
def shownSyntax (U : Uni) (builtin : PyExc → Str) (text : Str) : SyntaxErr → Str
  | .lexer m p _ => shownError m p.toNat text
  | .parser m p _ rule => shownError m p.toNat text ++ say " while parsing " (U.upper rule.toList) " rule."
  | .other e => builtin e

/-- What is shown of a policy that is not valid: the first error of lexer, parser or type checker, where warnings count as errors. -/
inductive Fault (U : Uni) (builtin : PyExc → Str) (text : Str) : Str → Prop
  | lexer (r : SyntaxErr) (h : LexFails U text 0 r) : Fault U builtin text (shownSyntax U builtin text r)
  | parser (ts : List Token) (r : SyntaxErr) (h : Tokenizes U text 0 ts) (hr : walk .exp [] ts = some r) :
      Fault U builtin text (shownSyntax U builtin text r)
  | check (p : Policy) (r : Report) (rs : List Report) (m : Str) (h : PolicyOf U text p) (hr : reports U [] p.cmps = r :: rs)
      (hm : Says U p.attToks r.warn r.check r.left r.right m) : Fault U builtin text (shownError m r.pos.toNat text)

end Verif.Spec
