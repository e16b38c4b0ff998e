import Verif.Spec.Lexical
import Verif.Model.SyntaxErr
/-!
# What the lexer rejects, and with which error

`BadLexeme` lists the ways in which a text can fail to begin with a lexeme, each with the error that is reported: its message, its
position and its token. `Reads` says that lexemes and white space have been read up to some place. Besides the tokens and
the Unicode tables only the type of errors is shared with the model.
-/

namespace Verif.Spec
open Verif

/-- A text put into a sentence. -/
def say (a : String) (x : Str) (b : String) : Str := a.toList ++ x ++ b.toList

/-- An identifier: a letter and then letters, digits and underscores. -/
def Ident (U : Uni) (w : Str) : Prop := ∃ c tl, w = c :: tl ∧ U.isAlpha c = true ∧ ∀ x ∈ tl, IdChar U x

/-- The characters a lexeme can begin with other than letters, digits and '-'. -/
def starters : Str := ['{', '}', ',', '(', ')', '=', '>', '<', '!', '"']

/-- An optional sign and digits. -/
def sign (neg : Bool) : Str := if neg then ['-'] else []

/-- How the next character of a text is shown: Python's `None` at the end. -/
def shown : Option Char → Str
  | none => "None".toList
  | some c => [c]

/-- `BadLexeme U s pos r`: the text `s`, which starts at index `pos` of the policy and not with white space, begins with no
lexeme, and `r` is raised. -/
inductive BadLexeme (U : Uni) : Str → Nat → SyntaxErr → Prop
  /-- A character no lexeme begins with; also '-' without a digit after it. -/
  | char (c : Char) (tl : Str) (pos : Nat) (hs : U.isSpace c = false) (hd : U.isDigit c = false) (ha : U.isAlpha c = false)
      (hc : c ∉ starters) (hm : c = '-' → ∀ d, tl.head? = some d → U.isDigit d = false) :
      BadLexeme U (c :: tl) pos (.lexer (say "Syntax error, encountered an unexpected character, '" [c] "'.") pos none)
  /-- '!' without '='. -/
  | bang (tl : Str) (pos : Nat) (h : tl.head? ≠ some '=') :
      BadLexeme U ('!' :: tl) pos
        (.lexer "Syntax error, found '!' without matching '='. Found '!' in place of '='.".toList (pos + 1)
          (some ⟨.op, pos, .str "!=".toList⟩))
  /-- A string without an end. -/
  | openString (body : Str) (pos : Nat) (h : ∀ c ∈ body, StrChar c) :
      BadLexeme U ('"' :: body) pos
        (.lexer "Syntax error encountered while reading string. End of policy encountered before matching \".".toList pos
          (some ⟨.string, pos, .none⟩))
  /-- A character that may not be in a string. -/
  | stringChar (body : Str) (c : Char) (tl : Str) (pos : Nat) (h : ∀ c ∈ body, StrChar c) (hc : ¬ StrChar c) (hq : c ≠ '"') :
      BadLexeme U ('"' :: (body ++ c :: tl)) pos
        (.lexer (say "Syntax error encountered while reading string. Invalid character, '" [c] "', found in string.")
          (pos + 1 + body.length : Nat) (some ⟨.string, pos, .none⟩))
  /-- A number with '.' and no digit after it. -/
  | dot (neg : Bool) (ds tl : Str) (pos : Nat) (hne : ds ≠ []) (hd : ∀ c ∈ ds, U.isDigit c = true)
      (hx : ∀ d, tl.head? = some d → U.isDigit d = false) :
      BadLexeme U (sign neg ++ ds ++ '.' :: tl) pos
        (.lexer (say "Syntax error encountered while reading floating point number. '.' should be followed by a digit and not '"
          (shown tl.head?) "'.") (pos + (sign neg ++ ds).length + 1 : Nat) (some ⟨.float, pos, .none⟩))
  /-- A number with two '.'s. -/
  | dots (neg : Bool) (ip fp tl : Str) (pos : Nat) (hi : ip ≠ []) (hf : fp ≠ []) (hdi : ∀ c ∈ ip, U.isDigit c = true)
      (hdf : ∀ c ∈ fp, U.isDigit c = true) :
      BadLexeme U (sign neg ++ ip ++ '.' :: fp ++ '.' :: tl) pos
        (.lexer "Syntax error encountered while reading floating point number. Found multiple '.'s in number.".toList
          (pos + (sign neg ++ ip ++ '.' :: fp).length : Nat) (some ⟨.float, pos, .none⟩))
  /-- An integer Python does not read: a digit without decimal value, or too many digits. -/
  | int (neg : Bool) (ds tl : Str) (pos : Nat) (hne : ds ≠ []) (hd : ∀ c ∈ ds, U.isDigit c = true)
      (hx : ∀ c, tl.head? = some c → U.isDigit c = false ∧ c ≠ '.')
      (h : (∃ c ∈ ds, U.digitVal c = none) ∨ ∃ m, U.intLimit = some m ∧ m < ds.length) :
      BadLexeme U (sign neg ++ ds ++ tl) pos (.other .valueError)
  /-- A float with a digit without decimal value. -/
  | float (neg : Bool) (ip fp tl : Str) (pos : Nat) (hi : ip ≠ []) (hf : fp ≠ []) (hdi : ∀ c ∈ ip, U.isDigit c = true)
      (hdf : ∀ c ∈ fp, U.isDigit c = true) (hx : ∀ c, tl.head? = some c → U.isDigit c = false ∧ c ≠ '.')
      (h : ∃ c ∈ ip ++ fp, U.digitVal c = none) :
      BadLexeme U (sign neg ++ ip ++ '.' :: fp ++ tl) pos (.other .valueError)
  /-- An identifier and a '.' at the end of the text. -/
  | attEnd (w : Str) (pos : Nat) (hw : Ident U w) : BadLexeme U (w ++ ['.']) pos (.other .attributeError)
  /-- An identifier and a '.' that is not followed by a name. -/
  | attName (w : Str) (c : Char) (tl : Str) (pos : Nat) (hw : Ident U w) (hc : ¬ IdChar U c) :
      BadLexeme U (w ++ '.' :: c :: tl) pos
        (.lexer (say
          "Syntax error encountered while reading attribute name. '.' needs to be followed by an identifier and not '" [c] "'.")
          (pos + w.length + 1 : Nat) (some ⟨.unkAtt, pos, .str (U.lower w)⟩))
  /-- An attribute of an unknown class. -/
  | attType (w ident tl : Str) (pos : Nat) (hw : Ident U w) (hne : ident ≠ []) (hi : ∀ c ∈ ident, IdChar U c)
      (hx : ∀ c, tl.head? = some c → ¬ IdChar U c) (hc : ∀ kw ty, (kw, ty) ∈ attClasses → ¬ Spells w kw) :
      BadLexeme U (w ++ '.' :: ident ++ tl) pos
        (.lexer (say "Syntax error encountered while reading attribute name. '" w "' is not a valid attribute type.") pos
          (some ⟨.unkAtt, pos, .str (U.lower w)⟩))
  /-- An identifier that is no keyword. -/
  | unknown (w tl : Str) (pos : Nat) (hw : Ident U w) (hx : ∀ c, tl.head? = some c → ¬ IdChar U c ∧ c ≠ '.')
      (hk : ∀ kw ty v, (kw, ty, v) ∈ keywords → ¬ Spells w kw) :
      BadLexeme U (w ++ tl) pos
        (.lexer (say "Syntax error, encountered an unknown identifier, '" w "'.") pos (some ⟨.unkId, pos, .str w⟩))

/-- `Reads U text pos rest pos'`: the text, which starts at index `pos`, begins with lexemes and white space before them, and
`rest`, which starts at `pos'`, is what follows. -/
inductive Reads (U : Uni) : Str → Nat → Str → Nat → Prop
  | none (s : Str) (pos : Nat) : Reads U s pos s pos
  | tok (ws w rest s : Str) (pos pos' : Nat) (ty : TokenType) (v : TVal) (h : ∀ c ∈ ws, U.isSpace c = true)
      (hw : Lexeme U w ty v rest.head?) (hr : Reads U rest (pos + ws.length + w.length) s pos') :
      Reads U (ws ++ w ++ rest) pos s pos'

/-- The text is rejected with the error `r`: after some lexemes and white space comes something that is no lexeme. -/
def LexFails (U : Uni) (text : Str) (pos : Nat) (r : SyntaxErr) : Prop :=
  ∃ ws bad pos', Reads U text pos (ws ++ bad) pos' ∧ (∀ c ∈ ws, U.isSpace c = true) ∧
    BadLexeme U bad (pos' + ws.length) r

end Verif.Spec
