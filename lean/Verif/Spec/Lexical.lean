import Verif.Model.Token
/-!
# Lexical grammar of HGPLv2

A declarative account of which strings are lexemes of which tokens and of how a text splits into
lexemes and white space, following `hgpl/docs/HGPL_ABNF_V2.txt` (`id`, `int`, `float`, `string`, `op`,
`boolean`, `att_name`, and the notes on case and white space). It shares only the token type and the Unicode
tables with the model.
-/

namespace Verif.Spec
open Verif

/-- Value of a list of decimal digits, most significant first. -/
def decVal (U : Uni) : Str → Option Nat
  | [] => some 0
  | c :: tl => do
    let d ← U.digitVal c
    let n ← decVal U tl
    return d * 10 ^ tl.length + n

/-- `ALPHA / DIGIT / "_"` -/
def IdChar (U : Uni) (c : Char) : Prop := U.isAlpha c = true ∨ U.isDigit c = true ∨ c = '_'

/-- The characters allowed in string literals: `%x20-21 / %x23-7E`. -/
def StrChar (c : Char) : Prop := 0x20 ≤ c.toNat ∧ c.toNat ≤ 0x7E ∧ c ≠ '"'

/-- `w` is a spelling of the (lower-case) word `kw` in any mix of cases. -/
def Spells (w : Str) (kw : String) : Prop := w.map asciiLower = kw.toList

/-- Attribute classes and their token types. -/
def attClasses : List (String × TokenType) :=
  [("user", .usrAtt), ("object", .objAtt), ("env", .envAtt), ("admin", .admAtt),
   ("connect", .conAtt)]

/-- Keywords with their token type and value. -/
def keywords : List (String × TokenType × String) :=
  [("in", .op, "IN"), ("subset", .op, "SUBSET"), ("and", .boolOp, "AND"), ("or", .boolOp, "OR"),
   ("true", .bool, "TRUE"), ("false", .bool, "FALSE"), ("undef", .bool, "UNDEF"),
   ("not", .notOp, "NOT"), ("null", .null, "NULL")]

/-- Punctuation that is a lexeme of its own whatever follows. -/
def punctuation : List (String × TokenType × Option String) :=
  [("{", .lset, none), ("}", .rset, none), (",", .comma, none), ("(", .lparn, none),
   (")", .rparn, none), ("=", .op, some "="), (">=", .op, some ">="), ("<=", .op, some "<="),
   ("!=", .op, some "!=")]

/-- The value of a punctuation token. -/
def optVal : Option String → TVal
  | none => .none
  | some s => .str s.toList

/-- `Lexeme U w ty v nx`: the string `w`, followed by the character `nx` (or by the end of the text), is a lexeme of type
`ty` with value `v`. -/
inductive Lexeme (U : Uni) : Str → TokenType → TVal → Option Char → Prop
  | punct (w : String) (ty : TokenType) (v : Option String) (nx : Option Char)
      (h : (w, ty, v) ∈ punctuation) : Lexeme U w.toList ty (optVal v) nx
  | gt (nx : Option Char) (h : nx ≠ some '=') : Lexeme U [ '>' ] .op (.str [ '>' ]) nx
  | lt (nx : Option Char) (h : nx ≠ some '=') : Lexeme U [ '<' ] .op (.str [ '<' ]) nx
  | string (body : Str) (nx : Option Char) (h : ∀ c ∈ body, StrChar c) :
      Lexeme U ('"' :: body ++ ['"']) .string (.str body) nx
  | int (neg : Bool) (ds : Str) (n : Nat) (nx : Option Char) (hne : ds ≠ [])
      (hd : ∀ c ∈ ds, U.isDigit c = true) (hv : decVal U ds = some n)
      (hl : ∀ m, U.intLimit = some m → ds.length ≤ m)
      (hx : ∀ c, nx = some c → U.isDigit c = false ∧ c ≠ '.') :
      Lexeme U ((if neg then ['-'] else []) ++ ds) .int (.int (if neg then -(n : Int) else n)) nx
  | float (neg : Bool) (ip fp : Str) (a b : Nat) (nx : Option Char) (hi : ip ≠ []) (hf : fp ≠ [])
      (hdi : ∀ c ∈ ip, U.isDigit c = true) (hdf : ∀ c ∈ fp, U.isDigit c = true)
      (ha : decVal U ip = some a) (hb : decVal U fp = some b)
      (hx : ∀ c, nx = some c → U.isDigit c = false ∧ c ≠ '.') :
      Lexeme U ((if neg then ['-'] else []) ++ ip ++ '.' :: fp) .float
        (.flt (U.roundF ((if neg then -1 else 1) * ((a : Rat) + (b : Rat) / 10 ^ fp.length)))) nx
  | att (pre ident : Str) (kw : String) (ty : TokenType) (nx : Option Char)
      (hc : (kw, ty) ∈ attClasses) (hp : Spells pre kw) (hne : ident ≠ [])
      (hid : ∀ c ∈ ident, IdChar U c) (hx : ∀ c, nx = some c → ¬ IdChar U c) :
      Lexeme U (pre ++ '.' :: ident) ty (.str ident) nx
  | keyword (w : Str) (kw : String) (ty : TokenType) (v : String) (nx : Option Char)
      (hk : (kw, ty, v) ∈ keywords) (hw : Spells w kw)
      (hx : ∀ c, nx = some c → ¬ IdChar U c ∧ c ≠ '.') : Lexeme U w ty (.str v.toList) nx

/-- `Tokenizes U text pos toks`: `text`, which starts at index `pos` of the policy, is a sequence of lexemes
separated by optional white space, and `toks` are their tokens followed by END. -/
inductive Tokenizes (U : Uni) : Str → Nat → List Token → Prop
  | done (ws : Str) (pos : Nat) (h : ∀ c ∈ ws, U.isSpace c = true) :
      Tokenizes U ws pos [⟨.«end», (pos + ws.length : Nat), .none⟩]
  | tok (ws w rest : Str) (pos : Nat) (ty : TokenType) (v : TVal) (toks : List Token)
      (h : ∀ c ∈ ws, U.isSpace c = true) (hw : Lexeme U w ty v rest.head?)
      (hr : Tokenizes U rest (pos + ws.length + w.length) toks) :
      Tokenizes U (ws ++ w ++ rest) pos (⟨ty, (pos + ws.length : Nat), v⟩ :: toks)

/-- Attribute token types. -/
def IsAtt (ty : TokenType) : Prop := ∃ kw, (kw, ty) ∈ attClasses

instance (ty : TokenType) : Decidable (IsAtt ty) :=
  decidable_of_iff (ty ∈ attClasses.map (·.2)) (by simp [IsAtt])

end Verif.Spec
