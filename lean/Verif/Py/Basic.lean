/-!
# The fragment of the Python runtime the code relies on

Exceptions as values, strings as lists of code points, `float` as rationals with infinities and the
Unicode tables the lexer and the symbol table consult.
-/

namespace Verif

/-- A Python `str`. Lean's `Char` has no surrogates, so strings with lone surrogates are outside
the model. -/
abbrev Str := List Char

/-- The exceptions the modelled code can raise. Most message texts are dropped; the position and, for
parser and interpreter errors, the `rule` argument (`hgpl/errors.py:37-76`) are kept because
callers observe them, as are the messages of faults. -/
inductive PyExc where
  /-- `hgpl.errors.LexerError` with its `pos`. -/
  | lexerError (pos : Int)
  /-- `hgpl.errors.ParserError` with its `pos` and `rule`. -/
  | parserError (pos : Int) (rule : String)
  /-- `hgpl.errors.InterpreterError` with its `pos` and `rule`. -/
  | interpreterError (pos : Int) (rule : String)
  /-- `hgpl.errors.InterpreterWarning` with its `pos` and `rule`. -/
  | interpreterWarning (pos : Int) (rule : String)
  /-- `hgpl.errors.TypeCheckerError` with its `pos` and `rule`. -/
  | typeCheckerError (pos : Int) (rule : String)
  /-- `hgpl.errors.TypeCheckerWarning` with its `pos` and `rule`. -/
  | typeCheckerWarning (pos : Int) (rule : String)
  | indexError
  | attributeError
  | typeError
  | valueError
  | keyError
  | structError
  | unicodeError
  | overflowError
  /-- a bare `Exception(msg)`, the message included. -/
  | exception (msg : String)
  /-- `ladon.exceptions.service.ClientFault(msg)`, the message included because it is sent to the client. -/
  | clientFault (msg : Str)
  /-- `ladon.exceptions.service.ServerFault(msg)`. -/
  | serverFault (msg : Str)
  /-- primary key or NOT NULL violation reported by the database. -/
  | integrityError
  /-- the recursion fuel of the model ran out; theorems show that this never happens. -/
  | outOfFuel
deriving DecidableEq, Repr

deriving instance DecidableEq for Except

/-- A Python `float`. NaN is not modelled (no code path of the language produces one) and `-0.0` is
identified with `0.0`, which Python's `==` and `<` do as well. -/
inductive PyFloat where
  | fin (q : Rat)
  | inf (neg : Bool)
deriving DecidableEq, Repr

/-- The Unicode dependent parts of Python's `str` and the conversion of literals to numbers. -/
structure Uni where
  /-- `c.isspace()` -/
  isSpace : Char → Bool
  /-- `c.isdigit()` -/
  isDigit : Char → Bool
  /-- `c.isalpha()` -/
  isAlpha : Char → Bool
  /-- `s.lower()`; not character wise, because of the final sigma rule. -/
  lower : Str → Str
  /-- `s.upper()` -/
  upper : Str → Str
  /-- decimal value used by `int` and `float`; superscripts satisfy `isdigit` but have none. -/
  digitVal : Char → Option Nat
  /-- `sys.get_int_max_str_digits()`, `none` if unlimited (CPython before 3.11). -/
  intLimit : Option Nat
  /-- rounding of a decimal number to binary64. -/
  roundF : Rat → PyFloat

/-- `c.isspace()` for ASCII characters. -/
def asciiSpace (c : Char) : Bool :=
  (9 ≤ c.toNat && c.toNat ≤ 13) || (28 ≤ c.toNat && c.toNat ≤ 32)
/-- `c.isdigit()` for ASCII characters. -/
def asciiDigit (c : Char) : Bool := 48 ≤ c.toNat && c.toNat ≤ 57
/-- `c.isalpha()` for ASCII characters. -/
def asciiAlpha (c : Char) : Bool :=
  (65 ≤ c.toNat && c.toNat ≤ 90) || (97 ≤ c.toNat && c.toNat ≤ 122)
/-- `c.lower()` for ASCII characters. -/
def asciiLower (c : Char) : Char :=
  if 65 ≤ c.toNat ∧ c.toNat ≤ 90 then Char.ofNat (c.toNat + 32) else c
/-- `c.upper()` for ASCII characters. -/
def asciiUpper (c : Char) : Char :=
  if 97 ≤ c.toNat ∧ c.toNat ≤ 122 then Char.ofNat (c.toNat - 32) else c
/-- ASCII test. -/
def isAscii (c : Char) : Bool := c.toNat < 128

/-- The words the lexer compares lower-cased identifiers with (`hgpl/lexing.py:234-262`). -/
def reservedWords : List Str :=
  ["user", "object", "env", "admin", "connect", "in", "subset", "and", "or", "true", "false",
   "undef", "not", "null"].map String.toList

/-- What the theorems assume about the Unicode tables: on ASCII they are Python's; digits, letters
and spaces are disjoint; and no string with a non-ASCII character lower-cases to a reserved word
(true in Unicode: the only non-ASCII character with a one character ASCII lower case is the Kelvin sign,
and no reserved word contains `k`); and the case of ASCII letters does not influence lower-casing (the one rule of
`str.lower` that looks at neighbours, for the final sigma, asks whether they are cased); and ASCII characters at the
beginning of a text are lower-cased on their own. -/
structure Uni.Lawful (U : Uni) : Prop where
  space_ascii : ∀ c, isAscii c = true → U.isSpace c = asciiSpace c
  digit_ascii : ∀ c, isAscii c = true → U.isDigit c = asciiDigit c
  alpha_ascii : ∀ c, isAscii c = true → U.isAlpha c = asciiAlpha c
  digit_not_space : ∀ c, U.isDigit c = true → U.isSpace c = false
  alpha_not_space : ∀ c, U.isAlpha c = true → U.isSpace c = false
  digit_not_alpha : ∀ c, U.isDigit c = true → U.isAlpha c = false
  lower_ascii : ∀ s : Str, s.all isAscii = true → U.lower s = s.map asciiLower
  upper_ascii : ∀ s : Str, s.all isAscii = true → U.upper s = s.map asciiUpper
  reserved_ascii : ∀ s : Str, U.lower s ∈ reservedWords → s.all isAscii = true
  lower_case : ∀ s t : Str, s.map asciiLower = t.map asciiLower → U.lower s = U.lower t
  lower_prefix : ∀ p s : Str, p.all isAscii = true → ∃ s', U.lower (p ++ s) = p.map asciiLower ++ s'
  digitVal_ascii : ∀ c, isAscii c = true → asciiDigit c = true → U.digitVal c = some (c.toNat - 48)
  digitVal_none : ∀ c, isAscii c = true → asciiDigit c = false → U.digitVal c = none

/-- The tables restricted to ASCII, with unlimited integers and exact floats: the simplest lawful instance, used
in examples. -/
def asciiUni : Uni where
  isSpace c := isAscii c && asciiSpace c
  isDigit c := isAscii c && asciiDigit c
  isAlpha c := isAscii c && asciiAlpha c
  lower s := s.map asciiLower
  upper s := s.map asciiUpper
  digitVal c := if asciiDigit c then some (c.toNat - 48) else none
  intLimit := none
  roundF q := .fin q

end Verif
