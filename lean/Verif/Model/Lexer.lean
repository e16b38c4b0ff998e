import Verif.Model.Token
/-!
# The lexer (`hgpl/lexing.py:69-274`)

State: `rest` is `policy_text[text_pos:]`, so `_current_char` is `rest.head?` and `_peek()` is
`rest[1]?`. The state a failed `next` leaves behind is not modelled: a `Lexer` that raised is
not used again.
-/

namespace Verif

/-- The fields of `Lexer`, `hgpl/lexing.py:70-78`. -/
structure LexState where
  rest : Str
  pos : Nat
  toks : List Token
  atts : List Token
deriving DecidableEq, Repr

/-- `Lexer.__init__`, `hgpl/lexing.py:70-78`. -/
def LexState.init (text : Str) : LexState :=
  { rest := text, pos := 0, toks := [⟨.start, 0, .none⟩], atts := [] }

/-- `Lexer._advance`, `hgpl/lexing.py:86-91`. -/
def LexState.advance (s : LexState) : LexState := { s with rest := s.rest.tail, pos := s.pos + 1 }

/-- `Lexer._whitespace`, `hgpl/lexing.py:93-95`, on the remaining text and the position. -/
def skipSpace (U : Uni) : Str → Nat → Str × Nat
  | [], pos => ([], pos)
  | c :: tl, pos => if U.isSpace c then skipSpace U tl (pos + 1) else (c :: tl, pos)

/-- `Lexer._string_char`, `hgpl/lexing.py:97-103`. -/
def stringChar (c : Char) : Bool :=
  if 35 ≤ c.toNat ∧ c.toNat ≤ 126 then true
  else if c.toNat = 32 ∨ c.toNat = 33 then true
  else false

/-- `self._peek() and p(self._peek())` where `s` is the text after the current character. -/
def headIs (p : Char → Bool) (s : Str) : Bool :=
  match s with
  | c :: _ => p c
  | [] => false

/-- The `while` loop of `_number`, `hgpl/lexing.py:109-125`. `tail` is the text after the current
character, `pos` the position of the current character. Returns numstring, whether the type is FLOAT, and the new
`tail` and `pos`. -/
def numLoop (U : Uni) (acc : Str) (isF : Bool) : Str → Nat → Except PyExc (Str × Bool × Str × Nat)
  | [], pos => .ok (acc, isF, [], pos)
  | p :: tl, pos =>
    if U.isDigit p then numLoop U (acc ++ [p]) isF tl (pos + 1)
    else if p = '.' then
      if isF = false then
        if headIs U.isDigit tl then numLoop U (acc ++ ['.']) true tl (pos + 1)
        else .error (.lexerError (pos + 2))
      else .error (.lexerError (pos + 1))
    else .ok (acc, isF, p :: tl, pos)

/-- Value of a string of decimal digits, `none` if some character has no decimal value. -/
def digitsVal (U : Uni) : Nat → Str → Option Nat
  | acc, [] => some acc
  | acc, c :: tl =>
    match U.digitVal c with
    | some d => digitsVal U (acc * 10 + d) tl
    | none => none

/-- Split an optional leading minus sign off a numeral. -/
def splitSign (s : Str) : Bool × Str :=
  match s with
  | '-' :: tl => (true, tl)
  | _ => (false, s)

/-- `int(numstring)` as called in `hgpl/lexing.py:128`, for strings made of an optional `-` and
characters with `isdigit`. Fails (`ValueError`) on digits without decimal value and beyond the
interpreter's digit limit. -/
def pyInt (U : Uni) (s : Str) : Except PyExc Int :=
  let (neg, ds) := splitSign s
  match digitsVal U 0 ds with
  | none => .error .valueError
  | some n =>
    match U.intLimit with
    | some m => if ds.length > m then .error .valueError else .ok (if neg then - (n : Int) else n)
    | none => .ok (if neg then - (n : Int) else n)

/-- `float(numstring)` as called in `hgpl/lexing.py:130`, for an optional `-`, digits, a `.` and
digits: the decimal number, rounded. -/
def pyFloat (U : Uni) (s : Str) : Except PyExc PyFloat :=
  let (neg, ds) := splitSign s
  let ip := ds.takeWhile (· ≠ '.')
  let fp := (ds.dropWhile (· ≠ '.')).tail
  match digitsVal U 0 (ip ++ fp) with
  | none => .error .valueError
  | some n =>
    let q : Rat := (n : Rat) / ((10 : Rat) ^ fp.length)
    .ok (U.roundF (if neg then -q else q))

/-- `Lexer._number`, `hgpl/lexing.py:105-130`. `c` is the current character. Returns the token and
the text after and position of the last character read. -/
def lexNumber (U : Uni) (c : Char) (tail : Str) (pos : Nat) : Except PyExc (Token × Str × Nat) := do
  let (num, isF, tail', pos') ← numLoop U [c] false tail pos
  if isF = false then
    let i ← pyInt U num
    return (⟨.int, pos, .int i⟩, tail', pos')
  else
    let f ← pyFloat U num
    return (⟨.float, pos, .flt f⟩, tail', pos')

/-- The loop of `Lexer._string`, `hgpl/lexing.py:137-149`. `start` is `pos_at_start`; the text is
the one from the current character on; returns the string, the text after the closing quote, and the quote's position. -/
def stringLoop (start : Nat) (acc : Str) : Str → Nat → Except PyExc (Str × Str × Nat)
  | [], _ => .error (.lexerError start)
  | c :: tl, pos =>
    if c = '"' then .ok (acc, tl, pos)
    else if stringChar c then stringLoop start (acc ++ [c]) tl (pos + 1)
    else .error (.lexerError pos)

/-- `Lexer._string`, `hgpl/lexing.py:132-149`; `tail` is the text after the opening quote. -/
def lexString (tail : Str) (pos : Nat) : Except PyExc (Token × Str × Nat) := do
  let (s, tail', pos') ← stringLoop pos [] tail (pos + 1)
  return (⟨.string, pos, .str s⟩, tail', pos')

/-- The character test of `Lexer._id`, `hgpl/lexing.py:153`. -/
def idChar (U : Uni) (c : Char) : Bool := U.isAlpha c || U.isDigit c || c == '_'

/-- The loop of `Lexer._id`, `hgpl/lexing.py:151-156`; `tail` is the text after the current
character and `pos` the position of the current character. -/
def idLoop (U : Uni) (acc : Str) : Str → Nat → Str × Str × Nat
  | [], pos => (acc, [], pos)
  | p :: tl, pos =>
    if idChar U p then idLoop U (acc ++ [p]) tl (pos + 1) else (acc, p :: tl, pos)

/-- The attribute class of a lower-cased prefix, `hgpl/lexing.py:234-243`. -/
def attPrefix (s : Str) : Option TokenType :=
  if s = "user".toList then some .usrAtt
  else if s = "object".toList then some .objAtt
  else if s = "env".toList then some .envAtt
  else if s = "admin".toList then some .admAtt
  else if s = "connect".toList then some .conAtt
  else none

/-- The branch of `Lexer.next` for letters, `hgpl/lexing.py:226-266`. Returns the token, whether it is
appended to the attribute list, and the text after and position of the last character read. -/
def lexWord (U : Uni) (c : Char) (tail : Str) (pos : Nat) :
    Except PyExc (Token × Bool × Str × Nat) :=
  let (pre, tail1, pos1) := idLoop U [c] tail pos
  if tail1.head? = some '.' then
    match tail1.tail with
    | [] => .error .attributeError
    | d :: tl =>
      if U.isAlpha d || U.isDigit d || d == '_' then
        let (ident, tail2, pos2) := idLoop U [d] tl (pos1 + 2)
        match attPrefix (U.lower pre) with
        | some ty => .ok (⟨ty, pos, .str ident⟩, true, tail2, pos2)
        | none => .error (.lexerError pos)
      else .error (.lexerError ((pos1 : Int) + 2))
  else if U.lower pre ∈ ["in".toList, "subset".toList] then
    .ok (⟨.op, pos, .str (U.upper pre)⟩, false, tail1, pos1)
  else if U.lower pre ∈ ["and".toList, "or".toList] then
    .ok (⟨.boolOp, pos, .str (U.upper pre)⟩, false, tail1, pos1)
  else if U.lower pre ∈ ["true".toList, "false".toList, "undef".toList] then
    .ok (⟨.bool, pos, .str (U.upper pre)⟩, false, tail1, pos1)
  else if U.lower pre = "not".toList then
    .ok (⟨.notOp, pos, .str "NOT".toList⟩, false, tail1, pos1)
  else if U.lower pre = "null".toList then
    .ok (⟨.null, pos, .str "NULL".toList⟩, false, tail1, pos1)
  else .error (.lexerError pos)

/-- The dispatch of `Lexer.next` on the current character, `hgpl/lexing.py:190-266` and 270-272. -/
def lexOne (U : Uni) (c : Char) (tail : Str) (pos : Nat) :
    Except PyExc (Token × Bool × Str × Nat) :=
  if c = '{' then .ok (⟨.lset, pos, .none⟩, false, tail, pos)
  else if c = '}' then .ok (⟨.rset, pos, .none⟩, false, tail, pos)
  else if c = ',' then .ok (⟨.comma, pos, .none⟩, false, tail, pos)
  else if c = '(' then .ok (⟨.lparn, pos, .none⟩, false, tail, pos)
  else if c = ')' then .ok (⟨.rparn, pos, .none⟩, false, tail, pos)
  else if c = '=' then .ok (⟨.op, pos, .str "=".toList⟩, false, tail, pos)
  else if c = '>' then
    if tail.head? = some '=' then .ok (⟨.op, pos, .str ">=".toList⟩, false, tail.tail, pos + 1)
    else .ok (⟨.op, pos, .str ">".toList⟩, false, tail, pos)
  else if c = '<' then
    if tail.head? = some '=' then .ok (⟨.op, pos, .str "<=".toList⟩, false, tail.tail, pos + 1)
    else .ok (⟨.op, pos, .str "<".toList⟩, false, tail, pos)
  else if c = '!' then
    if tail.head? = some '=' then .ok (⟨.op, pos, .str "!=".toList⟩, false, tail.tail, pos + 1)
    else .error (.lexerError (pos + 1))
  else if c = '"' then do
    let (t, tail', pos') ← lexString tail pos
    return (t, false, tail', pos')
  else if U.isDigit c || (c == '-' && headIs U.isDigit tail) then do
    let (t, tail', pos') ← lexNumber U c tail pos
    return (t, false, tail', pos')
  else if U.isAlpha c then lexWord U c tail pos
  else .error (.lexerError pos)

/-- `Lexer.next`, `hgpl/lexing.py:181-274`. -/
def LexState.next (U : Uni) (s : LexState) : Except PyExc (LexState × Option Token) :=
  match skipSpace U s.rest s.pos with
  | ([], pos) =>
    if (s.toks.getLast?.map Token.type) ≠ some .«end» then
      let t : Token := ⟨.«end», pos, .none⟩
      .ok ({ rest := [], pos := pos + 1, toks := s.toks ++ [t], atts := s.atts }, some t)
    else .ok ({ s with rest := [], pos := pos }, none)
  | (c :: tail, pos) => do
    let (t, isAtt, tail', pos') ← lexOne U c tail pos
    return ({ rest := tail', pos := pos' + 1, toks := s.toks ++ [t],
              atts := if isAtt then s.atts ++ [t] else s.atts }, some t)

/-- The loop of `Lexer.tokenize`, `hgpl/lexing.py:177-179`, with a bound on the iterations. -/
def LexState.tokenizeFuel (U : Uni) : Nat → LexState → Except PyExc LexState
  | 0, _ => .error .outOfFuel
  | n + 1, s => do
    let (s', t) ← s.next U
    match t with
    | some _ => LexState.tokenizeFuel U n s'
    | none => return s'

/-- `Lexer.tokenize`, `hgpl/lexing.py:177-179`. Each iteration reads a character or appends END, so
`len(rest) + 2` iterations suffice (`Props/Lexer.lean: tokenize_unfold` shows that this is the
loop `while self.next()`). -/
def LexState.tokenize (U : Uni) (s : LexState) : Except PyExc LexState :=
  s.tokenizeFuel U (s.rest.length + 2)

/-- `Lexer(text)`, `tokenize()` and `toke_list()`. -/
def lexTokens (U : Uni) (text : Str) : Except PyExc (List Token) := do
  let s ← (LexState.init text).tokenize U
  return s.toks

end Verif
