import Verif.Model.Parser
/-!
# The `Lexer` object as its callers see it (`hgpl/lexing.py:158-181`)

`LexState` keeps what is left of the text instead of the text and a position in it; `policy()` needs the text itself.
-/

namespace Verif

/-- `TokenType.name`, `hgpl/lexing.py:9-30`. -/
def TokenType.name : TokenType → Str
  | .op => "OP".toList | .boolOp => "BOOL_OP".toList | .notOp => "NOT_OP".toList
  | .usrAtt => "USR_ATT".toList | .objAtt => "OBJ_ATT".toList | .envAtt => "ENV_ATT".toList
  | .admAtt => "ADM_ATT".toList | .conAtt => "CON_ATT".toList | .unkAtt => "UNK_ATT".toList
  | .unkId => "UNK_ID".toList | .null => "NULL".toList | .bool => "BOOL".toList | .int => "INT".toList
  | .float => "FLOAT".toList | .string => "STRING".toList | .lset => "LSET".toList | .rset => "RSET".toList
  | .lparn => "LPARN".toList | .rparn => "RPARN".toList | .comma => "COMMA".toList
  | .start => "START".toList | .«end» => "END".toList

/-- A `Lexer`, `hgpl/lexing.py:69-78`. -/
structure LexerObj where
  text : Str
  st : LexState

namespace LexerObj

/-- `Lexer(policy_text)`, `hgpl/lexing.py:70-78`. -/
def new (text : Str) : LexerObj := ⟨text, LexState.init text⟩

/-- `policy()`, `hgpl/lexing.py:158-159`. -/
def policy (l : LexerObj) : Str := l.text

/-- `toke_list()`, `hgpl/lexing.py:161-162`: a copy. -/
def tokeList (l : LexerObj) : List Token := l.st.toks

/-- `att_list()`, `hgpl/lexing.py:164-166`: a copy. -/
def attList (l : LexerObj) : List Token := l.st.atts

/-- `current()`, `hgpl/lexing.py:168-169`. -/
def current (l : LexerObj) : Except PyExc Token :=
  match l.st.toks.getLast? with
  | some t => .ok t
  | none => .error .indexError

/-- `token_string()`, `hgpl/lexing.py:171-175`. -/
def tokenString (l : LexerObj) : Str :=
  (l.st.toks.foldl (fun s t => s ++ (t.type.name ++ [' '])) []).dropLast

end LexerObj

/-! ### Where an exception leaves the lexer -/

/-- The text from the last character of a word on and its position, where `_id` stops, `hgpl/lexing.py:151-156`; `c` is the current
character and `tail` the text after it. -/
def idStop (U : Uni) (c : Char) : Str → Nat → Str × Nat
  | [], pos => ([c], pos)
  | p :: tl, pos => if idChar U p then idStop U p tl (pos + 1) else (c :: p :: tl, pos)

/-- Where `_number` stands when it raises, `hgpl/lexing.py:109-130`: on the '.' without a digit after it, before a second '.', or on
the last digit if `int` or `float` raise. -/
def numStop (U : Uni) (isF : Bool) (c : Char) : Str → Nat → Str × Nat
  | [], pos => ([c], pos)
  | p :: tl, pos =>
    if U.isDigit p then numStop U isF p tl (pos + 1)
    else if p = '.' ∧ isF = false then
      if headIs U.isDigit tl then numStop U true p tl (pos + 1) else (p :: tl, pos + 1)
    else (c :: p :: tl, pos)

/-- Where `_string` stands when it raises, `hgpl/lexing.py:136-148`: on the character that may not be in a string, or at the end. -/
def stringStop : Str → Nat → Str × Nat
  | [], pos => ([], pos)
  | c :: tl, pos => if stringChar c then stringStop tl (pos + 1) else (c :: tl, pos)

/-- Where the branch for letters stands when it raises, and the `token` of the exception, `hgpl/lexing.py:226-266`. -/
def wordStop (U : Uni) (c : Char) (tail : Str) (pos : Nat) : (Str × Nat) × Option Token :=
  let (pre, tail1, pos1) := idLoop U [c] tail pos
  if tail1.head? = some '.' then
    match tail1.tail with
    | [] => (([], pos1 + 2), none)
    | d :: tl =>
      if idChar U d then (idStop U d tl (pos1 + 2), some ⟨.unkAtt, pos, .str (U.lower pre)⟩)
      else ((d :: tl, pos1 + 2), some ⟨.unkAtt, pos, .str (U.lower pre)⟩)
  else (idStop U c tail pos, some ⟨.unkId, pos, .str pre⟩)

/-- Where `next` stands when it raises, and the `token` of the exception, `hgpl/lexing.py:181-272`. `c` is the first character
that is not white space. A ValueError has no token. -/
def lexStop (U : Uni) (c : Char) (tail : Str) (pos : Nat) (e : PyExc) : (Str × Nat) × Option Token :=
  if c = '!' then ((c :: tail, pos), some ⟨.op, pos, .str "!=".toList⟩)
  else if c = '"' then (stringStop tail (pos + 1), some ⟨.string, pos, .none⟩)
  else if U.isDigit c || (c == '-' && headIs U.isDigit tail) then
    (numStop U false c tail pos, if e = .valueError then none else some ⟨.float, pos, .none⟩)
  else if U.isAlpha c then wordStop U c tail pos
  else ((c :: tail, pos), none)

/-- An exception of the lexer: its kind and position, and its `token`. -/
structure LexErr where
  exc : PyExc
  token : Option Token
deriving DecidableEq, Repr

namespace LexerObj

/-- `next()`, `hgpl/lexing.py:181-274`: the object afterwards, also if it raises, and the outcome. -/
def next (U : Uni) (l : LexerObj) : LexerObj × Except LexErr (Option Token) :=
  match l.st.next U with
  | .ok (s, t) => ({ l with st := s }, .ok t)
  | .error e =>
    match skipSpace U l.st.rest l.st.pos with
    | ([], pos) => ({ l with st := { l.st with rest := [], pos := pos } }, .error ⟨e, none⟩)
    | (c :: tail, pos) =>
      let ((r, p), t) := lexStop U c tail pos e
      ({ l with st := { l.st with rest := r, pos := p } }, .error ⟨e, t⟩)

/-- The loop of `tokenize()`, `hgpl/lexing.py:177-179`, with a bound on the iterations. -/
def tokenizeFuel (U : Uni) : Nat → LexerObj → LexerObj × Except LexErr Unit
  | 0, l => (l, .error ⟨.outOfFuel, none⟩)
  | n + 1, l =>
    match l.next U with
    | (l', .error e) => (l', .error e)
    | (l', .ok none) => (l', .ok ())
    | (l', .ok (some _)) => tokenizeFuel U n l'

/-- `tokenize()`, `hgpl/lexing.py:177-179`. -/
def tokenize (U : Uni) (l : LexerObj) : LexerObj × Except LexErr Unit :=
  l.tokenizeFuel U (l.st.rest.length + 2)

/-- `Parser(lexer).parse()` with node ids from `k` on, `hgpl/parsing.py:7-21`: the constructor calls `tokenize()` again and takes the
tokens the lexer has then. -/
def parse (U : Uni) (k : Nat) (l : LexerObj) : Except PyExc (Node × Nat) :=
  match l.tokenize U with
  | (_, .error e) => .error e.exc
  | (l', .ok _) => parseTokens U k l'.tokeList

/-- Calls of `next()`, whatever each of them gives or raises. -/
def nexts (U : Uni) : Nat → LexerObj → LexerObj
  | 0, l => l
  | n + 1, l => nexts U n (l.next U).1

end LexerObj

end Verif
