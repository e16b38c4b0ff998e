import Verif.Model.LexerObj
import Verif.Model.SyntaxErr
import Verif.Model.Errors
import Verif.Model.Texts
/-!
# The errors of lexer and parser with all their fields (`hgpl/lexing.py`, `hgpl/parsing.py`, `hgpl/errors.py:40-58`)

`Model/Lexer.lean` and `Model/Parser.lean` keep the class, position and rule of an error. Here the same functions are given with the
message and the token of the error, so that what is shown to a user and written to logs can be said. `Props/Messages.lean`
shows that forgetting message and token gives back the functions of the two models (`lexTokensM_exc`, `parseTokensM_exc`).
The policy text of an error is always the text given to the lexer, or what the constructor of `Parser` got.
-/

namespace Verif

/-- A computation that raises a builtin exception only. -/
def plain {α : Type} (x : Except PyExc α) : Except SyntaxErr α := x.mapError .other

/-- `str` of a raised error when the policy text is `text`, `hgpl/errors.py:31-37,52-57`. A builtin exception is shown by Python:
what it shows is not modelled. -/
def SyntaxErr.str (U : Uni) (text : Option Str) : SyntaxErr → Option Str
  | .lexer m p _ => some (HGPLError.str ⟨m, text, p⟩)
  | .parser m p _ r => some (HGPLError.parserStr U ⟨m, text, p⟩ (some r.toList))
  | .other _ => none

/-! ### The lexer -/

/-- `"{}".format(self._peek())` or of `self._current_char`: the character, or `None` at the end. -/
def showNext : Str → Str
  | [] => "None".toList
  | c :: _ => [c]

/-- The message of `hgpl/lexing.py:118-120`. -/
def msgDot (tl : Str) : Str :=
  "Syntax error encountered while reading floating point number. '.' should be followed by a digit and not '".toList ++
    showNext tl ++ "'.".toList

/-- The message of `hgpl/lexing.py:123-124`. -/
def msgDots : Str :=
  "Syntax error encountered while reading floating point number. Found multiple '.'s in number.".toList

/-- `Lexer._number`: the loop, `hgpl/lexing.py:109-125`; `start` is `pos_at_start`. -/
def numLoopM (U : Uni) (start : Nat) (acc : Str) (isF : Bool) : Str → Nat → Except SyntaxErr (Str × Bool × Str × Nat)
  | [], pos => .ok (acc, isF, [], pos)
  | p :: tl, pos =>
    if U.isDigit p then numLoopM U start (acc ++ [p]) isF tl (pos + 1)
    else if p = '.' then
      if isF = false then
        if headIs U.isDigit tl then numLoopM U start (acc ++ ['.']) true tl (pos + 1)
        else .error (.lexer (msgDot tl) (pos + 2) (some ⟨.float, start, .none⟩))
      else .error (.lexer msgDots (pos + 1) (some ⟨.float, start, .none⟩))
    else .ok (acc, isF, p :: tl, pos)

/-- `Lexer._number`, `hgpl/lexing.py:105-130`. -/
def lexNumberM (U : Uni) (c : Char) (tail : Str) (pos : Nat) : Except SyntaxErr (Token × Str × Nat) := do
  let (num, isF, tail', pos') ← numLoopM U pos [c] false tail pos
  if isF = false then
    let i ← plain (pyInt U num)
    return (⟨.int, pos, .int i⟩, tail', pos')
  else
    let f ← plain (pyFloat U num)
    return (⟨.float, pos, .flt f⟩, tail', pos')

/-- The message of `hgpl/lexing.py:139-140`. -/
def msgOpen : Str :=
  "Syntax error encountered while reading string. End of policy encountered before matching \".".toList

/-- The message of `hgpl/lexing.py:145-146`. -/
def msgStringChar (c : Char) : Str :=
  "Syntax error encountered while reading string. Invalid character, '".toList ++ [c] ++ "', found in string.".toList

/-- `Lexer._string`: the loop, `hgpl/lexing.py:137-149`. -/
def stringLoopM (start : Nat) (acc : Str) : Str → Nat → Except SyntaxErr (Str × Str × Nat)
  | [], _ => .error (.lexer msgOpen start (some ⟨.string, start, .none⟩))
  | c :: tl, pos =>
    if c = '"' then .ok (acc, tl, pos)
    else if stringChar c then stringLoopM start (acc ++ [c]) tl (pos + 1)
    else .error (.lexer (msgStringChar c) pos (some ⟨.string, start, .none⟩))

/-- `Lexer._string`, `hgpl/lexing.py:132-149`. -/
def lexStringM (tail : Str) (pos : Nat) : Except SyntaxErr (Token × Str × Nat) := do
  let (s, tail', pos') ← stringLoopM pos [] tail (pos + 1)
  return (⟨.string, pos, .str s⟩, tail', pos')

/-- The message of `hgpl/lexing.py:245-246`. -/
def msgAttType (pre : Str) : Str :=
  "Syntax error encountered while reading attribute name. '".toList ++ pre ++ "' is not a valid attribute type.".toList

/-- The message of `hgpl/lexing.py:251-252`. -/
def msgAttName (c : Char) : Str :=
  "Syntax error encountered while reading attribute name. '.' needs to be followed by an identifier and not '".toList ++
    [c] ++ "'.".toList

/-- The message of `hgpl/lexing.py:265`. -/
def msgUnknown (w : Str) : Str := "Syntax error, encountered an unknown identifier, '".toList ++ w ++ "'.".toList

/-- The branch of `Lexer.next` for letters, `hgpl/lexing.py:226-266`. -/
def lexWordM (U : Uni) (c : Char) (tail : Str) (pos : Nat) :
    Except SyntaxErr (Token × Bool × Str × Nat) :=
  let (pre, tail1, pos1) := idLoop U [c] tail pos
  if tail1.head? = some '.' then
    match tail1.tail with
    | [] => .error (.other .attributeError)
    | d :: tl =>
      if U.isAlpha d || U.isDigit d || d == '_' then
        let (ident, tail2, pos2) := idLoop U [d] tl (pos1 + 2)
        match attPrefix (U.lower pre) with
        | some ty => .ok (⟨ty, pos, .str ident⟩, true, tail2, pos2)
        | none => .error (.lexer (msgAttType pre) pos (some ⟨.unkAtt, pos, .str (U.lower pre)⟩))
      else .error (.lexer (msgAttName d) ((pos1 : Int) + 2) (some ⟨.unkAtt, pos, .str (U.lower pre)⟩))
  else if U.lower pre ∈ ["in".toList, "subset".toList] then
    .ok (⟨.op, pos, .str (U.upper pre)⟩, false, tail1, pos1)
  else if U.lower pre ∈ ["and".toList, "or".toList] then
    .ok (⟨.boolOp, pos, .str (U.upper pre)⟩, false, tail1, pos1)
  else if U.lower pre ∈ ["true".toList, "false".toList, "undef".toList] then
    .ok (⟨.bool, pos, .str (U.upper pre)⟩, false, tail1, pos1)
  else if U.lower pre = "not".toList then
    .ok (⟨.notOp, pos, .str "NOT".toList⟩, false, tail1, pos1)
  else if U.lower pre = "null".toList then
    .ok (⟨.null, pos, .str "NULL".toList⟩, false, tail1, pos1)
  else .error (.lexer (msgUnknown pre) pos (some ⟨.unkId, pos, .str pre⟩))

/-- The message of `hgpl/lexing.py:218-219`; it shows the current character, the `!`, and not the one in place of `=`. -/
def msgBang (c : Char) : Str :=
  "Syntax error, found '!' without matching '='. Found '".toList ++ [c] ++ "' in place of '='.".toList

/-- The message of `hgpl/lexing.py:271`. -/
def msgChar (c : Char) : Str := "Syntax error, encountered an unexpected character, '".toList ++ [c] ++ "'.".toList

/-- The dispatch of `Lexer.next` on the current character, `hgpl/lexing.py:190-266` and 270-272. -/
def lexOneM (U : Uni) (c : Char) (tail : Str) (pos : Nat) :
    Except SyntaxErr (Token × Bool × Str × Nat) :=
  if c = '{' then .ok (⟨.lset, pos, .none⟩, false, tail, pos)
  else if c = '}' then .ok (⟨.rset, pos, .none⟩, false, tail, pos)
  else if c = ',' then .ok (⟨.comma, pos, .none⟩, false, tail, pos)
  else if c = '(' then .ok (⟨.lparn, pos, .none⟩, false, tail, pos)
  else if c = ')' then .ok (⟨.rparn, pos, .none⟩, false, tail, pos)
  else if c = '=' then .ok (⟨.op, pos, .str "=".toList⟩, false, tail, pos)
  else if c = '>' then
    if tail.head? = some '=' then .ok (⟨.op, pos, .str ">=".toList⟩, false, tail.tail, pos + 1)
    else .ok (⟨.op, pos, .str ">".toList⟩, false, tail, pos)
  else if c = '<' then
    if tail.head? = some '=' then .ok (⟨.op, pos, .str "<=".toList⟩, false, tail.tail, pos + 1)
    else .ok (⟨.op, pos, .str "<".toList⟩, false, tail, pos)
  else if c = '!' then
    if tail.head? = some '=' then .ok (⟨.op, pos, .str "!=".toList⟩, false, tail.tail, pos + 1)
    else .error (.lexer (msgBang c) (pos + 1) (some ⟨.op, pos, .str "!=".toList⟩))
  else if c = '"' then do
    let (t, tail', pos') ← lexStringM tail pos
    return (t, false, tail', pos')
  else if U.isDigit c || (c == '-' && headIs U.isDigit tail) then do
    let (t, tail', pos') ← lexNumberM U c tail pos
    return (t, false, tail', pos')
  else if U.isAlpha c then lexWordM U c tail pos
  else .error (.lexer (msgChar c) pos none)

/-- `Lexer.next`, `hgpl/lexing.py:181-274`. -/
def LexState.nextM (U : Uni) (s : LexState) : Except SyntaxErr (LexState × Option Token) :=
  match skipSpace U s.rest s.pos with
  | ([], pos) =>
    if (s.toks.getLast?.map Token.type) ≠ some .«end» then
      let t : Token := ⟨.«end», pos, .none⟩
      .ok ({ rest := [], pos := pos + 1, toks := s.toks ++ [t], atts := s.atts }, some t)
    else .ok ({ s with rest := [], pos := pos }, none)
  | (c :: tail, pos) => do
    let (t, isAtt, tail', pos') ← lexOneM U c tail pos
    return ({ rest := tail', pos := pos' + 1, toks := s.toks ++ [t],
              atts := if isAtt then s.atts ++ [t] else s.atts }, some t)

/-- The loop of `Lexer.tokenize`, `hgpl/lexing.py:177-179`, with a bound on the iterations. -/
def LexState.tokenizeFuelM (U : Uni) : Nat → LexState → Except SyntaxErr LexState
  | 0, _ => .error (.other .outOfFuel)
  | n + 1, s => do
    let (s', t) ← s.nextM U
    match t with
    | some _ => LexState.tokenizeFuelM U n s'
    | none => return s'

/-- `Lexer.tokenize`, `hgpl/lexing.py:177-179`. -/
def LexState.tokenizeM (U : Uni) (s : LexState) : Except SyntaxErr LexState :=
  s.tokenizeFuelM U (s.rest.length + 2)

/-- `Lexer(text)`, `tokenize()` and `toke_list()`. -/
def lexTokensM (U : Uni) (text : Str) : Except SyntaxErr (List Token) := do
  let s ← (LexState.init text).tokenizeM U
  return s.toks

/-! ### The parser -/

/-- `self._current_token` when it is used: `None` has no `type`. -/
def PState.curM (s : PState) : Except SyntaxErr Token := plain s.cur

/-- The default message of `_eat`, `hgpl/parsing.py:44-45`. -/
def msgEat (ty : TokenType) (t : Token) : Str :=
  "Parse Error, expected ".toList ++ ty.name ++ " token but encountered ".toList ++ t.type.name ++ ".".toList

/-- `Parser._eat` (with `_advance`), `hgpl/parsing.py:38-47`, with the message as a function of the current token. -/
def PState.eatM (s : PState) (ty : TokenType) (rule : String) (msg : Token → Str := msgEat ty) :
    Except SyntaxErr (Token × PState) :=
  match s.toks with
  | [] => .error (.other .attributeError)
  | t :: ts =>
    if t.type = ty then .ok (t, { s with toks := ts })
    else .error (.parser (msg t) t.pos t rule)

/-- Creating a node, `hgpl/ast.py:124-139`. -/
def PState.mkNodeM (U : Uni) (s : PState) (k : Kind) (t : Token) (ch : List Node) : Except SyntaxErr (Node × PState) :=
  plain (s.mkNode U k t ch)

/-- The message of `hgpl/parsing.py:72-73`. -/
def msgAtt (t : Token) : Str := "Syntax error, expected attribute name and not ".toList ++ t.type.name ++ ".".toList

/-- `Parser._att_name_rule`, `hgpl/parsing.py:62-74`. -/
def attNameRuleM (U : Uni) (s : PState) : Except SyntaxErr (Node × PState) := do
  let c ← s.curM
  if c.type = .usrAtt then do
    let (t, s) ← s.eatM .usrAtt "att_name"; s.mkNodeM U .usrAtt t []
  else if c.type = .objAtt then do
    let (t, s) ← s.eatM .objAtt "att_name"; s.mkNodeM U .objAtt t []
  else if c.type = .admAtt then do
    let (t, s) ← s.eatM .admAtt "att_name"; s.mkNodeM U .admAtt t []
  else if c.type = .envAtt then do
    let (t, s) ← s.eatM .envAtt "att_name"; s.mkNodeM U .envAtt t []
  else do
    let (t, s) ← s.eatM .conAtt "att_name" msgAtt; s.mkNodeM U .conAtt t []

/-- `Parser._bool_var_rule`, `hgpl/parsing.py:76-81`. -/
def boolVarRuleM (U : Uni) (s : PState) : Except SyntaxErr (Node × PState) := do
  let c ← s.curM
  if c.type = .bool then do
    let (t, s) ← s.eatM .bool "bool_var"; s.mkNodeM U .boolVal t []
  else attNameRuleM U s

/-- The message of `hgpl/parsing.py:92-93`. -/
def msgAtomic (t : Token) : Str := "Syntax error, expected atomic constant and not ".toList ++ t.type.name ++ ".".toList

/-- `Parser._atomic_rule`, `hgpl/parsing.py:83-94`. -/
def atomicRuleM (U : Uni) (s : PState) : Except SyntaxErr (Node × PState) := do
  let c ← s.curM
  if c.type = .int then do
    let (t, s) ← s.eatM .int "atomic"; s.mkNodeM U .intVal t []
  else if c.type = .float then do
    let (t, s) ← s.eatM .float "atomic"; s.mkNodeM U .floatVal t []
  else if c.type = .string then do
    let (t, s) ← s.eatM .string "atomic"; s.mkNodeM U .stringVal t []
  else do
    let (t, s) ← s.eatM .null "atomic" msgAtomic; s.mkNodeM U .nullVal t []

/-- The messages of `hgpl/parsing.py:98-99,104-105,108-109`, for the character that was expected. -/
def msgSet (c : Char) (t : Token) : Str :=
  "Syntax error, expected '".toList ++ [c] ++ "' not ".toList ++ t.type.name ++ " in set notation.".toList

/-- The `while` loop of `Parser._set_rule`, `hgpl/parsing.py:103-106`. -/
def setLoopM (U : Uni) : Nat → List Node → PState → Except SyntaxErr (List Node × PState)
  | 0, _, _ => .error (.other .outOfFuel)
  | n + 1, acc, s => do
    let c ← s.curM
    if c.type ≠ .rset then do
      let (_, s) ← s.eatM .comma "set" (msgSet ',')
      let (node, s) ← atomicRuleM U s
      setLoopM U n (acc ++ [node]) s
    else return (acc, s)

/-- `Parser._set_rule`, `hgpl/parsing.py:96-110`. -/
def setRuleM (U : Uni) (s : PState) : Except SyntaxErr (Node × PState) := do
  let (start, s) ← s.eatM .lset "set" (msgSet '{')
  let c ← s.curM
  let (nodes, s) ←
    if c.type ≠ .rset then do
      let (node, s) ← atomicRuleM U s
      setLoopM U (s.toks.length + 1) [node] s
    else pure ([], s)
  let (_, s) ← s.eatM .rset "set" (msgSet '}')
  s.mkNodeM U .set start nodes

/-- `Parser._const_rule`, `hgpl/parsing.py:112-117`. -/
def constRuleM (U : Uni) (s : PState) : Except SyntaxErr (Node × PState) := do
  let c ← s.curM
  if c.isAtomic then atomicRuleM U s else setRuleM U s

/-- The message of `hgpl/parsing.py:125-126`. -/
def msgVar (t : Token) : Str :=
  "Syntax error, unexpected ".toList ++ t.type.name ++ " at char ".toList ++ intText t.pos ++
    ". Expected attribute or constant.".toList

/-- `Parser._var_rule`, `hgpl/parsing.py:119-128`. -/
def varRuleM (U : Uni) (s : PState) : Except SyntaxErr (Node × PState) := do
  let c ← s.curM
  if c.isAtt then attNameRuleM U s
  else if c.isConst then constRuleM U s
  else .error (.parser (msgVar c) c.pos c "var")

/-- The message of `hgpl/parsing.py:136-137,143-144`; `l` is the open parenthesis. -/
def msgParen (l : Token) : Str :=
  "Syntax error, '(' at char ".toList ++ intText l.pos ++ " is missing matching ')'.".toList

/-- The message of `hgpl/parsing.py:150-151`. -/
def msgOp (t : Token) : Str := "Syntax error, expected operation not ".toList ++ t.type.name ++ ".".toList

/-- The message of `hgpl/parsing.py:157-158`. -/
def msgExp (t : Token) : Str :=
  "Syntax error, unexpected ".toList ++ t.type.name ++ " at char ".toList ++ intText t.pos ++
    ". Expected start of EXP rule.".toList

mutual
/-- `Parser._exp_rule`, `hgpl/parsing.py:130-160`. -/
def expRuleM (U : Uni) : Nat → PState → Except SyntaxErr (Node × PState)
  | 0, _ => .error (.other .outOfFuel)
  | n + 1, s => do
    let c ← s.curM
    if c.type = .notOp then do
      let (notTok, s) ← s.eatM .notOp "exp"
      let c ← s.curM
      if c.type = .lparn then do
        let (l, s) ← s.eatM .lparn "exp"
        let (sub, s) ← policyRuleM U n s
        let (_, s) ← s.eatM .rparn "exp" (fun _ => msgParen l)
        s.mkNodeM U .not notTok [sub]
      else do
        let (sub, s) ← boolVarRuleM U s
        s.mkNodeM U .not notTok [sub]
    else if c.type = .lparn then do
      let (l, s) ← s.eatM .lparn "exp"
      let (node, s) ← policyRuleM U n s
      let (_, s) ← s.eatM .rparn "exp" (fun _ => msgParen l)
      return (node, s)
    else do
      let isCmp ← plain (isComparison s c)
      if isCmp then do
        let (left, s) ← varRuleM U s
        let (opTok, s) ← s.eatM .op "exp" msgOp
        let (right, s) ← varRuleM U s
        s.mkNodeM U .op opTok [left, right]
      else if c.type = .bool ∨ c.isAtt = true then boolVarRuleM U s
      else .error (.parser (msgExp c) c.pos c "exp")

/-- The loop of `Parser._term_rule`, `hgpl/parsing.py:165-166`. -/
def termLoopM (U : Uni) : Nat → Node → PState → Except SyntaxErr (Node × PState)
  | 0, _, _ => .error (.other .outOfFuel)
  | n + 1, node, s => do
    let c ← s.curM
    if c.type = .boolOp ∧ c.value = .str "AND".toList then do
      let (opTok, s) ← s.eatM .boolOp "term"
      let (right, s) ← expRuleM U n s
      let (node, s) ← s.mkNodeM U .boolOp opTok [node, right]
      termLoopM U n node s
    else return (node, s)

/-- `Parser._term_rule`, `hgpl/parsing.py:162-168`. -/
def termRuleM (U : Uni) : Nat → PState → Except SyntaxErr (Node × PState)
  | 0, _ => .error (.other .outOfFuel)
  | n + 1, s => do
    let (node, s) ← expRuleM U n s
    termLoopM U n node s

/-- The loop of `Parser._policy_rule`, `hgpl/parsing.py:189-190`. -/
def policyLoopM (U : Uni) : Nat → Node → PState → Except SyntaxErr (Node × PState)
  | 0, _, _ => .error (.other .outOfFuel)
  | n + 1, node, s => do
    let c ← s.curM
    if c.type = .boolOp ∧ c.value = .str "OR".toList then do
      let (opTok, s) ← s.eatM .boolOp "policy"
      let (right, s) ← termRuleM U n s
      let (node, s) ← s.mkNodeM U .boolOp opTok [node, right]
      policyLoopM U n node s
    else return (node, s)

/-- `Parser._policy_rule`, `hgpl/parsing.py:170-192`. -/
def policyRuleM (U : Uni) : Nat → PState → Except SyntaxErr (Node × PState)
  | 0, _ => .error (.other .outOfFuel)
  | n + 1, s => do
    let (node, s) ← termRuleM U n s
    policyLoopM U n node s
end

/-- The message of `hgpl/parsing.py:196`. -/
def msgStart : Str := "Syntax error, missing START token at beginning of token list.".toList

/-- The message of `hgpl/parsing.py:198`. -/
def msgEnd : Str := "Syntax error, expected END token marking end of policy.".toList

/-- `Parser.parse`, `hgpl/parsing.py:194-199`. -/
def PState.parseM (U : Uni) (s : PState) : Except SyntaxErr (Node × PState) := do
  let (_, s) ← s.eatM .start "parse" (fun _ => msgStart)
  let (node, s) ← policyRuleM U (3 * s.toks.length + 3) s
  let (_, s) ← s.eatM .«end» "parse" (fun _ => msgEnd)
  return (node, s)

/-- `Parser(tokens).parse()` with node ids from `k` on, `hgpl/parsing.py:7-21`. -/
def parseTokensM (U : Uni) (k : Nat) (toks : List Token) : Except SyntaxErr (Node × Nat) :=
  match toks with
  | [] => .error (.other .indexError)
  | _ => do
    let (n, s) ← (PState.mk toks k).parseM U
    return (n, s.nextId)

/-- `Parser(Lexer(text)).parse()`. -/
def parseTextM (U : Uni) (k : Nat) (text : Str) : Except SyntaxErr (Node × Nat) := do
  let toks ← lexTokensM U text
  parseTokensM U k toks

end Verif
