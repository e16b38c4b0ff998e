import Verif.Model.AST
/-!
# The Python expressions `repr` writes

A reader for the part of Python's expressions that make tokens and nodes: calls of the constructors, members of `TokenType`,
literals and lists. It is `eval` of such a text; `none` stands for an exception.
-/

namespace Verif.Spec
open Verif

/-- The number a text of a float literal stands for. -/
abbrev FloatReader := Str → Option Rat

/-- The text behind a given beginning. -/
def expect (p s : Str) : Option Str := if p.isPrefixOf s then some (s.drop p.length) else none

/-- The value of a hexadecimal digit in lower case. -/
def hexVal (c : Char) : Option Nat :=
  if 48 ≤ c.toNat ∧ c.toNat ≤ 57 then some (c.toNat - 48)
  else if 97 ≤ c.toNat ∧ c.toNat ≤ 102 then some (c.toNat - 87)
  else none

/-- `k` hexadecimal digits, behind the number `acc`. -/
def readHex : Nat → Nat → Str → Option (Nat × Str)
  | 0, acc, s => some (acc, s)
  | _ + 1, _, [] => none
  | k + 1, acc, c :: s => (hexVal c).bind fun d => readHex k (16 * acc + d) s

/-- The body of a string literal up to the closing quote, with the escapes `\\`, `\'`, `\"`, `\t`, `\n`, `\r`, `\xhh`, `\uhhhh` and
`\Uhhhhhhhh`. -/
def readBody (quote : Char) : Nat → Str → Option (Str × Str)
  | 0, _ => none
  | _ + 1, [] => none
  | f + 1, c :: s =>
    if c = quote then some ([], s)
    else if c = '\\' then
      match s with
      | [] => none
      | e :: s =>
        if e = '\\' ∨ e = '\'' ∨ e = '"' then (readBody quote f s).map fun r => (e :: r.1, r.2)
        else if e = 't' then (readBody quote f s).map fun r => ('\t' :: r.1, r.2)
        else if e = 'n' then (readBody quote f s).map fun r => ('\n' :: r.1, r.2)
        else if e = 'r' then (readBody quote f s).map fun r => ('\r' :: r.1, r.2)
        else
          (if e = 'x' then readHex 2 0 s else if e = 'u' then readHex 4 0 s
            else if e = 'U' then readHex 8 0 s else none).bind fun h =>
              (readBody quote f h.2).map fun r => (Char.ofNat h.1 :: r.1, r.2)
    else if c = '\n' then none
    else (readBody quote f s).map fun r => (c :: r.1, r.2)

/-- A string literal. -/
def readString : Str → Option (Str × Str)
  | [] => none
  | c :: s => if c = '\'' ∨ c = '"' then readBody c (s.length + 1) s else none

/-- The characters of numbers. -/
def numChar (c : Char) : Bool :=
  (48 ≤ c.toNat && c.toNat ≤ 57) || c == '.' || c == 'e' || c == '+' || c == '-'

/-- The number decimal digits stand for. -/
def natOf (s : Str) : Nat := s.foldl (fun a c => 10 * a + (c.toNat - 48)) 0

/-- The number of an integer literal with an optional minus sign, if the text is one. -/
def intOf (s : Str) : Option Int :=
  match s with
  | '-' :: ds => if ds ≠ [] ∧ ds.all Char.isDigit = true then some (-(natOf ds : Int)) else none
  | ds => if ds ≠ [] ∧ ds.all Char.isDigit = true then some (natOf ds : Int) else none

/-- A literal: a string, `None`, an integer or a float. -/
def readLit (R : FloatReader) (s : Str) : Option (TVal × Str) :=
  match readString s with
  | some (x, r) => some (.str x, r)
  | none =>
    match expect "None".toList s with
    | some r => some (.none, r)
    | none =>
      let n := s.takeWhile numChar
      match intOf n with
      | some i => some (.int i, s.dropWhile numChar)
      | none => if n.any Char.isDigit then (R n).map fun q => (.flt (.fin q), s.dropWhile numChar) else none

/-- The members of `TokenType`. -/
def typeNames : List (String × TokenType) :=
  [("OP", .op), ("BOOL_OP", .boolOp), ("NOT_OP", .notOp), ("USR_ATT", .usrAtt), ("OBJ_ATT", .objAtt), ("ENV_ATT", .envAtt),
   ("ADM_ATT", .admAtt), ("CON_ATT", .conAtt), ("UNK_ATT", .unkAtt), ("UNK_ID", .unkId), ("NULL", .null), ("BOOL", .bool),
   ("INT", .int), ("FLOAT", .float), ("STRING", .string), ("LSET", .lset), ("RSET", .rset), ("LPARN", .lparn),
   ("RPARN", .rparn), ("COMMA", .comma), ("START", .start), ("END", .«end»)]

/-- The characters of names. -/
def nameChar (c : Char) : Bool := (65 ≤ c.toNat && c.toNat ≤ 90) || (97 ≤ c.toNat && c.toNat ≤ 122) || c == '_'

/-- A name in a table. -/
def readName {α : Type} (table : List (String × α)) (s : Str) : Option (α × Str) :=
  (table.find? fun e => e.1.toList == s.takeWhile nameChar).map fun e => (e.2, s.dropWhile nameChar)

/-- `Token(TokenType.X)`, `Token(TokenType.X, value=v)`, `Token(TokenType.X, pos)` or `Token(TokenType.X, pos, v)`; the defaults are
-1 and None. -/
def readToken (R : FloatReader) (s : Str) : Option (Token × Str) :=
  (expect "Token(TokenType.".toList s).bind fun s =>
  (readName typeNames s).bind fun ⟨ty, s⟩ =>
  match expect ")".toList s with
  | some s => some (⟨ty, -1, .none⟩, s)
  | none =>
    match expect ", value=".toList s with
    | some s =>
      (readLit R s).bind fun ⟨v, s⟩ =>
      (expect ")".toList s).bind fun s => some (⟨ty, -1, v⟩, s)
    | none =>
      (expect ", ".toList s).bind fun s =>
      (readLit R s).bind fun ⟨p, s⟩ =>
      match p with
      | .int p =>
        match expect ")".toList s with
        | some s => some (⟨ty, p, .none⟩, s)
        | none =>
          (expect ", ".toList s).bind fun s =>
          (readLit R s).bind fun ⟨v, s⟩ =>
          (expect ")".toList s).bind fun s => some (⟨ty, p, v⟩, s)
      | _ => none

/-- `None` or a token. -/
def readOptToken (R : FloatReader) (s : Str) : Option (Option Token × Str) :=
  match expect "None".toList s with
  | some r => some (none, r)
  | none => (readToken R s).map fun r => (some r.1, r.2)

/-- What the call of a constructor makes: class, token, end token (of sets) and children. Ids are fresh and results those of a new
node. -/
inductive Made where
  | mk (kind : Kind) (tok : Token) (stop : Option (Option Token)) (children : List Made)

/-- The classes of nodes. -/
def classNames : List (String × Kind) :=
  [("ASTNode", .node), ("OpNode", .op), ("BoolOpNode", .boolOp), ("NotNode", .not), ("BoolValNode", .boolVal), ("ValNode", .val),
   ("IntValNode", .intVal), ("FloatValNode", .floatVal), ("StringValNode", .stringVal), ("NullValNode", .nullVal),
   ("SetNode", .set), ("AttNode", .att), ("UsrAttNode", .usrAtt), ("ObjAttNode", .objAtt), ("AdmAttNode", .admAtt),
   ("ConAttNode", .conAtt), ("EnvAttNode", .envAtt)]

/-- How many arguments behind the token the constructor of a class takes (`SetNode` is apart). -/
def maxArgs : Kind → Nat
  | .node | .op | .boolOp => 2
  | .not => 1
  | _ => 0

mutual
/-- A call that makes a node. -/
def readNode (R : FloatReader) : Nat → Str → Option (Made × Str)
  | 0, _ => none
  | f + 1, s =>
    (readName classNames s).bind fun ⟨k, s⟩ =>
    (expect "(".toList s).bind fun s =>
    (readToken R s).bind fun ⟨t, s⟩ =>
    if k = .set then
      (expect ", ".toList s).bind fun s =>
      (readOptToken R s).bind fun ⟨e, s⟩ =>
      (expect ", [".toList s).bind fun s =>
      (readList R f s).bind fun ⟨cs, s⟩ =>
      (expect ")".toList s).bind fun s => some (.mk k t (some e) cs, s)
    else
      match expect ")".toList s with
      | some s => some (.mk k t none [], s)
      | none =>
        if maxArgs k = 0 then none
        else
          match expect ",[".toList s with
          | some s =>
            (readList R f s).bind fun ⟨cs, s⟩ =>
            (expect ")".toList s).bind fun s => some (.mk k t none cs, s)
          | none =>
            (expect ", ".toList s).bind fun s =>
            (readNode R f s).bind fun ⟨a, s⟩ =>
            match expect ")".toList s with
            | some s => some (.mk k t none [a], s)
            | none =>
              if maxArgs k = 1 then none
              else
                (expect ", ".toList s).bind fun s =>
                (readNode R f s).bind fun ⟨b, s⟩ =>
                (expect ")".toList s).bind fun s => some (.mk k t none [a, b], s)
/-- The rest of a list of nodes, behind the opening bracket. -/
def readList (R : FloatReader) : Nat → Str → Option (List Made × Str)
  | 0, _ => none
  | f + 1, s =>
    match expect "]".toList s with
    | some s => some ([], s)
    | none => readItems R f s
/-- Nodes with commas between them, up to the closing bracket. -/
def readItems (R : FloatReader) : Nat → Str → Option (List Made × Str)
  | 0, _ => none
  | f + 1, s =>
    (readNode R f s).bind fun ⟨a, s⟩ =>
    match expect ", ".toList s with
    | some s => (readItems R f s).map fun r => (a :: r.1, r.2)
    | none => (expect "]".toList s).map fun s => ([a], s)
end

/-- `eval` of the text of a token. -/
def evalToken (R : FloatReader) (s : Str) : Option Token :=
  match readToken R s with
  | some (t, []) => some t
  | _ => none

/-- `eval` of the text of a node. -/
def evalTree (R : FloatReader) (s : Str) : Option Made :=
  match readNode R (3 * s.length + 3) s with
  | some (m, []) => some m
  | _ => none

mutual
/-- What a node is, without id and result, with its tokens changed by `g`; `ends` gives the end tokens of sets by id. -/
def made (g : Token → Token) (ends : Nat → Option Token) : Node → Made
  | .mk k t i _ cs => .mk k (g t) (if k = .set then some ((ends i).map g) else none) (mades g ends cs)
/-- Companion of `made`. -/
def mades (g : Token → Token) (ends : Nat → Option Token) : List Node → List Made
  | [] => []
  | n :: ns => made g ends n :: mades g ends ns
end

mutual
/-- The tokens of a tree, with the end tokens of sets. -/
def tokensOf (ends : Nat → Option Token) : Node → List Token
  | .mk k t i _ cs => t :: ((if k = .set then (ends i).toList else []) ++ tokensOfs ends cs)
/-- Companion of `tokensOf`. -/
def tokensOfs (ends : Nat → Option Token) : List Node → List Token
  | [] => []
  | n :: ns => tokensOf ends n ++ tokensOfs ends ns
end

mutual
/-- Every node has as many children as the constructor of its class takes (one argument can be a list). -/
def Callable : Node → Prop
  | .mk k _ _ _ cs => (k = .set ∨ cs.length ≤ maxArgs k ∨ (2 < cs.length ∧ 0 < maxArgs k)) ∧ Callables cs
/-- Companion of `Callable`. -/
def Callables : List Node → Prop
  | [] => True
  | n :: ns => Callable n ∧ Callables ns
end

/-- The value has the type the lexer gives to tokens of this type. -/
def WellTyped (t : Token) : Prop :=
  match t.type with
  | .int => ∃ i, t.value = .int i
  | .float => ∃ f, t.value = .flt f
  | .string => ∃ s, t.value = .str s
  | .lset | .rset | .lparn | .rparn | .comma | .start | .«end» => t.value = .none
  | _ => ∃ s, s ≠ [] ∧ t.value = .str s

/-- The value is 0, 0.0 or the empty string, which count as false in Python. -/
def Falsy (t : Token) : Prop := t.value = .int 0 ∨ t.value = .flt (.fin 0) ∨ t.value = .str []

/-- The token without a value that counts as false: `repr` leaves out 0, 0.0 and `""`. -/
def blank (t : Token) : Token :=
  match t.value with
  | .int 0 | .flt (.fin 0) | .str [] => ⟨t.type, t.pos, .none⟩
  | _ => t

/-- The value is an infinite float, whose text `inf` is no literal. -/
def infinite (t : Token) : Bool :=
  match t.value with
  | .flt (.inf _) => true
  | _ => false

end Verif.Spec
