import Verif.Model.Messages
import Verif.Model.LexerObj
import Verif.Model.TypeChecker
import Verif.Model.Encoder
import Verif.Py.Float64
import Verif.Py.Txt
/-!
# Vocabulary of the restated unit tests

The helper functions of the test classes in `/repo/hgpl/test`, for the model with ASCII tables and binary64 numbers
(`cpythonUni`; every test text is ASCII).
-/

namespace Verif.Tests

/-- `Token(type, pos)` -/
def tk (ty : TokenType) (pos : Int) : Token := ⟨ty, pos, .none⟩
/-- `Token(type, pos, "…")` -/
def tkS (ty : TokenType) (pos : Int) (s : Str) : Token := ⟨ty, pos, .str s⟩
/-- `Token(TokenType.INT, pos, i)` -/
def tkI (pos i : Int) : Token := ⟨.int, pos, .int i⟩
/-- `Token(TokenType.FLOAT, pos, q)`, the literal rounded -/
def tkF (pos : Int) (q : Rat) : Token := ⟨.float, pos, .flt (f64 q)⟩
/-- A node of the expected tree; ids and results are not compared. -/
def nd (k : Kind) (t : Token) (cs : List Node) : Node := .mk k t 0 .none cs

/-- Call `next()` until it gives `None`, from the token on that `current()` gives. -/
def collect : Nat → LexerObj → List Token → Except PyExc (List Token)
  | 0, _, _ => .error .outOfFuel
  | n + 1, l, acc => do
    match l.next cpythonUni with
    | (_, .error e) => .error e.exc
    | (_, .ok none) => return acc
    | (l', .ok (some t)) => collect n l' (acc ++ [t])

/-- `TestLexer._check_policy`, `hgpl/test/test_lexing.py:324-337`, without the token string. -/
def lexes (text : Str) (toks : List Token) : Bool :=
  (match (LexerObj.new text).tokenize cpythonUni with
   | (l, .ok _) => l.tokeList == toks
   | (_, .error _) => false) &&
  (match (LexerObj.new text).current with
   | .ok t => collect (toks.length + 1) (LexerObj.new text) [t] == .ok toks
   | .error _ => false)

/-- The token string of a lexer with these tokens, `hgpl/test/test_lexing.py:328`. -/
def shows (toks : List Token) (s : Str) : Bool :=
  (LexerObj.mk [] ⟨[], 0, toks, []⟩).tokenString == s

/-- `with self.assertRaises(LexerError)` and the position. -/
def lexFails (text : Str) (pos : Int) : Bool :=
  match lexTokens cpythonUni text with
  | .error (.lexerError p) => p == pos
  | _ => false

/-- The `token` of that exception. -/
def lexFailsTok (text : Str) (t : Option Token) : Bool :=
  match (LexerObj.new text).tokenize cpythonUni with
  | (_, .error e) => e.token == t
  | _ => false

/-- `TestParser._check_using_policy`, `hgpl/test/test_parsing.py:22-26`. -/
def parses (text : Str) (tree : Node) : Bool :=
  match parseText cpythonUni 0 text with
  | .ok (n, _) => tree.eq n
  | .error _ => false

/-- `TestParser._check_error_using_policy`, `hgpl/test/test_parsing.py:27-34`. -/
def parseFails (text : Str) (tok : Token) (pos : Int) (rule : String) : Bool :=
  match parseTextM cpythonUni 0 text with
  | .error (.parser _ p t r) => p == pos && r == rule && t == tok
  | _ => false

/-- Symbol objects no test refers to. -/
def noHeap : Heap := fun _ => Symbol.new cpythonUni [] none none (.sc .none)

/-- `tc.check()` with its default level `ErrorType.CRIT`, `hgpl/semantics.py:231`. -/
def checked (text : Str) : Option TC :=
  match checkText cpythonUni noHeap 0 0 (some 4) text with
  | .ok (s, .ok _) => some s
  | _ => none

/-- `TestTypeChecker._check_policy_passed`, `hgpl/test/test_semantics.py:43-46`. -/
def passes (text : Str) : Bool :=
  match checked text with
  | some s => s.getResult == .pass
  | none => false

/-- `TestTypeChecker._check_policy_errors`, `hgpl/test/test_semantics.py:48-61`. -/
def checks (text : Str) (errors warnings : Nat) (rules : List String) (r : TCResult) : Bool :=
  match checked text with
  | some s => s.getResult == r && s.getErrors.length == errors && s.getWarnings.length == warnings &&
      s.issues.all (fun i => rules.contains i.check)
  | none => false

/-- `types` of `TestInterpreter._build_symbol_table`, `hgpl/test/test_interpreting.py:21-46`. -/
def types : Dict SymType :=
  [(txt!"user.id", .int), (txt!"object.owner", .int), (txt!"object.required_perms", .set),
    (txt!"user.perms", .set), (txt!"user.age", .int), (txt!"user.admin", .bool), (txt!"user.role",
    .string), (txt!"object.patient", .int), (txt!"user.user_type", .set), (txt!"object.object_type",
    .string), (txt!"object.restricted", .bool), (txt!"user.enrolled_in", .set), (txt!"object.req_course",
    .set), (txt!"user.teaching", .set), (txt!"object.depart", .set), (txt!"user.depart", .set),
    (txt!"env.time_of_day_hour", .int), (txt!"env.day_of_week", .int), (txt!"connect.ip_octet_1", .int),
    (txt!"connect.ip_octet_2", .int), (txt!"connect.ip_octet_3", .int), (txt!"connect.ip_octet_4", .int),
    (txt!"user.string", .string), (txt!"user.float", .float), (txt!"user.int", .int), (txt!"user.set",
    .set)]

/-- `vals` of `TestInterpreter._build_symbol_table`, `hgpl/test/test_interpreting.py:50-75`. -/
def vals : Dict PyVal :=
  [(txt!"user.id", .sc (.atom (.int 1337))), (txt!"object.owner", .sc (.atom (.int 1337))),
    (txt!"object.required_perms", .set [.atom (.int 1), .atom (.int 5), .atom (.int 3)]), (txt!"user.perms",
    .set [.atom (.int 2), .atom (.int 5), .atom (.int 4), .atom (.int 3), .atom (.int 0), .atom (.int 1)]),
    (txt!"user.age", .sc (.atom (.int 30))), (txt!"user.admin", .sc (.bool true)), (txt!"user.role",
    .sc (.atom (.str txt!"admin"))), (txt!"object.patient", .sc (.atom (.int 1337))), (txt!"user.user_type",
    .set [.atom (.str txt!"admin"), .atom (.str txt!"grad"), .atom (.str txt!"staff")]),
    (txt!"object.object_type", .sc (.atom (.str txt!"book"))), (txt!"object.restricted", .sc (.bool false)),
    (txt!"user.enrolled_in", .set [.atom (.str txt!"CS1032"), .atom (.str txt!"CS2034")]),
    (txt!"object.req_course", .set [.atom (.str txt!"CS4030"), .atom (.str txt!"CS2034")]),
    (txt!"user.teaching", .set [.atom (.str txt!"CS3090"), .atom (.str txt!"CS1032")]),
    (txt!"object.depart", .set [.atom (.str txt!"COMPSCI"), .atom (.str txt!"SOFTENG")]),
    (txt!"user.depart", .set [.atom (.str txt!"COMPSCI")]), (txt!"env.time_of_day_hour",
    .sc (.atom (.int 9))), (txt!"env.day_of_week", .sc (.atom (.int 4))), (txt!"connect.ip_octet_1",
    .sc (.atom (.int 192))), (txt!"connect.ip_octet_2", .sc (.atom (.int 168))), (txt!"connect.ip_octet_3",
    .sc (.atom (.int 1))), (txt!"connect.ip_octet_4", .sc (.atom (.int 110))), (txt!"user.string",
    .sc (.atom (.str txt!"hello world"))), (txt!"user.float", .sc (.atom (.flt (.fin (157 / 50 : Rat))))),
    (txt!"user.int", .sc (.atom (.int 3))), (txt!"user.set", .set [.atom (.int 1), .atom (.int 2),
    .atom (.int 3)])]

/-- `TestInterpreter._build_symbol_table`, `hgpl/test/test_interpreting.py:20-78`. -/
def table : Heap × SymTab := (Builder.load { types := types } vals).1.build cpythonUni noHeap 0

/-- `TestInterpreter._evaluate_policy`, `hgpl/test/test_interpreting.py:99-107`; the type checker has its own symbols. -/
def evaluates (text : Str) (r : Tri) : Bool :=
  match parseText cpythonUni 0 text with
  | .ok (n, _) =>
    match TC.check cpythonUni (some 3) n { heap := noHeap, next := 0 } with
    | (_, .ok _) =>
      match (Interp.evaluate cpythonUni ⟨table.2, table.1⟩ (some 3) ⟨n, []⟩).2 with
      | .ok x => x == .tri r
      | .error _ => false
    | (_, .error _) => false
  | .error _ => false

mutual
/-- `ASTNode.__eq__` between a tree and a decoded node, `hgpl/ast.py:211-220`. -/
def sameAs (d : IdDict) : Node → Nat → Bool
  | .mk _ t _ _ cs, i =>
    match d.get i with
    | some g => t.eq g.tok && cs.length == g.cids.length && sameAsList d cs g.cids
    | none => false
/-- The loop of `sameAs`. -/
def sameAsList (d : IdDict) : List Node → List Nat → Bool
  | n :: ns, i :: is => sameAs d n i && sameAsList d ns is
  | _, _ => true
end

/-- `TestASTEncoder._encode_decode_test`, `hgpl/test/test_ast.py:16-23`. -/
def survives (text : Str) : Bool :=
  match parseText cpythonUni 0 text with
  | .ok (n, _) => [false, true].all fun b64 =>
    match astEncode cpythonUni n b64 with
    | .ok bs =>
      match astDecode cpythonUni (.fin 0) bs b64 with
      | .ok g => sameAs g.nodes n g.root
      | .error _ => false
    | .error _ => false
  | .error _ => false

/-- One step of `test_basic_functions`, `hgpl/test/test_lexing.py:66-116`: the lexer after `next()` gave `t`, with its
`current()`, `toke_list()`, `token_string()` and `policy()`. -/
def steps : List (Option Token) → LexerObj → List Token → Bool
  | [], _, _ => true
  | t :: ts, l, seen =>
    match l.next cpythonUni with
    | (l', .ok u) =>
      let seen' := seen ++ t.toList
      u == t && l'.current == (match seen'.getLast? with | some x => .ok x | none => .error .indexError) &&
      l'.tokeList == seen' && l'.tokenString == txt!" ".intercalate (seen'.map (·.type.name)) &&
      l'.policy == l.policy && steps ts l' seen'
    | (_, .error _) => false

/-! ### `test_basic_functions`, `hgpl/test/test_lexing.py:66` -/

example : (LexerObj.new txt!"user.age >= 18").current = .ok (tk .start 0) := by decide +kernel
example : (LexerObj.new txt!"user.age >= 18").policy = txt!"user.age >= 18" := by decide +kernel
example : (LexerObj.new txt!"user.age >= 18").tokenString = txt!"START" := by decide +kernel

example : steps [some (tkS .usrAtt 0 txt!"age"), some (tkS .op 9 txt!">="), some (tkI 12 18), some (tk .«end» 14), none, none]
    (LexerObj.new txt!"user.age >= 18") [tk .start 0] = true := by decide +kernel

end Verif.Tests
