import Verif.Model.Messages
/-!
# Forgetting messages and tokens
-/

namespace Verif.Proofs
open Verif

/-- The outcome without messages and tokens. -/
def er {α : Type} (x : Except SyntaxErr α) : Except PyExc α := x.mapError SyntaxErr.exc

theorem er_ok {α : Type} (a : α) : er (.ok a : Except SyntaxErr α) = .ok a := rfl

theorem er_pure {α : Type} (a : α) : er (pure a : Except SyntaxErr α) = pure a := rfl

theorem er_error {α : Type} (r : SyntaxErr) : er (.error r : Except SyntaxErr α) = .error r.exc := rfl

theorem er_bind {α β : Type} (x : Except SyntaxErr α) (f : α → Except SyntaxErr β) : er (x >>= f) = er x >>= fun a => er (f a) := by
  cases x <;> rfl

theorem er_plain {α : Type} (x : Except PyExc α) : er (plain x) = x := by cases x <;> rfl

theorem er_ite {α : Type} (p : Prop) [Decidable p] (x y : Except SyntaxErr α) : er (if p then x else y) = if p then er x else er y := by
  split <;> rfl

/-! ### The lexer -/

theorem er_numLoop (U : Uni) (start : Nat) (acc : Str) (isF : Bool) (s : Str) (pos : Nat) :
    er (numLoopM U start acc isF s pos) = numLoop U acc isF s pos := by
  induction s generalizing acc isF pos with
  | nil => rfl
  | cons c t ih => simp only [numLoopM, numLoop, er_ite, er_ok, er_error, ih, SyntaxErr.exc]

theorem er_lexNumber (U : Uni) (c : Char) (tail : Str) (pos : Nat) :
    er (lexNumberM U c tail pos) = lexNumber U c tail pos := by
  simp only [lexNumberM, lexNumber, er_bind, er_numLoop, er_ite, er_plain, er_pure]

theorem er_stringLoop (start : Nat) (acc : Str) (s : Str) (pos : Nat) :
    er (stringLoopM start acc s pos) = stringLoop start acc s pos := by
  induction s generalizing acc pos with
  | nil => rfl
  | cons c t ih => simp only [stringLoopM, stringLoop, er_ite, er_ok, er_error, ih, SyntaxErr.exc]

theorem er_lexString (tail : Str) (pos : Nat) : er (lexStringM tail pos) = lexString tail pos := by
  simp only [lexStringM, lexString, er_bind, er_stringLoop, er_pure]

theorem er_lexWord (U : Uni) (c : Char) (tail : Str) (pos : Nat) : er (lexWordM U c tail pos) = lexWord U c tail pos := by
  unfold lexWordM lexWord
  rcases idLoop U [c] tail pos with ⟨pre, tail1, pos1⟩
  simp only [er_ite, er_ok, er_error, SyntaxErr.exc]
  split
  · cases tail1.tail with
    | nil => rfl
    | cons d tl =>
      simp only [er_ite, er_error, SyntaxErr.exc]
      cases attPrefix (U.lower pre) <;> simp only [er_ok, er_error, SyntaxErr.exc]
  · rfl

theorem er_lexOne (U : Uni) (c : Char) (tail : Str) (pos : Nat) : er (lexOneM U c tail pos) = lexOne U c tail pos := by
  simp only [lexOneM, lexOne, er_ite, er_ok, er_error, SyntaxErr.exc, er_bind, er_lexString, er_lexNumber, er_lexWord, er_pure]

theorem er_next (U : Uni) (s : LexState) : er (s.nextM U) = s.next U := by
  unfold LexState.nextM LexState.next
  rcases skipSpace U s.rest s.pos with ⟨r, p⟩
  cases r with
  | nil => simp only [er_ite, er_ok]
  | cons c t => simp only [er_bind, er_lexOne, er_pure]

theorem er_tokenizeFuel (U : Uni) (n : Nat) (s : LexState) : er (s.tokenizeFuelM U n) = s.tokenizeFuel U n := by
  induction n generalizing s with
  | zero => rfl
  | succ n ih =>
    simp only [LexState.tokenizeFuelM, LexState.tokenizeFuel, er_bind, er_next]
    congr 1
    funext x
    rcases x with ⟨s', t⟩
    cases t with
    | none => rfl
    | some t => exact ih s'

theorem er_lexTokens (U : Uni) (text : Str) : er (lexTokensM U text) = lexTokens U text := by
  simp only [lexTokensM, lexTokens, er_bind, LexState.tokenizeM, LexState.tokenize, er_tokenizeFuel, er_pure]

/-! ### The parser -/

theorem er_cur (s : PState) : er s.curM = s.cur := er_plain _

theorem er_eat (s : PState) (ty : TokenType) (rule : String) (msg : Token → Str) : er (s.eatM ty rule msg) = s.eat ty rule := by
  unfold PState.eatM PState.eat
  cases s.toks with
  | nil => rfl
  | cons t ts => simp only [er_ite, er_ok, er_error, SyntaxErr.exc]

theorem er_mkNode (U : Uni) (s : PState) (k : Kind) (t : Token) (ch : List Node) :
    er (s.mkNodeM U k t ch) = s.mkNode U k t ch := er_plain _

theorem er_attName (U : Uni) (s : PState) : er (attNameRuleM U s) = attNameRule U s := by
  simp only [attNameRuleM, attNameRule, er_bind, er_cur, er_ite, er_eat, er_mkNode]

theorem er_boolVar (U : Uni) (s : PState) : er (boolVarRuleM U s) = boolVarRule U s := by
  simp only [boolVarRuleM, boolVarRule, er_bind, er_cur, er_ite, er_eat, er_mkNode, er_attName]

theorem er_atomic (U : Uni) (s : PState) : er (atomicRuleM U s) = atomicRule U s := by
  simp only [atomicRuleM, atomicRule, er_bind, er_cur, er_ite, er_eat, er_mkNode]

theorem er_setLoop (U : Uni) (n : Nat) (acc : List Node) (s : PState) : er (setLoopM U n acc s) = setLoop U n acc s := by
  induction n generalizing acc s with
  | zero => rfl
  | succ n ih => simp only [setLoopM, setLoop, er_bind, er_cur, er_ite, er_eat, er_atomic, ih, er_pure]

theorem er_set (U : Uni) (s : PState) : er (setRuleM U s) = setRule U s := by
  simp only [setRuleM, setRule, er_bind, er_cur, er_ite, er_eat, er_atomic, er_setLoop, er_pure, er_mkNode]

theorem er_const (U : Uni) (s : PState) : er (constRuleM U s) = constRule U s := by
  simp only [constRuleM, constRule, er_bind, er_cur, er_ite, er_atomic, er_set]

theorem er_var (U : Uni) (s : PState) : er (varRuleM U s) = varRule U s := by
  simp only [varRuleM, varRule, er_bind, er_cur, er_ite, er_attName, er_const, er_error, SyntaxErr.exc]

theorem er_rules (U : Uni) (n : Nat) :
    (∀ s, er (expRuleM U n s) = expRule U n s) ∧ (∀ a s, er (termLoopM U n a s) = termLoop U n a s) ∧
    (∀ s, er (termRuleM U n s) = termRule U n s) ∧ (∀ a s, er (policyLoopM U n a s) = policyLoop U n a s) ∧
    (∀ s, er (policyRuleM U n s) = policyRule U n s) := by
  induction n with
  | zero => exact ⟨fun _ => rfl, fun _ _ => rfl, fun _ => rfl, fun _ _ => rfl, fun _ => rfl⟩
  | succ n ih =>
    obtain ⟨h1, h2, h3, h4, h5⟩ := ih
    refine ⟨fun s => ?_, fun a s => ?_, fun s => ?_, fun a s => ?_, fun s => ?_⟩
    · simp only [expRuleM, expRule, er_bind, er_cur, er_ite, er_eat, h5, er_mkNode, er_boolVar, er_plain, er_var, er_pure, er_error,
        SyntaxErr.exc]
    · simp only [termLoopM, termLoop, er_bind, er_cur, er_ite, er_eat, h1, er_mkNode, er_pure, h2]
    · simp only [termRuleM, termRule, er_bind, h1, h2]
    · simp only [policyLoopM, policyLoop, er_bind, er_cur, er_ite, er_eat, h3, er_mkNode, er_pure, h4]
    · simp only [policyRuleM, policyRule, er_bind, h3, h4]

theorem er_parse (U : Uni) (s : PState) : er (s.parseM U) = s.parse U := by
  simp only [PState.parseM, PState.parse, er_bind, er_eat, (er_rules U _).2.2.2.2, er_pure]

theorem er_parseTokens (U : Uni) (k : Nat) (toks : List Token) : er (parseTokensM U k toks) = parseTokens U k toks := by
  cases toks with
  | nil => rfl
  | cons t ts => simp only [parseTokensM, parseTokens, er_bind, er_parse, er_pure]

theorem er_parseText (U : Uni) (k : Nat) (text : Str) : er (parseTextM U k text) = parseText U k text := by
  simp only [parseTextM, parseText, er_bind, er_lexTokens, er_parseTokens]

theorem er_ok_iff {α : Type} (x : Except SyntaxErr α) (a : α) : er x = .ok a ↔ x = .ok a := by
  cases x <;> simp [er, Except.mapError]

theorem er_error_iff {α : Type} (x : Except SyntaxErr α) (e : PyExc) : er x = .error e ↔ ∃ r, x = .error r ∧ r.exc = e := by
  cases x <;> simp [er, Except.mapError]

end Verif.Proofs
