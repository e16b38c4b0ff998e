import Verif.Proofs.MessagesLex
import Verif.Proofs.MessagesParse
import Verif.Props.LexerObj
import Verif.Props.Parser
import Verif.Tests.Basic
/-!
# C124, C125: the errors of lexer and parser with message, position, token and rule
-/

namespace Verif.Props
open Verif Verif.Spec Verif.Proofs

/-! ### The functions with messages are those of the model -/

theorem lexTokensM_exc (U : Uni) (text : Str) : (lexTokensM U text).mapError SyntaxErr.exc = lexTokens U text := er_lexTokens U text

theorem parseTokensM_exc (U : Uni) (k : Nat) (toks : List Token) :
    (parseTokensM U k toks).mapError SyntaxErr.exc = parseTokens U k toks := er_parseTokens U k toks

theorem parseTextM_exc (U : Uni) (k : Nat) (text : Str) :
    (parseTextM U k text).mapError SyntaxErr.exc = parseText U k text := er_parseText U k text

/-! ### The lexer (C124) -/

theorem lexTokensM_eq (U : Uni) (text : Str) (r : SyntaxErr) :
    lexTokensM U text = .error r ↔ (LexState.init text).tokenizeM U = .error r := by
  unfold lexTokensM
  cases (LexState.init text).tokenizeM U <;> simp [bind, Except.bind, pure, Except.pure]

/-- C124: the lexer raises an error exactly if, after lexemes and white space, the text goes on with something that is no lexeme, and
the error is the one listed for it: message, position and token. -/
theorem lex_error_iff (U : Uni) (hU : U.Lawful) (text : Str) (r : SyntaxErr) :
    lexTokensM U text = .error r ↔ LexFails U text 0 r := by
  rw [lexTokensM_eq]
  constructor
  · intro h
    exact runM_error U hU _ (LexState.init text) r (Or.inl (by simp [LexState.init])) h
  · intro h
    exact runM_fails U hU text 0 r h _ _ _ (by simp [LexState.init])

/-- A text has tokens or one error. -/
theorem lex_or_error (U : Uni) (hU : U.Lawful) (text : Str) :
    ((∃ toks, lexTokens U text = .ok toks) ∧ ∀ r, ¬ LexFails U text 0 r) ∨
    ((∀ toks, lexTokens U text ≠ .ok toks) ∧ ∃ r, LexFails U text 0 r ∧ ∀ r', LexFails U text 0 r' → r' = r) := by
  cases h : lexTokensM U text with
  | ok toks =>
    refine Or.inl ⟨⟨toks, ?_⟩, ?_⟩
    · rw [← lexTokensM_exc, h]; rfl
    · intro r hr
      rw [← lex_error_iff U hU, h] at hr
      cases hr
  | error r =>
    refine Or.inr ⟨?_, r, (lex_error_iff U hU text r).1 h, ?_⟩
    · intro toks ht
      rw [← lexTokensM_exc, h] at ht
      cases ht
    · intro r' hr
      rw [← lex_error_iff U hU, h] at hr
      cases hr
      rfl

/-- What the token of a lexer error is. -/
def SyntaxErr.token : SyntaxErr → Option Token
  | .lexer _ _ t => t
  | .parser _ _ t _ => some t
  | .other _ => none

theorem numLoopM_token (U : Uni) (start : Nat) (acc : Str) (f : Bool) (s : Str) (pos : Nat) (r : SyntaxErr)
    (h : numLoopM U start acc f s pos = .error r) :
    SyntaxErr.token r = some ⟨.float, start, .none⟩ ∧ ∃ p, r.exc = .lexerError p := by
  induction s generalizing acc f pos with
  | nil => cases h
  | cons c tl ih =>
    rw [numLoopM] at h
    split at h
    · exact ih _ _ _ h
    · split at h
      · split at h
        · split at h
          · exact ih _ _ _ h
          · cases h; exact ⟨rfl, _, rfl⟩
        · cases h; exact ⟨rfl, _, rfl⟩
      · cases h

theorem stringLoopM_token (start : Nat) (acc s : Str) (pos : Nat) (r : SyntaxErr) (h : stringLoopM start acc s pos = .error r) :
    SyntaxErr.token r = some ⟨.string, start, .none⟩ := by
  induction s generalizing acc pos with
  | nil => cases h; rfl
  | cons c tl ih =>
    rw [stringLoopM] at h
    split at h
    · cases h
    · split at h
      · exact ih _ _ h
      · cases h; rfl

/-- The token of an error is the one the lexer object reports (`Model/LexerObj.lean`). -/
theorem lexOneM_token (U : Uni) (hU : U.Lawful) (c : Char) (tail : Str) (pos : Nat) (r : SyntaxErr)
    (h : lexOneM U c tail pos = .error r) : (lexStop U c tail pos r.exc).2 = SyntaxErr.token r := by
  unfold lexOneM at h
  unfold lexStop
  by_cases hb : c = '!'
  · subst hb
    simp only [if_true]
    rw [if_neg (by decide), if_neg (by decide), if_neg (by decide), if_neg (by decide), if_neg (by decide), if_neg (by decide),
      if_neg (by decide), if_neg (by decide), if_pos rfl] at h
    split at h
    · cases h
    · cases h; rfl
  · by_cases hq : c = '"'
    · subst hq
      simp only [if_neg hb, if_true]
      rw [if_neg (by decide), if_neg (by decide), if_neg (by decide), if_neg (by decide), if_neg (by decide), if_neg (by decide),
        if_neg (by decide), if_neg (by decide), if_neg (by decide), if_pos rfl] at h
      cases hs : lexStringM tail pos with
      | ok x => rw [hs] at h; cases h
      | error r' =>
        rw [hs] at h
        cases h
        unfold lexStringM at hs
        cases hl : stringLoopM pos [] tail (pos + 1) with
        | ok x => rw [hl] at hs; cases hs
        | error r' =>
          rw [hl] at hs
          cases hs
          exact (stringLoopM_token _ _ _ _ _ hl).symm
    · simp only [if_neg hb, if_neg hq] at h ⊢
      by_cases h1 : c = '{'
      · rw [if_pos h1] at h; cases h
      rw [if_neg h1] at h
      by_cases h2 : c = '}'
      · rw [if_pos h2] at h; cases h
      rw [if_neg h2] at h
      by_cases h3 : c = ','
      · rw [if_pos h3] at h; cases h
      rw [if_neg h3] at h
      by_cases h4 : c = '('
      · rw [if_pos h4] at h; cases h
      rw [if_neg h4] at h
      by_cases h5 : c = ')'
      · rw [if_pos h5] at h; cases h
      rw [if_neg h5] at h
      by_cases h6 : c = '='
      · rw [if_pos h6] at h; cases h
      rw [if_neg h6] at h
      by_cases h7 : c = '>'
      · rw [if_pos h7] at h; split at h <;> cases h
      rw [if_neg h7] at h
      by_cases h8 : c = '<'
      · rw [if_pos h8] at h; split at h <;> cases h
      rw [if_neg h8] at h
      by_cases hn : (U.isDigit c || (c == '-' && headIs U.isDigit tail)) = true
      · rw [if_pos hn] at h ⊢
        cases hx : lexNumberM U c tail pos with
        | ok x => rw [hx] at h; cases h
        | error r' =>
          rw [hx] at h
          cases h
          unfold lexNumberM at hx
          cases hl : numLoopM U pos [c] false tail pos with
          | error r' =>
            rw [hl] at hx
            cases hx
            obtain ⟨e1, p, e2⟩ := numLoopM_token _ _ _ _ _ _ _ hl
            rw [e1, e2]
            simp
          | ok x =>
            rw [hl] at hx
            obtain ⟨num, f, t', p'⟩ := x
            simp only [bind, Except.bind, pure, Except.pure] at hx
            split at hx
            · cases hi : pyInt U num with
              | ok i => rw [hi] at hx; cases hx
              | error e =>
                rw [hi] at hx
                have he : e = .valueError := by
                  unfold pyInt at hi
                  split at hi <;> (repeat' split at hi) <;> first | (cases hi; rfl) | cases hi
                subst he
                cases hx
                rfl
            · cases hi : pyFloat U num with
              | ok i => rw [hi] at hx; cases hx
              | error e =>
                rw [hi] at hx
                have he : e = .valueError := by
                  unfold pyFloat at hi
                  split at hi <;> (dsimp only at hi; split at hi <;> first | (cases hi; rfl) | cases hi)
                subst he
                cases hx
                rfl
      · rw [if_neg hn] at h ⊢
        by_cases ha : U.isAlpha c = true
        · rw [if_pos ha] at h ⊢
          unfold lexWordM at h
          unfold wordStop
          cases hid : idLoop U [c] tail pos with
          | mk pre q =>
            obtain ⟨tail1, pos1⟩ := q
            rw [hid] at h
            simp only at h ⊢
            split at h
            · rename_i hd
              rw [if_pos hd]
              cases ht : tail1.tail with
              | nil => rw [ht] at h; cases h; rfl
              | cons d tl =>
                rw [ht] at h
                simp only at h ⊢
                split at h
                · split at h
                  · cases h
                  · cases h
                    split <;> rfl
                · cases h
                  split <;> rfl
            · rename_i hd
              rw [if_neg hd]
              split at h
              · cases h
              split at h
              · cases h
              split at h
              · cases h
              split at h
              · cases h
              split at h
              · cases h
              cases h
              rfl
        · rw [if_neg ha] at h ⊢
          cases h
          rfl

theorem nextM_token (U : Uni) (hU : U.Lawful) (l : LexerObj) :
    (l.next U).2 = match l.st.nextM U with
      | .ok x => .ok x.2
      | .error r => .error ⟨r.exc, SyntaxErr.token r⟩ := by
  unfold LexerObj.next
  rw [← er_next]
  unfold LexState.nextM
  cases hs : skipSpace U l.st.rest l.st.pos with
  | mk rest pos =>
    cases rest with
    | nil =>
      simp only
      by_cases hc : l.st.toks.getLast?.map Token.type ≠ some .«end»
      · rw [if_pos hc]; rfl
      · rw [if_neg hc]; rfl
    | cons c tail =>
      simp only
      cases ho : lexOneM U c tail pos with
      | ok x => rfl
      | error r =>
        simp only [bind, Except.bind, er, Except.mapError]
        rw [← lexOneM_token U hU c tail pos r ho]

/-- C124: calling `tokenize()` on a lexer raises this error, with this token. -/
theorem tokenize_error_token (U : Uni) (hU : U.Lawful) (text : Str) :
    ((LexerObj.new text).tokenize U).2 = match lexTokensM U text with
      | .ok _ => .ok ()
      | .error r => .error ⟨r.exc, SyntaxErr.token r⟩ := by
  have key : ∀ n (l : LexerObj), (l.tokenizeFuel U n).2 = match l.st.tokenizeFuelM U n with
      | .ok _ => .ok ()
      | .error r => .error ⟨r.exc, SyntaxErr.token r⟩ := by
    intro n
    induction n with
    | zero => intro l; rfl
    | succ n ih =>
      intro l
      have hn := nextM_token U hU l
      rw [LexerObj.tokenizeFuel, LexState.tokenizeFuelM]
      cases hx : l.st.nextM U with
      | error r =>
        rw [hx] at hn
        simp only at hn
        cases hl : l.next U with
        | mk l' o =>
          rw [hl] at hn
          simp only at hn
          subst hn
          rfl
      | ok x =>
        obtain ⟨s', t⟩ := x
        rw [hx] at hn
        have hst : (l.next U).1.st = s' := by
          unfold LexerObj.next
          rw [(nextM_ok U _ _).1 hx]
        cases hl : l.next U with
        | mk l' o =>
          rw [hl] at hn hst
          simp only at hn hst
          subst hn hst
          cases t with
          | none => rfl
          | some t => exact ih l'
  have := key ((LexerObj.new text).st.rest.length + 2) (LexerObj.new text)
  unfold LexerObj.tokenize
  rw [this]
  unfold lexTokensM LexState.tokenizeM LexerObj.new
  cases LexState.tokenizeFuelM U ((LexState.init text).rest.length + 2) (LexState.init text) <;> rfl

/-- C124: the position of a lexer error is inside the text or just after it; the token, if there is one, starts at a character
that is not white space and not after the position; the message never is empty. -/
theorem lex_error_place (U : Uni) (hU : U.Lawful) (text m : Str) (p : Int) (t : Option Token)
    (h : lexTokensM U text = .error (.lexer m p t)) :
    0 ≤ p ∧ p ≤ text.length ∧ m ≠ [] ∧
      ∀ tok, t = some tok → 0 ≤ tok.pos ∧ tok.pos ≤ p ∧
        ∃ c, text[tok.pos.toNat]? = some c ∧ U.isSpace c = false := by
  obtain ⟨ws, bad, p0, h1, h2, h3⟩ := (lex_error_iff U hU text _).1 h
  have key : ∀ s pos rest pos', Reads U s pos rest pos' → ∃ pre, s = pre ++ rest ∧ pos' = pos + pre.length := by
    intro s pos rest pos' h
    induction h with
    | none s pos => exact ⟨[], rfl, rfl⟩
    | tok ws w rest s pos pos' ty v _ _ _ ih =>
      obtain ⟨pre, rfl, rfl⟩ := ih
      exact ⟨ws ++ w ++ pre, by simp, by simp; omega⟩
  obtain ⟨pre, e1, e2⟩ := key _ _ _ _ h1
  simp only [Nat.zero_add] at e2
  obtain ⟨c, tl, e3, hc, _⟩ := lexOneM_bad U hU bad _ _ h3
  have hget : text[p0 + ws.length]? = some c := by
    rw [e1, e2, e3, ← List.append_assoc, List.getElem?_append_right (by simp)]
    simp
  have hlen : text.length = p0 + ws.length + bad.length := by rw [e1, e2]; simp; omega
  have hbad : 0 < bad.length := by rw [e3]; simp
  have hcat : ∀ (a : String) (x : Str) (b : String), a.toList ≠ [] → say a x b ≠ [] := by
    intro a x b h; simp [say, h]
  generalize hq : p0 + ws.length = q at h3 hget hlen
  cases h3 with
  | char => exact ⟨by omega, by omega, hcat _ _ _ (by decide), by simp⟩
  | bang tl _ =>
    refine ⟨by omega, by simp only [List.length_cons] at hlen; omega, by decide, ?_⟩
    rintro _ ⟨rfl⟩
    exact ⟨by simp, by simp, c, by simpa using hget, hc⟩
  | openString =>
    refine ⟨by omega, by omega, by decide, ?_⟩
    rintro _ ⟨rfl⟩
    exact ⟨by simp, by simp, c, by simpa using hget, hc⟩
  | stringChar body =>
    refine ⟨by omega, by simp only [List.length_cons, List.length_append] at hlen; omega, hcat _ _ _ (by decide), ?_⟩
    rintro _ ⟨rfl⟩
    exact ⟨by simp, by simp; omega, c, by simpa using hget, hc⟩
  | dot neg ds =>
    refine ⟨by omega, by simp only [List.length_cons, List.length_append] at hlen ⊢; omega, hcat _ _ _ (by decide), ?_⟩
    rintro _ ⟨rfl⟩
    exact ⟨by simp, by simp; omega, c, by simpa using hget, hc⟩
  | dots neg ip fp =>
    refine ⟨by omega, by simp only [List.length_cons, List.length_append] at hlen ⊢; omega, by decide, ?_⟩
    rintro _ ⟨rfl⟩
    exact ⟨by simp, by simp; omega, c, by simpa using hget, hc⟩
  | attName w =>
    refine ⟨by omega, by simp only [List.length_cons, List.length_append] at hlen ⊢; omega, hcat _ _ _ (by decide), ?_⟩
    rintro _ ⟨rfl⟩
    exact ⟨by simp, by simp; omega, c, by simpa using hget, hc⟩
  | attType =>
    refine ⟨by omega, by omega, hcat _ _ _ (by decide), ?_⟩
    rintro _ ⟨rfl⟩
    exact ⟨by simp, by simp, c, by simpa using hget, hc⟩
  | unknown =>
    refine ⟨by omega, by omega, hcat _ _ _ (by decide), ?_⟩
    rintro _ ⟨rfl⟩
    exact ⟨by simp, by simp, c, by simpa using hget, hc⟩

/-! ### The parser (C125) -/

theorem parseM_verdict (U : Uni) (k : Nat) (toks : List Token) :
    match parseTokensM U k toks with
    | .ok _ => verdict toks = none
    | .error r => verdict toks = some r := by
  cases toks with
  | nil => rfl
  | cons s ts =>
    by_cases hs : s.type = .start
    · have hv : verdict (s :: ts) = walk .exp [] ts := by simp [verdict, hs]
      rw [hv]
      have hA := (rulesM_agree U (3 * ts.length + 3)).2.2.1 ⟨ts, k⟩ []
      have hf := (fuel_enough U (3 * ts.length + 3)).2.2.1 ts k (Nat.le_refl _)
      have e : parseTokensM U k (s :: ts) = (policyRuleM U (3 * ts.length + 3) ⟨ts, k⟩).bind fun x =>
          (x.2.eatM .«end» "parse" (fun _ => msgEnd)).bind fun y => .ok (x.1, y.2.nextId) := by
        simp only [parseTokensM, PState.parseM, PState.eatM, hs, if_true, bind, Except.bind, pure, Except.pure]
        cases policyRuleM U (3 * ts.length + 3) ⟨ts, k⟩ with
        | error r => rfl
        | ok x =>
          simp only
          cases x.2.toks with
          | nil => rfl
          | cons c cs =>
            simp only
            by_cases hc : c.type = .«end»
            · simp only [if_pos hc]
            · simp only [if_neg hc]
      rw [e]
      cases hp : policyRuleM U (3 * ts.length + 3) ⟨ts, k⟩ with
      | error r =>
        rw [hp] at hA
        rcases hA with rfl | h
        · exfalso
          apply hf
          have := (er_rules U (3 * ts.length + 3)).2.2.2.2 ⟨ts, k⟩
          rw [← this, hp]
          rfl
        · exact h
      | ok x =>
        rw [hp] at hA
        simp only [Follows] at hA
        obtain ⟨c, cs, e1, hc⟩ := policyRuleM_stop U _ _ _ hp
        rw [hA, e1]
        simp only [Except.bind, PState.eatM, e1]
        by_cases he : c.type = .«end»
        · simp only [if_pos he]
          rw [walk]; simp only [move, if_neg hc, if_pos he]
        · simp only [if_neg he]
          rw [walk]; simp only [move, if_neg hc, if_neg he, refusal_end]
    · have e : parseTokensM U k (s :: ts) = .error (.parser msgStart s.pos s "parse") := by
        simp only [parseTokensM, PState.parseM, PState.eatM, if_neg hs, bind, Except.bind]
      rw [e]
      simp only [verdict, if_neg hs]
      rfl

/-- C125: the error of the parser is the one of the automaton: message, position, token and rule. -/
theorem parse_error_iff (U : Uni) (k : Nat) (toks : List Token) (r : SyntaxErr) :
    parseTokensM U k toks = .error r ↔ verdict toks = some r := by
  have h := parseM_verdict U k toks
  cases hp : parseTokensM U k toks with
  | ok x => rw [hp] at h; simp only at h; rw [h]; simp
  | error r' => rw [hp] at h; simp only at h; rw [h]; simp

/-- The automaton accepts exactly the policies of the grammar. -/
theorem verdict_none_iff (toks : List Token) :
    verdict toks = none ↔ ∃ b ts e rest p, toks = b :: (ts ++ e :: rest) ∧ b.type = .start ∧ e.type = .«end» ∧
      DPolicy false ts p := by
  have h := parseM_verdict asciiUni 0 toks
  have hr := parse_refines_grammar asciiUni 0
  constructor
  · intro hv
    cases hp : parseTokensM asciiUni 0 toks with
    | error r => rw [hp] at h; simp only at h; rw [h] at hv; cases hv
    | ok x =>
      obtain ⟨n, k'⟩ := x
      have : parseTokens asciiUni 0 toks = .ok (n, k') := by rw [← parseTokensM_exc, hp]; rfl
      obtain ⟨b, ts, e, rest, p, h1, h2, h3, h4, _⟩ := (hr _ _ _).1 this
      exact ⟨b, ts, e, rest, p, h1, h2, h3, h4⟩
  · rintro ⟨b, ts, e, rest, p, h1, h2, h3, h4⟩
    have : parseTokens asciiUni 0 toks = .ok (p.build asciiUni 0) := (hr _ _ _).2 ⟨b, ts, e, rest, p, h1, h2, h3, h4, rfl⟩
    rw [← parseTokensM_exc] at this
    have := (er_ok_iff _ _).1 this
    rw [this] at h
    exact h

/-- C125 for texts. -/
theorem parse_text_error_iff (U : Uni) (hU : U.Lawful) (k : Nat) (text : Str) (r : SyntaxErr) :
    parseTextM U k text = .error r ↔
      LexFails U text 0 r ∨ ∃ toks, lexTokens U text = .ok toks ∧ verdict toks = some r := by
  unfold parseTextM
  rw [← lex_error_iff U hU]
  cases h : lexTokensM U text with
  | error r' =>
    have : lexTokens U text = .error r'.exc := by rw [← lexTokensM_exc, h]; rfl
    simp [bind, Except.bind, this]
  | ok toks =>
    have : lexTokens U text = .ok toks := by rw [← lexTokensM_exc, h]; rfl
    simp only [bind, Except.bind, reduceCtorEq, false_or, this, Except.ok.injEq]
    rw [parse_error_iff]
    constructor
    · intro h; exact ⟨toks, rfl, h⟩
    · rintro ⟨_, rfl, h⟩; exact h

/-! ### The first token that cannot be continued -/

/-- Tokens that complete a policy from a place on, without the END. -/
def completion (o : List Token) : Place → List Token
  | .exp => anyLit :: o.map fun _ => ⟨.rparn, 0, .none⟩
  | .neg => anyLit :: o.map fun _ => ⟨.rparn, 0, .none⟩
  | .op => ⟨.op, 0, .none⟩ :: ⟨.int, 0, .int 0⟩ :: o.map fun _ => ⟨.rparn, 0, .none⟩
  | .var => ⟨.int, 0, .int 0⟩ :: o.map fun _ => ⟨.rparn, 0, .none⟩
  | .first true => ⟨.rset, 0, .none⟩ :: ⟨.op, 0, .none⟩ :: ⟨.int, 0, .int 0⟩ :: o.map fun _ => ⟨.rparn, 0, .none⟩
  | .first false => ⟨.rset, 0, .none⟩ :: o.map fun _ => ⟨.rparn, 0, .none⟩
  | .item true =>
    ⟨.int, 0, .int 0⟩ :: ⟨.rset, 0, .none⟩ :: ⟨.op, 0, .none⟩ :: ⟨.int, 0, .int 0⟩ :: o.map fun _ => ⟨.rparn, 0, .none⟩
  | .item false => ⟨.int, 0, .int 0⟩ :: ⟨.rset, 0, .none⟩ :: o.map fun _ => ⟨.rparn, 0, .none⟩
  | .more true => ⟨.rset, 0, .none⟩ :: ⟨.op, 0, .none⟩ :: ⟨.int, 0, .int 0⟩ :: o.map fun _ => ⟨.rparn, 0, .none⟩
  | .more false => ⟨.rset, 0, .none⟩ :: o.map fun _ => ⟨.rparn, 0, .none⟩
  | .done => o.map fun _ => ⟨.rparn, 0, .none⟩

/-- An END token. -/
def endTok : Token := ⟨.«end», 0, .none⟩

theorem completion_end (o : List Token) (pl : Place) : ∀ t ∈ completion o pl, t.type ≠ .«end» := by
  have h : ∀ t ∈ o.map (fun _ => (⟨.rparn, 0, .none⟩ : Token)), t.type ≠ .«end» := by
    intro t ht
    simp only [List.mem_map] at ht
    obtain ⟨_, _, rfl⟩ := ht
    simp
  have ha : anyLit.type ≠ .«end» := by decide
  cases pl with
  | first l | item l | more l =>
    cases l <;> simp only [completion, List.mem_cons, forall_eq_or_imp] <;> simp [h]
  | _ => simp only [completion, List.mem_cons, forall_eq_or_imp] <;> simp [h, ha]

theorem walk_done (o : List Token) : walk .done o (o.map (fun _ => (⟨.rparn, 0, .none⟩ : Token)) ++ [endTok]) = none := by
  induction o with
  | nil => rfl
  | cons l o ih =>
    rw [List.map_cons, List.cons_append, walk_cons]
    exact ih

theorem completion_ok (o : List Token) (pl : Place) : walk pl o (completion o pl ++ [endTok]) = none := by
  have hd := walk_done o
  have hne : ∃ n, ((o.map (fun _ => (⟨.rparn, 0, .none⟩ : Token)) ++ [endTok]).head?.map Token.type) = some n := by
    cases o <;> exact ⟨_, rfl⟩
  obtain ⟨n, hn⟩ := hne
  have hexp : move .exp o anyLit (some n) = .go .done o := by
    simp [move, single, anyLit, AttTok, AtomTok]
  cases pl with
  | exp =>
    rw [completion, List.cons_append, walk_cons, hn, hexp]
    exact hd
  | first l | item l | more l => cases l <;> exact hd
  | _ => exact hd

/-- Only a constant or an attribute before which an expression is expected needs a look at the next token. -/
theorem move_indep (pl : Place) (o : List Token) (t : Token) (n n' : Option TokenType) (hn : n ≠ none) (hn' : n' ≠ none)
    (h : pl ≠ .exp ∨ ¬ (AttTok t ∨ AtomTok false t)) : move pl o t n = move pl o t n' := by
  cases pl with
  | exp =>
    have h : ¬ (AttTok t ∨ AtomTok false t) := by simpa using h
    simp [move, hn, hn', h]
  | _ => rfl

theorem move_end (pl : Place) (o : List Token) (t : Token) (n : Option TokenType) (pl' : Place) (o' : List Token)
    (h : move pl o t n = .go pl' o') : t.type ≠ .«end» := by
  intro he
  have h1 : ¬ AttTok t := by simp [AttTok, he]
  have h2 : ¬ AtomTok false t := by simp [AtomTok, he]
  have h3 : ¬ AndTok t := by simp [AndTok, he]
  have h4 : ¬ OrTok t := by simp [OrTok, he]
  cases pl with
  | done =>
    simp only [move, if_neg (not_or.2 ⟨h3, h4⟩)] at h
    split at h
    · rw [if_neg (by simp [he])] at h; cases h
    · rw [if_pos he] at h; cases h
  | exp =>
    simp only [move, single, he, reduceCtorEq, if_false, h1, h2, or_self, false_and] at h
    split at h <;> cases h
  | _ => simp [move, single, he, h1, h2] at h

/-- After an expression the completion does not begin with an operation, and an operation is accepted after a left operand. -/
theorem completion_done (o : List Token) : (completion o .done ++ [endTok]).head?.map Token.type ≠ some .op := by
  cases o <;> simp [completion, endTok]

/-- Where the automaton fails, and how the tokens before can be completed. -/
theorem walk_fail (pl : Place) (o toks : List Token) (r : SyntaxErr) (h : walk pl o toks = some r) :
    ∃ us rest pl' o', toks = us ++ rest ∧ ((∀ u ∈ us, u.type ≠ .«end») ∧ (us = [] → pl' = pl ∧ o' = o)) ∧
      (∀ rest', rest'.head?.map Token.type = rest.head?.map Token.type → walk pl o (us ++ rest') = walk pl' o' rest') ∧
      ((rest = [] ∧ r = .other .attributeError) ∨
        ∃ t ts, rest = t :: ts ∧ move pl' o' t (ts.head?.map Token.type) = .fail r ∧
          walk pl o (us ++ (completion o' pl' ++ [endTok])) = none) := by
  induction toks generalizing pl o with
  | nil =>
    simp only [walk, Option.some.injEq] at h
    exact ⟨[], [], pl, o, rfl, ⟨by simp, fun _ => ⟨rfl, rfl⟩⟩, fun _ _ => rfl, Or.inl ⟨rfl, h.symm⟩⟩
  | cons t ts ih =>
    rw [walk_cons] at h
    cases hm : move pl o t (ts.head?.map Token.type) with
    | stop => rw [hm] at h; cases h
    | fail r' =>
      rw [hm] at h
      simp only [follow, Option.some.injEq] at h
      subst h
      exact ⟨[], t :: ts, pl, o, rfl, ⟨by simp, fun _ => ⟨rfl, rfl⟩⟩, fun _ _ => rfl, Or.inr ⟨t, ts, rfl, hm, completion_ok o pl⟩⟩
    | go pl' o' =>
      rw [hm] at h
      obtain ⟨us, rest, pl2, o2, e1, ⟨e0, e0'⟩, e2, e3⟩ := ih pl' o' h
      refine ⟨t :: us, rest, pl2, o2, by rw [e1]; rfl, ⟨?_, by simp⟩, ?_, ?_⟩
      · intro u hu
        rcases List.mem_cons.1 hu with rfl | hu
        · exact move_end _ _ _ _ _ _ hm
        · exact e0 u hu
      · intro rest' hr
        rw [List.cons_append, walk_cons]
        have : ((us ++ rest').head?.map Token.type) = (ts.head?.map Token.type) := by
          rw [e1]
          cases us with
          | nil => exact hr
          | cons u us => rfl
        rw [this, hm]
        exact e2 rest' hr
      · rcases e3 with h3 | ⟨t', ts', h3, h4, h5⟩
        · exact Or.inl h3
        · refine Or.inr ⟨t', ts', h3, h4, ?_⟩
          rw [List.cons_append, walk_cons]
          have hgo : move pl o t ((us ++ (completion o2 pl2 ++ [endTok])).head?.map Token.type) = .go pl' o' := by
            cases us with
            | cons u us =>
              rw [← hm, e1]
              rfl
            | nil =>
              rw [List.nil_append]
              have hc : ((completion o2 pl2 ++ [endTok]).head?.map Token.type) ≠ none := by
                cases hcl : completion o2 pl2 <;> simp
              have ht' : ts = t' :: ts' := by rw [e1, h3]; rfl
              subst ht'
              by_cases hi : pl ≠ .exp ∨ ¬ (AttTok t ∨ AtomTok false t)
              · rw [← hm]
                exact move_indep _ _ _ _ _ hc (by simp) hi
              · obtain ⟨hpl, hi'⟩ := not_or.1 hi
                clear hi
                have hpl : pl = .exp := not_not.1 hpl
                have hi : AttTok t ∨ AtomTok false t := not_not.1 hi'
                clear hi'
                subst hpl
                obtain ⟨rfl, rfl⟩ := e0' rfl
                have g1 : t.type ≠ .notOp := by
                  intro x; rcases hi with hi | hi <;> simp [AttTok, AtomTok, x] at hi
                have g2 : t.type ≠ .lparn := by
                  intro x; rcases hi with hi | hi <;> simp [AttTok, AtomTok, x] at hi
                have g3 : t.type ≠ .lset := by
                  intro x; rcases hi with hi | hi <;> simp [AttTok, AtomTok, x] at hi
                have hmove : ∀ n, n ≠ none → move .exp o t n = if n = some .op then .go .op o else single .exp o t := by
                  intro n hn
                  simp only [move, if_neg g1, if_neg g2, if_neg g3, if_neg hn]
                  by_cases hop : n = some .op
                  · rw [if_pos ⟨hi, hop⟩, if_pos hop]
                  · rw [if_neg (fun x => hop x.2), if_neg hop]
                rw [hmove _ (by simp)] at hm
                split at hm
                · rename_i hop
                  cases hm
                  simp only [List.head?_cons, Option.map_some, Option.some.injEq] at hop
                  simp [move, hop] at h4
                · have hdone : pl2 = .done := by
                    unfold single at hm
                    split at hm
                    · cases hm; rfl
                    · split at hm
                      · split at hm
                        · cases hm; rfl
                        · cases hm
                      · cases hm
                  subst hdone
                  rw [hmove _ hc, if_neg (completion_done _), hm]
          rw [hgo]
          exact h5

/-- A token that is refused is refused whatever follows, except for a constant before which an expression is expected. -/
theorem move_fail (pl : Place) (o : List Token) (t : Token) (n n' : Option TokenType) (r : SyntaxErr)
    (h : move pl o t n = .fail r) (hr : ∀ e, r ≠ .other e) (hn : n' ≠ none) :
    move pl o t n' = .fail r ∨ (AtomTok false t ∧ n' = some .op ∧ n ≠ some .op) := by
  cases pl with
  | exp =>
    simp only [move] at h ⊢
    split at h
    · cases h
    rename_i h1
    split at h
    · cases h
    rename_i h2
    split at h
    · cases h
    rename_i h3
    split at h
    · cases h; exact absurd rfl (hr _)
    split at h
    · cases h
    rename_i h4 h5
    rw [if_neg h1, if_neg h2, if_neg h3, if_neg hn]
    by_cases ha : AttTok t
    · simp only [single, if_pos ha] at h
      cases h
    · by_cases h6 : (AttTok t ∨ AtomTok false t) ∧ n' = some .op
      · right
        have hat : AtomTok false t := h6.1.resolve_left ha
        exact ⟨hat, h6.2, fun x => h5 ⟨Or.inr hat, x⟩⟩
      · left
        rw [if_neg h6]
        exact h
  | _ => exact Or.inl h

/-- C125: the token of a parser error is the first one that cannot be continued: the tokens before it can be continued to a policy,
and the tokens up to and with it cannot, or, if it is a constant and the next token is no operation, cannot together with
the next token. -/
theorem parse_error_first (U : Uni) (k : Nat) (b : Token) (ts : List Token) (m : Str) (p : Int) (t : Token) (rule : String)
    (hb : b.type = .start) (h : parseTokensM U k (b :: ts) = .error (.parser m p t rule)) :
    ∃ us rest, ts = us ++ t :: rest ∧ p = t.pos ∧ Viable us ∧
      ∀ vs q, DPolicy false (us ++ t :: vs) q →
        AtomTok false t ∧ vs.head?.map Token.type = some .op ∧ rest.head?.map Token.type ≠ some .op := by
  have hv := (parse_error_iff U k _ _).1 h
  have hw : walk .exp [] ts = some (.parser m p t rule) := by simpa [verdict, hb] using hv
  obtain ⟨us, rest, pl', o', e1, ⟨e0, _⟩, e2, e3⟩ := walk_fail _ _ _ _ hw
  rcases e3 with ⟨_, h3⟩ | ⟨t', rest', rfl, hm, hcomp⟩
  · cases h3
  have hsame : ∀ pl o t n m p t0 rule, move pl o t n = .fail (.parser m p t0 rule) → t0 = t ∧ p = t.pos := by
    intro pl o t n m p t0 rule h
    have hs : ∀ pl, single pl o t = .fail (.parser m p t0 rule) → t0 = t ∧ p = t.pos := by
      intro pl h
      unfold single at h
      split at h
      · cases h
      · split at h
        · split at h <;> cases h
        · simp only [refusal, Move.fail.injEq, SyntaxErr.parser.injEq] at h
          exact ⟨h.2.2.1.symm, h.2.1.symm⟩
    have hf : ∀ pl, Move.fail (refusal pl o t) = .fail (.parser m p t0 rule) → t0 = t ∧ p = t.pos := by
      intro pl h
      simp only [refusal, Move.fail.injEq, SyntaxErr.parser.injEq] at h
      exact ⟨h.2.2.1.symm, h.2.1.symm⟩
    cases pl <;> simp only [move] at h <;> (repeat' split at h) <;> first | exact hs _ h | exact hf _ h | cases h
  obtain ⟨rfl, hp⟩ := hsame _ _ _ _ _ _ _ _ hm
  refine ⟨us, rest', e1, hp, ?_, ?_⟩
  · -- everything before can be continued
    have hok : verdict (b :: (us ++ (completion o' pl' ++ [endTok]))) = none := by simpa [verdict, hb] using hcomp
    obtain ⟨b', ts', e', rest2, q, g1, _, g3, g4⟩ := (verdict_none_iff _).1 hok
    simp only [List.cons.injEq] at g1
    obtain ⟨_, g1⟩ := g1
    refine ⟨completion o' pl', q, ?_⟩
    rw [← List.append_assoc] at g1
    have hl : ∀ (xs ys : List Token) (x y : Token) (zs : List Token), (∀ u ∈ xs, u.type ≠ .«end») →
        (∀ u ∈ ys, u.type ≠ .«end») → y.type = .«end» → xs ++ [x] = ys ++ y :: zs → xs = ys := by
      intro xs
      induction xs with
      | nil =>
        intro ys x y zs _ _ hy e
        cases ys with
        | nil => rfl
        | cons v ys => simp at e
      | cons v xs ih =>
        intro ys x y zs h1 h2 hy e
        cases ys with
        | nil =>
          simp only [List.cons_append, List.nil_append, List.cons.injEq] at e
          exact absurd (e.1 ▸ hy) (h1 v (by simp))
        | cons w ys =>
          simp only [List.cons_append, List.cons.injEq] at e
          rw [e.1, ih ys x y zs (fun u hu => h1 u (by simp [hu])) (fun u hu => h2 u (by simp [hu])) hy e.2]
    rw [hl _ _ _ _ _ ?_ ?_ g3 g1]
    · exact g4
    · intro u hu
      rcases List.mem_append.1 hu with hu | hu
      · exact e0 u hu
      · exact completion_end _ _ u hu
    · intro u hu
      exact (dpolicy_inner g4 u hu).2
  · intro vs q hq
    have hok : verdict (b :: (us ++ t :: (vs ++ [endTok]))) = none :=
      (verdict_none_iff _).2 ⟨b, us ++ t :: vs, endTok, [], q, by simp, hb, rfl, hq⟩
    have hok' : walk .exp [] (us ++ t :: (vs ++ [endTok])) = none := by simpa [verdict, hb] using hok
    rw [e2 (t :: (vs ++ [endTok])) rfl, walk_cons] at hok'
    rcases move_fail _ _ _ _ ((vs ++ [endTok] : List Token).head?.map Token.type) _ hm (by simp) (by
      cases vs <;> simp) with h5 | ⟨h5, h6, h7⟩
    · rw [h5] at hok'; cases hok'
    · refine ⟨h5, ?_, h7⟩
      cases vs with
      | nil => simp [endTok] at h6
      | cons v vs => simpa using h6

/-- C125: the parenthesis that is said to be missing its match is an open one, and what follows it up to the token of the error is a
complete policy. -/
def MissingParen (toks : List Token) (r : SyntaxErr) : Prop :=
  ∃ us l body t rest q, toks = us ++ l :: (body ++ t :: rest) ∧ l.type = .lparn ∧ t.type ≠ .rparn ∧ DPolicy false body q ∧
    r = .parser (say "Syntax error, '(' at char " (intText l.pos) " is missing matching ')'.") t.pos t "exp"

/-- The error is not about a parenthesis. -/
def NoParen (r : SyntaxErr) : Prop := ∀ m p t rule, r = .parser m p t rule → m.take 15 ≠ "Syntax error, '".toList

theorem MissingParen.lift {toks : List Token} {r : SyntaxErr} (pre : List Token) (h : MissingParen toks r) :
    MissingParen (pre ++ toks) r := by
  obtain ⟨us, l, body, t, rest, q, rfl, h⟩ := h
  exact ⟨pre ++ us, l, body, t, rest, q, by simp, h⟩

theorem noParen_other (e : PyExc) : NoParen (.other e) := by
  intro m p t rule h; cases h

theorem noParen_msg (a : String) (x : Str) (p : Int) (t : Token) (rule : String) (h : 15 ≤ a.toList.length)
    (h' : a.toList.take 15 ≠ "Syntax error, '".toList) : NoParen (.parser (a.toList ++ x) p t rule) := by
  intro m p t rule e
  cases e
  rw [List.take_append_of_le_length h]
  exact h'

theorem noParen_exp (t : Token) (p : Int) (rule : String) : NoParen (.parser (msgExp t) p t rule) := by
  unfold msgExp
  simp only [List.append_assoc]
  exact noParen_msg _ _ _ _ _ (by decide +kernel) (by decide +kernel)

theorem noParen_var (t : Token) (p : Int) (rule : String) : NoParen (.parser (msgVar t) p t rule) := by
  unfold msgVar
  simp only [List.append_assoc]
  exact noParen_msg _ _ _ _ _ (by decide +kernel) (by decide +kernel)

theorem noParen_att (t : Token) (p : Int) (rule : String) : NoParen (.parser (msgAtt t) p t rule) := by
  unfold msgAtt
  simp only [List.append_assoc]
  exact noParen_msg _ _ _ _ _ (by decide +kernel) (by decide +kernel)

theorem noParen_op (t : Token) (p : Int) (rule : String) : NoParen (.parser (msgOp t) p t rule) := by
  unfold msgOp
  simp only [List.append_assoc]
  exact noParen_msg _ _ _ _ _ (by decide +kernel) (by decide +kernel)

theorem noParen_atomic (t : Token) (p : Int) (rule : String) : NoParen (.parser (msgAtomic t) p t rule) := by
  unfold msgAtomic
  simp only [List.append_assoc]
  exact noParen_msg _ _ _ _ _ (by decide +kernel) (by decide +kernel)

theorem noParen_set (c : Char) (t : Token) (p : Int) (rule : String) : NoParen (.parser (msgSet c t) p t rule) := by
  unfold msgSet
  simp only [List.append_assoc]
  exact noParen_msg _ _ _ _ _ (by decide +kernel) (by decide +kernel)

theorem noParen_atomicRule (U : Uni) (s : PState) (r : SyntaxErr) (h : atomicRuleM U s = .error r) : NoParen r := by
  obtain ⟨toks, k⟩ := s
  cases toks with
  | nil => cases h; exact noParen_other _
  | cons t ts =>
    by_cases ha : AtomTok false t
    · rw [atomicM_ok U t ts k ha] at h; cases h
    · rw [atomicM_err U t ts k ha] at h; cases h; exact noParen_atomic _ _ _

theorem noParen_boolVar (U : Uni) (s : PState) (r : SyntaxErr) (h : boolVarRuleM U s = .error r) : NoParen r := by
  obtain ⟨toks, k⟩ := s
  cases toks with
  | nil => cases h; exact noParen_other _
  | cons t ts =>
    by_cases hb : t.type = .bool
    · have e : boolVarRuleM U ⟨t :: ts, k⟩ = (PState.mk ts k).mkNodeM U .boolVal t [] := by
        simp [boolVarRuleM, PState.curM, plain, PState.cur, PState.eatM, bind, Except.bind, Except.mapError, hb]
      rw [e] at h
      unfold PState.mkNodeM plain at h
      cases hm : (PState.mk ts k).mkNode U .boolVal t [] with
      | ok x => rw [hm] at h; cases h
      | error x => rw [hm] at h; cases h; exact noParen_other _
    · have e : boolVarRuleM U ⟨t :: ts, k⟩ = attNameRuleM U ⟨t :: ts, k⟩ := by
        simp [boolVarRuleM, PState.curM, plain, PState.cur, bind, Except.bind, Except.mapError, hb]
      rw [e] at h
      by_cases ha : AttTok t
      · rw [attNameM_ok U t ts k ha] at h; cases h
      · rw [attNameM_err U t ts k ha] at h; cases h; exact noParen_att _ _ _

theorem noParen_setLoop (U : Uni) (n : Nat) (acc : List Node) (s : PState) (r : SyntaxErr) (h : setLoopM U n acc s = .error r) :
    NoParen r := by
  induction n generalizing acc s with
  | zero => cases h; exact noParen_other _
  | succ n ih =>
    obtain ⟨toks, k⟩ := s
    cases toks with
    | nil => cases h; exact noParen_other _
    | cons c ts =>
      rw [setLoopM_succ] at h
      split at h
      · cases h
      · split at h
        · cases ha : atomicRuleM U ⟨ts, k⟩ with
          | error r' => rw [ha] at h; cases h; exact noParen_atomicRule U _ _ ha
          | ok x => rw [ha] at h; exact ih _ _ h
        · cases h; exact noParen_set _ _ _ _

theorem noParen_setRule (U : Uni) (l : Token) (ts : List Token) (k : Nat) (r : SyntaxErr) (hl : l.type = .lset)
    (h : setRuleM U ⟨l :: ts, k⟩ = .error r) : NoParen r := by
  cases ts with
  | nil =>
    simp only [setRuleM, PState.eatM, PState.curM, plain, Except.mapError, PState.cur, hl, bind, Except.bind, if_true] at h
    cases h; exact noParen_other _
  | cons c cs =>
    by_cases hc : c.type = .rset
    · simp only [setRuleM, PState.eatM, PState.curM, plain, Except.mapError, PState.cur, hl, hc, bind, Except.bind, pure, Except.pure,
        PState.mkNodeM, PState.mkNode, initRes, if_true, ne_eq, not_true_eq_false, if_false] at h
      cases h
    · simp only [setRuleM, PState.eatM, PState.curM, plain, Except.mapError, PState.cur, hl, bind, Except.bind, pure, Except.pure,
        if_true] at h
      rw [if_pos hc] at h
      cases ha : atomicRuleM U ⟨c :: cs, k⟩ with
      | error r' => rw [ha] at h; cases h; exact noParen_atomicRule U _ _ ha
      | ok x =>
        rw [ha] at h
        simp only at h
        cases hl : setLoopM U (x.2.toks.length + 1) [x.1] x.2 with
        | error r' => rw [hl] at h; cases h; exact noParen_setLoop U _ _ _ _ hl
        | ok y =>
          rw [hl] at h
          simp only at h
          cases hy : y.2.toks with
          | nil => rw [hy] at h; cases h; exact noParen_other _
          | cons d ds =>
            rw [hy] at h
            simp only at h
            by_cases hd : d.type = .rset
            · simp only [if_pos hd, PState.mkNodeM, plain, PState.mkNode, initRes, bind, Except.bind, Except.mapError, pure, Except.pure] at h
              cases h
            · simp only [if_neg hd] at h
              cases h
              exact noParen_set _ _ _ _

theorem noParen_varRule (U : Uni) (s : PState) (r : SyntaxErr) (h : varRuleM U s = .error r) : NoParen r := by
  obtain ⟨toks, k⟩ := s
  cases toks with
  | nil => cases h; exact noParen_other _
  | cons t ts =>
    by_cases ha : AttTok t ∨ AtomTok false t
    · obtain ⟨n, e⟩ := varM_simple U t ts k ha
      rw [e] at h; cases h
    · by_cases hl : t.type = .lset
      · rw [constM_set U t ts k hl] at h
        exact noParen_setRule U t ts k r hl h
      · have e : varRuleM U ⟨t :: ts, k⟩ = .error (.parser (msgVar t) t.pos t "var") := by
          simp only [varRuleM, PState.curM, plain, Except.mapError, PState.cur, bind, Except.bind]
          rw [if_neg (by rw [isAtt_iff]; exact fun x => ha (Or.inl x)), if_neg]
          intro hc
          simp only [Token.isConst, Bool.or_eq_true, beq_iff_eq] at hc
          rcases hc with hc | hc
          · exact ha (Or.inr ((isAtomic_iff t).1 hc))
          · exact hl hc
        rw [e] at h
        cases h
        exact noParen_var _ _ _

theorem noParen_cmp (U : Uni) (s : PState) (r : SyntaxErr) (h : cmpRuleM U s = .error r) : NoParen r := by
  unfold cmpRuleM at h
  cases h1 : varRuleM U s with
  | error r' => rw [h1] at h; cases h; exact noParen_varRule U _ _ h1
  | ok x =>
    rw [h1] at h
    simp only [Except.bind] at h
    cases hx : x.2.toks with
    | nil => rw [hx] at h; cases h; exact noParen_other _
    | cons o os =>
      rw [hx] at h
      simp only at h
      by_cases ho : o.type = .op
      · rw [if_pos ho] at h
        cases h2 : varRuleM U ⟨os, x.2.nextId⟩ with
        | error r' => rw [h2] at h; cases h; exact noParen_varRule U _ _ h2
        | ok y => rw [h2] at h; cases h
      · rw [if_neg ho] at h
        cases h
        exact noParen_op _ _ _

theorem closeParenM_missing (U : Uni) (n : Nat) (pre : List Token) (l : Token) (ds : List Token) (k : Nat) (x : Node × PState)
    (f : Node → Nat → Node × Nat) (r : SyntaxErr) (hl : l.type = .lparn) (hp : policyRuleM U n ⟨ds, k⟩ = .ok x)
    (h : closeParenM l x f = .error r) : MissingParen (pre ++ l :: ds) r := by
  obtain ⟨c, cs, e, _⟩ := policyRuleM_stop U n _ _ hp
  unfold closeParenM at h
  rw [e] at h
  simp only at h
  by_cases hc : c.type = .rparn
  · rw [if_pos hc] at h; cases h
  · rw [if_neg hc] at h
    cases h
    have hb : policyRule U n ⟨ds, k⟩ = .ok x := by
      rw [← (er_rules U n).2.2.2.2 ⟨ds, k⟩, hp]; rfl
    have o := (rules_out U n).2.2.1 ds k
    rw [hb] at o
    obtain ⟨us, q, e1, e2, _⟩ := o
    refine ⟨pre, l, us, c, cs, q, by rw [e1, e], hl, hc, e2, ?_⟩
    rw [say_def]
    rfl

theorem rulesM_paren (U : Uni) (n : Nat) :
    (∀ s r, expRuleM U n s = .error r → NoParen r ∨ MissingParen s.toks r) ∧
    (∀ s r, termRuleM U n s = .error r → NoParen r ∨ MissingParen s.toks r) ∧
    (∀ s r, policyRuleM U n s = .error r → NoParen r ∨ MissingParen s.toks r) ∧
    (∀ a s r, termLoopM U n a s = .error r → NoParen r ∨ MissingParen s.toks r) ∧
    (∀ a s r, policyLoopM U n a s = .error r → NoParen r ∨ MissingParen s.toks r) := by
  have suffE : ∀ n s x, expRuleM U n s = .ok x → ∃ us, s.toks = us ++ x.2.toks := by
    intro n s x h
    have := (rules_out U n).1 s.toks s.nextId
    have hb : expRule U n s = .ok x := by rw [← (er_rules U n).1 s, h]; rfl
    rw [hb] at this
    obtain ⟨us, _, e, _⟩ := this
    exact ⟨us, e⟩
  have suffT : ∀ n s x, termRuleM U n s = .ok x → ∃ us, s.toks = us ++ x.2.toks := by
    intro n s x h
    have := (rules_out U n).2.1 s.toks s.nextId
    have hb : termRule U n s = .ok x := by rw [← (er_rules U n).2.2.1 s, h]; rfl
    rw [hb] at this
    obtain ⟨us, _, e, _⟩ := this
    exact ⟨us, e⟩
  induction n with
  | zero =>
    refine ⟨?_, ?_, ?_, ?_, ?_⟩
    · intro s r h; rw [expRuleM] at h; cases h; exact Or.inl (noParen_other _)
    · intro s r h; rw [termRuleM] at h; cases h; exact Or.inl (noParen_other _)
    · intro s r h; rw [policyRuleM] at h; cases h; exact Or.inl (noParen_other _)
    · intro a s r h; rw [termLoopM] at h; cases h; exact Or.inl (noParen_other _)
    · intro a s r h; rw [policyLoopM] at h; cases h; exact Or.inl (noParen_other _)
  | succ n ih =>
    obtain ⟨ihE, ihT, ihP, ihTL, ihPL⟩ := ih
    refine ⟨?_, ?_, ?_, ?_, ?_⟩
    · rintro ⟨toks, k⟩ r h
      cases toks with
      | nil => rw [expRuleM] at h; cases h; exact Or.inl (noParen_other _)
      | cons c ts =>
        by_cases hn : c.type = .notOp
        · cases ts with
          | nil =>
            have e : expRuleM U (n + 1) ⟨[c], k⟩ = .error (.other .attributeError) := by
              rw [expRuleM]
              simp [PState.curM, plain, Except.mapError, PState.cur, PState.eatM, hn, bind, Except.bind]
            rw [e] at h
            cases h
            exact Or.inl (noParen_other _)
          | cons d ds =>
            by_cases hd : d.type = .lparn
            · rw [expRuleM_not_paren U n c d ds k hn hd] at h
              cases h1 : policyRuleM U n ⟨ds, k⟩ with
              | error r' =>
                rw [h1] at h
                cases h
                exact (ihP _ _ h1).imp id (fun x => x.lift [c, d])
              | ok x =>
                rw [h1] at h
                simp only [Except.bind] at h
                exact Or.inr (closeParenM_missing U n [c] d ds k x _ r hd h1 h)
            · rw [expRuleM_not_bool U n c d ds k hn hd] at h
              cases h1 : boolVarRuleM U ⟨d :: ds, k⟩ with
              | error r' => rw [h1] at h; cases h; exact Or.inl (noParen_boolVar U _ _ h1)
              | ok x => rw [h1] at h; cases h
        · by_cases hl : c.type = .lparn
          · rw [expRuleM_paren U n c ts k hl] at h
            cases h1 : policyRuleM U n ⟨ts, k⟩ with
            | error r' =>
              rw [h1] at h
              cases h
              exact (ihP _ _ h1).imp id (fun x => x.lift [c])
            | ok x =>
              rw [h1] at h
              simp only [Except.bind] at h
              exact Or.inr (closeParenM_missing U n [] c ts k x _ r hl h1 h)
          · rw [expRuleM_else U n c ts k hn hl] at h
            cases h1 : isComparison ⟨c :: ts, k⟩ c with
            | error e => rw [h1] at h; cases h; exact Or.inl (noParen_other _)
            | ok b =>
              rw [h1] at h
              have e : (plain (.ok b) : Except SyntaxErr Bool) = .ok b := rfl
              rw [e] at h
              simp only [Except.bind] at h
              split at h
              · exact Or.inl (noParen_cmp U _ _ h)
              · split at h
                · exact Or.inl (noParen_boolVar U _ _ h)
                · cases h; exact Or.inl (noParen_exp _ _ _)
    · intro s r h
      rw [termRuleM_succ] at h
      cases h1 : expRuleM U n s with
      | error r' => rw [h1] at h; cases h; exact ihE _ _ h1
      | ok x =>
        rw [h1] at h
        obtain ⟨us, e⟩ := suffE n _ _ h1
        rw [e]
        exact (ihTL _ _ _ h).imp id (fun x => x.lift us)
    · intro s r h
      rw [policyRuleM_succ] at h
      cases h1 : termRuleM U n s with
      | error r' => rw [h1] at h; cases h; exact ihT _ _ h1
      | ok x =>
        rw [h1] at h
        obtain ⟨us, e⟩ := suffT n _ _ h1
        rw [e]
        exact (ihPL _ _ _ h).imp id (fun x => x.lift us)
    · rintro a ⟨toks, k⟩ r h
      cases toks with
      | nil => rw [termLoopM] at h; cases h; exact Or.inl (noParen_other _)
      | cons c ts =>
        rw [termLoopM_succ] at h
        split at h
        · cases h1 : expRuleM U n ⟨ts, k⟩ with
          | error r' => rw [h1] at h; cases h; exact (ihE _ _ h1).imp id (fun x => x.lift [c])
          | ok x =>
            rw [h1] at h
            obtain ⟨us, e⟩ := suffE n _ _ h1
            simp only at e
            simp only
            rw [e]
            exact (ihTL _ _ _ h).imp id (fun x => x.lift (c :: us))
        · cases h
    · rintro a ⟨toks, k⟩ r h
      cases toks with
      | nil => rw [policyLoopM] at h; cases h; exact Or.inl (noParen_other _)
      | cons c ts =>
        rw [policyLoopM_succ] at h
        split at h
        · cases h1 : termRuleM U n ⟨ts, k⟩ with
          | error r' => rw [h1] at h; cases h; exact (ihT _ _ h1).imp id (fun x => x.lift [c])
          | ok x =>
            rw [h1] at h
            obtain ⟨us, e⟩ := suffT n _ _ h1
            simp only at e
            simp only
            rw [e]
            exact (ihPL _ _ _ h).imp id (fun x => x.lift (c :: us))
        · cases h

/-- C125: an error about a parenthesis names one that is open, with a complete policy between it and the token of the error. -/
theorem parse_error_paren (U : Uni) (k : Nat) (toks : List Token) (m : Str) (p : Int) (t : Token) (rule : String)
    (h : parseTokensM U k toks = .error (.parser m p t rule)) (hm : m.take 15 = "Syntax error, '".toList) :
    MissingParen toks (.parser m p t rule) := by
  cases toks with
  | nil => cases h
  | cons s ts =>
    by_cases hs : s.type = .start
    · have e : parseTokensM U k (s :: ts) = (policyRuleM U (3 * ts.length + 3) ⟨ts, k⟩).bind fun x =>
          (x.2.eatM .«end» "parse" (fun _ => msgEnd)).bind fun y => .ok (x.1, y.2.nextId) := by
        simp only [parseTokensM, PState.parseM, PState.eatM, bind, Except.bind, pure, Except.pure, if_pos hs]
        cases policyRuleM U (3 * ts.length + 3) ⟨ts, k⟩ with
        | error r => rfl
        | ok x =>
          simp only
          cases x.2.toks with
          | nil => rfl
          | cons c cs => by_cases hc : c.type = .«end» <;> simp only [hc, if_true, if_false]
      rw [e] at h
      cases h1 : policyRuleM U (3 * ts.length + 3) ⟨ts, k⟩ with
      | error r =>
        rw [h1] at h
        cases h
        rcases (rulesM_paren U _).2.2.1 _ _ h1 with h2 | h2
        · exact absurd hm (h2 _ _ _ _ rfl)
        · exact h2.lift [s]
      | ok x =>
        rw [h1] at h
        simp only [Except.bind, PState.eatM] at h
        cases hx : x.2.toks with
        | nil => rw [hx] at h; cases h
        | cons c cs =>
          rw [hx] at h
          simp only at h
          by_cases hc : c.type = .«end»
          · rw [if_pos hc] at h; cases h
          · rw [if_neg hc] at h
            cases h
            exact absurd hm (by decide +kernel)
    · have e : parseTokensM U k (s :: ts) = .error (.parser msgStart s.pos s "parse") := by
        simp only [parseTokensM, PState.parseM, PState.eatM, bind, Except.bind, if_neg hs]
      rw [e] at h
      cases h
      exact absurd hm (by decide +kernel)

theorem refusal_text (pl : Place) (o : List Token) (t t' : Token) (m : Str) (p : Int) (rule : String)
    (h : refusal pl o t = .parser m p t' rule) : "Syntax error, ".toList <+: m := by
  have hpre : ∀ (a : String) (x : Str), "Syntax error, ".toList <+: a.toList → "Syntax error, ".toList <+: a.toList ++ x :=
    fun a x h => h.trans (List.prefix_append _ _)
  cases pl with
  | exp => rw [refusal_exp] at h; cases h; unfold msgExp; simp only [List.append_assoc]; exact hpre _ _ (by decide +kernel)
  | neg => rw [refusal_neg] at h; cases h; unfold msgAtt; simp only [List.append_assoc]; exact hpre _ _ (by decide +kernel)
  | op => rw [refusal_op] at h; cases h; unfold msgOp; simp only [List.append_assoc]; exact hpre _ _ (by decide +kernel)
  | var => rw [refusal_var] at h; cases h; unfold msgVar; simp only [List.append_assoc]; exact hpre _ _ (by decide +kernel)
  | first l => rw [refusal_first] at h; cases h; unfold msgAtomic; simp only [List.append_assoc]; exact hpre _ _ (by decide +kernel)
  | item l => rw [refusal_item] at h; cases h; unfold msgAtomic; simp only [List.append_assoc]; exact hpre _ _ (by decide +kernel)
  | more l => rw [refusal_more] at h; cases h; unfold msgSet; simp only [List.append_assoc]; exact hpre _ _ (by decide +kernel)
  | done =>
    cases o with
    | nil => rw [refusal_end] at h; cases h; decide +kernel
    | cons l o => rw [refusal_paren] at h; cases h; unfold msgParen; simp only [List.append_assoc]; exact hpre _ _ (by decide +kernel)

/-- C125: every message of a parser error begins with "Syntax error, ": the default message of `_eat` never is shown. -/
theorem parse_error_text (U : Uni) (k : Nat) (toks : List Token) (m : Str) (p : Int) (t : Token) (rule : String)
    (h : parseTokensM U k toks = .error (.parser m p t rule)) : "Syntax error, ".toList <+: m := by
  have hv := (parse_error_iff U k _ _).1 h
  cases toks with
  | nil => cases hv
  | cons s ts =>
    by_cases hs : s.type = .start
    · have hw : walk .exp [] ts = some (.parser m p t rule) := by simpa [verdict, hs] using hv
      obtain ⟨us, rest, pl', o', e1, e0, e2, e3⟩ := walk_fail _ _ _ _ hw
      rcases e3 with ⟨_, h3⟩ | ⟨t', rest', rfl, hm, _⟩
      · cases h3
      have hs : ∀ pl, single pl o' t' = .fail (.parser m p t rule) → "Syntax error, ".toList <+: m := by
        intro pl h
        unfold single at h
        split at h
        · cases h
        · split at h
          · split at h <;> cases h
          · exact refusal_text _ _ _ _ _ _ _ (Move.fail.inj h)
      have hf : ∀ pl, Move.fail (refusal pl o' t') = .fail (.parser m p t rule) → "Syntax error, ".toList <+: m := by
        intro pl h
        exact refusal_text _ _ _ _ _ _ _ (Move.fail.inj h)
      cases pl' <;> simp only [move] at hm <;> (repeat' split at hm) <;> first | exact hs _ hm | exact hf _ hm | cases hm
    · simp only [verdict, if_neg hs, Option.some.injEq] at hv
      cases hv
      decide +kernel

/-! ### Examples -/

example : lexTokensM asciiUni (txt!"user.a = 1.x") = .error (.lexer
    (txt!"Syntax error encountered while reading floating point number. '.' should be followed by a digit and not 'x'.") 11
    (some ⟨.float, 9, .none⟩)) := by decide +kernel
example : LexFails asciiUni (txt!"user.a = 1.x") 0 (.lexer
    (txt!"Syntax error encountered while reading floating point number. '.' should be followed by a digit and not 'x'.") 11
    (some ⟨.float, 9, .none⟩)) :=
  (lex_error_iff asciiUni asciiUni_lawful _ _).1 (by decide +kernel)
example : lexTokensM asciiUni (txt!"user.a AND thing.b") = .error (.lexer
    (txt!"Syntax error encountered while reading attribute name. 'thing' is not a valid attribute type.") 11
    (some ⟨.unkAtt, 11, .str (txt!"thing")⟩)) := by decide +kernel
example : lexTokensM asciiUni (txt!"user.a !< 1") = .error (.lexer
    (txt!"Syntax error, found '!' without matching '='. Found '!' in place of '='.") 8
    (some ⟨.op, 7, .str (txt!"!=")⟩)) := by decide +kernel
example : ¬ ∃ r, LexFails asciiUni (txt!"user.a = 1.5") 0 r := by
  rintro ⟨r, h⟩
  have h := (lex_error_iff asciiUni asciiUni_lawful _ _).2 h
  have e : (lexTokensM asciiUni (txt!"user.a = 1.5")).toBool = true := by decide +kernel
  rw [h] at e
  cases e

/-- An unclosed parenthesis: the error is at the end and names the inner parenthesis. -/
example : parseTextM asciiUni 0 (txt!"user.a AND (user.b OR (user.c)") = .error (.parser
    (txt!"Syntax error, '(' at char 11 is missing matching ')'.") 30 ⟨.«end», 30, .none⟩ "exp") := by decide +kernel
example : parseTextM asciiUni 0 (txt!"user.a = {1, TRUE}") = .error (.parser
    (txt!"Syntax error, expected atomic constant and not BOOL.") 13 ⟨.bool, 13, .str (txt!"TRUE")⟩ "atomic") := by decide +kernel
example : parseTextM asciiUni 0 (txt!"user.a AND 1") = .error (.parser
    (txt!"Syntax error, unexpected INT at char 11. Expected start of EXP rule.") 11 ⟨.int, 11, .int 1⟩ "exp") := by decide +kernel
example : parseTextM asciiUni 0 (txt!"user.a user.b") = .error (.parser
    (txt!"Syntax error, expected END token marking end of policy.") 7 ⟨.usrAtt, 7, .str (txt!"b")⟩ "parse") := by decide +kernel
example : verdict [⟨.start, 0, .none⟩, ⟨.lparn, 0, .str ['(']⟩, ⟨.usrAtt, 1, .str ['a']⟩, ⟨.comma, 8, .str [',']⟩, ⟨.«end», 9, .none⟩] =
    some (.parser (txt!"Syntax error, '(' at char 0 is missing matching ')'.") 8 ⟨.comma, 8, .str [',']⟩ "exp") := by decide +kernel

end Verif.Props
