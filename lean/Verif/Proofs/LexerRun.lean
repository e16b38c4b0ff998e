import Verif.Proofs.LexerComplete
/-!
Helper lemmas: runs of the lexer.
-/

namespace Verif
open Spec

/-- The last token is END. -/
def LexState.ended (s : LexState) : Prop := s.toks.getLast?.map Token.type = some .«end»

theorem not_ended_append (s : LexState) (t : Token) (h : t.type ≠ .«end») (r : Str) (p : Nat)
    (a : List Token) : ¬ LexState.ended { rest := r, pos := p, toks := s.toks ++ [t], atts := a } := by
  simp [LexState.ended, h]

/-- Iterations that suffice for `tokenize`. -/
def LexState.enough (s : LexState) (n : Nat) : Prop :=
  s.rest.length + 2 ≤ n ∨ (s.rest = [] ∧ s.ended ∧ 1 ≤ n)

theorem lexOne_shorter (U : Uni) (hU : U.Lawful) (c : Char) (tail : Str) (pos : Nat) (t : Token)
    (isAtt : Bool) (tail' : Str) (pos' : Nat)
    (h : lexOne U c tail pos = .ok (t, isAtt, tail', pos')) : tail'.length ≤ tail.length := by
  obtain ⟨_, _, _, w, h1, h2, _, _, _⟩ := lexOne_sound U hU c tail pos t isAtt tail' pos' h
  have := congrArg List.length h1
  simp at this
  have : 0 < w.length := List.length_pos_iff.mpr h2
  omega

theorem next_enough (U : Uni) (hU : U.Lawful) (s s' : LexState) (t : Token) (n : Nat)
    (hn : s.enough (n + 1)) (h : s.next U = .ok (s', some t)) : s'.enough n := by
  unfold LexState.next at h
  cases hs : skipSpace U s.rest s.pos with
  | mk r p =>
    rw [hs] at h
    obtain ⟨ws, h1, h2, h3, h4⟩ := skipSpace_sound U _ _ _ _ hs
    cases r with
    | nil =>
      simp only at h
      split at h
      · rename_i hend
        simp only [Except.ok.injEq, Prod.mk.injEq, Option.some.injEq] at h
        obtain ⟨rfl, rfl⟩ := h
        refine Or.inr ⟨rfl, by simp [LexState.ended], ?_⟩
        rcases hn with hn | ⟨_, hn, _⟩
        · omega
        · exact absurd hn hend
      · simp at h
    | cons c tail =>
      simp only at h
      cases ho : lexOne U c tail p with
      | error e => rw [ho] at h; simp [bind, Except.bind] at h
      | ok r =>
        obtain ⟨t', isAtt, tail', pos'⟩ := r
        rw [ho] at h
        simp only [bind, Except.bind, pure, Except.pure, Except.ok.injEq, Prod.mk.injEq,
          Option.some.injEq] at h
        obtain ⟨rfl, rfl⟩ := h
        have := lexOne_shorter U hU _ _ _ _ _ _ _ ho
        have hl := congrArg List.length h1
        simp at hl
        rcases hn with hn | ⟨he, _, _⟩
        · exact Or.inl (by simp; omega)
        · rw [he] at hl; simp at hl

theorem fuel_indep (U : Uni) (hU : U.Lawful) (n m : Nat) (s : LexState) (hn : s.enough n)
    (hm : s.enough m) : s.tokenizeFuel U n = s.tokenizeFuel U m := by
  induction n generalizing m s with
  | zero => rcases hn with h | ⟨_, _, h⟩ <;> omega
  | succ n ih =>
    cases m with
    | zero => rcases hm with h | ⟨_, _, h⟩ <;> omega
    | succ m =>
      rw [LexState.tokenizeFuel, LexState.tokenizeFuel]
      cases hx : s.next U with
      | error e => rfl
      | ok r =>
        obtain ⟨s', t⟩ := r
        cases t with
        | none => rfl
        | some t => exact ih m s' (next_enough U hU s s' t n hn hx) (next_enough U hU s s' t m hm hx)

theorem fuel_tokenize (U : Uni) (hU : U.Lawful) (n : Nat) (s : LexState) (hn : s.enough n) :
    s.tokenizeFuel U n = s.tokenize U :=
  fuel_indep U hU _ _ s hn (Or.inl (by omega))

theorem tokenize_step (U : Uni) (hU : U.Lawful) (s : LexState) :
    s.tokenize U = (s.next U).bind fun r =>
      match r.2 with
      | some _ => r.1.tokenize U
      | none => .ok r.1 := by
  rw [LexState.tokenize, LexState.tokenizeFuel]
  cases hx : s.next U with
  | error e => rfl
  | ok r =>
    obtain ⟨s', t⟩ := r
    cases t with
    | none => rfl
    | some t =>
      exact fuel_tokenize U hU _ s' (next_enough U hU s s' t _ (Or.inl (by omega)) hx)

/-- One step over white space and a lexeme. -/
theorem next_lexeme (U : Uni) (hU : U.Lawful) (ws w rest : Str) (pos : Nat) (ty : TokenType)
    (v : TVal) (toks atts : List Token) (h : ∀ c ∈ ws, U.isSpace c = true)
    (hw : Lexeme U w ty v rest.head?) :
    LexState.next U ⟨ws ++ w ++ rest, pos, toks, atts⟩ =
      .ok (⟨rest, pos + ws.length + w.length, toks ++ [⟨ty, (pos + ws.length : Nat), v⟩],
        atts ++ (if IsAtt ty then [⟨ty, (pos + ws.length : Nat), v⟩] else [])⟩,
        some ⟨ty, (pos + ws.length : Nat), v⟩) := by
  obtain ⟨c, tl, rfl, h2, _, _, h3⟩ := lexOne_complete U hU w ty v rest hw
  unfold LexState.next
  simp only [List.append_assoc]
  rw [skipSpace_append U ws _ pos h]
  simp only [List.cons_append]
  rw [skipSpace, if_neg (by simp [h2])]
  simp only [h3]
  simp only [bind, Except.bind, pure, Except.pure, decide_eq_true_eq]
  by_cases ha : IsAtt ty
  · simp [ha]; omega
  · simp [ha]; omega

/-- The run over a prefix that is a sequence of lexemes and ends in white space (or is empty). -/
inductive Prefix (U : Uni) : Str → Nat → List Token → Prop
  | nil (pos : Nat) : Prefix U [] pos []
  | ws (ws : Str) (pos : Nat) (h : ∀ c ∈ ws, U.isSpace c = true) : Prefix U ws pos []
  | tok (ws w rest : Str) (pos : Nat) (ty : TokenType) (v : TVal) (toks : List Token)
      (h : ∀ c ∈ ws, U.isSpace c = true) (hw : Lexeme U w ty v rest.head?) (hne : rest ≠ [])
      (hr : Prefix U rest (pos + ws.length + w.length) toks) :
      Prefix U (ws ++ w ++ rest) pos (⟨ty, (pos + ws.length : Nat), v⟩ :: toks)

theorem skip_ws (U : Uni) (hU : U.Lawful) (ws rest : Str) (pos : Nat) (toks atts : List Token)
    (h : ∀ c ∈ ws, U.isSpace c = true) :
    LexState.tokenize U ⟨ws ++ rest, pos, toks, atts⟩ =
      LexState.tokenize U ⟨rest, pos + ws.length, toks, atts⟩ := by
  rw [tokenize_step U hU, tokenize_step U hU]
  unfold LexState.next
  simp only
  rw [skipSpace_append U ws rest pos h]

theorem run_prefix (U : Uni) (hU : U.Lawful) (pre rest : Str) (pos : Nat) (ts toks atts : List Token)
    (h : Prefix U pre pos ts) :
    LexState.tokenize U ⟨pre ++ rest, pos, toks, atts⟩ =
      LexState.tokenize U ⟨rest, pos + pre.length, toks ++ ts,
        atts ++ ts.filter (fun t => decide (IsAtt t.type))⟩ := by
  induction h generalizing toks atts with
  | nil pos => simp
  | ws ws pos h => simp [skip_ws U hU ws rest pos _ _ h]
  | tok ws w r pos ty v ts' h hw hne hr ih =>
    rw [tokenize_step U hU]
    have hh : (r ++ rest).head? = r.head? := by
      cases r with
      | nil => exact absurd rfl hne
      | cons a b => rfl
    have hl : Lexeme U w ty v (r ++ rest).head? := by rw [hh]; exact hw
    have e : ws ++ w ++ r ++ rest = ws ++ w ++ (r ++ rest) := by simp
    rw [e, next_lexeme U hU ws w (r ++ rest) pos ty v toks atts h hl]
    simp only [Except.bind]
    rw [ih]
    congr 1
    by_cases ha : IsAtt ty <;> simp [ha] <;> omega

theorem tokenize_ended (U : Uni) (hU : U.Lawful) (s : LexState) (hr : s.rest = []) (he : s.ended) :
    s.tokenize U = .ok s := by
  rw [tokenize_step U hU]
  unfold LexState.next
  rw [hr]
  simp only [skipSpace]
  rw [if_neg (not_not_intro (show Option.map Token.type s.toks.getLast? = some TokenType.end from he))]
  simp only [Except.bind]
  congr 1
  cases s
  simp at hr
  simp [hr]

theorem run_complete (U : Uni) (hU : U.Lawful) (text : Str) (pos : Nat) (ts toks atts : List Token)
    (h : Tokenizes U text pos ts) (hne : ¬ LexState.ended ⟨text, pos, toks, atts⟩) :
    LexState.tokenize U ⟨text, pos, toks, atts⟩ =
      .ok ⟨[], pos + text.length + 1, toks ++ ts,
        atts ++ ts.filter (fun t => decide (IsAtt t.type))⟩ := by
  induction h generalizing toks atts with
  | done ws pos h =>
    have e := skip_ws U hU ws [] pos toks atts h
    rw [List.append_nil] at e
    rw [e, tokenize_step U hU]
    unfold LexState.next
    simp only [skipSpace]
    rw [if_pos (show Option.map Token.type toks.getLast? ≠ some TokenType.end from hne)]
    simp only [Except.bind]
    rw [tokenize_ended U hU _ rfl (by simp [LexState.ended])]
    simp [IsAtt, attClasses]
  | tok ws w rest pos ty v ts' h hw hr ih =>
    rw [tokenize_step U hU, next_lexeme U hU ws w rest pos ty v toks atts h hw]
    simp only [Except.bind]
    obtain ⟨c, tl, _, _, hty, _, _⟩ := lexOne_complete U hU w ty v rest hw
    rw [ih]
    · congr 2
      · simp; omega
      · simp
      · by_cases ha : IsAtt ty <;> simp [ha]
    · simp [LexState.ended, hty]

theorem run_sound (U : Uni) (hU : U.Lawful) (n : Nat) (s s' : LexState) (hne : ¬ s.ended)
    (h : s.tokenizeFuel U n = .ok s') :
    ∃ ts, Tokenizes U s.rest s.pos ts ∧ s'.toks = s.toks ++ ts := by
  induction n generalizing s with
  | zero => simp [LexState.tokenizeFuel] at h
  | succ n ih =>
    rw [LexState.tokenizeFuel] at h
    unfold LexState.next at h
    cases hs : skipSpace U s.rest s.pos with
    | mk r p =>
      rw [hs] at h
      obtain ⟨ws, h1, h2, h3, h4⟩ := skipSpace_sound U _ _ _ _ hs
      cases r with
      | nil =>
        simp only at h
        rw [if_pos (show Option.map Token.type s.toks.getLast? ≠ some TokenType.end from hne)] at h
        simp only [bind, Except.bind] at h
        have he : LexState.ended ⟨[], p + 1, s.toks ++ [⟨.«end», p, .none⟩], s.atts⟩ := by
          simp [LexState.ended]
        cases n with
        | zero => simp [LexState.tokenizeFuel] at h
        | succ n =>
          rw [fuel_tokenize U hU _ _ (Or.inr ⟨rfl, he, by omega⟩), tokenize_ended U hU _ rfl he] at h
          simp only [Except.ok.injEq] at h
          subst h
          refine ⟨[⟨.«end», p, .none⟩], ?_, rfl⟩
          rw [h1, h3, List.append_nil]
          exact Tokenizes.done ws s.pos h2
      | cons c tail =>
        simp only at h
        cases ho : lexOne U c tail p with
        | error e => rw [ho] at h; simp [bind, Except.bind] at h
        | ok r =>
          obtain ⟨t', isAtt, tail', pos'⟩ := r
          rw [ho] at h
          simp only [bind, Except.bind, pure, Except.pure] at h
          obtain ⟨g1, g2, g3, w, g4, g5, g6, g7, g8⟩ := lexOne_sound U hU _ _ _ _ _ _ _ ho
          obtain ⟨ts, k1, k2⟩ := ih _ (not_ended_append s t' g2 _ _ _) h
          refine ⟨t' :: ts, ?_, by simp [k2]⟩
          simp only at k1
          have e : s.rest = ws ++ w ++ tail' := by rw [h1, g4]; simp
          rw [e]
          have et : t' = ⟨t'.type, (s.pos + ws.length : Nat), t'.value⟩ := by
            cases t'
            simp only at g7
            simp [g7, h3]
          rw [et]
          refine Tokenizes.tok ws w tail' s.pos _ _ ts h2 g6 ?_
          have : s.pos + ws.length + w.length = pos' + 1 := by omega
          rw [this]
          exact k1

end Verif
