import Verif.Proofs.LexerErrors
/-!
# C03–C08, C61: the lexer

`lexTokens U text` is `Lexer(text)` followed by `tokenize()` and `toke_list()`; see
`Spec/Lexical.lean` for the lexical grammar.
-/

namespace Verif.Props
open Verif Verif.Spec

/-- A run from the initial state, as used by all theorems below. -/
theorem lexTokens_eq (U : Uni) (text : Str) :
    lexTokens U text = ((LexState.init text).tokenize U).map (·.toks) := by
  unfold lexTokens
  cases (LexState.init text).tokenize U <;> rfl

theorem init_not_ended (text : Str) : ¬ (LexState.init text).ended := by
  simp [LexState.ended, LexState.init]

/-- C03, C04, C06: the lexer computes exactly the lexical grammar: it returns tokens iff the text is a
sequence of lexemes with optional white space, and then START followed by the tokens the grammar assigns, END last. -/
theorem lexer_refines_grammar (U : Uni) (hU : U.Lawful) (text : Str) (toks : List Token) :
    lexTokens U text = .ok toks ↔
      ∃ ts, toks = ⟨.start, 0, .none⟩ :: ts ∧ Tokenizes U text 0 ts := by
  constructor
  · intro h
    rw [lexTokens_eq] at h
    cases hr : (LexState.init text).tokenize U with
    | error e => rw [hr] at h; simp [Except.map] at h
    | ok s' =>
      rw [hr] at h
      simp only [Except.map, Except.ok.injEq] at h
      obtain ⟨ts, h1, h2⟩ := run_sound U hU _ _ s' (init_not_ended text) hr
      exact ⟨ts, by rw [← h, h2]; rfl, h1⟩
  · rintro ⟨ts, rfl, h⟩
    rw [lexTokens_eq]
    have := run_complete U hU text 0 ts [⟨.start, 0, .none⟩] [] h (init_not_ended text)
    rw [LexState.init, this]
    rfl

/-- C03: `tokenize` is the loop `while self.next()`: its iteration bound is never reached. -/
theorem tokenize_unfold (U : Uni) (hU : U.Lawful) (s : LexState) :
    s.tokenize U = (s.next U).bind fun r =>
      match r.2 with
      | some _ => r.1.tokenize U
      | none => .ok r.1 := tokenize_step U hU s

/-- C03: tokenizing terminates on every text: the model's bound is never the outcome. -/
theorem tokenize_terminates (U : Uni) (hU : U.Lawful) (s : LexState) :
    s.tokenize U ≠ .error .outOfFuel := by
  intro h
  rcases run_error U hU _ s _ (Or.inl (Nat.le_refl _)) h with ⟨p, h, _⟩ | ⟨h, _⟩ | ⟨h, _⟩ <;>
    simp at h

theorem tokenizes_shape (U : Uni) (hU : U.Lawful) (text : Str) (pos : Nat) (ts : List Token)
    (h : Tokenizes U text pos ts) :
    ∃ mid, ts = mid ++ [⟨.«end», (pos + text.length : Nat), .none⟩] ∧
      (∀ t ∈ mid, t.type ≠ .start ∧ t.type ≠ .«end») ∧
      (∀ t ∈ mid, ∃ i : Nat, t.pos = (i : Int) ∧ pos ≤ i ∧ i < pos + text.length ∧ ∃ w rest,
        text.drop (i - pos) = w ++ rest ∧ Lexeme U w t.type t.value rest.head?) ∧
      mid.Pairwise (fun a b => a.pos < b.pos) := by
  induction h with
  | done ws pos h => exact ⟨[], by simp⟩
  | tok ws w rest pos ty v ts' h hw hr ih =>
    obtain ⟨mid, h1, h2, h3, h4⟩ := ih
    obtain ⟨c, tl, hc, _, hty, hty', _⟩ := lexOne_complete U hU w ty v rest hw
    have hwl : 0 < w.length := by simp [hc]
    refine ⟨⟨ty, (pos + ws.length : Nat), v⟩ :: mid, ?_, ?_, ?_, ?_⟩
    · rw [h1]
      simp
      omega
    · intro t ht
      rcases List.mem_cons.mp ht with rfl | ht
      · exact ⟨hty', hty⟩
      · exact h2 t ht
    · intro t ht
      rcases List.mem_cons.mp ht with rfl | ht
      · refine ⟨pos + ws.length, rfl, by omega, by simp; omega, w, rest, ?_, hw⟩
        have e : pos + ws.length - pos = ws.length := by omega
        rw [e, List.append_assoc, List.drop_left]
      · obtain ⟨i, g1, g2, g3, w', rest', g4, g5⟩ := h3 t ht
        refine ⟨i, g1, by omega, by simp; omega, w', rest', ?_, g5⟩
        rw [← g4]
        have e : i - pos = (ws ++ w).length + (i - (pos + ws.length + w.length)) := by
          simp; omega
        rw [e, ← List.drop_drop, List.drop_left]
    · rw [List.pairwise_cons]
      refine ⟨?_, h4⟩
      intro t ht
      obtain ⟨i, g1, g2, _⟩ := h3 t ht
      rw [g1]
      simp
      omega

/-- C03: the token list is START, then tokens other than START and END, then one END. -/
theorem tokens_bracketed (U : Uni) (hU : U.Lawful) (text : Str) (toks : List Token)
    (h : lexTokens U text = .ok toks) :
    ∃ mid, toks = ⟨.start, 0, .none⟩ :: mid ++ [⟨.«end», text.length, .none⟩] ∧
      ∀ t ∈ mid, t.type ≠ .start ∧ t.type ≠ .«end» := by
  obtain ⟨ts, rfl, ht⟩ := (lexer_refines_grammar U hU text toks).mp h
  obtain ⟨mid, h1, h2, _, _⟩ := tokenizes_shape U hU _ _ _ ht
  exact ⟨mid, by rw [h1]; simp, h2⟩

/-- C03: tokenizing again after success changes nothing. -/
theorem tokenize_idempotent (U : Uni) (hU : U.Lawful) (text : Str) (s : LexState)
    (h : (LexState.init text).tokenize U = .ok s) : s.tokenize U = .ok s := by
  have hl : lexTokens U text = .ok s.toks := by rw [lexTokens_eq, h]; rfl
  obtain ⟨ts, h1, ht⟩ := (lexer_refines_grammar U hU text _).mp hl
  obtain ⟨mid, h2, _, _, _⟩ := tokenizes_shape U hU _ _ _ ht
  have hc := run_complete U hU text 0 ts [⟨.start, 0, .none⟩] [] ht (init_not_ended text)
  rw [LexState.init] at h
  rw [h] at hc
  simp only [Except.ok.injEq] at hc
  refine tokenize_ended U hU s (by rw [hc]) ?_
  rw [hc, h2, ← List.append_assoc]
  simp only [LexState.ended, List.getLast?_append, List.getLast?_singleton, Option.some_or,
    Option.map_some]

/-- C04: every token between START and END starts, at its position, with a lexeme of its type and
value; positions strictly increase, and END's position is the length of the text. -/
theorem token_positions (U : Uni) (hU : U.Lawful) (text : Str) (toks : List Token)
    (h : lexTokens U text = .ok toks) :
    ∃ mid, toks = ⟨.start, 0, .none⟩ :: mid ++ [⟨.«end», text.length, .none⟩] ∧
      (∀ t ∈ mid, ∃ i : Nat, t.pos = (i : Int) ∧ i < text.length ∧ ∃ w rest,
        text.drop i = w ++ rest ∧ Lexeme U w t.type t.value rest.head?) ∧
      mid.Pairwise (fun a b => a.pos < b.pos) := by
  obtain ⟨ts, rfl, ht⟩ := (lexer_refines_grammar U hU text toks).mp h
  obtain ⟨mid, h1, _, h3, h4⟩ := tokenizes_shape U hU _ _ _ ht
  refine ⟨mid, by rw [h1]; simp, ?_, h4⟩
  intro t hm
  obtain ⟨i, g1, _, g3, w, rest, g4, g5⟩ := h3 t hm
  exact ⟨i, g1, by omega, w, rest, by simpa using g4, g5⟩

/-- C08: `att_list()` is the subsequence of attribute tokens of the token list. -/
theorem att_list_eq (U : Uni) (hU : U.Lawful) (text : Str) (s : LexState)
    (h : (LexState.init text).tokenize U = .ok s) :
    s.atts = s.toks.filter (fun t => decide (IsAtt t.type)) := by
  have hl : lexTokens U text = .ok s.toks := by rw [lexTokens_eq, h]; rfl
  obtain ⟨ts, h1, ht⟩ := (lexer_refines_grammar U hU text _).mp hl
  have hc := run_complete U hU text 0 ts [⟨.start, 0, .none⟩] [] ht (init_not_ended text)
  rw [LexState.init] at h
  rw [h] at hc
  simp only [Except.ok.injEq] at hc
  rw [hc]
  simp [IsAtt, attClasses]

/-! ### White space (C05) -/

/-- A lexeme preceded by white space. -/
structure Item where
  ws : Str
  w : Str
  ty : TokenType
  v : TVal

/-- The text made of the items and trailing white space. -/
def render (items : List Item) (trail : Str) : Str :=
  match items with
  | [] => trail
  | i :: is => i.ws ++ i.w ++ render is trail

/-- A lexeme stays a lexeme when white space follows it. -/
theorem lexeme_space (U : Uni) (hU : U.Lawful) (w : Str) (ty : TokenType) (v : TVal)
    (h : Lexeme U w ty v none) (c : Char) (hc : U.isSpace c = true) :
    Lexeme U w ty v (some c) := by
  have hd : U.isDigit c = false := by
    cases e : U.isDigit c with
    | false => rfl
    | true => rw [hU.digit_not_space c e] at hc; simp at hc
  have ha : U.isAlpha c = false := by
    cases e : U.isAlpha c with
    | false => rfl
    | true => rw [hU.alpha_not_space c e] at hc; simp at hc
  have ne : ∀ d : Char, isAscii d = true → asciiSpace d = false → c ≠ d := by
    rintro d h1 h2 rfl
    rw [hU.space_ascii _ h1, h2] at hc
    simp at hc
  have hid : ¬ IdChar U c := by
    simp [IdChar, hd, ha, ne '_' (by decide) (by decide)]
  have hdot : c ≠ '.' := ne '.' (by decide) (by decide)
  cases h with
  | punct w ty v nx h => exact .punct _ _ _ _ h
  | gt nx h => exact .gt _ (by simpa using ne '=' (by decide) (by decide))
  | lt nx h => exact .lt _ (by simpa using ne '=' (by decide) (by decide))
  | string body nx h => exact .string _ _ h
  | int neg ds n nx h1 h2 h3 h4 h5 =>
    exact .int _ _ _ _ h1 h2 h3 h4 (by rintro x hx; cases hx; exact ⟨hd, hdot⟩)
  | float neg ip fp a b nx h1 h2 h3 h4 h5 h6 h7 =>
    exact .float _ _ _ _ _ _ h1 h2 h3 h4 h5 h6 (by rintro x hx; cases hx; exact ⟨hd, hdot⟩)
  | att pre ident kw ty nx h1 h2 h3 h4 h5 =>
    exact .att _ _ _ _ _ h1 h2 h3 h4 (by rintro x hx; cases hx; exact hid)
  | keyword w kw ty v nx h1 h2 h3 =>
    exact .keyword _ _ _ _ _ h1 h2 (by rintro x hx; cases hx; exact ⟨hid, hdot⟩)

/-- The items may follow each other: white space is white space and each lexeme tolerates the
character after it. -/
def Renderable (U : Uni) : List Item → Str → Prop
  | [], trail => ∀ c ∈ trail, U.isSpace c = true
  | i :: is, trail => (∀ c ∈ i.ws, U.isSpace c = true) ∧
      Lexeme U i.w i.ty i.v (render is trail).head? ∧ Renderable U is trail

theorem render_tokenizes (U : Uni) (items : List Item) (trail : Str) (pos : Nat)
    (h : Renderable U items trail) : ∃ ts, Tokenizes U (render items trail) pos ts ∧
      ts.map (fun t => (t.type, t.value)) =
        items.map (fun i => (i.ty, i.v)) ++ [(.«end», .none)] := by
  induction items generalizing pos with
  | nil => exact ⟨_, .done trail pos h, rfl⟩
  | cons i is ih =>
    obtain ⟨h1, h2, h3⟩ := h
    obtain ⟨ts, g1, g2⟩ := ih (pos + i.ws.length + i.w.length) h3
    exact ⟨_, .tok _ _ _ _ _ _ _ h1 h2 g1, by simp [g2]⟩

/-- C05: a rendering of lexemes with any white space tokenizes to exactly their types and values. -/
theorem lex_render (U : Uni) (hU : U.Lawful) (items : List Item) (trail : Str)
    (h : Renderable U items trail) :
    ∃ toks, lexTokens U (render items trail) = .ok toks ∧
      toks.map (fun t => (t.type, t.value)) =
        (.start, .none) :: items.map (fun i => (i.ty, i.v)) ++ [(.«end», .none)] := by
  obtain ⟨ts, h1, h2⟩ := render_tokenizes U items trail 0 h
  exact ⟨_, (lexer_refines_grammar U hU _ _).mpr ⟨ts, rfl, h1⟩, by simp [h2]⟩

/-- C05: lexemes separated by non-empty white space always tokenize to themselves, whatever the
white space is. -/
theorem lex_spaced (U : Uni) (hU : U.Lawful) (items : List Item) (trail : Str)
    (hl : ∀ i ∈ items, Lexeme U i.w i.ty i.v none)
    (hw : ∀ i ∈ items, i.ws ≠ [] ∧ ∀ c ∈ i.ws, U.isSpace c = true)
    (ht : ∀ c ∈ trail, U.isSpace c = true) :
    ∃ toks, lexTokens U (render items trail) = .ok toks ∧
      toks.map (fun t => (t.type, t.value)) =
        (.start, .none) :: items.map (fun i => (i.ty, i.v)) ++ [(.«end», .none)] := by
  apply lex_render U hU
  induction items with
  | nil => exact ht
  | cons i is ih =>
    refine ⟨(hw i (by simp)).2, ?_, ih (fun j hj => hl j (by simp [hj])) (fun j hj => hw j (by simp [hj]))⟩
    have hli := hl i (by simp)
    cases hh : (render is trail).head? with
    | none => exact hli
    | some c =>
      apply lexeme_space U hU _ _ _ hli
      cases is with
      | nil =>
        apply ht
        exact List.mem_of_mem_head? hh
      | cons j js =>
        obtain ⟨g1, g2⟩ := hw j (by simp)
        apply g2
        rw [render, List.append_assoc] at hh
        cases hj : j.ws with
        | nil => exact absurd hj g1
        | cons a b =>
          rw [hj] at hh
          simp at hh
          simp [hh]

/-- C05: changing the white space of a spaced policy changes no token type or value. -/
theorem whitespace_insensitive (U : Uni) (hU : U.Lawful) (items items' : List Item)
    (trail trail' : Str)
    (hsame : items.map (fun i => (i.w, i.ty, i.v)) = items'.map (fun i => (i.w, i.ty, i.v)))
    (hl : ∀ i ∈ items, Lexeme U i.w i.ty i.v none)
    (hw : ∀ i ∈ items ++ items', i.ws ≠ [] ∧ ∀ c ∈ i.ws, U.isSpace c = true)
    (ht : ∀ c ∈ trail ++ trail', U.isSpace c = true) :
    (lexTokens U (render items trail)).map (List.map fun t => (t.type, t.value)) =
      (lexTokens U (render items' trail')).map (List.map fun t => (t.type, t.value)) := by
  have hl' : ∀ i ∈ items', Lexeme U i.w i.ty i.v none := by
    intro i hi
    have hm : (i.w, i.ty, i.v) ∈ items'.map (fun i => (i.w, i.ty, i.v)) :=
      List.mem_map_of_mem (f := fun i : Item => (i.w, i.ty, i.v)) hi
    rw [← hsame, List.mem_map] at hm
    obtain ⟨j, hj, e⟩ := hm
    simp only [Prod.mk.injEq] at e
    obtain ⟨e1, e2, e3⟩ := e
    rw [← e1, ← e2, ← e3]
    exact hl j hj
  obtain ⟨t1, a1, b1⟩ := lex_spaced U hU items trail hl (fun i hi => hw i (by simp [hi]))
    (fun c hc => ht c (by simp [hc]))
  obtain ⟨t2, a2, b2⟩ := lex_spaced U hU items' trail' hl' (fun i hi => hw i (by simp [hi]))
    (fun c hc => ht c (by simp [hc]))
  rw [a1, a2]
  simp only [Except.map]
  rw [b1, b2]
  have e : items.map (fun i => (i.ty, i.v)) = items'.map (fun i => (i.ty, i.v)) := by
    have := congrArg (List.map (fun x : Str × TokenType × TVal => x.2)) hsame
    simpa [List.map_map, Function.comp_def] using this
  rw [e]

/-! ### Case (C06) -/

/-- A text that stops in front of a token: lexemes with white space after the last one. -/
theorem prefix_of_tokens (U : Uni) (hU : U.Lawful) (pre : Str) (c : Char) (toks : List Token)
    (hc : U.isSpace c = true) (h : lexTokens U (pre ++ [c]) = .ok toks) :
    ∃ ts, Prefix U (pre ++ [c]) 0 ts := by
  obtain ⟨ts, hts, ht⟩ := (lexer_refines_grammar U hU _ toks).mp h
  clear h hts
  generalize hp : pre ++ [c] = s at ht
  generalize hpos : 0 = pos at ht
  clear hpos
  have hlast : s.getLast? = some c := by rw [← hp]; simp
  clear hp
  induction ht with
  | done ws pos h => exact ⟨[], .ws ws pos h⟩
  | tok ws w rest pos ty v ts' h hw hr ih =>
    have hne : rest ≠ [] := by
      rintro rfl
      rw [List.append_nil, List.getLast?_append] at hlast
      obtain ⟨d, tl, hd, _⟩ := lexOne_complete U hU w ty v [] hw
      rw [hd] at hlast
      have hl2 : (d :: tl).getLast? = some c := by
        cases e : (d :: tl).getLast? with
        | none => simp at e
        | some x => rw [e] at hlast; simpa using hlast
      -- no lexeme ends in white space
      have key : ∀ w : Str, Lexeme U w ty v none → w.getLast? = some c → False := by
        intro w hw hwl
        have hd : U.isDigit c = false := by
          cases e : U.isDigit c with
          | false => rfl
          | true => rw [hU.digit_not_space c e] at hc; simp at hc
        have ha : U.isAlpha c = false := by
          cases e : U.isAlpha c with
          | false => rfl
          | true => rw [hU.alpha_not_space c e] at hc; simp at hc
        have ne : ∀ d : Char, isAscii d = true → asciiSpace d = false → c ≠ d := by
          rintro d h1 h2 rfl
          rw [hU.space_ascii _ h1, h2] at hc
          simp at hc
        have hid : ¬ IdChar U c := by simp [IdChar, hd, ha, ne '_' (by decide) (by decide)]
        cases hw with
        | punct w ty v nx h =>
          simp only [punctuation, List.mem_cons, Prod.mk.injEq, List.not_mem_nil, or_false] at h
          rcases h with ⟨rfl, rfl, rfl⟩ | ⟨rfl, rfl, rfl⟩ | ⟨rfl, rfl, rfl⟩ | ⟨rfl, rfl, rfl⟩ |
            ⟨rfl, rfl, rfl⟩ | ⟨rfl, rfl, rfl⟩ | ⟨rfl, rfl, rfl⟩ | ⟨rfl, rfl, rfl⟩ |
            ⟨rfl, rfl, rfl⟩ <;> simp at hwl <;> exact ne _ (by decide) (by decide) hwl.symm
        | gt nx h => simp at hwl; exact ne _ (by decide) (by decide) hwl.symm
        | lt nx h => simp at hwl; exact ne _ (by decide) (by decide) hwl.symm
        | string body nx h =>
          rw [List.getLast?_append] at hwl
          simp at hwl; exact ne _ (by decide) (by decide) hwl.symm
        | int neg ds n nx h1 h2 h3 h4 h5 =>
          have hm := h2 c
          have : c ∈ ds := by
            rw [List.getLast?_append] at hwl
            cases hds : ds.getLast? with
            | none => simp at hds; exact absurd hds h1
            | some x =>
              rw [hds] at hwl
              simp at hwl
              exact hwl ▸ List.mem_of_getLast? hds
          rw [hm this] at hd
          simp at hd
        | float neg ip fp a b nx h1 h2 h3 h4 h5 h6 h7 =>
          have : c ∈ fp := by
            rw [List.getLast?_append, List.getLast?_cons] at hwl
            cases hds : fp.getLast? with
            | none => simp at hds; exact absurd hds h2
            | some x =>
              rw [hds] at hwl
              simp at hwl
              exact hwl ▸ List.mem_of_getLast? hds
          rw [h4 c this] at hd
          simp at hd
        | att pre ident kw ty nx h1 h2 h3 h4 h5 =>
          have : c ∈ ident := by
            rw [List.getLast?_append, List.getLast?_cons] at hwl
            cases hds : ident.getLast? with
            | none => simp at hds; exact absurd hds h3
            | some x =>
              rw [hds] at hwl
              simp at hwl
              exact hwl ▸ List.mem_of_getLast? hds
          exact hid (h4 c this)
        | keyword w kw ty v nx h1 h2 h3 =>
          obtain ⟨x, tl, rfl, g1, g2⟩ := spells_shape U hU w kw (keyword_reserved kw ty v h1).1 h2
          have hm := List.mem_of_getLast? hwl
          rcases List.mem_cons.mp hm with rfl | hm
          · exact hid (Or.inl g1)
          · exact hid (g2 c hm)
      exact key (d :: tl) (by rw [← hd]; exact hw) hl2
    have hl : rest.getLast? = some c := by
      rw [List.getLast?_append] at hlast
      cases e : rest.getLast? with
      | none => simp at e; exact absurd e hne
      | some x => rw [e] at hlast; simpa using hlast
    obtain ⟨ts, hts⟩ := ih hl
    exact ⟨_, .tok ws w rest pos ty v ts h hw hne hts⟩

/-- C06: in a token position (the text before it tokenizes and is empty or ends in white space), any
spelling of a keyword gives the same outcome, tokens and errors included, as any other spelling. -/
theorem keyword_case_insensitive (U : Uni) (hU : U.Lawful) (pre w w' post : Str) (kw : String)
    (ty : TokenType) (v : String) (hk : (kw, ty, v) ∈ keywords) (hw : Spells w kw)
    (hw' : Spells w' kw)
    (hpre : pre = [] ∨ ∃ p c toks, pre = p ++ [c] ∧ U.isSpace c = true ∧ lexTokens U pre = .ok toks)
    (hpost : ∀ c, post.head? = some c → ¬ IdChar U c ∧ c ≠ '.') :
    lexTokens U (pre ++ w ++ post) = lexTokens U (pre ++ w' ++ post) := by
  have hlen : w.length = w'.length := by
    have h1 := congrArg List.length hw
    have h2 := congrArg List.length hw'
    simp at h1 h2
    omega
  have hp : ∃ ts, Prefix U pre 0 ts := by
    rcases hpre with rfl | ⟨p, c, toks, rfl, hc, h⟩
    · exact ⟨[], .nil 0⟩
    · exact prefix_of_tokens U hU p c toks hc h
  obtain ⟨ts, hts⟩ := hp
  rw [lexTokens_eq, lexTokens_eq]
  congr 1
  unfold LexState.init
  rw [List.append_assoc, List.append_assoc, run_prefix U hU pre _ 0 ts _ _ hts,
    run_prefix U hU pre _ 0 ts _ _ hts, tokenize_step U hU, tokenize_step U hU (LexState.mk (w' ++ post) _ _ _)]
  have n1 := fun tk at' => next_lexeme U hU [] w post (0 + pre.length) ty (.str v.toList) tk at'
    (by simp) (.keyword w kw ty v _ hk hw hpost)
  have n2 := fun tk at' => next_lexeme U hU [] w' post (0 + pre.length) ty (.str v.toList) tk at'
    (by simp) (.keyword w' kw ty v _ hk hw' hpost)
  simp only [List.nil_append] at n1 n2
  rw [n1, n2, hlen]

/-- C06: in a token position, any spelling of an attribute class gives the same outcome, tokens
and errors included. -/
theorem attclass_case_insensitive (U : Uni) (hU : U.Lawful) (pre w w' post : Str) (kw : String)
    (ty : TokenType) (hk : (kw, ty) ∈ attClasses) (hw : Spells w kw) (hw' : Spells w' kw)
    (hpre : pre = [] ∨ ∃ p c toks, pre = p ++ [c] ∧ U.isSpace c = true ∧ lexTokens U pre = .ok toks) :
    lexTokens U (pre ++ w ++ '.' :: post) = lexTokens U (pre ++ w' ++ '.' :: post) := by
  have hlen : w.length = w'.length := by
    have h1 := congrArg List.length hw
    have h2 := congrArg List.length hw'
    simp at h1 h2
    omega
  have hp : ∃ ts, Prefix U pre 0 ts := by
    rcases hpre with rfl | ⟨p, c, toks, rfl, hc, h⟩
    · exact ⟨[], .nil 0⟩
    · exact prefix_of_tokens U hU p c toks hc h
  obtain ⟨ts, hts⟩ := hp
  rw [lexTokens_eq, lexTokens_eq]
  congr 1
  unfold LexState.init
  rw [List.append_assoc, List.append_assoc, run_prefix U hU pre _ 0 ts _ _ hts,
    run_prefix U hU pre _ 0 ts _ _ hts, tokenize_step U hU,
    tokenize_step U hU (LexState.mk (w' ++ '.' :: post) _ _ _)]
  have hdot : ∀ x, ('.' :: post).head? = some x → ¬ IdChar U x := by
    intro x hx
    simp only [List.head?_cons, Option.some.injEq] at hx
    subst hx
    simp [IdChar, hU.digit_false '.' (by decide) (by decide),
      hU.alpha_false '.' (by decide) (by decide)]
  obtain ⟨c, tl, rfl, g1, g2⟩ := spells_shape U hU w kw (attClass_reserved kw ty hk) hw
  obtain ⟨c', tl', rfl, g1', g2'⟩ := spells_shape U hU w' kw (attClass_reserved kw ty hk) hw'
  have htl : tl.length = tl'.length := by simpa using hlen
  have hone : ∀ pos, lexOne U c (tl ++ '.' :: post) pos = lexOne U c' (tl' ++ '.' :: post) pos := by
    intro pos
    rw [lexOne_word_eq U hU _ _ _ g1, lexOne_word_eq U hU _ _ _ g1']
    unfold lexWord
    rw [idLoop_complete U [c] tl _ pos g2 hdot, idLoop_complete U [c'] tl' _ pos g2' hdot, htl]
    simp only [List.cons_append, List.nil_append, (hU.lower_iff _ kw (attClass_reserved kw ty hk)).mpr hw,
      (hU.lower_iff _ kw (attClass_reserved kw ty hk)).mpr hw', List.head?_cons, if_true]
  have hnext : ∀ pos tk at', LexState.next U ⟨c :: tl ++ '.' :: post, pos, tk, at'⟩ =
      LexState.next U ⟨c' :: tl' ++ '.' :: post, pos, tk, at'⟩ := by
    intro pos tk at'
    unfold LexState.next
    simp only [List.cons_append]
    rw [skipSpace, skipSpace, if_neg (by simp [hU.alpha_not_space c g1]),
      if_neg (by simp [hU.alpha_not_space c' g1'])]
    simp only [hone]
  rw [hnext]

/-! ### Failures (C07, C61) -/

/-- C07 in full is false; this is the exact list of what tokenizing can raise: a LexerError positioned
in the text, an AttributeError only for texts ending in `.`, and a ValueError only for digits without decimal value or
numerals beyond the interpreter's limit. -/
theorem lexer_failures (U : Uni) (hU : U.Lawful) (text : Str) (e : PyExc)
    (h : lexTokens U text = .error e) :
    (∃ p : Nat, e = .lexerError p ∧ p ≤ text.length) ∨
    (e = .attributeError ∧ text.getLast? = some '.') ∨
    (e = .valueError ∧ ((∃ c ∈ text, U.isDigit c = true ∧ U.digitVal c = none) ∨
      ∃ m, U.intLimit = some m ∧ m < text.length)) := by
  rw [lexTokens_eq] at h
  cases hr : (LexState.init text).tokenize U with
  | ok s => rw [hr] at h; simp [Except.map] at h
  | error e' =>
    rw [hr] at h
    simp only [Except.map, Except.error.injEq] at h
    subst h
    rcases run_error U hU _ _ _ (Or.inl (Nat.le_refl _)) hr with ⟨p, h1, _, h3⟩ | h | h
    · exact Or.inl ⟨p, h1, by simpa [LexState.init] using h3⟩
    · exact Or.inr (Or.inl h)
    · exact Or.inr (Or.inr h)

/-- C07 (partial: texts that end in `.` or contain digits without decimal value or over-long numerals are excluded): all
failures are LexerErrors. -/
theorem lexer_errors_partial (U : Uni) (hU : U.Lawful) (text : Str) (e : PyExc)
    (hdot : text.getLast? ≠ some '.') (hd : ∀ c ∈ text, U.isDigit c = true → U.digitVal c ≠ none)
    (hl : ∀ m, U.intLimit = some m → text.length ≤ m) (h : lexTokens U text = .error e) :
    ∃ p : Nat, e = .lexerError p ∧ p ≤ text.length := by
  rcases lexer_failures U hU text e h with h | ⟨_, h⟩ | ⟨_, ⟨c, h1, h2, h3⟩ | ⟨m, h1, h2⟩⟩
  · exact h
  · exact absurd h hdot
  · exact absurd h3 (hd c h1 h2)
  · have := hl m h1; omega

/-- C07 is false: `user.` raises AttributeError, whatever the Unicode tables. -/
theorem lexer_attribute_error (U : Uni) (hU : U.Lawful) :
    lexTokens U "user.".toList = .error .attributeError := by
  have ha : ∀ c : Char, isAscii c = true → asciiAlpha c = true → U.isAlpha c = true := by
    intro c h1 h2; rw [hU.alpha_ascii c h1, h2]
  have hid : ∀ c : Char, isAscii c = true → asciiAlpha c = true → idChar U c = true := by
    intro c h1 h2; simp [idChar, ha c h1 h2]
  have hnd : idChar U '.' = false := by
    simp [idChar, hU.alpha_false '.' (by decide) (by decide), hU.digit_false '.' (by decide) (by decide)]
  rw [lexTokens_eq, tokenize_step U hU]
  have : LexState.next U (LexState.init "user.".toList) = .error .attributeError := by
    have e : "user.".toList = ['u', 's', 'e', 'r', '.'] := rfl
    unfold LexState.next LexState.init
    rw [e]
    simp only
    rw [skipSpace, if_neg (by rw [hU.alpha_not_space _ (ha 'u' (by decide) (by decide))]; simp)]
    simp only
    rw [lexOne_word_eq U hU _ _ _ (ha 'u' (by decide) (by decide))]
    unfold lexWord
    rw [idLoop, if_pos (hid 's' (by decide) (by decide)), idLoop,
      if_pos (hid 'e' (by decide) (by decide)), idLoop, if_pos (hid 'r' (by decide) (by decide)),
      idLoop, if_neg (by simp [hnd])]
    simp [bind, Except.bind]
  rw [this]
  rfl

/-- Tables that add one superscript digit (`²`, U+00B2: `isdigit()` but no decimal value). -/
def superscriptUni : Uni :=
  { asciiUni with isDigit := fun c => asciiUni.isDigit c || c == '²' }

/-- C07 is false: `²` raises ValueError. -/
theorem lexer_value_error : superscriptUni.Lawful ∧
    lexTokens superscriptUni ['²'] = .error .valueError := by
  refine ⟨?_, by decide⟩
  exact {
    space_ascii := asciiUni_lawful.space_ascii
    digit_ascii := by
      intro c h
      have hc : c ≠ '²' := by rintro rfl; exact absurd h (by decide)
      simp only [superscriptUni]
      rw [asciiUni_lawful.digit_ascii c h]
      simp [hc]
    alpha_ascii := asciiUni_lawful.alpha_ascii
    digit_not_space := by
      intro c h
      simp only [superscriptUni, Bool.or_eq_true, beq_iff_eq] at h ⊢
      rcases h with h | rfl
      · exact asciiUni_lawful.digit_not_space c h
      · decide
    alpha_not_space := asciiUni_lawful.alpha_not_space
    digit_not_alpha := by
      intro c h
      simp only [superscriptUni, Bool.or_eq_true, beq_iff_eq] at h ⊢
      rcases h with h | rfl
      · exact asciiUni_lawful.digit_not_alpha c h
      · decide
    lower_ascii := asciiUni_lawful.lower_ascii
    upper_ascii := asciiUni_lawful.upper_ascii
    reserved_ascii := asciiUni_lawful.reserved_ascii
    lower_case := asciiUni_lawful.lower_case
    lower_prefix := asciiUni_lawful.lower_prefix
    digitVal_ascii := asciiUni_lawful.digitVal_ascii
    digitVal_none := asciiUni_lawful.digitVal_none }

/-! ### Concrete cases meeting the hypotheses -/

/-- The text of the examples tokenizes. -/
example : lexTokens asciiUni "  User.Name = \"bob\" aNd NOT env.x".toList = .ok
    [⟨.start, 0, .none⟩, ⟨.usrAtt, 2, .str "Name".toList⟩, ⟨.op, 12, .str "=".toList⟩,
     ⟨.string, 14, .str "bob".toList⟩, ⟨.boolOp, 20, .str "AND".toList⟩,
     ⟨.notOp, 24, .str "NOT".toList⟩, ⟨.envAtt, 28, .str "x".toList⟩, ⟨.«end», 33, .none⟩] := by
  decide

example : Lexeme asciiUni "-12".toList .int (.int (-12)) none :=
  .int true "12".toList 12 none (by decide) (by decide) (by decide) (by decide) (by simp)

example : Spells "SubSeT".toList "subset" := by unfold Spells; decide

/-- `{1,2} ` is a token position for the keyword after it. -/
example : ∃ toks, lexTokens asciiUni "{1,2} ".toList = .ok toks := ⟨_, rfl⟩

/-- LexerErrors do occur under the hypotheses of `lexer_errors_partial`. -/
example : lexTokens asciiUni "user.a = 1..2".toList = .error (.lexerError 11) := by decide

end Verif.Props
