import Verif.Proofs.Printing
import Verif.Proofs.GrammarAdj
import Verif.Spec.Shape
/-!
# C09–C14, C62–C64: the parser
-/

namespace Verif.Props
open Verif Verif.Spec Verif.Proofs

/-! ### The whole parse -/

/-- One unfolding of `parse`. -/
theorem parse_cons (U : Uni) (t : Token) (ts : List Token) (k : Nat) :
    (PState.mk (t :: ts) k).parse U =
      if t.type = .start then
        (policyRule U (3 * ts.length + 3) ⟨ts, k⟩).bind fun x =>
          match x.2.toks with
          | [] => .error .attributeError
          | e :: es => if e.type = .«end» then .ok (x.1, ⟨es, x.2.nextId⟩)
            else .error (.parserError e.pos "parse")
      else .error (.parserError t.pos "parse") := by
  unfold PState.parse
  by_cases h : t.type = .start
  · rw [if_pos h]
    simp only [PState.eat, h, if_true, bind, Except.bind, pure, Except.pure]
    cases policyRule U (3 * ts.length + 3) ⟨ts, k⟩ with
    | error e => rfl
    | ok x =>
      simp only
      cases x.2.toks with
      | nil => rfl
      | cons e es =>
        simp only
        by_cases he : e.type = .«end»
        · rw [if_pos he, if_pos he]
        · rw [if_neg he, if_neg he]
  · rw [if_neg h]
    simp [PState.eat, h, bind, Except.bind]

/-- C09 (and C13: everything up to END is consumed): the parser succeeds exactly on START, a derivation of the
grammar, END, and returns the AST the derivation describes, with consecutive ids. -/
theorem parse_state_iff (U : Uni) (s s' : PState) (n : Node) :
    s.parse U = .ok (n, s') ↔
      ∃ b ts e p, s.toks = b :: (ts ++ e :: s'.toks) ∧ b.type = .start ∧ e.type = .«end» ∧
        DPolicy false ts p ∧ p.build U s.nextId = (n, s'.nextId) := by
  obtain ⟨toks, k⟩ := s
  cases toks with
  | nil =>
    constructor
    · intro h; simp [PState.parse, PState.eat, bind, Except.bind] at h
    · rintro ⟨b, ts, e, p, h, _⟩; simp at h
  | cons t ts =>
    rw [parse_cons]
    constructor
    · intro h
      by_cases ht : t.type = .start
      · rw [if_pos ht] at h
        have o := (rules_out U (3 * ts.length + 3)).2.2.1 ts k
        cases hp : policyRule U (3 * ts.length + 3) ⟨ts, k⟩ with
        | error e => rw [hp] at h; simp [Except.bind] at h
        | ok x =>
          rw [hp] at h o
          obtain ⟨us, p, e1, e2, e3⟩ := o
          simp only [Except.bind] at h
          cases hx : x.2.toks with
          | nil => rw [hx] at h; simp at h
          | cons e es =>
            rw [hx] at h
            simp only at h
            by_cases he : e.type = .«end»
            · rw [if_pos he] at h
              simp only [Except.ok.injEq, Prod.mk.injEq] at h
              obtain ⟨rfl, rfl⟩ := h
              exact ⟨t, us, e, p, by rw [e1, hx], ht, he, e2, e3⟩
            · rw [if_neg he] at h; simp at h
      · rw [if_neg ht] at h; simp at h
    · rintro ⟨b, us, e, p, h, hb, he, hp, hn⟩
      simp only [List.cons.injEq] at h
      obtain ⟨rfl, rfl⟩ := h
      rw [if_pos hb, policyRule_complete U hp _ k (e :: s'.toks) (by simp)
        ⟨e, _, rfl, by simp [he]⟩ (by
          intro r rs e'
          simp only [List.cons.injEq] at e'
          obtain ⟨rfl, _⟩ := e'
          simp [AndTok, OrTok, he])]
      simp only [Except.bind]
      rw [if_pos he, hn]

/-- C09 for token lists as such. -/
theorem parse_refines_grammar (U : Uni) (k k' : Nat) (toks : List Token) (n : Node) :
    parseTokens U k toks = .ok (n, k') ↔
      ∃ b ts e rest p, toks = b :: (ts ++ e :: rest) ∧ b.type = .start ∧ e.type = .«end» ∧
        DPolicy false ts p ∧ p.build U k = (n, k') := by
  cases toks with
  | nil => simp [parseTokens]
  | cons t ts =>
    simp only [parseTokens, bind, Except.bind, pure, Except.pure]
    cases h : (PState.mk (t :: ts) k).parse U with
    | error e =>
      simp only [reduceCtorEq, false_iff]
      rintro ⟨b, us, e', rest, p, h1, h2, h3, h4, h5⟩
      have := (parse_state_iff U ⟨t :: ts, k⟩ ⟨rest, k'⟩ n).2 ⟨b, us, e', p, h1, h2, h3, h4, h5⟩
      rw [h] at this
      simp at this
    | ok x =>
      obtain ⟨m, s'⟩ := x
      have hx := (parse_state_iff U ⟨t :: ts, k⟩ s' m).1 h
      simp only [Except.ok.injEq, Prod.mk.injEq]
      constructor
      · rintro ⟨rfl, rfl⟩
        obtain ⟨b, us, e, p, h1, h2, h3, h4, h5⟩ := hx
        exact ⟨b, us, e, _, p, h1, h2, h3, h4, h5⟩
      · rintro ⟨b, us, e', rest, p, h1, h2, h3, h4, h5⟩
        have := (parse_state_iff U ⟨t :: ts, k⟩ ⟨rest, k'⟩ n).2 ⟨b, us, e', p, h1, h2, h3, h4, h5⟩
        rw [h] at this
        simp only [Except.ok.injEq, Prod.mk.injEq] at this
        obtain ⟨rfl, rfl⟩ := this
        exact ⟨rfl, rfl⟩

/-- C09 for token lists with a single END, as the lexer makes them. -/
theorem parse_lexed (U : Uni) (k k' : Nat) (b e : Token) (ts : List Token) (n : Node)
    (hb : b.type = .start) (he : e.type = .«end») (hts : ∀ t ∈ ts, t.type ≠ .«end») :
    parseTokens U k (b :: (ts ++ [e])) = .ok (n, k') ↔
      ∃ p, DPolicy false ts p ∧ p.build U k = (n, k') := by
  rw [parse_refines_grammar]
  constructor
  · rintro ⟨b', us, e', rest, p, h, _, he', hp, hn⟩
    simp only [List.cons.injEq] at h
    obtain ⟨rfl, h⟩ := h
    have hr : rest = [] := by
      cases rest with
      | nil => rfl
      | cons r rs =>
        exfalso
        have h' := congrArg List.dropLast h
        rw [List.dropLast_concat, List.dropLast_append_of_ne_nil (by simp)] at h'
        exact hts e' (by rw [h']; simp) he'
    subst hr
    have := List.append_inj' h rfl
    obtain ⟨rfl, _⟩ := this
    exact ⟨p, hp, hn⟩
  · rintro ⟨p, hp, hn⟩
    exact ⟨b, ts, e, [], p, rfl, hb, he, hp, hn⟩

/-- C09: everything accepted is in the documented grammar (`HGPL_ABNF_V2.txt`). -/
theorem parse_sound_documented (U : Uni) (k k' : Nat) (toks : List Token) (n : Node)
    (h : parseTokens U k toks = .ok (n, k')) :
    ∃ b ts e rest p, toks = b :: (ts ++ e :: rest) ∧ DPolicy true ts p ∧ p.build U k = (n, k') := by
  obtain ⟨b, ts, e, rest, p, h1, _, _, h4, h5⟩ := (parse_refines_grammar U k k' toks n).1 h
  exact ⟨b, ts, e, rest, p, h1, dpolicy_mono h4, h5⟩

/-- C09, the gap to the documented grammar: `user.a = TRUE` is documented but rejected. -/
theorem documented_rejected (U : Uni) (k : Nat) :
    let a : Token := ⟨.usrAtt, 0, .str "a".toList⟩
    let o : Token := ⟨.op, 7, .str "=".toList⟩
    let t : Token := ⟨.bool, 9, .str "TRUE".toList⟩
    (∃ p, DPolicy true [a, o, t] p) ∧
      parseTokens U k [⟨.start, 0, .none⟩, a, o, t, ⟨.«end», 13, .none⟩] =
        .error (.parserError 9 "var") := by
  constructor
  · exact ⟨_, .term (.exp (.cmp (ts := [_]) (.att (by simp [AttTok])) rfl (.atom (by simp [AtomTok]))))⟩
  · rfl

/-! ### Unambiguity and precedence (C10) -/

/-- C10: a token list has at most one syntax tree. -/
theorem grammar_unambiguous (ts : List Token) (p q : Policy) (hp : DPolicy false ts p)
    (hq : DPolicy false ts q) : p = q := by
  have h : ∀ r, DPolicy false ts r →
      parseTokens asciiUni 0 (⟨.start, 0, .none⟩ :: (ts ++ [⟨.«end», 0, .none⟩])) =
        .ok (r.build asciiUni 0) := by
    intro r hr
    exact (parse_refines_grammar _ _ _ _ _).2 ⟨_, ts, _, [], r, rfl, rfl, rfl, hr, rfl⟩
  have := h p hp
  rw [h q hq] at this
  simp only [Except.ok.injEq] at this
  exact (policy_build_inj asciiUni _ _ _ _ (congrArg Prod.fst this)).symm

/-- C10: AND binds tighter than OR on either side. -/
theorem and_over_or (x y z : List Token) (a o : Token) (p q r : Policy) (hx : DExp false x p)
    (hy : DExp false y q) (hz : DExp false z r) (ha : AndTok a) (ho : OrTok o) (t : Policy) :
    (DPolicy false (x ++ o :: (y ++ a :: z)) t ↔ t = .bin o p (.bin a q r)) ∧
    (DPolicy false ((x ++ a :: y) ++ o :: z) t ↔ t = .bin o (.bin a p q) r) := by
  have h1 : DPolicy false (x ++ o :: (y ++ a :: z)) (.bin o p (.bin a q r)) :=
    .or (.term (.exp hx)) ho (.and (.exp hy) ha hz)
  have h2 : DPolicy false ((x ++ a :: y) ++ o :: z) (.bin o (.bin a p q) r) :=
    .or (.term (.and (.exp hx) ha hy)) ho (.exp hz)
  exact ⟨⟨fun h => grammar_unambiguous _ _ _ h h1, fun e => e ▸ h1⟩,
    ⟨fun h => grammar_unambiguous _ _ _ h h2, fun e => e ▸ h2⟩⟩

/-- Left-associated tree of a chain. -/
def chainTree : Policy → List (Token × List Token × Policy) → Policy
  | p, [] => p
  | p, (o, _, q) :: rest => chainTree (.bin o p q) rest

/-- Tokens of a chain. -/
def chainToks : List Token → List (Token × List Token × Policy) → List Token
  | x, [] => x
  | x, (o, y, _) :: rest => chainToks (x ++ o :: y) rest

/-- C10: chains of AND and chains of OR of any length associate to the left. -/
theorem chains_left_assoc (x : List Token) (p : Policy) (rest : List (Token × List Token × Policy))
    (hx : DExp false x p) (hr : ∀ c ∈ rest, DExp false c.2.1 c.2.2) (t : Policy) :
    ((∀ c ∈ rest, AndTok c.1) → (DPolicy false (chainToks x rest) t ↔ t = chainTree p rest)) ∧
    ((∀ c ∈ rest, OrTok c.1) → (DPolicy false (chainToks x rest) t ↔ t = chainTree p rest)) := by
  have hand : ∀ (rest : List (Token × List Token × Policy)) x p, DTerm false x p →
      (∀ c ∈ rest, DExp false c.2.1 c.2.2) → (∀ c ∈ rest, AndTok c.1) →
      DTerm false (chainToks x rest) (chainTree p rest) := by
    intro rest
    induction rest with
    | nil => intro x p h _ _; exact h
    | cons c rest ih =>
      intro x p h h1 h2
      exact ih _ _ (.and h (h2 c (by simp)) (h1 c (by simp))) (fun d hd => h1 d (by simp [hd]))
        (fun d hd => h2 d (by simp [hd]))
  have hor : ∀ (rest : List (Token × List Token × Policy)) x p, DPolicy false x p →
      (∀ c ∈ rest, DExp false c.2.1 c.2.2) → (∀ c ∈ rest, OrTok c.1) →
      DPolicy false (chainToks x rest) (chainTree p rest) := by
    intro rest
    induction rest with
    | nil => intro x p h _ _; exact h
    | cons c rest ih =>
      intro x p h h1 h2
      exact ih _ _ (.or h (h2 c (by simp)) (.exp (h1 c (by simp)))) (fun d hd => h1 d (by simp [hd]))
        (fun d hd => h2 d (by simp [hd]))
  constructor
  · intro h
    have h1 : DPolicy false (chainToks x rest) (chainTree p rest) := .term (hand rest x p (.exp hx) hr h)
    exact ⟨fun h => grammar_unambiguous _ _ _ h h1, fun e => e ▸ h1⟩
  · intro h
    have h1 := hor rest x p (.term (.exp hx)) hr h
    exact ⟨fun h => grammar_unambiguous _ _ _ h h1, fun e => e ▸ h1⟩

/-- C10: NOT applies to the variable or the parenthesis right after it only, and parentheses override
the precedence of AND. -/
theorem not_and_parens (n t a l r o : Token) (y x z : List Token) (p q s : Policy)
    (hn : n.type = .notOp) (ht : AttTok t) (ha : AndTok a) (hy : DExp false y q)
    (hl : l.type = .lparn) (hr : r.type = .rparn) (ho : OrTok o) (hx : DExp false x p)
    (hz : DExp false z s) (g : Policy) :
    (DPolicy false (n :: t :: a :: y) g ↔ g = .bin a (.not n (.att t)) q) ∧
    (DPolicy false (n :: l :: (x ++ [r]) ++ a :: y) g ↔ g = .bin a (.not n p) q) ∧
    (DPolicy false (x ++ a :: (l :: ((y ++ o :: z) ++ [r]))) g ↔ g = .bin a p (.bin o q s)) := by
  have h1 : DPolicy false (n :: t :: a :: y) (.bin a (.not n (.att t)) q) :=
    .term (.and (ts := [n, t]) (.exp (.notAtt hn ht)) ha hy)
  have h2 : DPolicy false (n :: l :: (x ++ [r]) ++ a :: y) (.bin a (.not n p) q) :=
    .term (.and (.exp (.notParen hn hl (.term (.exp hx)) hr)) ha hy)
  have h3 : DPolicy false (x ++ a :: (l :: ((y ++ o :: z) ++ [r]))) (.bin a p (.bin o q s)) :=
    .term (.and (.exp hx) ha (.paren hl (.or (.term (.exp hy)) ho (.exp hz)) hr))
  exact ⟨⟨fun h => grammar_unambiguous _ _ _ h h1, fun e => e ▸ h1⟩,
    ⟨fun h => grammar_unambiguous _ _ _ h h2, fun e => e ▸ h2⟩,
    ⟨fun h => grammar_unambiguous _ _ _ h h3, fun e => e ▸ h3⟩⟩

/-! ### Positions and printing (C11, C64) -/

theorem map_strip_eq {ts us : List Token}
    (h : ts.map (fun t => (t.type, t.value)) = us.map (fun t => (t.type, t.value))) :
    ts.map Token.strip = us.map Token.strip := by
  have := congrArg (List.map fun x : TokenType × TVal => (⟨x.1, 0, x.2⟩ : Token)) h
  rw [List.map_map, List.map_map] at this
  exact this

/-- C64: parsing depends on token types and values only; positions are copied, never consulted. -/
theorem parse_ignores_positions (U : Uni) (k : Nat) (toks toks' : List Token)
    (h : toks.map (fun t => (t.type, t.value)) = toks'.map (fun t => (t.type, t.value)))
    (n : Node) (k' : Nat) (hn : parseTokens U k toks = .ok (n, k')) :
    ∃ n', parseTokens U k toks' = .ok (n', k') ∧ Node.strip n' = Node.strip n := by
  obtain ⟨b, ts, e, rest, p, rfl, h2, h3, h4, h5⟩ := (parse_refines_grammar U k k' toks n).1 hn
  have hs := map_strip_eq h
  simp only [List.map_cons, List.map_append] at hs
  rw [eq_comm, List.map_eq_cons_iff] at hs
  obtain ⟨b', r1, rfl, hb', hs⟩ := hs
  rw [List.map_eq_append_iff] at hs
  obtain ⟨ts', r2, rfl, hts', hs⟩ := hs
  rw [List.map_eq_cons_iff] at hs
  obtain ⟨e', rest', rfl, he', hs⟩ := hs
  obtain ⟨q, hq1, hq2⟩ := dpolicy_strip (dpolicy_map h4) ts' hts'
  have hb2 : b'.type = .start := by
    have := congrArg Token.type hb'
    simpa [h2] using this
  have he2 : e'.type = .«end» := by
    have := congrArg Token.type he'
    simpa [h3] using this
  have hbuild : p.strip.build U k = (Node.strip n, k') := by rw [policy_build_strip, h5]
  rw [← hq2, policy_build_strip, Prod.mk.injEq] at hbuild
  refine ⟨(q.build U k).1, ?_, hbuild.1⟩
  exact (parse_refines_grammar U k k' _ _).2
    ⟨b', ts', e', rest', q, rfl, hb2, he2, hq1, by rw [← hbuild.2]⟩

/-- C64 at the level of texts: a policy re-spaced (same lexemes, any white space between them) parses
to the same AST up to positions. -/
theorem parse_whitespace_insensitive (U : Uni) (hU : U.Lawful) (items items' : List Item)
    (trail trail' : Str)
    (hsame : items.map (fun i => (i.w, i.ty, i.v)) = items'.map (fun i => (i.w, i.ty, i.v)))
    (hl : ∀ i ∈ items, Lexeme U i.w i.ty i.v none)
    (hw : ∀ i ∈ items ++ items', i.ws ≠ [] ∧ ∀ c ∈ i.ws, U.isSpace c = true)
    (ht : ∀ c ∈ trail ++ trail', U.isSpace c = true) (k k' : Nat) (n : Node)
    (hn : parseText U k (render items trail) = .ok (n, k')) :
    ∃ n', parseText U k (render items' trail') = .ok (n', k') ∧ Node.strip n' = Node.strip n := by
  have h := whitespace_insensitive U hU items items' trail trail' hsame hl hw ht
  unfold parseText at hn ⊢
  cases h1 : lexTokens U (render items trail) with
  | error e => rw [h1] at hn; simp [bind, Except.bind] at hn
  | ok toks =>
    rw [h1] at hn h
    cases h2 : lexTokens U (render items' trail') with
    | error e => rw [h2] at h; simp [Except.map] at h
    | ok toks' =>
      rw [h2] at h
      simp only [Except.map, Except.ok.injEq] at h
      simp only [bind, Except.bind] at hn ⊢
      exact parse_ignores_positions U k toks toks' h n k' hn

/-- C11: printing a syntax tree of the grammar as text, each token in any spelling the lexer knows,
and lexing and parsing the text gives back its AST, up to positions. -/
theorem print_parse (U : Uni) (hU : U.Lawful) (p : Policy) (hp : p.WF) (sp : Token → Str)
    (hsp : ∀ t ∈ p.tokens, Lexeme U (sp t) t.type t.value none) (k : Nat) :
    ∃ n, parseText U k (p.text sp) = .ok (n, (p.build U k).2) ∧
      Node.strip n = Node.strip (p.build U k).1 := by
  have hsp' : U.isSpace ' ' = true := by rw [hU.space_ascii _ (by decide)]; decide
  let items : List Item := p.print.map fun t => ⟨[' '], spell sp t, t.type, t.value⟩
  have htext : ∀ l : List Token, (l.map fun t => ' ' :: spell sp t).flatten =
      render (l.map fun t => ⟨[' '], spell sp t, t.type, t.value⟩) [] := by
    intro l
    induction l with
    | nil => rfl
    | cons t l ih => simp [render, ih]
  have htext' : p.text sp = render items [] := htext p.print
  obtain ⟨toks, h1, h2⟩ := lex_spaced U hU items []
    (by
      intro i hi
      simp only [items, List.mem_map] at hi
      obtain ⟨t, ht, rfl⟩ := hi
      exact print_lexeme U sp p hp hsp t ht)
    (by
      intro i hi
      simp only [items, List.mem_map] at hi
      obtain ⟨t, ht, rfl⟩ := hi
      simpa using hsp')
    (by simp)
  have hparse : parseTokens U k (⟨.start, 0, .none⟩ :: (p.print ++ [⟨.«end», 0, .none⟩])) =
      .ok (p.build U k) :=
    (parse_refines_grammar _ _ _ _ _).2 ⟨_, _, _, [], p, rfl, rfl, rfl, policy_print p hp, rfl⟩
  obtain ⟨n', h3, h4⟩ := parse_ignores_positions U k _ toks (by
    rw [h2]
    simp [items, List.map_map, Function.comp_def]) _ _ hparse
  refine ⟨n', ?_, h4⟩
  unfold parseText
  rw [htext', h1]
  exact h3

/-- C11: a spelling exists for all values the language can express. -/
theorem spelling_exists (U : Uni) (hU : U.Lawful) (p : Policy)
    (hp : ∀ t ∈ p.tokens, Printable U t) :
    ∃ sp : Token → Str, ∀ t ∈ p.tokens, Lexeme U (sp t) t.type t.value none := by
  classical
  refine ⟨fun t => if h : Printable U t then (printable_spelling U hU t h).choose else [], ?_⟩
  intro t ht
  simp only [hp t ht, dite_true]
  exact (printable_spelling U hU t (hp t ht)).choose_spec

/-- C11: and every AST the parser returns is the AST of such a tree. -/
theorem parse_tree (U : Uni) (k k' : Nat) (toks : List Token) (n : Node)
    (h : parseTokens U k toks = .ok (n, k')) : ∃ p : Policy, p.WF ∧ p.build U k = (n, k') := by
  obtain ⟨b, ts, e, rest, p, h1, _, _, h4, h5⟩ := (parse_refines_grammar U k k' toks n).1 h
  exact ⟨p, dpolicy_wf h4, h5⟩

/-! ### Errors (C12, C62, C63) -/

/-- `ts` can be continued to a policy. -/
def Viable (ts : List Token) : Prop := ∃ vs p, DPolicy false (ts ++ vs) p

/-- After `ts` any expression may follow. -/
def ExpExpected (ts : List Token) : Prop :=
  ∀ ws q, DExp false ws q → ∃ vs p, DPolicy false (ts ++ ws ++ vs) p

/-- C12 in full is false; this is what parsing a lexed token list can raise: ParserError at a token before
which the policy is correct so far (C62), or IndexError when the text stops where an expression
has to follow. -/
theorem parse_failures (U : Uni) (k : Nat) (b e : Token) (ts : List Token) (x : PyExc)
    (hb : b.type = .start) (he : e.type = .«end») (hts : ∀ t ∈ ts, t.type ≠ .«end»)
    (hbool : ∀ t ∈ ts, t.type = .bool → BoolTok t)
    (h : parseTokens U k (b :: (ts ++ [e])) = .error x) :
    (∃ us t rest rule, ts ++ [e] = us ++ t :: rest ∧ x = .parserError t.pos rule ∧ Viable us) ∨
    (x = .indexError ∧ ExpExpected ts) := by
  simp only [parseTokens, bind, Except.bind, pure, Except.pure] at h
  rw [parse_cons, if_pos hb] at h
  have hfuel := (fuel_enough U (3 * (ts ++ [e]).length + 3)).2.2.1 (ts ++ [e]) k (Nat.le_refl _)
  have o := (rules_out U (3 * (ts ++ [e]).length + 3)).2.2.1 (ts ++ [e]) k
  cases hp : policyRule U (3 * (ts ++ [e]).length + 3) ⟨ts ++ [e], k⟩ with
  | error y =>
    rw [hp] at h o hfuel
    simp only [Except.bind, Except.error.injEq] at h
    subst h
    rcases o with rfl | ⟨us, rest, vs, p, h1, h2, h3⟩ | ⟨us, t, h1, h2, h3⟩
    · exact absurd rfl hfuel
    · cases h3 with
      | parser hx => exact Or.inl ⟨us, _, _, _, h1, hx, vs, p, h2⟩
      | eof hx =>
        exfalso
        have hin := dpolicy_inner h2 e (by rw [List.append_nil] at h1; rw [← h1]; simp)
        exact hin.2 he
      | @badBool t r hx ht hnb =>
        exfalso
        have : t ∈ ts ++ [e] := by rw [h1]; simp
        rw [List.mem_append, List.mem_singleton] at this
        rcases this with hm | rfl
        · exact hnb (hbool t hm ht)
        · rw [he] at ht; simp at ht
    · have := List.append_inj' h1 rfl
      obtain ⟨rfl, _⟩ := this
      exact Or.inr ⟨h2, h3⟩
  | ok y =>
    rw [hp] at h o
    obtain ⟨us, p, e1, e2, e3⟩ := o
    simp only [Except.bind] at h
    cases hx : y.2.toks with
    | nil =>
      exfalso
      rw [hx, List.append_nil] at e1
      exact (dpolicy_inner e2 e (by rw [← e1]; simp)).2 he
    | cons t rest =>
      rw [hx] at h
      simp only at h
      by_cases ht : t.type = .«end»
      · rw [if_pos ht] at h; simp at h
      · rw [if_neg ht] at h
        simp only [Except.error.injEq] at h
        exact Or.inl ⟨us, t, rest, _, by rw [e1, hx], h.symm, [], p, by simpa using e2⟩

/-- The lexer's BOOL tokens carry their spelling. -/
theorem lexed_shape (U : Uni) (hU : U.Lawful) (text : Str) (toks : List Token)
    (h : lexTokens U text = .ok toks) :
    ∃ b ts e, toks = b :: (ts ++ [e]) ∧ b.type = .start ∧ e.type = .«end» ∧
      (∀ t ∈ ts, t.type ≠ .«end» ∧ t.type ≠ .start) ∧ (∀ t ∈ ts, t.type = .bool → BoolTok t) := by
  obtain ⟨ts, h1, h2⟩ := (lexer_refines_grammar U hU text toks).1 h
  have key : ∀ text pos ts, Tokenizes U text pos ts → ∃ us e, ts = us ++ [e] ∧ e.type = .«end» ∧
      (∀ t ∈ us, t.type ≠ .«end» ∧ t.type ≠ .start) ∧ (∀ t ∈ us, t.type = .bool → BoolTok t) := by
    intro text pos ts h
    induction h with
    | done ws pos h => exact ⟨[], _, rfl, rfl, by simp, by simp⟩
    | tok ws w rest pos ty v toks h hw hr ih =>
      obtain ⟨us, e, rfl, he, hu, hb⟩ := ih
      have hty : ty ≠ .«end» ∧ ty ≠ .start := by
        cases hw with
        | punct w ty v nx h =>
          simp only [punctuation, List.mem_cons, Prod.mk.injEq, List.not_mem_nil, or_false] at h
          rcases h with ⟨_, rfl, _⟩ | ⟨_, rfl, _⟩ | ⟨_, rfl, _⟩ | ⟨_, rfl, _⟩ | ⟨_, rfl, _⟩ |
            ⟨_, rfl, _⟩ | ⟨_, rfl, _⟩ | ⟨_, rfl, _⟩ | ⟨_, rfl, _⟩ <;> simp
        | gt => simp
        | lt => simp
        | string => simp
        | int => simp
        | float => simp
        | att pre ident kw ty nx hc =>
          simp only [attClasses, List.mem_cons, Prod.mk.injEq, List.not_mem_nil, or_false] at hc
          rcases hc with ⟨_, rfl⟩ | ⟨_, rfl⟩ | ⟨_, rfl⟩ | ⟨_, rfl⟩ | ⟨_, rfl⟩ <;> simp
        | keyword w kw ty v nx hk =>
          simp only [keywords, List.mem_cons, Prod.mk.injEq, List.not_mem_nil, or_false] at hk
          rcases hk with ⟨_, rfl, _⟩ | ⟨_, rfl, _⟩ | ⟨_, rfl, _⟩ | ⟨_, rfl, _⟩ | ⟨_, rfl, _⟩ |
            ⟨_, rfl, _⟩ | ⟨_, rfl, _⟩ | ⟨_, rfl, _⟩ | ⟨_, rfl, _⟩ <;> simp
      have hbo : ty = .bool → ∃ s, v = .str s := by
        intro e
        cases hw with
        | punct w ty v nx h =>
          subst e
          simp [punctuation] at h
        | gt => simp at e
        | lt => simp at e
        | string => simp at e
        | int => simp at e
        | float => simp at e
        | att pre ident kw ty nx hc => exact ⟨_, rfl⟩
        | keyword w kw ty v nx hk => exact ⟨_, rfl⟩
      refine ⟨⟨ty, _, v⟩ :: us, e, rfl, he, ?_, ?_⟩
      · intro t ht
        simp only [List.mem_cons] at ht
        rcases ht with rfl | ht
        · exact hty
        · exact hu t ht
      · intro t ht
        simp only [List.mem_cons] at ht
        rcases ht with rfl | ht
        · intro e; exact ⟨e, hbo e⟩
        · exact hb t ht
  obtain ⟨us, e, rfl, he, hu, hb⟩ := key _ _ _ h2
  exact ⟨_, us, e, h1, rfl, he, hu, hb⟩

/-- C12 for texts: all failures of lexing succeeded texts. -/
theorem parse_text_failures (U : Uni) (hU : U.Lawful) (k : Nat) (text : Str) (toks : List Token)
    (x : PyExc) (hl : lexTokens U text = .ok toks) (h : parseText U k text = .error x) :
    (∃ us t rest rule, toks.tail = us ++ t :: rest ∧ x = .parserError t.pos rule ∧ Viable us) ∨
    (x = .indexError ∧ ∃ ts b e, toks = b :: (ts ++ [e]) ∧ ExpExpected ts) := by
  unfold parseText at h
  rw [hl] at h
  obtain ⟨b, ts, e, rfl, hb, he, hts, hbo⟩ := lexed_shape U hU text toks hl
  rcases parse_failures U k b e ts x hb he (fun t ht => (hts t ht).1) hbo h with h | ⟨h1, h2⟩
  · exact Or.inl h
  · exact Or.inr ⟨h1, ts, b, e, rfl, h2⟩

/-- When an expression is expected, the policy so far is empty or ends in `(`, AND or OR. -/
theorem expExpected_last (ts : List Token) (h : ExpExpected ts) :
    ts = [] ∨ ∃ us t, ts = us ++ [t] ∧ (t.type = .lparn ∨ AndTok t ∨ OrTok t) := by
  rcases List.eq_nil_or_concat ts with rfl | ⟨us, t, rfl⟩
  · exact Or.inl rfl
  · refine Or.inr ⟨us, t, by simp, ?_⟩
    obtain ⟨vs, p, hp⟩ := h [⟨.notOp, 0, .none⟩, anyLit] _ (.notLit rfl anyLit_tok)
    have hc := dpolicy_chain hp
    have e : us.concat t ++ [⟨.notOp, 0, .none⟩, anyLit] ++ vs =
        us ++ t :: ⟨.notOp, 0, .none⟩ :: (anyLit :: vs) := by simp
    rw [e, List.isChain_append_cons_cons] at hc
    exact hc.2.1 rfl

/-- C12 (partial: texts that end where an expression has to follow are excluded, see
`parse_index_error`): parse fails with ParserError only. -/
theorem parse_errors_partial (U : Uni) (hU : U.Lawful) (k : Nat) (text : Str) (b e : Token)
    (ts : List Token) (x : PyExc) (hl : lexTokens U text = .ok (b :: (ts ++ [e])))
    (hne : ts ≠ []) (hlast : ∀ us t, ts = us ++ [t] → t.type ≠ .lparn ∧ t.type ≠ .boolOp)
    (h : parseText U k text = .error x) : ∃ pos rule, x = .parserError pos rule := by
  rcases parse_text_failures U hU k text _ x hl h with ⟨us, t, rest, rule, _, hx, _⟩ |
    ⟨_, ts', b', e', h1, h2⟩
  · exact ⟨_, _, hx⟩
  · exfalso
    simp only [List.cons.injEq] at h1
    obtain ⟨rfl, _⟩ := List.append_inj' h1.2 rfl
    rcases expExpected_last _ h2 with h | ⟨us, t, h3, h4⟩
    · exact hne h
    · obtain ⟨g1, g2⟩ := hlast us t h3
      rcases h4 with h4 | h4 | h4
      · exact g1 h4
      · exact g2 h4.1
      · exact g2 h4.1

/-- C12 is false: the empty policy and an unfinished conjunction raise IndexError. -/
theorem parse_index_error : parseText asciiUni 0 [] = .error .indexError ∧
    parseText asciiUni 0 "user.a AND ".toList = .error .indexError ∧
    parseText asciiUni 0 "NOT (".toList = .error .indexError := by
  refine ⟨by decide +kernel, by decide +kernel, by decide +kernel⟩

/-- C62: a ParserError is reported at a token of the input, and everything before that token can be
continued to a policy: the parser never blames a token after a mistake. -/
theorem parse_error_position (U : Uni) (hU : U.Lawful) (k : Nat) (text : Str) (toks : List Token)
    (pos : Int) (rule : String) (hl : lexTokens U text = .ok toks)
    (h : parseText U k text = .error (.parserError pos rule)) :
    ∃ us t rest, toks.tail = us ++ t :: rest ∧ pos = t.pos ∧ Viable us := by
  rcases parse_text_failures U hU k text toks _ hl h with ⟨us, t, rest, rule', h1, h2, h3⟩ | ⟨h1, _⟩
  · simp only [PyExc.parserError.injEq] at h2
    exact ⟨us, t, rest, h1, h2.1, h3⟩
  · simp at h1

/-- C63: a parser object is good for one parse; a second call fails with AttributeError. -/
theorem parse_twice (U : Uni) (hU : U.Lawful) (k : Nat) (text : Str) (toks : List Token) (n : Node)
    (s' : PState) (hl : lexTokens U text = .ok toks)
    (h : (PState.mk toks k).parse U = .ok (n, s')) :
    s'.toks = [] ∧ s'.parse U = .error .attributeError := by
  obtain ⟨b, ts, e, p, h1, h2, h3, h4, h5⟩ := (parse_state_iff U _ s' n).1 h
  obtain ⟨b', ts', e', h6, hb', he', hts', _⟩ := lexed_shape U hU text toks hl
  simp only at h1
  rw [h6] at h1
  simp only [List.cons.injEq] at h1
  have hnil : s'.toks = [] := by
    cases hr : s'.toks with
    | nil => rfl
    | cons r rs =>
      exfalso
      have h' := congrArg List.dropLast h1.2
      rw [hr, List.dropLast_concat, List.dropLast_append_of_ne_nil (by simp)] at h'
      exact (hts' e (by rw [h']; simp)).1 h3
  refine ⟨hnil, ?_⟩
  obtain ⟨toks', k'⟩ := s'
  simp only at hnil
  subst hnil
  rfl

/-! ### Tokens and shape (C13, C14) -/

theorem atom_not_punct {b t} (h : AtomTok b t) : Punct t = false := by
  unfold AtomTok at h
  rcases h with h | h | h | h | ⟨_, h⟩ <;> simp [Punct, h]

theorem att_not_punct {t} (h : AttTok t) : Punct t = false := by
  unfold AttTok at h
  rcases h with h | h | h | h | h <;> simp [Punct, h]

theorem dsetVal_tokens {b ts es} (h : DSetVal b ts es) : ts.filter (fun t => !Punct t) = es := by
  induction h with
  | one ht => simp [atom_not_punct ht]
  | @cons t c ts es ht hc _ ih =>
    have hc' : Punct c = true := by simp [Punct, hc]
    simp [atom_not_punct ht, hc', ih]

theorem dvar_tokens {b ts v} (h : DVar b ts v) : ts.filter (fun t => !Punct t) = v.tokens := by
  cases h with
  | att ht => simp [att_not_punct ht, Operand.tokens]
  | atom ht => simp [atom_not_punct ht, Operand.tokens]
  | @empty l r hl hr =>
    have h1 : Punct l = false := by simp [Punct, hl]
    have h2 : Punct r = true := by simp [Punct, hr]
    simp [h1, h2, Operand.tokens]
  | @set l r ts es hl h hr =>
    have h1 : Punct l = false := by simp [Punct, hl]
    have h2 : Punct r = true := by simp [Punct, hr]
    simp [h1, h2, Operand.tokens, dsetVal_tokens h]

mutual
theorem dexp_tokens {b ts p} (h : DExp b ts p) : ts.filter (fun t => !Punct t) = p.tokens := by
  match h with
  | .cmp (o := o) hl ho hr =>
    have h1 : Punct o = false := by simp [Punct, ho]
    simp [h1, Policy.tokens, dvar_tokens hl, dvar_tokens hr]
  | .lit (t := t) ht =>
    have h1 : Punct t = false := by simp [Punct, ht.1]
    simp [h1, Policy.tokens]
  | .att ht => simp [att_not_punct ht, Policy.tokens]
  | .notLit (n := n) (t := t) hn ht =>
    have h1 : Punct t = false := by simp [Punct, ht.1]
    have h2 : Punct n = false := by simp [Punct, hn]
    simp [h1, h2, Policy.tokens]
  | .notAtt (n := n) hn ht =>
    have h2 : Punct n = false := by simp [Punct, hn]
    simp [att_not_punct ht, h2, Policy.tokens]
  | .paren (l := l) (r := r) hl hp hr =>
    have h1 : Punct l = true := by simp [Punct, hl]
    have h2 : Punct r = true := by simp [Punct, hr]
    simp [h1, h2, dpolicy_tokens hp]
  | .notParen (n := n) (l := l) (r := r) hn hl hp hr =>
    have h0 : Punct n = false := by simp [Punct, hn]
    have h1 : Punct l = true := by simp [Punct, hl]
    have h2 : Punct r = true := by simp [Punct, hr]
    simp [h0, h1, h2, dpolicy_tokens hp, Policy.tokens]
theorem dterm_tokens {b ts p} (h : DTerm b ts p) : ts.filter (fun t => !Punct t) = p.tokens := by
  match h with
  | .exp h => exact dexp_tokens h
  | .and (o := o) hp ho hq =>
    have h1 : Punct o = false := by simp [Punct, ho.1]
    simp [h1, Policy.tokens, dterm_tokens hp, dexp_tokens hq]
theorem dpolicy_tokens {b ts p} (h : DPolicy b ts p) : ts.filter (fun t => !Punct t) = p.tokens := by
  match h with
  | .term h => exact dterm_tokens h
  | .or (o := o) hp ho hq =>
    have h1 : Punct o = false := by simp [Punct, ho.1]
    simp [h1, Policy.tokens, dpolicy_tokens hp, dterm_tokens hq]
end

theorem inorder_leaf (k : Kind) (t : Token) (i : Nat) (r : Res) : inorder (.mk k t i r []) = [t] := by
  cases k <;> rfl

theorem inorder_atoms (es : List Token) (k : Nat) : inorderList (atomNodes es k) = es := by
  induction es generalizing k with
  | nil => rfl
  | cons e es ih =>
    simp only [atomNodes, atomNode, inorderList, inorder_leaf, ih]
    rfl

theorem inorder_operand (v : Operand) (k : Nat) : inorder (v.build k).1 = v.tokens := by
  cases v with
  | att t => exact inorder_leaf _ _ _ _
  | atom t => exact inorder_leaf _ _ _ _
  | set l es =>
    simp only [Operand.build, Operand.tokens, inorder]
    rw [inorder_atoms]

theorem inorder_build (U : Uni) (p : Policy) (k : Nat) : inorder (p.build U k).1 = p.tokens := by
  induction p generalizing k with
  | cmp l o r =>
    simp only [Policy.build, inorder, inorderList, Policy.tokens, inorder_operand, List.append_nil]
  | lit t => exact inorder_leaf _ _ _ _
  | att t => exact inorder_leaf _ _ _ _
  | not n p ih => simp only [Policy.build, inorder, inorderList, Policy.tokens, ih, List.append_nil]
  | bin o p q ihp ihq =>
    simp only [Policy.build, inorder, inorderList, Policy.tokens, ihp, ihq, List.append_nil]

/-- C13: the tokens of the AST in source order are the input's tokens between START and END without
parentheses, commas and closing braces. -/
theorem parse_tokens (U : Uni) (k k' : Nat) (b e : Token) (ts : List Token) (n : Node)
    (hb : b.type = .start) (he : e.type = .«end») (hts : ∀ t ∈ ts, t.type ≠ .«end»)
    (h : parseTokens U k (b :: (ts ++ [e])) = .ok (n, k')) :
    inorder n = ts.filter (fun t => !Punct t) := by
  obtain ⟨p, h1, h2⟩ := (parse_lexed U k k' b e ts n hb he hts).1 h
  rw [dpolicy_tokens h1, ← inorder_build U p k, h2]

theorem attLeaf_of {t : Token} (k : Nat) (h : AttTok t) : AttLeaf (attNode t k) := by
  obtain ⟨ty, p, v⟩ := t
  unfold AttTok at h
  simp only at h
  rcases h with rfl | rfl | rfl | rfl | rfl
  · exact .usr p v k
  · exact .obj p v k
  · exact .env p v k
  · exact .adm p v k
  · exact .con p v k

theorem atomLeaf_of {t : Token} (k : Nat) (h : AtomTok false t) : AtomLeaf (atomNode t k) := by
  obtain ⟨ty, p, v⟩ := t
  simp only [AtomTok, Bool.false_eq_true, false_and, or_false] at h
  rcases h with rfl | rfl | rfl | rfl
  · exact .int p v k _
  · exact .float p v k _
  · exact .string p v k _
  · exact .null p v k

theorem atomNodes_leaf (es : List Token) (k : Nat) (h : ∀ t ∈ es, AtomTok false t) :
    ∀ c ∈ atomNodes es k, AtomLeaf c := by
  induction es generalizing k with
  | nil => simp [atomNodes]
  | cons e es ih =>
    intro c hc
    simp only [atomNodes, List.mem_cons] at hc
    rcases hc with rfl | hc
    · exact atomLeaf_of k (h e (by simp))
    · exact ih (k + 1) (fun t ht => h t (by simp [ht])) c hc

theorem operand_shape (v : Operand) (k : Nat) (h : v.WF) : ValueShape (v.build k).1 := by
  cases v with
  | att t => exact .att (attLeaf_of k h)
  | atom t => exact .atom (atomLeaf_of k h)
  | set l es => exact .set l _ _ h.1 (atomNodes_leaf es k h.2)

/-- C14: every AST the parser returns has the arities and child kinds of `PolicyShape`. -/
theorem parse_shape (U : Uni) (k k' : Nat) (toks : List Token) (n : Node)
    (h : parseTokens U k toks = .ok (n, k')) : PolicyShape n := by
  have key : ∀ (p : Policy) k, p.WF → PolicyShape (p.build U k).1 := by
    intro p
    induction p with
    | cmp l o r =>
      intro k h
      exact .cmp _ _ _ _ h.2.1 (operand_shape l k h.1) (operand_shape r _ h.2.2)
    | lit t => intro k h; exact .lit _ _ _ h.1
    | att t => intro k h; exact .att (attLeaf_of k h)
    | not n p ih => intro k h; exact .not _ _ _ h.1 (ih k h.2)
    | bin o p q ihp ihq =>
      intro k h
      refine .bin _ _ _ _ ?_ ?_ (ihp k h.2.1) (ihq _ h.2.2)
      · rcases h.1 with h | h <;> exact h.1
      · rcases h.1 with h | h
        · exact Or.inl h.2
        · exact Or.inr h.2
  obtain ⟨p, h1, h2⟩ := parse_tree U k k' toks n h
  have := key p k h1
  rw [h2] at this
  exact this

/-! ### Concrete cases -/

/-- `user.a = 1 OR NOT object.b AND {2, "x"} SUBSET env.c`: AND inside OR, ids children first. -/
example : parseText asciiUni 5 "user.a = 1 OR NOT object.b AND {2, \"x\"} SUBSET env.c".toList = .ok
    (.mk .boolOp ⟨.boolOp, 11, .str "OR".toList⟩ 16 .none
      [.mk .op ⟨.op, 7, .str "=".toList⟩ 7 .none
        [.mk .usrAtt ⟨.usrAtt, 0, .str "a".toList⟩ 5 .none [],
         .mk .intVal ⟨.int, 9, .int 1⟩ 6 (.atom (.int 1)) []],
       .mk .boolOp ⟨.boolOp, 27, .str "AND".toList⟩ 15 .none
        [.mk .not ⟨.notOp, 14, .str "NOT".toList⟩ 9 .none
          [.mk .objAtt ⟨.objAtt, 18, .str "b".toList⟩ 8 .none []],
         .mk .op ⟨.op, 40, .str "SUBSET".toList⟩ 14 .none
          [.mk .set ⟨.lset, 31, .none⟩ 12 .none
            [.mk .intVal ⟨.int, 32, .int 2⟩ 10 (.atom (.int 2)) [],
             .mk .stringVal ⟨.string, 35, .str "x".toList⟩ 11 (.atom (.str "x".toList)) []],
           .mk .envAtt ⟨.envAtt, 47, .str "c".toList⟩ 13 .none []]]], 17) := by
  decide +kernel

/-- ParserErrors occur, with the position of the token after the correct beginning. -/
example : parseText asciiUni 0 "user.a = 1 AND ) OR".toList = .error (.parserError 15 "exp") := by
  decide +kernel

/-- A tree to which `print_parse` and `spelling_exists` apply. -/
def sampleTree : Policy :=
  .not ⟨.notOp, 0, .str "NOT".toList⟩
    (.cmp (.att ⟨.usrAtt, 0, .str "a".toList⟩) ⟨.op, 0, .str "<".toList⟩
      (.atom ⟨.int, 0, .int (-7)⟩))

example : sampleTree.WF ∧ ∀ t ∈ sampleTree.tokens, Printable asciiUni t := by
  refine ⟨⟨rfl, Or.inl rfl, rfl, Or.inl rfl⟩, ?_⟩
  intro t ht
  simp only [sampleTree, Policy.tokens, Operand.tokens, List.cons_append, List.nil_append,
    List.mem_cons, List.not_mem_nil, or_false] at ht
  rcases ht with rfl | rfl | rfl | rfl
  · exact Or.inr (Or.inr (Or.inr (Or.inr (Or.inl ⟨"not", "NOT", by simp [keywords], rfl⟩))))
  · refine Or.inl ⟨⟨"user", by simp [attClasses]⟩, _, rfl, by simp, ?_⟩
    intro c hc
    simp at hc
    subst hc
    exact Or.inl (by decide)
  · exact Or.inr (Or.inr (Or.inr (Or.inr (Or.inr (Or.inr ⟨rfl, Or.inr rfl⟩)))))
  · exact Or.inr (Or.inl ⟨rfl, -7, rfl, 1, by decide, by decide, by
      intro l hl
      simp [asciiUni] at hl⟩)

end Verif.Props
