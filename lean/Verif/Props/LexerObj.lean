import Verif.Model.LexerObj
import Verif.Props.Lexer
/-!
# Lexer objects (C109)
-/

namespace Verif.Props
open Verif Spec

/-! ### Where the lexer stands after an exception -/

/-- `r` is what is left of `s` after some characters, and `p` the position of its first one. -/
def Later (s : Str) (pos : Nat) (r : Str) (p : Nat) : Prop := ∃ pre, s = pre ++ r ∧ p = pos + pre.length

theorem Later.refl (s : Str) (pos : Nat) : Later s pos s pos := ⟨[], rfl, rfl⟩

theorem Later.trans {s r t : Str} {pos p q : Nat} (h : Later s pos r p) (h' : Later r p t q) : Later s pos t q := by
  obtain ⟨a, rfl, rfl⟩ := h
  obtain ⟨b, rfl, rfl⟩ := h'
  exact ⟨a ++ b, by simp, by simp; omega⟩

theorem Later.tail (c : Char) (s : Str) (pos : Nat) : Later (c :: s) pos s (pos + 1) := ⟨[c], rfl, rfl⟩

theorem idStop_later (U : Uni) (c : Char) (tail : Str) (pos : Nat) :
    Later (c :: tail) pos (idStop U c tail pos).1 (idStop U c tail pos).2 := by
  induction tail generalizing c pos with
  | nil => exact Later.refl _ _
  | cons p tl ih =>
    rw [idStop]
    split
    · exact (Later.tail _ _ _).trans (ih p (pos + 1))
    · exact Later.refl _ _

theorem numStop_later (U : Uni) (isF : Bool) (c : Char) (tail : Str) (pos : Nat) :
    Later (c :: tail) pos (numStop U isF c tail pos).1 (numStop U isF c tail pos).2 := by
  induction tail generalizing c pos isF with
  | nil => exact Later.refl _ _
  | cons p tl ih =>
    rw [numStop]
    split
    · exact (Later.tail _ _ _).trans (ih isF p (pos + 1))
    · split
      · split
        · exact (Later.tail _ _ _).trans (ih true p (pos + 1))
        · exact Later.tail _ _ _
      · exact Later.refl _ _

theorem stringStop_later (s : Str) (pos : Nat) : Later s pos (stringStop s pos).1 (stringStop s pos).2 := by
  induction s generalizing pos with
  | nil => exact Later.refl _ _
  | cons c tl ih =>
    rw [stringStop]
    split
    · exact (Later.tail _ _ _).trans (ih (pos + 1))
    · exact Later.refl _ _

theorem wordStop_later (U : Uni) (c : Char) (tail : Str) (pos : Nat) :
    Later (c :: tail) pos (wordStop U c tail pos).1.1 (wordStop U c tail pos).1.2 := by
  obtain ⟨ds, _, tl1, h2, h3, _⟩ := idLoop_sound U [c] tail pos
  unfold wordStop
  rw [h3]
  dsimp only
  split
  · rename_i hd
    cases tl1 with
    | nil => simp at hd
    | cons x tl =>
      simp only [List.head?_cons, Option.some.injEq] at hd
      subst hd
      cases tl with
      | nil => exact ⟨c :: ds ++ ['.'], by simp [h2], by simp; omega⟩
      | cons d tl =>
        dsimp only [List.tail_cons]
        have hl : Later (c :: tail) pos (d :: tl) (pos + ds.length + 2) :=
          ⟨c :: ds ++ ['.'], by simp [h2], by simp; omega⟩
        split
        · exact hl.trans (idStop_later U d tl _)
        · exact hl
  · exact idStop_later U c tail pos

theorem lexStop_later (U : Uni) (c : Char) (tail : Str) (pos : Nat) (e : PyExc) :
    Later (c :: tail) pos (lexStop U c tail pos e).1.1 (lexStop U c tail pos e).1.2 := by
  unfold lexStop
  split
  · exact Later.refl _ _
  split
  · exact (Later.tail _ _ _).trans (stringStop_later tail (pos + 1))
  split
  · exact numStop_later U false c tail pos
  split
  · exact wordStop_later U c tail pos
  · exact Later.refl _ _

/-! ### One call of `next` -/

/-- What one call of `next` does to a lexer: nothing that was read before changes; a token is appended exactly if one is
returned; an attribute token is appended to the attribute list as well. -/
theorem next_step (U : Uni) (hU : U.Lawful) (l : LexerObj) :
    (l.next U).1.policy = l.policy ∧
    (∀ t, (l.next U).2 = .ok (some t) →
      (l.next U).1.tokeList = l.tokeList ++ [t] ∧ (l.next U).1.current = .ok t ∧
      (l.next U).1.attList = l.attList ++ (if IsAtt t.type then [t] else [])) ∧
    ((l.next U).2 = .ok none → (l.next U).1.tokeList = l.tokeList ∧ (l.next U).1.attList = l.attList ∧
      ∃ t, l.current = .ok t ∧ t.type = .«end») ∧
    (∀ e, (l.next U).2 = .error e → (l.next U).1.tokeList = l.tokeList ∧ (l.next U).1.attList = l.attList) := by
  unfold LexerObj.next
  cases hn : l.st.next U with
  | error e =>
    rcases hs : skipSpace U l.st.rest l.st.pos with ⟨r, p⟩
    cases r with
    | nil => exact ⟨rfl, fun t h => (by cases h), fun h => (by cases h), fun _ _ => ⟨rfl, rfl⟩⟩
    | cons c tail => exact ⟨rfl, fun t h => (by cases h), fun h => (by cases h), fun _ _ => ⟨rfl, rfl⟩⟩
  | ok q =>
    obtain ⟨s, t⟩ := q
    refine ⟨rfl, ?_, ?_, fun e h => (by cases h)⟩
    all_goals
      unfold LexState.next at hn
      rcases hs : skipSpace U l.st.rest l.st.pos with ⟨r, p⟩
      rw [hs] at hn
    · intro t' h
      simp only [Except.ok.injEq] at h
      subst h
      cases r with
      | nil =>
        dsimp only at hn
        split at hn
        · simp only [Except.ok.injEq, Prod.mk.injEq, Option.some.injEq] at hn
          obtain ⟨rfl, rfl⟩ := hn
          exact ⟨rfl, by simp [LexerObj.current], by
            simp [LexerObj.attList, show ¬ IsAtt TokenType.«end» by simp [IsAtt, attClasses]]⟩
        · simp at hn
      | cons c tail =>
        dsimp only at hn
        cases ho : lexOne U c tail p with
        | error e => rw [ho] at hn; simp [bind, Except.bind] at hn
        | ok q =>
          obtain ⟨u, isAtt, tail', pos'⟩ := q
          obtain ⟨_, _, h3, _⟩ := lexOne_sound U hU _ _ _ _ _ _ _ ho
          rw [ho] at hn
          simp only [bind, Except.bind, pure, Except.pure, Except.ok.injEq, Prod.mk.injEq, Option.some.injEq] at hn
          obtain ⟨rfl, rfl⟩ := hn
          refine ⟨rfl, by simp [LexerObj.current], ?_⟩
          by_cases ha : IsAtt u.type
          · simp [LexerObj.attList, ha, h3.mpr ha]
          · have : isAtt = false := by cases isAtt; rfl; exact absurd (h3.mp rfl) ha
            simp [LexerObj.attList, ha, this]
    · intro h
      simp only [Except.ok.injEq] at h
      subst h
      cases r with
      | nil =>
        dsimp only at hn
        split at hn
        · simp at hn
        · rename_i hend
          simp only [Except.ok.injEq, Prod.mk.injEq, and_true] at hn
          subst hn
          refine ⟨rfl, rfl, ?_⟩
          simp only [ne_eq, Decidable.not_not] at hend
          unfold LexerObj.current
          cases hl : l.st.toks.getLast? with
          | none => rw [hl] at hend; simp at hend
          | some t => rw [hl] at hend; simp only [Option.map_some, Option.some.injEq] at hend; exact ⟨t, rfl, hend⟩
      | cons c tail =>
        dsimp only at hn
        cases ho : lexOne U c tail p with
        | error e => rw [ho] at hn; simp [bind, Except.bind] at hn
        | ok q => rw [ho] at hn; simp [bind, Except.bind, pure, Except.pure] at hn

/-- The lexer stands somewhere in its text (or behind the end), and no call goes back, even if it raises. -/
theorem next_later (U : Uni) (hU : U.Lawful) (l : LexerObj) :
    l.st.pos ≤ (l.next U).1.st.pos ∧
    (l.st.rest = l.text.drop l.st.pos → (l.next U).1.st.rest = (l.next U).1.text.drop (l.next U).1.st.pos) := by
  have key : ∀ r p, Later l.st.rest l.st.pos r p → l.st.pos ≤ p ∧ (l.st.rest = l.text.drop l.st.pos → r = l.text.drop p) := by
    rintro r p ⟨pre, h1, rfl⟩
    refine ⟨by omega, fun h => ?_⟩
    rw [← List.drop_drop, ← h, h1]
    simp
  unfold LexerObj.next
  rcases hs : skipSpace U l.st.rest l.st.pos with ⟨r, p⟩
  obtain ⟨ws, w1, _, w3, _⟩ := skipSpace_sound U _ _ _ _ hs
  have hws : Later l.st.rest l.st.pos r p := ⟨ws, w1, w3⟩
  cases hn : l.st.next U with
  | error e =>
    cases r with
    | nil => exact key _ _ hws
    | cons c tail => exact key _ _ (hws.trans (lexStop_later U c tail p e))
  | ok q =>
    obtain ⟨s, t⟩ := q
    unfold LexState.next at hn
    rw [hs] at hn
    cases r with
    | nil =>
      dsimp only at hn
      split at hn
      · simp only [Except.ok.injEq, Prod.mk.injEq] at hn
        obtain ⟨rfl, _⟩ := hn
        have := key _ _ hws
        refine ⟨by dsimp only; omega, fun h => ?_⟩
        have h2 := this.2 h
        dsimp only
        rw [← List.drop_drop, ← h2]
        rfl
      · simp only [Except.ok.injEq, Prod.mk.injEq] at hn
        obtain ⟨rfl, _⟩ := hn
        exact key _ _ hws
    | cons c tail =>
      dsimp only at hn
      cases ho : lexOne U c tail p with
      | error e => rw [ho] at hn; simp [bind, Except.bind] at hn
      | ok q =>
        obtain ⟨u, isAtt, tail', pos'⟩ := q
        obtain ⟨_, _, _, w, e1, _, _, _, e5⟩ := lexOne_sound U hU _ _ _ _ _ _ _ ho
        rw [ho] at hn
        simp only [bind, Except.bind, pure, Except.pure, Except.ok.injEq, Prod.mk.injEq] at hn
        obtain ⟨rfl, _⟩ := hn
        exact key _ _ (hws.trans ⟨w, e1, e5⟩)

/-! ### Any number of calls -/

/-- C109: after any calls of `next`, whatever they gave or raised, the lexer still has the text it was made for, the tokens it had
before at the beginning of its list, START first, and it stands in that text. -/
theorem nexts_keep (U : Uni) (hU : U.Lawful) (n : Nat) (l : LexerObj) :
    (l.nexts U n).policy = l.policy ∧ l.tokeList <+: (l.nexts U n).tokeList ∧ l.attList <+: (l.nexts U n).attList ∧
    l.st.pos ≤ (l.nexts U n).st.pos ∧
    (l.st.rest = l.text.drop l.st.pos → (l.nexts U n).st.rest = (l.nexts U n).text.drop (l.nexts U n).st.pos) := by
  induction n generalizing l with
  | zero => exact ⟨rfl, List.prefix_rfl, List.prefix_rfl, Nat.le_refl _, id⟩
  | succ n ih =>
    obtain ⟨h1, h2, h3, h4, h5⟩ := ih (l.next U).1
    obtain ⟨s1, s2, s3, s4⟩ := next_step U hU l
    obtain ⟨p1, p2⟩ := next_later U hU l
    have hpre : l.tokeList <+: (l.next U).1.tokeList ∧ l.attList <+: (l.next U).1.attList := by
      rcases hr : (l.next U).2 with e | _ | t
      · rw [(s4 e hr).1, (s4 e hr).2]; exact ⟨List.prefix_rfl, List.prefix_rfl⟩
      · rw [(s3 hr).1, (s3 hr).2.1]; exact ⟨List.prefix_rfl, List.prefix_rfl⟩
      · rw [(s2 t hr).1, (s2 t hr).2.2]; exact ⟨List.prefix_append _ _, List.prefix_append _ _⟩
    exact ⟨h1.trans s1, hpre.1.trans h2, hpre.2.trans h3, Nat.le_trans p1 h4, fun h => h5 (p2 h)⟩

/-- C109, from a new lexer on. -/
theorem new_keep (U : Uni) (hU : U.Lawful) (n : Nat) (text : Str) :
    ((LexerObj.new text).nexts U n).policy = text ∧
    (∃ ts, ((LexerObj.new text).nexts U n).tokeList = ⟨.start, 0, .none⟩ :: ts) ∧
    ((LexerObj.new text).nexts U n).st.rest = text.drop ((LexerObj.new text).nexts U n).st.pos := by
  obtain ⟨h1, ⟨ts, h2⟩, _, _, h5⟩ := nexts_keep U hU n (LexerObj.new text)
  refine ⟨h1, ⟨ts, h2.symm⟩, ?_⟩
  have := h5 rfl
  rw [this]
  exact congrArg (List.drop _) h1

/-- C109: once END has been given, `next` gives `None` for ever and changes nothing that can be seen. -/
theorem ended_stays (U : Uni) (n : Nat) (l : LexerObj) (hr : l.st.rest = []) (t : Token) (hc : l.current = .ok t)
    (ht : t.type = .«end») : l.nexts U n = l ∧ (l.next U).2 = .ok none := by
  have h : l.next U = (l, .ok none) := by
    have hl : l.st.toks.getLast? = some t := by
      unfold LexerObj.current at hc
      cases hg : l.st.toks.getLast? with
      | none => rw [hg] at hc; cases hc
      | some u => rw [hg] at hc; cases hc; rfl
    have : l.st.next U = .ok (l.st, none) := by
      unfold LexState.next
      rw [hr, skipSpace]
      dsimp only
      rw [if_neg (by rw [hl]; simp [ht]), ← hr]
    unfold LexerObj.next
    rw [this]
  refine ⟨?_, by rw [h]⟩
  induction n with
  | zero => rfl
  | succ n ih => rw [LexerObj.nexts, h]; exact ih

/-- C109: `token_string()` is the names of the token types with single spaces between them. -/
theorem tokenString_eq (l : LexerObj) : l.tokenString = " ".toList.intercalate (l.tokeList.map fun t => t.type.name) := by
  have go : ∀ (ts : List Token) (acc : Str), ts.foldl (fun s t => s ++ (t.type.name ++ [' '])) acc =
      acc ++ (ts.map fun t => t.type.name ++ [' ']).flatten := by
    intro ts
    induction ts with
    | nil => simp
    | cons t ts ih => intro acc; rw [List.foldl_cons, ih]; simp
  have join : ∀ ts : List Str, ((ts.map fun t => t ++ [' ']).flatten).dropLast = " ".toList.intercalate ts := by
    intro ts
    induction ts with
    | nil => rfl
    | cons a ts ih =>
      cases ts with
      | nil => simp [List.intercalate, List.dropLast_append]
      | cons b ts =>
        have e : " ".toList.intercalate (a :: b :: ts) = a ++ [' '] ++ " ".toList.intercalate (b :: ts) := by
          simp [List.intercalate]
        rw [e, ← ih, List.map_cons, List.flatten_cons, List.dropLast_append_of_ne_nil (by simp)]
  unfold LexerObj.tokenString LexerObj.tokeList
  rw [go, List.nil_append, ← join, List.map_map]
  rfl

/-! ### Exceptions -/

theorem next_error (U : Uni) (l : LexerObj) (e : LexErr) (h : (l.next U).2 = .error e) :
    ∃ ws c tail, l.st.rest = ws ++ c :: tail ∧ (∀ x ∈ ws, U.isSpace x = true) ∧ U.isSpace c = false ∧
      lexOne U c tail (l.st.pos + ws.length) = .error e.exc ∧
      lexStop U c tail (l.st.pos + ws.length) e.exc = (((l.next U).1.st.rest, (l.next U).1.st.pos), e.token) ∧
      (l.next U).1 = ⟨l.text, (l.next U).1.st.rest, (l.next U).1.st.pos, l.st.toks, l.st.atts⟩ := by
  unfold LexerObj.next at h ⊢
  cases hn : l.st.next U with
  | ok q => rw [hn] at h; cases h
  | error x =>
    rw [hn] at h
    unfold LexState.next at hn
    rcases hs : skipSpace U l.st.rest l.st.pos with ⟨r, p⟩
    obtain ⟨ws, w1, w2, w3, w4⟩ := skipSpace_sound U _ _ _ _ hs
    rw [hs] at hn h
    cases r with
    | nil =>
      dsimp only at hn
      split at hn <;> cases hn
    | cons c tail =>
      dsimp only at hn h ⊢
      cases ho : lexOne U c tail p with
      | ok q => rw [ho] at hn; simp [bind, Except.bind, pure, Except.pure] at hn
      | error y =>
        rw [ho] at hn
        simp only [bind, Except.bind, Except.error.injEq] at hn
        subst hn
        simp only [Except.error.injEq] at h
        subst h
        subst w3
        exact ⟨ws, c, tail, w1, w2, w4 c rfl, ho, rfl, rfl⟩

theorem lexOne_bang (U : Uni) (tail : Str) (pos : Nat) : lexOne U '!' tail pos =
    if tail.head? = some '=' then .ok (⟨.op, pos, .str "!=".toList⟩, false, tail.tail, pos + 1)
    else .error (.lexerError (pos + 1)) := rfl

theorem lexOne_quote (U : Uni) (tail : Str) (pos : Nat) : lexOne U '"' tail pos =
    (lexString tail pos).map (fun r => (r.1, false, r.2.1, r.2.2)) := by
  have : lexOne U '"' tail pos = (lexString tail pos).bind (fun r => .ok (r.1, false, r.2.1, r.2.2)) := rfl
  rw [this]
  cases lexString tail pos <;> rfl

/-- C109: the `token` of a LexerError. It starts at the first character after white space; a character that begins no token has
none. -/
theorem error_token (U : Uni) (hU : U.Lawful) (l : LexerObj) (e : LexErr) (h : (l.next U).2 = .error e) :
    ∃ ws c tail, l.st.rest = ws ++ c :: tail ∧ (∀ x ∈ ws, U.isSpace x = true) ∧ U.isSpace c = false ∧
    (e.token = none → e.exc = .lexerError (l.st.pos + ws.length : Nat) ∨ e.exc = .valueError ∨ e.exc = .attributeError) ∧
    (∀ t, e.token = some t → t.pos = (l.st.pos + ws.length : Nat) ∧ (∃ p : Nat, e.exc = .lexerError p ∧ l.st.pos + ws.length ≤ p) ∧
      (c = '!' ∧ t.type = .op ∧ t.value = .str "!=".toList ∨ c = '"' ∧ t.type = .string ∧ t.value = .none ∨
       t.type = .float ∧ t.value = .none ∧ (U.isDigit c = true ∨ c = '-') ∨
       U.isAlpha c = true ∧ ∃ w r, c :: tail = w ++ r ∧ w ≠ [] ∧ (∀ x ∈ w.tail, IdChar U x) ∧
         (t.type = .unkId ∧ t.value = .str w ∨ t.type = .unkAtt ∧ r.head? = some '.' ∧ t.value = .str (U.lower w)))) := by
  obtain ⟨ws, c, tail, h1, h2, h3, h4, h5, _⟩ := next_error U l e h
  refine ⟨ws, c, tail, h1, h2, h3, ?_⟩
  have htok : (lexStop U c tail (l.st.pos + ws.length) e.exc).2 = e.token := by rw [h5]
  generalize l.st.pos + ws.length = pos at h4 htok ⊢
  clear h5
  have hf := lexOne_error U hU c tail pos e.exc h4
  unfold lexStop at htok
  by_cases hb : c = '!'
  · rw [if_pos hb] at htok
    rw [← htok]
    refine ⟨fun h => (by cases h), fun t ht => ?_⟩
    cases ht
    subst hb
    rw [lexOne_bang] at h4
    split at h4
    · cases h4
    · exact ⟨rfl, ⟨pos + 1, (Except.error.inj h4).symm, by omega⟩, Or.inl ⟨rfl, rfl, rfl⟩⟩
  rw [if_neg hb] at htok
  by_cases hq : c = '"'
  · rw [if_pos hq] at htok
    rw [← htok]
    refine ⟨fun h => (by cases h), fun t ht => ?_⟩
    cases ht
    subst hq
    rw [lexOne_quote] at h4
    unfold lexString at h4
    cases hs : stringLoop pos [] tail (pos + 1) with
    | ok r => rw [hs] at h4; cases h4
    | error x =>
      rw [hs] at h4
      simp only [bind, Except.bind, Except.map, Except.error.injEq] at h4
      subst h4
      obtain ⟨p, p1, p2, _⟩ := stringLoop_error pos [] tail (pos + 1) _ (by omega) hs
      exact ⟨rfl, ⟨p, p1, p2⟩, Or.inr (Or.inl ⟨rfl, rfl, rfl⟩)⟩
  rw [if_neg hq] at htok
  by_cases hd : (U.isDigit c || (c == '-' && headIs U.isDigit tail)) = true
  · rw [if_pos hd] at htok
    rw [lexOne_number_eq U hU c tail pos hd] at h4
    rw [← htok]
    by_cases hv : e.exc = .valueError
    · rw [if_pos hv]
      exact ⟨fun _ => Or.inr (Or.inl hv), fun t ht => (by cases ht)⟩
    · rw [if_neg hv]
      refine ⟨fun h => (by cases h), fun t ht => ?_⟩
      cases ht
      refine ⟨rfl, ?_, Or.inr (Or.inr (Or.inl ⟨rfl, rfl, ?_⟩))⟩
      · unfold lexNumber at h4
        cases hn : numLoop U [c] false tail pos with
        | error x =>
          rw [hn] at h4
          simp only [bind, Except.bind, Except.map, Except.error.injEq] at h4
          subst h4
          obtain ⟨p, p1, p2, _⟩ := numLoop_error U _ _ _ _ _ hn
          exact ⟨p, p1, p2⟩
        | ok r =>
          obtain ⟨num, f, tl, ps⟩ := r
          rw [hn] at h4
          simp only [bind, Except.bind] at h4
          split at h4
          · cases hi : pyInt U num with
            | ok i => rw [hi] at h4; cases h4
            | error x =>
              rw [hi] at h4
              simp only [Except.map, Except.error.injEq] at h4
              exact absurd (h4 ▸ (pyInt_error U num x hi).1) hv
          · cases hi : pyFloat U num with
            | ok i => rw [hi] at h4; cases h4
            | error x =>
              rw [hi] at h4
              simp only [Except.map, Except.error.injEq] at h4
              exact absurd (h4 ▸ (pyFloat_error U num x hi).1) hv
      · simp only [Bool.or_eq_true, Bool.and_eq_true, beq_iff_eq] at hd
        exact hd.imp id And.left
  rw [if_neg hd] at htok
  by_cases ha : U.isAlpha c = true
  · rw [if_pos ha] at htok
    rw [lexOne_word_eq U hU c tail pos ha] at h4
    obtain ⟨ds, i1, tl1, i2, i3, i4⟩ := idLoop_sound U [c] tail pos
    unfold wordStop at htok
    unfold lexWord at h4
    rw [i3] at htok h4
    dsimp only at htok h4
    have hw : c :: tail = ([c] ++ ds) ++ tl1 := by rw [i2]; simp
    by_cases hdot : tl1.head? = some '.'
    · rw [if_pos hdot] at htok h4
      cases htl : tl1.tail with
      | nil =>
        rw [htl] at htok h4
        rw [← htok]
        exact ⟨fun _ => Or.inr (Or.inr (Except.error.inj h4).symm), fun t ht => (by cases ht)⟩
      | cons d tl =>
        rw [htl] at htok h4
        dsimp only at htok h4
        have ht : e.token = some ⟨.unkAtt, pos, .str (U.lower ([c] ++ ds))⟩ := by
          rw [← htok]; split <;> rfl
        rw [ht]
        refine ⟨fun h => (by cases h), fun t ht => ?_⟩
        cases ht
        refine ⟨rfl, ?_, Or.inr (Or.inr (Or.inr ⟨ha, [c] ++ ds, tl1, hw, by simp, by simpa using i1, Or.inr ⟨rfl, hdot, rfl⟩⟩))⟩
        split at h4
        · split at h4
          · cases h4
          · exact ⟨pos, (Except.error.inj h4).symm, Nat.le_refl _⟩
        · refine ⟨pos + ds.length + 2, ?_, by omega⟩
          rw [← Except.error.inj h4]
          congr 1
    · rw [if_neg hdot] at htok h4
      rw [← htok]
      refine ⟨fun h => (by cases h), fun t ht => ?_⟩
      cases ht
      refine ⟨rfl, ⟨pos, ?_, Nat.le_refl _⟩,
        Or.inr (Or.inr (Or.inr ⟨ha, [c] ++ ds, tl1, hw, by simp, by simpa using i1, Or.inl ⟨rfl, rfl⟩⟩))⟩
      repeat' split at h4
      all_goals first | (cases h4; done) | exact (Except.error.inj h4).symm
  · rw [if_neg ha] at htok
    rw [← htok]
    refine ⟨fun _ => Or.inl ?_, fun t ht => (by cases ht)⟩
    unfold lexOne at h4
    rw [if_neg hb, if_neg hq, if_neg hd, if_neg ha] at h4
    repeat' split at h4
    all_goals first | (cases h4; done) | exact (Except.error.inj h4).symm

/-! ### `tokenize` -/

theorem fuel_agrees (U : Uni) (n : Nat) (l : LexerObj) :
    (∀ s, l.st.tokenizeFuel U n = .ok s → l.tokenizeFuel U n = (⟨l.text, s⟩, .ok ())) ∧
    (∀ e, l.st.tokenizeFuel U n = .error e → ∃ l' t, l.tokenizeFuel U n = (l', .error ⟨e, t⟩)) := by
  induction n generalizing l with
  | zero => exact ⟨fun s h => (by cases h), fun e h => (by cases h; exact ⟨l, none, rfl⟩)⟩
  | succ n ih =>
    rw [LexState.tokenizeFuel, LexerObj.tokenizeFuel]
    cases hx : l.st.next U with
    | error x =>
      refine ⟨fun s h => (by cases h), fun e h => ?_⟩
      cases h
      have : ∃ l' t, l.next U = (l', .error ⟨x, t⟩) := by
        unfold LexerObj.next
        rw [hx]
        rcases skipSpace U l.st.rest l.st.pos with ⟨_ | ⟨c, tail⟩, p⟩
        · exact ⟨_, _, rfl⟩
        · exact ⟨_, _, rfl⟩
      obtain ⟨l', t, ht⟩ := this
      exact ⟨l', t, by rw [ht]⟩
    | ok q =>
      obtain ⟨s', t⟩ := q
      have hn : l.next U = (⟨l.text, s'⟩, .ok t) := by unfold LexerObj.next; rw [hx]
      rw [hn]
      cases t with
      | none => exact ⟨fun s h => (by cases h; rfl), fun e h => (by cases h)⟩
      | some t => exact ih ⟨l.text, s'⟩

/-- C109: on a new lexer `tokenize` is what the other theorems about tokens are about: it succeeds with the same tokens and
fails with the same exception. -/
theorem tokenize_new (U : Uni) (text : Str) :
    (∀ toks, lexTokens U text = .ok toks → ∃ l, (LexerObj.new text).tokenize U = (l, .ok ()) ∧ l.tokeList = toks) ∧
    (∀ e, lexTokens U text = .error e → ∃ l t, (LexerObj.new text).tokenize U = (l, .error ⟨e, t⟩)) := by
  obtain ⟨h1, h2⟩ := fuel_agrees U ((LexState.init text).rest.length + 2) (LexerObj.new text)
  unfold lexTokens LexState.tokenize LexerObj.tokenize
  cases hx : (LexState.init text).tokenizeFuel U ((LexState.init text).rest.length + 2) with
  | ok s =>
    refine ⟨fun toks h => ?_, fun e h => (by cases h)⟩
    cases h
    exact ⟨_, h1 s hx, rfl⟩
  | error x =>
    refine ⟨fun toks h => (by cases h), fun e h => ?_⟩
    cases h
    exact h2 _ hx

/-- `Parser(Lexer(text)).parse()` through the object. -/
theorem parse_new (U : Uni) (k : Nat) (text : Str) : (LexerObj.new text).parse U k = parseText U k text := by
  obtain ⟨h1, h2⟩ := tokenize_new U text
  unfold LexerObj.parse parseText
  cases hx : lexTokens U text with
  | ok toks => obtain ⟨l, e1, e2⟩ := h1 toks hx; rw [e1]; dsimp only; rw [e2]; rfl
  | error e => obtain ⟨l, t, e1⟩ := h2 e hx; rw [e1]; rfl

/-! ### After an exception -/

/-- C109 (partial: only for characters that begin no token and for `!`): the lexer keeps raising the same exception, and so does
`Parser(lexer)`. -/
theorem stuck_partial (U : Uni) (hU : U.Lawful) (k n : Nat) (l : LexerObj) (e : LexErr) (h : (l.next U).2 = .error e)
    (he : (e.token = none ∧ ∃ p, e.exc = .lexerError p) ∨ ∃ t, e.token = some t ∧ t.type = .op) :
    (l.nexts U (n + 1)).next U = (l.nexts U (n + 1), .error e) ∧ (l.nexts U (n + 1)).parse U k = .error e.exc := by
  obtain ⟨ws, c, tail, h1, h2, h3, h4, h5, h6⟩ := next_error U l e h
  have hstop : lexStop U c tail (l.st.pos + ws.length) e.exc = ((c :: tail, l.st.pos + ws.length), e.token) := by
    have htok : (lexStop U c tail (l.st.pos + ws.length) e.exc).2 = e.token := by rw [h5]
    generalize l.st.pos + ws.length = pos at h4 htok ⊢
    clear h5 h6
    suffices hs : (lexStop U c tail pos e.exc).1 = (c :: tail, pos) from Prod.ext hs htok
    unfold lexStop at htok ⊢
    by_cases hb : c = '!'
    · rw [if_pos hb]
    rw [if_neg hb] at htok ⊢
    by_cases hq : c = '"'
    · rw [if_pos hq] at htok
      rcases he with ⟨he, _⟩ | ⟨t, he, ht⟩
      · rw [he] at htok; cases htok
      · rw [he] at htok; cases htok; cases ht
    rw [if_neg hq] at htok ⊢
    by_cases hd : (U.isDigit c || (c == '-' && headIs U.isDigit tail)) = true
    · rw [if_pos hd] at htok
      rcases he with ⟨he, p, hp⟩ | ⟨t, he, ht⟩
      · rw [he, hp] at htok; cases htok
      · rw [he] at htok
        dsimp only at htok
        split at htok
        · cases htok
        · cases htok; cases ht
    rw [if_neg hd] at htok ⊢
    by_cases ha : U.isAlpha c = true
    · rw [if_pos ha] at htok
      rw [lexOne_word_eq U hU c tail pos ha] at h4
      unfold wordStop at htok
      unfold lexWord at h4
      rcases hid : idLoop U [c] tail pos with ⟨pre, tail1, pos1⟩
      rw [hid] at htok h4
      dsimp only at htok h4
      by_cases hdot : tail1.head? = some '.'
      · rw [if_pos hdot] at htok h4
        cases htl : tail1.tail with
        | nil =>
          rw [htl] at htok h4
          rcases he with ⟨he, p, hp⟩ | ⟨t, he, ht⟩
          · rw [hp] at h4; cases h4
          · rw [he] at htok; cases htok
        | cons d tl =>
          rw [htl] at htok
          dsimp only at htok
          have ht : e.token = some ⟨.unkAtt, pos, .str (U.lower pre)⟩ := by rw [← htok]; split <;> rfl
          rcases he with ⟨he, _⟩ | ⟨t, he, hty⟩
          · rw [he] at ht; cases ht
          · rw [he] at ht; cases ht; cases hty
      · rw [if_neg hdot] at htok
        rcases he with ⟨he, _⟩ | ⟨t, he, hty⟩
        · rw [he] at htok; cases htok
        · rw [he] at htok; cases htok; cases hty
    · rw [if_neg ha]
  have hl : l.next U = (⟨l.text, c :: tail, l.st.pos + ws.length, l.st.toks, l.st.atts⟩, .error e) := by
    rw [h5] at hstop
    simp only [Prod.mk.injEq, and_true] at hstop
    rw [hstop.1, hstop.2] at h6
    exact Prod.ext h6 h
  have hfix : LexerObj.next U ⟨l.text, c :: tail, l.st.pos + ws.length, l.st.toks, l.st.atts⟩ =
      (⟨l.text, c :: tail, l.st.pos + ws.length, l.st.toks, l.st.atts⟩, .error e) := by
    have hsk : skipSpace U (c :: tail) (l.st.pos + ws.length) = (c :: tail, l.st.pos + ws.length) := by
      rw [skipSpace, if_neg (by rw [h3]; simp)]
    unfold LexerObj.next LexState.next
    dsimp only
    rw [hsk]
    dsimp only
    rw [h4]
    dsimp only [bind, Except.bind]
    rw [hstop]
  have hall : l.nexts U (n + 1) = ⟨l.text, c :: tail, l.st.pos + ws.length, l.st.toks, l.st.atts⟩ := by
    rw [LexerObj.nexts, hl]
    clear hl
    induction n with
    | zero => rfl
    | succ n ih => rw [LexerObj.nexts, hfix]; exact ih
  rw [hall]
  refine ⟨hfix, ?_⟩
  unfold LexerObj.parse LexerObj.tokenize
  rw [LexerObj.tokenizeFuel, hfix]

/-- C109: after the exception for a string without an end the lexer is at the end of the text: the next call gives END. -/
theorem open_string (U : Uni) (hU : U.Lawful) (l : LexerObj) (e : LexErr) (t : Token) (h : (l.next U).2 = .error e)
    (ht : e.token = some t) (hty : t.type = .string) (hp : e.exc = .lexerError t.pos)
    (hend : ∀ u, l.current = .ok u → u.type ≠ .«end») :
    ∃ p : Nat, ((l.next U).1.next U).2 = .ok (some ⟨.«end», p, .none⟩) := by
  obtain ⟨ws, c, tail, h1, h2, h3, h4, h5, h6⟩ := next_error U l e h
  obtain ⟨ws', c', tail', k1, k2, k3, k4, k5⟩ := error_token U hU l e h
  obtain ⟨k6, _, k7⟩ := k5 t ht
  have hcc : ws' = ws ∧ c' :: tail' = c :: tail := by
    have key : ∀ (a b : Str) (x y : Char) (r q : Str), (∀ z ∈ a, U.isSpace z = true) → (∀ z ∈ b, U.isSpace z = true) →
        U.isSpace x = false → U.isSpace y = false → a ++ x :: r = b ++ y :: q → a = b ∧ x :: r = y :: q := by
      intro a
      induction a with
      | nil =>
        intro b x y r q _ hb hx _ h
        cases b with
        | nil => exact ⟨rfl, h⟩
        | cons z b =>
          simp only [List.nil_append, List.cons_append, List.cons.injEq] at h
          have := hb z (by simp)
          rw [← h.1, hx] at this
          cases this
      | cons z a ih =>
        intro b x y r q ha hb hx hy h
        cases b with
        | nil =>
          simp only [List.nil_append, List.cons_append, List.cons.injEq] at h
          have := ha z (by simp)
          rw [h.1, hy] at this
          cases this
        | cons w b =>
          simp only [List.cons_append, List.cons.injEq] at h
          obtain ⟨e1, e2⟩ := ih b x y r q (fun z hz => ha z (by simp [hz])) (fun z hz => hb z (by simp [hz])) hx hy h.2
          exact ⟨by rw [h.1, e1], e2⟩
    exact key _ _ _ _ _ _ k2 h2 k3 h3 (k1.symm.trans h1)
  obtain ⟨rfl, hcc⟩ := hcc
  simp only [List.cons.injEq] at hcc
  obtain ⟨rfl, rfl⟩ := hcc
  have hc : c' = '"' := by
    rcases k7 with ⟨_, k, _⟩ | ⟨k, _⟩ | ⟨k, _⟩ | ⟨_, w, r, _, _, _, ⟨k, _⟩ | ⟨k, _⟩⟩
    · rw [hty] at k; cases k
    · exact k
    all_goals rw [hty] at k; cases k
  subst hc
  have hrest : (l.next U).1.st.rest = [] := by
    have hs1 : (stringStop tail' (l.st.pos + ws'.length + 1)).1 = (l.next U).1.st.rest := by
      have : lexStop U '"' tail' (l.st.pos + ws'.length) e.exc =
        (stringStop tail' (l.st.pos + ws'.length + 1), some ⟨.string, (l.st.pos + ws'.length : Nat), .none⟩) := rfl
      rw [this] at h5
      rw [(Prod.mk.inj h5).1]
    rw [← hs1]
    rw [lexOne_quote, hp, k6] at h4
    unfold lexString at h4
    have key : ∀ (s acc : Str) (p start : Nat), start < p → stringLoop start acc s p = .error (.lexerError start) →
        (stringStop s p).1 = [] := by
      intro s
      induction s with
      | nil => intros; rfl
      | cons x s ih =>
        intro acc p start hlt hx
        rw [stringLoop] at hx
        split at hx
        · cases hx
        split at hx
        · rename_i hsc
          rw [stringStop, if_pos hsc]
          exact ih _ _ start (by omega) hx
        · simp only [Except.error.injEq, PyExc.lexerError.injEq, Int.natCast_inj] at hx
          omega
    cases hs : stringLoop (l.st.pos + ws'.length) [] tail' (l.st.pos + ws'.length + 1) with
    | ok r => rw [hs] at h4; cases h4
    | error x =>
      rw [hs] at h4
      simp only [bind, Except.bind, Except.map, Except.error.injEq] at h4
      subst h4
      exact key _ _ _ _ (by omega) hs
  have hst : (l.next U).1.st = ⟨[], (l.next U).1.st.pos, l.st.toks, l.st.atts⟩ := by
    rw [h6]
    dsimp only
    rw [hrest]
  refine ⟨(l.next U).1.st.pos, ?_⟩
  unfold LexerObj.next
  have : LexState.next U (l.next U).1.st = .ok (⟨[], (l.next U).1.st.pos + 1,
      l.st.toks ++ [⟨.«end», ((l.next U).1.st.pos : Nat), .none⟩], l.st.atts⟩,
      some ⟨.«end», ((l.next U).1.st.pos : Nat), .none⟩) := by
    conv => lhs; rw [hst]
    unfold LexState.next
    rw [skipSpace]
    dsimp only
    rw [if_pos]
    intro hx
    have hcur : l.current = match l.st.toks.getLast? with
      | some t => .ok t
      | none => .error .indexError := rfl
    cases hg : l.st.toks.getLast? with
    | none => rw [hg] at hx; cases hx
    | some u =>
      rw [hg] at hx hcur
      simp only [Option.map_some, Option.some.injEq] at hx
      exact hend u hcur hx
  unfold LexerObj.next at this
  rw [this]

/-- C109 in full is false: a lexer that raised can be handed to `Parser`, which reads on behind the fault. Of `user.admin "x` the
tree of `user.admin` is made, of `user.age > x5` the one of `user.age > 5`. -/
theorem parse_after_error :
    ((LexerObj.new "user.admin \"x".toList).tokenize asciiUni).2 =
      .error ⟨.lexerError 11, some ⟨.string, 11, .none⟩⟩ ∧
    ((LexerObj.new "user.admin \"x".toList).tokenize asciiUni).1.parse asciiUni 0 =
      parseText asciiUni 0 "user.admin".toList ∧
    parseText asciiUni 0 "user.admin \"x".toList = .error (.lexerError 11) ∧
    ((LexerObj.new "user.age > x5".toList).tokenize asciiUni).2 =
      .error ⟨.lexerError 11, some ⟨.unkId, 11, .str "x5".toList⟩⟩ ∧
    ((LexerObj.new "user.age > x5".toList).tokenize asciiUni).1.parse asciiUni 0 =
      parseText asciiUni 0 "user.age >  5".toList := by
  refine ⟨?_, ?_, ?_, ?_, ?_⟩ <;> decide +kernel

/-- The hypotheses of `stuck_partial`, `error_token` and `open_string` are met. -/
example : (((LexerObj.new "user.a # 5".toList).nexts asciiUni 1).next asciiUni).2 = .error ⟨.lexerError 7, none⟩ ∧
    (((LexerObj.new "user.a # 5".toList).nexts asciiUni 2).next asciiUni).2 = .error ⟨.lexerError 7, none⟩ ∧
    (((LexerObj.new "user.a # 5".toList).nexts asciiUni 2)).tokenString = "START USR_ATT".toList ∧
    (((LexerObj.new "5 \"ab".toList).nexts asciiUni 1).next asciiUni).2 =
      .error ⟨.lexerError 2, some ⟨.string, 2, .none⟩⟩ ∧
    ((((LexerObj.new "5 \"ab".toList).nexts asciiUni 1).next asciiUni).1.next asciiUni).2 =
      .ok (some ⟨.«end», 5, .none⟩) ∧
    ((LexerObj.new "1.2.3".toList).next asciiUni).2 = .error ⟨.lexerError 3, some ⟨.float, 0, .none⟩⟩ ∧
    (((LexerObj.new "1.2.3".toList).next asciiUni).1.next asciiUni).2 =
      .ok (some ⟨.float, 2, .flt (.fin (23 / 10))⟩) := by
  refine ⟨?_, ?_, ?_, ?_, ?_, ?_, ?_⟩ <;> decide +kernel

end Verif.Props
