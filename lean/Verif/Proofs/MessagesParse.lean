import Verif.Proofs.Messages
import Verif.Proofs.ParserRec
import Verif.Spec.ParseErrors
/-!
# The errors of the parser with message and token
-/

namespace Verif.Proofs
open Verif Verif.Spec

/-- A rule and the automaton at the same place: either the rule returns and the automaton goes on at `pl` with what is left, or both
fail with the same error. -/
def Follows {α : Type} (x : Except SyntaxErr (α × PState)) (w : Option SyntaxErr) (cont : List Token → Option SyntaxErr) : Prop :=
  match x with
  | .ok y => w = cont y.2.toks
  | .error r => r = .other .outOfFuel ∨ w = some r

/-! ### The complaints are the messages -/

theorem say_def (a : String) (x : Str) (b : String) : say a x b = a.toList ++ x ++ b.toList := rfl

theorem say_say (a : String) (x : Str) (b : String) (y : Str) (c : String) :
    say a x b ++ say "" y c = a.toList ++ x ++ b.toList ++ y ++ c.toList := by
  have e : "".toList = [] := rfl
  simp only [say_def, e, List.nil_append, List.append_assoc]

theorem refusal_exp (o : List Token) (t : Token) : refusal .exp o t = .parser (msgExp t) t.pos t "exp" := by
  unfold refusal complaint msgExp
  dsimp only
  rw [say_say]

theorem refusal_var (o : List Token) (t : Token) : refusal .var o t = .parser (msgVar t) t.pos t "var" := by
  unfold refusal complaint msgVar
  dsimp only
  rw [say_say]

theorem refusal_neg (o : List Token) (t : Token) : refusal .neg o t = .parser (msgAtt t) t.pos t "att_name" := by
  unfold refusal complaint msgAtt
  dsimp only
  rw [say_def]

theorem refusal_op (o : List Token) (t : Token) : refusal .op o t = .parser (msgOp t) t.pos t "exp" := by
  unfold refusal complaint msgOp
  dsimp only
  rw [say_def]

theorem refusal_first (l : Bool) (o : List Token) (t : Token) : refusal (.first l) o t = .parser (msgAtomic t) t.pos t "atomic" := by
  unfold refusal complaint msgAtomic
  dsimp only
  rw [say_def]

theorem refusal_item (l : Bool) (o : List Token) (t : Token) : refusal (.item l) o t = .parser (msgAtomic t) t.pos t "atomic" := by
  unfold refusal complaint msgAtomic
  dsimp only
  rw [say_def]

theorem refusal_more (l : Bool) (o : List Token) (t : Token) : refusal (.more l) o t = .parser (msgSet ',' t) t.pos t "set" := by
  have e : "Syntax error, expected ',' not ".toList = "Syntax error, expected '".toList ++ [','] ++ "' not ".toList := by
    decide +kernel
  unfold refusal complaint msgSet
  dsimp only
  rw [say_def, e]

theorem refusal_paren (l : Token) (o : List Token) (t : Token) :
    refusal .done (l :: o) t = .parser (msgParen l) t.pos t "exp" := by
  unfold refusal complaint msgParen
  dsimp only
  rw [say_def]

theorem refusal_end (t : Token) : refusal .done [] t = .parser msgEnd t.pos t "parse" := by
  unfold refusal complaint msgEnd
  dsimp only

theorem attNameM_ok (U : Uni) (t : Token) (ts : List Token) (k : Nat) (h : AttTok t) :
    attNameRuleM U ⟨t :: ts, k⟩ = .ok (attNode t k, ⟨ts, k + 1⟩) := by
  rw [← er_ok_iff, er_attName]; exact attNameRule_ok U t ts k h

theorem attNameM_err (U : Uni) (t : Token) (ts : List Token) (k : Nat) (h : ¬ AttTok t) :
    attNameRuleM U ⟨t :: ts, k⟩ = .error (.parser (msgAtt t) t.pos t "att_name") := by
  unfold AttTok at h
  simp only [not_or] at h
  simp [attNameRuleM, PState.curM, plain, PState.cur, PState.eatM, bind, Except.bind, Except.mapError, h]

theorem atomicM_ok (U : Uni) (t : Token) (ts : List Token) (k : Nat) (h : AtomTok false t) :
    atomicRuleM U ⟨t :: ts, k⟩ = .ok (atomNode t k, ⟨ts, k + 1⟩) := by
  rw [← er_ok_iff, er_atomic]; exact atomicRule_ok U t ts k h

theorem atomicM_err (U : Uni) (t : Token) (ts : List Token) (k : Nat) (h : ¬ AtomTok false t) :
    atomicRuleM U ⟨t :: ts, k⟩ = .error (.parser (msgAtomic t) t.pos t "atomic") := by
  unfold AtomTok at h
  simp only [Bool.false_eq_true, false_and, or_false, not_or] at h
  simp [atomicRuleM, PState.curM, plain, PState.cur, PState.eatM, bind, Except.bind, Except.mapError, h]

/-- What the automaton says after a move. -/
def follow (ts : List Token) : Move → Option SyntaxErr
  | .go pl o => walk pl o ts
  | .stop => none
  | .fail r => some r

theorem walk_cons (pl : Place) (o : List Token) (t : Token) (ts : List Token) :
    walk pl o (t :: ts) = follow ts (move pl o t (ts.head?.map Token.type)) := by
  rw [walk]
  cases move pl o t (ts.head?.map Token.type) <;> rfl

/-- The rule for literals and attributes, for the two places it is used at. -/
theorem boolVarM_agrees (U : Uni) (t : Token) (ts : List Token) (k : Nat) (pl : Place) (o : List Token)
    (h : pl = .neg ∨ t.type = .bool ∨ AttTok t) :
    Follows (boolVarRuleM U ⟨t :: ts, k⟩) (follow ts (single pl o t)) (walk .done o) := by
  by_cases ha : AttTok t
  · have hb : t.type ≠ .bool := by
      intro h; simp [AttTok, h] at ha
    have : boolVarRuleM U ⟨t :: ts, k⟩ = .ok (attNode t k, ⟨ts, k + 1⟩) := by
      rw [← er_ok_iff, er_boolVar, boolVarRule_att U t ts k hb, attNameRule_ok U t ts k ha]
    rw [this]
    simp [Follows, single, ha, follow]
  · by_cases hb : t.type = .bool
    · cases hv : t.value with
      | str s =>
        have : BoolTok t := ⟨hb, s, hv⟩
        have e : ∃ n, boolVarRuleM U ⟨t :: ts, k⟩ = .ok (n, ⟨ts, k + 1⟩) :=
          ⟨_, by rw [← er_ok_iff, er_boolVar]; exact boolVarRule_lit U t ts k this⟩
        obtain ⟨n, e⟩ := e
        rw [e]
        simp [Follows, single, ha, hb, hv, follow]
      | none | int i | flt f =>
        have : boolVarRuleM U ⟨t :: ts, k⟩ = .error (.other .attributeError) := by
          simp [boolVarRuleM, PState.curM, plain, PState.cur, PState.eatM, bind, Except.bind, Except.mapError, hb,
            PState.mkNodeM, PState.mkNode, initRes, hv]
        rw [this]
        simp [Follows, single, ha, hb, hv, follow]
    · rcases h with rfl | h | h
      · have : boolVarRuleM U ⟨t :: ts, k⟩ = .error (.parser (msgAtt t) t.pos t "att_name") := by
          rw [← attNameM_err U t ts k ha]
          simp [boolVarRuleM, PState.curM, plain, PState.cur, bind, Except.bind, Except.mapError, hb]
        rw [this]
        simp only [Follows, single, if_neg ha, if_neg hb, refusal_neg, or_true, follow]
      · exact absurd h hb
      · exact absurd h ha

/-! ### Sets and operands -/

theorem setLoopM_succ (U : Uni) (n : Nat) (acc : List Node) (c : Token) (ts : List Token) (k : Nat) :
    setLoopM U (n + 1) acc ⟨c :: ts, k⟩ =
      if c.type = .rset then .ok (acc, ⟨c :: ts, k⟩)
      else if c.type = .comma then
        (atomicRuleM U ⟨ts, k⟩).bind fun x => setLoopM U n (acc ++ [x.1]) x.2
      else .error (.parser (msgSet ',' c) c.pos c "set") := by
  by_cases h1 : c.type = .rset
  · simp [setLoopM, PState.curM, plain, Except.mapError, PState.cur, bind, Except.bind, pure, Except.pure, h1]
  · by_cases h2 : c.type = .comma
    · simp only [setLoopM, PState.curM, plain, Except.mapError, PState.cur, bind, Except.bind, pure, Except.pure, h2, PState.eatM]
      rw [if_pos (by simp)]
      simp
    · simp [setLoopM, PState.curM, plain, Except.mapError, PState.cur, bind, Except.bind, h1, h2, PState.eatM]

/-- The loop ends before a closing brace, where the automaton is after an element. -/
theorem setLoopM_agrees (U : Uni) (left : Bool) (o : List Token) (n : Nat) (acc : List Node) (s : PState) (hn : s.toks.length < n) :
    Follows (setLoopM U n acc s) (walk (.more left) o s.toks) (walk (.more left) o) ∧
      ∀ a s', setLoopM U n acc s = .ok (a, s') → ∃ r rs, s'.toks = r :: rs ∧ r.type = .rset := by
  induction n generalizing acc s with
  | zero => omega
  | succ n ih =>
    obtain ⟨toks, k⟩ := s
    cases toks with
    | nil =>
      have : setLoopM U (n + 1) acc ⟨[], k⟩ = .error (.other .attributeError) := rfl
      rw [this]
      exact ⟨Or.inr rfl, by simp⟩
    | cons c ts =>
      rw [setLoopM_succ]
      by_cases h1 : c.type = .rset
      · rw [if_pos h1]
        refine ⟨rfl, ?_⟩
        intro a s' h
        simp only [Except.ok.injEq, Prod.mk.injEq] at h
        obtain ⟨rfl, rfl⟩ := h
        exact ⟨c, ts, rfl, h1⟩
      · rw [if_neg h1]
        by_cases h2 : c.type = .comma
        · rw [if_pos h2]
          have hw : walk (.more left) o (c :: ts) = walk (.item left) o ts := by
            rw [walk]; simp [move, h2]
          simp only [hw]
          cases ts with
          | nil =>
            have : atomicRuleM U ⟨[], k⟩ = .error (.other .attributeError) := rfl
            rw [this]
            exact ⟨Or.inr rfl, by simp [Except.bind]⟩
          | cons t ts =>
            by_cases h3 : AtomTok false t
            · rw [atomicM_ok U t ts k h3]
              have hw2 : walk (.item left) o (t :: ts) = walk (.more left) o ts := by
                rw [walk]; simp [move, h3]
              rw [hw2]
              exact ih _ ⟨ts, k + 1⟩ (by simp only [List.length_cons] at hn ⊢; omega)
            · rw [atomicM_err U t ts k h3]
              refine ⟨Or.inr ?_, by simp [Except.bind]⟩
              rw [walk]; simp only [move, if_neg h3, refusal_item]
        · rw [if_neg h2]
          refine ⟨Or.inr ?_, by simp⟩
          rw [walk]; simp only [move, if_neg h1, if_neg h2, refusal_more]

theorem setRuleM_agrees (U : Uni) (left : Bool) (o : List Token) (l : Token) (ts : List Token) (k : Nat) (hl : l.type = .lset) :
    Follows (setRuleM U ⟨l :: ts, k⟩) (walk (.first left) o ts) (walk (.after left) o) := by
  cases ts with
  | nil =>
    have : setRuleM U ⟨[l], k⟩ = .error (.other .attributeError) := by
      simp [setRuleM, PState.eatM, PState.curM, plain, Except.mapError, PState.cur, hl, bind, Except.bind]
    rw [this]; exact Or.inr rfl
  | cons c cs =>
    by_cases h : c.type = .rset
    · have : setRuleM U ⟨l :: c :: cs, k⟩ = .ok (.mk .set l k .none [], ⟨cs, k + 1⟩) := by
        simp [setRuleM, PState.eatM, PState.curM, plain, Except.mapError, PState.cur, hl, h, bind, Except.bind, pure, Except.pure,
          PState.mkNodeM, PState.mkNode, initRes]
      rw [this]
      simp [Follows, walk, move, h]
    · by_cases h3 : AtomTok false c
      · have hw : walk (.first left) o (c :: cs) = walk (.more left) o cs := by
          rw [walk]; simp [move, h3, h]
        rw [hw]
        obtain ⟨g1, g2⟩ := setLoopM_agrees U left o (cs.length + 1) [atomNode c k] ⟨cs, k + 1⟩ (by simp)
        have : setRuleM U ⟨l :: c :: cs, k⟩ = (setLoopM U (cs.length + 1) [atomNode c k] ⟨cs, k + 1⟩).bind fun y =>
            (y.2.eatM .rset "set" (msgSet '}')).bind fun z => z.2.mkNodeM U .set l y.1 := by
          simp only [setRuleM, PState.eatM, PState.curM, plain, Except.mapError, PState.cur, hl, bind, Except.bind, pure, Except.pure,
            if_true]
          rw [if_pos h, atomicM_ok U c cs k h3]
        rw [this]
        cases hy : setLoopM U (cs.length + 1) [atomNode c k] ⟨cs, k + 1⟩ with
        | error r => rw [hy] at g1; exact g1
        | ok y =>
          rw [hy] at g1
          obtain ⟨r, rs, e1, e2⟩ := g2 y.1 y.2 hy
          simp only [Except.bind, PState.eatM, e1, e2, if_true, PState.mkNodeM, plain, PState.mkNode, initRes, bind, pure, Except.pure,
            Except.mapError, Follows]
          simp only [Follows] at g1
          rw [g1, e1, walk]
          simp [move, e2]
      · have : setRuleM U ⟨l :: c :: cs, k⟩ = .error (.parser (msgAtomic c) c.pos c "atomic") := by
          simp only [setRuleM, PState.eatM, PState.curM, plain, Except.mapError, PState.cur, hl, bind, Except.bind, pure, Except.pure,
            if_true]
          rw [if_pos h, atomicM_err U c cs k h3]
        rw [this]
        refine Or.inr ?_
        rw [walk]; simp only [move, if_neg h, if_neg h3, refusal_first]

theorem constM_set (U : Uni) (t : Token) (ts : List Token) (k : Nat) (h : t.type = .lset) :
    varRuleM U ⟨t :: ts, k⟩ = setRuleM U ⟨t :: ts, k⟩ := by
  simp only [varRuleM, PState.curM, plain, Except.mapError, PState.cur, bind, Except.bind]
  rw [if_neg (by simp [Token.isAtt, h]), if_pos (by simp [Token.isConst, h])]
  simp only [constRuleM, PState.curM, plain, Except.mapError, PState.cur, bind, Except.bind]
  rw [if_neg (by simp [Token.isAtomic, h])]

theorem varM_simple (U : Uni) (t : Token) (ts : List Token) (k : Nat) (h : AttTok t ∨ AtomTok false t) :
    ∃ n, varRuleM U ⟨t :: ts, k⟩ = .ok (n, ⟨ts, k + 1⟩) := by
  rcases h with h | h
  · exact ⟨_, by rw [← er_ok_iff, er_var]; exact varRule_att U t ts k h⟩
  · exact ⟨_, by rw [← er_ok_iff, er_var]; exact varRule_atom U t ts k h⟩

theorem varM_agrees (U : Uni) (o : List Token) (s : PState) :
    Follows (varRuleM U s) (walk .var o s.toks) (walk .done o) := by
  obtain ⟨toks, k⟩ := s
  cases toks with
  | nil => exact Or.inr rfl
  | cons t ts =>
    by_cases h : AttTok t ∨ AtomTok false t
    · obtain ⟨n, e⟩ := varM_simple U t ts k h
      rw [e]
      simp only [Follows]
      rw [walk]; simp [move, h]
    · by_cases hl : t.type = .lset
      · rw [constM_set U t ts k hl]
        have := setRuleM_agrees U false o t ts k hl
        have hw : walk .var o (t :: ts) = walk (.first false) o ts := by
          rw [walk]; simp [move, h, hl]
        rw [hw]; exact this
      · have e : varRuleM U ⟨t :: ts, k⟩ = .error (.parser (msgVar t) t.pos t "var") := by
          simp only [varRuleM, PState.curM, plain, Except.mapError, PState.cur, bind, Except.bind]
          rw [if_neg (by rw [isAtt_iff]; exact fun x => h (Or.inl x)), if_neg]
          intro hc
          simp only [Token.isConst, Bool.or_eq_true, beq_iff_eq] at hc
          rcases hc with hc | hc
          · exact h (Or.inr ((isAtomic_iff t).1 hc))
          · exact hl hc
        rw [e]
        refine Or.inr ?_
        rw [walk]; simp only [move, if_neg h, if_neg hl, refusal_var]

/-! ### The recursive rules -/

/-- `_eat(RPARN, "exp", …)` followed by wrapping. -/
def closeParenM (l : Token) (x : Node × PState) (f : Node → Nat → Node × Nat) : Except SyntaxErr (Node × PState) :=
  match x.2.toks with
  | [] => .error (.other .attributeError)
  | r :: rs =>
    if r.type = .rparn then .ok ((f x.1 x.2.nextId).1, ⟨rs, (f x.1 x.2.nextId).2⟩)
    else .error (.parser (msgParen l) r.pos r "exp")

theorem expRuleM_not_paren (U : Uni) (n : Nat) (c d : Token) (ds : List Token) (k : Nat)
    (hc : c.type = .notOp) (hd : d.type = .lparn) :
    expRuleM U (n + 1) ⟨c :: d :: ds, k⟩ = (policyRuleM U n ⟨ds, k⟩).bind fun x =>
      closeParenM d x fun a j => (.mk .not c j .none [a], j + 1) := by
  rw [expRuleM]
  simp only [PState.curM, plain, Except.mapError, PState.cur, PState.eatM, hc, hd, bind, Except.bind, if_true]
  cases policyRuleM U n ⟨ds, k⟩ with
  | error e => rfl
  | ok x =>
    simp only [closeParenM]
    cases hx : x.2.toks with
    | nil => rfl
    | cons r rs =>
      simp only
      by_cases hr : r.type = .rparn
      · simp only [hr, if_true, PState.mkNodeM, plain, Except.mapError, PState.mkNode, initRes, bind, Except.bind, pure, Except.pure]
      · simp only [if_neg hr]

theorem expRuleM_not_bool (U : Uni) (n : Nat) (c d : Token) (ds : List Token) (k : Nat)
    (hc : c.type = .notOp) (hd : d.type ≠ .lparn) :
    expRuleM U (n + 1) ⟨c :: d :: ds, k⟩ = (boolVarRuleM U ⟨d :: ds, k⟩).bind fun x =>
      .ok (.mk .not c x.2.nextId .none [x.1], ⟨x.2.toks, x.2.nextId + 1⟩) := by
  rw [expRuleM]
  simp only [PState.curM, plain, Except.mapError, PState.cur, PState.eatM, hc, hd, bind, Except.bind, if_true, if_false]
  cases boolVarRuleM U ⟨d :: ds, k⟩ with
  | error e => rfl
  | ok x => simp [PState.mkNodeM, plain, Except.mapError, PState.mkNode, initRes, bind, Except.bind, pure, Except.pure]

theorem expRuleM_paren (U : Uni) (n : Nat) (c : Token) (ds : List Token) (k : Nat) (hc : c.type = .lparn) :
    expRuleM U (n + 1) ⟨c :: ds, k⟩ = (policyRuleM U n ⟨ds, k⟩).bind fun x => closeParenM c x fun a j => (a, j) := by
  rw [expRuleM]
  simp only [PState.curM, plain, Except.mapError, PState.cur, PState.eatM, hc, bind, Except.bind, if_true]
  rw [if_neg (by simp)]
  cases policyRuleM U n ⟨ds, k⟩ with
  | error e => rfl
  | ok x =>
    simp only [closeParenM]
    cases hx : x.2.toks with
    | nil => rfl
    | cons r rs =>
      simp only
      by_cases hr : r.type = .rparn
      · simp only [hr, if_true, pure, Except.pure]
      · simp only [if_neg hr]

/-- `var op var` once the parser has decided for it. -/
def cmpRuleM (U : Uni) (s : PState) : Except SyntaxErr (Node × PState) :=
  (varRuleM U s).bind fun x =>
    match x.2.toks with
    | [] => .error (.other .attributeError)
    | o :: os =>
      if o.type = .op then (varRuleM U ⟨os, x.2.nextId⟩).bind fun y =>
        .ok (.mk .op o y.2.nextId .none [x.1, y.1], ⟨y.2.toks, y.2.nextId + 1⟩)
      else .error (.parser (msgOp o) o.pos o "exp")

theorem expRuleM_else (U : Uni) (n : Nat) (c : Token) (ds : List Token) (k : Nat)
    (h1 : c.type ≠ .notOp) (h2 : c.type ≠ .lparn) :
    expRuleM U (n + 1) ⟨c :: ds, k⟩ = (plain (isComparison ⟨c :: ds, k⟩ c)).bind fun b =>
      if b = true then cmpRuleM U ⟨c :: ds, k⟩
      else if c.type = .bool ∨ c.isAtt = true then boolVarRuleM U ⟨c :: ds, k⟩
      else .error (.parser (msgExp c) c.pos c "exp") := by
  rw [expRuleM]
  simp only [PState.curM, PState.cur, bind]
  have e : (plain (.ok c) : Except SyntaxErr Token) = .ok c := rfl
  rw [e]
  simp only [Except.bind]
  rw [if_neg h1, if_neg h2]
  cases plain (isComparison ⟨c :: ds, k⟩ c) with
  | error e => rfl
  | ok b =>
    simp only
    cases b with
    | false => rfl
    | true =>
      simp only [if_true, cmpRuleM, Except.bind]
      cases varRuleM U ⟨c :: ds, k⟩ with
      | error e => rfl
      | ok x =>
        simp only [PState.eatM]
        cases hx : x.2.toks with
        | nil => rfl
        | cons o os =>
          simp only
          by_cases ho : o.type = .op
          · simp only [ho, if_true]
            cases varRuleM U ⟨os, x.2.nextId⟩ with
            | error e => rfl
            | ok y => simp only [PState.mkNodeM, plain, Except.mapError, PState.mkNode, initRes, bind, Except.bind, pure, Except.pure]
          · simp only [if_neg ho]

theorem termRuleM_succ (U : Uni) (n : Nat) (s : PState) :
    termRuleM U (n + 1) s = (expRuleM U n s).bind fun x => termLoopM U n x.1 x.2 := by
  rw [termRuleM]; rfl

theorem policyRuleM_succ (U : Uni) (n : Nat) (s : PState) :
    policyRuleM U (n + 1) s = (termRuleM U n s).bind fun x => policyLoopM U n x.1 x.2 := by
  rw [policyRuleM]; rfl

theorem termLoopM_succ (U : Uni) (n : Nat) (a : Node) (c : Token) (ts : List Token) (k : Nat) :
    termLoopM U (n + 1) a ⟨c :: ts, k⟩ =
      if AndTok c then (expRuleM U n ⟨ts, k⟩).bind fun x =>
        termLoopM U n (.mk .boolOp c x.2.nextId .none [a, x.1]) ⟨x.2.toks, x.2.nextId + 1⟩
      else .ok (a, ⟨c :: ts, k⟩) := by
  rw [termLoopM]
  simp only [PState.curM, plain, Except.mapError, PState.cur, bind, Except.bind, pure, Except.pure]
  by_cases h : AndTok c
  · rw [if_pos h, if_pos (show c.type = .boolOp ∧ c.value = .str "AND".toList from h)]
    simp only [PState.eatM, h.1, if_true]
    cases expRuleM U n ⟨ts, k⟩ with
    | error e => rfl
    | ok x => simp [PState.mkNodeM, plain, Except.mapError, PState.mkNode, initRes, bind, Except.bind, pure, Except.pure]
  · rw [if_neg h, if_neg (show ¬ (c.type = .boolOp ∧ c.value = .str "AND".toList) from h)]

theorem policyLoopM_succ (U : Uni) (n : Nat) (a : Node) (c : Token) (ts : List Token) (k : Nat) :
    policyLoopM U (n + 1) a ⟨c :: ts, k⟩ =
      if OrTok c then (termRuleM U n ⟨ts, k⟩).bind fun x =>
        policyLoopM U n (.mk .boolOp c x.2.nextId .none [a, x.1]) ⟨x.2.toks, x.2.nextId + 1⟩
      else .ok (a, ⟨c :: ts, k⟩) := by
  rw [policyLoopM]
  simp only [PState.curM, plain, Except.mapError, PState.cur, bind, Except.bind, pure, Except.pure]
  by_cases h : OrTok c
  · rw [if_pos h, if_pos (show c.type = .boolOp ∧ c.value = .str "OR".toList from h)]
    simp only [PState.eatM, h.1, if_true]
    cases termRuleM U n ⟨ts, k⟩ with
    | error e => rfl
    | ok x => simp [PState.mkNodeM, plain, Except.mapError, PState.mkNode, initRes, bind, Except.bind, pure, Except.pure]
  · rw [if_neg h, if_neg (show ¬ (c.type = .boolOp ∧ c.value = .str "OR".toList) from h)]

/-! ### Where the loops stop -/

theorem termLoopM_stop (U : Uni) (n : Nat) (a : Node) (s : PState) (x : Node × PState) (h : termLoopM U n a s = .ok x) :
    ∃ c cs, x.2.toks = c :: cs ∧ ¬ AndTok c := by
  induction n generalizing a s with
  | zero => rw [termLoopM] at h; cases h
  | succ n ih =>
    obtain ⟨toks, k⟩ := s
    cases toks with
    | nil => rw [termLoopM] at h; cases h
    | cons c ts =>
      rw [termLoopM_succ] at h
      split at h
      · cases he : expRuleM U n ⟨ts, k⟩ with
        | error r => rw [he] at h; cases h
        | ok y => rw [he] at h; exact ih _ _ h
      · rename_i hc
        cases h
        exact ⟨c, ts, rfl, hc⟩

theorem termRuleM_stop (U : Uni) (n : Nat) (s : PState) (x : Node × PState) (h : termRuleM U n s = .ok x) :
    ∃ c cs, x.2.toks = c :: cs ∧ ¬ AndTok c := by
  cases n with
  | zero => rw [termRuleM] at h; cases h
  | succ n =>
    rw [termRuleM_succ] at h
    cases he : expRuleM U n s with
    | error r => rw [he] at h; cases h
    | ok y => rw [he] at h; exact termLoopM_stop U n _ _ _ h

theorem policyLoopM_stop (U : Uni) (n : Nat) (a : Node) (s : PState) (x : Node × PState) (h : policyLoopM U n a s = .ok x)
    (hs : ∃ c cs, s.toks = c :: cs ∧ ¬ AndTok c) : ∃ c cs, x.2.toks = c :: cs ∧ ¬ (AndTok c ∨ OrTok c) := by
  induction n generalizing a s with
  | zero => rw [policyLoopM] at h; cases h
  | succ n ih =>
    obtain ⟨toks, k⟩ := s
    obtain ⟨c, ts, e, hc⟩ := hs
    simp only at e
    subst e
    rw [policyLoopM_succ] at h
    split at h
    · cases he : termRuleM U n ⟨ts, k⟩ with
      | error r => rw [he] at h; cases h
      | ok y => rw [he] at h; exact ih _ _ h (termRuleM_stop U n _ _ he)
    · rename_i ho
      cases h
      exact ⟨c, ts, rfl, not_or.2 ⟨hc, ho⟩⟩

theorem policyRuleM_stop (U : Uni) (n : Nat) (s : PState) (x : Node × PState) (h : policyRuleM U n s = .ok x) :
    ∃ c cs, x.2.toks = c :: cs ∧ ¬ (AndTok c ∨ OrTok c) := by
  cases n with
  | zero => rw [policyRuleM] at h; cases h
  | succ n =>
    rw [policyRuleM_succ] at h
    cases he : termRuleM U n s with
    | error r => rw [he] at h; cases h
    | ok y => rw [he] at h; exact policyLoopM_stop U n _ _ _ h (termRuleM_stop U n _ _ he)

/-! ### The induction -/

theorem cmpRuleM_agrees (U : Uni) (c : Token) (ts : List Token) (k : Nat) (o : List Token)
    (h : c.type = .lset ∨ ((AttTok c ∨ AtomTok false c) ∧ c.type ≠ .notOp ∧ c.type ≠ .lparn ∧
      (ts.head?.map Token.type) = some .op)) :
    Follows (cmpRuleM U ⟨c :: ts, k⟩) (walk .exp o (c :: ts)) (walk .done o) := by
  have hv : Follows (varRuleM U ⟨c :: ts, k⟩) (walk .exp o (c :: ts)) (walk .op o) := by
    rcases h with h | ⟨h, hn, hp, hop⟩
    · rw [constM_set U c ts k h]
      have := setRuleM_agrees U true o c ts k h
      have hw : walk .exp o (c :: ts) = walk (.first true) o ts := by
        rw [walk]; simp [move, h]
      rw [hw]; exact this
    · obtain ⟨m, e⟩ := varM_simple U c ts k h
      rw [e]
      have hset : c.type ≠ .lset := by
        intro hl; rcases h with h | h <;> simp [AttTok, AtomTok, hl] at h
      simp only [Follows]
      rw [walk]
      simp [move, hn, hp, hset, h, hop]
  unfold cmpRuleM
  cases h1 : varRuleM U ⟨c :: ts, k⟩ with
  | error r => rw [h1] at hv; exact hv
  | ok x =>
    rw [h1] at hv
    simp only [Follows] at hv
    rw [hv]
    simp only [Except.bind]
    cases hx : x.2.toks with
    | nil => exact Or.inr rfl
    | cons p os =>
      by_cases ho : p.type = .op
      · simp only [if_pos ho]
        have hw : walk .op o (p :: os) = walk .var o os := by
          rw [walk]; simp [move, ho]
        rw [hw]
        have hr := varM_agrees U o ⟨os, x.2.nextId⟩
        cases h2 : varRuleM U ⟨os, x.2.nextId⟩ with
        | error r => rw [h2] at hr; exact hr
        | ok y => rw [h2] at hr; exact hr
      · simp only [if_neg ho]
        refine Or.inr ?_
        rw [walk]; simp only [move, if_neg ho, refusal_op]

theorem closeParenM_agrees (l : Token) (o : List Token) (w : Option SyntaxErr) (x : Node × PState) (f : Node → Nat → Node × Nat)
    (hw : w = walk .done (l :: o) x.2.toks) (hs : ∃ c cs, x.2.toks = c :: cs ∧ ¬ (AndTok c ∨ OrTok c)) :
    Follows (closeParenM l x f) w (walk .done o) := by
  obtain ⟨c, cs, e, hc⟩ := hs
  rw [hw, e]
  unfold closeParenM
  rw [e]
  by_cases hr : c.type = .rparn
  · simp only [if_pos hr, Follows]
    rw [walk]; simp only [move, if_neg hc, if_pos hr]
  · simp only [if_neg hr]
    refine Or.inr ?_
    rw [walk]; simp only [move, if_neg hc, if_neg hr, refusal_paren]

theorem rulesM_agree (U : Uni) (n : Nat) :
    (∀ s o, Follows (expRuleM U n s) (walk .exp o s.toks) (walk .done o)) ∧
    (∀ s o, Follows (termRuleM U n s) (walk .exp o s.toks) (walk .done o)) ∧
    (∀ s o, Follows (policyRuleM U n s) (walk .exp o s.toks) (walk .done o)) ∧
    (∀ a s o, Follows (termLoopM U n a s) (walk .done o s.toks) (walk .done o)) ∧
    (∀ a s o, Follows (policyLoopM U n a s) (walk .done o s.toks) (walk .done o)) := by
  induction n with
  | zero =>
    refine ⟨?_, ?_, ?_, ?_, ?_⟩
    · intro s o; rw [expRuleM]; exact Or.inl rfl
    · intro s o; rw [termRuleM]; exact Or.inl rfl
    · intro s o; rw [policyRuleM]; exact Or.inl rfl
    · intro a s o; rw [termLoopM]; exact Or.inl rfl
    · intro a s o; rw [policyLoopM]; exact Or.inl rfl
  | succ n ih =>
    obtain ⟨ihE, ihT, ihP, ihTL, ihPL⟩ := ih
    refine ⟨?_, ?_, ?_, ?_, ?_⟩
    · rintro ⟨toks, k⟩ o
      cases toks with
      | nil => rw [expRuleM]; exact Or.inr rfl
      | cons c ts =>
        by_cases hn : c.type = .notOp
        · have hw : walk .exp o (c :: ts) = walk .neg o ts := by
            rw [walk]; simp [move, hn]
          simp only [hw]
          cases ts with
          | nil =>
            have e : expRuleM U (n + 1) ⟨[c], k⟩ = .error (.other .attributeError) := by
              rw [expRuleM]
              simp [PState.curM, plain, Except.mapError, PState.cur, PState.eatM, hn, bind, Except.bind]
            rw [e]; exact Or.inr rfl
          | cons d ds =>
            by_cases hd : d.type = .lparn
            · rw [expRuleM_not_paren U n c d ds k hn hd]
              have hw : walk .neg o (d :: ds) = walk .exp (d :: o) ds := by
                rw [walk]; simp [move, hd]
              rw [hw]
              have hP := ihP ⟨ds, k⟩ (d :: o)
              cases h1 : policyRuleM U n ⟨ds, k⟩ with
              | error r => rw [h1] at hP; exact hP
              | ok x =>
                rw [h1] at hP
                simp only [Except.bind]
                exact closeParenM_agrees d o _ x _ hP (policyRuleM_stop U n _ _ h1)
            · rw [expRuleM_not_bool U n c d ds k hn hd]
              have hB := boolVarM_agrees U d ds k .neg o (Or.inl rfl)
              have hw : walk .neg o (d :: ds) = follow ds (single .neg o d) := by
                rw [walk_cons]; simp only [move, if_neg hd]
              rw [hw]
              cases h1 : boolVarRuleM U ⟨d :: ds, k⟩ with
              | error r => rw [h1] at hB; exact hB
              | ok x => rw [h1] at hB; exact hB
        · by_cases hl : c.type = .lparn
          · rw [expRuleM_paren U n c ts k hl]
            have hw : walk .exp o (c :: ts) = walk .exp (c :: o) ts := by
              rw [walk]; simp [move, hl]
            simp only [hw]
            have hP := ihP ⟨ts, k⟩ (c :: o)
            cases h1 : policyRuleM U n ⟨ts, k⟩ with
            | error r => rw [h1] at hP; exact hP
            | ok x =>
              rw [h1] at hP
              simp only [Except.bind]
              exact closeParenM_agrees c o _ x _ hP (policyRuleM_stop U n _ _ h1)
          · rw [expRuleM_else U n c ts k hn hl]
            by_cases hset : c.type = .lset
            · rw [isComparison_lset _ _ hset]
              exact cmpRuleM_agrees U c ts k o (Or.inl hset)
            · cases ts with
              | nil =>
                rw [isComparison_last c k hset]
                refine Or.inr ?_
                simp only
                rw [walk]
                simp only [move, if_neg hn, if_neg hl, if_neg hset, List.head?_nil, Option.map_none, if_true]
              | cons d ds =>
                rw [isComparison_two c d ds k hset]
                have hb : ((d.type == TokenType.op && (c.isAtt || c.isAtomic)) = true) ↔
                    ((AttTok c ∨ AtomTok false c) ∧ some d.type = some TokenType.op) := by
                  simp only [Bool.and_eq_true, beq_iff_eq, Bool.or_eq_true, isAtt_iff, isAtomic_iff, Option.some.injEq]
                  exact and_comm
                by_cases hop : (AttTok c ∨ AtomTok false c) ∧ some d.type = some TokenType.op
                · rw [hb.2 hop]
                  exact cmpRuleM_agrees U c (d :: ds) k o (Or.inr ⟨hop.1, hn, hl, hop.2⟩)
                · have hf : (d.type == TokenType.op && (c.isAtt || c.isAtomic)) = false := by
                    rw [Bool.eq_false_iff]; exact fun x => hop (hb.1 x)
                  rw [hf]
                  have hm : move .exp o c (some d.type) = single .exp o c := by
                    simp only [move, if_neg hn, if_neg hl, if_neg hset, if_neg hop, reduceCtorEq, if_false]
                  have hw : walk .exp o (c :: d :: ds) = follow (d :: ds) (single .exp o c) := by
                    rw [walk_cons, List.head?_cons, Option.map_some, hm]
                  simp only [hw]
                  have e : (plain (.ok false) : Except SyntaxErr Bool) = .ok false := rfl
                  rw [e]
                  simp only [Except.bind, Bool.false_eq_true, if_false]
                  by_cases hv : c.type = .bool ∨ c.isAtt = true
                  · rw [if_pos hv]
                    rw [isAtt_iff] at hv
                    exact boolVarM_agrees U c (d :: ds) k .exp o (Or.inr hv)
                  · rw [if_neg hv]
                    rw [isAtt_iff, not_or] at hv
                    refine Or.inr ?_
                    simp only [single, if_neg hv.1, if_neg hv.2, refusal_exp, follow]
    · intro s o
      rw [termRuleM_succ]
      have hE := ihE s o
      cases h1 : expRuleM U n s with
      | error r => rw [h1] at hE; exact hE
      | ok x =>
        rw [h1] at hE
        simp only [Follows] at hE
        rw [hE]
        exact ihTL x.1 x.2 o
    · intro s o
      rw [policyRuleM_succ]
      have hT := ihT s o
      cases h1 : termRuleM U n s with
      | error r => rw [h1] at hT; exact hT
      | ok x =>
        rw [h1] at hT
        simp only [Follows] at hT
        rw [hT]
        exact ihPL x.1 x.2 o
    · rintro a ⟨toks, k⟩ o
      cases toks with
      | nil => rw [termLoopM]; exact Or.inr rfl
      | cons c ts =>
        rw [termLoopM_succ]
        by_cases hc : AndTok c
        · rw [if_pos hc]
          have hw : walk .done o (c :: ts) = walk .exp o ts := by
            rw [walk]; simp only [move, if_pos (Or.inl hc)]
          simp only [hw]
          have hE := ihE ⟨ts, k⟩ o
          cases h1 : expRuleM U n ⟨ts, k⟩ with
          | error r => rw [h1] at hE; exact hE
          | ok x =>
            rw [h1] at hE
            simp only [Follows] at hE
            rw [hE]
            exact ihTL _ ⟨x.2.toks, x.2.nextId + 1⟩ o
        · rw [if_neg hc]
          rfl
    · rintro a ⟨toks, k⟩ o
      cases toks with
      | nil => rw [policyLoopM]; exact Or.inr rfl
      | cons c ts =>
        rw [policyLoopM_succ]
        by_cases hc : OrTok c
        · rw [if_pos hc]
          have hw : walk .done o (c :: ts) = walk .exp o ts := by
            rw [walk]; simp only [move, if_pos (Or.inr hc)]
          simp only [hw]
          have hE := ihT ⟨ts, k⟩ o
          cases h1 : termRuleM U n ⟨ts, k⟩ with
          | error r => rw [h1] at hE; exact hE
          | ok x =>
            rw [h1] at hE
            simp only [Follows] at hE
            rw [hE]
            exact ihPL _ ⟨x.2.toks, x.2.nextId + 1⟩ o
        · rw [if_neg hc]
          rfl

end Verif.Proofs
