import Verif.Proofs.ParserRules
/-!
# The recursive parser rules: unfolding, soundness, errors, completeness, fuel
-/

namespace Verif.Proofs
open Verif Verif.Spec

/-- `_eat(RPARN, "exp")` followed by wrapping. -/
def closeParen (x : Node × PState) (f : Node → Nat → Node × Nat) : Except PyExc (Node × PState) :=
  match x.2.toks with
  | [] => .error .attributeError
  | r :: rs =>
    if r.type = .rparn then .ok ((f x.1 x.2.nextId).1, ⟨rs, (f x.1 x.2.nextId).2⟩)
    else .error (.parserError r.pos "exp")

theorem expRule_nil (U : Uni) (n : Nat) (k : Nat) :
    expRule U (n + 1) ⟨[], k⟩ = .error .attributeError := by
  rw [expRule]; rfl

theorem expRule_not_nil (U : Uni) (n : Nat) (c : Token) (k : Nat) (hc : c.type = .notOp) :
    expRule U (n + 1) ⟨[c], k⟩ = .error .attributeError := by
  rw [expRule]; simp [PState.cur, PState.eat, hc, bind, Except.bind]

theorem expRule_not_paren (U : Uni) (n : Nat) (c d : Token) (ds : List Token) (k : Nat)
    (hc : c.type = .notOp) (hd : d.type = .lparn) :
    expRule U (n + 1) ⟨c :: d :: ds, k⟩ = (policyRule U n ⟨ds, k⟩).bind fun x =>
      closeParen x fun a j => (.mk .not c j .none [a], j + 1) := by
  rw [expRule]
  simp only [PState.cur, PState.eat, hc, hd, bind, Except.bind, if_true]
  cases policyRule U n ⟨ds, k⟩ with
  | error e => rfl
  | ok x =>
    simp only [closeParen]
    cases hx : x.2.toks with
    | nil => rfl
    | cons r rs =>
      simp only
      by_cases hr : r.type = .rparn
      · simp [hr, PState.mkNode, initRes, bind, Except.bind, pure, Except.pure]
      · simp [hr]

theorem expRule_not_bool (U : Uni) (n : Nat) (c d : Token) (ds : List Token) (k : Nat)
    (hc : c.type = .notOp) (hd : d.type ≠ .lparn) :
    expRule U (n + 1) ⟨c :: d :: ds, k⟩ = (boolVarRule U ⟨d :: ds, k⟩).bind fun x =>
      .ok (.mk .not c x.2.nextId .none [x.1], ⟨x.2.toks, x.2.nextId + 1⟩) := by
  rw [expRule]
  simp only [PState.cur, PState.eat, hc, hd, bind, Except.bind, if_true, if_false]
  cases boolVarRule U ⟨d :: ds, k⟩ with
  | error e => rfl
  | ok x => simp [PState.mkNode, initRes, bind, Except.bind, pure, Except.pure]

theorem expRule_paren (U : Uni) (n : Nat) (c : Token) (ds : List Token) (k : Nat)
    (hc : c.type = .lparn) :
    expRule U (n + 1) ⟨c :: ds, k⟩ = (policyRule U n ⟨ds, k⟩).bind fun x =>
      closeParen x fun a j => (a, j) := by
  rw [expRule]
  simp only [PState.cur, PState.eat, hc, bind, Except.bind, if_true]
  rw [if_neg (by simp)]
  cases policyRule U n ⟨ds, k⟩ with
  | error e => rfl
  | ok x =>
    simp only [closeParen]
    cases hx : x.2.toks with
    | nil => rfl
    | cons r rs =>
      simp only
      by_cases hr : r.type = .rparn
      · simp [hr, pure, Except.pure]
      · simp [hr]

/-- `var op var` once the parser has decided for it. -/
def cmpRule (U : Uni) (s : PState) : Except PyExc (Node × PState) :=
  (varRule U s).bind fun x =>
    match x.2.toks with
    | [] => .error .attributeError
    | o :: os =>
      if o.type = .op then (varRule U ⟨os, x.2.nextId⟩).bind fun y =>
        .ok (.mk .op o y.2.nextId .none [x.1, y.1], ⟨y.2.toks, y.2.nextId + 1⟩)
      else .error (.parserError o.pos "exp")

/-- The last branches of `_exp_rule`. -/
theorem expRule_else (U : Uni) (n : Nat) (c : Token) (ds : List Token) (k : Nat)
    (h1 : c.type ≠ .notOp) (h2 : c.type ≠ .lparn) :
    expRule U (n + 1) ⟨c :: ds, k⟩ = (isComparison ⟨c :: ds, k⟩ c).bind fun b =>
      if b = true then cmpRule U ⟨c :: ds, k⟩
      else if c.type = .bool ∨ c.isAtt = true then boolVarRule U ⟨c :: ds, k⟩
      else .error (.parserError c.pos "exp") := by
  rw [expRule]
  simp only [PState.cur, bind, Except.bind]
  rw [if_neg h1, if_neg h2]
  cases isComparison ⟨c :: ds, k⟩ c with
  | error e => rfl
  | ok b =>
    simp only
    cases b with
    | false => rfl
    | true =>
      simp only [if_true, cmpRule, Except.bind]
      cases varRule U ⟨c :: ds, k⟩ with
      | error e => rfl
      | ok x =>
        simp only [PState.eat]
        cases hx : x.2.toks with
        | nil => rfl
        | cons o os =>
          simp only
          by_cases ho : o.type = .op
          · simp only [ho, if_true]
            cases varRule U ⟨os, x.2.nextId⟩ with
            | error e => rfl
            | ok y => simp [PState.mkNode, initRes, bind, Except.bind, pure, Except.pure]
          · simp [ho]

theorem isComparison_lset (s : PState) (c : Token) (h : c.type = .lset) :
    isComparison s c = .ok true := by simp [isComparison, h]

theorem isComparison_last (c : Token) (k : Nat) (h : c.type ≠ .lset) :
    isComparison ⟨[c], k⟩ c = .error .indexError := by
  simp [isComparison, h, PState.peek, bind, Except.bind]

theorem isComparison_two (c d : Token) (ds : List Token) (k : Nat) (h : c.type ≠ .lset) :
    isComparison ⟨c :: d :: ds, k⟩ c = .ok (d.type == .op && (c.isAtt || c.isAtomic)) := by
  have h' : (c.type == .lset) = false := by simp [h]
  simp [isComparison, h, PState.peek, bind, Except.bind, pure, Except.pure, Token.isConst, h']

theorem termRule_succ (U : Uni) (n : Nat) (s : PState) :
    termRule U (n + 1) s = (expRule U n s).bind fun x => termLoop U n x.1 x.2 := by
  rw [termRule]; rfl

theorem policyRule_succ (U : Uni) (n : Nat) (s : PState) :
    policyRule U (n + 1) s = (termRule U n s).bind fun x => policyLoop U n x.1 x.2 := by
  rw [policyRule]; rfl

theorem termLoop_nil (U : Uni) (n : Nat) (a : Node) (k : Nat) :
    termLoop U (n + 1) a ⟨[], k⟩ = .error .attributeError := by
  rw [termLoop]; rfl

theorem termLoop_succ (U : Uni) (n : Nat) (a : Node) (c : Token) (ts : List Token) (k : Nat) :
    termLoop U (n + 1) a ⟨c :: ts, k⟩ =
      if AndTok c then (expRule U n ⟨ts, k⟩).bind fun x =>
        termLoop U n (.mk .boolOp c x.2.nextId .none [a, x.1]) ⟨x.2.toks, x.2.nextId + 1⟩
      else .ok (a, ⟨c :: ts, k⟩) := by
  rw [termLoop]
  simp only [PState.cur, bind, Except.bind, pure, Except.pure]
  by_cases h : AndTok c
  · rw [if_pos h, if_pos (show c.type = .boolOp ∧ c.value = .str "AND".toList from h)]
    simp only [PState.eat, h.1, if_true]
    cases expRule U n ⟨ts, k⟩ with
    | error e => rfl
    | ok x => simp [PState.mkNode, initRes, bind, Except.bind, pure, Except.pure]
  · rw [if_neg h, if_neg (show ¬ (c.type = .boolOp ∧ c.value = .str "AND".toList) from h)]

theorem policyLoop_nil (U : Uni) (n : Nat) (a : Node) (k : Nat) :
    policyLoop U (n + 1) a ⟨[], k⟩ = .error .attributeError := by
  rw [policyLoop]; rfl

theorem policyLoop_succ (U : Uni) (n : Nat) (a : Node) (c : Token) (ts : List Token) (k : Nat) :
    policyLoop U (n + 1) a ⟨c :: ts, k⟩ =
      if OrTok c then (termRule U n ⟨ts, k⟩).bind fun x =>
        policyLoop U n (.mk .boolOp c x.2.nextId .none [a, x.1]) ⟨x.2.toks, x.2.nextId + 1⟩
      else .ok (a, ⟨c :: ts, k⟩) := by
  rw [policyLoop]
  simp only [PState.cur, bind, Except.bind, pure, Except.pure]
  by_cases h : OrTok c
  · rw [if_pos h, if_pos (show c.type = .boolOp ∧ c.value = .str "OR".toList from h)]
    simp only [PState.eat, h.1, if_true]
    cases termRule U n ⟨ts, k⟩ with
    | error e => rfl
    | ok x => simp [PState.mkNode, initRes, bind, Except.bind, pure, Except.pure]
  · rw [if_neg h, if_neg (show ¬ (c.type = .boolOp ∧ c.value = .str "OR".toList) from h)]

/-! ### Outcomes -/

/-- A failure at the tokens that remain. -/
inductive PFail (e : PyExc) : List Token → Prop
  | parser {t r rule} (h : e = .parserError t.pos rule) : PFail e (t :: r)
  | eof (h : e = .attributeError) : PFail e []
  | badBool {t r} (h : e = .attributeError) (ht : t.type = .bool) (hb : ¬ BoolTok t) :
      PFail e (t :: r)

theorem FailAt.toPFail {e : PyExc} {r : List Token} (h : FailAt e r) : PFail e r := by
  cases h with
  | parser h => exact .parser h
  | eof h => exact .eof h

/-- How a rule for `D` fails on `toks`: at a token before which everything can be completed, or with
IndexError on the last token where any expression would be possible. -/
def Err (D : List Token → Policy → Prop) (toks : List Token) (e : PyExc) : Prop :=
  (∃ us rest vs p, toks = us ++ rest ∧ D (us ++ vs) p ∧ PFail e rest) ∨
  (∃ us t, toks = us ++ [t] ∧ e = .indexError ∧
    ∀ ws q, DExp false ws q → ∃ vs p, D (us ++ ws ++ vs) p)

theorem Err.lift {D D' : List Token → Policy → Prop} {toks toks' pre : List Token} {e : PyExc}
    (h : Err D toks e) (ht : toks' = pre ++ toks)
    (hD : ∀ ts p, D ts p → ∃ vs p', D' (pre ++ ts ++ vs) p') : Err D' toks' e := by
  subst ht
  rcases h with ⟨us, rest, vs, p, rfl, h1, h2⟩ | ⟨us, t, rfl, h1, h2⟩
  · obtain ⟨vs', p', h'⟩ := hD _ _ h1
    exact Or.inl ⟨pre ++ us, rest, vs ++ vs', p', by simp, by simpa using h', h2⟩
  · refine Or.inr ⟨pre ++ us, t, by simp, h1, ?_⟩
    intro ws q hq
    obtain ⟨vs, p, h3⟩ := h2 ws q hq
    obtain ⟨vs', p', h'⟩ := hD _ _ h3
    exact ⟨vs ++ vs', p', by simpa using h'⟩

/-- What a rule for `D` may do, node ids counted from `k0`. -/
def Out (U : Uni) (D : List Token → Policy → Prop) (toks : List Token) (k0 : Nat) :
    Except PyExc (Node × PState) → Prop
  | .ok x => ∃ us p, toks = us ++ x.2.toks ∧ D us p ∧ p.build U k0 = (x.1, x.2.nextId)
  | .error e => e = .outOfFuel ∨ Err D toks e

/-- A literal that can stand for any expression. -/
def anyLit : Token := ⟨.bool, 0, .str "TRUE".toList⟩

theorem anyLit_tok : BoolTok anyLit := ⟨rfl, _, rfl⟩

theorem boolVar_cases (U : Uni) (s : PState) :
    (∃ t ts, s.toks = t :: ts ∧ BoolTok t ∧ boolVarRule U s =
      .ok ((Policy.build U (.lit t) s.nextId).1, ⟨ts, (Policy.build U (.lit t) s.nextId).2⟩)) ∨
    (∃ t ts, s.toks = t :: ts ∧ AttTok t ∧ boolVarRule U s =
      .ok ((Policy.build U (.att t) s.nextId).1, ⟨ts, (Policy.build U (.att t) s.nextId).2⟩)) ∨
    (∃ e, boolVarRule U s = .error e ∧ PFail e s.toks) := by
  obtain ⟨toks, k⟩ := s
  cases toks with
  | nil => exact Or.inr (Or.inr ⟨_, boolVarRule_nil U k, .eof rfl⟩)
  | cons t ts =>
    by_cases h : t.type = .bool
    · by_cases hb : BoolTok t
      · exact Or.inl ⟨t, ts, rfl, hb, boolVarRule_lit U t ts k hb⟩
      · exact Or.inr (Or.inr ⟨_, boolVarRule_bad U t ts k h hb, .badBool rfl h hb⟩)
    · by_cases ha : AttTok t
      · exact Or.inr (Or.inl ⟨t, ts, rfl, ha, by
          rw [boolVarRule_att U t ts k h, attNameRule_ok U t ts k ha]; rfl⟩)
      · refine Or.inr (Or.inr ⟨.parserError t.pos "att_name", ?_, .parser rfl⟩)
        rw [boolVarRule_att U t ts k h, attNameRule_err U t ts k ha]

theorem cmpRule_out (U : Uni) (toks : List Token) (k : Nat) :
    Out U (DExp false) toks k (cmpRule U ⟨toks, k⟩) := by
  have hd : DVar false [⟨.int, 0, .int 0⟩] (.atom ⟨.int, 0, .int 0⟩) := .atom (by simp [AtomTok])
  unfold cmpRule
  cases h1 : varRule U ⟨toks, k⟩ with
  | error e =>
    simp only [Except.bind, Out]
    obtain ⟨us, rest, vs, v, e1, e2, e3⟩ := varRule_error U _ _ h1
    have := DExp.cmp (o := ⟨.op, 0, .none⟩) e2 rfl hd
    exact Or.inr (Or.inl ⟨us, rest, vs ++ ⟨.op, 0, .none⟩ :: [⟨.int, 0, .int 0⟩], _, e1,
      by simpa using this, e3.toPFail⟩)
  | ok x =>
    simp only [Except.bind]
    obtain ⟨us, v, e1, e2, e3⟩ := varRule_sound U _ _ _ h1
    simp only at e1 e3
    cases hx : x.2.toks with
    | nil =>
      exact Or.inr (Or.inl ⟨us, [], ⟨.op, 0, .none⟩ :: [⟨.int, 0, .int 0⟩], _, by rw [e1, hx],
        DExp.cmp (o := ⟨.op, 0, .none⟩) e2 rfl hd, .eof rfl⟩)
    | cons o os =>
      simp only
      by_cases ho : o.type = .op
      · rw [if_pos ho]
        cases h2 : varRule U ⟨os, x.2.nextId⟩ with
        | error e =>
          simp only [Out]
          obtain ⟨us', rest, vs, v', e1', e2', e3'⟩ := varRule_error U _ _ h2
          simp only at e1'
          have := DExp.cmp e2 ho e2'
          exact Or.inr (Or.inl ⟨us ++ o :: us', rest, vs, _, by rw [e1, hx, e1']; simp,
            by simpa using this, e3'.toPFail⟩)
        | ok y =>
          simp only [Out]
          obtain ⟨us', v', e1', e2', e3'⟩ := varRule_sound U _ _ _ h2
          simp only at e1' e3'
          refine ⟨us ++ o :: us', _, by rw [e1, hx, e1']; simp, .cmp e2 ho e2', ?_⟩
          simp [Policy.build, e3, e3']
      · rw [if_neg ho]
        exact Or.inr (Or.inl ⟨us, o :: os, ⟨.op, 0, .none⟩ :: [⟨.int, 0, .int 0⟩], _, by rw [e1, hx],
          DExp.cmp (o := ⟨.op, 0, .none⟩) e2 rfl hd, .parser rfl⟩)

theorem err_exp_here {toks : List Token} {e : PyExc} (h : PFail e toks) : Err (DExp false) toks e :=
  Or.inl ⟨[], toks, [anyLit], .lit anyLit, rfl, .lit anyLit_tok, h⟩

theorem closeParen_out (U : Uni) (pre toks : List Token) (k : Nat) (x : Node × PState)
    (g : Policy → Policy) (f : Node → Nat → Node × Nat)
    (hx : Out U (DPolicy false) toks k (.ok x))
    (hf : ∀ p a j, p.build U k = (a, j) → (g p).build U k = f a j)
    (hg : ∀ ts p r, DPolicy false ts p → r.type = .rparn → DExp false (pre ++ ts ++ [r]) (g p)) :
    Out U (DExp false) (pre ++ toks) k (closeParen x f) := by
  obtain ⟨us, p, e1, e2, e3⟩ := hx
  unfold closeParen
  have hv : DExp false (pre ++ us ++ [⟨.rparn, 0, .none⟩]) (g p) := hg us p _ e2 rfl
  cases hx : x.2.toks with
  | nil =>
    exact Or.inr (Or.inl ⟨pre ++ us, [], _, _, by rw [e1, hx]; simp, hv, .eof rfl⟩)
  | cons r rs =>
    simp only
    by_cases hr : r.type = .rparn
    · rw [if_pos hr]
      refine ⟨pre ++ us ++ [r], g p, by rw [e1, hx]; simp, hg _ _ _ e2 hr, ?_⟩
      rw [hf _ _ _ e3]
    · rw [if_neg hr]
      exact Or.inr (Or.inl ⟨pre ++ us, r :: rs, _, _, by rw [e1, hx]; simp, hv, .parser rfl⟩)

/-- The joint induction on fuel. -/
theorem rules_out (U : Uni) (n : Nat) :
    (∀ toks k, Out U (DExp false) toks k (expRule U n ⟨toks, k⟩)) ∧
    (∀ toks k, Out U (DTerm false) toks k (termRule U n ⟨toks, k⟩)) ∧
    (∀ toks k, Out U (DPolicy false) toks k (policyRule U n ⟨toks, k⟩)) ∧
    (∀ ts0 p0 k0 toks k a, DTerm false ts0 p0 → p0.build U k0 = (a, k) →
      Out U (fun ts p => DTerm false (ts0 ++ ts) p) toks k0 (termLoop U n a ⟨toks, k⟩)) ∧
    (∀ ts0 p0 k0 toks k a, DPolicy false ts0 p0 → p0.build U k0 = (a, k) →
      Out U (fun ts p => DPolicy false (ts0 ++ ts) p) toks k0 (policyLoop U n a ⟨toks, k⟩)) := by
  induction n with
  | zero =>
    refine ⟨?_, ?_, ?_, ?_, ?_⟩
    · intro toks k; rw [expRule]; exact Or.inl rfl
    · intro toks k; rw [termRule]; exact Or.inl rfl
    · intro toks k; rw [policyRule]; exact Or.inl rfl
    · intros; rw [termLoop]; exact Or.inl rfl
    · intros; rw [policyLoop]; exact Or.inl rfl
  | succ n ih =>
    obtain ⟨ihE, ihT, ihP, ihTL, ihPL⟩ := ih
    refine ⟨?_, ?_, ?_, ?_, ?_⟩
    · -- exp
      intro toks k
      cases toks with
      | nil => rw [expRule_nil]; exact Or.inr (err_exp_here (.eof rfl))
      | cons c ts =>
        by_cases hn : c.type = .notOp
        · cases ts with
          | nil =>
            rw [expRule_not_nil U n c k hn]
            exact Or.inr (Or.inl ⟨[c], [], [anyLit], _, rfl, .notLit hn anyLit_tok, .eof rfl⟩)
          | cons d ds =>
            by_cases hd : d.type = .lparn
            · rw [expRule_not_paren U n c d ds k hn hd]
              have hP := ihP ds k
              cases h1 : policyRule U n ⟨ds, k⟩ with
              | error e =>
                rw [h1] at hP
                rcases hP with h | h
                · exact Or.inl h
                · refine Or.inr (h.lift (pre := [c, d]) rfl ?_)
                  intro ts p hp
                  exact ⟨[⟨.rparn, 0, .none⟩], _, .notParen hn hd hp rfl⟩
              | ok x =>
                rw [h1] at hP
                simp only [Except.bind]
                refine closeParen_out U [c, d] ds k x (.not c) _ hP ?_ ?_
                · intro p a j h; simp [Policy.build, h]
                · intro ts p r hp hr; exact .notParen hn hd hp hr
            · rw [expRule_not_bool U n c d ds k hn hd]
              rcases boolVar_cases U ⟨d :: ds, k⟩ with ⟨t, ts, h1, h2, h3⟩ | ⟨t, ts, h1, h2, h3⟩ |
                ⟨e, h1, h2⟩
              · rw [h3]
                simp only [List.cons.injEq] at h1
                obtain ⟨rfl, rfl⟩ := h1
                exact ⟨[c, d], _, rfl, .notLit hn h2, by simp [Policy.build]⟩
              · rw [h3]
                simp only [List.cons.injEq] at h1
                obtain ⟨rfl, rfl⟩ := h1
                exact ⟨[c, d], _, rfl, .notAtt hn h2, by simp [Policy.build]⟩
              · rw [h1]
                exact Or.inr (Or.inl ⟨[c], d :: ds, [anyLit], _, rfl, .notLit hn anyLit_tok, h2⟩)
        · by_cases hl : c.type = .lparn
          · rw [expRule_paren U n c ts k hl]
            have hP := ihP ts k
            cases h1 : policyRule U n ⟨ts, k⟩ with
            | error e =>
              rw [h1] at hP
              rcases hP with h | h
              · exact Or.inl h
              · refine Or.inr (h.lift (pre := [c]) rfl ?_)
                intro ts p hp
                exact ⟨[⟨.rparn, 0, .none⟩], _, .paren hl hp rfl⟩
            | ok x =>
              rw [h1] at hP
              simp only [Except.bind]
              refine closeParen_out U [c] ts k x id _ hP ?_ ?_
              · intro p a j h; simp [h]
              · intro ts p r hp hr; exact .paren hl hp hr
          · rw [expRule_else U n c ts k hn hl]
            cases hb : isComparison ⟨c :: ts, k⟩ c with
            | error e =>
              simp only [Except.bind]
              by_cases hset : c.type = .lset
              · rw [isComparison_lset _ _ hset] at hb; simp at hb
              · cases ts with
                | nil =>
                  rw [isComparison_last c k hset] at hb
                  simp only [Except.error.injEq] at hb
                  refine Or.inr (Or.inr ⟨[], c, rfl, hb.symm, ?_⟩)
                  intro ws q hq
                  exact ⟨[], q, by simpa using hq⟩
                | cons d ds => rw [isComparison_two c d ds k hset] at hb; simp at hb
            | ok b =>
              simp only [Except.bind]
              by_cases hb' : b = true
              · rw [if_pos hb']; exact cmpRule_out U _ k
              · rw [if_neg hb']
                by_cases hv : c.type = .bool ∨ c.isAtt = true
                · rw [if_pos hv]
                  rcases boolVar_cases U ⟨c :: ts, k⟩ with ⟨t, ts, h1, h2, h3⟩ |
                    ⟨t, ts, h1, h2, h3⟩ | ⟨e, h1, h2⟩
                  · rw [h3]
                    exact ⟨[t], _, h1, .lit h2, by simp [Policy.build]⟩
                  · rw [h3]
                    exact ⟨[t], _, h1, .att h2, by simp [Policy.build]⟩
                  · rw [h1]
                    exact Or.inr (err_exp_here h2)
                · rw [if_neg hv]
                  exact Or.inr (err_exp_here (.parser rfl))
    · -- term
      intro toks k
      rw [termRule_succ]
      have hE := ihE toks k
      cases h1 : expRule U n ⟨toks, k⟩ with
      | error e =>
        rw [h1] at hE
        rcases hE with h | h
        · exact Or.inl h
        · exact Or.inr (h.lift (pre := []) rfl (fun ts p hp => ⟨[], p, by simpa using .exp hp⟩))
      | ok x =>
        rw [h1] at hE
        obtain ⟨us, p, e1, e2, e3⟩ := hE
        simp only [Except.bind]
        have hL := ihTL us p k x.2.toks x.2.nextId x.1 (.exp e2) e3
        cases h2 : termLoop U n x.1 ⟨x.2.toks, x.2.nextId⟩ with
        | error e =>
          rw [h2] at hL
          rcases hL with h | h
          · exact Or.inl h
          · exact Or.inr (h.lift (pre := us) e1 (fun ts p hp => ⟨[], p, by simpa using hp⟩))
        | ok y =>
          rw [h2] at hL
          obtain ⟨us', p', e1', e2', e3'⟩ := hL
          exact ⟨us ++ us', p', by rw [e1, e1']; simp, e2', e3'⟩
    · -- policy
      intro toks k
      rw [policyRule_succ]
      have hT := ihT toks k
      cases h1 : termRule U n ⟨toks, k⟩ with
      | error e =>
        rw [h1] at hT
        rcases hT with h | h
        · exact Or.inl h
        · exact Or.inr (h.lift (pre := []) rfl (fun ts p hp => ⟨[], p, by simpa using .term hp⟩))
      | ok x =>
        rw [h1] at hT
        obtain ⟨us, p, e1, e2, e3⟩ := hT
        simp only [Except.bind]
        have hL := ihPL us p k x.2.toks x.2.nextId x.1 (.term e2) e3
        cases h2 : policyLoop U n x.1 ⟨x.2.toks, x.2.nextId⟩ with
        | error e =>
          rw [h2] at hL
          rcases hL with h | h
          · exact Or.inl h
          · exact Or.inr (h.lift (pre := us) e1 (fun ts p hp => ⟨[], p, by simpa using hp⟩))
        | ok y =>
          rw [h2] at hL
          obtain ⟨us', p', e1', e2', e3'⟩ := hL
          exact ⟨us ++ us', p', by rw [e1, e1']; simp, e2', e3'⟩
    · -- term loop
      intro ts0 p0 k0 toks k a h0 hb0
      cases toks with
      | nil =>
        rw [termLoop_nil]
        exact Or.inr (Or.inl ⟨[], [], [], p0, rfl, by simpa using h0, .eof rfl⟩)
      | cons c ts =>
        rw [termLoop_succ]
        by_cases hc : AndTok c
        · rw [if_pos hc]
          have hE := ihE ts k
          cases h1 : expRule U n ⟨ts, k⟩ with
          | error e =>
            rw [h1] at hE
            rcases hE with h | h
            · exact Or.inl h
            · exact Or.inr (h.lift (pre := [c]) rfl
                (fun ts p hp => ⟨[], _, by simpa using .and h0 hc hp⟩))
          | ok x =>
            rw [h1] at hE
            obtain ⟨us, p, e1, e2, e3⟩ := hE
            simp only [Except.bind]
            have hL := ihTL (ts0 ++ c :: us) (.bin c p0 p) k0 x.2.toks (x.2.nextId + 1)
              (.mk .boolOp c x.2.nextId .none [a, x.1]) (.and h0 hc e2)
              (by simp [Policy.build, hb0, e3])
            cases h2 : termLoop U n (.mk .boolOp c x.2.nextId .none [a, x.1])
                ⟨x.2.toks, x.2.nextId + 1⟩ with
            | error e =>
              rw [h2] at hL
              rcases hL with h | h
              · exact Or.inl h
              · exact Or.inr (h.lift (pre := c :: us) (by rw [e1]; simp)
                  (fun ts p hp => ⟨[], p, by simpa using hp⟩))
            | ok y =>
              rw [h2] at hL
              obtain ⟨us', p', e1', e2', e3'⟩ := hL
              exact ⟨c :: us ++ us', p', by rw [e1, e1']; simp, by simpa using e2', e3'⟩
        · rw [if_neg hc]
          exact ⟨[], p0, rfl, by simpa using h0, hb0⟩
    · -- policy loop
      intro ts0 p0 k0 toks k a h0 hb0
      cases toks with
      | nil =>
        rw [policyLoop_nil]
        exact Or.inr (Or.inl ⟨[], [], [], p0, rfl, by simpa using h0, .eof rfl⟩)
      | cons c ts =>
        rw [policyLoop_succ]
        by_cases hc : OrTok c
        · rw [if_pos hc]
          have hT := ihT ts k
          cases h1 : termRule U n ⟨ts, k⟩ with
          | error e =>
            rw [h1] at hT
            rcases hT with h | h
            · exact Or.inl h
            · exact Or.inr (h.lift (pre := [c]) rfl
                (fun ts p hp => ⟨[], _, by simpa using .or h0 hc hp⟩))
          | ok x =>
            rw [h1] at hT
            obtain ⟨us, p, e1, e2, e3⟩ := hT
            simp only [Except.bind]
            have hL := ihPL (ts0 ++ c :: us) (.bin c p0 p) k0 x.2.toks (x.2.nextId + 1)
              (.mk .boolOp c x.2.nextId .none [a, x.1]) (.or h0 hc e2)
              (by simp [Policy.build, hb0, e3])
            cases h2 : policyLoop U n (.mk .boolOp c x.2.nextId .none [a, x.1])
                ⟨x.2.toks, x.2.nextId + 1⟩ with
            | error e =>
              rw [h2] at hL
              rcases hL with h | h
              · exact Or.inl h
              · exact Or.inr (h.lift (pre := c :: us) (by rw [e1]; simp)
                  (fun ts p hp => ⟨[], p, by simpa using hp⟩))
            | ok y =>
              rw [h2] at hL
              obtain ⟨us', p', e1', e2', e3'⟩ := hL
              exact ⟨c :: us ++ us', p', by rw [e1, e1']; simp, by simpa using e2', e3'⟩
        · rw [if_neg hc]
          exact ⟨[], p0, rfl, by simpa using h0, hb0⟩

end Verif.Proofs
