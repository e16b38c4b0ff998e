import Verif.Model.Depth
import Verif.Spec.Depth
import Verif.Proofs.ParserComplete
/-!
# Recursion limits: parser
-/

namespace Verif.Proofs
open Verif Verif.Spec

/-! ### Nesting -/

/-- The nesting of parentheses, from left to right. -/
def deepest : List Token → Nat
  | [] => 0
  | t :: ts => if t.type = .lparn then deepest ts + 1 else if t.type = .rparn then deepest ts - 1 else deepest ts

theorem balance_nil : balance [] = 0 := rfl

theorem balance_cons (t : Token) (ts : List Token) :
    balance (t :: ts) = (if t.type = .lparn then 1 else if t.type = .rparn then -1 else 0) + balance ts := by
  unfold balance
  rw [List.countP_cons, List.countP_cons]
  by_cases h1 : t.type = .lparn
  · simp [h1]; omega
  · by_cases h2 : t.type = .rparn
    · simp [h2]; omega
    · simp [h1, h2]

theorem deepest_nesting (ts : List Token) : Nesting ts (deepest ts) := by
  induction ts with
  | nil => exact ⟨fun i => by simp [balance_nil, deepest], 0, rfl⟩
  | cons t ts ih =>
    obtain ⟨h1, j, h2⟩ := ih
    constructor
    · intro i
      cases i with
      | zero => rw [List.take_zero, balance_nil]; omega
      | succ i =>
        rw [List.take_succ_cons, balance_cons]
        have := h1 i
        simp only [deepest]
        split
        · omega
        · split <;> omega
    · simp only [deepest]
      by_cases hl : t.type = .lparn
      · refine ⟨j + 1, ?_⟩
        rw [List.take_succ_cons, balance_cons, if_pos hl, if_pos hl, h2]
        omega
      · by_cases hr : t.type = .rparn
        · rw [if_neg hl, if_pos hr]
          by_cases h0 : deepest ts = 0
          · refine ⟨0, ?_⟩
            rw [h0]; rfl
          · refine ⟨j + 1, ?_⟩
            rw [List.take_succ_cons, balance_cons, if_neg hl, if_pos hr, h2]
            omega
        · rw [if_neg hl, if_neg hr]
          refine ⟨j + 1, ?_⟩
          rw [List.take_succ_cons, balance_cons, if_neg hl, if_neg hr, h2]
          omega

theorem nesting_iff (ts : List Token) (m : Nat) : Nesting ts m ↔ m = deepest ts := by
  constructor
  · rintro ⟨h1, i, h2⟩
    obtain ⟨h3, j, h4⟩ := deepest_nesting ts
    have a := h1 j
    have b := h3 i
    omega
  · rintro rfl
    exact deepest_nesting ts

/-- What follows is not affected by these tokens. -/
def Settled (us : List Token) : Prop := ∀ vs, deepest (us ++ vs) = max (deepest us) (deepest vs)

theorem closed_nil : Settled [] := by intro vs; simp [deepest]

theorem closed_append {us vs : List Token} (h1 : Settled us) (h2 : Settled vs) : Settled (us ++ vs) := by
  intro ws
  rw [List.append_assoc, h1, h2, h1]
  omega

theorem closed_one {t : Token} (h1 : t.type ≠ .lparn) (h2 : t.type ≠ .rparn) : Settled [t] ∧ deepest [t] = 0 := by
  refine ⟨?_, by simp [deepest, h1, h2]⟩
  intro vs
  simp [deepest, h1, h2]

theorem closed_cons {t : Token} {us : List Token} (h1 : t.type ≠ .lparn) (h2 : t.type ≠ .rparn) (h : Settled us) :
    Settled (t :: us) ∧ deepest (t :: us) = deepest us := by
  refine ⟨closed_append (closed_one h1 h2).1 h, by simp [deepest, h1, h2]⟩

theorem closed_paren {l r : Token} {us : List Token} (hl : l.type = .lparn) (hr : r.type = .rparn) (h : Settled us) :
    Settled (l :: (us ++ [r])) ∧ deepest (l :: (us ++ [r])) = deepest us + 1 := by
  have e1 : deepest (l :: (us ++ [r])) = deepest us + 1 := by
    rw [deepest, if_pos hl, h [r]]
    simp [deepest, hr]
  refine ⟨?_, e1⟩
  intro vs
  rw [e1, List.cons_append, List.append_assoc, deepest, if_pos hl, h]
  have : deepest ([r] ++ vs) = deepest vs - 1 := by simp [deepest, hr]
  rw [this]
  omega

/-- Tokens without parentheses. -/
theorem closed_flat {us : List Token} (h : ∀ t ∈ us, t.type ≠ .lparn ∧ t.type ≠ .rparn) :
    Settled us ∧ deepest us = 0 := by
  induction us with
  | nil => exact ⟨closed_nil, rfl⟩
  | cons t ts ih =>
    obtain ⟨a, b⟩ := ih fun x hx => h x (List.mem_cons_of_mem _ hx)
    obtain ⟨c, d⟩ := h t (List.mem_cons_self ..)
    have := closed_cons c d a
    exact ⟨this.1, by rw [this.2, b]⟩

theorem att_flat {t : Token} (h : AttTok t) : t.type ≠ .lparn ∧ t.type ≠ .rparn := by
  unfold AttTok at h
  rcases h with h | h | h | h | h <;> rw [h] <;> decide

theorem atom_flat {b : Bool} {t : Token} (h : AtomTok b t) : t.type ≠ .lparn ∧ t.type ≠ .rparn := by
  unfold AtomTok at h
  rcases h with h | h | h | h | ⟨_, h⟩ <;> rw [h] <;> decide

theorem setVal_flat {b : Bool} {ts es : List Token} (h : DSetVal b ts es) :
    ∀ t ∈ ts, t.type ≠ .lparn ∧ t.type ≠ .rparn := by
  induction h with
  | one ht => intro t h; simp only [List.mem_singleton] at h; subst h; exact atom_flat ht
  | cons ht hc _ ih =>
    intro t h
    simp only [List.mem_cons] at h
    rcases h with rfl | rfl | h
    · exact atom_flat ht
    · rw [hc]; decide
    · exact ih t h

theorem var_flat {b : Bool} {ts : List Token} {v : Operand} (h : DVar b ts v) :
    ∀ t ∈ ts, t.type ≠ .lparn ∧ t.type ≠ .rparn := by
  cases h with
  | att ht => intro t h; simp only [List.mem_singleton] at h; subst h; exact att_flat ht
  | atom ht => intro t h; simp only [List.mem_singleton] at h; subst h; exact atom_flat ht
  | empty hl hr =>
    intro t h
    simp only [List.mem_cons, List.not_mem_nil, or_false] at h
    rcases h with rfl | rfl
    · rw [hl]; decide
    · rw [hr]; decide
  | set hl h hr =>
    intro t ht
    simp only [List.mem_cons, List.mem_append, List.not_mem_nil, or_false] at ht
    rcases ht with rfl | ht | rfl
    · rw [hl]; decide
    · exact setVal_flat h t ht
    · rw [hr]; decide

/-! ### The rules under a limit -/

/-- A rule that takes `c` frames and three for each pair of parentheses it is inside of: on success the outcome is the
same with enough frames, RecursionError otherwise; an exception stays or is replaced by RecursionError. -/
def Within (c d : Nat) (toks : List Token) (plain : Except PyExc (Node × PState))
    (bounded : Except Raised (Node × PState)) : Prop :=
  match plain with
  | .ok x => ∃ us, toks = us ++ x.2.toks ∧ Settled us ∧
      bounded = if c + 3 * deepest us ≤ d then .ok x else .error .recursion
  | .error e => bounded = .error (.py e) ∨ bounded = .error .recursion

/-- The same for a loop, which takes no frame if it stops at once. -/
def WithinLoop (c d : Nat) (toks : List Token) (plain : Except PyExc (Node × PState))
    (bounded : Except Raised (Node × PState)) : Prop :=
  match plain with
  | .ok x => ∃ us, toks = us ++ x.2.toks ∧ Settled us ∧
      bounded = if us = [] ∨ c + 3 * deepest us ≤ d then .ok x else .error .recursion
  | .error e => bounded = .error (.py e) ∨ bounded = .error .recursion

theorem expRuleD_nil (U : Uni) (n d : Nat) (k : Nat) :
    expRuleD U (n + 1) (d + 1) ⟨[], k⟩ = .error (.py .attributeError) := by
  rw [expRuleD]; rfl

theorem expRuleD_not_nil (U : Uni) (n d : Nat) (c : Token) (k : Nat) (hc : c.type = .notOp) :
    expRuleD U (n + 1) (d + 1) ⟨[c], k⟩ = .error (.py .attributeError) := by
  rw [expRuleD]; simp [PState.cur, PState.eat, hc, bind, Except.bind, liftR]

theorem expRuleD_not_paren (U : Uni) (n d : Nat) (c e : Token) (ds : List Token) (k : Nat)
    (hc : c.type = .notOp) (he : e.type = .lparn) :
    expRuleD U (n + 1) (d + 1) ⟨c :: e :: ds, k⟩ = (policyRuleD U n d ⟨ds, k⟩).bind fun x =>
      liftR (closeParen x fun a j => (.mk .not c j .none [a], j + 1)) := by
  rw [expRuleD]
  simp only [PState.cur, PState.eat, hc, he, bind, Except.bind, if_true, liftR]
  cases policyRuleD U n d ⟨ds, k⟩ with
  | error e => rfl
  | ok x =>
    simp only [closeParen]
    cases hx : x.2.toks with
    | nil => rfl
    | cons r rs =>
      simp only
      by_cases hr : r.type = .rparn
      · simp [hr, PState.mkNode, initRes, bind, Except.bind, pure, Except.pure, liftR]
      · simp [hr, liftR]

theorem expRuleD_not_bool (U : Uni) (n d : Nat) (c e : Token) (ds : List Token) (k : Nat)
    (hc : c.type = .notOp) (he : e.type ≠ .lparn) :
    expRuleD U (n + 1) (d + 1) ⟨c :: e :: ds, k⟩ = liftR (expRule U (n + 1) ⟨c :: e :: ds, k⟩) := by
  rw [expRule_not_bool U n c e ds k hc he, expRuleD]
  simp only [PState.cur, PState.eat, hc, he, bind, Except.bind, if_true, if_false, liftR]
  cases boolVarRule U ⟨e :: ds, k⟩ with
  | error e => rfl
  | ok x => simp [PState.mkNode, initRes, bind, Except.bind, pure, Except.pure, liftR]

theorem expRuleD_paren (U : Uni) (n d : Nat) (c : Token) (ds : List Token) (k : Nat)
    (hc : c.type = .lparn) :
    expRuleD U (n + 1) (d + 1) ⟨c :: ds, k⟩ = (policyRuleD U n d ⟨ds, k⟩).bind fun x =>
      liftR (closeParen x fun a j => (a, j)) := by
  rw [expRuleD]
  simp only [PState.cur, PState.eat, hc, bind, Except.bind, if_true, liftR]
  rw [if_neg (by simp)]
  cases policyRuleD U n d ⟨ds, k⟩ with
  | error e => rfl
  | ok x =>
    simp only [closeParen]
    cases hx : x.2.toks with
    | nil => rfl
    | cons r rs =>
      simp only
      by_cases hr : r.type = .rparn
      · simp [hr, pure, Except.pure, liftR]
      · simp [hr, liftR]

/-- The last branches of `_exp_rule`. -/
theorem expRuleD_else (U : Uni) (n d : Nat) (c : Token) (ds : List Token) (k : Nat)
    (h1 : c.type ≠ .notOp) (h2 : c.type ≠ .lparn) :
    expRuleD U (n + 1) (d + 1) ⟨c :: ds, k⟩ = liftR (expRule U (n + 1) ⟨c :: ds, k⟩) := by
  rw [expRule_else U n c ds k h1 h2, expRuleD]
  simp only [PState.cur, bind, Except.bind, liftR]
  rw [if_neg h1, if_neg h2]
  cases isComparison ⟨c :: ds, k⟩ c with
  | error e => rfl
  | ok b =>
    simp only
    cases b with
    | false =>
      simp only [Bool.false_eq_true, if_false]
      by_cases hv : c.type = .bool ∨ c.isAtt = true
      · rw [if_pos hv, if_pos hv]
      · rw [if_neg hv, if_neg hv]
    | true =>
      simp only [if_true, cmpRule, Except.bind]
      cases varRule U ⟨c :: ds, k⟩ with
      | error e => rfl
      | ok x =>
        simp only [PState.eat]
        cases hx : x.2.toks with
        | nil => rfl
        | cons o os =>
          simp only
          by_cases ho : o.type = .op
          · simp only [ho, if_true]
            cases varRule U ⟨os, x.2.nextId⟩ with
            | error e => rfl
            | ok y => simp [PState.mkNode, initRes, bind, Except.bind, pure, Except.pure]
          · simp [ho]

theorem termRuleD_succ (U : Uni) (n d : Nat) (s : PState) :
    termRuleD U (n + 1) (d + 1) s = (expRuleD U n d s).bind fun x => termLoopD U n d x.1 x.2 := by
  rw [termRuleD]; rfl

theorem policyRuleD_succ (U : Uni) (n d : Nat) (s : PState) :
    policyRuleD U (n + 1) (d + 1) s = (termRuleD U n d s).bind fun x => policyLoopD U n d x.1 x.2 := by
  rw [policyRuleD]; rfl

theorem termLoopD_nil (U : Uni) (n d : Nat) (a : Node) (k : Nat) :
    termLoopD U (n + 1) d a ⟨[], k⟩ = .error (.py .attributeError) := by
  rw [termLoopD]; rfl

theorem termLoopD_succ (U : Uni) (n d : Nat) (a : Node) (c : Token) (ts : List Token) (k : Nat) :
    termLoopD U (n + 1) d a ⟨c :: ts, k⟩ =
      if AndTok c then (expRuleD U n d ⟨ts, k⟩).bind fun x =>
        termLoopD U n d (.mk .boolOp c x.2.nextId .none [a, x.1]) ⟨x.2.toks, x.2.nextId + 1⟩
      else .ok (a, ⟨c :: ts, k⟩) := by
  rw [termLoopD]
  simp only [PState.cur, bind, Except.bind, pure, Except.pure, liftR]
  by_cases h : AndTok c
  · rw [if_pos h, if_pos (show c.type = .boolOp ∧ c.value = .str "AND".toList from h)]
    simp only [PState.eat, h.1, if_true]
    cases expRuleD U n d ⟨ts, k⟩ with
    | error e => rfl
    | ok x => simp [PState.mkNode, initRes, bind, Except.bind, pure, Except.pure]
  · rw [if_neg h, if_neg (show ¬ (c.type = .boolOp ∧ c.value = .str "AND".toList) from h)]

theorem policyLoopD_nil (U : Uni) (n d : Nat) (a : Node) (k : Nat) :
    policyLoopD U (n + 1) d a ⟨[], k⟩ = .error (.py .attributeError) := by
  rw [policyLoopD]; rfl

theorem policyLoopD_succ (U : Uni) (n d : Nat) (a : Node) (c : Token) (ts : List Token) (k : Nat) :
    policyLoopD U (n + 1) d a ⟨c :: ts, k⟩ =
      if OrTok c then (termRuleD U n d ⟨ts, k⟩).bind fun x =>
        policyLoopD U n d (.mk .boolOp c x.2.nextId .none [a, x.1]) ⟨x.2.toks, x.2.nextId + 1⟩
      else .ok (a, ⟨c :: ts, k⟩) := by
  rw [policyLoopD]
  simp only [PState.cur, bind, Except.bind, pure, Except.pure, liftR]
  by_cases h : OrTok c
  · rw [if_pos h, if_pos (show c.type = .boolOp ∧ c.value = .str "OR".toList from h)]
    simp only [PState.eat, h.1, if_true]
    cases termRuleD U n d ⟨ts, k⟩ with
    | error e => rfl
    | ok x => simp [PState.mkNode, initRes, bind, Except.bind, pure, Except.pure]
  · rw [if_neg h, if_neg (show ¬ (c.type = .boolOp ∧ c.value = .str "OR".toList) from h)]

/-! ### The joint induction -/

/-- A rule that reads no parenthesis. -/
theorem within_flat {d : Nat} {toks : List Token} {plain : Except PyExc (Node × PState)}
    (h : ∀ x, plain = .ok x → ∃ us, toks = us ++ x.2.toks ∧ ∀ t ∈ us, t.type ≠ .lparn ∧ t.type ≠ .rparn) :
    Within 1 (d + 1) toks plain (liftR plain) := by
  cases hp : plain with
  | error e => exact Or.inl rfl
  | ok x =>
    obtain ⟨us, e, hf⟩ := h x hp
    obtain ⟨c1, c2⟩ := closed_flat hf
    refine ⟨us, e, c1, ?_⟩
    rw [if_pos (by omega)]
    rfl

theorem boolVar_flat (U : Uni) (s : PState) (x : Node × PState) (h : boolVarRule U s = .ok x) :
    ∃ us, s.toks = us ++ x.2.toks ∧ ∀ t ∈ us, t.type ≠ .lparn ∧ t.type ≠ .rparn := by
  rcases boolVar_cases U s with ⟨t, ts, h1, h2, h3⟩ | ⟨t, ts, h1, h2, h3⟩ | ⟨e, h1, _⟩
  · rw [h3] at h
    simp only [Except.ok.injEq] at h
    subst h
    refine ⟨[t], h1, ?_⟩
    intro t' ht'
    simp only [List.mem_singleton] at ht'
    subst ht'
    rw [h2.1]; decide
  · rw [h3] at h
    simp only [Except.ok.injEq] at h
    subst h
    refine ⟨[t], h1, ?_⟩
    intro t' ht'
    simp only [List.mem_singleton] at ht'
    subst ht'
    exact att_flat h2
  · rw [h1] at h; simp at h

theorem cmp_flat (U : Uni) (s : PState) (x : Node × PState) (h : cmpRule U s = .ok x) :
    ∃ us, s.toks = us ++ x.2.toks ∧ ∀ t ∈ us, t.type ≠ .lparn ∧ t.type ≠ .rparn := by
  unfold cmpRule at h
  cases h1 : varRule U s with
  | error e => rw [h1] at h; simp [Except.bind] at h
  | ok y =>
    rw [h1] at h
    simp only [Except.bind] at h
    obtain ⟨us, v, e1, e2, _⟩ := varRule_sound U _ _ _ h1
    cases hy : y.2.toks with
    | nil => rw [hy] at h; simp at h
    | cons o os =>
      rw [hy] at h
      simp only at h
      by_cases ho : o.type = .op
      · rw [if_pos ho] at h
        cases h2 : varRule U ⟨os, y.2.nextId⟩ with
        | error e => rw [h2] at h; simp at h
        | ok z =>
          rw [h2] at h
          simp only [Except.ok.injEq] at h
          subst h
          obtain ⟨us', v', e1', e2', _⟩ := varRule_sound U _ _ _ h2
          simp only at e1'
          refine ⟨us ++ o :: us', by rw [e1, hy, e1']; simp, ?_⟩
          intro t ht
          simp only [List.mem_append, List.mem_cons] at ht
          rcases ht with ht | rfl | ht
          · exact var_flat e2 t ht
          · rw [ho]; decide
          · exact var_flat e2' t ht
      · rw [if_neg ho] at h; simp at h

/-- Parentheses around a policy. -/
theorem within_paren {d : Nat} {pre toks : List Token} {l : Token} {plain : Except PyExc (Node × PState)}
    {bounded : Except Raised (Node × PState)} (f : Node → Nat → Node × Nat)
    (hpre : ∀ t ∈ pre, t.type ≠ .lparn ∧ t.type ≠ .rparn) (hl : l.type = .lparn)
    (h : Within 3 d toks plain bounded) :
    Within 1 (d + 1) (pre ++ l :: toks) (plain.bind fun x => closeParen x f)
      (bounded.bind fun x => liftR (closeParen x f)) := by
  cases hp : plain with
  | error e =>
    rw [hp] at h
    rcases h with h | h
    · exact Or.inl (by rw [h]; rfl)
    · exact Or.inr (by rw [h]; rfl)
  | ok x =>
    rw [hp] at h
    obtain ⟨us, e1, c1, hb⟩ := h
    simp only [Except.bind]
    cases hx : x.2.toks with
    | nil =>
      have : closeParen x f = .error .attributeError := by rw [closeParen, hx]
      rw [this]
      by_cases hd : 3 + 3 * deepest us ≤ d
      · exact Or.inl (by rw [hb, if_pos hd]; simp only [this]; rfl)
      · exact Or.inr (by rw [hb, if_neg hd])
    | cons r rs =>
      by_cases hr : r.type = .rparn
      · have hc : closeParen x f = .ok ((f x.1 x.2.nextId).1, ⟨rs, (f x.1 x.2.nextId).2⟩) := by
          rw [closeParen, hx]; simp [hr]
        rw [hc]
        have hk := closed_paren hl hr c1
        have hq := closed_flat hpre
        refine ⟨pre ++ (l :: (us ++ [r])), by rw [e1, hx]; simp, closed_append hq.1 hk.1, ?_⟩
        rw [hq.1, hq.2, hk.2]
        by_cases hd : 3 + 3 * deepest us ≤ d
        · rw [hb, if_pos hd, if_pos (by omega)]
          simp only [hc]; rfl
        · rw [hb, if_neg hd, if_neg (by omega)]
      · have hc : closeParen x f = .error (.parserError r.pos "exp") := by
          rw [closeParen, hx]; simp [hr]
        rw [hc]
        by_cases hd : 3 + 3 * deepest us ≤ d
        · exact Or.inl (by rw [hb, if_pos hd]; simp only [hc]; rfl)
        · exact Or.inr (by rw [hb, if_neg hd])

/-- A rule followed by its loop. -/
theorem within_rule {c d : Nat} {toks : List Token} {p1 : Except PyExc (Node × PState)}
    {b1 : Except Raised (Node × PState)} (p2 : Node × PState → Except PyExc (Node × PState))
    (b2 : Node × PState → Except Raised (Node × PState))
    (h1 : Within c d toks p1 b1) (h2 : ∀ x, p1 = .ok x → WithinLoop c d x.2.toks (p2 x) (b2 x)) :
    Within (c + 1) (d + 1) toks (p1.bind p2) (b1.bind b2) := by
  cases hp : p1 with
  | error e =>
    rw [hp] at h1
    rcases h1 with h | h
    · exact Or.inl (by rw [h]; rfl)
    · exact Or.inr (by rw [h]; rfl)
  | ok x =>
    have h2 := h2 x hp
    rw [hp] at h1
    obtain ⟨us, e1, c1, hb⟩ := h1
    simp only [Except.bind]
    cases hp2 : p2 x with
    | error e =>
      rw [hp2] at h2
      by_cases hd : c + 3 * deepest us ≤ d
      · rw [hb, if_pos hd]
        exact h2
      · exact Or.inr (by rw [hb, if_neg hd])
    | ok y =>
      rw [hp2] at h2
      obtain ⟨vs, e2, c2, hb2⟩ := h2
      refine ⟨us ++ vs, by rw [e1, e2]; simp, closed_append c1 c2, ?_⟩
      rw [c1 vs]
      by_cases hd : c + 3 * deepest us ≤ d
      · rw [hb, if_pos hd]
        simp only [hb2]
        by_cases hv : vs = [] ∨ c + 3 * deepest vs ≤ d
        · rw [if_pos hv, if_pos]
          rcases hv with rfl | hv
          · simp only [deepest]; omega
          · omega
        · rw [if_neg hv, if_neg]
          rw [not_or] at hv
          omega
      · rw [hb, if_neg hd, if_neg (by omega)]

/-- One turn of a loop. -/
theorem within_turn {c d : Nat} {t : Token} {toks : List Token} {p1 : Except PyExc (Node × PState)}
    {b1 : Except Raised (Node × PState)} 
    (p2 : Node × PState → Except PyExc (Node × PState))
    (b2 : Node × PState → Except Raised (Node × PState)) (ht : t.type = .boolOp)
    (h1 : Within c d toks p1 b1) (h2 : ∀ x, p1 = .ok x → WithinLoop c d x.2.toks (p2 x) (b2 x)) :
    WithinLoop c d (t :: toks) (p1.bind p2) (b1.bind b2) := by
  have h := within_rule p2 b2 h1 h2
  cases hp : p1.bind p2 with
  | error e => rw [hp] at h; exact h
  | ok y =>
    rw [hp] at h
    obtain ⟨us, e, c1, hb⟩ := h
    have hk := closed_cons (t := t) (by rw [ht]; decide) (by rw [ht]; decide) c1
    refine ⟨t :: us, by rw [e]; rfl, hk.1, ?_⟩
    rw [hk.2, hb]
    by_cases hd : c + 3 * deepest us ≤ d
    · rw [if_pos (by omega), if_pos (Or.inr hd)]
    · rw [if_neg (by omega), if_neg (by simp [hd])]

/-- Without a frame nothing succeeds. -/
theorem within_zero {c d : Nat} {toks : List Token} {plain : Except PyExc (Node × PState)}
    {b b0 : Except Raised (Node × PState)} (hc : 0 < c) (h : Within c d toks plain b) (h0 : b0 = .error .recursion) :
    Within c 0 toks plain b0 := by
  cases hp : plain with
  | error e => exact Or.inr h0
  | ok x =>
    rw [hp] at h
    obtain ⟨us, e, c1, _⟩ := h
    exact ⟨us, e, c1, by rw [if_neg (by omega), h0]⟩

theorem within_all {c : Nat} {toks : List Token} {plain : Except PyExc (Node × PState)}
    {b : Nat → Except Raised (Node × PState)} (hc : 0 < c) (h0 : b 0 = .error .recursion)
    (h : ∀ d, Within c (d + 1) toks plain (b (d + 1))) (d : Nat) : Within c d toks plain (b d) := by
  cases d with
  | zero => exact within_zero hc (h 0) h0
  | succ d => exact h d

theorem rules_within (U : Uni) (n : Nat) :
    (∀ d toks k, Within 1 d toks (expRule U n ⟨toks, k⟩) (expRuleD U n d ⟨toks, k⟩)) ∧
    (∀ d toks k, Within 2 d toks (termRule U n ⟨toks, k⟩) (termRuleD U n d ⟨toks, k⟩)) ∧
    (∀ d toks k, Within 3 d toks (policyRule U n ⟨toks, k⟩) (policyRuleD U n d ⟨toks, k⟩)) ∧
    (∀ d toks k a, WithinLoop 1 d toks (termLoop U n a ⟨toks, k⟩) (termLoopD U n d a ⟨toks, k⟩)) ∧
    (∀ d toks k a, WithinLoop 2 d toks (policyLoop U n a ⟨toks, k⟩) (policyLoopD U n d a ⟨toks, k⟩)) := by
  induction n with
  | zero =>
    refine ⟨?_, ?_, ?_, ?_, ?_⟩
    · intro d toks k; rw [expRule, expRuleD]; exact Or.inl rfl
    · intro d toks k; rw [termRule, termRuleD]; exact Or.inl rfl
    · intro d toks k; rw [policyRule, policyRuleD]; exact Or.inl rfl
    · intro d toks k a; rw [termLoop, termLoopD]; exact Or.inl rfl
    · intro d toks k a; rw [policyLoop, policyLoopD]; exact Or.inl rfl
  | succ n ih =>
    obtain ⟨ihE, ihT, ihP, ihTL, ihPL⟩ := ih
    refine ⟨?_, ?_, ?_, ?_, ?_⟩
    · -- exp
      intro d toks k
      refine within_all (b := fun d => expRuleD U (n + 1) d ⟨toks, k⟩) (by omega) (by simp only [expRuleD]) ?_ d
      · clear d
        intro d
        cases toks with
        | nil => rw [expRule_nil, expRuleD_nil]; exact Or.inl rfl
        | cons c ts =>
          by_cases hn : c.type = .notOp
          · cases ts with
            | nil => rw [expRule_not_nil U n c k hn, expRuleD_not_nil U n d c k hn]; exact Or.inl rfl
            | cons e ds =>
              by_cases he : e.type = .lparn
              · rw [expRule_not_paren U n c e ds k hn he, expRuleD_not_paren U n d c e ds k hn he]
                exact within_paren (pre := [c]) _ (by
                  intro t ht
                  simp only [List.mem_singleton] at ht
                  subst ht
                  rw [hn]; decide) he (ihP d ds k)
              · rw [expRuleD_not_bool U n d c e ds k hn he]
                refine within_flat ?_
                intro x hx
                rw [expRule_not_bool U n c e ds k hn he] at hx
                cases hb : boolVarRule U ⟨e :: ds, k⟩ with
                | error e => rw [hb] at hx; simp [Except.bind] at hx
                | ok y =>
                  rw [hb] at hx
                  simp only [Except.bind, Except.ok.injEq] at hx
                  subst hx
                  obtain ⟨us, h1, h2⟩ := boolVar_flat U _ _ hb
                  simp only at h1
                  refine ⟨c :: us, by rw [h1]; rfl, ?_⟩
                  intro t ht
                  simp only [List.mem_cons] at ht
                  rcases ht with rfl | ht
                  · rw [hn]; decide
                  · exact h2 t ht
          · by_cases hl : c.type = .lparn
            · rw [expRule_paren U n c ts k hl, expRuleD_paren U n d c ts k hl]
              exact within_paren (pre := []) _ (by simp) hl (ihP d ts k)
            · rw [expRuleD_else U n d c ts k hn hl]
              refine within_flat ?_
              intro x hx
              rw [expRule_else U n c ts k hn hl] at hx
              cases hi : isComparison ⟨c :: ts, k⟩ c with
              | error e => rw [hi] at hx; simp [Except.bind] at hx
              | ok b =>
                rw [hi] at hx
                simp only [Except.bind] at hx
                by_cases hb : b = true
                · rw [if_pos hb] at hx
                  exact cmp_flat U _ _ hx
                · rw [if_neg hb] at hx
                  by_cases hv : c.type = .bool ∨ c.isAtt = true
                  · rw [if_pos hv] at hx
                    exact boolVar_flat U _ _ hx
                  · rw [if_neg hv] at hx; simp at hx
    · -- term
      intro d toks k
      refine within_all (b := fun d => termRuleD U (n + 1) d ⟨toks, k⟩) (by omega) (by simp only [termRuleD]) ?_ d
      · clear d
        intro d
        rw [termRule_succ, termRuleD_succ]
        exact within_rule _ _ (ihE d toks k) fun x _ => ihTL d x.2.toks x.2.nextId x.1
    · -- policy
      intro d toks k
      refine within_all (b := fun d => policyRuleD U (n + 1) d ⟨toks, k⟩) (by omega) (by simp only [policyRuleD]) ?_ d
      · clear d
        intro d
        rw [policyRule_succ, policyRuleD_succ]
        exact within_rule _ _ (ihT d toks k) fun x _ => ihPL d x.2.toks x.2.nextId x.1
    · intro d toks k a
      cases toks with
      | nil => rw [termLoop_nil, termLoopD_nil]; exact Or.inl rfl
      | cons c ts =>
        rw [termLoop_succ, termLoopD_succ]
        by_cases hc : AndTok c
        · rw [if_pos hc, if_pos hc]
          exact within_turn _ _ hc.1 (ihE d ts k) fun x _ => ihTL d _ _ _
        · rw [if_neg hc, if_neg hc]
          exact ⟨[], rfl, closed_nil, by rw [if_pos (Or.inl rfl)]⟩
    · intro d toks k a
      cases toks with
      | nil => rw [policyLoop_nil, policyLoopD_nil]; exact Or.inl rfl
      | cons c ts =>
        rw [policyLoop_succ, policyLoopD_succ]
        by_cases hc : OrTok c
        · rw [if_pos hc, if_pos hc]
          exact within_turn _ _ hc.1 (ihT d ts k) fun x _ => ihPL d _ _ _
        · rw [if_neg hc, if_neg hc]
          exact ⟨[], rfl, closed_nil, by rw [if_pos (Or.inl rfl)]⟩

end Verif.Proofs
