import Verif.Proofs.ParserRec
/-!
# Completeness of the recursive rules and sufficiency of the fuel
-/

namespace Verif.Proofs
open Verif Verif.Spec

theorem dvar_ne_nil {b ts v} (h : DVar b ts v) : ts ≠ [] := by
  cases h <;> simp

theorem dexp_ne_nil {b ts p} (h : DExp b ts p) : ts ≠ [] := by
  cases h <;> simp

theorem dterm_ne_nil {b ts p} (h : DTerm b ts p) : ts ≠ [] := by
  cases h with
  | exp h => exact dexp_ne_nil h
  | and => simp

theorem dpolicy_ne_nil {b ts p} (h : DPolicy b ts p) : ts ≠ [] := by
  cases h with
  | term h => exact dterm_ne_nil h
  | or => simp

/-- Comparisons. -/
theorem cmpRule_complete (U : Uni) (ts us : List Token) (l r : Operand) (o : Token)
    (hl : DVar false ts l) (ho : o.type = .op) (hr : DVar false us r) (rest : List Token) (k : Nat) :
    cmpRule U ⟨ts ++ o :: us ++ rest, k⟩ =
      .ok ((Policy.build U (.cmp l o r) k).1, ⟨rest, (Policy.build U (.cmp l o r) k).2⟩) := by
  unfold cmpRule
  have e : ts ++ o :: us ++ rest = ts ++ (o :: (us ++ rest)) := by simp
  rw [e, varRule_complete U ts l hl]
  simp only [Except.bind]
  rw [if_pos ho, varRule_complete U us r hr]
  simp [Policy.build]

/-- The token after an expression when it is not the last one. -/
def Follow (rest : List Token) : Prop := ∃ r rs, rest = r :: rs ∧ r.type ≠ .op

theorem expRule_cmp (U : Uni) (n : Nat) (ts us : List Token) (l r : Operand) (o : Token)
    (hl : DVar false ts l) (ho : o.type = .op) (hr : DVar false us r) (rest : List Token) (k : Nat) :
    expRule U (n + 1) ⟨ts ++ o :: us ++ rest, k⟩ =
      .ok ((Policy.build U (.cmp l o r) k).1, ⟨rest, (Policy.build U (.cmp l o r) k).2⟩) := by
  have hc := cmpRule_complete U ts us l r o hl ho hr rest k
  have key : ∀ (c : Token) (cs : List Token), ts ++ o :: us ++ rest = c :: cs →
      c.type ≠ .notOp → c.type ≠ .lparn → isComparison ⟨c :: cs, k⟩ c = .ok true →
      expRule U (n + 1) ⟨ts ++ o :: us ++ rest, k⟩ = cmpRule U ⟨ts ++ o :: us ++ rest, k⟩ := by
    intro c cs e h1 h2 h3
    rw [e, expRule_else U n c cs k h1 h2, h3]
    rfl
  rw [← hc]
  cases hl with
  | @att t ht =>
    have hset : t.type ≠ .lset := by intro h'; simp [AttTok, h'] at ht
    have hno : t.type ≠ .notOp := by intro h'; simp [AttTok, h'] at ht
    have hlp : t.type ≠ .lparn := by intro h'; simp [AttTok, h'] at ht
    refine key t (o :: (us ++ rest)) (by simp) hno hlp ?_
    rw [isComparison_two _ _ _ _ hset]
    simp [ho, (isAtt_iff t).2 ht]
  | @atom t ht =>
    have hset : t.type ≠ .lset := by intro h'; simp [AtomTok, h'] at ht
    have hno : t.type ≠ .notOp := by intro h'; simp [AtomTok, h'] at ht
    have hlp : t.type ≠ .lparn := by intro h'; simp [AtomTok, h'] at ht
    refine key t (o :: (us ++ rest)) (by simp) hno hlp ?_
    rw [isComparison_two _ _ _ _ hset]
    simp [ho, (isAtomic_iff t).2 ht]
  | @empty l' r' hl hr' =>
    exact key l' (r' :: o :: (us ++ rest)) (by simp) (by simp [hl]) (by simp [hl])
      (isComparison_lset _ _ hl)
  | @set l' r' ts' es hl h hr' =>
    exact key l' (ts' ++ [r'] ++ o :: us ++ rest) (by simp) (by simp [hl]) (by simp [hl])
      (isComparison_lset _ _ hl)

theorem boolVar_lit (U : Uni) (t : Token) (rest : List Token) (k : Nat) (ht : BoolTok t) :
    boolVarRule U ⟨t :: rest, k⟩ =
      .ok ((Policy.build U (.lit t) k).1, ⟨rest, (Policy.build U (.lit t) k).2⟩) :=
  boolVarRule_lit U t rest k ht

theorem boolVar_att (U : Uni) (t : Token) (rest : List Token) (k : Nat) (ht : AttTok t) :
    boolVarRule U ⟨t :: rest, k⟩ =
      .ok ((Policy.build U (.att t) k).1, ⟨rest, (Policy.build U (.att t) k).2⟩) := by
  rw [boolVarRule_att U t rest k (by intro h'; simp [AttTok, h'] at ht), attNameRule_ok U t rest k ht]
  rfl

theorem policy_of_loop {U : Uni} {us rest : List Token} {p : Policy} {n k : Nat}
    (hn : 3 * us.length + 3 ≤ n)
    (h : ∃ m, n ≤ m + us.length ∧ policyRule U n ⟨us ++ rest, k⟩ =
      policyLoop U m (p.build U k).1 ⟨rest, (p.build U k).2⟩)
    (hf : Follow rest) (hr : ∀ r rs, rest = r :: rs → ¬ OrTok r) :
    policyRule U n ⟨us ++ rest, k⟩ = .ok ((p.build U k).1, ⟨rest, (p.build U k).2⟩) := by
  obtain ⟨m, hm1, hm2⟩ := h
  obtain ⟨m, rfl⟩ : ∃ m', m = m' + 1 := ⟨m - 1, by omega⟩
  obtain ⟨r, rs, rfl, _⟩ := hf
  rw [hm2, policyLoop_succ, if_neg (hr r rs rfl)]

theorem rparn_follow {r : Token} (rest : List Token) (hr : r.type = .rparn) :
    Follow (r :: rest) ∧ (∀ r' rs, r :: rest = r' :: rs → ¬ AndTok r') ∧
    (∀ r' rs, r :: rest = r' :: rs → ¬ OrTok r') := by
  refine ⟨⟨r, rest, rfl, by simp [hr]⟩, ?_, ?_⟩ <;>
  · intro r' rs e
    simp only [List.cons.injEq] at e
    obtain ⟨rfl, _⟩ := e
    simp [AndTok, OrTok, hr]

mutual
theorem expRule_complete (U : Uni) {us : List Token} {p : Policy} (h : DExp false us p) :
    ∀ (n k : Nat) (rest : List Token), 3 * us.length + 1 ≤ n → Follow rest →
    expRule U n ⟨us ++ rest, k⟩ = .ok ((p.build U k).1, ⟨rest, (p.build U k).2⟩) := by
  intro n k rest hn hf
  obtain ⟨n, rfl⟩ : ∃ m, n = m + 1 := ⟨n - 1, by omega⟩
  match h with
  | .cmp hl ho hr => exact expRule_cmp U n _ _ _ _ _ hl ho hr rest k
  | .lit (t := t) ht =>
    obtain ⟨r, rs, rfl, hr⟩ := hf
    simp only [List.cons_append, List.nil_append]
    rw [expRule_else U n t _ k (by simp [ht.1]) (by simp [ht.1]),
      isComparison_two _ _ _ _ (by simp [ht.1])]
    simp only [Except.bind]
    rw [if_neg (by simp [hr]), if_pos (Or.inl ht.1)]
    exact boolVar_lit U t _ k ht
  | .att (t := t) ht =>
    obtain ⟨r, rs, rfl, hr⟩ := hf
    have hset : t.type ≠ .lset := by intro h'; simp [AttTok, h'] at ht
    have hno : t.type ≠ .notOp := by intro h'; simp [AttTok, h'] at ht
    have hlp : t.type ≠ .lparn := by intro h'; simp [AttTok, h'] at ht
    simp only [List.cons_append, List.nil_append]
    rw [expRule_else U n t _ k hno hlp, isComparison_two _ _ _ _ hset]
    simp only [Except.bind]
    rw [if_neg (by simp [hr]), if_pos (Or.inr ((isAtt_iff t).2 ht))]
    exact boolVar_att U t _ k ht
  | .notLit (n := c) (t := t) hc ht =>
    simp only [List.cons_append, List.nil_append]
    rw [expRule_not_bool U n c t _ k hc (by simp [ht.1]), boolVar_lit U t _ k ht]
    simp [Except.bind, Policy.build]
  | .notAtt (n := c) (t := t) hc ht =>
    have hlp : t.type ≠ .lparn := by intro h'; simp [AttTok, h'] at ht
    simp only [List.cons_append, List.nil_append]
    rw [expRule_not_bool U n c t _ k hc hlp, boolVar_att U t _ k ht]
    simp [Except.bind, Policy.build]
  | .paren (l := l) (r := r) (ts := ts) hl hp hr =>
    have e : (l :: (ts ++ [r])) ++ rest = l :: (ts ++ (r :: rest)) := by simp
    rw [e, expRule_paren U n l _ k hl,
      policy_of_loop (by simp at hn; omega) (policyRule_loop U hp n k (r :: rest)
        (by simp at hn; omega) (rparn_follow rest hr).1 (rparn_follow rest hr).2.1)
        (rparn_follow rest hr).1 (rparn_follow rest hr).2.2]
    simp [Except.bind, closeParen, hr]
  | .notParen (n := c) (l := l) (r := r) (ts := ts) (p := q) hc hl hp hr =>
    have e : (c :: l :: (ts ++ [r])) ++ rest = c :: l :: (ts ++ (r :: rest)) := by simp
    rw [e, expRule_not_paren U n c l _ k hc hl,
      policy_of_loop (by simp at hn; omega) (policyRule_loop U hp n k (r :: rest)
        (by simp at hn; omega) (rparn_follow rest hr).1 (rparn_follow rest hr).2.1)
        (rparn_follow rest hr).1 (rparn_follow rest hr).2.2]
    simp [Except.bind, closeParen, hr, Policy.build]

theorem termRule_loop (U : Uni) {us : List Token} {p : Policy} (h : DTerm false us p) :
    ∀ (n k : Nat) (rest : List Token), 3 * us.length + 2 ≤ n → Follow rest →
    ∃ m, n ≤ m + us.length ∧ termRule U n ⟨us ++ rest, k⟩ =
      termLoop U m (p.build U k).1 ⟨rest, (p.build U k).2⟩ := by
  intro n k rest hn hf
  match h with
  | .exp he =>
    obtain ⟨n, rfl⟩ : ∃ m, n = m + 1 := ⟨n - 1, by omega⟩
    refine ⟨n, ?_, ?_⟩
    · have := List.length_pos_iff.2 (dexp_ne_nil he); omega
    · rw [termRule_succ, expRule_complete U he n k rest (by omega) hf]
      simp [Except.bind]
  | .and (ts := ts) (us := us') (o := o) (p := p) (q := q) hp ho hq =>
    have e : ts ++ o :: us' ++ rest = ts ++ (o :: (us' ++ rest)) := by simp
    obtain ⟨m, hm1, hm2⟩ := termRule_loop U hp n k (o :: (us' ++ rest))
      (by simp at hn; omega) ⟨o, _, rfl, by simp [ho.1]⟩
    simp only [List.length_append, List.length_cons] at hn
    obtain ⟨m, rfl⟩ : ∃ m', m = m' + 1 := ⟨m - 1, by omega⟩
    refine ⟨m, by simp; omega, ?_⟩
    rw [e, hm2, termLoop_succ, if_pos ho,
      expRule_complete U hq m _ rest (by omega) hf]
    simp [Except.bind, Policy.build]

theorem policyRule_loop (U : Uni) {us : List Token} {p : Policy} (h : DPolicy false us p) :
    ∀ (n k : Nat) (rest : List Token), 3 * us.length + 3 ≤ n → Follow rest →
    (∀ r rs, rest = r :: rs → ¬ AndTok r) →
    ∃ m, n ≤ m + us.length ∧ policyRule U n ⟨us ++ rest, k⟩ =
      policyLoop U m (p.build U k).1 ⟨rest, (p.build U k).2⟩ := by
  intro n k rest hn hf hand
  match h with
  | .term ht =>
    obtain ⟨n, rfl⟩ : ∃ m, n = m + 1 := ⟨n - 1, by omega⟩
    refine ⟨n, ?_, ?_⟩
    · have := List.length_pos_iff.2 (dterm_ne_nil ht); omega
    · rw [policyRule_succ]
      obtain ⟨m, hm1, hm2⟩ := termRule_loop U ht n k rest (by omega) hf
      obtain ⟨m, rfl⟩ : ∃ m', m = m' + 1 := ⟨m - 1, by omega⟩
      obtain ⟨r, rs, rfl, hr⟩ := hf
      rw [hm2, termLoop_succ, if_neg (hand r rs rfl)]
      simp [Except.bind]
  | .or (ts := ts) (us := us') (o := o) (p := p) (q := q) hp ho hq =>
    have e : ts ++ o :: us' ++ rest = ts ++ (o :: (us' ++ rest)) := by simp
    obtain ⟨m, hm1, hm2⟩ := policyRule_loop U hp n k (o :: (us' ++ rest))
      (by simp at hn; omega) ⟨o, _, rfl, by simp [ho.1]⟩
      (by
        intro r rs e'
        simp only [List.cons.injEq] at e'
        obtain ⟨rfl, _⟩ := e'
        intro h'
        have := h'.2
        rw [ho.2] at this
        simp at this)
    simp only [List.length_append, List.length_cons] at hn
    obtain ⟨m, rfl⟩ : ∃ m', m = m' + 1 := ⟨m - 1, by omega⟩
    refine ⟨m, by simp; omega, ?_⟩
    rw [e, hm2, policyLoop_succ, if_pos ho]
    obtain ⟨m', hm1', hm2'⟩ := termRule_loop U hq m ((Policy.build U p k).2) rest (by omega) hf
    obtain ⟨m', rfl⟩ : ∃ m'', m' = m'' + 1 := ⟨m' - 1, by omega⟩
    obtain ⟨r, rs, rfl, hr⟩ := hf
    rw [hm2', termLoop_succ, if_neg (hand r rs rfl)]
    simp [Except.bind, Policy.build]

end

theorem policyRule_complete (U : Uni) {us : List Token} {p : Policy} (h : DPolicy false us p) :
    ∀ (n k : Nat) (rest : List Token), 3 * us.length + 3 ≤ n → Follow rest →
    (∀ r rs, rest = r :: rs → ¬ AndTok r ∧ ¬ OrTok r) →
    policyRule U n ⟨us ++ rest, k⟩ = .ok ((p.build U k).1, ⟨rest, (p.build U k).2⟩) := by
  intro n k rest hn hf hr
  exact policy_of_loop hn (policyRule_loop U h n k rest hn hf (fun r rs e => (hr r rs e).1)) hf
    (fun r rs e => (hr r rs e).2)

/-! ### Fuel -/

theorem out_ok_length {U D toks k x} (hD : ∀ us p, D us p → us ≠ [])
    (h : Out U D toks k (.ok x)) : x.2.toks.length < toks.length := by
  obtain ⟨us, p, e1, e2, _⟩ := h
  have := List.length_pos_iff.2 (hD us p e2)
  rw [e1]; simp; omega

theorem setLoop_ne_fuel (U : Uni) (n : Nat) (acc : List Node) (s : PState)
    (hn : s.toks.length < n) : setLoop U n acc s ≠ .error .outOfFuel := by
  intro h
  obtain ⟨_, _, _, _, _, _, _, h⟩ := setLoop_error U n acc s _ hn h
  cases h with
  | parser h => simp at h
  | eof h => simp at h

theorem varRule_ne_fuel (U : Uni) (s : PState) : varRule U s ≠ .error .outOfFuel := by
  intro h
  obtain ⟨_, _, _, _, _, _, h⟩ := varRule_error U _ _ h
  cases h with
  | parser h => simp at h
  | eof h => simp at h

theorem cmpRule_ne_fuel (U : Uni) (s : PState) : cmpRule U s ≠ .error .outOfFuel := by
  unfold cmpRule
  cases h1 : varRule U s with
  | error e =>
    intro h
    simp only [Except.bind, Except.error.injEq] at h
    subst h
    exact varRule_ne_fuel U s h1
  | ok x =>
    simp only [Except.bind]
    cases x.2.toks with
    | nil => simp
    | cons o os =>
      simp only
      split
      · cases h2 : varRule U ⟨os, x.2.nextId⟩ with
        | error e =>
          intro h
          simp only [Except.error.injEq] at h
          subst h
          exact varRule_ne_fuel U _ h2
        | ok y => simp
      · simp

theorem boolVarRule_ne_fuel (U : Uni) (s : PState) : boolVarRule U s ≠ .error .outOfFuel := by
  rcases boolVar_cases U s with ⟨t, ts, _, _, h⟩ | ⟨t, ts, _, _, h⟩ | ⟨e, h, hp⟩
  · rw [h]; simp
  · rw [h]; simp
  · rw [h]
    intro h'
    simp only [Except.error.injEq] at h'
    subst h'
    generalize s.toks = ts at hp
    cases hp with
    | parser h => simp at h
    | eof h => simp at h
    | badBool h => simp at h

theorem closeParen_ne_fuel (x : Node × PState) (f : Node → Nat → Node × Nat) :
    closeParen x f ≠ .error .outOfFuel := by
  unfold closeParen
  cases x.2.toks with
  | nil => simp
  | cons r rs => simp only; split <;> simp

theorem isComparison_ne_fuel (s : PState) (c : Token) : isComparison s c ≠ .error .outOfFuel := by
  unfold isComparison
  split
  · simp
  · unfold PState.peek
    rcases s.toks with _ | ⟨a, _ | ⟨b, l⟩⟩ <;> simp [bind, Except.bind, pure, Except.pure]

/-- The fuel each rule needs for `L` remaining tokens. -/
theorem fuel_enough (U : Uni) (n : Nat) :
    (∀ toks k, 3 * toks.length + 1 ≤ n → expRule U n ⟨toks, k⟩ ≠ .error .outOfFuel) ∧
    (∀ toks k, 3 * toks.length + 2 ≤ n → termRule U n ⟨toks, k⟩ ≠ .error .outOfFuel) ∧
    (∀ toks k, 3 * toks.length + 3 ≤ n → policyRule U n ⟨toks, k⟩ ≠ .error .outOfFuel) ∧
    (∀ toks k a, 3 * toks.length + 1 ≤ n → termLoop U n a ⟨toks, k⟩ ≠ .error .outOfFuel) ∧
    (∀ toks k a, 3 * toks.length + 1 ≤ n → policyLoop U n a ⟨toks, k⟩ ≠ .error .outOfFuel) := by
  induction n with
  | zero =>
    refine ⟨?_, ?_, ?_, ?_, ?_⟩ <;> intros <;> omega
  | succ n ih =>
    obtain ⟨ihE, ihT, ihP, ihTL, ihPL⟩ := ih
    obtain ⟨oE, oT, oP, _, _⟩ := rules_out U n
    refine ⟨?_, ?_, ?_, ?_, ?_⟩
    · intro toks k hn
      cases toks with
      | nil => rw [expRule_nil]; simp
      | cons c ts =>
        by_cases hc : c.type = .notOp
        · cases ts with
          | nil => rw [expRule_not_nil U n c k hc]; simp
          | cons d ds =>
            by_cases hd : d.type = .lparn
            · rw [expRule_not_paren U n c d ds k hc hd]
              have hP := ihP ds k (by simp at hn; omega)
              cases h1 : policyRule U n ⟨ds, k⟩ with
              | error e => rw [h1] at hP; simpa [Except.bind] using hP
              | ok x => simp only [Except.bind]; exact closeParen_ne_fuel _ _
            · rw [expRule_not_bool U n c d ds k hc hd]
              have hB := boolVarRule_ne_fuel U ⟨d :: ds, k⟩
              cases h1 : boolVarRule U ⟨d :: ds, k⟩ with
              | error e => rw [h1] at hB; simpa [Except.bind] using hB
              | ok x => simp [Except.bind]
        · by_cases hl : c.type = .lparn
          · rw [expRule_paren U n c ts k hl]
            have hP := ihP ts k (by simp at hn; omega)
            cases h1 : policyRule U n ⟨ts, k⟩ with
            | error e => rw [h1] at hP; simpa [Except.bind] using hP
            | ok x => simp only [Except.bind]; exact closeParen_ne_fuel _ _
          · rw [expRule_else U n c ts k hc hl]
            have hI := isComparison_ne_fuel ⟨c :: ts, k⟩ c
            cases h1 : isComparison ⟨c :: ts, k⟩ c with
            | error e => rw [h1] at hI; simpa [Except.bind] using hI
            | ok b =>
              simp only [Except.bind]
              split
              · exact cmpRule_ne_fuel U _
              · split
                · exact boolVarRule_ne_fuel U _
                · simp
    · intro toks k hn
      rw [termRule_succ]
      have hE := ihE toks k (by omega)
      have o := oE toks k
      cases h1 : expRule U n ⟨toks, k⟩ with
      | error e => rw [h1] at hE; simpa [Except.bind] using hE
      | ok x =>
        rw [h1] at o
        have := out_ok_length (fun _ _ => dexp_ne_nil) o
        simp only [Except.bind]; exact ihTL x.2.toks x.2.nextId _ (by omega)
    · intro toks k hn
      rw [policyRule_succ]
      have hT := ihT toks k (by omega)
      have o := oT toks k
      cases h1 : termRule U n ⟨toks, k⟩ with
      | error e => rw [h1] at hT; simpa [Except.bind] using hT
      | ok x =>
        rw [h1] at o
        have := out_ok_length (fun _ _ => dterm_ne_nil) o
        simp only [Except.bind]; exact ihPL x.2.toks x.2.nextId _ (by omega)
    · intro toks k a hn
      cases toks with
      | nil => rw [termLoop_nil]; simp
      | cons c ts =>
        rw [termLoop_succ]
        split
        · have hE := ihE ts k (by simp at hn; omega)
          have o := oE ts k
          cases h1 : expRule U n ⟨ts, k⟩ with
          | error e => rw [h1] at hE; simpa [Except.bind] using hE
          | ok x =>
            rw [h1] at o
            have := out_ok_length (fun _ _ => dexp_ne_nil) o
            simp only [Except.bind]; exact ihTL _ _ _ (by simp at hn; omega)
        · simp
    · intro toks k a hn
      cases toks with
      | nil => rw [policyLoop_nil]; simp
      | cons c ts =>
        rw [policyLoop_succ]
        split
        · have hT := ihT ts k (by simp at hn; omega)
          have o := oT ts k
          cases h1 : termRule U n ⟨ts, k⟩ with
          | error e => rw [h1] at hT; simpa [Except.bind] using hT
          | ok x =>
            rw [h1] at o
            have := out_ok_length (fun _ _ => dterm_ne_nil) o
            simp only [Except.bind]; exact ihPL _ _ _ (by simp at hn; omega)
        · simp

end Verif.Proofs
