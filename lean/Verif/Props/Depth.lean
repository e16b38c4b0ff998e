import Verif.Proofs.DepthTree
import Verif.Props.Parser
import Verif.Props.Encoder
/-!
# C115–C117: recursion limits
-/

namespace Verif.Props
open Verif Verif.Spec Verif.Proofs

/-! ### C115: the parser needs three frames for each level of parentheses -/

theorem parseD_cons (U : Uni) (d : Nat) (t : Token) (ts : List Token) (k : Nat) :
    (PState.mk (t :: ts) k).parseD U d =
      if t.type = .start then
        (policyRuleD U (3 * ts.length + 3) d ⟨ts, k⟩).bind fun x =>
          match x.2.toks with
          | [] => .error (.py .attributeError)
          | e :: es => if e.type = .«end» then .ok (x.1, ⟨es, x.2.nextId⟩)
            else .error (.py (.parserError e.pos "parse"))
      else .error (.py (.parserError t.pos "parse")) := by
  unfold PState.parseD
  by_cases h : t.type = .start
  · rw [if_pos h]
    simp only [PState.eat, h, if_true, bind, Except.bind, pure, Except.pure, liftR]
    cases policyRuleD U (3 * ts.length + 3) d ⟨ts, k⟩ with
    | error e => rfl
    | ok x =>
      simp only
      cases x.2.toks with
      | nil => rfl
      | cons e es =>
        simp only
        by_cases he : e.type = .«end»
        · rw [if_pos he, if_pos he]
        · rw [if_neg he, if_neg he]
  · rw [if_neg h]
    simp [PState.eat, h, bind, Except.bind, liftR]

theorem parseTokensD_within (U : Uni) (d k : Nat) (toks : List Token) :
    match parseTokens U k toks with
    | .ok r => ∃ b us e rest, toks = b :: (us ++ e :: rest) ∧ b.type = .start ∧ e.type = .«end» ∧ Settled us ∧
        parseTokensD U d k toks = if 3 + 3 * deepest us ≤ d then .ok r else .error .recursion
    | .error x => parseTokensD U d k toks = .error (.py x) ∨ parseTokensD U d k toks = .error .recursion := by
  cases toks with
  | nil => exact Or.inl rfl
  | cons t ts =>
    simp only [parseTokens, parseTokensD, bind, Except.bind, pure, Except.pure]
    rw [parse_cons, parseD_cons]
    by_cases ht : t.type = .start
    · rw [if_pos ht, if_pos ht]
      have w := (rules_within U (3 * ts.length + 3)).2.2.1 d ts k
      cases hp : policyRule U (3 * ts.length + 3) ⟨ts, k⟩ with
      | error e =>
        rw [hp] at w
        simp only [Except.bind]
        rcases w with w | w
        · rw [w]; exact Or.inl rfl
        · rw [w]; exact Or.inr rfl
      | ok x =>
        rw [hp] at w
        obtain ⟨us, e1, hs, hb⟩ := w
        simp only [Except.bind]
        cases hx : x.2.toks with
        | nil =>
          simp only
          by_cases hd : 3 + 3 * deepest us ≤ d
          · rw [hb, if_pos hd]; simp [hx]
          · rw [hb, if_neg hd]; simp
        | cons e es =>
          simp only
          by_cases he : e.type = .«end»
          · rw [if_pos he]
            simp only
            refine ⟨t, us, e, es, by rw [e1, hx], ht, he, hs, ?_⟩
            by_cases hd : 3 + 3 * deepest us ≤ d
            · rw [hb, if_pos hd, if_pos hd]; simp [hx, he]
            · rw [hb, if_neg hd, if_neg hd]
          · rw [if_neg he]
            simp only
            by_cases hd : 3 + 3 * deepest us ≤ d
            · rw [hb, if_pos hd]; simp [hx, he]
            · rw [hb, if_neg hd]; simp
    · rw [if_neg ht, if_neg ht]
      exact Or.inl rfl

/-- **C115**: a policy in which at most `m` parentheses are open at a time is parsed with `3 * (m + 1)` frames, with the same
tree as without a limit, and with RecursionError with fewer. -/
theorem parse_limit (U : Uni) (hU : U.Lawful) (d k m : Nat) (text : Str) (toks : List Token) (r : Node × Nat)
    (hl : lexTokens U text = .ok toks) (hm : Nesting toks m) (h : parseText U k text = .ok r) :
    parseTextD U d k text = if 3 * (m + 1) ≤ d then .ok r else .error .recursion := by
  have hp : parseTokens U k toks = .ok r := by
    unfold parseText at h
    rw [hl] at h
    exact h
  have w := parseTokensD_within U d k toks
  rw [hp] at w
  obtain ⟨b, us, e, rest, h1, hb, he, hs, hw⟩ := w
  have hmd : m = deepest us := by
    rw [nesting_iff] at hm
    rw [hm]
    obtain ⟨ts, e1, e2⟩ := (lexer_refines_grammar U hU _ _).1 hl
    obtain ⟨mid, e3, e4, _⟩ := tokenizes_shape U hU _ _ _ e2
    rw [e1, e3] at h1
    simp only [List.cons.injEq] at h1
    obtain ⟨hb', h1⟩ := h1
    have hus : us = mid := by
      cases hr : rest with
      | nil =>
        rw [hr] at h1
        exact (List.append_inj' h1 rfl).1.symm
      | cons r0 rs =>
        exfalso
        have h' := congrArg List.dropLast h1
        rw [List.dropLast_concat, List.dropLast_append_of_ne_nil (by simp)] at h'
        have : e ∈ mid := by
          rw [h', hr]
          simp
        exact (e4 e this).2 he
    subst hus
    rw [e1, e3]
    rw [deepest, if_neg (by decide), if_neg (by decide), hs]
    simp [deepest]
  unfold parseTextD
  rw [hl]
  show parseTokensD U d k toks = _
  rw [hw, hmd]
  congr 1
  simp only [eq_iff_iff]
  omega

/-- **C115**: under any limit parsing ends as without one or with RecursionError. -/
theorem parse_limited (U : Uni) (d k : Nat) (text : Str) :
    parseTextD U d k text = liftR (parseText U k text) ∨ parseTextD U d k text = .error .recursion := by
  unfold parseTextD parseText
  cases lexTokens U text with
  | error e => exact Or.inl rfl
  | ok toks =>
    show parseTokensD U d k toks = liftR (parseTokens U k toks) ∨ parseTokensD U d k toks = .error .recursion
    have w := parseTokensD_within U d k toks
    cases hp : parseTokens U k toks with
    | error x => rw [hp] at w; exact w
    | ok r =>
      rw [hp] at w
      obtain ⟨b, us, e, rest, _, _, _, _, hw⟩ := w
      rw [hw]
      by_cases hd : 3 + 3 * deepest us ≤ d
      · rw [if_pos hd]; exact Or.inl rfl
      · rw [if_neg hd]; exact Or.inr rfl

/-- A policy with parentheses in parentheses. -/
def nestedText : Str := "((user.a OR user.b) AND user.c) OR user.d".toList

example : ∃ toks, lexTokens asciiUni nestedText = .ok toks ∧ Nesting toks 2 := by
  obtain ⟨toks, h, hd⟩ : ∃ toks, lexTokens asciiUni nestedText = .ok toks ∧ 2 = deepest toks :=
    ⟨_, rfl, by decide +kernel⟩
  exact ⟨toks, h, (nesting_iff _ _).2 hd⟩

example : (parseText asciiUni 0 nestedText).isOk = true ∧ (parseTextD asciiUni 9 0 nestedText).isOk = true ∧
    parseTextD asciiUni 8 0 nestedText = .error .recursion := by decide +kernel

-- A policy with a syntax error behind a parenthesis: its own error with enough frames.
example : parseTextD asciiUni 6 0 "(user.a AND )".toList = .error (.py (.parserError 12 "exp")) ∧
    parseTextD asciiUni 5 0 "(user.a AND )".toList = .error .recursion := by decide +kernel

/-! ### C116: work on trees needs a frame for each level -/

/-- **C116**: evaluation needs as many frames as there are nodes on the longest path of nodes without a true result;
with fewer it raises RecursionError, or an exception it raises anyway. -/
theorem evaluate_limit (U : Uni) (E : SymEnv) (level : Option Int) (d m : Nat) (s : Interp)
    (hm : Height (fun c => !c.res.truthy) s.ast m) :
    (m ≤ d → s.evaluateD U E level d = ((s.evaluate U E level).1, liftR (s.evaluate U E level).2)) ∧
    (d < m → (s.evaluateD U E level d).2 = .error .recursion ∨
      ∃ e, (s.evaluateD U E level d).2 = .error (.py e) ∧ (s.evaluate U E level).2 = .error e) := by
  rw [height_iff] at hm
  subst hm
  constructor
  · intro h
    unfold Interp.evaluateD Interp.evaluate
    rw [evalNodeD_enough U E d s.ast h]
    rcases evalNode U E s.ast with ⟨n, w, e⟩
    cases e with
    | some e => rfl
    | none =>
      simp only [Option.map]
      cases raiseWarnings level (s.warnings ++ w) <;> rfl
  · intro h
    unfold Interp.evaluateD Interp.evaluate
    rcases evalNodeD_short U E d s.ast h with h1 | ⟨e, h1, h2⟩
    · rcases hc : evalNodeD U E d s.ast with ⟨n', w, e'⟩
      rw [hc] at h1
      simp only at h1
      subst h1
      exact Or.inl rfl
    · rcases hc : evalNodeD U E d s.ast with ⟨n', w, e'⟩
      rcases hc2 : evalNode U E s.ast with ⟨n2, w2, e2⟩
      rw [hc] at h1
      rw [hc2] at h2
      simp only at h1 h2
      subst h1 h2
      exact Or.inr ⟨e, rfl, rfl⟩

/-- **C116**: type checking needs as many frames as the longest path through operators and attributes has nodes. -/
theorem check_limit (U : Uni) (level : Option Int) (d m : Nat) (n : Node) (s : TC)
    (hm : Height (fun c => !TC.skipped c) n m) :
    (m ≤ d → TC.checkD U level d n s = ((TC.check U level n s).1, liftR (TC.check U level n s).2)) ∧
    (d < m → (TC.checkD U level d n s).2 = .error .recursion ∨
      ∃ e, (TC.checkD U level d n s).2 = .error (.py e) ∧ (TC.check U level n s).2 = .error e) := by
  rw [height_iff] at hm
  subst hm
  constructor
  · intro h
    unfold TC.checkD TC.check
    rw [scanD_enough U d n s h]
    rcases TC.scan U n s with ⟨s1, e⟩
    cases e with
    | some e => rfl
    | none =>
      simp only [Option.map]
      cases TC.raiseIssues level s1.issues <;> rfl
  · intro h
    unfold TC.checkD TC.check
    rcases scanD_short U d n s h with h1 | ⟨e, h1, h2⟩
    · rcases hc : TC.scanD U d n s with ⟨s', e'⟩
      rw [hc] at h1
      simp only at h1
      subst h1
      exact Or.inl rfl
    · rcases hc : TC.scanD U d n s with ⟨s', e'⟩
      rcases hc2 : TC.scan U n s with ⟨s2, e2⟩
      rw [hc] at h1
      rw [hc2] at h2
      simp only at h1 h2
      subst h1 h2
      exact Or.inr ⟨e, rfl, rfl⟩

theorem liftR_ok {α : Type} (a : α) : liftR (Except.ok a : Except PyExc α) = .ok a := rfl

theorem liftR_bind {α β : Type} (x : Except PyExc α) (f : α → Except PyExc β) :
    liftR (x >>= f) = liftR x >>= fun a => liftR (f a) := by
  cases x <;> rfl

/-- **C116**: encoding a tree needs as many frames as its longest path has nodes. -/
theorem encode_limit (U : Uni) (d m : Nat) (n : Node) (b64 : Bool) (hm : Height (fun _ => true) n m) :
    (m ≤ d → astEncodeD U d n b64 = liftR (astEncode U n b64)) ∧
    (d < m → astEncodeD U d n b64 = .error .recursion ∨
      ∃ e, astEncodeD U d n b64 = .error (.py e) ∧ astEncode U n b64 = .error e) := by
  rw [height_iff] at hm
  subst hm
  constructor
  · intro h
    unfold astEncodeD astEncode
    rw [encodeNodeD_enough U d n h]
    simp only [liftR_bind]
    rfl
  · intro h
    unfold astEncodeD astEncode
    rcases encodeNodeD_short U d n h with h1 | ⟨e, h1, h2⟩
    · rw [h1]; exact Or.inl rfl
    · rw [h1, h2]; exact Or.inr ⟨e, rfl, rfl⟩

/-- **C116**: comparing a tree with an equal one needs as many frames as its longest path has nodes. -/
theorem eq_limit (d m : Nat) (n n' : Node) (hm : Height (fun _ => true) n m) :
    (m ≤ d → Node.eqD d n n' = some (n.eq n')) ∧
    (d < m → Node.eqD d n n' = none ∨ Node.eqD d n n' = some false ∧ n.eq n' = false) := by
  rw [height_iff] at hm
  subst hm
  exact ⟨eqD_enough d n n', eqD_short d n n'⟩

/-- Every tree has a height. -/
theorem height_exists (p : Node → Bool) (n : Node) : ∃ m, Height p n m := ⟨_, (height_iff p n _).2 rfl⟩

/-- The tree of `user.a = 1 OR NOT user.b`: three nodes on the longest path, two when operators have results. -/
def smallTree : Node :=
  match parseText asciiUni 0 "user.a = 1 OR NOT user.b".toList with
  | .ok (n, _) => n
  | .error _ => .mk .op ⟨.op, 0, .none⟩ 0 .none []

example : Height (fun c => !c.res.truthy) smallTree 3 ∧ Height (fun c => !TC.skipped c) smallTree 3 ∧
    Height (fun _ => true) smallTree 3 :=
  ⟨(height_iff _ _ _).2 (by decide +kernel), (height_iff _ _ _).2 (by decide +kernel),
    (height_iff _ _ _).2 (by decide +kernel)⟩

example : Node.eqD 3 smallTree smallTree = some true ∧ Node.eqD 2 smallTree smallTree = none ∧
    (astEncodeD asciiUni 3 smallTree false).isOk = true ∧
    astEncodeD asciiUni 2 smallTree false = .error .recursion := by decide +kernel

/-! ### C117: long policies -/

/-- Evaluation goes down to the left before it does anything else. -/
theorem evalNodeD_left (U : Uni) (E : SymEnv) (p : Policy) (k d : Nat) (h : d < p.joins) :
    evalNodeD U E d (p.build U k).1 = ((p.build U k).1, [], some .recursion) := by
  induction p generalizing d with
  | bin o p q ihp ihq =>
    simp only [Policy.joins] at h
    simp only [Policy.build]
    rcases hp : p.build U k with ⟨a, k1⟩
    rcases hq : q.build U k1 with ⟨b, k2⟩
    cases d with
    | zero => simp [evalNodeD]
    | succ d =>
      have ih := ihp d (by omega)
      rw [hp] at ih
      simp only at ih
      have ha : a.res.truthy = false := by
        cases p with
        | bin o' p' q' =>
          simp only [Policy.build] at hp
          simp only [Prod.mk.injEq] at hp
          rw [← hp.1]; rfl
        | cmp l o r => simp [Policy.joins] at h
        | lit t => simp [Policy.joins] at h
        | att t => simp [Policy.joins] at h
        | not n p => simp [Policy.joins] at h
      simp only
      rw [evalNodeD, evalChildrenD, ha, ih]
      rfl
  | cmp l o r => simp [Policy.joins] at h
  | lit t => simp [Policy.joins] at h
  | att t => simp [Policy.joins] at h
  | not n p ih => simp [Policy.joins] at h

theorem scanD_left (U : Uni) (p : Policy) (k d : Nat) (s : TC) (h : d < p.joins) :
    TC.scanD U d (p.build U k).1 s = (s, some .recursion) := by
  induction p generalizing d with
  | bin o p q ihp ihq =>
    simp only [Policy.joins] at h
    simp only [Policy.build]
    rcases hp : p.build U k with ⟨a, k1⟩
    rcases hq : q.build U k1 with ⟨b, k2⟩
    cases d with
    | zero => simp [TC.scanD]
    | succ d =>
      have ih := ihp d (by omega)
      rw [hp] at ih
      simp only at ih
      have ha : TC.skipped a = false := by
        cases p with
        | bin o' p' q' =>
          simp only [Policy.build] at hp
          simp only [Prod.mk.injEq] at hp
          rw [← hp.1]; rfl
        | cmp l o r => simp [Policy.joins] at h
        | lit t => simp [Policy.joins] at h
        | att t => simp [Policy.joins] at h
        | not n p => simp [Policy.joins] at h
      simp only
      rw [TC.scanD, TC.scanListD, ha, ih]
      rfl
  | cmp l o r => simp [Policy.joins] at h
  | lit t => simp [Policy.joins] at h
  | att t => simp [Policy.joins] at h
  | not n p ih => simp [Policy.joins] at h

/-- **C117**: a policy that joins more conditions with AND and OR, without parentheses, than there are frames, cannot be
evaluated whatever the attributes are: RecursionError, and nothing is evaluated or recorded. -/
theorem long_evaluate (U : Uni) (E : SymEnv) (level : Option Int) (p : Policy) (k d : Nat) (ws : List Warn)
    (h : d < p.joins) :
    (Interp.mk (p.build U k).1 ws).evaluateD U E level d = (⟨(p.build U k).1, ws⟩, .error .recursion) := by
  unfold Interp.evaluateD
  rw [evalNodeD_left U E p k d h]
  simp

/-- **C117**: nor can it be type checked. -/
theorem long_check (U : Uni) (level : Option Int) (p : Policy) (k d : Nat) (s : TC) (h : d < p.joins) :
    TC.checkD U level d (p.build U k).1 s = (s, .error .recursion) := by
  unfold TC.checkD
  rw [scanD_left U p k d s h]

theorem joins_height (U : Uni) (p : Policy) (k : Nat) : p.joins < pathLen anyNode (p.build U k).1 := by
  induction p with
  | bin o p q ihp ihq =>
    simp only [Policy.build, Policy.joins]
    rcases hp : p.build U k with ⟨a, k1⟩
    rcases hq : q.build U k1 with ⟨b, k2⟩
    rw [hp] at ihp
    simp only at ihp ⊢
    rw [pathLen, pathLens_kept _ rfl]
    omega
  | cmp l o r => simp only [Policy.joins]; exact pathLen_pos _ _
  | lit t => simp only [Policy.joins]; exact pathLen_pos _ _
  | att t => simp only [Policy.joins]; exact pathLen_pos _ _
  | not n p ih => simp only [Policy.joins]; exact pathLen_pos _ _

/-- **C117**: nor encoded or compared with itself. -/
theorem long_encode (U : Uni) (p : Policy) (k d : Nat) (b64 : Bool) (h : d ≤ p.joins) :
    (astEncodeD U d (p.build U k).1 b64 = .error .recursion ∨
      ∃ e, astEncodeD U d (p.build U k).1 b64 = .error (.py e) ∧ astEncode U (p.build U k).1 b64 = .error e) ∧
    Node.eqD d (p.build U k).1 (p.build U k).1 = none := by
  obtain ⟨m, hm⟩ := height_exists (fun _ => true) (p.build U k).1
  have hm' : m = pathLen anyNode (p.build U k).1 := (height_iff _ _ _).1 hm
  have hlt : d < m := by have := joins_height U p k; omega
  refine ⟨(encode_limit U d m _ b64 hm).2 hlt, ?_⟩
  rcases (eq_limit d m _ (p.build U k).1 hm).2 hlt with h | ⟨_, h⟩
  · exact h
  · exfalso
    have := (ast_eq_structural (p.build U k).1 (p.build U k).1).2 rfl
    rw [h] at this
    simp at this

/-! ### The policy `user.a AND user.a AND …` -/

/-- `user.a` joined `n` times to itself. -/
def chainText : Nat → Str
  | 0 => " user.a".toList
  | n + 1 => chainText n ++ " AND user.a".toList

/-- Its lexemes. -/
def chainItems : Nat → List Item
  | 0 => [⟨[' '], "user.a".toList, .usrAtt, .str ['a']⟩]
  | n + 1 => chainItems n ++
    [⟨[' '], "AND".toList, .boolOp, .str "AND".toList⟩, ⟨[' '], "user.a".toList, .usrAtt, .str ['a']⟩]

theorem render_append (xs ys : List Item) (trail : Str) : render (xs ++ ys) trail = render xs [] ++ render ys trail := by
  induction xs with
  | nil => rfl
  | cons x xs ih => simp [render, ih]

theorem chain_render (n : Nat) : chainText n = render (chainItems n) [] := by
  induction n with
  | zero => decide
  | succ n ih =>
    rw [chainText, chainItems, render_append, ih]
    congr 1

theorem chain_lexeme (U : Uni) (hU : U.Lawful) (n : Nat) :
    ∀ i ∈ chainItems n, Lexeme U i.w i.ty i.v none ∧ i.ws = [' '] := by
  have h1 : Lexeme U "user.a".toList .usrAtt (.str ['a']) none := by
    refine .att "user".toList ['a'] "user" .usrAtt none (by decide) rfl (by simp) ?_ (by simp)
    intro c hc
    simp only [List.mem_singleton] at hc
    subst hc
    exact Or.inl (by rw [hU.alpha_ascii _ (by decide)]; decide)
  have h2 : Lexeme U "AND".toList .boolOp (.str "AND".toList) none :=
    .keyword _ "and" .boolOp "AND" none (by decide) (by unfold Spells; decide) (by simp)
  induction n with
  | zero =>
    intro i hi
    simp only [chainItems, List.mem_singleton] at hi
    subst hi
    exact ⟨h1, rfl⟩
  | succ n ih =>
    intro i hi
    simp only [chainItems, List.mem_append, List.mem_cons, List.not_mem_nil, or_false] at hi
    rcases hi with hi | rfl | rfl
    · exact ih i hi
    · exact ⟨h2, rfl⟩
    · exact ⟨h1, rfl⟩

theorem chain_tree (n : Nat) (ts : List Token)
    (h : ts.map (fun t => (t.type, t.value)) = (chainItems n).map (fun i => (i.ty, i.v))) :
    ∃ p, DTerm false ts p ∧ p.joins = n ∧ ∀ t ∈ ts, t.type ≠ .lparn ∧ t.type ≠ .rparn := by
  induction n generalizing ts with
  | zero =>
    rw [chainItems, List.map_cons, List.map_eq_cons_iff] at h
    obtain ⟨t, r, rfl, ht, hr⟩ := h
    rw [List.map_nil, List.map_eq_nil_iff] at hr
    subst hr
    simp only [Prod.mk.injEq] at ht
    refine ⟨.att t, .exp (.att (Or.inl ht.1)), rfl, ?_⟩
    intro t' h'
    simp only [List.mem_singleton] at h'
    subst h'
    rw [ht.1]; decide
  | succ n ih =>
    rw [chainItems, List.map_append, List.map_eq_append_iff] at h
    obtain ⟨xs, ys, rfl, hx, hy⟩ := h
    rw [List.map_cons, List.map_eq_cons_iff] at hy
    obtain ⟨o, r, rfl, ho, hy⟩ := hy
    rw [List.map_cons, List.map_eq_cons_iff] at hy
    obtain ⟨t, r', rfl, ht, hy⟩ := hy
    rw [List.map_nil, List.map_eq_nil_iff] at hy
    subst hy
    simp only [Prod.mk.injEq] at ho ht
    obtain ⟨p, h1, h2, h3⟩ := ih xs hx
    refine ⟨.bin o p (.att t), .and h1 ho (.att (Or.inl ht.1)), by rw [Policy.joins, h2], ?_⟩
    intro t' h'
    simp only [List.mem_append, List.mem_cons, List.not_mem_nil, or_false] at h'
    rcases h' with h' | rfl | rfl
    · exact h3 t' h'
    · rw [ho.1]; decide
    · rw [ht.1]; decide

/-- **C117**: however many conditions are joined, three frames are enough to parse the policy, but its evaluation and its
type check take more than one frame for each condition. -/
theorem chain_limit (U : Uni) (hU : U.Lawful) (n k : Nat) :
    ∃ node k', parseTextD U 3 k (chainText n) = .ok (node, k') ∧ parseText U k (chainText n) = .ok (node, k') ∧
      ∀ d < n, (∀ E level ws, (Interp.mk node ws).evaluateD U E level d = (⟨node, ws⟩, .error .recursion)) ∧
        (∀ level s, TC.checkD U level d node s = (s, .error .recursion)) := by
  have hsp' : U.isSpace ' ' = true := by rw [hU.space_ascii _ (by decide)]; decide
  obtain ⟨toks, h1, h2⟩ := lex_spaced U hU (chainItems n) [] (fun i hi => (chain_lexeme U hU n i hi).1)
    (fun i hi => by rw [(chain_lexeme U hU n i hi).2]; simpa using hsp') (by simp)
  rw [← chain_render] at h1
  rw [List.cons_append, List.map_eq_cons_iff] at h2
  obtain ⟨b, r, e1, hb, h2⟩ := h2
  rw [List.map_eq_append_iff] at h2
  obtain ⟨ts, r', e2, hts, h2⟩ := h2
  rw [List.map_eq_cons_iff] at h2
  obtain ⟨e, r'', e3, he, h2⟩ := h2
  rw [List.map_eq_nil_iff] at h2
  subst h2 e3 e2 e1
  simp only [Prod.mk.injEq] at hb he
  obtain ⟨p, hp, hj, hf⟩ := chain_tree n ts hts
  have hparse : parseTokens U k (b :: (ts ++ [e])) = .ok ((p.build U k).1, (p.build U k).2) :=
    (parse_refines_grammar _ _ _ _ _).2 ⟨b, ts, e, [], p, rfl, hb.1, he.1, .term hp, rfl⟩
  have htext : parseText U k (chainText n) = .ok ((p.build U k).1, (p.build U k).2) := by
    unfold parseText
    rw [h1]
    exact hparse
  have hn : Nesting (b :: (ts ++ [e])) 0 := by
    rw [nesting_iff, deepest, if_neg (by rw [hb.1]; decide), if_neg (by rw [hb.1]; decide), (closed_flat hf).1,
      (closed_flat hf).2, deepest, if_neg (by rw [he.1]; decide), if_neg (by rw [he.1]; decide)]
    rfl
  refine ⟨_, _, ?_, htext, ?_⟩
  · rw [parse_limit U hU 3 k 0 _ _ _ h1 hn htext]
    rfl
  · intro d hd
    exact ⟨fun E level ws => long_evaluate U E level p k d ws (by omega),
      fun level s => long_check U level p k d s (by omega)⟩

example : chainText 2 = " user.a AND user.a AND user.a".toList := by decide +kernel

example : ∃ node k', parseTextD asciiUni 3 0 (chainText 2) = .ok (node, k') ∧
    ∀ s, TC.checkD asciiUni none 1 node s = (s, .error .recursion) := by
  obtain ⟨node, k', h1, _, h2⟩ := chain_limit asciiUni asciiUni_lawful 2 0
  exact ⟨node, k', h1, (h2 1 (by decide)).2 _⟩

end Verif.Props
