import Verif.Proofs.CheckMessages
import Verif.Props.TypeChecker
import Verif.Props.Messages
import Verif.Props.Errors
import Verif.Props.PAuthLog
import Verif.Tests.Basic
/-!
# What is said about policies that are not valid (C126, C127)

`Spec/CheckErrors.lean` gives the texts of what type checking reports and what is shown of an error.
-/

namespace Verif.Props
open Verif Verif.Spec Verif.Proofs

/-! ### The messages of the type checker (C126) -/

/-- An attribute is shown in one way. -/
theorem shown_unique {U : Uni} {atts : List Token} {t : Token} {a b : Str} (h : Shown U atts t a) (g : Shown U atts t b) : a = b := by
  obtain ⟨u, h1, h2⟩ := h
  obtain ⟨v, g1, g2⟩ := g
  rw [h1] at g1
  cases g1
  rw [h2, g2]

/-- A report has one text. -/
theorem says_unique {U : Uni} {atts : List Token} {w : Bool} {c : String} {l r : Token} {m n : Str} (h : Says U atts w c l r m)
    (g : Says U atts w c l r n) : m = n := by
  unfold Says at h g
  by_cases hw : w = true
  · rw [if_pos hw] at h g
    rcases h with ⟨h1, h2, a, b, h3, h4, h5⟩ | ⟨t, h1, h2, a, h3, h4⟩
    · rcases g with ⟨_, _, a', b', g3, g4, g5⟩ | ⟨t, g1, _⟩
      · rw [h5, g5, shown_unique h3 g3, shown_unique h4 g4]
      · rcases g1 with ⟨_, g1⟩ | ⟨_, g1⟩
        · exact absurd h2 g1
        · exact absurd h1 g1
    · rcases g with ⟨g1, g2, _⟩ | ⟨t', g1, g2, a', g3, g4⟩
      · rcases h1 with ⟨_, h1⟩ | ⟨_, h1⟩
        · exact absurd g2 h1
        · exact absurd g1 h1
      · have : t = t' := by
          rcases h1 with ⟨e, h1⟩ | ⟨e, h1⟩ <;> rcases g1 with ⟨f, g1⟩ | ⟨f, g1⟩
          · rw [e, f]
          · rw [f] at g2; exact absurd g2 h1
          · rw [f] at g2; exact absurd g2 h1
          · rw [e, f]
        subst this
        rw [h4, g4, shown_unique h3 g3]
  · rw [if_neg hw] at h g
    rw [h, g]

/-- C126: in policies whose attribute names are ASCII, attributes are shown by their full names in lower case. -/
theorem shown_ascii {U : Uni} (hU : U.Lawful) {atts : List Token} (ha : ∀ u ∈ atts, (attName u).all isAscii = true) {t : Token}
    {n : Str} (h : Shown U atts t n) : n = attKey U t := by
  obtain ⟨u, h1, rfl⟩ := h
  have hu := ha u (List.mem_of_find?_eq_some h1)
  have h2 := List.find?_some h1
  simp only [decide_eq_true_eq] at h2
  rw [← h2]
  have hp : (fullPrefix (some u.type)).all isAscii = true := by cases u.type <;> decide
  have hl : ((attName u).map asciiLower).all isAscii = true := by
    rw [List.all_map]
    rw [List.all_eq_true] at hu ⊢
    intro c hc
    have := hu c hc
    simp only [Function.comp_apply, isAscii, decide_eq_true_eq, toNat_asciiLower] at this ⊢
    split <;> omega
  have hq : (fullPrefix (some u.type)).map asciiLower = fullPrefix (some u.type) := by cases u.type <;> decide
  unfold shownName
  rw [hU.lower_ascii _ hu, hU.lower_ascii _ (by rw [List.all_append, hp, hl]; rfl), List.map_append, List.map_map, hq]
  congr 2
  funext c
  exact (asciiLower_idem c).symm

/-- C126: what `check` reports on a policy, with the messages: forgetting them gives the checker without messages, there is one for every
report, and it is the one the specification gives to it. What is raised is the first report of the level, with its message. -/
theorem check_messages (U : Uni) (hU : U.Lawful) (h : Heap) (r k : Nat) (level : Option Int) (text : Str) (p : Policy)
    (hp : PolicyOf U text p) (hf : FoldsAll U p) :
    ∃ s res, TCM.check U level (p.build U k).1 ⟨{ heap := h, next := r }, []⟩ = (s, res) ∧
      checkText U h r k level text = .ok (s.tc, excOf res) ∧
      s.tc.issues = (reports U [] p.cmps).map issueOf ∧ s.msgs.length = (reports U [] p.cmps).length ∧
      (∀ e ∈ (reports U [] p.cmps).zip s.msgs, Says U p.attToks e.1.warn e.1.check e.1.left e.1.right e.2) ∧
      (∀ x, res = .error x → raiseIssuesM level (((reports U [] p.cmps).map issueOf).zip s.msgs) = some x) := by
  obtain ⟨hw, ho, hn⟩ := policyOf_ok hp
  obtain ⟨k1, k2, _⟩ := kinded_build U p hw k
  obtain ⟨_, h2, h3, h4⟩ := check_step hU p hw ho hn hf k (inv_start U h r) rfl level
  have hs := scan_policy hU p hw ho hn hf k (inv_start U h r)
  obtain ⟨g1, g2⟩ := check_forget U level k1 (spoken_start U h r)
  obtain ⟨g2, g3⟩ := g2 hs.1
  have hparse := (parseText_iff hU k (p.build U k).2 text (p.build U k).1).2 ⟨p, hp, rfl⟩
  refine ⟨(TCM.check U level (p.build U k).1 ⟨{ heap := h, next := r }, []⟩).1,
    (TCM.check U level (p.build U k).1 ⟨{ heap := h, next := r }, []⟩).2, rfl, ?_, ?_, ?_, ?_, ?_⟩
  · unfold checkText
    rw [hparse, g1]
    rfl
  · rw [← g1] at h3
    simpa using h3
  · rw [← g1] at h3
    rw [g2.len, h3, List.length_map]
    rfl
  · rw [← g1] at h3
    intro e he
    have h5 := g2.says (issueOf e.1, e.2)
    rw [h3, k2] at h5
    refine h5 ?_
    rw [List.zip_map_left]
    simp only [List.mem_map]
    exact ⟨e, by simpa using he, rfl⟩
  · intro x hx
    rw [← g1] at h3
    have := g3 x hx
    rw [h3] at this
    simpa using this

/-! ### What is shown of a policy that is not valid (C127) -/

theorem str_shown (m text : Str) (p : Int) (hp : 0 ≤ p) : HGPLError.str ⟨m, some text, p⟩ = shownError m p.toNat text := by
  obtain ⟨q, rfl⟩ : ∃ q : Nat, p = q := ⟨p.toNat, by omega⟩
  rw [str_spec]
  unfold shownError
  dsimp only
  rw [if_neg (by omega), say_def]
  have e0 : "".toList = [] := rfl
  rw [e0, List.nil_append]
  unfold intText
  rw [Int.toNat_natCast]
  congr 1
  by_cases ht : text = []
  · rw [if_pos ht]
    have : HGPLError.near ⟨m, some text, q⟩ 10 = none := (near_none _ _).2 (Or.inr (Or.inl (by rw [ht])))
    rw [this]
  · rw [if_neg ht, say_def]
    have := near_window m text q 10 ht
    have e : HGPLError.near ⟨m, some text, q⟩ 10 = some (around text q) := this
    rw [e]

/-- Positions of tokens are indices. -/
theorem tokenizes_pos {U : Uni} {text : Str} {pos : Nat} {ts : List Token} (h : Tokenizes U text pos ts) :
    ∀ t ∈ ts, 0 ≤ t.pos ∧ t.pos ≤ pos + text.length := by
  induction h with
  | done ws pos h =>
    intro t ht
    simp only [List.mem_singleton] at ht
    subst ht
    simp only
    omega
  | tok ws w rest pos ty v toks h hw hr ih =>
    intro t ht
    simp only [List.length_append]
    rcases List.mem_cons.1 ht with rfl | ht
    · simp only
      omega
    · have := ih t ht
      omega

/-- The error of the parser is at one of the tokens. -/
theorem walk_pos {ts : List Token} {m : Str} {p : Int} {t : Token} {rule : String}
    (h : walk .exp [] ts = some (.parser m p t rule)) : t ∈ ts ∧ p = t.pos := by
  have h1 : parseTokensM asciiUni 0 (⟨.start, 0, .none⟩ :: ts) = .error (.parser m p t rule) :=
    (parse_error_iff asciiUni 0 _ _).2 h
  obtain ⟨us, rest, h2, h3, _⟩ := parse_error_first asciiUni 0 _ ts m p t rule rfl h1
  exact ⟨by rw [h2]; simp, h3⟩

/-- The parser raises no error of the lexer. -/
theorem walk_no_lexer (ts : List Token) (pl : Place) (o : List Token) (m : Str) (p : Int) (t : Option Token) :
    walk pl o ts ≠ some (.lexer m p t) := by
  intro h
  obtain ⟨us, rest, pl', o', _, _, _, e3⟩ := walk_fail _ _ _ _ h
  rcases e3 with ⟨_, h3⟩ | ⟨t', rest', rfl, hm, _⟩
  · cases h3
  have hs : ∀ pl, single pl o' t' ≠ .fail (.lexer m p t) := by
    intro pl h
    unfold single at h
    split at h
    · cases h
    · split at h
      · split at h <;> cases h
      · cases h
  have hf : ∀ pl, Move.fail (refusal pl o' t') ≠ .fail (.lexer m p t) := by
    intro pl h
    cases h
  cases pl' <;> simp only [move] at hm <;> (repeat' split at hm) <;> first | exact hs _ hm | exact hf _ hm | cases hm

/-- The rules errors name. -/
theorem walk_rule {ts : List Token} {m : Str} {p : Int} {t : Token} {rule : String}
    (h : walk .exp [] ts = some (.parser m p t rule)) : rule ∈ ["exp", "att_name", "var", "atomic", "set", "parse"] := by
  obtain ⟨us, rest, pl', o', _, _, _, e3⟩ := walk_fail _ _ _ _ h
  rcases e3 with ⟨_, h3⟩ | ⟨t', rest', rfl, hm, _⟩
  · cases h3
  have hc : ∀ pl, (complaint o' t' pl).2 ∈ ["exp", "att_name", "var", "atomic", "set", "parse"] := by
    intro pl
    cases pl with
    | exp | op => exact (show "exp" ∈ ["exp", "att_name", "var", "atomic", "set", "parse"] by decide)
    | neg => exact (show "att_name" ∈ ["exp", "att_name", "var", "atomic", "set", "parse"] by decide)
    | var => exact (show "var" ∈ ["exp", "att_name", "var", "atomic", "set", "parse"] by decide)
    | first l | item l => exact (show "atomic" ∈ ["exp", "att_name", "var", "atomic", "set", "parse"] by decide)
    | more l => exact (show "set" ∈ ["exp", "att_name", "var", "atomic", "set", "parse"] by decide)
    | done =>
      cases o' with
      | nil => exact (show "parse" ∈ ["exp", "att_name", "var", "atomic", "set", "parse"] by decide)
      | cons l o => exact (show "exp" ∈ ["exp", "att_name", "var", "atomic", "set", "parse"] by decide)
  have hf : ∀ pl, Move.fail (refusal pl o' t') = .fail (.parser m p t rule) →
      rule ∈ ["exp", "att_name", "var", "atomic", "set", "parse"] := by
    intro pl h
    have := (SyntaxErr.parser.inj (Move.fail.inj h)).2.2.2
    rw [← this]
    exact hc pl
  have hs : ∀ pl, single pl o' t' = .fail (.parser m p t rule) →
      rule ∈ ["exp", "att_name", "var", "atomic", "set", "parse"] := by
    intro pl h
    unfold single at h
    split at h
    · cases h
    · split at h
      · split at h <;> cases h
      · exact hf pl h
  cases pl' <;> simp only [move] at hm <;> (repeat' split at hm) <;> first | exact hs _ hm | exact hf _ hm | cases hm

theorem str_syntax (U : Uni) (hU : U.Lawful) (builtin : PyExc → Str) (k : Nat) (text : Str) (e : SyntaxErr)
    (h : parseTextM U k text = .error e) : (e.str U (some text)).getD (builtin e.exc) = shownSyntax U builtin text e := by
  cases e with
  | other e => rfl
  | lexer m p t =>
    rcases (parse_text_error_iff U hU k text _).1 h with h | ⟨toks, h1, h2⟩
    · have := (lex_error_place U hU text m p t ((lex_error_iff U hU text _).2 h)).1
      exact str_shown m text p this
    · obtain ⟨ts, rfl, h3⟩ := (lexer_refines_grammar U hU text toks).1 h1
      exact absurd h2 (walk_no_lexer ts .exp [] m p t)
  | parser m p t rule =>
    rcases (parse_text_error_iff U hU k text _).1 h with h | ⟨toks, h1, h2⟩
    · obtain ⟨_, _, _, _, _, hb⟩ := h
      cases hb
    · obtain ⟨ts, rfl, h3⟩ := (lexer_refines_grammar U hU text toks).1 h1
      obtain ⟨h4, h5⟩ := walk_pos (ts := ts) h2
      have h6 := (tokenizes_pos h3 t h4).1
      have h7 := str_shown m text p (by rw [h5]; exact h6)
      have h8 : rule.toList ≠ [] := by
        have := walk_rule (ts := ts) h2
        simp only [List.mem_cons, List.not_mem_nil, or_false] at this
        rcases this with e | e | e | e | e | e <;> rw [e] <;> decide
      show HGPLError.parserStr U ⟨m, some text, p⟩ (some rule.toList) = _
      unfold HGPLError.parserStr
      simp only
      rw [if_pos h8, h7]
      show _ = shownError m p.toNat text ++ say " while parsing " (U.upper rule.toList) " rule."
      rw [say_def, List.append_assoc, List.append_assoc, List.append_assoc]

theorem cmps_tokens (p : Policy) : ∀ c ∈ p.cmps, c.o ∈ p.tokens := by
  induction p with
  | cmp l o r => simp [Policy.cmps, Policy.tokens]
  | lit t => simp [Policy.cmps]
  | att t => simp [Policy.cmps]
  | not n p ih => intro c hc; simp [Policy.tokens, ih c hc]
  | bin o p q ihp ihq =>
    intro c hc
    simp only [Policy.cmps, List.mem_append] at hc
    simp only [Policy.tokens, List.mem_append, List.mem_cons]
    rcases hc with hc | hc
    · exact Or.inl (ihp c hc)
    · exact Or.inr (Or.inr (ihq c hc))

theorem reports_pos (U : Uni) (cs : List Cmp) : ∀ prior, ∀ r ∈ reports U prior cs, ∃ c ∈ cs, r.pos = c.o.pos := by
  induction cs with
  | nil => intro prior r h; cases h
  | cons c cs ih =>
    intro prior r h
    rw [reports, List.mem_append] at h
    rcases h with h | h
    · refine ⟨c, List.mem_cons_self, ?_⟩
      unfold Cmp.report at h
      split at h
      · simp only [Option.toList_some, List.mem_singleton] at h; rw [h]
      · split at h
        · simp only [Option.toList_some, List.mem_singleton] at h; rw [h]
        · simp at h
    · obtain ⟨c', h1, h2⟩ := ih _ r h
      exact ⟨c', List.mem_cons_of_mem _ h1, h2⟩

/-- Reports are at places in the policy. -/
theorem report_place {U : Uni} {text : Str} {p : Policy} (hp : PolicyOf U text p) (r : Report) (hr : r ∈ reports U [] p.cmps) :
    0 ≤ r.pos ∧ r.pos ≤ text.length := by
  obtain ⟨c, h1, h2⟩ := reports_pos U p.cmps [] r hr
  obtain ⟨ts, e, h3, h4⟩ := hp
  have h5 := cmps_tokens p c h1
  rw [← dpolicy_tokens h4, List.mem_filter] at h5
  have := tokenizes_pos h3 c.o (by simp [h5.1])
  rw [h2]
  omega

/-- C127: `evaluate` finds something wrong with a policy exactly if the specification does, and shows what it gives. -/
theorem fault_iff (U : Uni) (hU : U.Lawful) (builtin : PyExc → Str) (h : Heap) (r k : Nat) (text : Str)
    (hf : ∀ p, PolicyOf U text p → FoldsAll U p) (w : Str) :
    policyFault U builtin h r k text = some w ↔ Fault U builtin text w := by
  have syn : ∀ e, parseTextM U k text = .error e → policyFault U builtin h r k text = some (shownSyntax U builtin text e) := by
    intro e he
    unfold policyFault
    rw [he]
    simp only
    rw [str_syntax U hU builtin k text e he]
  have chk : ∀ p rep rs m, PolicyOf U text p → reports U [] p.cmps = rep :: rs →
      Says U p.attToks rep.warn rep.check rep.left rep.right m →
      policyFault U builtin h r k text = some (shownError m rep.pos.toNat text) := by
    intro p rep rs m hp hr hm
    have hparse := (parseText_iff hU k (p.build U k).2 text (p.build U k).1).2 ⟨p, hp, rfl⟩
    obtain ⟨s, res, h1, h2, h3, h4, h5, h6⟩ := check_messages U hU h r k (some 0) text p hp (hf p hp)
    obtain ⟨s', g1, g2, g3, _⟩ := (check_refines U hU h r k (some 0) text).2 p hp (hf p hp)
    have hx : excOf res = checkOutcome (some 0) (reports U [] p.cmps) := by
      rw [h2] at g1
      exact (Prod.mk.inj (Except.ok.inj g1)).2
    have hpos := report_place hp rep (by rw [hr]; exact List.mem_cons_self)
    rw [hr] at h3 h4 h5 h6 hx
    have hM : parseTextM U k text = .ok ((p.build U k).1, (p.build U k).2) := by
      have := parseTextM_exc U k text
      rw [hparse] at this
      cases hq : parseTextM U k text with
      | error e => rw [hq] at this; cases this
      | ok x => rw [hq] at this; cases this; rfl
    unfold policyFault
    rw [hM]
    simp only
    rw [h1]
    simp only
    cases hres : res with
    | ok is =>
      rw [hres] at hx
      unfold checkOutcome at hx
      simp only [List.find?_cons] at hx
      have : decide ((0 : Int) ≤ if rep.warn = true then 2 else 3) = true := by cases rep.warn <;> decide
      rw [this] at hx
      cases hx
    | error x =>
      have h7 := h6 x hres
      cases hms : s.msgs with
      | nil => rw [hms] at h4; cases h4
      | cons m' ms =>
        rw [hms] at h5 h7
        rw [List.map_cons, List.zip_cons_cons, raiseIssuesM] at h7
        have ht : (issueOf rep).type ≥ 0 := by unfold Issue.type; split <;> decide
        rw [if_pos ht] at h7
        cases h7
        simp only
        have h8 := h5 (rep, m') (by rw [List.zip_cons_cons]; exact List.mem_cons_self)
        rw [says_unique hm h8]
        exact congrArg some (str_shown m' text rep.pos hpos.1)
  constructor
  · intro hw
    cases hp : parseTextM U k text with
    | error e =>
      rw [syn e hp] at hw
      cases hw
      rcases (parse_text_error_iff U hU k text _).1 hp with h | ⟨toks, h1, h2⟩
      · exact .lexer e h
      · obtain ⟨ts, rfl, h3⟩ := (lexer_refines_grammar U hU text toks).1 h1
        exact .parser ts e h3 h2
    | ok x =>
      obtain ⟨n, k'⟩ := x
      have hparse : parseText U k text = .ok (n, k') := by rw [← parseTextM_exc, hp]; rfl
      obtain ⟨p, hpo, h1⟩ := (parseText_iff hU k k' text n).1 hparse
      obtain ⟨s, res, g1, g2, g3, g4, g5, g6⟩ := check_messages U hU h r k (some 0) text p hpo (hf p hpo)
      cases hr : reports U [] p.cmps with
      | nil =>
        exfalso
        have hn : n = (p.build U k).1 := by rw [h1]
        unfold policyFault at hw
        rw [hp] at hw
        simp only at hw
        rw [hn, g1] at hw
        cases hres : res with
        | ok is => rw [hres] at hw; cases hw
        | error x =>
          have := g6 x hres
          rw [hr] at this
          cases this
      | cons rep rs =>
        rw [hr] at g4 g5
        cases hms : s.msgs with
        | nil => rw [hms] at g4; cases g4
        | cons m ms =>
          rw [hms] at g5
          have h8 := g5 (rep, m) (by rw [List.zip_cons_cons]; exact List.mem_cons_self)
          rw [chk p rep rs m hpo hr h8] at hw
          cases hw
          exact .check p rep rs m hpo hr h8
  · intro hw
    cases hw with
    | lexer e he => exact syn e ((parse_text_error_iff U hU k text e).2 (Or.inl he))
    | parser ts e h1 h2 =>
      exact syn e ((parse_text_error_iff U hU k text e).2 (Or.inr ⟨_, (lexer_refines_grammar U hU text _).2 ⟨ts, rfl, h1⟩, h2⟩))
    | check p rep rs m hp hr hm => exact chk p rep rs m hp hr hm

/-- C127: nothing is wrong with a policy exactly if it is one and type checking has nothing to report. -/
theorem fault_none (U : Uni) (hU : U.Lawful) (builtin : PyExc → Str) (h : Heap) (r k : Nat) (text : Str)
    (hf : ∀ p, PolicyOf U text p → FoldsAll U p) :
    policyFault U builtin h r k text = none ↔ ∃ p, PolicyOf U text p ∧ reports U [] p.cmps = [] := by
  have no : policyFault U builtin h r k text = none → ∀ w, ¬ Fault U builtin text w := by
    intro hn w hw
    rw [(fault_iff U hU builtin h r k text hf w).2 hw] at hn
    cases hn
  constructor
  · intro hn
    cases hp : parseTextM U k text with
    | error e =>
      rcases (parse_text_error_iff U hU k text _).1 hp with h | ⟨toks, h1, h2⟩
      · exact absurd (.lexer e h) (no hn _)
      · obtain ⟨ts, rfl, h3⟩ := (lexer_refines_grammar U hU text toks).1 h1
        exact absurd (.parser ts e h3 h2) (no hn _)
    | ok x =>
      obtain ⟨n, k'⟩ := x
      have hparse : parseText U k text = .ok (n, k') := by rw [← parseTextM_exc, hp]; rfl
      obtain ⟨p, hpo, h1⟩ := (parseText_iff hU k k' text n).1 hparse
      obtain ⟨s, res, g1, g2, g3, g4, g5, g6⟩ := check_messages U hU h r k (some 0) text p hpo (hf p hpo)
      refine ⟨p, hpo, ?_⟩
      cases hr : reports U [] p.cmps with
      | nil => rfl
      | cons rep rs =>
        rw [hr] at g4 g5
        cases hms : s.msgs with
        | nil => rw [hms] at g4; cases g4
        | cons m ms =>
          rw [hms] at g5
          exact absurd (.check p rep rs m hpo hr (g5 (rep, m) (by rw [List.zip_cons_cons]; exact List.mem_cons_self))) (no hn _)
  · rintro ⟨p, hp, hr⟩
    cases hw : policyFault U builtin h r k text with
    | none => rfl
    | some w =>
      exfalso
      have hparse := (parseText_iff hU k (p.build U k).2 text (p.build U k).1).2 ⟨p, hp, rfl⟩
      have nopar : ∀ e, parseTextM U k text ≠ .error e := by
        intro e he
        have := parseTextM_exc U k text
        rw [hparse, he] at this
        cases this
      cases (fault_iff U hU builtin h r k text hf w).1 hw with
      | lexer e he => exact nopar e ((parse_text_error_iff U hU k text e).2 (Or.inl he))
      | parser ts e h1 h2 =>
        exact nopar e ((parse_text_error_iff U hU k text e).2
          (Or.inr ⟨_, (lexer_refines_grammar U hU text _).2 ⟨ts, rfl, h1⟩, h2⟩))
      | check q rep rs m hq hr' hm =>
        have := policyOf_unique hU hp hq
        rw [← this, hr] at hr'
        cases hr'

/-- C127: with the texts of `policyFault`, `evaluate` refuses exactly the policies with a fault, tells the client the fault and leaves one
record with it. -/
theorem fault_recorded (U : Uni) (hU : U.Lawful) (builtin : PyExc → Str) (h : Heap) (r k : Nat) (exports : Dict Str) (text addr : Str)
    (ha : exports.get "REMOTE_ADDR".toList = some addr) (t : Trail) :
    let describe : PyExc → String := fun _ => String.ofList ((policyFault U builtin h r k text).getD [])
    policyCheckLog U h r k describe exports text t =
      match policyFault U builtin h r k text with
      | none => .ok () t
      | some w => .error (.clientFault ("Invalid policy: ".toList ++ w)) (t ++ [(40, policyRecord addr w)]) := by
  intro describe
  have hfault : policyFault U builtin h r k text = none ↔ ∃ s is, checkText U h r k (some 0) text = .ok (s, .ok is) := by
    have hx := parseTextM_exc U k text
    unfold policyFault checkText
    cases hp : parseTextM U k text with
    | error e =>
      rw [hp] at hx
      rw [← hx]
      simp [Except.mapError, bind, Except.bind]
    | ok y =>
      obtain ⟨n, k'⟩ := y
      rw [hp] at hx
      have hparse : parseText U k text = .ok (n, k') := hx.symm
      obtain ⟨p, hpo, h1⟩ := (parseText_iff hU k k' text n).1 hparse
      have hn : n = (p.build U k).1 := by rw [h1]
      obtain ⟨k1, _, _⟩ := kinded_build U p (policyOf_ok hpo).1 k
      rw [← hn] at k1
      have g1 := (check_forget U (some 0) k1 (spoken_start U h r)).1
      rw [hparse]
      simp only [bind, Except.bind, pure, Except.pure]
      rw [← g1]
      cases (TCM.check U (some 0) n ⟨{ heap := h, next := r }, []⟩).2 with
      | ok is => simp [excOf]
      | error x => cases x <;> simp [excOf]
  have hd : ∀ e w, policyFault U builtin h r k text = some w → (describe e).toList = w := by
    intro e w hw
    show (String.ofList ((policyFault U builtin h r k text).getD [])).toList = w
    rw [hw]
    exact String.toList_ofList
  have href : ∀ e w, policyFault U builtin h r k text = some w →
      (refuse exports (fun addr => policyRecord addr (describe e).toList) ("Invalid policy: " ++ describe e) : AuditM Unit) t =
        .error (.clientFault ("Invalid policy: ".toList ++ w)) (t ++ [(40, policyRecord addr w)]) := by
    intro e w hw
    unfold refuse
    rw [audit_bind_lift, remoteAddr, ha]
    simp only [hd e w hw, String.toList_append]
    rfl
  cases hw : policyFault U builtin h r k text with
  | none =>
    obtain ⟨s, is, h1⟩ := hfault.1 hw
    unfold policyCheckLog
    rw [h1]
    rfl
  | some w =>
    unfold policyCheckLog
    rcases hc : checkText U h r k (some 0) text with e | ⟨s, e | is⟩
    · exact href e w hw
    · exact href e w hw
    · rw [hfault.2 ⟨s, is, hc⟩] at hw
      cases hw

/-- C127: the excerpt can carry line breaks into the log. With a line break, a character no lexeme begins with, and up to ten more
characters, the client writes the beginning of a line of its own. -/
theorem fault_forged (U : Uni) (hU : U.Lawful) (builtin : PyExc → Str) (h : Heap) (r k : Nat) (c : Char) (x : Str) (hx : x.length ≤ 10)
    (hs : U.isSpace c = false) (hd : U.isDigit c = false) (ha : U.isAlpha c = false) (hc : c ∉ starters)
    (hm : c ≠ '-') :
    policyFault U builtin h r k ('\n' :: c :: x) =
      some (say "Syntax error, encountered an unexpected character, '" [c] "'. @ char 1 near '\n" ++ c :: (x ++ ['\''])) := by
  have hn : U.isSpace '\n' = true := by rw [hU.space_ascii _ (by decide)]; decide
  have hl : LexFails U ('\n' :: c :: x) 0
      (.lexer (say "Syntax error, encountered an unexpected character, '" [c] "'.") 1 none) :=
    ⟨['\n'], c :: x, 0, .none _ _, by simpa using hn, .char c x 1 hs hd ha hc (fun h => absurd h hm)⟩
  have hp := (parse_text_error_iff U hU k ('\n' :: c :: x) _).2 (Or.inl hl)
  unfold policyFault
  rw [hp]
  simp only
  rw [str_syntax U hU builtin k _ _ hp]
  congr 1
  have hx' : around ('\n' :: c :: x) 1 = '\n' :: c :: x := by
    have h1 := near_window [] ('\n' :: c :: x) 1 10 (by simp)
    rw [near_eq _ _ _ _ (by simp)] at h1
    have h2 : around ('\n' :: c :: x) 1 = _ := (Option.some.inj h1).symm
    rw [h2]
    simp only [List.length_cons, Nat.reduceSub, List.drop_zero]
    apply List.take_of_length_le
    simp only [List.length_cons]
    omega
  show shownError _ 1 _ = _
  unfold shownError
  rw [if_neg (by simp), hx']
  simp only [say_def, List.append_assoc]
  rfl

/-- C127: an identifier that is no keyword is shown in full, however long it is. -/
theorem fault_identifier (U : Uni) (hU : U.Lawful) (builtin : PyExc → Str) (h : Heap) (r k : Nat) (w : Str) (hw : Ident U w)
    (hk : ∀ kw ty v, (kw, ty, v) ∈ keywords → ¬ Spells w kw) :
    policyFault U builtin h r k w = some (shownError (say "Syntax error, encountered an unknown identifier, '" w "'.") 0 w) := by
  have hl : LexFails U w 0
      (.lexer (say "Syntax error, encountered an unknown identifier, '" w "'.") 0 (some ⟨.unkId, 0, .str w⟩)) := by
    refine ⟨[], w, 0, .none _ _, by simp, ?_⟩
    have := BadLexeme.unknown w [] 0 hw (by simp) hk
    rw [List.append_nil] at this
    exact this
  have hp := (parse_text_error_iff U hU k w _).2 (Or.inl hl)
  unfold policyFault
  rw [hp]
  simp only
  rw [str_syntax U hU builtin k _ _ hp]
  rfl

/-- The excerpt is a part of the policy of at most 21 characters, with the character at the position. -/
theorem around_part (text : Str) (p : Nat) : ∃ a b, text = a ++ around text p ++ b ∧ (around text p).length ≤ 21 ∧
    (p < text.length → a.length ≤ p ∧ (around text p)[p - a.length]? = text[p]?) := by
  by_cases ht : text = []
  · subst ht
    exact ⟨[], [], rfl, Nat.zero_le _, by simp⟩
  · obtain ⟨a, w, b, h1, h2, h3, h4⟩ := near_contiguous [] text p 10 ht
    rw [near_window _ _ _ _ ht] at h1
    have : around text p = w := Option.some.inj h1
    rw [this]
    exact ⟨a, b, h2, h3, h4⟩

/-- C127: what is shown is the text of an exception of Python, or an error at a place of the policy with its surroundings. -/
theorem fault_shape (U : Uni) (hU : U.Lawful) (builtin : PyExc → Str) (text w : Str) (h : Fault U builtin text w) :
    (∃ e, w = builtin e) ∨ ∃ m p rule, p ≤ text.length ∧ m ≠ [] ∧
      w = shownError m p text ++ (if rule = "" then [] else say " while parsing " (U.upper rule.toList) " rule.") ∧
      (rule = "" ∨ rule ∈ ["exp", "att_name", "var", "atomic", "set", "parse"]) := by
  have syn : ∀ e, parseTextM U 0 text = .error e → (∃ x, shownSyntax U builtin text e = builtin x) ∨
      ∃ m p rule, p ≤ text.length ∧ m ≠ [] ∧ shownSyntax U builtin text e = shownError m p text ++
        (if rule = "" then [] else say " while parsing " (U.upper rule.toList) " rule.") ∧
        (rule = "" ∨ rule ∈ ["exp", "att_name", "var", "atomic", "set", "parse"]) := by
    intro e he
    cases e with
    | other x => exact Or.inl ⟨x, rfl⟩
    | lexer m p t =>
      rcases (parse_text_error_iff U hU 0 text _).1 he with h | ⟨toks, h1, h2⟩
      · have := lex_error_place U hU text m p t ((lex_error_iff U hU text _).2 h)
        refine Or.inr ⟨m, p.toNat, "", by omega, this.2.2.1, ?_, Or.inl rfl⟩
        rw [if_pos rfl, List.append_nil]
        rfl
      · obtain ⟨ts, rfl, h3⟩ := (lexer_refines_grammar U hU text toks).1 h1
        exact absurd h2 (walk_no_lexer ts .exp [] m p t)
    | parser m p t rule =>
      rcases (parse_text_error_iff U hU 0 text _).1 he with h | ⟨toks, h1, h2⟩
      · obtain ⟨_, _, _, _, _, hb⟩ := h
        cases hb
      · obtain ⟨ts, rfl, h3⟩ := (lexer_refines_grammar U hU text toks).1 h1
        obtain ⟨h4, h5⟩ := walk_pos (ts := ts) h2
        have h6 := tokenizes_pos h3 t h4
        have h7 := walk_rule (ts := ts) h2
        have h8 := parse_error_text U 0 _ m p t rule ((parse_error_iff U 0 _ _).2 h2)
        refine Or.inr ⟨m, p.toNat, rule, by omega, ?_, ?_, Or.inr h7⟩
        · intro hm
          rw [hm] at h8
          have := List.prefix_nil.1 h8
          exact absurd this (by decide)
        · have : rule ≠ "" := by
            simp only [List.mem_cons, List.not_mem_nil, or_false] at h7
            rcases h7 with e | e | e | e | e | e <;> rw [e] <;> decide
          rw [if_neg this]
          rfl
  cases h with
  | lexer e he => exact syn e ((parse_text_error_iff U hU 0 text e).2 (Or.inl he))
  | parser ts e h1 h2 =>
    exact syn e ((parse_text_error_iff U hU 0 text e).2 (Or.inr ⟨_, (lexer_refines_grammar U hU text _).2 ⟨ts, rfl, h1⟩, h2⟩))
  | check p rep rs m hp hr hm =>
    have := report_place hp rep (by rw [hr]; exact List.mem_cons_self)
    refine Or.inr ⟨m, rep.pos.toNat, "", by omega, ?_, by rw [if_pos rfl, List.append_nil], Or.inl rfl⟩
    have hsay : ∀ (a : String) (x : Str) (b : String), a.toList ≠ [] → say a x b ≠ [] := by
      intro a x b ha h
      rw [say_def, List.append_assoc, List.append_eq_nil_iff] at h
      exact ha h.1
    unfold Says at hm
    split at hm
    · rcases hm with ⟨_, _, a, b, _, _, h5⟩ | ⟨_, _, _, a, _, h5⟩
      · rw [h5]
        intro h
        exact hsay _ _ _ (by decide) (List.append_eq_nil_iff.1 h).1
      · rw [h5]
        exact hsay _ _ _ (by decide)
    · rw [hm]
      unfold clashText
      repeat' split
      all_goals decide

/-! ### Examples -/

/-- A policy with two errors: the first is shown. -/
example : policyFault asciiUni (fun _ => []) Tests.noHeap 0 0 (txt!"\"x\" < 2 AND NULL >= 3") =
    some (txt!"Type Error, strings can not be compared using inequality operations. @ char 4 near '\"x\" < 2 AND NUL'") := by
  decide +kernel
/-- The attribute is shown as it was written first, in lower case. -/
example : policyFault asciiUni (fun _ => []) Tests.noHeap 0 0 (txt!"user.Age > 1 AND USER.aGE = \"y\"") =
    some (txt!"Possible type error with attribute user.age. Attribute compared with different types. @ char 26 near ' USER.aGE = \"y\"'") := by
  decide +kernel
example : policyFault asciiUni (fun _ => []) Tests.noHeap 0 0 (txt!"user.a = 1 AND user.a = object.b") =
    some (txt!"Possible type error with attributes user.a and object.b. Attributes compared with different types and each other @ char 22 near 'ND user.a = object.b'") := by
  decide +kernel
example : policyFault asciiUni (fun _ => []) Tests.noHeap 0 0 (txt!"user.a = 1 AND user.b IN {1, 2}") = none := by decide +kernel
/-- A line of the client's making. -/
example : policyFault asciiUni (fun _ => []) Tests.noHeap 0 0 (txt!"\n[INFO] ok") =
    some (txt!"Syntax error, encountered an unexpected character, '['. @ char 1 near '\n[INFO] ok'") := by decide +kernel
example : policyFault asciiUni (fun _ => []) Tests.noHeap 0 0 (txt!"\n[INFO] ok") =
    some (txt!"Syntax error, encountered an unexpected character, '['. @ char 1 near '\n[INFO] ok'") :=
  fault_forged asciiUni asciiUni_lawful (fun _ => []) Tests.noHeap 0 0 '[' (txt!"INFO] ok") (by decide) (by decide) (by decide)
    (by decide) (by decide) (by decide)
example : Says asciiUni [⟨.usrAtt, 0, .str (txt!"Age")⟩] true "att_check" ⟨.usrAtt, 17, .str (txt!"aGE")⟩ ⟨.string, 28, .str ['y']⟩
    (txt!"Possible type error with attribute user.age. Attribute compared with different types.") := by
  unfold Says
  rw [if_pos rfl]
  exact Or.inr ⟨_, Or.inl ⟨rfl, by decide⟩, by decide, txt!"user.age", ⟨_, rfl, by decide⟩, by decide +kernel⟩

end Verif.Props
