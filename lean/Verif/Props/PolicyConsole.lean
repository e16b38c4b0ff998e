import Verif.Model.PolicyConsole
import Verif.Spec.Transcript
import Verif.Props.PolicyGui
import Verif.Props.InterpMessages
/-!
# The console of the policy demo (C130)
-/

namespace Verif.Props
open Verif Verif.Spec Verif.Proofs PolicyGui

variable {U : Uni} {toFloat : Str → Except PyExc PyFloat}

theorem wroteError_eq (s : Str) : wroteError s = errorLine s := rfl

theorem wroteList_eq (title : String) (l : List Str) : wroteList title l = bullets title l := by
  unfold bullets
  cases l with
  | nil => rfl
  | cons a l => rw [if_neg (by simp)]; rfl

theorem wroteSyntax_eq (hU : U.Lawful) {k : Nat} {text : Str} {e : SyntaxErr} (h : parseTextM U k text = .error e) :
    wroteSyntax U text e = syntaxLine U text e := by
  have hs := str_syntax U hU (fun _ => []) k text e h
  unfold wroteSyntax syntaxLine
  cases e with
  | other e => rfl
  | lexer m p t => exact congrArg errorLine hs
  | parser m p t r => exact congrArg errorLine hs

theorem lexM_ok {text : Str} {ts : List Token} : lexTokensM U text = .ok ts ↔ lexTokens U text = .ok ts := by
  rw [← lexTokensM_exc]
  cases lexTokensM U text <;> simp [Except.mapError]

/-- What Tokenize writes. -/
theorem wroteTokenize_says (hU : U.Lawful) (g : PolicyGui) : TokenizeSays U g.text (g.wroteTokenize U) := by
  unfold wroteTokenize
  cases h : lexTokensM U g.text with
  | error e =>
    refine Or.inr ⟨e, (lex_error_iff U hU g.text e).1 h, ?_⟩
    dsimp only
    rw [wroteSyntax_eq hU (k := 0) (by unfold parseTextM; rw [h]; rfl)]
    rfl
  | ok ts =>
    obtain ⟨us, rfl, h2⟩ := (lexer_refines_grammar U hU g.text ts).1 (lexM_ok.1 h)
    exact Or.inl ⟨us, h2, rfl⟩

/-- What Parse writes. -/
theorem wroteParse_says (hU : U.Lawful) {g : PolicyGui} {ts : List Token} (ht : g.tokens = some ts)
    (hl : lexTokens U g.text = .ok ts) : ParseSays U g.text (g.wroteParse U) := by
  unfold wroteParse
  rw [ht]
  dsimp only
  have hp : parseTextM U g.nextId g.text = parseTokensM U g.nextId ts := by
    unfold parseTextM; rw [lexM_ok.2 hl]; rfl
  obtain ⟨us, rfl, h2⟩ := (lexer_refines_grammar U hU g.text ts).1 hl
  cases h : parseTokensM U g.nextId (⟨.start, 0, .none⟩ :: us) with
  | error e =>
    refine Or.inr ⟨us, e, h2, (parse_error_iff U _ _ _).1 h, ?_⟩
    dsimp only
    rw [wroteSyntax_eq hU (k := g.nextId) (hp.trans h)]
  | ok x =>
    obtain ⟨n, k'⟩ := x
    have : parseText U g.nextId g.text = .ok (n, k') := by
      rw [← parseTextM_exc, hp, h]; rfl
    obtain ⟨p, hp, _⟩ := (parseText_iff hU _ _ _ _).1 this
    exact Or.inl ⟨p, hp, rfl⟩

theorem raiseIssuesM_crit (l : List (Issue × Str)) : raiseIssuesM (some levelCRIT) l = none := by
  induction l with
  | nil => rfl
  | cons a l ih =>
    obtain ⟨i, m⟩ := a
    unfold raiseIssuesM
    dsimp only
    rw [if_neg, ih]
    unfold Issue.type
    cases i.warn <;> decide

theorem result_name {s : TC} {rs : List Report} (hc : s.checked = true) (hi : s.issues = rs.map issueOf) :
    TCResult.name s.getResult = checkName rs := by
  unfold TC.getResult checkName
  rw [hc, hi]
  rw [if_neg (by simp)]
  cases rs with
  | nil => rfl
  | cons r rs =>
    rw [if_neg (c := ((r :: rs).map issueOf).length = 0) (by simp), if_neg (c := r :: rs = []) (by simp)]
    have key : ((r :: rs).map issueOf).any (fun x => x.type == levelERROR) = true ↔ ¬ ∀ x ∈ r :: rs, x.warn = true := by
      rw [List.any_eq_true]
      constructor
      · rintro ⟨x, hx, ht⟩ hall
        obtain ⟨y, hy, rfl⟩ := List.mem_map.1 hx
        have := hall y hy
        unfold Issue.type issueOf at ht
        rw [this] at ht
        exact absurd ht (by simp [levelWARN, levelERROR])
      · intro hn
        simp only [not_forall] at hn
        obtain ⟨y, hy, hw⟩ := hn
        refine ⟨_, List.mem_map_of_mem hy, ?_⟩
        unfold Issue.type issueOf
        rw [Bool.eq_false_iff.2 hw]
        rfl
    by_cases hk : ∀ x ∈ r :: rs, x.warn = true
    · rw [if_pos hk, if_neg (fun h => key.1 h hk)]; rfl
    · rw [if_neg hk, if_pos (key.2 hk)]; rfl

/-- The lists of errors and warnings. -/
theorem issue_lines {text : Str} {rs : List Report} (hp : ∀ r ∈ rs, 0 ≤ r.pos) (ms : List Str) (w : Bool) (lv : Int)
    (hl : ∀ b : Bool, ((if b then levelWARN else levelERROR : Int) == lv) = (b == w)) :
    issueTexts text (((rs.map issueOf).zip ms).filter (fun x => x.1.type == lv)) =
      ((rs.zip ms).filter (fun e => e.1.warn == w)).map fun e => shownError e.2 e.1.pos.toNat text := by
  induction rs generalizing ms with
  | nil => rfl
  | cons r rs ih =>
    cases ms with
    | nil => rfl
    | cons m ms =>
      have ih := ih (fun x hx => hp x (by simp [hx])) ms
      have h1 : ((issueOf r).type == lv) = (r.warn == w) := hl r.warn
      simp only [List.map_cons, List.zip_cons_cons, List.filter_cons, h1]
      by_cases hw : (r.warn == w) = true
      · rw [if_pos hw, if_pos hw, List.map_cons, ← ih]
        show HGPLError.str ⟨m, some text, r.pos⟩ :: _ = _
        rw [str_shown _ _ _ (hp r (by simp))]
        rfl
      · rw [if_neg hw, if_neg hw, ← ih]

/-- What Type Check writes. -/
theorem wroteCheck_says (hU : U.Lawful) {g : PolicyGui} (h : Parsed U g) :
    ∃ p, PolicyOf U g.text p ∧ (FoldsAll U p → CheckSays U g.text p (g.wroteCheck U)) := by
  obtain ⟨p, k, hp, ha⟩ := h.policy hU
  refine ⟨p, hp, fun hf => ?_⟩
  obtain ⟨s, res, h1, h2, h3, h4, h5, h6⟩ :=
    check_messages U hU (fun _ => Symbol.new U [] none none (.sc .none)) 0 k (some levelCRIT) g.text p hp hf
  obtain ⟨s', c1, c2, _, _⟩ := check_build hU hp hf k
  have hck : s.tc.checked = true := by
    have : checkText U (fun _ => Symbol.new U [] none none (.sc .none)) 0 k (some levelCRIT) g.text =
        .ok (TC.check U (some 4) (p.build U k).1 (newChecker U)) := by
      unfold checkText
      rw [(parseText_iff hU k (p.build U k).2 g.text (p.build U k).1).2 ⟨p, hp, rfl⟩]
      rfl
    rw [h2, c1] at this
    injection this with this
    rw [(Prod.mk.inj this).1, c2]
  have hpos : ∀ r ∈ reports U [] p.cmps, 0 ≤ r.pos := fun r hr => (report_place hp r hr).1
  refine ⟨s.msgs, h4, h5, ?_⟩
  unfold wroteCheck
  rw [ha]
  dsimp only
  have h1' : TCM.check U (some levelCRIT) (p.build U k).1 ⟨newChecker U, []⟩ = (s, res) := h1
  rw [h1']
  cases res with
  | error x =>
    have := h6 x rfl
    rw [raiseIssuesM_crit] at this
    cases this
  | ok is =>
    dsimp only
    rw [h3, issue_lines hpos _ false levelERROR (by decide), issue_lines hpos _ true levelWARN (by decide), wroteList_eq, wroteList_eq,
      result_name hck h3, say_def]
    simp only [List.append_assoc]

/-- The names of the symbols of a table. -/
def symbolNames (U : Uni) (E : SymEnv) (t : Token) : Option Str :=
  (E.tab.lookup U (attTypePrefix (some t.type) ++ attName t)).map (fun r => (E.heap r).name)

theorem shownError_ne (m : Str) (p : Nat) (text : Str) : shownError m p text ≠ [] := by
  intro h
  have h := (List.append_eq_nil_iff.1 (List.append_eq_nil_iff.1 h).1).1
  exact absurd (List.append_eq_nil_iff.1 h).2 (by decide)

/-- What Interpret writes. -/
theorem wroteInterpret_says (hU : U.Lawful) {g : PolicyGui} (h : AtInterpret U g) :
    ∃ p, PolicyOf U g.text p ∧ (SymEnv.SetsOk g.env →
      InterpretSays U (attsOf U g.env) (symbolNames U g.env) g.text p (g.wroteInterpret U)) := by
  obtain ⟨p, k, hp, ha⟩ := h.2.1.policy hU
  refine ⟨p, hp, fun hE => ?_⟩
  have hi : g.interpretOn = true := (Prod.mk.inj (Prod.mk.inj (Prod.mk.inj h.1).2).2).2
  obtain ⟨p', hp', s1, s2, s3⟩ := interpret_shows (toFloat := fun _ => .error .valueError) hU (Or.inr (Or.inr (Or.inr h))) hi hE
  cases policyOf_unique hU hp hp'
  have hstep : g.step U (fun _ => .error .valueError) .interpret = g.interpret U := by dsimp only [PolicyGui.step]; rw [if_pos hi]
  rw [hstep] at s1 s2 s3
  have hev : evaluateTextM U g.env (some levelERROR) k g.text =
      .ok (InterpM.evaluate U g.env (some levelERROR) ⟨(p.build U k).1, []⟩) := by
    unfold evaluateTextM
    rw [(parseText_iff hU k (p.build U k).2 g.text (p.build U k).1).2 ⟨p, hp, rfl⟩]
    rfl
  have hsay : ∀ builtin : PyExc → Str,
      (InterpM.evaluate U g.env (some levelERROR) ⟨(p.build U k).1, []⟩).1.warnings.map (WarnM.str (some g.text)) =
        (remarks U (attsOf U g.env) p).map (Remark.shown g.text) ∧
      (match (InterpM.evaluate U g.env (some levelERROR) ⟨(p.build U k).1, []⟩).2 with
        | .ok _ => none | .error e => some (e.str builtin (some g.text))) =
        evalShown U (attsOf U g.env) builtin (some levelERROR) g.text p := by
    intro builtin
    obtain ⟨s, r, e1, e2, e3⟩ := evaluate_says U hU g.env hE builtin (some levelERROR) k g.text p hp
    rw [hev] at e1
    injection e1 with e1
    rw [e1]
    exact ⟨e2, e3⟩
  have forget := interp_forget U g.env (some levelERROR) ⟨(p.build U k).1, []⟩
  unfold wroteInterpret
  rw [ha]
  dsimp only
  unfold InterpretSays
  rcases hx : InterpM.evaluate U g.env (some levelERROR) ⟨(p.build U k).1, []⟩ with ⟨i, r⟩
  rw [hx] at hsay forget
  have same : Interp.evaluate U g.env (some levelERROR) ⟨(p.build U k).1, []⟩ =
      (⟨i.ast, i.warnings.map WarnM.warn⟩, r.mapError RaisedM.exc) := by
    simp only [List.map_nil, Prod.mk.injEq] at forget
    obtain ⟨f1, f2, f3⟩ := forget
    rw [f1, f2, f3]
  unfold evalShown at hsay
  cases hm : (semPolicy U (attsOf U g.env) p).2 with
  | ok d =>
    rw [hm] at hsay
    dsimp only at hsay ⊢
    cases r with
    | error e =>
      have := (hsay (fun _ => [])).2
      exfalso
      cases hr : remarks U (attsOf U g.env) p with
      | nil => rw [hr] at this; cases this
      | cons a l =>
        rw [hr] at this
        dsimp only at this
        rw [if_neg (by decide)] at this
        cases this
    | ok x =>
      dsimp only
      have hs : g.interpret U = match resultName g.env x with
          | none => (g, some .attributeError)
          | some name => ({ g with console := g.console ++ [.interpreted (i.warnings.map WarnM.warn) name] }, none) := by
        obtain ⟨hb, _, s, n, is, hch, han, _, _⟩ := h
        unfold PolicyGui.interpret
        rw [disabled_eq (Prod.mk.inj hb).1 (Prod.mk.inj (Prod.mk.inj hb).2).1 (Prod.mk.inj (Prod.mk.inj (Prod.mk.inj hb).2).2).1]
        dsimp only
        rw [ha]
        dsimp only
        rw [same, hch]
        rfl
      have name : ∃ nm, resultName g.env x = some nm ∧ calledResult (symbolNames U g.env) p d = some nm := by
        have get : ∀ nm w, g.interpret U = ({ g with console := g.console ++ [.interpreted w nm] }, none) →
            resultName g.env x = some nm := by
          intro nm w hq
          rw [hs] at hq
          cases hr : resultName g.env x with
          | none => rw [hr] at hq; exact absurd (Prod.mk.inj hq).2 (by simp)
          | some nm' =>
            rw [hr] at hq
            have := congrArg (fun y => y.1.console) hq
            simp only [List.append_cancel_left_eq, List.cons.injEq, GuiEntry.interpreted.injEq, and_true] at this
            rw [this.2]
        by_cases hv : ∃ v, d = .truth v
        · obtain ⟨v, rfl⟩ := hv
          refine ⟨_, get _ _ (s1 v hm), ?_⟩
          cases v <;> rfl
        · obtain ⟨t, r, rfl, h2, h3⟩ := s2 d hm (fun v hv' => hv ⟨v, hv'⟩)
          refine ⟨_, get _ _ h3, ?_⟩
          have : calledResult (symbolNames U g.env) (.att t) d = symbolNames U g.env t := by
            cases d with
            | truth v => exact absurd ⟨v, rfl⟩ hv
            | _ => rfl
          rw [this]
          unfold symbolNames
          rw [h2]
          rfl
      obtain ⟨nm, n1, n2⟩ := name
      refine ⟨nm, n2, ?_⟩
      rw [n1, (hsay (fun _ => [])).1, wroteList_eq, say_def]
      simp only [List.append_assoc]
  | error e =>
    rw [hm] at hsay
    cases r with
    | ok x =>
      have := (hsay (fun _ => [])).2
      exfalso
      cases e <;> cases this
    | error r =>
      by_cases hI : ∃ pos rule, e = .interpreterError pos rule
      · obtain ⟨pos, rule, rfl⟩ := hI
        have := (hsay (fun _ => [])).2
        dsimp only at this ⊢
        injection this with this
        cases r with
        | warning w => exact congrArg (_ ++ errorLine ·) this
        | error r =>
          cases r with
          | said q rl m => exact congrArg (_ ++ errorLine ·) this
          | other e0 => exact absurd this.symm (shownError_ne _ _ _)
      · have key : ∀ b : PyExc → Str, r.str b (some g.text) = b e := by
          intro b
          have := (hsay b).2
          cases e <;> first | exact absurd ⟨_, _, rfl⟩ hI | exact Option.some.inj this
        have no : ∀ s : Str, (∀ b : PyExc → Str, s = b e) → False := by
          intro s hs
          have h1 := hs (fun _ => [])
          have h2 := hs (fun _ => ['x'])
          rw [h1] at h2
          cases h2
        cases r with
        | warning w => exact absurd (fun b => key b) (no _)
        | error r =>
          cases r with
          | said q rl m => exact absurd (fun b => key b) (no _)
          | other e0 =>
            cases e <;> first | exact List.append_nil _ | exact absurd ⟨_, _, rfl⟩ hI

/-! ### The console as a whole -/

/-- What a button that is enabled writes. -/
def Paragraph (U : Uni) (g : PolicyGui) : Event → Str → Prop
  | .tokenize, w => TokenizeSays U g.text w
  | .parse, w => ParseSays U g.text w
  | .typeCheck, w => ∃ p, PolicyOf U g.text p ∧ (FoldsAll U p → CheckSays U g.text p w)
  | .interpret, w => ∃ p, PolicyOf U g.text p ∧ (SymEnv.SetsOk g.env →
      InterpretSays U (attsOf U g.env) (symbolNames U g.env) g.text p w)
  | _, _ => False

/-- The button of an event is enabled. -/
def enabled (g : PolicyGui) : Event → Bool
  | .tokenize => g.tokenizeOn
  | .parse => g.parseOn
  | .typeCheck => g.checkOn
  | .interpret => g.interpretOn
  | _ => false

def isReset : Event → Bool
  | .reset => true
  | _ => false

/-- C130: in every state the user can reach, an event leaves the console as it is, empties it and writes "Reset.", or adds the
paragraph of the button pressed. -/
theorem console_step (hU : U.Lawful) (c : Console) (hs : Staged U c.gui) (e : Event) :
    (c.step U toFloat e).1.gui = (c.gui.step U toFloat e).1 ∧
    (if enabled c.gui e = true then ∃ w, Paragraph U c.gui e w ∧ (c.step U toFloat e).1.shown = c.shown ++ w
      else if isReset e = true then (c.step U toFloat e).1.shown = "Reset.\n\n".toList else (c.step U toFloat e).1.shown = c.shown) := by
  refine ⟨rfl, ?_⟩
  obtain ⟨g, shown⟩ := c
  have off : ∀ {b : Bool} {x : Str}, ¬ b = true → (if b then shown ++ x else shown) = shown := fun hb => if_neg hb
  cases e with
  | setText t => rw [if_neg (by simp [enabled]), if_neg (by simp [isReset])]; rfl
  | edit row value => rw [if_neg (by simp [enabled]), if_neg (by simp [isReset])]; rfl
  | reset => rw [if_neg (by simp [enabled]), if_pos (show isReset .reset = true from rfl)]; rfl
  | tokenize =>
    by_cases hb : g.tokenizeOn = true
    · rw [if_pos (show enabled g .tokenize = true from hb)]
      exact ⟨_, wroteTokenize_says hU g, if_pos hb⟩
    · rw [if_neg (show ¬ enabled g .tokenize = true from hb), if_neg (by simp [isReset])]
      exact off hb
  | parse =>
    by_cases hb : g.parseOn = true
    · rw [if_pos (show enabled g .parse = true from hb)]
      refine ⟨_, ?_, if_pos hb⟩
      rcases hs with h | h | h | h
      · rw [(Prod.mk.inj (Prod.mk.inj h.1).2).1] at hb; cases hb
      · obtain ⟨_, _, _, _, ts, h1, h2⟩ := h
        exact wroteParse_says hU h1 h2
      · rw [(Prod.mk.inj (Prod.mk.inj h.1).2).1] at hb; cases hb
      · rw [(Prod.mk.inj (Prod.mk.inj h.1).2).1] at hb; cases hb
    · rw [if_neg (show ¬ enabled g .parse = true from hb), if_neg (by simp [isReset])]
      exact off hb
  | typeCheck =>
    by_cases hb : g.checkOn = true
    · rw [if_pos (show enabled g .typeCheck = true from hb)]
      refine ⟨_, ?_, if_pos hb⟩
      rcases hs with h | h | h | h
      · rw [(Prod.mk.inj (Prod.mk.inj (Prod.mk.inj h.1).2).2).1] at hb; cases hb
      · rw [(Prod.mk.inj (Prod.mk.inj (Prod.mk.inj h.1).2).2).1] at hb; cases hb
      · exact wroteCheck_says hU h.2.1
      · rw [(Prod.mk.inj (Prod.mk.inj (Prod.mk.inj h.1).2).2).1] at hb; cases hb
    · rw [if_neg (show ¬ enabled g .typeCheck = true from hb), if_neg (by simp [isReset])]
      exact off hb
  | interpret =>
    by_cases hb : g.interpretOn = true
    · rw [if_pos (show enabled g .interpret = true from hb)]
      refine ⟨_, ?_, if_pos hb⟩
      rcases hs with h | h | h | h
      · rw [(Prod.mk.inj (Prod.mk.inj (Prod.mk.inj h.1).2).2).2] at hb; cases hb
      · rw [(Prod.mk.inj (Prod.mk.inj (Prod.mk.inj h.1).2).2).2] at hb; cases hb
      · rw [(Prod.mk.inj (Prod.mk.inj (Prod.mk.inj h.1).2).2).2] at hb; cases hb
      · exact wroteInterpret_says hU h
    · rw [if_neg (show ¬ enabled g .interpret = true from hb), if_neg (by simp [isReset])]
      exact off hb

/-- C130: whatever the user does in a new window, the console is a sequence of paragraphs, each the one of a button pressed while it
was enabled, after "Reset." if there was a reset. -/
theorem console_run (hU : U.Lawful) {g : PolicyGui} (hg : Opened g) (es : List Event) :
    (Console.run U toFloat ⟨g, []⟩ es).gui = g.run U toFloat es ∧
    ∃ (start : Str) (ps : List Str), (start = [] ∨ start = "Reset.\n\n".toList ∧ .reset ∈ es) ∧
      (Console.run U toFloat ⟨g, []⟩ es).shown = start ++ ps.flatten ∧
      ∀ w ∈ ps, ∃ pre e post, es = pre ++ e :: post ∧ enabled (g.run U toFloat pre) e = true ∧ Paragraph U (g.run U toFloat pre) e w := by
  have snoc : ∀ (l : List Event) (e : Event) (c : Console),
      Console.run U toFloat c (l ++ [e]) = ((Console.run U toFloat c l).step U toFloat e).1 := by
    intro l e
    induction l with
    | nil => intro c; rfl
    | cons a l ih => intro c; exact ih _
  have gsnoc : ∀ (l : List Event) (e : Event) (g : PolicyGui),
      PolicyGui.run U toFloat g (l ++ [e]) = ((PolicyGui.run U toFloat g l).step U toFloat e).1 := by
    intro l e
    induction l with
    | nil => intro c; rfl
    | cons a l ih => intro c; exact ih _
  induction es using List.reverseRecOn with
  | nil => exact ⟨rfl, [], [], Or.inl rfl, rfl, by simp⟩
  | append_singleton es e ih =>
    obtain ⟨i1, start, ps, i2, i3, i4⟩ := ih
    have hst : Staged U (Console.run U toFloat ⟨g, []⟩ es).gui := by rw [i1]; exact opened_staged hg es
    obtain ⟨s1, s2⟩ := console_step (toFloat := toFloat) hU _ hst e
    have i2' : start = [] ∨ start = "Reset.\n\n".toList ∧ .reset ∈ es ++ [e] :=
      i2.imp id (fun h => ⟨h.1, List.mem_append_left _ h.2⟩)
    have i4' : ∀ w ∈ ps, ∃ pre e' post, es ++ [e] = pre ++ e' :: post ∧ enabled (g.run U toFloat pre) e' = true ∧
        Paragraph U (g.run U toFloat pre) e' w := by
      intro w hw
      obtain ⟨pre, e', post, h1, h2⟩ := i4 w hw
      exact ⟨pre, e', post ++ [e], by rw [h1]; simp, h2⟩
    refine ⟨by rw [snoc, s1, gsnoc, i1], ?_⟩
    rw [snoc]
    by_cases hb : enabled (Console.run U toFloat ⟨g, []⟩ es).gui e = true
    · rw [if_pos hb] at s2
      obtain ⟨w, hw, hsh⟩ := s2
      refine ⟨start, ps ++ [w], i2', by rw [hsh, i3]; simp, ?_⟩
      intro x hx
      rcases List.mem_append.1 hx with hx | hx
      · exact i4' x hx
      · simp only [List.mem_singleton] at hx
        subst hx
        rw [i1] at hb hw
        exact ⟨es, e, [], rfl, hb, hw⟩
    · rw [if_neg hb] at s2
      by_cases hr : isReset e = true
      · rw [if_pos hr] at s2
        exact ⟨"Reset.\n\n".toList, [], Or.inr ⟨rfl, by
          cases e
          case reset => exact List.mem_append_right _ (List.mem_singleton.2 rfl)
          all_goals cases hr⟩, by rw [s2]; simp, by simp⟩
      · rw [if_neg hr] at s2
        exact ⟨start, ps, i2', by rw [s2, i3], i4'⟩

/-! ### There is one paragraph -/

theorem tokenizeSays_unique (hU : U.Lawful) {text v w : Str} (hv : TokenizeSays U text v) (hw : TokenizeSays U text w) : v = w := by
  have ok : ∀ {ts}, Tokenizes U text 0 ts → lexTokensM U text = .ok (⟨.start, 0, .none⟩ :: ts) := fun h =>
    lexM_ok.2 ((lexer_refines_grammar U hU text _).2 ⟨_, rfl, h⟩)
  have er : ∀ {r}, LexFails U text 0 r → lexTokensM U text = .error r := fun h => (lex_error_iff U hU text _).2 h
  rcases hv with ⟨ts, h1, rfl⟩ | ⟨r, h1, rfl⟩ <;> rcases hw with ⟨us, h2, rfl⟩ | ⟨q, h2, rfl⟩
  · have := (ok h1).symm.trans (ok h2)
    simp only [Except.ok.injEq, List.cons.injEq, true_and] at this
    rw [this]
  · have := (ok h1).symm.trans (er h2); cases this
  · have := (er h1).symm.trans (ok h2); cases this
  · have := (er h1).symm.trans (er h2)
    injection this with this
    rw [this]

theorem parseSays_unique (hU : U.Lawful) {text v w : Str} (hv : ParseSays U text v) (hw : ParseSays U text w) : v = w := by
  have ok : ∀ {p}, PolicyOf U text p → ∃ x, parseTextM U 0 text = .ok x := by
    intro p hp
    have := (parseText_iff hU 0 (p.build U 0).2 text (p.build U 0).1).2 ⟨p, hp, rfl⟩
    rw [← parseTextM_exc] at this
    cases h : parseTextM U 0 text with
    | ok x => exact ⟨x, rfl⟩
    | error e => rw [h] at this; cases this
  have er : ∀ {ts r}, Tokenizes U text 0 ts → walk .exp [] ts = some r → parseTextM U 0 text = .error r := fun h1 h2 =>
    (parse_text_error_iff U hU 0 text _).2 (Or.inr ⟨_, (lexer_refines_grammar U hU text _).2 ⟨_, rfl, h1⟩, h2⟩)
  rcases hv with ⟨p, h1, rfl⟩ | ⟨ts, r, h1, h1', rfl⟩ <;> rcases hw with ⟨q, h2, rfl⟩ | ⟨us, q, h2, h2', rfl⟩
  · rfl
  · obtain ⟨x, hx⟩ := ok h1
    have := hx.symm.trans (er h2 h2'); cases this
  · obtain ⟨x, hx⟩ := ok h2
    have := hx.symm.trans (er h1 h1'); cases this
  · have := (er h1 h1').symm.trans (er h2 h2')
    injection this with this
    rw [this]

theorem checkSays_unique {text : Str} {p : Policy} {v w : Str} (hv : CheckSays U text p v) (hw : CheckSays U text p w) : v = w := by
  obtain ⟨ms, h1, h2, rfl⟩ := hv
  obtain ⟨ns, g1, g2, rfl⟩ := hw
  have : ∀ (rs : List Report) (ms ns : List Str), ms.length = rs.length → ns.length = rs.length →
      (∀ e ∈ rs.zip ms, Says U p.attToks e.1.warn e.1.check e.1.left e.1.right e.2) →
      (∀ e ∈ rs.zip ns, Says U p.attToks e.1.warn e.1.check e.1.left e.1.right e.2) → ms = ns := by
    intro rs
    induction rs with
    | nil =>
      intro ms ns h g _ _
      rw [List.length_eq_zero_iff.1 h, List.length_eq_zero_iff.1 g]
    | cons r rs ih =>
      intro ms ns h g h2 g2
      cases ms with
      | nil => cases h
      | cons m ms =>
        cases ns with
        | nil => cases g
        | cons n ns =>
          simp only [List.zip_cons_cons, List.mem_cons, forall_eq_or_imp] at h2 g2
          rw [says_unique h2.1 g2.1, ih ms ns (Nat.succ.inj h) (Nat.succ.inj g) h2.2 g2.2]
  rw [this _ ms ns h1 g1 h2 g2]

theorem interpretSays_unique {A : Atts} {names : Token → Option Str} {text : Str} {p : Policy} {v w : Str}
    (hv : InterpretSays U A names text p v) (hw : InterpretSays U A names text p w) : v = w := by
  unfold InterpretSays at hv hw
  cases hm : (semPolicy U A p).2 with
  | ok d =>
    rw [hm] at hv hw
    obtain ⟨n, h1, rfl⟩ := hv
    obtain ⟨m, h2, rfl⟩ := hw
    rw [h1] at h2
    cases h2
    rfl
  | error e =>
    rw [hm] at hv hw
    cases e <;> exact hv.trans hw.symm

/-- C130: what a button writes is determined by the policy and the attributes. -/
theorem paragraph_unique (hU : U.Lawful) {g : PolicyGui} {e : Event} (hf : ∀ p, PolicyOf U g.text p → FoldsAll U p)
    (hE : SymEnv.SetsOk g.env) {v w : Str} (hv : Paragraph U g e v) (hw : Paragraph U g e w) : v = w := by
  cases e with
  | tokenize => exact tokenizeSays_unique hU hv hw
  | parse => exact parseSays_unique hU hv hw
  | typeCheck =>
    obtain ⟨p, h1, h2⟩ := hv
    obtain ⟨q, g1, g2⟩ := hw
    cases policyOf_unique hU h1 g1
    exact checkSays_unique (h2 (hf p h1)) (g2 (hf p h1))
  | interpret =>
    obtain ⟨p, h1, h2⟩ := hv
    obtain ⟨q, g1, g2⟩ := hw
    cases policyOf_unique hU h1 g1
    exact interpretSays_unique (h2 hE) (g2 hE)
  | _ => exact absurd hv id

/-! ### Examples -/

/-- The console after pressing all four buttons. -/
def wholeConsole (E : SymEnv) (text : Str) : Str :=
  (Console.run asciiUni (fun _ => .error .valueError) ⟨{ text := text, env := E, nextId := 0 }, []⟩
    [.tokenize, .parse, .typeCheck, .interpret]).shown

example : wholeConsole (sampleEnv []) (txt!"user.x = 1") =
    txt!"Running lexical analysis of policy \"user.x = 1\"...\nSuccessfully tokenized policy!\nFound 5 tokens.\n\nRunning parser on token list...\nSuccessfully build AST from token list!\n\nRunning type checker and symbol table builder on AST...\nSuccessfully type checked AST!\nResult: PASS\n\nRunning interpreter on AST and symbol table...\nWarnings:\n  * Interpreter Warning, unknown attribute user.x found in policy. @ char 0 near 'user.x = 1'\nSuccessfully interpreted AST!\nResult: UNDEF\n\n" := by
  decide +kernel
/-- A type error: Interpret stays disabled. -/
example : wholeConsole (sampleEnv []) (txt!"\"x\" > 1") =
    txt!"Running lexical analysis of policy \"\"x\" > 1\"...\nSuccessfully tokenized policy!\nFound 5 tokens.\n\nRunning parser on token list...\nSuccessfully build AST from token list!\n\nRunning type checker and symbol table builder on AST...\nErrors:\n  * Type Error, strings can not be compared using inequality operations. @ char 4 near '\"x\" > 1'\nSuccessfully type checked AST!\nResult: ERROR\n\n" := by
  decide +kernel
/-- A syntax error. -/
example : wholeConsole (sampleEnv []) (txt!"user.x =") =
    txt!"Running lexical analysis of policy \"user.x =\"...\nSuccessfully tokenized policy!\nFound 4 tokens.\n\nRunning parser on token list...\nERROR: Syntax error, unexpected END at char 8. Expected attribute or constant. @ char 8 near 'user.x =' while parsing VAR rule.\n\n" := by
  decide +kernel

end Verif.Props
