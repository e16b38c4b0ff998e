import Verif.Props.Evaluation
import Verif.Props.TypeChecker
import Verif.Props.AAuth
import Verif.Props.AST
import Verif.Spec.PolicyGui

/-!
# The policy demo (C99, C100)
-/

namespace Verif.Props

open Proofs Spec PolicyGui

variable {U : Uni} {toFloat : Str → Except PyExc PyFloat}

/-! ### C99: the stages -/

/-- Tokenize is the only button enabled. Either the policy can be edited, or it is no sequence of tokens. -/
def AtTokenize (U : Uni) (g : PolicyGui) : Prop :=
  (g.tokenizeOn, g.parseOn, g.checkOn, g.interpretOn) = (true, false, false, false) ∧
  g.tokens = none ∧ g.ast = none ∧ g.checked = none ∧ (g.combo = true ∨ ∃ e, lexTokens U g.text = .error e)

/-- Parse is the only button enabled, for the tokens of the policy. -/
def AtParse (U : Uni) (g : PolicyGui) : Prop :=
  (g.tokenizeOn, g.parseOn, g.checkOn, g.interpretOn) = (false, true, false, false) ∧ g.combo = false ∧
  g.ast = none ∧ g.checked = none ∧ ∃ ts, g.tokens = some ts ∧ lexTokens U g.text = .ok ts

/-- The tree of the policy was built. -/
def Parsed (U : Uni) (g : PolicyGui) : Prop :=
  g.combo = false ∧ (∃ ts, g.tokens = some ts ∧ lexTokens U g.text = .ok ts) ∧
  ∃ n k k', g.ast = some n ∧ parseText U k g.text = .ok (n, k')

/-- Type Check is the only button enabled, for the tree of the policy. -/
def AtCheck (U : Uni) (g : PolicyGui) : Prop :=
  (g.tokenizeOn, g.parseOn, g.checkOn, g.interpretOn) = (false, false, true, false) ∧ Parsed U g ∧
  ∀ s, g.checked = some s → s.getResult ≠ .pass ∧ s.getResult ≠ .warn

/-- Interpret is the only button enabled, for the tree of the policy, in which the type checker found no errors. -/
def AtInterpret (U : Uni) (g : PolicyGui) : Prop :=
  (g.tokenizeOn, g.parseOn, g.checkOn, g.interpretOn) = (false, false, false, true) ∧ Parsed U g ∧
  ∃ s n is, g.checked = some s ∧ g.ast = some n ∧ TC.check U (some 4) n (newChecker U) = (s, .ok is) ∧
    (s.getResult = .pass ∨ s.getResult = .warn)

/-- The stages. -/
def Staged (U : Uni) (g : PolicyGui) : Prop := AtTokenize U g ∨ AtParse U g ∨ AtCheck U g ∨ AtInterpret U g

/-- `g` has the same policy, stages and buttons as `g'`. -/
def SameStage (g g' : PolicyGui) : Prop :=
  g' = { g with env := g'.env, console := g'.console, nextId := g'.nextId }

theorem SameStage.staged {g g' : PolicyGui} (h : SameStage g g') (hs : Staged U g) : Staged U g' := by
  rw [h]; exact hs

theorem fail_eq (g : PolicyGui) (e : PyExc) :
    g.fail e = ({ g with console := (g.fail e).1.console }, if e.isHGPL then none else some e) := by
  unfold PolicyGui.fail
  split <;> rfl

theorem fail_same (g : PolicyGui) (e : PyExc) : SameStage g (g.fail e).1 := by rw [fail_eq]; rfl

theorem disabled_eq {g : PolicyGui} (h1 : g.tokenizeOn = false) (h2 : g.parseOn = false) (h3 : g.checkOn = false) :
    ({ g with checkOn := false, tokenizeOn := false, parseOn := false } : PolicyGui) = g := by
  cases g
  cases h1
  cases h2
  cases h3
  rfl

theorem edit_same (g : PolicyGui) (row : Nat) (value : Str) : SameStage g (g.edit U toFloat row value).1 := by
  unfold PolicyGui.edit
  split
  · rfl
  · rfl
  · rfl
  · split <;> rfl

/-- **C99**: exactly one of the buttons is enabled, and the results shown are those of the policy in the combo box. -/
theorem step_staged (g : PolicyGui) (e : Event) (hs : Staged U g) : Staged U (g.step U toFloat e).1 := by
  cases e with
  | setText t =>
    dsimp only [step]
    by_cases hc : g.combo = true
    · rw [if_pos hc]
      rcases hs with h | h | h | h
      · exact .inl ⟨h.1, h.2.1, h.2.2.1, h.2.2.2.1, .inl hc⟩
      · rw [h.2.1] at hc; cases hc
      · rw [h.2.1.1] at hc; cases hc
      · rw [h.2.1.1] at hc; cases hc
    · rw [if_neg hc]; exact hs
  | reset => exact .inl ⟨rfl, rfl, rfl, rfl, .inl rfl⟩
  | edit row value =>
    dsimp only [step]
    split
    · exact (edit_same g row value).staged hs
    · exact hs
  | tokenize =>
    dsimp only [step]
    split
    · rename_i ht
      unfold PolicyGui.tokenize
      dsimp only
      cases hl : lexTokens U g.text with
      | error e =>
        dsimp only
        refine (fail_same _ e).staged (.inl ⟨?_, rfl, rfl, rfl, .inr ⟨e, hl⟩⟩)
        dsimp only
        rw [ht]
      | ok ts => exact .inr (.inl ⟨rfl, rfl, rfl, rfl, ts, rfl, hl⟩)
    · exact hs
  | parse =>
    dsimp only [step]
    split
    · rename_i hp
      rcases hs with h | h | h | h
      · rw [(Prod.mk.inj (Prod.mk.inj h.1).2).1] at hp; cases hp
      · obtain ⟨hb, hc, ha, hch, ts, ht, hl⟩ := h
        unfold PolicyGui.parse
        dsimp only
        rw [ht]
        dsimp only
        cases hn : parseTokens U g.nextId ts with
        | error e =>
          dsimp only
          refine (fail_same _ e).staged (.inr (.inl ⟨?_, hc, rfl, rfl, ts, rfl, hl⟩))
          dsimp only
          rw [hp]
        | ok x =>
          obtain ⟨n, k⟩ := x
          refine .inr (.inr (.inl ⟨rfl, ⟨hc, ⟨ts, rfl, hl⟩, n, g.nextId, k, rfl, ?_⟩, fun s hs => (by cases hs)⟩))
          show parseText U g.nextId g.text = _
          unfold parseText
          rw [hl]
          exact hn
      · rw [(Prod.mk.inj (Prod.mk.inj h.1).2).1] at hp; cases hp
      · rw [(Prod.mk.inj (Prod.mk.inj h.1).2).1] at hp; cases hp
    · exact hs
  | typeCheck =>
    dsimp only [step]
    split
    · rename_i hp
      rcases hs with h | h | h | h
      · rw [(Prod.mk.inj (Prod.mk.inj (Prod.mk.inj h.1).2).2).1] at hp; cases hp
      · rw [(Prod.mk.inj (Prod.mk.inj (Prod.mk.inj h.1).2).2).1] at hp; cases hp
      · obtain ⟨hb, ⟨hc, htok, n, k, k', ha, hn⟩, _⟩ := h
        unfold PolicyGui.typeCheck
        dsimp only
        rw [ha]
        dsimp only
        rcases hx : TC.check U (some levelCRIT) n (newChecker U) with ⟨s, e | is⟩
        · dsimp only
          refine (fail_same _ e).staged (.inr (.inr (.inl ⟨?_, ⟨hc, htok, n, k, k', rfl, hn⟩, fun s hs => (by cases hs)⟩)))
          dsimp only
          rw [hp]
        · dsimp only
          split
          · rename_i hr
            exact .inr (.inr (.inr ⟨rfl, ⟨hc, htok, n, k, k', rfl, hn⟩, s, n, is, rfl, rfl, hx, hr⟩))
          · rename_i hr
            refine .inr (.inr (.inl ⟨?_, ⟨hc, htok, n, k, k', rfl, hn⟩, fun s' hs' => ?_⟩))
            · dsimp only
              rw [hp]
            · cases hs'
              exact not_or.mp hr
      · rw [(Prod.mk.inj (Prod.mk.inj (Prod.mk.inj h.1).2).2).1] at hp; cases hp
    · exact hs
  | interpret =>
    dsimp only [step]
    split
    · rename_i hp
      have key : SameStage g (g.interpret U).1 := by
        have hb : g.tokenizeOn = false ∧ g.parseOn = false ∧ g.checkOn = false := by
          rcases hs with h | h | h | h
          · rw [(Prod.mk.inj (Prod.mk.inj (Prod.mk.inj h.1).2).2).2] at hp; cases hp
          · rw [(Prod.mk.inj (Prod.mk.inj (Prod.mk.inj h.1).2).2).2] at hp; cases hp
          · rw [(Prod.mk.inj (Prod.mk.inj (Prod.mk.inj h.1).2).2).2] at hp; cases hp
          · exact ⟨(Prod.mk.inj h.1).1, (Prod.mk.inj (Prod.mk.inj h.1).2).1, (Prod.mk.inj (Prod.mk.inj (Prod.mk.inj h.1).2).2).1⟩
        obtain ⟨b1, b2, b3⟩ := hb
        unfold PolicyGui.interpret
        rw [disabled_eq b1 b2 b3]
        dsimp only
        split
        · exact fail_same _ _
        · split
          · exact fail_same _ _
          · split
            · exact fail_same _ _
            · split <;> rfl
      exact key.staged hs
    · exact hs

/-- A newly opened frame. -/
def Opened (g : PolicyGui) : Prop := ∃ text env k, g = { text := text, env := env, nextId := k }

theorem run_staged (es : List Event) : ∀ g : PolicyGui, Staged U g → Staged U (g.run U toFloat es) := by
  induction es with
  | nil => exact fun _ h => h
  | cons e es ih => exact fun g h => ih _ (step_staged g e h)

/-- **C99**: whatever the user does, exactly one of the buttons is enabled, and the results shown are those of the policy. -/
theorem opened_staged {g : PolicyGui} (hg : Opened g) (es : List Event) : Staged U (g.run U toFloat es) := by
  obtain ⟨t, env, k, rfl⟩ := hg
  exact run_staged es _ (.inl ⟨rfl, rfl, rfl, rfl, .inl rfl⟩)

/-- **C99**: the policy cannot be changed between Tokenize and Reset, whatever else the user does. -/
theorem text_locked (es : List Event) (hr : ∀ e ∈ es, e ≠ .reset) :
    ∀ g : PolicyGui, g.combo = false → (g.run U toFloat es).text = g.text ∧ (g.run U toFloat es).combo = false := by
  induction es with
  | nil => exact fun _ h => ⟨rfl, h⟩
  | cons e es ih =>
    intro g hc
    have key : (g.step U toFloat e).1.text = g.text ∧ (g.step U toFloat e).1.combo = false := by
      have hfail : ∀ (g : PolicyGui) x, (g.fail x).1.text = g.text ∧ (g.fail x).1.combo = g.combo := by
        intro g x
        rw [fail_eq]
        exact ⟨rfl, rfl⟩
      cases e with
      | reset => exact absurd rfl (hr _ List.mem_cons_self)
      | setText t => dsimp only [step]; rw [hc]; exact ⟨rfl, hc⟩
      | edit row value =>
        dsimp only [step]
        split
        · rw [edit_same (U := U) (toFloat := toFloat) g row value]; exact ⟨rfl, hc⟩
        · exact ⟨rfl, hc⟩
      | tokenize =>
        dsimp only [step]
        split
        · unfold PolicyGui.tokenize
          dsimp only
          split
          · exact hfail _ _
          · exact ⟨rfl, rfl⟩
        · exact ⟨rfl, hc⟩
      | parse =>
        dsimp only [step]
        split
        · unfold PolicyGui.parse
          dsimp only
          split
          · rw [(hfail _ _).1, (hfail _ _).2]; exact ⟨rfl, hc⟩
          · split
            · rw [(hfail _ _).1, (hfail _ _).2]; exact ⟨rfl, hc⟩
            · exact ⟨rfl, hc⟩
        · exact ⟨rfl, hc⟩
      | typeCheck =>
        dsimp only [step]
        split
        · unfold PolicyGui.typeCheck
          dsimp only
          split
          · rw [(hfail _ _).1, (hfail _ _).2]; exact ⟨rfl, hc⟩
          · split
            · rw [(hfail _ _).1, (hfail _ _).2]; exact ⟨rfl, hc⟩
            · split <;> exact ⟨rfl, hc⟩
        · exact ⟨rfl, hc⟩
      | interpret =>
        dsimp only [step]
        split
        · unfold PolicyGui.interpret
          dsimp only
          split
          · rw [(hfail _ _).1, (hfail _ _).2]; exact ⟨rfl, hc⟩
          · split
            · rw [(hfail _ _).1, (hfail _ _).2]; exact ⟨rfl, hc⟩
            · split
              · rw [(hfail _ _).1, (hfail _ _).2]; exact ⟨rfl, hc⟩
              · split <;> exact ⟨rfl, hc⟩
        · exact ⟨rfl, hc⟩
    have := ih (fun e he => hr e (List.mem_cons_of_mem _ he)) _ key.2
    exact ⟨this.1.trans key.1, this.2⟩

/-- The tree of a policy text. -/
theorem Parsed.policy (hU : U.Lawful) {g : PolicyGui} (h : Parsed U g) :
    ∃ p k, PolicyOf U g.text p ∧ g.ast = some (p.build U k).1 := by
  obtain ⟨_, _, n, k, k', ha, hn⟩ := h
  obtain ⟨p, hp, hb⟩ := (parseText_iff hU k k' g.text n).mp hn
  exact ⟨p, k, hp, by rw [ha, hb]⟩

/-- What the type checker finds in the tree of a policy. -/
theorem check_build (hU : U.Lawful) {text : Str} {p : Policy} (hp : PolicyOf U text p) (hf : FoldsAll U p) (k : Nat) :
    ∃ s, TC.check U (some 4) (p.build U k).1 (newChecker U) = (s, .ok s.issues) ∧ s.checked = true ∧
      s.issues = (reports U [] p.cmps).map issueOf ∧
      ((s.getResult = .pass ∨ s.getResult = .warn) ↔ ∀ c ∈ p.cmps, ¬ c.clash) := by
  obtain ⟨hw, ho, hn⟩ := policyOf_ok hp
  obtain ⟨_, h2, h3, h4⟩ := check_step hU p hw ho hn hf k
    (inv_start U (fun _ => Symbol.new U [] none none (.sc .none)) 0) rfl (some 4)
  rw [List.nil_append] at h3 h4
  change (TC.check U (some 4) (p.build U k).1 (newChecker U)).1.checked = true at h2
  change (TC.check U (some 4) (p.build U k).1 (newChecker U)).1.issues = _ at h3
  change (TC.check U (some 4) (p.build U k).1 (newChecker U)).2 = _ at h4
  rcases hx : TC.check U (some 4) (p.build U k).1 (newChecker U) with ⟨s, o⟩
  rw [hx] at h2 h3 h4
  dsimp only at h2 h3 h4
  have h5 : checkOutcome (some 4) (reports U [] p.cmps) = .ok ((reports U [] p.cmps).map issueOf) := by
    unfold checkOutcome
    have : (reports U [] p.cmps).find? (fun r => decide ((4 : Int) ≤ if r.warn then 2 else 3)) = none := by
      rw [List.find?_eq_none]
      intro x _
      cases x.warn <;> decide
    dsimp only
    rw [this]
  rw [h4, h5]
  refine ⟨s, by rw [h3], h2, h3, ?_⟩
  have hany : s.issues.any (fun x => x.type == levelERROR) = true ↔ ∃ c ∈ p.cmps, c.clash := by
    have hre := reports_errors U [] p.cmps
    rw [h3, List.any_map, List.any_eq_true]
    have hfun : ((fun x : Issue => x.type == levelERROR) ∘ issueOf) = fun r : Report => !r.warn := by
      funext x
      cases hw : x.warn <;> simp [Issue.type, issueOf, hw, levelERROR, levelWARN]
    rw [hfun]
    constructor
    · rintro ⟨r, hr, hwr⟩
      have : r ∈ (reports U [] p.cmps).filter (fun r => !r.warn) := List.mem_filter.mpr ⟨hr, hwr⟩
      rw [hre] at this
      obtain ⟨c, hc, _⟩ := List.mem_map.mp this
      exact ⟨c, (List.mem_filter.mp hc).1, of_decide_eq_true (List.mem_filter.mp hc).2⟩
    · rintro ⟨c, hc, hcl⟩
      have : (⟨false, c.o.pos, c.checkName, c.o, c.l.first, c.r.first⟩ : Report) ∈
          (reports U [] p.cmps).filter (fun r => !r.warn) := by
        rw [hre]
        exact List.mem_map.mpr ⟨c, List.mem_filter.mpr ⟨hc, decide_eq_true hcl⟩, rfl⟩
      exact ⟨_, (List.mem_filter.mp this).1, (List.mem_filter.mp this).2⟩
  unfold TC.getResult
  rw [h2, if_neg (by decide : ¬ (true = false))]
  by_cases h0 : s.issues.length = 0
  · rw [if_pos h0]
    have : ¬ ∃ c ∈ p.cmps, c.clash := by
      rw [← hany, List.length_eq_zero_iff.mp h0]
      decide
    exact ⟨fun _ c hc hcl => this ⟨c, hc, hcl⟩, fun _ => .inl rfl⟩
  · rw [if_neg h0]
    by_cases ha : s.issues.any (fun x => x.type == levelERROR) = true
    · rw [if_pos ha]
      obtain ⟨c, hc, hcl⟩ := hany.mp ha
      exact ⟨fun h => (by rcases h with h | h <;> cases h), fun h => absurd hcl (h c hc)⟩
    · rw [if_neg ha]
      exact ⟨fun _ c hc hcl => ha (hany.mpr ⟨c, hc, hcl⟩), fun _ => .inr rfl⟩

/-- **C99**: Interpret is enabled for policies only, and not for those with comparisons that clash. -/
theorem interpretable (hU : U.Lawful) {g : PolicyGui} (hs : Staged U g) (hi : g.interpretOn = true) :
    ∃ p, PolicyOf U g.text p ∧ (FoldsAll U p → ∀ c ∈ p.cmps, ¬ c.clash) := by
  rcases hs with h | h | h | h
  · rw [(Prod.mk.inj (Prod.mk.inj (Prod.mk.inj h.1).2).2).2] at hi; cases hi
  · rw [(Prod.mk.inj (Prod.mk.inj (Prod.mk.inj h.1).2).2).2] at hi; cases hi
  · rw [(Prod.mk.inj (Prod.mk.inj (Prod.mk.inj h.1).2).2).2] at hi; cases hi
  · obtain ⟨_, hp, s, n, is, _, ha, hc, hr⟩ := h
    obtain ⟨p, k, hpo, hast⟩ := hp.policy hU
    refine ⟨p, hpo, fun hf => ?_⟩
    obtain ⟨s', h1, _, _, h4⟩ := check_build hU hpo hf k
    rw [ha] at hast
    cases hast
    rw [h1] at hc
    cases hc
    exact h4.mp hr

/-- **C99**: clicking Tokenize, Parse and Type Check enables Interpret exactly for policies without comparisons that clash. -/
theorem pipeline (hU : U.Lawful) {g : PolicyGui} (hg : AtTokenize U g) (ha : g.text.all isAscii = true) :
    (g.run U toFloat [.tokenize, .parse, .typeCheck]).interpretOn = true ↔
      ∃ p, PolicyOf U g.text p ∧ ∀ c ∈ p.cmps, ¬ c.clash := by
  obtain ⟨hb, htk, hast, hch, _⟩ := hg
  have ht : g.tokenizeOn = true := (Prod.mk.inj hb).1
  have hstep : g.step U toFloat .tokenize = g.tokenize U := by dsimp only [step]; rw [if_pos ht]
  have htok : (g.tokenize U).1.text = g.text ∧ (g.tokenize U).1.combo = false := by
    unfold PolicyGui.tokenize
    dsimp only
    split
    · rw [fail_eq]; exact ⟨rfl, rfl⟩
    · exact ⟨rfl, rfl⟩
  have hrun : g.run U toFloat [.tokenize, .parse, .typeCheck] = (g.tokenize U).1.run U toFloat [.parse, .typeCheck] := by
    show (g.step U toFloat .tokenize).1.run U toFloat _ = _
    rw [hstep]
  constructor
  · intro hi
    have hst : Staged U (g.run U toFloat [.tokenize, .parse, .typeCheck]) :=
      run_staged _ g (.inl ⟨hb, htk, hast, hch, by assumption⟩)
    obtain ⟨p, hp, hc⟩ := interpretable hU hst hi
    have htext : (g.run U toFloat [.tokenize, .parse, .typeCheck]).text = g.text := by
      rw [hrun]
      refine ((text_locked [.parse, .typeCheck] ?_ _ htok.2).1).trans htok.1
      intro e he
      simp only [List.mem_cons, List.not_mem_nil, or_false] at he
      rcases he with rfl | rfl <;> simp
    rw [htext] at hp
    exact ⟨p, hp, hc (foldsAll_ascii hU hp ha)⟩
  · rintro ⟨p, hp, hc⟩
    have hparse := (parseText_iff hU g.nextId (p.build U g.nextId).2 g.text (p.build U g.nextId).1).2 ⟨p, hp, rfl⟩
    unfold parseText at hparse
    cases hl : lexTokens U g.text with
    | error e => rw [hl] at hparse; cases hparse
    | ok ts =>
      rw [hl] at hparse
      change parseTokens U g.nextId ts = _ at hparse
      obtain ⟨s, h1, _, _, h4⟩ := check_build hU hp (foldsAll_ascii hU hp ha) g.nextId
      unfold PolicyGui.tokenize at hrun
      dsimp only at hrun
      rw [hl] at hrun
      rw [hrun]
      have h1' : TC.check U (some levelCRIT) (p.build U g.nextId).1 (newChecker U) = (s, .ok s.issues) := h1
      simp only [run, step, PolicyGui.parse, hparse, PolicyGui.typeCheck, h1', if_true, if_pos (h4.mpr hc)]

/-! ### C99: what Interpret shows -/

/-- The names of truth values. -/
def triText : Tri → Str
  | .true => "TRUE".toList
  | .false => "FALSE".toList
  | .undef => "UNDEF".toList

theorem evaluate_sym {E : SymEnv} {level : Option Int} {t : Token} {k r : Nat} {i : Interp} (ht : AttTok t) (hv : ∃ s, t.value = .str s)
    (h : Interp.evaluate U E level ⟨attNode t k, []⟩ = (i, .ok (.sym r))) :
    E.tab.lookup U (attTypePrefix (some t.type) ++ attName t) = some r := by
  obtain ⟨s, hv⟩ := hv
  have hn : attName t = s := by simp [attName, hv]
  rw [hn]
  have key : (evalNode U E (attNode t k)).1.res = .sym r := by
    unfold Interp.evaluate at h
    dsimp only at h
    generalize evalNode U E (attNode t k) = x at h ⊢
    obtain ⟨n, w, _ | e⟩ := x
    · dsimp only at h
      split at h
      · cases h
      · exact Except.ok.inj (Prod.mk.inj h).2
    · cases h
  simp only [attNode, evalNode, evalChildren, evalSelf, attKind_isAtt, if_true, evalAtt, lookup_att (U := U) ht hv] at key
  cases hl : E.tab.lookup U (attTypePrefix (some t.type) ++ s) with
  | none => rw [hl] at key; cases key
  | some ref =>
    rw [hl] at key
    dsimp only at key
    split at key
    · cases key
    · split at key
      · split at key <;> cases key
      · cases key; rfl

theorem outcome_error (m : Eff Den) : outcome (some levelERROR) m = m.2 := by
  obtain ⟨w, e | d⟩ := m
  · cases w <;> rfl
  · cases w with
    | nil => rfl
    | cons w ws => simp [outcome, levelERROR]

/-- **C99**: Interpret shows the meaning of the policy for the attributes as they are now, however often they were edited and
the policy was interpreted before, and leaves everything else as it is. For a policy that is a single attribute of a type other
than BOOL it shows the name of the attribute. -/
theorem interpret_shows (hU : U.Lawful) {g : PolicyGui} (hs : Staged U g) (hi : g.interpretOn = true)
    (hE : SymEnv.SetsOk g.env) :
    ∃ p, PolicyOf U g.text p ∧
      let m := semPolicy U (attsOf U g.env) p
      let shown (x : GuiEntry) : PolicyGui × Option PyExc := ({ g with console := g.console ++ [x] }, none)
      (∀ v, m.2 = .ok (.truth v) → g.step U toFloat .interpret = shown (.interpreted m.1 (triText v))) ∧
      (∀ d, m.2 = .ok d → (∀ v, d ≠ .truth v) → ∃ t r, p = .att t ∧
        g.env.tab.lookup U (attTypePrefix (some t.type) ++ attName t) = some r ∧
        g.step U toFloat .interpret = shown (.interpreted m.1 (g.env.heap r).name)) ∧
      (∀ e, m.2 = .error e → g.step U toFloat .interpret = if e.isHGPL then shown (.error e) else (g, some e)) := by
  rcases hs with h | h | h | h
  · rw [(Prod.mk.inj (Prod.mk.inj (Prod.mk.inj h.1).2).2).2] at hi; cases hi
  · rw [(Prod.mk.inj (Prod.mk.inj (Prod.mk.inj h.1).2).2).2] at hi; cases hi
  · rw [(Prod.mk.inj (Prod.mk.inj (Prod.mk.inj h.1).2).2).2] at hi; cases hi
  obtain ⟨hb, hpd, s, n, is, hch, ha, _, _⟩ := h
  obtain ⟨p, k, hp, hast⟩ := hpd.policy hU
  rw [ha] at hast
  cases hast
  obtain ⟨hw, ho, hn⟩ := policyOf_ok hp
  refine ⟨p, hp, ?_⟩
  have hstep : g.step U toFloat .interpret = g.interpret U := by dsimp only [step]; rw [if_pos hi]
  rw [hstep]
  unfold PolicyGui.interpret
  rw [disabled_eq (Prod.mk.inj hb).1 (Prod.mk.inj (Prod.mk.inj hb).2).1 (Prod.mk.inj (Prod.mk.inj (Prod.mk.inj hb).2).2).1]
  dsimp only
  rw [ha]
  dsimp only
  obtain ⟨h1, h2⟩ := evaluate_policy U hU g.env hE p k hw ho hn (some levelERROR)
  rw [outcome_error] at h2
  have hret : ∀ i x, Interp.evaluate U g.env (some levelERROR) ⟨(p.build U k).1, []⟩ = (i, .ok x) →
      (∃ v, x = .tri v) ∨ ∃ t r, p = .att t ∧ x = .sym r := by
    intro i x hx
    have ht : evaluateText U g.env (some levelERROR) k g.text = .ok (i, .ok x) := by
      unfold evaluateText
      rw [(parseText_iff hU k (p.build U k).2 g.text (p.build U k).1).2 ⟨p, hp, rfl⟩, ← hx]
      rfl
    rcases evaluate_returns U hU g.env hE (some levelERROR) k g.text p hp i x ht with h | ⟨t, _, _, r, h, h', _⟩
    · exact .inl h
    · exact .inr ⟨t, r, h, h'⟩
  generalize hm : semPolicy U (attsOf U g.env) p = m at h1 h2 ⊢
  rcases hx : Interp.evaluate U g.env (some levelERROR) ⟨(p.build U k).1, []⟩ with ⟨i, e | x⟩
  · rw [hx] at h1 h2
    obtain ⟨w, o⟩ := m
    dsimp only [Except.map] at h2
    cases o with
    | ok d => cases h2
    | error e' =>
      cases h2
      refine ⟨fun v hv => (by cases hv), fun d hd => (by cases hd), fun e' he => ?_⟩
      cases he
      show g.fail e = _
      unfold PolicyGui.fail
      rw [ha]
  · rw [hx] at h1 h2
    obtain ⟨w, o⟩ := m
    dsimp only [Except.map] at h1 h2
    cases o with
    | error e' => cases h2
    | ok d =>
      injection h2 with h2
      dsimp only
      rw [hch, h1]
      dsimp only
      refine ⟨fun v hv => ?_, fun d' hd hnt => ?_, fun e he => (by cases he)⟩
      · cases hv
        rw [resultDen_truth h2]
        cases v <;> rfl
      · cases hd
        rcases hret i x hx with ⟨v, rfl⟩ | ⟨t, r, rfl, rfl⟩
        · exact absurd (Option.some.inj h2).symm (hnt v)
        · exact ⟨t, r, rfl, evaluate_sym hw hn hx, rfl⟩

/-! ### C100: editing attributes -/

theorem setElements_iff {s : Str} {es : List Str} : setElements U s = es ↔ SetText U s es := by
  unfold setElements SetText
  have hf : (fun c : Char => c ≠ '{' && c ≠ '}' && c ≠ '\'') = fun c => decide (c ∉ ['{', '}', '\'']) := by
    funext c
    rw [Bool.eq_iff_iff]
    simp [and_assoc]
  rw [hf]
  have hst : ∀ ps es : List Str, ps.map (pyStrip U) = es ↔ List.Forall₂ (Stripped U) ps es := by
    intro ps
    induction ps with
    | nil => intro es; rw [List.forall₂_nil_left_iff, List.map_nil]; exact eq_comm
    | cons p ps ih =>
      intro es
      rw [List.forall₂_cons_left_iff, List.map_cons]
      constructor
      · rintro rfl
        exact ⟨_, _, pyStrip_iff.mp rfl, (ih _).mp rfl, rfl⟩
      · rintro ⟨b, u, h1, h2, rfl⟩
        rw [pyStrip_iff.mpr h1, (ih _).mpr h2]
  rw [hst]
  constructor
  · exact fun h => ⟨_, pySplit_parts _ _, h⟩
  · rintro ⟨ps, h1, h2⟩
    rw [pySplit_unique h1]
    exact h2

/-- The value stored for a text is the one specified. -/
theorem newValue_iff (hU : U.Lawful) {ty : SymType} {s : Str} {v : PyVal} :
    (∃ w, newValue U toFloat ty s = .ok (some w) ∧ setterVal w = v) ↔ EditedTo U toFloat s ty v := by
  constructor
  · rintro ⟨w, h, rfl⟩
    cases ty with
    | int =>
      cases hi : pyIntBase U 10 s with
      | error e => simp only [newValue, hi, Except.map] at h; cases h
      | ok i =>
        simp only [newValue, hi, Except.map] at h
        cases h
        exact .int ((pyIntBase_iff hU).mp hi)
    | float =>
      cases hi : toFloat s with
      | error e => simp only [newValue, hi, Except.map] at h; cases h
      | ok i =>
        simp only [newValue, hi, Except.map] at h
        cases h
        exact .float hi
    | string => cases h; exact .string
    | set => cases h; exact .set (setElements_iff.mp rfl)
    | bool =>
      cases h
      by_cases hb : pyStrip U (U.lower s) ∈ ["true".toList, "t".toList, "1".toList]
      · rw [decide_eq_true hb]
        exact .yes (pyStrip_iff.mp rfl) hb
      · rw [decide_eq_false hb]
        exact .no (pyStrip_iff.mp rfl) hb
    | unknown => cases h
    | custom => cases h
    | pyNone => cases h
  · intro h
    cases h with
    | int h => exact ⟨_, by simp only [newValue, (pyIntBase_iff hU).mpr h, Except.map]; rfl, rfl⟩
    | float h => exact ⟨_, by simp only [newValue, h, Except.map]; rfl, rfl⟩
    | string => exact ⟨_, rfl, rfl⟩
    | set h => exact ⟨_, by simp only [newValue, setElements_iff.mpr h]; rfl, rfl⟩
    | yes h1 h2 =>
      refine ⟨_, rfl, ?_⟩
      rw [pyStrip_iff.mpr h1, decide_eq_true h2]
      rfl
    | no h1 h2 =>
      refine ⟨_, rfl, ?_⟩
      rw [pyStrip_iff.mpr h1, decide_eq_false h2]
      rfl

theorem rowPrefix_listed {ty : TokenType} (h : ty ∈ listedClasses) : rowPrefix ty = attTypePrefix (some ty) := by
  simp only [listedClasses, List.mem_cons, List.not_mem_nil, or_false] at h
  rcases h with rfl | rfl | rfl | rfl | rfl <;> rfl

theorem rowPrefix_unlisted {ty : TokenType} (h : ty ∉ listedClasses) : rowPrefix ty = [] := by
  cases ty <;> first | rfl | exact absurd (by decide) h

/-- The frame with another value of a symbol. -/
def withValue (g : PolicyGui) (row : Nat) (v : PyVal) : PolicyGui :=
  { g with env := ⟨g.env.tab, g.env.heap.write row { g.env.heap row with value := v }⟩ }

variable {g : PolicyGui} {row : Nat} {s : Str}

/-- **C100**: a text that is a value of the attribute's type becomes the value of this attribute and of no other. -/
theorem edit_value (hU : U.Lawful) (hF : Filed U g.env) (hr : row ∈ g.env.tab.symbols)
    (hc : (g.env.heap row).attType ∈ listedClasses) {v : PyVal} (hv : EditedTo U toFloat s (g.env.heap row).type v) :
    g.step U toFloat (.edit row s) = (withValue g row v, none) := by
  obtain ⟨w, hw, rfl⟩ := (newValue_iff hU).mpr hv
  dsimp only [step]
  rw [if_pos hr]
  unfold PolicyGui.edit
  rw [hw]
  dsimp only
  rw [rowPrefix_listed hc, ← hF.parts row hr]
  unfold SymTab.setValue
  have := hF.name row hr
  unfold SymTab.lookup at this
  rw [this]
  rfl

/-- **C100**: other texts, and attributes of other types, change nothing. -/
theorem edit_no_value (hU : U.Lawful) (hv : ∀ v, ¬ EditedTo U toFloat s (g.env.heap row).type v) :
    (g.step U toFloat (.edit row s)).1 = g ∧
    ((∀ e, toFloat s = .error e → e = .valueError) → (g.step U toFloat (.edit row s)).2 = none) := by
  dsimp only [step]
  split
  · unfold PolicyGui.edit
    cases hn : newValue U toFloat (g.env.heap row).type s with
    | error e =>
      have he : (∀ e, toFloat s = .error e → e = .valueError) → e = .valueError := by
        intro hf
        generalize (g.env.heap row).type = ty at hn
        cases ty with
        | int =>
          cases hi : pyIntBase U 10 s with
          | error e' =>
            simp only [newValue, hi, Except.map] at hn
            cases hn
            exact pyIntBase_error hi
          | ok i => simp only [newValue, hi, Except.map] at hn; cases hn
        | float =>
          cases hi : toFloat s with
          | error e' =>
            simp only [newValue, hi, Except.map] at hn
            cases hn
            exact hf _ hi
          | ok i => simp only [newValue, hi, Except.map] at hn; cases hn
        | _ => cases hn
      constructor
      · cases e <;> rfl
      · intro hf
        rw [he hf]
    | ok o =>
      cases o with
      | none => exact ⟨rfl, fun _ => rfl⟩
      | some w => exact absurd ((newValue_iff hU).mp ⟨w, hn, rfl⟩) (hv _)
  · exact ⟨rfl, fun _ => rfl⟩

/-- **C100**: an attribute of no class cannot be edited: it is looked for without the prefix under which it is filed. -/
theorem edit_unlisted (hU : U.Lawful) (hr : row ∈ g.env.tab.symbols) (hc : (g.env.heap row).attType ∉ listedClasses)
    (hn : g.env.tab.lookup U (g.env.heap row).attName = none) {v : PyVal}
    (hv : EditedTo U toFloat s (g.env.heap row).type v) :
    g.step U toFloat (.edit row s) = (g, some (.exception "")) := by
  obtain ⟨w, hw, rfl⟩ := (newValue_iff hU).mpr hv
  dsimp only [step]
  rw [if_pos hr]
  unfold PolicyGui.edit
  rw [hw]
  dsimp only
  rw [rowPrefix_unlisted hc, List.nil_append]
  unfold SymTab.setValue
  unfold SymTab.lookup at hn
  rw [hn]

/-- **C100**: after an edit policies see the new value of the attribute, and all others as before. -/
theorem edit_atts {v : PyVal} (ty : TokenType) (n : Str) :
    (g.env.tab.lookup U (attTypePrefix (some ty) ++ n) = some row →
      attsOf U (withValue g row v).env ty n = some ((g.env.heap row).type, v)) ∧
    (g.env.tab.lookup U (attTypePrefix (some ty) ++ n) ≠ some row →
      attsOf U (withValue g row v).env ty n = attsOf U g.env ty n) := by
  unfold attsOf withValue Heap.write
  dsimp only
  constructor
  · intro h
    rw [h]
    simp
  · intro h
    cases hl : g.env.tab.lookup U (attTypePrefix (some ty) ++ n) with
    | none => rfl
    | some r =>
      rw [hl] at h
      have : r ≠ row := fun e => h (by rw [e])
      simp [this]

/-- A step changes no attribute, or one attribute's value. -/
theorem step_env (g : PolicyGui) (e : Event) :
    (g.step U toFloat e).1.env = g.env ∨
    ∃ row s v r, e = .edit row s ∧ newValue U toFloat (g.env.heap row).type s = .ok (some v) ∧
      (g.step U toFloat e).1.env = ⟨g.env.tab, g.env.heap.write r { g.env.heap r with value := setterVal v }⟩ := by
  have hfail : ∀ (g : PolicyGui) x, (g.fail x).1.env = g.env := by
    intro g x
    rw [fail_eq]
  cases e with
  | reset => exact .inl rfl
  | setText t => dsimp only [step]; split <;> exact .inl rfl
  | edit row s =>
    dsimp only [step]
    split
    · unfold PolicyGui.edit
      cases hn : newValue U toFloat (g.env.heap row).type s with
      | error e => left; cases e <;> rfl
      | ok o =>
        cases o with
        | none => exact .inl rfl
        | some v =>
          dsimp only
          unfold SymTab.setValue
          split
          · exact .inl rfl
          · rename_i h hs
            right
            split at hs
            · rename_i r _
              cases hs
              exact ⟨row, s, v, r, rfl, hn, rfl⟩
            · cases hs
    · exact .inl rfl
  | tokenize =>
    dsimp only [step]
    split
    · unfold PolicyGui.tokenize
      dsimp only
      split
      · exact .inl (hfail _ _)
      · exact .inl rfl
    · exact .inl rfl
  | parse =>
    dsimp only [step]
    split
    · unfold PolicyGui.parse
      dsimp only
      split
      · exact .inl (hfail _ _)
      · split
        · exact .inl (hfail _ _)
        · exact .inl rfl
    · exact .inl rfl
  | typeCheck =>
    dsimp only [step]
    split
    · unfold PolicyGui.typeCheck
      dsimp only
      split
      · exact .inl (hfail _ _)
      · split
        · exact .inl (hfail _ _)
        · split <;> exact .inl rfl
    · exact .inl rfl
  | interpret =>
    dsimp only [step]
    split
    · unfold PolicyGui.interpret
      dsimp only
      split
      · exact .inl (hfail _ _)
      · split
        · exact .inl (hfail _ _)
        · split
          · exact .inl (hfail _ _)
          · split <;> exact .inl rfl
    · exact .inl rfl

/-- **C100**: only hashable values get into sets. -/
theorem run_setsOk (hU : U.Lawful) (es : List Event) :
    ∀ g : PolicyGui, SymEnv.SetsOk g.env → SymEnv.SetsOk (g.run U toFloat es).env := by
  induction es with
  | nil => exact fun _ h => h
  | cons e es ih =>
    intro g hg
    refine ih _ ?_
    rcases step_env (U := U) (toFloat := toFloat) g e with h | ⟨row, s, v, r, _, hv, h⟩
    · rw [h]; exact hg
    · rw [h]
      intro i l hl
      dsimp only [Heap.write] at hl
      split at hl
      · have hed := (newValue_iff hU).mp ⟨v, hv, rfl⟩
        dsimp only at hl
        rw [hl] at hed
        generalize (g.env.heap row).type = ty at hed
        generalize hw : PyVal.set l = w at hed
        cases hed with
        | set h =>
          cases hw
          rw [List.all_map, List.all_eq_true]
          exact fun _ _ => rfl
        | _ => cases hw
      · exact hg i l hl

/-- **C100**: the classes, names and types of the attributes never change, and tables stay filed. -/
theorem run_filed (es : List Event) : ∀ g : PolicyGui,
    (g.run U toFloat es).env.tab = g.env.tab ∧
    (∀ r, { (g.run U toFloat es).env.heap r with value := .sc .none } = { g.env.heap r with value := .sc .none }) ∧
    (Filed U g.env → Filed U (g.run U toFloat es).env) := by
  have one : ∀ (g : PolicyGui) e, (g.step U toFloat e).1.env.tab = g.env.tab ∧
      ∀ r, { (g.step U toFloat e).1.env.heap r with value := .sc .none } = { g.env.heap r with value := .sc .none } := by
    intro g e
    rcases step_env (U := U) (toFloat := toFloat) g e with h | ⟨row, s, v, r, _, hv, h⟩
    · rw [h]; exact ⟨rfl, fun _ => rfl⟩
    · rw [h]
      refine ⟨rfl, fun i => ?_⟩
      dsimp only [Heap.write]
      split
      · rename_i hi
        rw [hi]
      · rfl
  have all : ∀ (es : List Event) (g : PolicyGui), (g.run U toFloat es).env.tab = g.env.tab ∧
      ∀ r, { (g.run U toFloat es).env.heap r with value := .sc .none } = { g.env.heap r with value := .sc .none } := by
    intro es
    induction es with
    | nil => exact fun _ => ⟨rfl, fun _ => rfl⟩
    | cons e es ih =>
      intro g
      obtain ⟨h1, h2⟩ := ih (g.step U toFloat e).1
      obtain ⟨h3, h4⟩ := one g e
      exact ⟨h1.trans h3, fun r => (h2 r).trans (h4 r)⟩
  intro g
  obtain ⟨h1, h2⟩ := all es g
  refine ⟨h1, h2, fun hF => ?_⟩
  have hname : ∀ r, ((g.run U toFloat es).env.heap r).name = (g.env.heap r).name := fun r => by
    have := congrArg Symbol.name (h2 r)
    exact this
  have hty : ∀ r, ((g.run U toFloat es).env.heap r).attType = (g.env.heap r).attType := fun r => by
    have := congrArg Symbol.attType (h2 r)
    exact this
  have hatt : ∀ r, ((g.run U toFloat es).env.heap r).attName = (g.env.heap r).attName := fun r => by
    have := congrArg Symbol.attName (h2 r)
    exact this
  constructor
  · rw [h1]
    intro r hr
    rw [hname]
    exact hF.name r hr
  · rw [h1]
    intro r hr
    rw [hname, hty, hatt]
    exact hF.parts r hr

/-- **C99**: however the frame was used since it was opened, Interpret shows the meaning of the policy in the combo box for the
attributes as they are. -/
theorem opened_interpret (hU : U.Lawful) {g₀ : PolicyGui} (ho : Opened g₀) (hE : SymEnv.SetsOk g₀.env) (es : List Event)
    {g : PolicyGui} (hg : g = g₀.run U toFloat es) (hi : g.interpretOn = true) :
    ∃ p, PolicyOf U g.text p ∧
      let m := semPolicy U (attsOf U g.env) p
      let shown (x : GuiEntry) : PolicyGui × Option PyExc := ({ g with console := g.console ++ [x] }, none)
      (∀ v, m.2 = .ok (.truth v) → g.step U toFloat .interpret = shown (.interpreted m.1 (triText v))) ∧
      (∀ d, m.2 = .ok d → (∀ v, d ≠ .truth v) → ∃ t r, p = .att t ∧
        g.env.tab.lookup U (attTypePrefix (some t.type) ++ attName t) = some r ∧
        g.step U toFloat .interpret = shown (.interpreted m.1 (g.env.heap r).name)) ∧
      (∀ e, m.2 = .error e → g.step U toFloat .interpret = if e.isHGPL then shown (.error e) else (g, some e)) := by
  subst hg
  exact interpret_shows hU (opened_staged ho es) hi (run_setsOk hU es _ hE)

/-- **C99**: the ids of the trees shown come from one counter, as C59 says: a tree has the ids from the counter on, and the
counter is behind them then. Nothing else moves it, so no id is used twice. -/
theorem step_ids (g : PolicyGui) (e : Event) : g.nextId ≤ (g.step U toFloat e).1.nextId ∧
    ((g.step U toFloat e).1.nextId = g.nextId ∨ e = .parse ∧ ∃ n, (g.step U toFloat e).1.ast = some n ∧
      postIds n = List.range' g.nextId ((g.step U toFloat e).1.nextId - g.nextId)) ∧
    (∀ n, e = .parse → g.parseOn = true → (g.step U toFloat e).1.ast = some n →
      postIds n = List.range' g.nextId ((g.step U toFloat e).1.nextId - g.nextId) ∧
        g.nextId < (g.step U toFloat e).1.nextId) := by
  have hfail : ∀ (g : PolicyGui) x, (g.fail x).1.nextId = g.nextId ∧ (g.fail x).1.ast = g.ast := by
    intro g x
    rw [fail_eq]
    exact ⟨rfl, rfl⟩
  have key : ∀ {a b : Nat} {P Q : Prop}, b = a → Q → a ≤ b ∧ (b = a ∨ P) ∧ Q := fun h q => ⟨by omega, .inl h, q⟩
  cases e with
  | setText t => dsimp only [step]; split <;> exact key rfl (fun _ h => (by cases h))
  | reset => exact key rfl (fun _ h => (by cases h))
  | edit row value =>
    dsimp only [step]
    split
    · refine key ?_ (fun _ h => (by cases h))
      unfold PolicyGui.edit
      split
      · rfl
      · rfl
      · rfl
      · split <;> rfl
    · exact key rfl (fun _ h => (by cases h))
  | tokenize =>
    refine key ?_ (fun _ h => (by cases h))
    dsimp only [step]
    split
    · unfold PolicyGui.tokenize
      dsimp only
      split
      · rw [(hfail _ _).1]
      · rfl
    · rfl
  | typeCheck =>
    refine key ?_ (fun _ h => (by cases h))
    dsimp only [step]
    split
    · unfold PolicyGui.typeCheck
      dsimp only
      split
      · rw [(hfail _ _).1]
      · split
        · rw [(hfail _ _).1]
        · split <;> rfl
    · rfl
  | interpret =>
    refine key ?_ (fun _ h => (by cases h))
    dsimp only [step]
    split
    · unfold PolicyGui.interpret
      dsimp only
      split
      · rw [(hfail _ _).1]
      · split
        · rw [(hfail _ _).1]
        · split
          · rw [(hfail _ _).1]
          · split <;> rfl
    · rfl
  | parse =>
    dsimp only [step]
    cases hp : g.parseOn with
    | false => exact key rfl (fun _ _ h => (by cases h))
    | true =>
      rw [if_pos rfl]
      unfold PolicyGui.parse
      dsimp only
      split
      · rw [(hfail _ _).1, (hfail _ _).2]
        exact key rfl (fun _ _ _ h => (by cases h))
      · split
        · rw [(hfail _ _).1, (hfail _ _).2]
          exact key rfl (fun _ _ _ h => (by cases h))
        · rename_i n k hn
          obtain ⟨h1, h2, h3⟩ := parse_ids U g.nextId k _ n hn
          dsimp only
          refine ⟨by omega, .inr ⟨rfl, n, rfl, h2⟩, ?_⟩
          rintro _ - - h
          cases h
          exact ⟨h2, by omega⟩

/-- **C99**: a later tree of a history has other ids. -/
theorem ids_fresh (g : PolicyGui) (es : List Event) : ∀ (g' : PolicyGui) (n : Node), g'.nextId ≤ g.nextId →
    (∀ i ∈ postIds n, i < g'.nextId) → ∀ m, ((g.run U toFloat es).step U toFloat .parse).1.ast = some m →
      (g.run U toFloat es).parseOn = true → ∀ i ∈ postIds m, i ∉ postIds n := by
  intro g' n hg hn m hm hp i hi hi'
  have mono : ∀ (es : List Event) (g : PolicyGui), g.nextId ≤ (g.run U toFloat es).nextId := by
    intro es
    induction es with
    | nil => exact fun g => Nat.le_refl _
    | cons e es ih => exact fun g => Nat.le_trans (step_ids g e).1 (ih _)
  have h1 := ((step_ids (U := U) (toFloat := toFloat) (g.run U toFloat es) .parse).2.2 m rfl hp hm).1
  rw [h1] at hi
  have h2 := (List.mem_range'_1.mp hi).1
  have h3 := hn i hi'
  have h4 := mono es g
  omega

/-! ### Examples -/

/-- Two sets of integers and a truth value, as in `LexerDemo.default_symbol_table`, `hgpl/gui/demos.py:468-530`, and an attribute
without a class. -/
def demoBuilder : Builder where
  types := [("user.admin".toList, .bool), ("user.perms".toList, .set), ("object.perms".toList, .set)]
  user := [("admin".toList, .sc (.bool true)), ("perms".toList, .set [.atom (.int 1), .atom (.int 3), .atom (.int 5)])]
  object := [("perms".toList, .set [.atom (.int 1), .atom (.int 3)])]

def demoSymbols : Heap × SymTab :=
  demoBuilder.build asciiUni (fun _ => Symbol.new asciiUni "x".toList none (some .string) (.sc .none)) 0

def demoGui (text : String) : PolicyGui where
  text := text.toList
  env := ⟨⟨demoSymbols.2.entries ++ [("unkown.x".toList, 3)]⟩, demoSymbols.1⟩

def noFloats : Str → Except PyExc PyFloat := fun _ => .error .valueError

/-- The console, the buttons and whether the policy can be edited, after some events. -/
def demoRun (text : String) (es : List Event) : List GuiEntry × (Bool × Bool × Bool × Bool) × Bool :=
  let g := (demoGui text).run asciiUni noFloats es
  (g.console, (g.tokenizeOn, g.parseOn, g.checkOn, g.interpretOn), g.combo)

def clicks : List Event := [.tokenize, .parse, .typeCheck, .interpret]

/-- the hypotheses of the theorems hold -/
example (t : String) : Opened (demoGui t) := ⟨_, _, 0, rfl⟩
theorem demo_setsOk (t : String) : SymEnv.SetsOk (demoGui t).env := by
  have h : ∀ r, (demoGui t).env.heap r = (demoGui t).env.heap 0 ∨ (demoGui t).env.heap r = (demoGui t).env.heap 1 ∨
      (demoGui t).env.heap r = (demoGui t).env.heap 2 ∨ (demoGui t).env.heap r = (demoGui t).env.heap 3 := by
    intro r
    match r with
    | 0 => exact .inl rfl
    | 1 => exact .inr (.inl rfl)
    | 2 => exact .inr (.inr (.inl rfl))
    | _ + 3 => exact .inr (.inr (.inr rfl))
  have key : ∀ i ∈ [0, 1, 2, 3], ∀ l, ((demoGui "").env.heap i).value = .set l → l.all Scalar.hashable = true := by
    intro i hi l hl
    simp only [List.mem_cons, List.not_mem_nil, or_false] at hi
    rcases hi with rfl | rfl | rfl | rfl
    · cases hl
    · cases hl; rfl
    · cases hl; rfl
    · cases hl
  intro r l hl
  rcases h r with h | h | h | h <;> rw [h] at hl
  · exact key 0 (by decide) l hl
  · exact key 1 (by decide) l hl
  · exact key 2 (by decide) l hl
  · exact key 3 (by decide) l hl
theorem demo_filed (t : String) : Filed asciiUni (demoGui t).env := by
  show Filed asciiUni (demoGui "").env
  refine ⟨fun r hr => ?_, fun r hr => ?_⟩
  all_goals
    have hr : r ∈ [0, 1, 2, 3] := hr
    simp only [List.mem_cons, List.not_mem_nil, or_false] at hr
    rcases hr with rfl | rfl | rfl | rfl <;> decide
/-- a policy is interpreted; an edit is seen at once -/
example : demoRun "user.admin" (clicks ++ [.edit 0 "no".toList, .interpret]) =
    ([.tokenized 3, .parsed, .checked [] [] .pass, .interpreted [] "TRUE".toList, .interpreted [] "FALSE".toList],
      (false, false, false, true), false) := by decide +kernel
/-- submitting a set of integers as it is shown turns it into a set of texts -/
example : demoRun "object.perms SUBSET user.perms" (clicks ++ [.edit 2 "{1, 3}".toList, .interpret]) =
    ([.tokenized 5, .parsed, .checked [] [] .pass, .interpreted [] "TRUE".toList, .interpreted [] "FALSE".toList],
      (false, false, false, true), false) := by decide +kernel
/-- the name of an attribute is shown -/
example : demoRun "user.perms" clicks =
    ([.tokenized 3, .parsed, .checked [] [] .pass, .interpreted [] "user.perms".toList], (false, false, false, true), false) := by
  decide +kernel
/-- no tokens, no policy, and a clash; nothing but Reset helps -/
example : demoRun "user.admin ?" (clicks ++ [.setText "user.admin".toList, .tokenize]) =
    ([.error (.lexerError 11), .error (.lexerError 11)], (true, false, false, false), false) := by decide +kernel
example : (demoRun "user.admin )" (clicks ++ [.setText "user.admin".toList, .tokenize, .interpret])).2 =
    ((false, true, false, false), false) := by decide +kernel
example : (demoRun "1 < {2}" (clicks ++ [.interpret])).2 = ((false, false, true, false), false) := by decide +kernel
example : (demoRun "user.admin ?" (clicks ++ [.reset, .setText "user.admin".toList] ++ clicks)).1 =
    [.tokenized 3, .parsed, .checked [] [] .pass, .interpreted [] "TRUE".toList] := by decide +kernel
/-- the values of texts -/
example : SetText asciiUni "{'a', b }".toList ["a".toList, "b".toList] := setElements_iff.mp (by decide)
example : SetText asciiUni [] [[]] := setElements_iff.mp (by decide)
/-- an attribute without a class -/
example : ((demoGui "").step asciiUni noFloats (.edit 3 "v".toList)).2 = some (.exception "") ∧
    ((demoGui "").env.heap 3).attType ∉ listedClasses ∧
    (demoGui "").env.tab.lookup asciiUni ((demoGui "").env.heap 3).attName = none := by decide +kernel

/-- Parsing the same policy twice gives trees with ids 0 to 2 and 3 to 5. -/
example : ((demoGui "user.perms = 1").run asciiUni noFloats [.tokenize, .parse]).ast.map postIds = some [0, 1, 2] ∧
    ((demoGui "user.perms = 1").run asciiUni noFloats [.tokenize, .parse, .reset, .tokenize, .parse]).ast.map postIds =
      some [3, 4, 5] := by decide +kernel

end Verif.Props
