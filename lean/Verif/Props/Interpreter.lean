import Verif.Proofs.InterpText
import Verif.Spec.Kleene
/-!
# C15, C16, C18–C21, C23, C24: the interpreter
-/

namespace Verif.Props
open Verif Verif.Spec Verif.Proofs

/-! ### Refinement (C15) -/

/-- What a returned result shows: a truth value, or the (other) value of the attribute object returned. -/
def resultDen (E : SymEnv) : Res → Option Den
  | .none => none
  | .tri t => some (.truth t)
  | .atom a => some (.const a)
  | .list l => some (.lit l)
  | .sym r =>
    match (E.heap r).value with
    | .sc (.tri _) => none
    | v => some (valueDen v)

theorem resultDen_rel {E : SymEnv} {x : Res} {d : Den} (h : Rel E x d) : resultDen E x = some d := by
  cases x with
  | none => exact absurd h id
  | tri t => simp only [Rel] at h; subst h; rfl
  | atom a => simp only [Rel] at h; subst h; rfl
  | list l => simp only [Rel] at h; subst h; rfl
  | sym r =>
    simp only [Rel] at h
    obtain ⟨h1, h2⟩ := h
    simp only [resultDen]
    cases hv : (E.heap r).value with
    | sc x =>
      rw [hv] at h1 h2
      cases x with
      | tri t => simp [Good, Scalar.isNumStr, Scalar.num] at h1
      | _ => rw [h2]
    | set l => rw [hv] at h2; rw [h2]
    | list l => rw [hv] at h2; rw [h2]

theorem raiseWarnings_nil (level : Option Int) : raiseWarnings level [] = none := rfl

theorem raiseWarnings_cons (level : Option Int) (w : Warn) (ws : List Warn) :
    raiseWarnings level (w :: ws) =
      match level with
      | none => some .typeError
      | some m => if m ≤ 2 then some (.interpreterWarning w.pos w.rule) else none := by
  induction ws generalizing w with
  | nil =>
    cases level with
    | none => rfl
    | some m => simp only [raiseWarnings, levelWARN, ge_iff_le]
  | cons v vs ih =>
    cases level with
    | none => rfl
    | some m =>
      rw [raiseWarnings]
      by_cases h : m ≤ 2
      · simp [levelWARN, h]
      · simp only [levelWARN, ge_iff_le, h, if_false]
        rw [ih v]
        simp [h]

/-- C15 for syntax trees. -/
theorem evaluate_policy (U : Uni) (hU : U.Lawful) (E : SymEnv) (hE : SymEnv.SetsOk E) (p : Policy) (k : Nat)
    (hw : p.WF) (ho : p.OpsOk) (hn : p.NamesOk) (level : Option Int) :
    (Interp.evaluate U E level ⟨(p.build U k).1, []⟩).1.warnings = (semPolicy U (attsOf U E) p).1 ∧
    (Interp.evaluate U E level ⟨(p.build U k).1, []⟩).2.map (resultDen E) =
      (outcome level (semPolicy U (attsOf U E) p)).map some := by
  have h := evalNode_policy hU hE p k hw ho hn
  unfold Interp.evaluate
  simp only
  generalize evalNode U E (p.build U k).1 = x at h
  generalize semPolicy U (attsOf U E) p = y at h
  obtain ⟨n, w, e⟩ := x
  obtain ⟨w', o⟩ := y
  obtain ⟨h1, h2⟩ := h
  simp only at h1 h2
  subst h1
  cases e with
  | some e =>
    cases o with
    | ok d => exact absurd h2 id
    | error e' =>
      simp only at h2
      subst h2
      exact ⟨rfl, rfl⟩
  | none =>
    cases o with
    | error e' => exact absurd h2 id
    | ok d =>
      simp only at h2
      cases w with
      | nil =>
        simp only [List.nil_append, raiseWarnings_nil]
        exact ⟨trivial, by rw [Except.map, resultDen_rel h2]; rfl⟩
      | cons w ws =>
        simp only [List.nil_append, raiseWarnings_cons]
        cases level with
        | none => exact ⟨rfl, rfl⟩
        | some m =>
          by_cases hm : m ≤ 2
          · simp [hm, outcome, Except.map]
          · simp [hm, outcome, Except.map, resultDen_rel h2]

/-- C15: interpreting a text succeeds in construction exactly if it is a policy; then the warnings recorded are
those of the semantics and the call returns or raises what the semantics says. -/
theorem evaluate_refines (U : Uni) (hU : U.Lawful) (E : SymEnv) (hE : SymEnv.SetsOk E)
    (level : Option Int) (k : Nat) (text : Str) :
    ((∃ e, evaluateText U E level k text = .error e) ↔ ¬ ∃ p, PolicyOf U text p) ∧
    ∀ p, PolicyOf U text p → ∃ s r, evaluateText U E level k text = .ok (s, r) ∧
      s.warnings = (semPolicy U (attsOf U E) p).1 ∧
      r.map (resultDen E) = (outcome level (semPolicy U (attsOf U E) p)).map some := by
  have key : ∀ p, PolicyOf U text p → ∃ s r, evaluateText U E level k text = .ok (s, r) ∧
      s.warnings = (semPolicy U (attsOf U E) p).1 ∧
      r.map (resultDen E) = (outcome level (semPolicy U (attsOf U E) p)).map some := by
    intro p hp
    have h := (parseText_iff hU k _ text _).2 ⟨p, hp, rfl⟩
    obtain ⟨hw, ho, hn⟩ := policyOf_ok hp
    refine ⟨_, _, ?_, evaluate_policy U hU E hE p k hw ho hn level⟩
    unfold evaluateText
    rw [h]
    rfl
  refine ⟨⟨?_, ?_⟩, key⟩
  · rintro ⟨e, he⟩ ⟨p, hp⟩
    obtain ⟨s, r, h, _⟩ := key p hp
    rw [h] at he
    simp at he
  · intro hn
    cases h : parseText U k text with
    | error e => exact ⟨e, by unfold evaluateText; rw [h]; rfl⟩
    | ok x =>
      obtain ⟨n, k'⟩ := x
      obtain ⟨p, hp, _⟩ := (parseText_iff hU k k' text n).1 h
      exact absurd ⟨p, hp⟩ hn

/-! ### Locality (C16) -/

theorem semAtt_congr {A B : Atts} {t : Token}
    (h : A t.type (attName t) = B t.type (attName t)) : semAtt A t = semAtt B t := by
  simp only [semAtt, h]

theorem semOperand_congr {A B : Atts} {v : Operand} (hw : v.WF)
    (h : ∀ t ∈ v.tokens, AttTok t → A t.type (attName t) = B t.type (attName t)) :
    semOperand A v = semOperand B v := by
  cases v with
  | att t => exact semAtt_congr (h t (by simp [Operand.tokens]) hw)
  | atom t => rfl
  | set l es => rfl

theorem sem_congr {U : Uni} {A B : Atts} {p : Policy} (hw : p.WF)
    (h : ∀ t ∈ p.tokens, AttTok t → A t.type (attName t) = B t.type (attName t)) :
    sem U A p = sem U B p := by
  induction p with
  | cmp l o r =>
    simp only [Policy.tokens, List.mem_append, List.mem_cons] at h
    rw [sem, sem, semOperand_congr hw.1 (fun t ht => h t (by simp [ht])),
      semOperand_congr hw.2.2 (fun t ht => h t (by simp [ht]))]
  | lit t => rfl
  | att t => exact semAtt_congr (h t (by simp [Policy.tokens]) hw)
  | not n p ih =>
    simp only [Policy.tokens, List.mem_cons] at h
    rw [sem, sem, ih hw.2 (fun t ht => h t (by simp [ht]))]
  | bin o p q ihp ihq =>
    simp only [Policy.tokens, List.mem_append, List.mem_cons] at h
    rw [sem, sem, ihp hw.2.1 (fun t ht => h t (by simp [ht])),
      ihq hw.2.2 (fun t ht => h t (by simp [ht]))]

theorem semPolicy_congr {U : Uni} {A B : Atts} {p : Policy} (hw : p.WF)
    (h : ∀ t ∈ p.tokens, AttTok t → A t.type (attName t) = B t.type (attName t)) :
    semPolicy U A p = semPolicy U B p := by
  cases p <;> first | rfl | exact sem_congr hw h

/-- C16: if two tables agree (same declared type and value, or both without entry) on every attribute token of the
policy, evaluation records the same warnings and raises the same or returns results that show
the same. -/
theorem evaluate_local (U : Uni) (hU : U.Lawful) (E F : SymEnv) (hE : SymEnv.SetsOk E) (hF : SymEnv.SetsOk F)
    (level : Option Int) (k : Nat) (text : Str) (toks : List Token)
    (hl : lexTokens U text = .ok toks)
    (h : ∀ t ∈ toks, AttTok t → ∀ name, t.value = .str name →
      ((E.tab.lookup U (attTypePrefix (some t.type) ++ name)).map
        fun r => ((E.heap r).type, (E.heap r).value)) =
      ((F.tab.lookup U (attTypePrefix (some t.type) ++ name)).map
        fun r => ((F.heap r).type, (F.heap r).value))) :
    (evaluateText U E level k text).map (fun x => (x.1.warnings, x.2.map (resultDen E))) =
    (evaluateText U F level k text).map (fun x => (x.1.warnings, x.2.map (resultDen F))) := by
  cases hp : parseText U k text with
  | error e => unfold evaluateText; rw [hp]; rfl
  | ok x =>
    obtain ⟨n, k'⟩ := x
    obtain ⟨p, hpol, _⟩ := (parseText_iff hU k k' text n).1 hp
    obtain ⟨s, r, h1, h2, h3⟩ := (evaluate_refines U hU E hE level k text).2 p hpol
    obtain ⟨s', r', h1', h2', h3'⟩ := (evaluate_refines U hU F hF level k text).2 p hpol
    rw [h1, h1']
    simp only [Except.map] at h3 h3' ⊢
    rw [h2, h2']
    obtain ⟨hw, ho, hn⟩ := policyOf_ok hpol
    have hc : semPolicy U (attsOf U E) p = semPolicy U (attsOf U F) p := by
      apply semPolicy_congr hw
      intro t ht hat
      obtain ⟨ts, e, g1, g2⟩ := hpol
      have g3 := (lexer_refines_grammar U hU text _).2 ⟨_, rfl, g1⟩
      rw [hl] at g3
      simp only [Except.ok.injEq] at g3
      rw [← dpolicy_tokens g2, List.mem_filter] at ht
      obtain ⟨name, hv⟩ := (tokenizes_tokOk g1 t (by simp [ht.1])).2 hat
      have := h t (by rw [g3]; simp [ht.1]) hat name hv
      simpa [attsOf, attName, hv] using this
    rw [hc] at h3 h2 ⊢
    rw [← h3'] at h3
    congr 2

/-! ### Missing attributes (C18) -/

/-- The attribute has no usable value: no entry, value `None`, or a value of another type. -/
def Unusable (A : Atts) (t : Token) : Prop :=
  A t.type (attName t) = none ∨ (∃ ty, A t.type (attName t) = some (ty, .sc .none)) ∨
  ∃ ty v, A t.type (attName t) = some (ty, v) ∧ fits ty v = false

theorem semAtt_unusable {A : Atts} {t : Token} (h : Unusable A t) :
    (semAtt A t).2 = .ok (.truth .undef) ∧ ⟨t.pos, "evaluate_att_node"⟩ ∈ (semAtt A t).1 := by
  rcases h with h | ⟨ty, h⟩ | ⟨ty, v, h, hf⟩
  · simp [semAtt, h]
  · simp [semAtt, h]
  · unfold semAtt
    rw [h]
    by_cases hv : v = .sc .none
    · subst hv; simp
    · cases v with
      | sc x => cases x <;> simp_all
      | set l => simp [hf]
      | list l => simp [hf]

/-- C18: a comparison with an unusable attribute records a warning at it and is UNDEF, whatever the operator and the
other operand, as long as that operand itself can be evaluated. -/
theorem unusable_undef (U : Uni) (A : Atts) (t o : Token) (v : Operand) (h : Unusable A t)
    (d : Den) (hv : (semOperand A v).2 = .ok d) :
    ((sem U A (.cmp (.att t) o v)).2 = .ok (.truth .undef) ∧
      ⟨t.pos, "evaluate_att_node"⟩ ∈ (sem U A (.cmp (.att t) o v)).1) ∧
    ((sem U A (.cmp v o (.att t))).2 = .ok (.truth .undef) ∧
      ⟨t.pos, "evaluate_att_node"⟩ ∈ (sem U A (.cmp v o (.att t))).1) := by
  obtain ⟨h1, h2⟩ := semAtt_unusable h
  have e1 : semAtt A t = ((semAtt A t).1, .ok (.truth .undef)) := by rw [← h1]
  have e2 : semOperand A v = ((semOperand A v).1, .ok d) := by rw [← hv]
  simp only [sem]
  rw [show semOperand A (.att t) = semAtt A t from rfl, e1, e2]
  simp [Eff.bind, semCmp, Eff.pure, h2]

/-- C18: and in any case such a comparison neither is TRUE nor FALSE; it is UNDEF or raises
InterpreterError at a literal the interpreter cannot evaluate. -/
theorem unusable_never_grants (U : Uni) (A : Atts) (l r : Operand) (o t : Token)
    (h : Unusable A t) (hm : l = .att t ∨ r = .att t) :
    (sem U A (.cmp l o r)).2 = .ok (.truth .undef) ∨
    ∃ u ∈ l.tokens ++ r.tokens, constOf u = none ∧ (sem U A (.cmp l o r)).2 = .error (badLiteral u) := by
  have bad : ∀ es e, semElems es = .error e → ∃ u ∈ es, constOf u = none ∧ e = badLiteral u := by
    intro es
    induction es with
    | nil => simp [semElems]
    | cons t ts ih =>
      intro e he
      simp only [semElems] at he
      cases hc : constOf t with
      | none =>
        rw [hc] at he
        simp only [Except.error.injEq] at he
        exact ⟨t, by simp, hc, he.symm⟩
      | some a =>
        rw [hc] at he
        simp only at he
        cases hs : semElems ts with
        | ok l => rw [hs] at he; simp [Except.map] at he
        | error e' =>
          rw [hs] at he
          simp only [Except.map, Except.error.injEq] at he
          subst he
          obtain ⟨u, hu, h1, h2⟩ := ih e' hs
          exact ⟨u, by simp [hu], h1, h2⟩
  have opErr : ∀ v e, (semOperand A v).2 = .error e → ∃ u ∈ v.tokens, constOf u = none ∧ e = badLiteral u := by
    intro v e he
    cases v with
    | att t =>
      exfalso
      simp only [semOperand, semAtt] at he
      split at he <;> try (simp at he)
      split at he <;> simp at he
    | atom t =>
      simp only [semOperand] at he
      cases hc : constOf t with
      | none =>
        rw [hc] at he
        simp only [Eff.fail, Except.error.injEq] at he
        exact ⟨t, by simp [Operand.tokens], hc, he.symm⟩
      | some a => rw [hc] at he; simp [Eff.pure] at he
    | set l es =>
      simp only [semOperand] at he
      cases hs : semElems es with
      | ok l => rw [hs] at he; simp [Except.map] at he
      | error e' =>
        rw [hs] at he
        simp only [Except.map, Except.error.injEq] at he
        subst he
        obtain ⟨u, hu, h1, h2⟩ := bad es e' hs
        exact ⟨u, by simp [Operand.tokens, hu], h1, h2⟩
  rcases hm with rfl | rfl
  · cases hv : (semOperand A r).2 with
    | ok d => exact Or.inl (unusable_undef U A t o r h d hv).1.1
    | error e =>
      obtain ⟨u, hu, h1, h2⟩ := opErr r e hv
      refine Or.inr ⟨u, by simp [hu], h1, ?_⟩
      have e1 : semAtt A t = ((semAtt A t).1, .ok (.truth .undef)) := by
        rw [← (semAtt_unusable h).1]
      have e2 : semOperand A r = ((semOperand A r).1, .error e) := by rw [← hv]
      simp only [sem]
      rw [show semOperand A (.att t) = semAtt A t from rfl, e1, e2]
      simp [Eff.bind, h2]
  · cases hv : (semOperand A l).2 with
    | ok d => exact Or.inl (unusable_undef U A t o l h d hv).2.1
    | error e =>
      obtain ⟨u, hu, h1, h2⟩ := opErr l e hv
      refine Or.inr ⟨u, by simp [hu], h1, ?_⟩
      have e2 : semOperand A l = ((semOperand A l).1, .error e) := by rw [← hv]
      simp only [sem]
      rw [e2]
      simp [Eff.bind, h2]

/-! ### Monotonicity (C19) -/

/-- `B` knows at least what `A` knows: every attribute is absent from `A` or the same in `B`. -/
def Extends (A B : Atts) : Prop := ∀ ty n, A ty n = none ∨ A ty n = B ty n

theorem bind_ok {α β} {x : Eff α} {f : α → Eff β} {b : β} (h : (x.bind f).2 = .ok b) :
    ∃ a, x.2 = .ok a ∧ (f a).2 = .ok b := by
  obtain ⟨w, o⟩ := x
  cases o with
  | error e => simp [Eff.bind] at h
  | ok a => exact ⟨a, rfl, h⟩

theorem semAtt_mono {A B : Atts} (hAB : Extends A B) (t : Token) {d d' : Den}
    (h : (semAtt A t).2 = .ok d) (h' : (semAtt B t).2 = .ok d') : d = .truth .undef ∨ d = d' := by
  rcases hAB t.type (attName t) with he | he
  · simp only [semAtt, he, Except.ok.injEq] at h
    exact Or.inl h.symm
  · rw [semAtt_congr he, h'] at h
    simp only [Except.ok.injEq] at h
    exact Or.inr h.symm

theorem semOperand_mono {A B : Atts} (hAB : Extends A B) (v : Operand) {d d' : Den}
    (h : (semOperand A v).2 = .ok d) (h' : (semOperand B v).2 = .ok d') :
    d = .truth .undef ∨ d = d' := by
  cases v with
  | att t => exact semAtt_mono hAB t h h'
  | atom t =>
    rw [show semOperand A (.atom t) = semOperand B (.atom t) from rfl, h'] at h
    simp only [Except.ok.injEq] at h
    exact Or.inr h.symm
  | set l es =>
    rw [show semOperand A (.set l es) = semOperand B (.set l es) from rfl, h'] at h
    simp only [Except.ok.injEq] at h
    exact Or.inr h.symm

theorem kleene_mono (o : Token) {a b a' b' : Tri} (h1 : InfoLe a a') (h2 : InfoLe b b') :
    InfoLe (kleene o a b) (kleene o a' b') := by
  unfold kleene
  by_cases ho : o.value = .str "AND".toList
  · simp only [if_pos ho]
    rcases h1 with rfl | rfl <;> rcases h2 with rfl | rfl
    · cases a' <;> cases b' <;> simp [InfoLe]
    · cases a' <;> cases b <;> simp [InfoLe]
    · cases a <;> cases b' <;> simp [InfoLe]
    · exact Or.inr rfl
  · simp only [if_neg ho]
    rcases h1 with rfl | rfl <;> rcases h2 with rfl | rfl
    · cases a' <;> cases b' <;> simp [InfoLe]
    · cases a' <;> cases b <;> simp [InfoLe]
    · cases a <;> cases b' <;> simp [InfoLe]
    · exact Or.inr rfl

theorem sem_mono {U : Uni} {A B : Atts} (hAB : Extends A B) (p : Policy) {d d' : Den}
    (h : (sem U A p).2 = .ok d) (h' : (sem U B p).2 = .ok d') : d = .truth .undef ∨ d = d' := by
  induction p generalizing d d' with
  | cmp l o r =>
    obtain ⟨a, ha, h⟩ := bind_ok h
    obtain ⟨b, hb, h⟩ := bind_ok h
    obtain ⟨a', ha', h'⟩ := bind_ok h'
    obtain ⟨b', hb', h'⟩ := bind_ok h'
    by_cases hu : a = .truth .undef ∨ b = .truth .undef
    · simp only [semCmp, if_pos hu, Eff.pure, Except.ok.injEq] at h
      exact Or.inl h.symm
    · have e1 : a = a' := by
        rcases semOperand_mono hAB l ha ha' with e | e
        · exact absurd (Or.inl e) hu
        · exact e
      have e2 : b = b' := by
        rcases semOperand_mono hAB r hb hb' with e | e
        · exact absurd (Or.inr e) hu
        · exact e
      subst e1 e2
      rw [h] at h'
      simp only [Except.ok.injEq] at h'
      exact Or.inr h'
  | lit t =>
    rw [show sem U A (.lit t) = sem U B (.lit t) from rfl, h'] at h
    simp only [Except.ok.injEq] at h
    exact Or.inr h.symm
  | att t => exact semAtt_mono hAB t h h'
  | not n p ih =>
    rw [sem_not] at h h'
    obtain ⟨a, ha, h⟩ := bind_ok h
    obtain ⟨a', ha', h'⟩ := bind_ok h'
    rcases ih ha ha' with rfl | rfl
    · simp only [notOut, Eff.pure, kleeneNot, Except.ok.injEq] at h
      exact Or.inl h.symm
    · rw [h] at h'
      simp only [Except.ok.injEq] at h'
      exact Or.inr h'
  | bin o p q ihp ihq =>
    rw [sem_bin] at h h'
    obtain ⟨a, ha, h⟩ := bind_ok h
    obtain ⟨b, hb, h⟩ := bind_ok h
    obtain ⟨a', ha', h'⟩ := bind_ok h'
    obtain ⟨b', hb', h'⟩ := bind_ok h'
    have m1 := ihp ha ha'
    have m2 := ihq hb hb'
    cases a with
    | truth v =>
      cases b with
      | truth w =>
        cases a' with
        | truth v' =>
          cases b' with
          | truth w' =>
            simp only [binOut, Eff.pure, Except.ok.injEq] at h h'
            subst h h'
            simp only [Den.truth.injEq] at m1 m2 ⊢
            exact kleene_mono o m1 m2
          | _ => simp [binOut, Eff.fail] at h'
        | _ => simp [binOut, Eff.fail] at h'
      | _ => simp [binOut, Eff.fail] at h
    | _ => simp [binOut, Eff.fail] at h

theorem semPolicy_mono {U : Uni} {A B : Atts} (hAB : Extends A B) (p : Policy) {d d' : Den}
    (h : (semPolicy U A p).2 = .ok d) (h' : (semPolicy U B p).2 = .ok d') :
    d = .truth .undef ∨ d = d' := by
  cases p with
  | lit t => simp [semPolicy, Eff.fail] at h
  | _ => exact sem_mono hAB _ h h'

theorem outcome_ok {level : Option Int} {x : Eff Den} {d : Den} (h : outcome level x = .ok d) :
    x.2 = .ok d := by
  obtain ⟨w, o⟩ := x
  cases o with
  | error e => simp [outcome] at h
  | ok a =>
    cases w with
    | nil => exact h
    | cons w ws =>
      cases level with
      | none => simp [outcome] at h
      | some m =>
        by_cases hm : m ≤ 2
        · simp [outcome, hm] at h
        · simpa [outcome, hm] using h

/-- C19: the table `F` has everything `E` has. When both evaluations return, a result other than UNDEF
stays as it is. -/
theorem evaluate_mono (U : Uni) (hU : U.Lawful) (E F : SymEnv) (hE : SymEnv.SetsOk E) (hF : SymEnv.SetsOk F)
    (level level' : Option Int) (k k' : Nat) (text : Str) (s s' : Interp) (x x' : Res)
    (hEF : ∀ name r, E.tab.lookup U name = some r → ∃ r', F.tab.lookup U name = some r' ∧
      (F.heap r').type = (E.heap r).type ∧ (F.heap r').value = (E.heap r).value)
    (h : evaluateText U E level k text = .ok (s, .ok x))
    (h' : evaluateText U F level' k' text = .ok (s', .ok x')) :
    x = .tri .undef ∨ resultDen E x = resultDen F x' := by
  have hAB : Extends (attsOf U E) (attsOf U F) := by
    intro ty n
    simp only [attsOf]
    cases hl : E.tab.lookup U (attTypePrefix (some ty) ++ n) with
    | none => exact Or.inl rfl
    | some r =>
      obtain ⟨r', h1, h2, h3⟩ := hEF _ r hl
      exact Or.inr (by simp [h1, h2, h3])
  have hp : ∃ p, PolicyOf U text p := by
    by_cases hp : ∃ p, PolicyOf U text p
    · exact hp
    · obtain ⟨e, he⟩ := (evaluate_refines U hU E hE level k text).1.2 hp
      rw [he] at h
      simp at h
  obtain ⟨p, hp⟩ := hp
  obtain ⟨t, r, h1, _, h3⟩ := (evaluate_refines U hU E hE level k text).2 p hp
  obtain ⟨t', r', h1', _, h3'⟩ := (evaluate_refines U hU F hF level' k' text).2 p hp
  rw [h] at h1
  rw [h'] at h1'
  simp only [Except.ok.injEq, Prod.mk.injEq] at h1 h1'
  obtain ⟨_, rfl⟩ := h1
  obtain ⟨_, rfl⟩ := h1'
  cases ho : outcome level (semPolicy U (attsOf U E) p) with
  | error e => rw [ho] at h3; simp [Except.map] at h3
  | ok d =>
    cases ho' : outcome level' (semPolicy U (attsOf U F) p) with
    | error e => rw [ho'] at h3'; simp [Except.map] at h3'
    | ok d' =>
      rw [ho] at h3
      rw [ho'] at h3'
      simp only [Except.map, Except.ok.injEq] at h3 h3'
      rw [h3, h3']
      rcases semPolicy_mono hAB p (outcome_ok ho) (outcome_ok ho') with rfl | rfl
      · left
        cases x with
        | tri t => simpa [resultDen] using h3
        | none => simp [resultDen] at h3
        | atom a => simp [resultDen] at h3
        | list l => simp [resultDen] at h3
        | sym r =>
          exfalso
          simp only [resultDen] at h3
          cases hv : (E.heap r).value with
          | sc x => rw [hv] at h3; cases x <;> simp [valueDen] at h3
          | set l => rw [hv] at h3; simp [valueDen] at h3
          | list l =>
            rw [hv] at h3
            simp only [valueDen, Option.some.injEq] at h3
            split at h3 <;> simp at h3
      · exact Or.inr rfl

/-! ### Negation and duality (C20) -/

/-- Negation of truth values inside outcomes. -/
def Den.negate : Den → Den
  | .truth v => .truth (kleeneNot v)
  | d => d

/-- The operator of a comparison is `s`. -/
def IsOp (o : Token) (s : String) : Prop := o.value = .str s.toList

theorem semCmp_op {o : Token} {s rule : String} {f : Den → Den → Answer} (a b : Den)
    (h : operators.find? (fun e => decide (TVal.str s.toList = .str e.1.toList)) = some (s, rule, f))
    (ho : IsOp o s) : semCmp o a b =
      if a = .truth .undef ∨ b = .truth .undef then Eff.pure (.truth .undef)
      else answerOut rule (f a b) := by
  unfold semCmp
  rw [show o.value = TVal.str s.toList from ho, h]

theorem answer_neg {rule : String} {x y : Answer} (h : y = Answer.neg x) :
    (answerOut rule y).2 = (answerOut rule x).2.map Den.negate := by
  subst h
  rcases x with e | (_ | _ | _) <;> rfl

theorem answer_rule (r s : String) (x : Answer) : (answerOut r x).2 = (answerOut s x).2 := by
  rcases x with e | (_ | _ | _) <;> rfl

theorem semOrd_neg (f g : PyFloat → PyFloat → Bool) (h : ∀ m n, g m n = !f m n) (a b : Den) :
    semOrd g a b = Answer.neg (semOrd f a b) := by
  unfold semOrd
  cases a.number <;> cases b.number <;> simp [Answer.neg, Except.map, h]

theorem semOrd_swap (f g : PyFloat → PyFloat → Bool) (h : ∀ m n, g m n = f n m) (a b : Den) :
    semOrd g a b = semOrd f b a := by
  unfold semOrd
  cases a.number <;> cases b.number <;> simp [h]

theorem cmp_neg (U : Uni) (A : Atts) (l r : Operand) (o o' : Token)
    (h : ∀ a b, (semCmp o' a b).2 = (semCmp o a b).2.map Den.negate) :
    (sem U A (.cmp l o' r)).2 = (sem U A (.cmp l o r)).2.map Den.negate := by
  simp only [sem]
  generalize semOperand A l = x
  generalize semOperand A r = y
  obtain ⟨w, e | a⟩ := x
  · rfl
  · obtain ⟨v, e | b⟩ := y
    · rfl
    · simp only [Eff.bind]; exact h a b

/-- C20: on the same operands `!=` is the negation of `=`, `>=` of `<` and `<=` of `>`, for truth values and
errors alike. -/
theorem cmp_negations (U : Uni) (A : Atts) (l r : Operand) (o o' : Token)
    (h : (IsOp o "=" ∧ IsOp o' "!=") ∨ (IsOp o "<" ∧ IsOp o' ">=") ∨ (IsOp o ">" ∧ IsOp o' "<=")) :
    (sem U A (.cmp l o' r)).2 = (sem U A (.cmp l o r)).2.map Den.negate := by
  apply cmp_neg
  intro a b
  rcases h with ⟨h1, h2⟩ | ⟨h1, h2⟩ | ⟨h1, h2⟩
  · rw [semCmp_op a b rfl h1, semCmp_op a b rfl h2]
    split
    · rfl
    · exact answer_neg rfl
  · rw [semCmp_op a b rfl h1, semCmp_op a b rfl h2]
    split
    · rfl
    · rw [answer_neg (semOrd_neg (fun m n => decide (numLt m n)) _ (by simp) a b)]
      rw [answer_rule "gte_op" "lt_op"]
  · rw [semCmp_op a b rfl h1, semCmp_op a b rfl h2]
    split
    · rfl
    · rw [answer_neg (semOrd_neg (fun m n => decide (numLt n m)) _ (by simp) a b)]
      rw [answer_rule "lte_op" "qt_op"]

/-- C20: `>` is `<` with the operands exchanged, and `>=` is `<=` (for operands that denote values: of two
operands that raise, the left one is reported). -/
theorem cmp_duals (U : Uni) (A : Atts) (l r : Operand) (o o' : Token) (a b : Den)
    (ha : (semOperand A l).2 = .ok a) (hb : (semOperand A r).2 = .ok b)
    (h : (IsOp o "<" ∧ IsOp o' ">") ∨ (IsOp o "<=" ∧ IsOp o' ">=")) :
    (sem U A (.cmp r o' l)).2 = (sem U A (.cmp l o r)).2 := by
  simp only [sem]
  generalize semOperand A l = x at ha
  generalize semOperand A r = y at hb
  obtain ⟨w, x⟩ := x
  obtain ⟨v, y⟩ := y
  simp only at ha hb
  subst ha hb
  simp only [Eff.bind]
  rcases h with ⟨h1, h2⟩ | ⟨h1, h2⟩
  · rw [semCmp_op a b rfl h1, semCmp_op b a rfl h2]
    by_cases hu : a = .truth .undef ∨ b = .truth .undef
    · rw [if_pos hu, if_pos hu.symm]
    · rw [if_neg hu, if_neg (fun h => hu h.symm),
        semOrd_swap (fun m n => decide (numLt m n)) (fun m n => decide (numLt n m)) (by simp) b a]
      exact answer_rule _ _ _
  · rw [semCmp_op a b rfl h1, semCmp_op b a rfl h2]
    by_cases hu : a = .truth .undef ∨ b = .truth .undef
    · rw [if_pos hu, if_pos hu.symm]
    · rw [if_neg hu, if_neg (fun h => hu h.symm),
        semOrd_swap (fun m n => decide (¬ numLt n m)) (fun m n => decide (¬ numLt m n)) (by simp) b a]
      exact answer_rule _ _ _

/-- C20 on the operators themselves, for any stored operands (also those a fresh evaluation never
produces). -/
theorem op_negations (E : SymEnv) (l r : Res) :
    neqOp E l r = (eqOp E l r).map (fun x => (kleeneNot x.1, x.2)) ∧
    (gteOp E l r).map Prod.fst = (ltOp E l r).map (fun x => kleeneNot x.1) ∧
    (lteOp E l r).map Prod.fst = (gtOp E l r).map (fun x => kleeneNot x.1) ∧
    (gtOp E l r).map Prod.fst = (ltOp E r l).map Prod.fst := by
  refine ⟨?_, ?_, ?_, ?_⟩
  · unfold neqOp
    cases eqOp E l r with
    | error e => rfl
    | ok x => simp [bind, Except.bind, pure, Except.pure, Except.map, tri_not_eq]
  · unfold gteOp ltOp numOp
    split
    · split
      · simp only [Except.map, numLe_iff, numLt_iff]
        rename_i m n _ _
        by_cases h : numLt m n <;> simp [h, Tri.fromBool, kleeneNot]
      · rfl
    · rfl
  · unfold lteOp gtOp numOp
    split
    · split
      · simp only [Except.map, numLe_iff, numLt_iff]
        rename_i m n _ _
        by_cases h : numLt n m <;> simp [h, Tri.fromBool, kleeneNot]
      · rfl
    · rfl
  · unfold gtOp ltOp numOp
    cases rawOperand E l with
    | sc x =>
      cases rawOperand E r with
      | sc y => simp only; cases x.num <;> cases y.num <;> rfl
      | _ => rfl
    | _ => cases rawOperand E r <;> rfl

/-! ### Sets (C21) -/

/-- The Python set an operand stands for in SUBSET: a set literal without NULL, the elements of a set-valued
attribute, or a single attribute value. -/
def setOf (E : SymEnv) : Res → Option (List Scalar)
  | .list l => if Atom.null ∈ l then none else some (l.map .atom)
  | .sym r =>
    match (E.heap r).value with
    | .set l => some l
    | .list l => if l.all Scalar.hashable then some l else none
    | .sc x => if x.hashable then some [x] else none
  | _ => none

theorem setOf_isColl {E : SymEnv} {x : Res} {a : List Scalar} (h : setOf E x = some a) :
    x.isColl = true := by
  cases x <;> simp [setOf, Res.isColl] at h ⊢

theorem setOf_symbol {E : SymEnv} {r : Nat} {a : List Scalar} {other : Res} {wrap : Bool}
    (h : setOf E (.sym r) = some a)
    (ho : (∃ v, (E.heap r).value = .sc v) → other.isColl = true ∧ wrap = true) :
    symbolToVal (E.heap r).value other wrap = .ok (.set a) := by
  simp only [setOf] at h
  generalize (E.heap r).value = v at h ho
  cases v with
  | set l => simpa [symbolToVal] using h
  | list l =>
    simp only at h
    by_cases hh : l.all Scalar.hashable = true
    · rw [if_pos hh] at h
      simp only [Option.some.injEq] at h
      subst h
      simp only [symbolToVal, mkSet, hh, if_true, Except.map]
    · rw [if_neg hh] at h; simp at h
  | sc x =>
    simp only at h
    obtain ⟨h1, h2⟩ := ho ⟨x, rfl⟩
    by_cases hh : x.hashable = true
    · rw [if_pos hh] at h
      simp only [Option.some.injEq] at h
      subst h
      simp [symbolToVal, mkSet, hh, h1, h2, Except.map]
    · rw [if_neg hh] at h; simp at h

theorem setOf_subsetOperand {E : SymEnv} {x y : Res} {a : List Scalar} (h : setOf E x = some a)
    (hy : y.isColl = true) : subsetOperand E x y = .ok (.set a) := by
  cases x with
  | none => simp [setOf] at h
  | tri t => simp [setOf] at h
  | atom t => simp [setOf] at h
  | list l =>
    simp only [setOf] at h
    by_cases hn : Atom.null ∈ l
    · simp [hn] at h
    · simp only [hn, if_false, Option.some.injEq] at h
      subst h
      have := (null_hash l).2 hn
      simp only [atoms] at this
      simp [subsetOperand, mkSet, this, Except.map]
  | sym r => exact setOf_symbol h (fun _ => ⟨hy, rfl⟩)

/-- C21: SUBSET decides inclusion, element by element with Python equality. -/
theorem subset_iff (E : SymEnv) (x y : Res) (a b : List Scalar) (hx : setOf E x = some a)
    (hy : setOf E y = some b) :
    subsetOp E x y =
      .ok (Tri.fromBool (decide (∀ e ∈ a, ∃ e' ∈ b, e.pyEq e' = true)), []) := by
  unfold subsetOp
  rw [setOf_subsetOperand hx (setOf_isColl hy), setOf_subsetOperand hy (setOf_isColl hx)]
  simp only [bind, Except.bind, pure, Except.pure, subsetL_eq, included]

/-- C21: SUBSET is reflexive. -/
theorem subset_refl (E : SymEnv) (x : Res) (a : List Scalar) (hx : setOf E x = some a) :
    subsetOp E x x = .ok (.true, []) := by
  rw [subset_iff E x x a a hx hx, decide_eq_true (fun e he => ⟨e, he, pyEq_refl e⟩)]
  rfl

/-- C21: SUBSET is transitive. -/
theorem subset_trans (E : SymEnv) (x y z : Res) (a b c : List Scalar) (hx : setOf E x = some a)
    (hy : setOf E y = some b) (hz : setOf E z = some c) (h1 : subsetOp E x y = .ok (.true, []))
    (h2 : subsetOp E y z = .ok (.true, [])) : subsetOp E x z = .ok (.true, []) := by
  rw [subset_iff E x y a b hx hy] at h1
  rw [subset_iff E y z b c hy hz] at h2
  rw [subset_iff E x z a c hx hz]
  have hd : ∀ d : Prop, [Decidable d] → (Except.ok (Tri.fromBool (decide d), []) : OpOut) = .ok (.true, []) → d := by
    intro d _ h
    by_cases hd : d
    · exact hd
    · simp [hd, Tri.fromBool] at h
  have g1 := hd _ h1
  have g2 := hd _ h2
  rw [decide_eq_true]
  · rfl
  · intro e he
    obtain ⟨e', he', h3⟩ := g1 e he
    obtain ⟨e'', he'', h4⟩ := g2 e' he'
    exact ⟨e'', he'', pyEq_trans h3 h4⟩

/-- Two lists with the same elements, in any order and multiplicity. -/
def SameSet (a b : List Scalar) : Prop := ∀ e, e ∈ a ↔ e ∈ b

/-- C21: SUBSET ignores order and repetition. -/
theorem subset_order (E : SymEnv) (x y x' y' : Res) (a b a' b' : List Scalar)
    (hx : setOf E x = some a) (hy : setOf E y = some b) (hx' : setOf E x' = some a')
    (hy' : setOf E y' = some b') (ha : SameSet a a') (hb : SameSet b b') :
    subsetOp E x y = subsetOp E x' y' := by
  rw [subset_iff E x y a b hx hy, subset_iff E x' y' a' b' hx' hy']
  have : (∀ e ∈ a, ∃ e' ∈ b, e.pyEq e' = true) ↔ (∀ e ∈ a', ∃ e' ∈ b', e.pyEq e' = true) := by
    constructor
    · intro h e he
      obtain ⟨e', h1, h2⟩ := h e ((ha e).2 he)
      exact ⟨e', (hb e').1 h1, h2⟩
    · intro h e he
      obtain ⟨e', h1, h2⟩ := h e ((ha e).1 he)
      exact ⟨e', (hb e').2 h1, h2⟩
  simp only [this]

/-- The collection on the right of IN: a set literal, or the elements of an attribute. -/
def collOf (E : SymEnv) : Res → Option (List Scalar)
  | .list l => some (l.map .atom)
  | x => setOf E x

/-- A single value on the left of IN: a number or string, as a constant or as an attribute value. -/
def singleOf (E : SymEnv) : Res → Option Scalar
  | .atom a => if a = .null then none else some (.atom a)
  | .sym r =>
    match (E.heap r).value with
    | .sc x => if x.isNumStr then some x else none
    | _ => none
  | _ => none

theorem singleOf_operand {E : SymEnv} {x y : Res} {v : Scalar} (h : singleOf E x = some v) :
    operand E x y false = .ok (.sc v) ∧ v.isNumStr = true := by
  cases x with
  | none => simp [singleOf] at h
  | tri t => simp [singleOf] at h
  | list l => simp [singleOf] at h
  | atom a =>
    simp only [singleOf] at h
    cases a <;> simp [operand, Res.plain, Scalar.isNumStr, Scalar.num] at h ⊢ <;> subst h <;> simp
  | sym r =>
    simp only [singleOf] at h
    cases hv : (E.heap r).value with
    | set l => rw [hv] at h; simp at h
    | list l => rw [hv] at h; simp at h
    | sc z =>
      rw [hv] at h
      simp only at h
      by_cases hz : z.isNumStr = true
      · rw [if_pos hz] at h
        simp only [Option.some.injEq] at h
        subst h
        refine ⟨?_, hz⟩
        simp only [operand, symbolToVal, hv]
        cases y.isColl <;> simp
      · rw [if_neg hz] at h; simp at h

theorem collOf_operand {E : SymEnv} {y x : Res} {b : List Scalar} (h : collOf E y = some b)
    (hx : (∃ r v, y = .sym r ∧ (E.heap r).value = .sc v) → x.isColl = true) :
    operand E y x true = .ok (.set b) ∨ operand E y x true = .ok (.list b) := by
  cases y with
  | none => simp [collOf, setOf] at h
  | tri t => simp [collOf, setOf] at h
  | atom t => simp [collOf, setOf] at h
  | list l =>
    simp only [collOf, Option.some.injEq] at h
    subst h
    exact Or.inr rfl
  | sym r => exact Or.inl (setOf_symbol h (fun ⟨v, hv⟩ => ⟨hx ⟨r, v, rfl, hv⟩, rfl⟩))

/-- C21: IN with a single value on the left decides membership. The right side is a collection, or an
attribute beside another one. -/
theorem in_iff_mem (E : SymEnv) (x y : Res) (v : Scalar) (b : List Scalar)
    (hx : singleOf E x = some v) (hy : collOf E y = some b)
    (hc : (∃ r v, y = .sym r ∧ (E.heap r).value = .sc v) → x.isColl = true) :
    inOp E x y = .ok (Tri.fromBool (decide (∃ e ∈ b, v.pyEq e = true)), []) := by
  obtain ⟨h1, h2⟩ := singleOf_operand (y := y) hx
  have h3 : v.memL b = decide (∃ e ∈ b, v.pyEq e = true) := by
    rw [Bool.eq_iff_iff]; simp [memL_iff]
  unfold inOp
  rw [h1]
  rcases collOf_operand hy hc with h | h <;> rw [h] <;>
    simp [bind, Except.bind, pure, Except.pure, h2, h3]

/-- C21: IN with a set literal or set-valued attribute on the left decides whether the two have an element in
common (`hs`: a NULL on the right is only compared with literals). -/
theorem in_iff_overlap (E : SymEnv) (x y : Res) (a b : List Scalar)
    (hx : (∃ l, x = .list l ∧ a = l.map .atom) ∨
      ∃ r, x = .sym r ∧ setOf E x = some a ∧ ∀ v, (E.heap r).value ≠ .sc v)
    (hy : collOf E y = some b) (hs : (∃ r, x = .sym r) → b.all Scalar.hashable = true) :
    inOp E x y = .ok (Tri.fromBool (decide (∃ e ∈ b, ∃ e' ∈ a, e.pyEq e' = true)), []) := by
  have hxc : x.isColl = true := by
    rcases hx with ⟨l, rfl, _⟩ | ⟨r, rfl, _⟩ <;> rfl
  have hb := collOf_operand hy (fun _ => hxc)
  have hov : (b.any fun e => e.memL a) = decide (∃ e ∈ b, ∃ e' ∈ a, e.pyEq e' = true) := anyL_eq b a
  unfold inOp
  rcases hx with ⟨l, rfl, rfl⟩ | ⟨r, rfl, h1, h2⟩
  · rcases hb with hb | hb <;> rw [hb] <;>
      simp only [operand, Res.plain, bind, Except.bind, pure, Except.pure, hov]
  · have ha : operand E (.sym r) y false = .ok (.set a) :=
      setOf_symbol h1 (fun ⟨v, hv⟩ => absurd hv (h2 v))
    have hany := anyInSet_hash a b (hs ⟨r, rfl⟩)
    rw [ha]
    rcases hb with hb | hb <;> rw [hb] <;>
      simp only [bind, Except.bind, pure, Except.pure, hany] <;> rfl

end Verif.Props
