import Verif.Proofs.InterpMessages
import Verif.Props.Interpreter
import Verif.Props.Evaluation
import Verif.Props.CheckMessages
import Verif.Tests.Basic
/-!
# What evaluation says (C128, C129)
-/

namespace Verif.Props
open Verif Verif.Spec Verif.Proofs

/-! ### The model with messages is the model -/

/-- C128: forgetting the messages gives back `Interp.evaluate`, for every tree, state, table and level. -/
theorem interp_forget (U : Uni) (E : SymEnv) (level : Option Int) (s : InterpM) :
    ((InterpM.evaluate U E level s).1.ast, (InterpM.evaluate U E level s).1.warnings.map WarnM.warn,
      (InterpM.evaluate U E level s).2.mapError RaisedM.exc) =
    ((Interp.evaluate U E level ⟨s.ast, s.warnings.map WarnM.warn⟩).1.ast,
      (Interp.evaluate U E level ⟨s.ast, s.warnings.map WarnM.warn⟩).1.warnings,
      (Interp.evaluate U E level ⟨s.ast, s.warnings.map WarnM.warn⟩).2) := by
  unfold InterpM.evaluate Interp.evaluate
  dsimp only
  rw [← quiet_evalNode]
  rcases evalNodeM U E s.ast with ⟨n, w, _ | e⟩
  · have h := raiseWarningsM_exc level (s.warnings ++ w)
    rw [List.map_append] at h
    simp only [quiet, Option.map_none]
    rw [← h]
    cases raiseWarningsM level (s.warnings ++ w) with
    | none => simp [Except.mapError]
    | some e => simp [Except.mapError]
  · simp [quiet, Except.mapError, RaisedM.exc]

/-! ### Positions -/

theorem remarksAtt_pos {A : Atts} {t : Token} : ∀ r ∈ remarksAtt A t, r.pos = some t.pos := by
  intro r hr
  unfold remarksAtt at hr
  dsimp only at hr
  split at hr
  · simp only [List.mem_singleton] at hr; rw [hr]
  · simp only [List.mem_cons, List.not_mem_nil, or_false] at hr
    rcases hr with rfl | rfl <;> rfl
  · split at hr
    · simp at hr
    · simp only [List.mem_singleton] at hr; rw [hr]

theorem mem_after {α : Type} {x : Except PyExc α} {f : α → List Remark} {r : Remark} (h : r ∈ after x f) :
    ∃ a, x = .ok a ∧ r ∈ f a := by
  cases x with
  | error e => simp [after] at h
  | ok a => exact ⟨a, rfl, h⟩

theorem remarksOperand_pos {A : Atts} {v : Operand} : ∀ r ∈ remarksOperand A v, ∃ t ∈ v.tokens, r.pos = some t.pos := by
  intro r hr
  cases v with
  | att t => exact ⟨t, by simp [Operand.tokens], remarksAtt_pos r hr⟩
  | atom t => simp [remarksOperand] at hr
  | set l es => simp [remarksOperand] at hr

theorem remarksCmp_pos {o : Token} {a b : Den} : ∀ r ∈ remarksCmp o a b, r.pos = none := by
  intro r hr
  unfold remarksCmp at hr
  split at hr
  · simp at hr
  · split at hr
    · simp only [List.mem_singleton] at hr; rw [hr]
    · simp at hr

theorem remarks_pos {U : Uni} {A : Atts} {p : Policy} : ∀ r ∈ remarks U A p, r.pos = none ∨ ∃ t ∈ p.tokens, r.pos = some t.pos := by
  induction p with
  | cmp l o r =>
    intro x hx
    simp only [remarks, List.mem_append] at hx
    simp only [Policy.tokens, List.mem_append, List.mem_cons]
    rcases hx with hx | hx
    · obtain ⟨t, h1, h2⟩ := remarksOperand_pos x hx
      exact Or.inr ⟨t, Or.inl h1, h2⟩
    · obtain ⟨a, _, hx⟩ := mem_after hx
      simp only [List.mem_append] at hx
      rcases hx with hx | hx
      · obtain ⟨t, h1, h2⟩ := remarksOperand_pos x hx
        exact Or.inr ⟨t, Or.inr (Or.inr h1), h2⟩
      · obtain ⟨b, _, hx⟩ := mem_after hx
        exact Or.inl (remarksCmp_pos x hx)
  | lit t => intro x hx; simp [remarks] at hx
  | att t =>
    intro x hx
    exact Or.inr ⟨t, by simp [Policy.tokens], remarksAtt_pos x hx⟩
  | not n p ih =>
    intro x hx
    rcases ih x hx with h | ⟨t, h1, h2⟩
    · exact Or.inl h
    · exact Or.inr ⟨t, by simp [Policy.tokens, h1], h2⟩
  | bin o p q ihp ihq =>
    intro x hx
    simp only [remarks, List.mem_append] at hx
    simp only [Policy.tokens, List.mem_append, List.mem_cons]
    rcases hx with hx | hx
    · rcases ihp x hx with h | ⟨t, h1, h2⟩
      · exact Or.inl h
      · exact Or.inr ⟨t, Or.inl h1, h2⟩
    · obtain ⟨a, _, hx⟩ := mem_after hx
      rcases ihq x hx with h | ⟨t, h1, h2⟩
      · exact Or.inl h
      · exact Or.inr ⟨t, Or.inr (Or.inr h1), h2⟩

/-- Operators fail with TypeError only. -/
theorem operators_error {s rule : String} {f : Den → Den → Answer} (h : (s, rule, f) ∈ operators) {a b : Den} {e : PyExc}
    (he : f a b = .error e) : e = .typeError := by
  have heq : ∀ a b, semEq a b = .error e → e = .typeError := by
    intro a b h
    unfold semEq at h
    split at h <;> first | (cases h; rfl) | (split at h <;> first | (cases h; rfl) | cases h) | cases h
  have hord : ∀ g a b, semOrd g a b = .error e → e = .typeError := by
    intro g a b h
    unfold semOrd at h
    split at h <;> cases h
  have hscan : ∀ m l, Spec.scan m l = .error e → e = .typeError := by
    intro m l
    induction l with
    | nil => intro h; cases h
    | cons a l ih =>
      intro h
      unfold Spec.scan at h
      split at h
      · cases h; rfl
      · split at h
        · cases h
        · exact ih h
  have hin : ∀ a b, semIn a b = .error e → e = .typeError := by
    intro a b h
    unfold semIn at h
    split at h <;> first | (cases h; rfl) | (exact hscan _ _ h) | (split at h <;> first | (cases h; rfl) | cases h) | cases h
  have hsub : ∀ a b, semSubset a b = .error e → e = .typeError := by
    intro a b h
    unfold semSubset at h
    split at h
    · cases h; rfl
    · split at h <;> cases h
  simp only [operators, List.mem_cons, Prod.mk.injEq, List.not_mem_nil, or_false] at h
  rcases h with ⟨rfl, rfl, rfl⟩ | ⟨rfl, rfl, rfl⟩ | ⟨rfl, rfl, rfl⟩ | ⟨rfl, rfl, rfl⟩ |
    ⟨rfl, rfl, rfl⟩ | ⟨rfl, rfl, rfl⟩ | ⟨rfl, rfl, rfl⟩ | ⟨rfl, rfl, rfl⟩
  · exact heq _ _ he
  · unfold Answer.neg at he
    dsimp only at he
    cases h : semEq a b with
    | error e' => rw [h] at he; simp only [Except.map] at he; cases he; exact heq _ _ h
    | ok x => rw [h] at he; simp [Except.map] at he
  · exact hord _ _ _ he
  · exact hord _ _ _ he
  · exact hord _ _ _ he
  · exact hord _ _ _ he
  · exact hin _ _ he
  · exact hsub _ _ he

theorem semElems_error {es : List Token} {e : PyExc} (h : semElems es = .error e) : ∃ t ∈ es, e = badLiteral t := by
  induction es with
  | nil => cases h
  | cons t ts ih =>
    unfold semElems at h
    cases hc : constOf t with
    | none => rw [hc] at h; cases h; exact ⟨t, by simp, rfl⟩
    | some a =>
      rw [hc] at h
      dsimp only at h
      cases hs : semElems ts with
      | error e' =>
        rw [hs] at h
        simp only [Except.map] at h
        cases h
        obtain ⟨u, h1, h2⟩ := ih hs
        exact ⟨u, by simp [h1], h2⟩
      | ok l => rw [hs] at h; simp [Except.map] at h

theorem semAtt_ok (A : Atts) (t : Token) : ∃ d, (semAtt A t).2 = .ok d := by
  unfold semAtt
  dsimp only
  split
  · exact ⟨_, rfl⟩
  · exact ⟨_, rfl⟩
  · split <;> exact ⟨_, rfl⟩

theorem semOperand_error {A : Atts} {v : Operand} {e : PyExc} (h : (semOperand A v).2 = .error e) : ∃ t ∈ v.tokens, e = badLiteral t := by
  cases v with
  | att t =>
    obtain ⟨d, hd⟩ := semAtt_ok A t
    rw [semOperand, hd] at h
    cases h
  | atom t =>
    rw [semOperand] at h
    cases hc : constOf t with
    | none => rw [hc] at h; cases h; exact ⟨t, by simp [Operand.tokens], rfl⟩
    | some a => rw [hc] at h; cases h
  | set l es =>
    rw [semOperand] at h
    cases hs : semElems es with
    | error e' =>
      rw [hs] at h
      simp only [Except.map] at h
      cases h
      obtain ⟨t, h1, h2⟩ := semElems_error hs
      exact ⟨t, by simp [Operand.tokens, h1], h2⟩
    | ok x => rw [hs] at h; simp [Except.map] at h

theorem bind_error {α β : Type} {x : Eff α} {f : α → Eff β} {e : PyExc} (h : (x.bind f).2 = .error e) :
    x.2 = .error e ∨ ∃ a, x.2 = .ok a ∧ (f a).2 = .error e := by
  obtain ⟨w, x⟩ := x
  cases x with
  | error e' => left; simp only [Eff.bind] at h; cases h; rfl
  | ok a => right; exact ⟨a, rfl, h⟩

theorem semCmp_error {o : Token} {a b : Den} {e : PyExc} (h : (semCmp o a b).2 = .error e) :
    e = .typeError ∨ e = .interpreterError o.pos "evaluate_op_node" := by
  unfold semCmp at h
  split at h
  · cases h
  · split at h
    · rename_i s rule f hf
      have hm := List.mem_of_find?_eq_some hf
      left
      cases hx : f a b with
      | error e' => rw [hx] at h; cases h; exact operators_error hm hx
      | ok x =>
        rw [hx] at h
        rcases x with _ | _ | _ <;> cases h
    · cases h; right; rfl

/-- Errors of evaluation are TypeErrors or tell the position of a token of the policy and one of the rules. -/
theorem sem_error {U : Uni} {A : Atts} {p : Policy} {e : PyExc} (h : (sem U A p).2 = .error e) :
    e = .typeError ∨ ∃ t ∈ p.tokens, ∃ rule, e = .interpreterError t.pos rule := by
  induction p with
  | cmp l o r =>
    rw [sem] at h
    simp only [Policy.tokens, List.mem_append, List.mem_cons]
    rcases bind_error h with h | ⟨a, _, h⟩
    · obtain ⟨t, h1, h2⟩ := semOperand_error h
      exact Or.inr ⟨t, Or.inl h1, _, h2⟩
    · rcases bind_error h with h | ⟨b, _, h⟩
      · obtain ⟨t, h1, h2⟩ := semOperand_error h
        exact Or.inr ⟨t, Or.inr (Or.inr h1), _, h2⟩
      · rcases semCmp_error h with h | h
        · exact Or.inl h
        · exact Or.inr ⟨o, Or.inr (Or.inl rfl), _, h⟩
  | lit t =>
    rw [sem] at h
    split at h
    · cases h
    · cases h; exact Or.inr ⟨t, by simp [Policy.tokens], _, rfl⟩
  | att t =>
    obtain ⟨d, hd⟩ := semAtt_ok A t
    rw [sem, hd] at h
    cases h
  | not n p ih =>
    rw [sem_not] at h
    rcases bind_error h with h | ⟨a, _, h⟩
    · rcases ih h with h | ⟨t, h1, h2⟩
      · exact Or.inl h
      · exact Or.inr ⟨t, by simp [Policy.tokens, h1], h2⟩
    · unfold notOut at h
      split at h
      · cases h
      · cases h; exact Or.inr ⟨n, by simp [Policy.tokens], _, rfl⟩
  | bin o p q ihp ihq =>
    rw [sem_bin] at h
    simp only [Policy.tokens, List.mem_append, List.mem_cons]
    rcases bind_error h with h | ⟨a, _, h⟩
    · rcases ihp h with h | ⟨t, h1, h2⟩
      · exact Or.inl h
      · exact Or.inr ⟨t, Or.inl h1, h2⟩
    · rcases bind_error h with h | ⟨b, _, h⟩
      · rcases ihq h with h | ⟨t, h1, h2⟩
        · exact Or.inl h
        · exact Or.inr ⟨t, Or.inr (Or.inr h1), h2⟩
      · unfold binOut at h
        split at h
        · cases h
        · cases h; exact Or.inr ⟨o, Or.inr (Or.inl rfl), _, rfl⟩

theorem semPolicy_error {U : Uni} {A : Atts} {p : Policy} {e : PyExc} (h : (semPolicy U A p).2 = .error e) :
    e = .typeError ∨ ∃ t ∈ p.tokens, ∃ rule, e = .interpreterError t.pos rule := by
  cases p with
  | lit t => cases h; exact Or.inr ⟨t, by simp [Policy.tokens], _, rfl⟩
  | _ => exact sem_error (U := U) h

/-! ### What errors say -/

/-- What an error says goes by its rule, and errors of the interpreter say something. -/
def Worded (e : Option EvalErr) : Prop :=
  (∀ p r m, e = some (.said p r m) → m = evalComplaint r) ∧ ∀ p r, e ≠ some (.other (.interpreterError p r))

theorem worded_none : Worded none := ⟨fun _ _ _ h => (by cases h), fun _ _ h => (by cases h)⟩

theorem worded_one {U : Uni} {E : SymEnv} {k : Kind} {t : Token} {i : Nat} {a : Node}
    (ha : Worded (evalChildM U E a).2.2) (hf : ∀ a', Worded (evalSelfM U E k t .none [a']).2.2) :
    Worded (evalNodeM U E (.mk k t i .none [a])).2.2 := by
  rw [evalNodeM, evalChildrenM_one]
  generalize evalChildM U E a = xa at ha ⊢
  obtain ⟨a', w, _ | e⟩ := xa
  · exact hf a'
  · exact ha

theorem worded_two {U : Uni} {E : SymEnv} {k : Kind} {t : Token} {i : Nat} {a b : Node}
    (ha : Worded (evalChildM U E a).2.2) (hb : Worded (evalChildM U E b).2.2)
    (hf : ∀ a' b', Worded (evalSelfM U E k t .none [a', b']).2.2) :
    Worded (evalNodeM U E (.mk k t i .none [a, b])).2.2 := by
  rw [evalNodeM, evalChildrenM_two]
  generalize evalChildM U E a = xa at ha ⊢
  obtain ⟨a', w, _ | e⟩ := xa
  · generalize evalChildM U E b = xb at hb ⊢
    obtain ⟨b', w', _ | e⟩ := xb
    · exact hf a' b'
    · exact hb
  · exact ha

theorem worded_said {p : Int} {rule : String} {m : Str} (h : m = evalComplaint rule) : Worded (some (.said p rule m)) := by
  refine ⟨?_, fun _ _ h => (by cases h)⟩
  intro p' r' m' h'
  cases h'
  exact h

theorem worded_other {e : PyExc} (h : ∀ p r, e ≠ .interpreterError p r) : Worded (some (.other e)) :=
  ⟨fun _ _ _ h => (by cases h), fun p r h' => (by cases h'; exact h p r rfl)⟩

theorem evalNodeM_atom {U : Uni} {E : SymEnv} (t : Token) (k : Nat) :
    evalNodeM U E (atomNode t k) = (atomNode t k, [], some (.said t.pos "evaluate_node" msgNodeType)) := by
  unfold atomNode
  cases t.type <;> simp [atomKind, evalNodeM, evalChildrenM, evalSelfM, Kind.isAtt]

theorem worded_atom {U : Uni} {E : SymEnv} (t : Token) (k : Nat) : Worded (evalNodeM U E (atomNode t k)).2.2 := by
  rw [evalNodeM_atom]
  exact worded_said rfl

theorem worded_atoms {U : Uni} {E : SymEnv} (es : List Token) (k : Nat) : Worded (evalChildrenM U E (atomNodes es k)).2.2 := by
  induction es generalizing k with
  | nil => rw [atomNodes, evalChildrenM]; exact worded_none
  | cons t ts ih =>
    rw [atomNodes, evalChildrenM]
    by_cases h : (atomNode t k).res.truthy = true
    · rw [if_pos h]; exact ih _
    · rw [if_neg h, evalNodeM_atom]; exact worded_said rfl

theorem attName_exc {k : Kind} {t : Token} {e : PyExc} (h : attToSymbolName k t = .error e) : ∀ p r, e ≠ .interpreterError p r := by
  unfold attToSymbolName at h
  intro p r he
  subst he
  cases k <;> cases ht : t.value <;> rw [ht] at h <;> cases h

theorem applyOp_plain {U : Uni} {E : SymEnv} {s : Str} {l r : Res} {e : PyExc} (h : applyOp U E s l r = some (.error e)) :
    ∀ p r, e ≠ .interpreterError p r := by
  intro p q he
  have := applyOp_exc h
  rw [he] at this
  cases this

theorem worded_att {U : Uni} {E : SymEnv} (t : Token) (k : Nat) : Worded (evalNodeM U E (attNode t k)).2.2 := by
  unfold attNode
  rw [evalNodeM, evalChildrenM]
  show Worded (evalSelfM U E _ t .none []).2.2
  unfold evalSelfM
  rw [if_pos (attKind_isAtt _)]
  unfold evalAttM
  cases he : attToSymbolName (attKind t.type) t with
  | error e => exact worded_other (attName_exc he)
  | ok name =>
    dsimp only
    cases E.tab.lookup U name with
    | none => exact worded_none
    | some r =>
      dsimp only
      split
      · exact worded_none
      · split
        · split
          · exact worded_none
          · exact worded_other (fun _ _ h => by cases h)
        · exact worded_none

theorem worded_child {U : Uni} {E : SymEnv} {n : Node} (h : Worded (evalNodeM U E n).2.2) : Worded (evalChildM U E n).2.2 := by
  unfold evalChildM
  split
  · exact worded_none
  · exact h

theorem worded_operand {U : Uni} {E : SymEnv} (v : Operand) (k : Nat) : Worded (evalChildM U E (v.build k).1).2.2 := by
  cases v with
  | att t => exact worded_child (worded_att t k)
  | atom t => exact worded_child (worded_atom t k)
  | set l es =>
    refine worded_child ?_
    have h := worded_atoms (U := U) (E := E) es k
    show Worded (evalNodeM U E (.mk .set l _ .none (atomNodes es k))).2.2
    rw [evalNodeM]
    generalize evalChildrenM U E (atomNodes es k) = x at h ⊢
    obtain ⟨cs, w, _ | e⟩ := x
    · show Worded (evalSetM l cs).2.2
      unfold evalSetM
      rcases evalSetLoop [] cs with ⟨_, _ | _⟩
      · exact worded_said rfl
      · exact worded_none
    · exact h

theorem applyOp_some {U : Uni} (hU : U.Lawful) {E : SymEnv} {s rule : String} {f : Den → Den → Answer}
    (h : (s, rule, f) ∈ operators) (l r : Res) : applyOp U E s.toList l r ≠ none := by
  simp only [operators, List.mem_cons, Prod.mk.injEq, List.not_mem_nil, or_false] at h
  unfold applyOp
  have hi : U.upper "IN".toList = "IN".toList := by rw [hU.upper_ascii _ (by decide)]; decide
  have hs : U.upper "SUBSET".toList = "SUBSET".toList := by rw [hU.upper_ascii _ (by decide)]; decide
  rcases h with ⟨rfl, rfl, rfl⟩ | ⟨rfl, rfl, rfl⟩ | ⟨rfl, rfl, rfl⟩ | ⟨rfl, rfl, rfl⟩ |
    ⟨rfl, rfl, rfl⟩ | ⟨rfl, rfl, rfl⟩ | ⟨rfl, rfl, rfl⟩ | ⟨rfl, rfl, rfl⟩
  · rw [if_pos rfl]; exact fun h => by cases h
  · rw [if_neg (by decide), if_pos rfl]; exact fun h => by cases h
  · rw [if_neg (by decide), if_neg (by decide), if_neg (by decide), if_pos rfl]; exact fun h => by cases h
  · rw [if_neg (by decide), if_neg (by decide), if_pos rfl]; exact fun h => by cases h
  · rw [if_neg (by decide), if_neg (by decide), if_neg (by decide), if_neg (by decide), if_neg (by decide), if_pos rfl]
    exact fun h => by cases h
  · rw [if_neg (by decide), if_neg (by decide), if_neg (by decide), if_neg (by decide), if_pos rfl]
    exact fun h => by cases h
  · rw [if_neg (by decide), if_neg (by decide), if_neg (by decide), if_neg (by decide), if_neg (by decide),
      if_neg (by decide), if_pos hi]
    exact fun h => by cases h
  · rw [if_neg (by decide), if_neg (by decide), if_neg (by decide), if_neg (by decide), if_neg (by decide),
      if_neg (by decide), if_neg (by rw [hs]; decide), if_pos hs]
    exact fun h => by cases h

theorem worded_policy {U : Uni} (hU : U.Lawful) {E : SymEnv} (p : Policy) (k : Nat) (ho : p.OpsOk) :
    Worded (evalNodeM U E (p.build U k).1).2.2 := by
  induction p generalizing k with
  | cmp l o r =>
    simp only [Policy.build]
    refine worded_two (worded_operand l k) (worded_operand r _) ?_
    intro a b
    obtain ⟨s, rule, f, h1, h2, _⟩ := find_op ho
    show Worded (evalOpM U E o .none [a, b]).2.2
    unfold evalOpM
    simp only [List.getElem?_cons_zero, List.getElem?_cons_succ, Option.map_some, h2]
    split
    · exact worded_said rfl
    · split
      · split
        · exact worded_none
        · rw [applyOpM_eq]
          cases hx : applyOp U E s.toList a.res b.res with
          | none => exact absurd hx (applyOp_some hU h1 _ _)
          | some x =>
            cases x with
            | error e => exact worded_other (applyOp_plain hx)
            | ok v => exact worded_none
      · exact worded_said rfl
  | lit t =>
    simp only [Policy.build, evalNodeM, evalChildrenM]
    exact worded_said rfl
  | att t => exact worded_att t k
  | not n p ih =>
    simp only [Policy.build]
    refine worded_one (worded_child (ih k ho)) ?_
    intro a
    show Worded (evalNotM n .none [a]).2.2
    unfold evalNotM
    split
    · exact worded_none
    · exact worded_said rfl
  | bin o p q ihp ihq =>
    simp only [Policy.build]
    refine worded_two (worded_child (ihp k ho.1)) (worded_child (ihq _ ho.2)) ?_
    intro a b
    show Worded (evalBoolOpM U o .none [a, b]).2.2
    unfold evalBoolOpM
    split
    · split
      · split
        · exact worded_none
        · split
          · exact worded_none
          · exact worded_said rfl
      · exact worded_other (fun _ _ h => by cases h)
    · exact worded_said rfl

/-! ### What is said (C128) -/

/-- Evaluating a whole policy: its meaning, its remarks, its errors in words. -/
theorem tells_whole {U : Uni} (hU : U.Lawful) {E : SymEnv} (hE : SymEnv.SetsOk E) (p : Policy) (k : Nat)
    (hw : p.WF) (ho : p.OpsOk) (hn : p.NamesOk) :
    Agrees E (quiet (evalNodeM U E (p.build U k).1)) (semPolicy U (attsOf U E) p) ∧
    said (evalNodeM U E (p.build U k).1) = asSaid (remarks U (attsOf U E) p) := by
  refine ⟨by rw [quiet_evalNode]; exact evalNode_policy hU hE p k hw ho hn, ?_⟩
  cases p with
  | lit t =>
    refine said_nil ?_
    rw [quiet_evalNode]
    exact (evalNode_policy hU hE (.lit t) k hw ho hn).1
  | att t =>
    have h := (tells_policy hU hE (.att t) k hw ho hn).2
    simp only [Policy.build, attNode, evalChildM_none] at h ⊢
    exact h
  | cmp l o r =>
    have h := (tells_policy hU hE (.cmp l o r) k hw ho hn).2
    simp only [Policy.build, evalChildM_none] at h ⊢
    exact h
  | not n p =>
    have h := (tells_policy hU hE (.not n p) k hw ho hn).2
    simp only [Policy.build, evalChildM_none] at h ⊢
    exact h
  | bin o p q =>
    have h := (tells_policy hU hE (.bin o p q) k hw ho hn).2
    simp only [Policy.build, evalChildM_none] at h ⊢
    exact h

theorem policyOf_pos {U : Uni} {text : Str} {p : Policy} (h : PolicyOf U text p) : ∀ t ∈ p.tokens, 0 ≤ t.pos := by
  obtain ⟨ts, e, h1, h2⟩ := h
  intro t ht
  rw [← dpolicy_tokens h2, List.mem_filter] at ht
  exact (tokenizes_pos h1 t (by simp [ht.1])).1

theorem warn_shown {text : Str} {w : WarnM} {r : Remark} (h : (w.pos, w.msg) = (r.pos.getD (-1), r.text))
    (hr : r.pos = none ∨ ∃ q, r.pos = some q ∧ 0 ≤ q) : w.str (some text) = r.shown text := by
  simp only [Prod.mk.injEq] at h
  unfold WarnM.str Remark.shown
  rw [h.1, h.2]
  rcases hr with hr | ⟨q, hr, hq⟩
  · rw [hr]; rfl
  · rw [hr]
    exact str_shown _ _ _ hq

theorem warns_shown {text : Str} {ws : List WarnM} {rs : List Remark} (h : ws.map (fun w => (w.pos, w.msg)) = asSaid rs)
    (hr : ∀ r ∈ rs, r.pos = none ∨ ∃ q, r.pos = some q ∧ 0 ≤ q) :
    ws.map (WarnM.str (some text)) = rs.map (Remark.shown text) := by
  induction ws generalizing rs with
  | nil => cases rs with
    | nil => rfl
    | cons r rs => simp [asSaid] at h
  | cons w ws ih =>
    cases rs with
    | nil => simp [asSaid] at h
    | cons r rs =>
      simp only [asSaid, List.map_cons, List.cons.injEq] at h
      rw [List.map_cons, List.map_cons, warn_shown h.1 (hr r (by simp)), ih h.2 (fun x hx => hr x (by simp [hx]))]

/-- C128: the texts of the warnings after a call, in order, are the remarks of the policy, word for word; and the text of what the call
raises is the one of the first error, or of the first remark if the level asks for it. -/
theorem evaluate_says (U : Uni) (hU : U.Lawful) (E : SymEnv) (hE : SymEnv.SetsOk E) (builtin : PyExc → Str) (level : Option Int)
    (k : Nat) (text : Str) (p : Policy) (hp : PolicyOf U text p) :
    ∃ s r, evaluateTextM U E level k text = .ok (s, r) ∧
      s.warnings.map (WarnM.str (some text)) = (remarks U (attsOf U E) p).map (Remark.shown text) ∧
      (match r with | .ok _ => none | .error e => some (e.str builtin (some text))) =
        evalShown U (attsOf U E) builtin level text p := by
  obtain ⟨hw, ho, hn⟩ := policyOf_ok hp
  have hparse := (parseText_iff hU k _ text _).2 ⟨p, hp, rfl⟩
  have hpos := policyOf_pos hp
  obtain ⟨hA, hS⟩ := tells_whole hU hE p k hw ho hn
  have hW := worded_policy hU (E := E) p k ho
  have hr : ∀ r ∈ remarks U (attsOf U E) p, r.pos = none ∨ ∃ q, r.pos = some q ∧ 0 ≤ q := by
    intro r hr
    rcases remarks_pos r hr with h | ⟨t, h1, h2⟩
    · exact Or.inl h
    · exact Or.inr ⟨t.pos, h2, hpos t h1⟩
  have hev : evaluateTextM U E level k text = .ok (InterpM.evaluate U E level ⟨(p.build U k).1, []⟩) := by
    unfold evaluateTextM; rw [hparse]; rfl
  refine ⟨_, _, hev, ?_⟩
  dsimp only
  have hE2 := hA.2
  generalize hx : evalNodeM U E (p.build U k).1 = x at hA hS hW hE2
  obtain ⟨n, w, e⟩ := x
  have hS' : w.map (fun w => (w.pos, w.msg)) = asSaid (remarks U (attsOf U E) p) := hS
  have hT := warns_shown (text := text) hS' hr
  cases e with
  | some e =>
    refine ⟨hT, ?_⟩
    unfold evalShown
    cases ho : (semPolicy U (attsOf U E) p).2 with
    | ok d => rw [ho] at hE2; exact absurd hE2 id
    | error e' =>
      rw [ho] at hE2
      have he : e.exc = e' := hE2
      cases e with
      | said q r m =>
        have := hW.1 q r m rfl
        subst this
        subst he
        rcases semPolicy_error ho with h | ⟨t, h1, rule, h2⟩
        · cases h
        · cases h2
          show some (HGPLError.str _) = some _
          rw [str_shown _ _ _ (hpos t h1)]
      | other e0 =>
        have he : e0 = e' := he
        subst he
        rcases semPolicy_error ho with h | ⟨t, h1, rule, h2⟩
        · subst h; rfl
        · exfalso
          subst h2
          exact hW.2 _ _ rfl
  | none =>
    cases ho : (semPolicy U (attsOf U E) p).2 with
    | error e' => rw [ho] at hE2; exact absurd hE2 id
    | ok d =>
      unfold evalShown
      rw [ho]
      dsimp only
      rw [List.nil_append]
      cases hR : remarks U (attsOf U E) p with
      | nil =>
        rw [hR] at hS' hT
        cases w with
        | cons a w => simp [asSaid] at hS'
        | nil => exact ⟨rfl, rfl⟩
      | cons r rs =>
        rw [hR] at hS' hT
        cases w with
        | nil => simp [asSaid] at hS'
        | cons a w =>
          simp only [List.map_cons, List.cons.injEq] at hT
          cases level with
          | none => exact ⟨by simp [raiseWarningsM, hT], rfl⟩
          | some m =>
            by_cases hm : m ≤ 2
            · have : raiseWarningsM (some m) (a :: w) = some (.warning a) := by
                simp [raiseWarningsM, levelWARN, hm]
              rw [this]
              refine ⟨by simp [hT], ?_⟩
              dsimp only
              rw [if_pos hm]
              show some (a.str _) = _
              rw [hT.1]
            · have : raiseWarningsM (some m) (a :: w) = none := by
                have : ∀ l, raiseWarningsM (some m) l = none := by
                  intro l
                  induction l with
                  | nil => rfl
                  | cons b l ih => simp only [raiseWarningsM, levelWARN, ge_iff_le, hm, if_false, ih]
                exact this _
              rw [this]
              refine ⟨by simp [hT], ?_⟩
              dsimp only
              rw [if_neg hm]

end Verif.Props
