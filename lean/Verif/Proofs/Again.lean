import Verif.Proofs.Reeval
import Verif.Spec.Again
/-!
# Several evaluations by one interpreter
-/

namespace Verif.Proofs
open Verif Verif.Spec

theorem notAgain_eq (n : Token) : notAgain n = notOut n := by
  funext d; cases d <;> rfl

theorem binAgain_eq (o : Token) : binAgain o = binOut o := by
  funext a b; cases a <;> cases b <;> rfl

/-- The result stored in an attribute node after a history. -/
def HeldRes (E : SymEnv) (t : Token) (h : List Atts) (r : Res) : Prop :=
  match held t h with
  | some d => r.truthy = true ∧ Rel E r d
  | none => r.truthy = false

/-- ASTs of an operand after a history. -/
def HoldsOperand (E : SymEnv) (v : Operand) (h : List Atts) (n : Node) : Prop :=
  match v with
  | .att t => ∃ i r, n = .mk (attKind t.type) t i r [] ∧ HeldRes E t h r
  | .atom t => ∃ i, n = atomNode t i
  | .set l es => ∃ i r k, n = .mk .set l i r (atomNodes es k) ∧ Keeps E (semOperand (fun _ _ => none) v).2 r

/-- The result stored in a condition node after a history. -/
def Sticks (f : List Atts → Eff Den) (h : List Atts) (r : Res) : Prop :=
  (r = .none ∨ ∃ v, r = .tri v) ∧ (r = .tri .true ↔ (f h).2 = .ok (.truth .true))

/-- ASTs of a condition below the root after a history. -/
def Stays (U : Uni) (E : SymEnv) : Policy → List Atts → Node → Prop
  | .cmp l o r, h, n => ∃ i res a b, n = .mk .op o i res [a, b] ∧ Sticks (again U (.cmp l o r)) h res ∧
      (res ≠ .tri .true → HoldsOperand E l h a ∧ HoldsOperand E r (visits (operandAgain l) h) b)
  | .lit t, _, n => ∃ i, n = .mk .boolVal t i (.tri (litTri U t)) []
  | .att t, h, n => HoldsOperand E (.att t) h n
  | .not o p, h, n => ∃ i res a, n = .mk .not o i res [a] ∧ Sticks (again U (.not o p)) h res ∧
      (res ≠ .tri .true → Stays U E p h a)
  | .bin o p q, h, n => ∃ i res a b, n = .mk .boolOp o i res [a, b] ∧ Sticks (again U (.bin o p q)) h res ∧
      (res ≠ .tri .true → Stays U E p h a ∧ Stays U E q (visits (again U p) h) b)

/-- ASTs of a whole policy after a history. -/
def HoldsRoot (U : Uni) (E : SymEnv) : Policy → List Atts → Node → Prop
  | .cmp l o r, h, n => ∃ i res a b, n = .mk .op o i res [a, b] ∧ HoldsOperand E l h a ∧
      HoldsOperand E r (visits (operandAgain l) h) b
  | .lit t, _, n => ∃ i, n = .mk .boolVal t i (.tri (litTri U t)) []
  | .att t, _, n => ∃ i r, n = .mk (attKind t.type) t i r []
  | .not o p, h, n => ∃ i res a, n = .mk .not o i res [a] ∧ Stays U E p h a
  | .bin o p q, h, n => ∃ i res a b, n = .mk .boolOp o i res [a, b] ∧ Stays U E p h a ∧
      Stays U E q (visits (again U p) h) b

/-! ### Before the first evaluation -/

theorem holdsOperand_build (E : SymEnv) (v : Operand) (k : Nat) : HoldsOperand E v [] (v.build k).1 := by
  cases v with
  | att t => exact ⟨_, _, rfl, rfl⟩
  | atom t => exact ⟨_, rfl⟩
  | set l es => exact ⟨_, _, _, rfl, keeps_none E _⟩

theorem sticks_none {body : List Atts → Eff Den} : Sticks (stick body) [] .none :=
  ⟨Or.inl rfl, by simp [stick, Eff.fail]⟩

theorem stays_build (U : Uni) (E : SymEnv) (p : Policy) (k : Nat) : Stays U E p [] (p.build U k).1 := by
  induction p generalizing k with
  | cmp l o r =>
    exact ⟨_, _, _, _, rfl, sticks_none, fun _ => ⟨holdsOperand_build E l _, holdsOperand_build E r _⟩⟩
  | lit t => exact ⟨_, rfl⟩
  | att t => exact ⟨_, _, rfl, rfl⟩
  | not n p ih => exact ⟨_, _, _, rfl, sticks_none, fun _ => ih _⟩
  | bin o p q ihp ihq => exact ⟨_, _, _, _, rfl, sticks_none, fun _ => ⟨ihp _, ihq _⟩⟩

theorem holdsRoot_build (U : Uni) (E : SymEnv) (p : Policy) (k : Nat) : HoldsRoot U E p [] (p.build U k).1 := by
  cases p with
  | cmp l o r => exact ⟨_, _, _, _, rfl, holdsOperand_build E l _, holdsOperand_build E r _⟩
  | lit t => exact ⟨_, rfl⟩
  | att t => exact ⟨_, _, rfl⟩
  | not n p => exact ⟨_, _, _, rfl, stays_build U E p _⟩
  | bin o p q => exact ⟨_, _, _, _, rfl, stays_build U E p _, stays_build U E q _⟩

/-! ### Operands -/

/-- Exact agreement for a node with a result kept from before; exceptions keep that result. -/
theorem self_exact {U : Uni} {E : SymEnv} {k : Kind} (hk : k ≠ .set) {t : Token} {i : Nat} {r : Res}
    {cs : List Node} {w : List Warn} {o : Eff Den} (h : Agrees E (selfNode U E k t i .none cs w) o) :
    Agrees E (selfNode U E k t i r cs w) o ∧ (∀ e, o.2 = .error e → (selfNode U E k t i r cs w).1.res = r) := by
  obtain ⟨h1, h2⟩ := evalSelf_res U E k hk t r cs
  unfold selfNode at *
  generalize evalSelf U E k t r cs = x at *
  generalize evalSelf U E k t .none cs = y at *
  obtain ⟨r1, w1, e1⟩ := x
  obtain ⟨r2, w2, e2⟩ := y
  simp only [Prod.mk.injEq] at h1
  obtain ⟨rfl, rfl⟩ := h1
  obtain ⟨ow, oo⟩ := o
  obtain ⟨g1, g2⟩ := h
  simp only [Node.res] at g1 g2 h2 ⊢
  cases e1 with
  | some e =>
    cases oo with
    | ok d => exact absurd g2 id
    | error e' =>
      rcases h2 with ⟨_, h2⟩ | ⟨rfl, _⟩
      · simp at h2
      · exact ⟨⟨g1, g2⟩, fun _ _ => rfl⟩
  | none =>
    cases oo with
    | error e' => exact absurd g2 id
    | ok d =>
      rcases h2 with ⟨rfl, _⟩ | ⟨_, e, he⟩
      · exact ⟨⟨g1, g2⟩, fun e he => by simp at he⟩
      · simp at he

theorem attKind_ne_set (t : Token) : attKind t.type ≠ .set := by
  intro h
  have := attKind_isAtt t.type
  rw [h] at this
  simp [Kind.isAtt] at this

theorem evalNode_leaf (U : Uni) (E : SymEnv) (t : Token) (i : Nat) (r : Res) :
    evalNode U E (.mk (attKind t.type) t i r []) = selfNode U E (attKind t.type) t i r [] [] := by
  simp [evalNode, evalChildren, selfNode]

theorem semAtt_ok (A : Atts) (t : Token) : ∃ d, (semAtt A t).2 = .ok d := by
  unfold semAtt
  split
  · exact ⟨_, rfl⟩
  · exact ⟨_, rfl⟩
  · split <;> exact ⟨_, rfl⟩

/-- Truthy results are the lasting ones. -/
theorem att_lasting {U : Uni} {E : SymEnv} {t : Token} {d : Den} {r : Res} (hr : Rel E r d)
    (h : (semAtt (attsOf U E) t).2 = .ok d) : r.truthy = true ↔ Lasting d := by
  have hv : ∀ v a l, valueDen v ≠ .const a ∧ valueDen v ≠ .lit l := by
    intro v a l
    rcases v with x | x | x
    · cases x <;> simp [valueDen]
    · simp [valueDen]
    · simp only [valueDen]; split <;> simp
  have hne : ∀ a l, d ≠ .const a ∧ d ≠ .lit l := by
    intro a l
    unfold semAtt at h
    split at h
    · simp only [Except.ok.injEq] at h; subst h; simp
    · simp only [Except.ok.injEq] at h; subst h; simp
    · split at h
      · simp only [Eff.pure, Except.ok.injEq] at h; subst h; exact hv _ a l
      · simp only [Except.ok.injEq] at h; subst h; simp
  cases r with
  | none => exact absurd hr id
  | tri v => simp only [Rel] at hr; subst hr; cases v <;> simp only [Res.truthy, Lasting] <;> decide
  | atom a => exact absurd hr (hne a []).1
  | list l => exact absurd hr (hne .null l).2
  | sym r =>
    obtain ⟨hg, rfl⟩ := hr
    simp only [Res.truthy, true_iff]
    cases hval : (E.heap r).value with
    | sc x =>
      rw [hval] at hg
      cases x <;> first | trivial | exact absurd rfl (hg _) | skip
    | set l => trivial
    | list l => simp only [valueDen]; split <;> trivial

theorem att_again {U : Uni} {E : SymEnv} (hE : SymEnv.SetsOk E) (t : Token) (h : List Atts) (n : Node)
    (hw : (Operand.att t).WF) (hn : (Operand.att t).NamesOk) (hc : HoldsOperand E (.att t) h n) :
    Agrees E (evalChild U E n) (attAgain t (attsOf U E :: h)) ∧
      HoldsOperand E (.att t) (attsOf U E :: h) (evalChild U E n).1 := by
  obtain ⟨s, hs⟩ := hn
  obtain ⟨i, r, rfl, hk⟩ := hc
  unfold HeldRes at hk
  cases hh : held t h with
  | some d =>
    rw [hh] at hk
    simp only at hk
    rw [evalChild, if_pos (by exact hk.1)]
    simp only [attAgain, hh]
    refine ⟨⟨rfl, hk.2⟩, i, r, rfl, ?_⟩
    simp only [HeldRes, held, hh]
    exact hk
  | none =>
    rw [hh] at hk
    simp only at hk
    rw [evalChild, if_neg (by simp only [Node.res, hk]; simp)]
    have h0 := evalAtt_agrees (U := U) hE i hw hs
    rw [attNode, evalNode_leaf] at h0
    obtain ⟨h1, -⟩ := self_exact (r := r) (attKind_ne_set t) h0
    rw [evalNode_leaf]
    simp only [attAgain, hh]
    refine ⟨h1, i, _, rfl, ?_⟩
    obtain ⟨d, hd⟩ := semAtt_ok (attsOf U E) t
    have hrel : Rel E (selfNode U E (attKind t.type) t i r [] []).1.res d := by
      have := h1.2
      rw [hd] at this
      revert this
      generalize selfNode U E (attKind t.type) t i r [] [] = x
      obtain ⟨x1, x2, _ | e⟩ := x
      · exact id
      · exact fun hx => absurd hx id
    have hl := att_lasting hrel hd
    simp only [HeldRes, held, hh, hd]
    by_cases hL : Lasting d
    · simp only [if_pos hL]; exact ⟨hl.2 hL, hrel⟩
    · simp only [if_neg hL]
      rw [← Bool.not_eq_true]
      exact fun hx => hL (hl.1 hx)

theorem operand_again {U : Uni} {E : SymEnv} (hE : SymEnv.SetsOk E) (v : Operand) (h : List Atts) (n : Node)
    (hw : v.WF) (hn : v.NamesOk) (hc : HoldsOperand E v h n) :
    Agrees E (evalChild U E n) (operandAgain v (attsOf U E :: h)) ∧
      HoldsOperand E v (attsOf U E :: h) (evalChild U E n).1 := by
  cases v with
  | att t => exact att_again hE t h n hw hn hc
  | atom t =>
    obtain ⟨i, rfl⟩ := hc
    refine ⟨evalChild_atom t i, i, ?_⟩
    rw [evalChild, atomKind_eval]
    split <;> rfl
  | set l es =>
    have hcc : CachedOperand E (attsOf U E) (.set l es) n := hc
    obtain ⟨h1, h2⟩ := evalChild_cached_operand (U := U) hE (.set l es) n hw hn hcc
    refine ⟨⟨?_, h1.2⟩, h2⟩
    have := h1.1
    simp only [operandAgain, semOperand] at this ⊢
    exact List.eq_nil_iff_forall_not_mem.2 fun x hx => by simpa using this x hx

/-! ### Conditions -/

/-- What is left of a node with one child. -/
theorem one_exact {U : Uni} {E : SymEnv} {k : Kind} (hk : k ≠ .set) {t : Token} {i : Nat} {a : Node} {r : Res}
    {oa : Eff Den} {f : Den → Eff Den} {C : Node → Prop}
    (ha : Agrees E (evalChild U E a) oa ∧ C (evalChild U E a).1)
    (hf : ∀ (a' : Node) (d : Den) (w : List Warn), Rel E a'.res d →
      Agrees E (match evalSelf U E k t .none [a'] with
        | (r', w', e) => (.mk k t i r' [a'], w ++ w', e)) (w ++ (f d).1, (f d).2)) :
    Agrees E (evalNode U E (.mk k t i r [a])) (oa.bind f) ∧
      ∃ r' a', (evalNode U E (.mk k t i r [a])).1 = .mk k t i r' [a'] ∧ C a' ∧
        (∀ e, (oa.bind f).2 = .error e → r' = r) := by
  rw [evalNode, evalChildren_one]
  obtain ⟨w, o⟩ := oa
  obtain ⟨ha, hC⟩ := ha
  generalize evalChild U E a = xa at ha hC ⊢
  obtain ⟨a', w', _ | e⟩ := xa
  · obtain ⟨h1, h2⟩ := ha
    cases o with
    | error e => exact absurd h2 id
    | ok d =>
      simp only at h1 h2
      subst h1
      have h4 : Agrees E (selfNode U E k t i .none [a'] w') (Eff.bind (w', .ok d) f) := hf a' d w' h2
      obtain ⟨h5, h6⟩ := self_exact (r := r) hk h4
      exact ⟨h5, _, a', rfl, hC, h6⟩
  · obtain ⟨h1, h2⟩ := ha
    cases o with
    | ok d => exact absurd h2 id
    | error e' => exact ⟨⟨h1, h2⟩, r, a', rfl, hC, fun _ _ => rfl⟩

/-- What is left of a node with two children; the second is visited only if the first does not raise. -/
theorem two_exact {U : Uni} {E : SymEnv} {k : Kind} (hk : k ≠ .set) {t : Token} {i : Nat} {a b : Node} {r : Res}
    {F G : List Atts → Eff Den} {f : Den → Den → Eff Den} {C D : List Atts → Node → Prop} {A : Atts} {h : List Atts}
    (ha : Agrees E (evalChild U E a) (F (A :: h)) ∧ C (A :: h) (evalChild U E a).1)
    (hb : Agrees E (evalChild U E b) (G (A :: visits F h)) ∧ D (A :: visits F h) (evalChild U E b).1)
    (hb0 : D (visits F h) b)
    (hf : ∀ (a' b' : Node) (d d' : Den) (w : List Warn), Rel E a'.res d → Rel E b'.res d' →
      Agrees E (match evalSelf U E k t .none [a', b'] with
        | (r', w', e) => (.mk k t i r' [a', b'], w ++ w', e)) (w ++ (f d d').1, (f d d').2)) :
    Agrees E (evalNode U E (.mk k t i r [a, b])) (both F G f (A :: h)) ∧
      ∃ r' a' b', (evalNode U E (.mk k t i r [a, b])).1 = .mk k t i r' [a', b'] ∧ C (A :: h) a' ∧
        D (visits F (A :: h)) b' ∧ (∀ e, (both F G f (A :: h)).2 = .error e → r' = r) := by
  rw [evalNode, evalChildren_two]
  unfold both
  rw [visits]
  obtain ⟨ha, hC⟩ := ha
  obtain ⟨hb, hD⟩ := hb
  generalize F (A :: h) = oa at ha ⊢
  obtain ⟨w, o⟩ := oa
  generalize evalChild U E a = xa at ha hC ⊢
  obtain ⟨a', w', _ | e⟩ := xa
  · obtain ⟨h1, h2⟩ := ha
    cases o with
    | error e => exact absurd h2 id
    | ok d =>
      simp only at h1 h2 ⊢
      subst h1
      generalize G (A :: visits F h) = ob at hb ⊢
      obtain ⟨v, p⟩ := ob
      generalize evalChild U E b = xb at hb hD ⊢
      obtain ⟨b', v', _ | e⟩ := xb
      · obtain ⟨h3, h4⟩ := hb
        cases p with
        | error e => exact absurd h4 id
        | ok d' =>
          simp only at h3 h4
          subst h3
          have h6 : Agrees E (selfNode U E k t i .none [a', b'] (w' ++ v'))
              (Eff.bind (w', .ok d) fun d => Eff.bind (v', .ok d') fun d' => f d d') := by
            have := hf a' b' d d' (w' ++ v') h2 h4
            simp only [Eff.bind, List.append_assoc] at this ⊢
            simpa only [selfNode, List.append_assoc] using this
          obtain ⟨h7, h8⟩ := self_exact (r := r) hk h6
          exact ⟨h7, _, a', b', rfl, hC, hD, h8⟩
      · obtain ⟨h3, h4⟩ := hb
        cases p with
        | ok d => exact absurd h4 id
        | error e' =>
          simp only at h3 h4
          subst h3 h4
          exact ⟨⟨rfl, rfl⟩, r, a', b', rfl, hC, hD, fun _ _ => rfl⟩
  · obtain ⟨h1, h2⟩ := ha
    cases o with
    | ok d => exact absurd h2 id
    | error e' => exact ⟨⟨h1, h2⟩, r, a', b, rfl, hC, hb0, fun _ _ => rfl⟩

/-- From a node that is always computed to one that sticks. -/
theorem stick_step {U : Uni} {E : SymEnv} {body : List Atts → Eff Den} {A : Atts} {h : List Atts} {n : Node}
    (ht : ∀ d, (body (A :: h)).2 = .ok d → ∃ v, d = .truth v) (hs : Sticks (stick body) h n.res) :
    (n.res = .tri .true → Agrees E (evalChild U E n) (stick body (A :: h)) ∧ (evalChild U E n).1 = n ∧
      Sticks (stick body) (A :: h) n.res) ∧
    (n.res ≠ .tri .true → evalChild U E n = evalNode U E n ∧ (Agrees E (evalNode U E n) (body (A :: h)) →
      ∀ r', (evalNode U E n).1.res = r' → (∀ e, (body (A :: h)).2 = .error e → r' = n.res) →
      Agrees E (evalNode U E n) (stick body (A :: h)) ∧ Sticks (stick body) (A :: h) r')) := by
  obtain ⟨h1, h2⟩ := hs
  constructor
  · intro hr
    have hst := h2.1 hr
    have e1 : evalChild U E n = (n, [], none) := by
      rw [evalChild, if_pos (by rw [hr]; rfl)]
    have e2 : stick body (A :: h) = Eff.pure (.truth .true) := by rw [stick, if_pos hst]
    rw [e1, e2]
    refine ⟨⟨rfl, ?_⟩, rfl, h1, ?_⟩
    · show Rel E n.res (.truth .true)
      rw [hr]; rfl
    · rw [e2, hr]; simp [Eff.pure]
  · intro hr
    have hst : ¬ (stick body h).2 = .ok (.truth .true) := fun hx => hr (h2.2 hx)
    have e2 : stick body (A :: h) = body (A :: h) := by rw [stick, if_neg hst]
    refine ⟨?_, ?_⟩
    · rw [evalChild, if_neg]
      rcases h1 with h1 | ⟨v, h1⟩
      · rw [h1]; simp [Res.truthy]
      · rw [h1] at hr ⊢
        cases v <;> first | exact absurd rfl hr | (simp only [Res.truthy]; decide)
    · intro ha r' hr' he
      unfold Sticks
      rw [e2]
      refine ⟨ha, ?_⟩
      cases hb : (body (A :: h)).2 with
      | error e =>
        have := he e hb
        subst this
        exact ⟨h1, ⟨fun hx => absurd hx hr, fun hx => by simp at hx⟩⟩
      | ok d =>
        obtain ⟨v, rfl⟩ := ht d hb
        have h3 := ha.2
        rw [hb] at h3
        generalize evalNode U E n = x at h3 hr'
        obtain ⟨x1, x2, _ | e⟩ := x
        · have h4 : x1.res = .tri v := (rel_tri h3 v).2 rfl
          rw [← hr']
          simp only at h4 ⊢
          rw [h4]
          exact ⟨Or.inr ⟨v, rfl⟩, by simp⟩
        · exact absurd h3 id

theorem notOut_truth {n : Token} {x : Eff Den} {d : Den} (h : (x.bind (notOut n)).2 = .ok d) : ∃ v, d = .truth v := by
  obtain ⟨w, o⟩ := x
  cases o with
  | error e => simp [Eff.bind] at h
  | ok a => cases a <;> simp [Eff.bind, notOut, Eff.pure, Eff.fail] at h; exact ⟨_, h.symm⟩

theorem both_truth {F G : List Atts → Eff Den} {c : Den → Den → Eff Den} {h : List Atts} {d : Den}
    (hc : ∀ a b d, (c a b).2 = .ok d → ∃ v, d = .truth v) (hd : (both F G c h).2 = .ok d) : ∃ v, d = .truth v := by
  unfold both at hd
  generalize F h = x at hd
  generalize G _ = y at hd
  obtain ⟨w, o⟩ := x
  obtain ⟨w', o'⟩ := y
  cases o with
  | error e => simp [Eff.bind] at hd
  | ok a =>
    cases o' with
    | error e => simp [Eff.bind] at hd
    | ok b => exact hc a b d (by simpa [Eff.bind] using hd)

theorem binOut_truth {o : Token} (a b d : Den) (h : (binOut o a b).2 = .ok d) : ∃ v, d = .truth v := by
  cases a <;> cases b <;> simp [binOut, Eff.pure, Eff.fail] at h
  exact ⟨_, h.symm⟩

theorem cmpOut_truth {o : Token} (a b d : Den) (h : (semCmp o a b).2 = .ok d) : ∃ v, d = .truth v := by
  unfold semCmp at h
  split at h
  · simp only [Eff.pure, Except.ok.injEq] at h; exact ⟨_, h.symm⟩
  · split at h
    · rename_i f _
      generalize f a b = x at h
      rcases x with _ | _ | _ | _ <;> simp [answerOut] at h <;> exact ⟨_, h.symm⟩
    · simp [Eff.fail] at h

/-- One more evaluation, below the root. -/
theorem again_step {U : Uni} (hU : U.Lawful) {E : SymEnv} (hE : SymEnv.SetsOk E) (p : Policy) (h : List Atts) (n : Node)
    (hw : p.WF) (ho : p.OpsOk) (hn : p.NamesOk) (hc : Stays U E p h n) :
    Agrees E (evalChild U E n) (again U p (attsOf U E :: h)) ∧ Stays U E p (attsOf U E :: h) (evalChild U E n).1 := by
  induction p generalizing n h with
  | cmp l o r =>
    obtain ⟨i, res, a, b, rfl, hs, hk⟩ := hc
    obtain ⟨s1, s2⟩ := stick_step (U := U) (E := E) (A := attsOf U E) (n := .mk .op o i res [a, b])
      (fun d hd => both_truth cmpOut_truth hd) hs
    by_cases hr : res = .tri .true
    · obtain ⟨g1, g2, g3⟩ := s1 hr
      refine ⟨g1, ?_⟩
      rw [g2]
      exact ⟨i, res, a, b, rfl, g3, fun hx => absurd hr hx⟩
    · obtain ⟨g1, g2⟩ := s2 hr
      obtain ⟨ka, kb⟩ := hk hr
      obtain ⟨h1, r', a', b', h2, h3, h4, h5⟩ := two_exact (U := U) (k := .op) (t := o) (i := i) (r := res) (by simp)
        (C := HoldsOperand E l) (D := HoldsOperand E r) (F := operandAgain l) (G := operandAgain r) (f := semCmp o)
        (operand_again hE l h a hw.1 hn.1 ka) (operand_again hE r _ b hw.2.2 hn.2 kb) kb
        (fun a b d d' w h1 h2 => evalOp_agrees hU _ w ho h1 h2)
      obtain ⟨g3, g4⟩ := g2 h1 r' (by rw [h2]; rfl) h5
      rw [g1]
      exact ⟨g3, i, r', a', b', h2, g4, fun _ => ⟨h3, h4⟩⟩
  | lit t =>
    obtain ⟨i, rfl⟩ := hc
    simp only [again, evalChild, sem, Node.res, evalNode_lit]
    cases ht : litTri U t with
    | true => exact ⟨⟨rfl, rfl⟩, i, by rw [ht]; rfl⟩
    | false => exact ⟨⟨rfl, rfl⟩, i, by rw [ht]; rfl⟩
    | undef => exact ⟨⟨rfl, rfl⟩, i, by rw [ht]; rfl⟩
  | att t => exact att_again hE t h n hw hn hc
  | not m p ih =>
    obtain ⟨i, res, a, rfl, hs, hk⟩ := hc
    simp only [again, notAgain_eq] at hs
    obtain ⟨s1, s2⟩ := stick_step (U := U) (E := E) (A := attsOf U E) (n := .mk .not m i res [a])
      (fun d hd => notOut_truth hd) hs
    simp only [Stays, again, notAgain_eq]
    by_cases hr : res = .tri .true
    · obtain ⟨g1, g2, g3⟩ := s1 hr
      refine ⟨g1, ?_⟩
      rw [g2]
      exact ⟨i, res, a, rfl, g3, fun hx => absurd hr hx⟩
    · obtain ⟨g1, g2⟩ := s2 hr
      obtain ⟨h1, r', a', h2, h3, h5⟩ := one_exact (U := U) (k := .not) (t := m) (i := i) (r := res) (by simp)
        (C := Stays U E p (attsOf U E :: h)) (ih h a hw.2 ho hn (hk hr)) (fun a d w h => evalNot_agrees (U := U) _ w h)
      obtain ⟨g3, g4⟩ := g2 h1 r' (by rw [h2]; rfl) h5
      rw [g1]
      exact ⟨g3, i, r', a', h2, g4, fun _ => h3⟩
  | bin o p q ihp ihq =>
    obtain ⟨i, res, a, b, rfl, hs, hk⟩ := hc
    simp only [again, binAgain_eq] at hs
    obtain ⟨s1, s2⟩ := stick_step (U := U) (E := E) (A := attsOf U E) (n := .mk .boolOp o i res [a, b])
      (fun d hd => both_truth binOut_truth hd) hs
    simp only [Stays, again, binAgain_eq]
    by_cases hr : res = .tri .true
    · obtain ⟨g1, g2, g3⟩ := s1 hr
      refine ⟨g1, ?_⟩
      rw [g2]
      exact ⟨i, res, a, b, rfl, g3, fun hx => absurd hr hx⟩
    · obtain ⟨g1, g2⟩ := s2 hr
      obtain ⟨ka, kb⟩ := hk hr
      obtain ⟨h1, r', a', b', h2, h3, h4, h5⟩ := two_exact (U := U) (k := .boolOp) (t := o) (i := i) (r := res) (by simp)
        (C := Stays U E p) (D := Stays U E q) (F := again U p) (G := again U q) (f := binOut o)
        (ihp h a hw.2.1 ho.1 hn.1 ka) (ihq _ b hw.2.2 ho.2 hn.2 kb) kb
        (fun a b d d' w h1 h2 => evalBoolOp_agrees hU _ w hw.1 h1 h2)
      obtain ⟨g3, g4⟩ := g2 h1 r' (by rw [h2]; rfl) h5
      rw [g1]
      exact ⟨g3, i, r', a', b', h2, g4, fun _ => ⟨h3, h4⟩⟩

/-- One more evaluation of a whole policy. -/
theorem root_step {U : Uni} (hU : U.Lawful) {E : SymEnv} (hE : SymEnv.SetsOk E) (p : Policy) (h : List Atts) (n : Node)
    (hw : p.WF) (ho : p.OpsOk) (hn : p.NamesOk) (hc : HoldsRoot U E p h n) :
    Agrees E (evalNode U E n) (policyAgain U p (attsOf U E :: h)) ∧
      HoldsRoot U E p (attsOf U E :: h) (evalNode U E n).1 := by
  cases p with
  | cmp l o r =>
    obtain ⟨i, res, a, b, rfl, ka, kb⟩ := hc
    obtain ⟨h1, r', a', b', h2, h3, h4, -⟩ := two_exact (U := U) (k := .op) (t := o) (i := i) (r := res) (by simp)
      (C := HoldsOperand E l) (D := HoldsOperand E r) (F := operandAgain l) (G := operandAgain r) (f := semCmp o)
      (operand_again hE l h a hw.1 hn.1 ka) (operand_again hE r _ b hw.2.2 hn.2 kb) kb
      (fun a b d d' w h1 h2 => evalOp_agrees hU _ w ho h1 h2)
    exact ⟨h1, i, r', a', b', h2, h3, h4⟩
  | lit t =>
    obtain ⟨i, rfl⟩ := hc
    simp only [policyAgain, semPolicy, evalNode_lit]
    exact ⟨⟨rfl, rfl⟩, i, rfl⟩
  | att t =>
    obtain ⟨s, hs⟩ := hn
    obtain ⟨i, r, rfl⟩ := hc
    have h0 := evalAtt_agrees (U := U) hE i hw hs
    rw [attNode, evalNode_leaf] at h0
    obtain ⟨h1, -⟩ := self_exact (r := r) (attKind_ne_set t) h0
    rw [evalNode_leaf]
    exact ⟨h1, i, _, rfl⟩
  | not m p =>
    obtain ⟨i, res, a, rfl, ka⟩ := hc
    simp only [policyAgain, notAgain_eq]
    obtain ⟨h1, r', a', h2, h3, -⟩ := one_exact (U := U) (k := .not) (t := m) (i := i) (r := res) (by simp)
      (C := Stays U E p (attsOf U E :: h)) (again_step hU hE p h a hw.2 ho hn ka)
      (fun a d w h => evalNot_agrees (U := U) _ w h)
    exact ⟨h1, i, r', a', h2, h3⟩
  | bin o p q =>
    obtain ⟨i, res, a, b, rfl, ka, kb⟩ := hc
    simp only [policyAgain, binAgain_eq]
    obtain ⟨h1, r', a', b', h2, h3, h4, -⟩ := two_exact (U := U) (k := .boolOp) (t := o) (i := i) (r := res) (by simp)
      (C := Stays U E p) (D := Stays U E q) (F := again U p) (G := again U q) (f := binOut o)
      (again_step hU hE p h a hw.2.1 ho.1 hn.1 ka) (again_step hU hE q _ b hw.2.2 ho.2 hn.2 kb) kb
      (fun a b d d' w h1 h2 => evalBoolOp_agrees hU _ w hw.1 h1 h2)
    exact ⟨h1, i, r', a', b', h2, h3, h4⟩

end Verif.Proofs
