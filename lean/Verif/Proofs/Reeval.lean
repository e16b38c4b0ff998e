import Verif.Proofs.InterpSem
/-!
# Evaluating an AST again
-/

namespace Verif.Proofs
open Verif Verif.Spec

/-- A stored result that will not be computed again is right. -/
def Keeps (E : SymEnv) (o : Except PyExc Den) (r : Res) : Prop :=
  r.truthy = true → ∃ d, o = .ok d ∧ Rel E r d

/-- Agreement up to repeated or omitted warnings. -/
def Agrees' (E : SymEnv) (x : Node × List Warn × Option PyExc) (o : Eff Den) : Prop :=
  (∀ w ∈ x.2.1, w ∈ o.1) ∧
    match x.2.2, o.2 with
    | some e, .error e' => e = e'
    | none, .ok d => Rel E x.1.res d
    | _, _ => False

theorem Agrees.weak {E : SymEnv} {x : Node × List Warn × Option PyExc} {o : Eff Den}
    (h : Agrees E x o) : Agrees' E x o := ⟨fun w hw => by rw [← h.1]; exact hw, h.2⟩

/-- ASTs of an operand after any number of evaluations. -/
def CachedOperand (E : SymEnv) (A : Atts) (v : Operand) (n : Node) : Prop :=
  match v with
  | .att t => ∃ i r, n = .mk (attKind t.type) t i r [] ∧ Keeps E (semAtt A t).2 r
  | .atom t => ∃ i, n = atomNode t i
  | .set l es => ∃ i r k, n = .mk .set l i r (atomNodes es k) ∧ Keeps E (semOperand A v).2 r

/-- ASTs of a policy after any number of evaluations. -/
def Cached (U : Uni) (E : SymEnv) (A : Atts) : Policy → Node → Prop
  | .cmp l o r, n => ∃ i res a b, n = .mk .op o i res [a, b] ∧ CachedOperand E A l a ∧
      CachedOperand E A r b ∧ Keeps E (sem U A (.cmp l o r)).2 res
  | .lit t, n => ∃ i, n = .mk .boolVal t i (.tri (litTri U t)) []
  | .att t, n => CachedOperand E A (.att t) n
  | .not o p, n => ∃ i res a, n = .mk .not o i res [a] ∧ Cached U E A p a ∧
      Keeps E (sem U A (.not o p)).2 res
  | .bin o p q, n => ∃ i res a b, n = .mk .boolOp o i res [a, b] ∧ Cached U E A p a ∧
      Cached U E A q b ∧ Keeps E (sem U A (.bin o p q)).2 res

theorem keeps_none (E : SymEnv) (o : Except PyExc Den) : Keeps E o .none := by
  intro h; simp [Res.truthy] at h

theorem cached_operand_build (E : SymEnv) (A : Atts) (v : Operand) (k : Nat) :
    CachedOperand E A v (v.build k).1 := by
  cases v with
  | att t => exact ⟨_, _, rfl, keeps_none E _⟩
  | atom t => exact ⟨_, rfl⟩
  | set l es => exact ⟨_, _, _, rfl, keeps_none E _⟩

theorem cached_build (U : Uni) (E : SymEnv) (A : Atts) (p : Policy) (k : Nat) :
    Cached U E A p (p.build U k).1 := by
  induction p generalizing k with
  | cmp l o r =>
    exact ⟨_, _, _, _, rfl, cached_operand_build E A l _, cached_operand_build E A r _, keeps_none E _⟩
  | lit t => exact ⟨_, rfl⟩
  | att t => exact ⟨_, _, rfl, keeps_none E _⟩
  | not n p ih => exact ⟨_, _, _, rfl, ih _, keeps_none E _⟩
  | bin o p q ihp ihq => exact ⟨_, _, _, _, rfl, ihp _, ihq _, keeps_none E _⟩

/-- The previous result survives exceptions and nothing else. -/
theorem evalSelf_res (U : Uni) (E : SymEnv) (k : Kind) (hk : k ≠ .set) (t : Token) (r : Res)
    (cs : List Node) :
    (evalSelf U E k t r cs).2 = (evalSelf U E k t .none cs).2 ∧
    ((evalSelf U E k t r cs).1 = (evalSelf U E k t .none cs).1 ∧ (evalSelf U E k t r cs).2.2 = none ∨
      ((evalSelf U E k t r cs).1 = r ∧ ∃ e, (evalSelf U E k t r cs).2.2 = some e)) := by
  unfold evalSelf
  by_cases ha : k.isAtt = true
  · rw [if_pos ha, if_pos ha]
    unfold evalAtt
    cases attToSymbolName k t with
    | error e => exact ⟨rfl, Or.inr ⟨rfl, e, rfl⟩⟩
    | ok name =>
      dsimp only
      cases E.tab.lookup U name with
      | none => exact ⟨rfl, Or.inl ⟨rfl, rfl⟩⟩
      | some ref =>
        dsimp only
        by_cases h1 : (E.heap ref).checkValType = false
        · simp only [if_pos h1]; exact ⟨trivial, Or.inl ⟨trivial, trivial⟩⟩
        · simp only [if_neg h1]
          by_cases h2 : (E.heap ref).type = .bool
          · simp only [if_pos h2]
            generalize (E.heap ref).value = v
            rcases v with v | v | v
            · cases v <;> simp
            · simp
            · simp
          · simp only [if_neg h2]; exact ⟨trivial, Or.inl ⟨trivial, trivial⟩⟩
  · rw [if_neg ha, if_neg ha]
    cases k <;> dsimp only
    case set => exact absurd rfl hk
    case not =>
      unfold evalNot
      split
      · exact ⟨rfl, Or.inl ⟨rfl, rfl⟩⟩
      · exact ⟨rfl, Or.inr ⟨rfl, _, rfl⟩⟩
    case boolOp =>
      unfold evalBoolOp
      split
      · split
        · by_cases h1 : U.upper ‹_› = "AND".toList
          · simp only [if_pos h1]; exact ⟨trivial, Or.inl ⟨trivial, trivial⟩⟩
          · simp only [if_neg h1]
            by_cases h2 : U.upper ‹_› = "OR".toList
            · simp only [if_pos h2]; exact ⟨trivial, Or.inl ⟨trivial, trivial⟩⟩
            · simp only [if_neg h2]; exact ⟨trivial, Or.inr ⟨trivial, _, rfl⟩⟩
        · exact ⟨rfl, Or.inr ⟨rfl, _, rfl⟩⟩
      · exact ⟨rfl, Or.inr ⟨rfl, _, rfl⟩⟩
    case op =>
      unfold evalOp
      split
      · rename_i x y _ _
        by_cases h0 : x = .none ∨ y = .none
        · simp only [if_pos h0]; exact ⟨trivial, Or.inr ⟨trivial, _, rfl⟩⟩
        · simp only [if_neg h0]
          split
          · rename_i s _
            by_cases h1 : U.upper s ∈ ["=", "!=", "<", ">", "<=", ">=", "IN", "SUBSET"].map String.toList
            · simp only [if_pos h1]
              by_cases h2 : x = .tri .undef ∨ y = .tri .undef
              · simp only [if_pos h2]; exact ⟨trivial, Or.inl ⟨trivial, trivial⟩⟩
              · simp only [if_neg h2]
                generalize applyOp U E s x y = z
                rcases z with _ | _ | ⟨v, w⟩ <;> simp
            · simp only [if_neg h1]; exact ⟨trivial, Or.inr ⟨trivial, _, rfl⟩⟩
          · exact ⟨rfl, Or.inr ⟨rfl, _, rfl⟩⟩
      · exact ⟨rfl, Or.inr ⟨rfl, _, rfl⟩⟩
    all_goals exact ⟨rfl, Or.inr ⟨rfl, _, rfl⟩⟩

/-- Evaluating a node whose children are done. -/
def selfNode (U : Uni) (E : SymEnv) (k : Kind) (t : Token) (i : Nat) (r : Res) (cs : List Node)
    (w : List Warn) : Node × List Warn × Option PyExc :=
  match evalSelf U E k t r cs with
  | (r', w', e) => (.mk k t i r' cs, w ++ w', e)

/-- Agreement for a node without result carries over to a node with a result kept from before. -/
theorem self_again {U : Uni} {E : SymEnv} {k : Kind} (hk : k ≠ .set) {t : Token} {i : Nat} {r : Res}
    {cs : List Node} {w : List Warn} {o : Eff Den} (h : Agrees' E (selfNode U E k t i .none cs w) o)
    (hr : Keeps E o.2 r) :
    Agrees' E (selfNode U E k t i r cs w) o ∧ Keeps E o.2 (selfNode U E k t i r cs w).1.res := by
  obtain ⟨h1, h2⟩ := evalSelf_res U E k hk t r cs
  unfold selfNode at *
  generalize evalSelf U E k t r cs = x at *
  generalize evalSelf U E k t .none cs = y at *
  obtain ⟨r1, w1, e1⟩ := x
  obtain ⟨r2, w2, e2⟩ := y
  simp only [Prod.mk.injEq] at h1
  obtain ⟨rfl, rfl⟩ := h1
  obtain ⟨ow, oo⟩ := o
  obtain ⟨g1, g2⟩ := h
  simp only [Node.res] at g1 g2 h2 hr ⊢
  cases e1 with
  | some e =>
    cases oo with
    | ok d => exact absurd g2 id
    | error e' =>
      rcases h2 with ⟨_, h2⟩ | ⟨rfl, _⟩
      · simp at h2
      · exact ⟨⟨g1, g2⟩, hr⟩
  | none =>
    cases oo with
    | error e' => exact absurd g2 id
    | ok d =>
      rcases h2 with ⟨rfl, _⟩ | ⟨_, e, he⟩
      · exact ⟨⟨g1, g2⟩, fun _ => ⟨d, rfl, g2⟩⟩
      · simp at he

theorem truthy_agrees {E : SymEnv} {n : Node} {o : Eff Den} (ht : n.res.truthy = true)
    (hk : Keeps E o.2 n.res) : Agrees' E (n, [], none) o := by
  obtain ⟨d, h1, h2⟩ := hk ht
  refine ⟨by simp, ?_⟩
  simp only [h1]
  exact h2

theorem evalChild_cached_operand {U : Uni} {E : SymEnv} (hE : SymEnv.SetsOk E) (v : Operand) (n : Node)
    (hw : v.WF) (hn : v.NamesOk) (hc : CachedOperand E (attsOf U E) v n) :
    Agrees' E (evalChild U E n) (semOperand (attsOf U E) v) ∧
      CachedOperand E (attsOf U E) v (evalChild U E n).1 := by
  cases v with
  | att t =>
    obtain ⟨s, hs⟩ := hn
    obtain ⟨i, r, rfl, hk⟩ := hc
    by_cases ht : r.truthy = true
    · rw [evalChild, if_pos (by exact ht)]
      exact ⟨truthy_agrees ht hk, i, r, rfl, hk⟩
    · rw [evalChild, if_neg (by exact ht)]
      have h0 := (evalAtt_agrees (U := U) hE i hw hs).weak
      have hn' : ∀ r', evalNode U E (.mk (attKind t.type) t i r' []) =
          selfNode U E (attKind t.type) t i r' [] [] := by
        intro r'; simp [evalNode, evalChildren, selfNode]
      rw [attNode, hn'] at h0
      have hk' : attKind t.type ≠ .set := by
        intro h
        have := attKind_isAtt t.type
        rw [h] at this
        simp [Kind.isAtt] at this
      obtain ⟨h1, h2⟩ := self_again hk' h0 hk
      rw [hn']
      exact ⟨h1, i, _, rfl, h2⟩
  | atom t =>
    obtain ⟨i, rfl⟩ := hc
    refine ⟨(evalChild_atom t i).weak, i, ?_⟩
    rw [evalChild, atomKind_eval]
    split <;> rfl
  | set l es =>
    obtain ⟨i, r, k, rfl, hk⟩ := hc
    by_cases ht : r.truthy = true
    · rw [evalChild, if_pos (by exact ht)]
      exact ⟨truthy_agrees ht hk, i, r, k, rfl, hk⟩
    · rw [evalChild, if_neg (by exact ht), evalNode]
      obtain ⟨i1, i2, i3⟩ := evalChildren_atoms (U := U) (E := E) es k
      generalize evalChildren U E (atomNodes es k) = x at i1 i2 i3
      obtain ⟨cs, w, e⟩ := x
      simp only at i1 i2 i3
      subst i1 i2
      simp only [semOperand] at hk ⊢
      cases hs : semElems es with
      | error e' =>
        rw [hs] at i3
        simp only at i3
        subst i3
        exact ⟨⟨by simp, rfl⟩, i, r, k, rfl, by simpa only [semOperand] using hk⟩
      | ok l' =>
        rw [hs] at i3
        simp only at i3
        subst i3
        have hloop := evalSetLoop_atoms es k [] l' hs
        simp only [evalSelf, Kind.isAtt, Bool.false_eq_true, if_false, evalSet, hloop, List.nil_append]
        refine ⟨⟨by simp, rfl⟩, i, _, k, rfl, ?_⟩
        simp only [semOperand, hs]
        exact fun _ => ⟨_, rfl, rfl⟩

/-- A node with one child, evaluated again. -/
theorem again_one {U : Uni} {E : SymEnv} {k : Kind} (hk : k ≠ .set) {t : Token} {i : Nat} {a : Node} {r : Res}
    {oa : Eff Den} {f : Den → Eff Den} {C : Node → Prop}
    (ha : Agrees' E (evalChild U E a) oa ∧ C (evalChild U E a).1) (hr : Keeps E (oa.bind f).2 r)
    (hf : ∀ (a' : Node) (d : Den) (w : List Warn), Rel E a'.res d →
      Agrees E (match evalSelf U E k t .none [a'] with
        | (r', w', e) => (.mk k t i r' [a'], w ++ w', e)) (w ++ (f d).1, (f d).2)) :
    Agrees' E (evalNode U E (.mk k t i r [a])) (oa.bind f) ∧
      ∃ r' a', (evalNode U E (.mk k t i r [a])).1 = .mk k t i r' [a'] ∧ C a' ∧
        Keeps E (oa.bind f).2 r' := by
  rw [evalNode, evalChildren_one]
  obtain ⟨w, o⟩ := oa
  obtain ⟨ha, hC⟩ := ha
  generalize evalChild U E a = xa at ha hC ⊢
  obtain ⟨a', w', _ | e⟩ := xa
  · obtain ⟨h1, h2⟩ := ha
    cases o with
    | error e => exact absurd h2 id
    | ok d =>
      simp only at h1 h2
      have h3 := (hf a' d w' h2).weak
      have h4 : Agrees' E (selfNode U E k t i .none [a'] w') (Eff.bind (w, .ok d) f) := by
        refine ⟨fun x hx => ?_, h3.2⟩
        have := h3.1 x hx
        simp only [Eff.bind, List.mem_append] at this ⊢
        rcases this with h | h
        · exact Or.inl (h1 x h)
        · exact Or.inr h
      obtain ⟨h5, h6⟩ := self_again hk h4 hr
      exact ⟨h5, _, a', rfl, hC, h6⟩
  · obtain ⟨h1, h2⟩ := ha
    cases o with
    | ok d => exact absurd h2 id
    | error e' => exact ⟨⟨h1, h2⟩, r, a', rfl, hC, hr⟩

/-- A node with two children, evaluated again. -/
theorem again_two {U : Uni} {E : SymEnv} {k : Kind} (hk : k ≠ .set) {t : Token} {i : Nat} {a b : Node} {r : Res}
    {oa ob : Eff Den} {f : Den → Den → Eff Den} {C D : Node → Prop}
    (ha : Agrees' E (evalChild U E a) oa ∧ C (evalChild U E a).1)
    (hb : Agrees' E (evalChild U E b) ob ∧ D (evalChild U E b).1) (hb0 : D b)
    (hr : Keeps E (oa.bind fun d => ob.bind fun d' => f d d').2 r)
    (hf : ∀ (a' b' : Node) (d d' : Den) (w : List Warn), Rel E a'.res d → Rel E b'.res d' →
      Agrees E (match evalSelf U E k t .none [a', b'] with
        | (r', w', e) => (.mk k t i r' [a', b'], w ++ w', e)) (w ++ (f d d').1, (f d d').2)) :
    Agrees' E (evalNode U E (.mk k t i r [a, b])) (oa.bind fun d => ob.bind fun d' => f d d') ∧
      ∃ r' a' b', (evalNode U E (.mk k t i r [a, b])).1 = .mk k t i r' [a', b'] ∧ C a' ∧ D b' ∧
        Keeps E (oa.bind fun d => ob.bind fun d' => f d d').2 r' := by
  rw [evalNode, evalChildren_two]
  obtain ⟨w, o⟩ := oa
  obtain ⟨v, p⟩ := ob
  obtain ⟨ha, hC⟩ := ha
  obtain ⟨hb, hD⟩ := hb
  generalize evalChild U E a = xa at ha hC ⊢
  obtain ⟨a', w', _ | e⟩ := xa
  · obtain ⟨h1, h2⟩ := ha
    cases o with
    | error e => exact absurd h2 id
    | ok d =>
      simp only at h1 h2
      generalize evalChild U E b = xb at hb hD ⊢
      obtain ⟨b', v', _ | e⟩ := xb
      · obtain ⟨h3, h4⟩ := hb
        cases p with
        | error e => exact absurd h4 id
        | ok d' =>
          simp only at h3 h4
          have h5 := (hf a' b' d d' (w' ++ v') h2 h4).weak
          have h6 : Agrees' E (selfNode U E k t i .none [a', b'] (w' ++ v'))
              (Eff.bind (w, .ok d) fun d => Eff.bind (v, .ok d') fun d' => f d d') := by
            refine ⟨fun x hx => ?_, h5.2⟩
            have := h5.1 x hx
            simp only [Eff.bind, List.mem_append] at this ⊢
            rcases this with (h | h) | h
            · exact Or.inl (h1 x h)
            · exact Or.inr (Or.inl (h3 x h))
            · exact Or.inr (Or.inr h)
          obtain ⟨h7, h8⟩ := self_again hk h6 hr
          exact ⟨h7, _, a', b', rfl, hC, hD, h8⟩
      · obtain ⟨h3, h4⟩ := hb
        cases p with
        | ok d => exact absurd h4 id
        | error e' =>
          simp only at h3 h4
          refine ⟨⟨fun x hx => ?_, h4⟩, r, a', b', rfl, hC, hD, hr⟩
          simp only [List.mem_append] at hx
          simp only [Eff.bind, List.mem_append]
          rcases hx with h | h
          · exact Or.inl (h1 x h)
          · exact Or.inr (h3 x h)
  · obtain ⟨h1, h2⟩ := ha
    cases o with
    | ok d => exact absurd h2 id
    | error e' => exact ⟨⟨h1, h2⟩, r, a', b, rfl, hC, hb0, hr⟩

/-- Evaluating the AST of a policy again, as a child and as the root. -/
theorem evalNode_cached {U : Uni} (hU : U.Lawful) {E : SymEnv} (hE : SymEnv.SetsOk E) (p : Policy) (n : Node)
    (hw : p.WF) (ho : p.OpsOk) (hn : p.NamesOk) (hc : Cached U E (attsOf U E) p n) :
    (Agrees' E (evalChild U E n) (sem U (attsOf U E) p) ∧
      Cached U E (attsOf U E) p (evalChild U E n).1) ∧
    (Agrees' E (evalNode U E n) (semPolicy U (attsOf U E) p) ∧
      Cached U E (attsOf U E) p (evalNode U E n).1) := by
  -- a node is either skipped or evaluated
  have key : ∀ {o : Eff Den} {n : Node} {C : Node → Prop}, C n → Keeps E o.2 n.res →
      (Agrees' E (evalNode U E n) o ∧ C (evalNode U E n).1) →
      (Agrees' E (evalChild U E n) o ∧ C (evalChild U E n).1) := by
    intro o n C h1 h2 h3
    by_cases ht : n.res.truthy = true
    · rw [evalChild, if_pos ht]; exact ⟨truthy_agrees ht h2, h1⟩
    · rw [evalChild, if_neg ht]; exact h3
  induction p generalizing n with
  | cmp l o r =>
    have hc0 := hc
    obtain ⟨i, res, a, b, rfl, ha, hb, hk⟩ := hc
    have h := again_two (U := U) (k := .op) (t := o) (i := i) (by simp) (f := semCmp o)
      (evalChild_cached_operand hE l a hw.1 hn.1 ha) (evalChild_cached_operand hE r b hw.2.2 hn.2 hb) hb
      hk (fun a b d d' w h1 h2 => evalOp_agrees hU _ w ho h1 h2)
    have h' : Agrees' E (evalNode U E (.mk .op o i res [a, b])) (sem U (attsOf U E) (.cmp l o r)) ∧
        Cached U E (attsOf U E) (.cmp l o r) (evalNode U E (.mk .op o i res [a, b])).1 := by
      obtain ⟨h1, r', a', b', h2, h3, h4, h5⟩ := h
      exact ⟨h1, i, r', a', b', h2, h3, h4, h5⟩
    exact ⟨key hc0 hk h', h'⟩
  | lit t =>
    obtain ⟨i, rfl⟩ := hc
    refine ⟨?_, ?_⟩
    · simp only [evalChild, sem, Node.res, evalNode_lit]
      cases ht : litTri U t with
      | true => exact ⟨⟨fun x hx => (by cases hx), rfl⟩, i, by rw [ht]; rfl⟩
      | false => exact ⟨⟨fun x hx => (by cases hx), rfl⟩, i, by rw [ht]; rfl⟩
      | undef => exact ⟨⟨fun x hx => (by cases hx), rfl⟩, i, by rw [ht]; rfl⟩
    · simp only [semPolicy, evalNode_lit]
      exact ⟨⟨by simp, rfl⟩, i, rfl⟩
  | att t =>
    have hop := evalChild_cached_operand (U := U) hE (.att t) n hw hn hc
    refine ⟨hop, ?_⟩
    obtain ⟨s, hs⟩ := hn
    obtain ⟨i, r, rfl, hk⟩ := hc
    have h0 := (evalAtt_agrees (U := U) hE i hw hs).weak
    have hn' : ∀ r', evalNode U E (.mk (attKind t.type) t i r' []) =
        selfNode U E (attKind t.type) t i r' [] [] := by
      intro r'; simp [evalNode, evalChildren, selfNode]
    rw [attNode, hn'] at h0
    have hk' : attKind t.type ≠ .set := by
      intro h
      have := attKind_isAtt t.type
      rw [h] at this
      simp [Kind.isAtt] at this
    obtain ⟨h1, h2⟩ := self_again hk' h0 hk
    rw [hn']
    exact ⟨h1, i, _, rfl, h2⟩
  | not m p ih =>
    have hc0 := hc
    obtain ⟨i, res, a, rfl, ha, hk⟩ := hc
    rw [sem_not] at hk
    have h := again_one (U := U) (k := .not) (t := m) (i := i) (by simp)
      (ih a hw.2 ho hn ha).1 hk (fun a d w h => evalNot_agrees (U := U) _ w h)
    have h' : Agrees' E (evalNode U E (.mk .not m i res [a])) (sem U (attsOf U E) (.not m p)) ∧
        Cached U E (attsOf U E) (.not m p) (evalNode U E (.mk .not m i res [a])).1 := by
      obtain ⟨h1, r', a', h2, h3, h4⟩ := h
      rw [← sem_not] at h1 h4
      exact ⟨h1, i, r', a', h2, h3, h4⟩
    rw [← sem_not] at hk
    exact ⟨key hc0 hk h', h'⟩
  | bin o p q ihp ihq =>
    have hc0 := hc
    obtain ⟨i, res, a, b, rfl, ha, hb, hk⟩ := hc
    rw [sem_bin] at hk
    have h := again_two (U := U) (k := .boolOp) (t := o) (i := i) (by simp) (f := binOut o)
      (ihp a hw.2.1 ho.1 hn.1 ha).1 (ihq b hw.2.2 ho.2 hn.2 hb).1 hb
      hk (fun a b d d' w h1 h2 => evalBoolOp_agrees hU _ w hw.1 h1 h2)
    have h' : Agrees' E (evalNode U E (.mk .boolOp o i res [a, b])) (sem U (attsOf U E) (.bin o p q)) ∧
        Cached U E (attsOf U E) (.bin o p q) (evalNode U E (.mk .boolOp o i res [a, b])).1 := by
      obtain ⟨h1, r', a', b', h2, h3, h4, h5⟩ := h
      rw [← sem_bin] at h1 h5
      exact ⟨h1, i, r', a', b', h2, h3, h4, h5⟩
    rw [← sem_bin] at hk
    exact ⟨key hc0 hk h', h'⟩

end Verif.Proofs
