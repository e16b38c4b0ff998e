import Mathlib.Data.List.Forall2
import Verif.Proofs.Reeval
import Verif.Spec.Marks
/-!
# Results stored in the nodes of an evaluated AST
-/

namespace Verif.Proofs
open Verif Verif.Spec

/-- A stored result is that meaning; without one nothing is stored. -/
def Stored (E : SymEnv) (r : Res) : Option Den → Prop
  | none => r = .none
  | some d => Rel E r d

/-- The nodes of an AST hold those meanings. -/
inductive HoldsMarks (E : SymEnv) : Node → Marked → Prop
  | mk {k : Kind} {t : Token} {i : Nat} {r : Res} {cs : List Node} {d : Option Den} {ms : List Marked} (hr : Stored E r d)
      (hcs : List.Forall₂ (HoldsMarks E) cs ms) : HoldsMarks E (.mk k t i r cs) (.mk t d ms)

variable {U : Uni} {E : SymEnv}

theorem holds_atom (t : Token) (k : Nat) : HoldsMarks E (atomNode t k) (markAtom t) := by
  unfold atomNode markAtom
  refine .mk ?_ .nil
  unfold atomRes
  by_cases h : t.type = .null
  · rw [if_pos h, if_pos h]; rfl
  · rw [if_neg h, if_neg h]
    cases t.value <;> rfl

theorem holds_atoms (ts : List Token) (k : Nat) : List.Forall₂ (HoldsMarks E) (atomNodes ts k) (ts.map markAtom) := by
  induction ts generalizing k with
  | nil => exact .nil
  | cons t ts ih => exact .cons (holds_atom t k) (ih _)

theorem holds_blankOperand (v : Operand) (k : Nat) : HoldsMarks E (v.build k).1 (blankOperand v) := by
  cases v with
  | att t => exact .mk rfl .nil
  | atom t => exact holds_atom t k
  | set l es => exact .mk rfl (holds_atoms es k)

theorem holds_blank (p : Policy) (k : Nat) : HoldsMarks E (p.build U k).1 (blankPolicy U p) := by
  induction p generalizing k with
  | cmp l o r => exact .mk rfl (.cons (holds_blankOperand l _) (.cons (holds_blankOperand r _) .nil))
  | lit t => exact .mk rfl .nil
  | att t => exact .mk rfl .nil
  | not n p ih => exact .mk rfl (.cons (ih _) .nil)
  | bin o p q ihp ihq => exact .mk rfl (.cons (ihp _) (.cons (ihq _) .nil))

/-- The result of an evaluated node is the meaning it agrees with. -/
theorem stored_self {k : Kind} (hk : k ≠ .set) {t : Token} {i : Nat} {cs : List Node} {w : List Warn} {o : Eff Den}
    (h : Agrees E (match evalSelf U E k t .none cs with | (r', w', e) => (.mk k t i r' cs, w ++ w', e)) o) :
    Stored E (evalSelf U E k t .none cs).1 (meaning o) := by
  have hr := (evalSelf_res U E k hk t .none cs).2
  generalize evalSelf U E k t .none cs = x at h hr ⊢
  obtain ⟨r, w', e⟩ := x
  obtain ⟨_, h⟩ := h
  unfold meaning
  cases e with
  | none =>
    cases ho : o.2 with
    | error e => rw [ho] at h; exact h.elim
    | ok d => rw [ho] at h; exact h
  | some e =>
    cases ho : o.2 with
    | ok d => rw [ho] at h; exact h.elim
    | error e' =>
      rcases hr with ⟨_, hr⟩ | ⟨hr, _⟩
      · cases hr
      · exact hr

theorem holds_one {k : Kind} (hk : k ≠ .set) {t : Token} {i : Nat} {a : Node} {o : Eff Den} {ma : Marked}
    (hm : HoldsMarks E (evalChild U E a).1 ma) (ho : Agrees E (evalNode U E (.mk k t i .none [a])) o) :
    HoldsMarks E (evalNode U E (.mk k t i .none [a])).1 (.mk t (meaning o) [ma]) := by
  rw [evalNode, evalChildren_one] at ho ⊢
  generalize evalChild U E a = x at hm ho ⊢
  obtain ⟨a', w, _ | e⟩ := x
  · exact .mk (stored_self hk ho) (.cons hm .nil)
  · refine .mk ?_ (.cons hm .nil)
    obtain ⟨_, ho⟩ := ho
    unfold meaning
    cases h : o.2 with
    | ok d => rw [h] at ho; exact ho.elim
    | error e => rfl

theorem holds_two {k : Kind} (hk : k ≠ .set) {t : Token} {i : Nat} {a b : Node} {oa o : Eff Den} {ma mb bb : Marked}
    (ha : Agrees E (evalChild U E a) oa) (hma : HoldsMarks E (evalChild U E a).1 ma) (hmb : HoldsMarks E (evalChild U E b).1 mb)
    (hbb : HoldsMarks E b bb) (ho : Agrees E (evalNode U E (.mk k t i .none [a, b])) o) :
    HoldsMarks E (evalNode U E (.mk k t i .none [a, b])).1
      (.mk t (meaning o) [ma, if (meaning oa).isSome then mb else bb]) := by
  rw [evalNode, evalChildren_two] at ho ⊢
  generalize evalChild U E a = x at ha hma ho ⊢
  obtain ⟨a', w, _ | e⟩ := x
  · have hs : (meaning oa).isSome = true := by
      obtain ⟨_, ha⟩ := ha
      unfold meaning
      cases h : oa.2 with
      | error e => rw [h] at ha; exact ha.elim
      | ok d => rfl
    rw [if_pos hs]
    generalize evalChild U E b = y at hmb ho ⊢
    obtain ⟨b', w', _ | e⟩ := y
    · exact .mk (stored_self hk ho) (.cons hma (.cons hmb .nil))
    · refine .mk ?_ (.cons hma (.cons hmb .nil))
      obtain ⟨_, ho⟩ := ho
      unfold meaning
      cases h : o.2 with
      | ok d => rw [h] at ho; exact ho.elim
      | error e => rfl
  · have hs : ¬ (meaning oa).isSome = true := by
      obtain ⟨_, ha⟩ := ha
      unfold meaning
      cases h : oa.2 with
      | ok d => rw [h] at ha; exact ha.elim
      | error e => simp
    rw [if_neg hs]
    refine .mk ?_ (.cons hma (.cons hbb .nil))
    obtain ⟨_, ho⟩ := ho
    unfold meaning
    cases h : o.2 with
    | ok d => rw [h] at ho; exact ho.elim
    | error e => rfl

theorem holds_att (hE : SymEnv.SetsOk E) {t : Token} (k : Nat) (ht : AttTok t) {s : Str} (hs : t.value = .str s) :
    HoldsMarks E (evalChild U E (attNode t k)).1 (.mk t (meaning (semAtt (attsOf U E) t)) []) := by
  have h := evalChild_att (U := U) hE k ht hs
  unfold attNode at h ⊢
  rw [evalChild_none] at h ⊢
  rw [evalNode] at h ⊢
  unfold evalChildren at h ⊢
  dsimp only at h ⊢
  refine .mk ?_ .nil
  refine stored_self (i := k) (w := []) ?_ h
  cases t.type <;> decide

theorem holds_operand (hE : SymEnv.SetsOk E) (v : Operand) (k : Nat) (hw : v.WF) (hn : v.NamesOk) :
    HoldsMarks E (evalChild U E (v.build k).1).1 (markOperand (attsOf U E) v) := by
  cases v with
  | att t =>
    obtain ⟨s, hs⟩ := hn
    exact holds_att hE k hw hs
  | atom t =>
    have : (evalChild U E (atomNode t k)).1 = atomNode t k := by
      unfold evalChild
      rw [atomKind_eval]
      split <;> rfl
    show HoldsMarks E (evalChild U E (atomNode t k)).1 _
    rw [this]
    exact holds_atom t k
  | set l es =>
    have h := evalChild_set (U := U) (E := E) l es k (k + es.length)
    show HoldsMarks E (evalChild U E (.mk .set l (k + es.length) .none (atomNodes es k))).1 _
    rw [evalChild_none, evalNode] at h ⊢
    obtain ⟨i1, i2, i3⟩ := evalChildren_atoms (U := U) (E := E) es k
    generalize evalChildren U E (atomNodes es k) = x at i1 i2 i3 h ⊢
    obtain ⟨cs, w, e⟩ := x
    dsimp only at i1 i2 i3
    subst i1 i2 i3
    unfold markOperand semOperand meaning
    cases hs : semElems es with
    | error e' =>
      refine .mk ?_ (holds_atoms es k)
      simp only [hs]
      rfl
    | ok l' =>
      refine .mk ?_ (holds_atoms es k)
      have hloop := evalSetLoop_atoms es k [] l' hs
      simp only [evalSelf, Kind.isAtt, Bool.false_eq_true, if_false, evalSet, hloop, List.nil_append, hs]
      rfl

theorem holds_policy (hU : U.Lawful) (hE : SymEnv.SetsOk E) (p : Policy) (k : Nat) (hw : p.WF) (ho : p.OpsOk) (hn : p.NamesOk) :
    HoldsMarks E (evalChild U E (p.build U k).1).1 (marks U (attsOf U E) p) := by
  induction p generalizing k with
  | cmp l o r =>
    have h := evalChild_policy hU hE (.cmp l o r) k hw ho hn
    simp only [Policy.build, evalChild_none] at h ⊢
    exact holds_two (by decide) (evalChild_operand hE l k hw.1 hn.1) (holds_operand hE l k hw.1 hn.1)
      (holds_operand hE r _ hw.2.2 hn.2) (holds_blankOperand r _) h
  | lit t =>
    have : (evalChild U E ((Policy.lit t).build U k).1).1 = ((Policy.lit t).build U k).1 := by
      simp only [Policy.build, evalChild, evalNode_lit]
      split <;> rfl
    rw [this]
    exact holds_blank (.lit t) k
  | att t =>
    obtain ⟨s, hs⟩ := hn
    exact holds_att hE k hw hs
  | not n p ih =>
    have h := evalChild_policy hU hE (.not n p) k hw ho hn
    simp only [Policy.build, evalChild_none] at h ⊢
    exact holds_one (by decide) (ih k hw.2 ho hn) h
  | bin o p q ihp ihq =>
    have h := evalChild_policy hU hE (.bin o p q) k hw ho hn
    simp only [Policy.build, evalChild_none] at h ⊢
    exact holds_two (by decide) (evalChild_policy hU hE p k hw.2.1 ho.1 hn.1) (ihp k hw.2.1 ho.1 hn.1)
      (ihq _ hw.2.2 ho.2 hn.2) (holds_blank q _) h

theorem holds_root (hU : U.Lawful) (hE : SymEnv.SetsOk E) (p : Policy) (k : Nat) (hw : p.WF) (ho : p.OpsOk) (hn : p.NamesOk) :
    HoldsMarks E (evalNode U E (p.build U k).1).1 (marks U (attsOf U E) p) := by
  have h := holds_policy hU hE p k hw ho hn
  cases p with
  | lit t => simp only [Policy.build, evalNode_lit]; exact holds_blank (.lit t) k
  | att t => simp only [Policy.build, attNode, evalChild_none] at h ⊢; exact h
  | cmp l o r => simp only [Policy.build, evalChild_none] at h ⊢; exact h
  | not n p => simp only [Policy.build, evalChild_none] at h ⊢; exact h
  | bin o p q => simp only [Policy.build, evalChild_none] at h ⊢; exact h

end Verif.Proofs
