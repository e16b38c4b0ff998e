import Verif.Props.Evaluation
import Verif.Proofs.Marks
/-!
# C133: results stored in the nodes of an evaluated policy
-/

namespace Verif.Props
open Verif Verif.Spec Verif.Proofs

mutual
/-- What a reader of `token`, `result` and `children` of all nodes sees. -/
def readNode (E : SymEnv) : Node → Marked
  | .mk _ t _ r cs => .mk t (resultDen E r) (readNodes E cs)

def readNodes (E : SymEnv) : List Node → List Marked
  | [] => []
  | n :: ns => readNode E n :: readNodes E ns
end

theorem stored_read {E : SymEnv} {r : Res} {d : Option Den} (h : Stored E r d) : resultDen E r = d := by
  cases d with
  | none => cases h; rfl
  | some d => exact resultDen_rel h

mutual
theorem holds_read {E : SymEnv} : ∀ (n : Node) {m : Marked}, HoldsMarks E n m → readNode E n = m
  | .mk _ _ _ _ cs, _, .mk hr hcs => by rw [readNode, stored_read hr, holds_reads cs hcs]

theorem holds_reads {E : SymEnv} : ∀ (ns : List Node) {ms : List Marked}, List.Forall₂ (HoldsMarks E) ns ms → readNodes E ns = ms
  | [], _, .nil => rfl
  | n :: ns, _, .cons h hs => by rw [readNodes, holds_read n h, holds_reads ns hs]
end

/-- **C133**: for every policy, table and level the parser leaves the nodes blank but for the constants, and after `evaluate`,
whether it returns or raises, each node holds the meaning of its subexpression exactly if that was reached and has one. -/
theorem nodes_read (U : Uni) (hU : U.Lawful) (E : SymEnv) (hE : SymEnv.SetsOk E) (text : Str) (p : Policy) (hp : PolicyOf U text p)
    (k : Nat) (level : Option Int) :
    ∃ n k', parseText U k text = .ok (n, k') ∧ readNode E n = blankPolicy U p ∧
      readNode E (Interp.evaluate U E level ⟨n, []⟩).1.ast = marks U (attsOf U E) p := by
  obtain ⟨hw, ho, hn⟩ := policyOf_ok hp
  refine ⟨_, _, (parseText_iff hU k _ text _).2 ⟨p, hp, rfl⟩, holds_read _ (holds_blank p k), ?_⟩
  rw [evaluate_state]
  exact holds_read _ (holds_root hU hE p k hw ho hn)

/-! ### What follows -/

theorem meaning_some {o : Eff Den} {d : Den} (h : o.2 = .ok d) : meaning o = some d := by
  unfold meaning; rw [h]

theorem markAtom_full {t : Token} {a : Atom} (h : constOf t = some a) : (markAtom t).full = true := by
  unfold constOf at h
  unfold markAtom
  by_cases hn : t.type = .null
  · rw [if_pos hn]; rfl
  · rw [if_neg hn] at h ⊢
    cases hv : t.value with
    | none => rw [hv] at h; cases h
    | str s => rfl
    | int i => rfl
    | flt f => rfl

theorem markAtoms_full {es : List Token} {l : List Atom} (h : semElems es = .ok l) :
    Marked.fulls (es.map markAtom) = true := by
  induction es generalizing l with
  | nil => rfl
  | cons t ts ih =>
    unfold semElems at h
    cases hc : constOf t with
    | none => rw [hc] at h; cases h
    | some a =>
      rw [hc] at h
      cases hs : semElems ts with
      | error e => simp only [hs] at h; cases h
      | ok l' => simp [Marked.fulls, markAtom_full hc, ih hs]

theorem markOperand_full {A : Atts} {v : Operand} {d : Den} (h : (semOperand A v).2 = .ok d) :
    (markOperand A v).full = true := by
  cases v with
  | att t => simp [markOperand, Marked.full, Marked.fulls, meaning_some (show (semAtt A t).2 = .ok d from h)]
  | atom t =>
    simp only [semOperand] at h
    cases hc : constOf t with
    | none => rw [hc] at h; cases h
    | some a => exact markAtom_full hc
  | set l es =>
    unfold markOperand Marked.full
    rw [meaning_some h]
    unfold semOperand at h
    cases hs : semElems es with
    | error e => simp only [hs] at h; cases h
    | ok l' => simp [markAtoms_full hs]

theorem marks_full {U : Uni} {A : Atts} {p : Policy} {d : Den} (h : (sem U A p).2 = .ok d) : (marks U A p).full = true := by
  induction p generalizing d with
  | cmp l o r =>
    have h' := h
    unfold sem at h'
    obtain ⟨a, ha, h'⟩ := bind_ok h'
    obtain ⟨b, hb, _⟩ := bind_ok h'
    simp [marks, Marked.full, Marked.fulls, meaning_some h, meaning_some ha, markOperand_full ha, markOperand_full hb]
  | lit t => rfl
  | att t => simp [marks, Marked.full, Marked.fulls, meaning_some (show (semAtt A t).2 = .ok d from h)]
  | not n p ih =>
    have h' := h
    unfold sem at h'
    obtain ⟨a, ha, _⟩ := bind_ok h'
    simp [marks, Marked.full, Marked.fulls, meaning_some h, ih ha]
  | bin o p q ihp ihq =>
    have h' := h
    unfold sem at h'
    obtain ⟨a, ha, h'⟩ := bind_ok h'
    obtain ⟨b, hb, _⟩ := bind_ok h'
    simp [marks, Marked.full, Marked.fulls, meaning_some h, meaning_some ha, ihp ha, ihq hb]

theorem marks_top {U : Uni} {A : Atts} {p : Policy} (h : ∀ t, p ≠ .lit t) : (marks U A p).top = meaning (sem U A p) := by
  cases p with
  | lit t => exact absurd rfl (h t)
  | att t => rfl
  | cmp l o r => rfl
  | not n p => rfl
  | bin o p q => rfl

/-- **C133**: the nodes all hold results exactly if evaluation finds a meaning, unless the policy is a bare literal. So a warning
raised afterwards leaves a complete tree, and an error always leaves the root blank. -/
theorem nodes_full_iff (U : Uni) (A : Atts) (p : Policy) (hl : ∀ t, p ≠ .lit t) :
    ((marks U A p).full = true ↔ ∃ d, (semPolicy U A p).2 = .ok d) ∧
    ((∃ e, (semPolicy U A p).2 = .error e) ↔ (marks U A p).top = none) := by
  have hs : semPolicy U A p = sem U A p := by
    cases p with
    | lit t => exact absurd rfl (hl t)
    | att t => rfl
    | cmp l o r => rfl
    | not n p => rfl
    | bin o p q => rfl
  rw [hs, marks_top hl]
  have key : (marks U A p).full = true → (marks U A p).top ≠ none := by
    generalize marks U A p = m
    obtain ⟨t, d, cs⟩ := m
    intro h
    cases d with
    | none => simp [Marked.full] at h
    | some d => simp [Marked.top]
  rw [marks_top hl] at key
  cases h : (sem U A p).2 with
  | ok d => exact ⟨⟨fun _ => ⟨d, rfl⟩, fun _ => marks_full h⟩, by simp [meaning, h]⟩
  | error e =>
    refine ⟨⟨fun hf => absurd (by simp [meaning, h]) (key hf), fun ⟨_, hd⟩ => by cases hd⟩, by simp [meaning, h]⟩

/-- **C133**: a bare literal keeps its value, though evaluation rejects it. -/
theorem literal_node (U : Uni) (A : Atts) (t : Token) :
    marks U A (.lit t) = .mk t (some (.truth (litTri U t))) [] ∧ (semPolicy U A (.lit t)).2 = .error (badLiteral t) := ⟨rfl, rfl⟩

/-! ### Concrete cases -/

mutual
/-- The meanings in the order of a walk through the tree, operators first. -/
def listed : Marked → List (Option Den)
  | .mk _ d cs => d :: listeds cs

def listeds : List Marked → List (Option Den)
  | [] => []
  | m :: ms => listed m ++ listeds ms
end

/-- What is stored for a text. -/
def storedFor (E : SymEnv) (text : String) : List (Option Den) :=
  match evaluateText asciiUni E (some 3) 0 text.toList with
  | .error _ => []
  | .ok (s, _) => listed (readNode E s.ast)

/-- `nodes_read`: a policy that evaluates, holding 1 and TRUE. -/
example : storedFor (sampleEnv [("user.a", 0)]) "user.a < 2 AND user.b" =
    [some (.truth .undef), some (.truth .true), some (.single (.atom (.int 1))), some (.const (.int 2)), some (.truth .undef)] := by
  decide +kernel

/-- `nodes_read`: the literal 0 is rejected but its node holds it; what follows is not reached. -/
example : storedFor (sampleEnv [("user.a", 0)]) "user.a < 0 AND user.a" =
    [none, none, some (.single (.atom (.int 1))), some (.const (.int 0)), none] := by
  decide +kernel

example : ∃ p, PolicyOf asciiUni "user.a < 0 AND user.a".toList p := policyOf_parsed (by decide +kernel)

end Verif.Props
