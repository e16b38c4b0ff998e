import Verif.Proofs.ParserComplete
/-!
# Facts about the grammar: injectivity of `build`, positions, printing
-/

namespace Verif.Proofs
open Verif Verif.Spec

/-! ### `build` is injective -/

theorem attKind_isAtt (ty : TokenType) : (attKind ty).isAtt = true := by cases ty <;> rfl
theorem atomKind_isVal (ty : TokenType) : (atomKind ty).isVal = true := by cases ty <;> rfl

theorem attKind_ne {ty : TokenType} {k : Kind} (hk : k.isAtt = false) : attKind ty ≠ k := by
  intro e
  have := attKind_isAtt ty
  rw [e, hk] at this
  simp at this

theorem atomKind_ne {ty : TokenType} {k : Kind} (hk : k.isVal = false) : atomKind ty ≠ k := by
  intro e
  have := atomKind_isVal ty
  rw [e, hk] at this
  simp at this

theorem attKind_ne_atomKind (a b : TokenType) : attKind a ≠ atomKind b := by
  intro h
  have h1 := attKind_isAtt a
  have h2 := atomKind_isVal b
  rw [h] at h1
  cases hb : atomKind b <;> rw [hb] at h1 h2 <;> simp [Kind.isAtt, Kind.isVal] at h1 h2

theorem atomNodes_inj (es es' : List Token) (k k' : Nat)
    (h : atomNodes es k = atomNodes es' k') : es = es' := by
  induction es generalizing es' k k' with
  | nil => cases es' with
    | nil => rfl
    | cons => simp [atomNodes] at h
  | cons e es ih => cases es' with
    | nil => simp [atomNodes] at h
    | cons e' es' =>
      simp only [atomNodes, atomNode, List.cons.injEq, Node.mk.injEq] at h
      obtain ⟨⟨_, rfl, _⟩, h2⟩ := h
      rw [ih _ _ _ h2]

theorem operand_build_inj (l l' : Operand) (k k' : Nat) (h : (l.build k).1 = (l'.build k').1) :
    l = l' := by
  cases l <;> cases l' <;>
    simp only [Operand.build, attNode, atomNode, Node.mk.injEq] at h
  · rw [h.2.1]
  · exact absurd h.1 (attKind_ne_atomKind _ _)
  · exact absurd h.1 (attKind_ne rfl)
  · exact absurd h.1.symm (attKind_ne_atomKind _ _)
  · rw [h.2.1]
  · exact absurd h.1 (atomKind_ne rfl)
  · exact absurd h.1.symm (attKind_ne rfl)
  · exact absurd h.1.symm (atomKind_ne rfl)
  · rw [h.2.1, atomNodes_inj _ _ _ _ h.2.2.2.2]

theorem policy_build_inj (U : Uni) (p p' : Policy) (k k' : Nat)
    (h : (p.build U k).1 = (p'.build U k').1) : p = p' := by
  induction p generalizing p' k k' with
  | cmp l o r =>
    cases p' <;> simp only [Policy.build, attNode, Node.mk.injEq, List.cons.injEq] at h
    · obtain ⟨-, rfl, -, -, h1, h2, -⟩ := h
      rw [operand_build_inj _ _ _ _ h1, operand_build_inj _ _ _ _ h2]
    · simp at h
    · exact absurd h.1.symm (attKind_ne rfl)
    · simp at h
    · simp at h
  | lit t =>
    cases p' <;> simp only [Policy.build, attNode, Node.mk.injEq, List.cons.injEq] at h
    · simp at h
    · rw [h.2.1]
    · exact absurd h.1.symm (attKind_ne rfl)
    · simp at h
    · simp at h
  | att t =>
    cases p' <;> simp only [Policy.build, attNode, Node.mk.injEq, List.cons.injEq] at h
    · exact absurd h.1 (attKind_ne rfl)
    · exact absurd h.1 (attKind_ne rfl)
    · rw [h.2.1]
    · exact absurd h.1 (attKind_ne rfl)
    · exact absurd h.1 (attKind_ne rfl)
  | not n p ih =>
    cases p' <;> simp only [Policy.build, attNode, Node.mk.injEq, List.cons.injEq] at h
    · simp at h
    · simp at h
    · exact absurd h.1.symm (attKind_ne rfl)
    · obtain ⟨-, rfl, -, -, h1, -⟩ := h
      rw [ih _ _ _ h1]
    · simp at h
  | bin o p q ihp ihq =>
    cases p' <;> simp only [Policy.build, attNode, Node.mk.injEq, List.cons.injEq] at h
    · simp at h
    · simp at h
    · exact absurd h.1.symm (attKind_ne rfl)
    · simp at h
    · obtain ⟨-, rfl, -, -, h1, h2, -⟩ := h
      rw [ihp _ _ _ h1, ihq _ _ _ h2]

/-! ### Every derivation has only grammar tokens -/

/-- Token types that occur in derivations. -/
def Inner (t : Token) : Prop := t.type ≠ .start ∧ t.type ≠ .«end»

theorem atom_inner {b t} (h : AtomTok b t) : Inner t := by
  constructor <;> intro h' <;> simp [AtomTok, h'] at h

theorem att_inner {t} (h : AttTok t) : Inner t := by
  constructor <;> intro h' <;> simp [AttTok, h'] at h

theorem inner_of_type {t : Token} {ty : TokenType} (h : t.type = ty) (h1 : ty ≠ .start)
    (h2 : ty ≠ .«end») : Inner t := ⟨h ▸ h1, h ▸ h2⟩

theorem dsetVal_inner {b ts es} (h : DSetVal b ts es) : ∀ t ∈ ts, Inner t := by
  induction h with
  | one ht => simpa using atom_inner ht
  | cons ht hc _ ih =>
    intro t h
    simp only [List.mem_cons] at h
    rcases h with rfl | rfl | h
    · exact atom_inner ht
    · exact inner_of_type hc (by simp) (by simp)
    · exact ih t h

theorem dvar_inner {b ts v} (h : DVar b ts v) : ∀ t ∈ ts, Inner t := by
  cases h with
  | att ht => simpa using att_inner ht
  | atom ht => simpa using atom_inner ht
  | empty hl hr =>
    simpa using ⟨inner_of_type hl (by simp) (by simp), inner_of_type hr (by simp) (by simp)⟩
  | set hl h hr =>
    intro t ht
    simp only [List.mem_cons, List.mem_append, List.not_mem_nil, or_false] at ht
    rcases ht with rfl | ht | rfl
    · exact inner_of_type hl (by simp) (by simp)
    · exact dsetVal_inner h t ht
    · exact inner_of_type hr (by simp) (by simp)

mutual
theorem dexp_inner {b ts p} (h : DExp b ts p) : ∀ t ∈ ts, Inner t := by
  intro t ht
  match h with
  | .cmp hl ho hr =>
    simp only [List.mem_cons, List.mem_append] at ht
    rcases ht with ht | rfl | ht
    · exact dvar_inner hl t ht
    · exact inner_of_type ho (by simp) (by simp)
    · exact dvar_inner hr t ht
  | .lit hb =>
    simp only [List.mem_cons, List.not_mem_nil, or_false] at ht
    subst ht
    exact inner_of_type hb.1 (by simp) (by simp)
  | .att ha =>
    simp only [List.mem_cons, List.not_mem_nil, or_false] at ht
    subst ht
    exact att_inner ha
  | .notLit hn hb =>
    simp only [List.mem_cons, List.not_mem_nil, or_false] at ht
    rcases ht with rfl | rfl
    · exact inner_of_type hn (by simp) (by simp)
    · exact inner_of_type hb.1 (by simp) (by simp)
  | .notAtt hn ha =>
    simp only [List.mem_cons, List.not_mem_nil, or_false] at ht
    rcases ht with rfl | rfl
    · exact inner_of_type hn (by simp) (by simp)
    · exact att_inner ha
  | .paren hl hp hr =>
    simp only [List.mem_cons, List.mem_append, List.not_mem_nil, or_false] at ht
    rcases ht with rfl | ht | rfl
    · exact inner_of_type hl (by simp) (by simp)
    · exact dpolicy_inner hp t ht
    · exact inner_of_type hr (by simp) (by simp)
  | .notParen hn hl hp hr =>
    simp only [List.mem_cons, List.mem_append, List.not_mem_nil, or_false] at ht
    rcases ht with rfl | rfl | ht | rfl
    · exact inner_of_type hn (by simp) (by simp)
    · exact inner_of_type hl (by simp) (by simp)
    · exact dpolicy_inner hp t ht
    · exact inner_of_type hr (by simp) (by simp)

theorem dterm_inner {b ts p} (h : DTerm b ts p) : ∀ t ∈ ts, Inner t := by
  intro t ht
  match h with
  | .exp h => exact dexp_inner h t ht
  | .and hp ho hq =>
    simp only [List.mem_cons, List.mem_append] at ht
    rcases ht with ht | rfl | ht
    · exact dterm_inner hp t ht
    · exact inner_of_type ho.1 (by simp) (by simp)
    · exact dexp_inner hq t ht

theorem dpolicy_inner {b ts p} (h : DPolicy b ts p) : ∀ t ∈ ts, Inner t := by
  intro t ht
  match h with
  | .term h => exact dterm_inner h t ht
  | .or hp ho hq =>
    simp only [List.mem_cons, List.mem_append] at ht
    rcases ht with ht | rfl | ht
    · exact dpolicy_inner hp t ht
    · exact inner_of_type ho.1 (by simp) (by simp)
    · exact dterm_inner hq t ht
end

/-! ### Derivations without boolean atomics are derivations of the documented grammar -/

theorem atom_mono {t} (h : AtomTok false t) : AtomTok true t := by
  simp only [AtomTok, Bool.false_eq_true, false_and, or_false] at h
  rcases h with h | h | h | h <;> simp [AtomTok, h]

theorem dsetVal_mono {ts es} (h : DSetVal false ts es) : DSetVal true ts es := by
  induction h with
  | one ht => exact .one (atom_mono ht)
  | cons ht hc _ ih => exact .cons (atom_mono ht) hc ih

theorem dvar_mono {ts v} (h : DVar false ts v) : DVar true ts v := by
  cases h with
  | att ht => exact .att ht
  | atom ht => exact .atom (atom_mono ht)
  | empty hl hr => exact .empty hl hr
  | set hl h hr => exact .set hl (dsetVal_mono h) hr

mutual
theorem dexp_mono {ts p} (h : DExp false ts p) : DExp true ts p :=
  match h with
  | .cmp hl ho hr => .cmp (dvar_mono hl) ho (dvar_mono hr)
  | .lit h => .lit h
  | .att h => .att h
  | .notLit hn h => .notLit hn h
  | .notAtt hn h => .notAtt hn h
  | .paren hl h hr => .paren hl (dpolicy_mono h) hr
  | .notParen hn hl h hr => .notParen hn hl (dpolicy_mono h) hr
theorem dterm_mono {ts p} (h : DTerm false ts p) : DTerm true ts p :=
  match h with
  | .exp h => .exp (dexp_mono h)
  | .and hp ho hq => .and (dterm_mono hp) ho (dexp_mono hq)
theorem dpolicy_mono {ts p} (h : DPolicy false ts p) : DPolicy true ts p :=
  match h with
  | .term h => .term (dterm_mono h)
  | .or hp ho hq => .or (dpolicy_mono hp) ho (dterm_mono hq)
end

end Verif.Proofs
