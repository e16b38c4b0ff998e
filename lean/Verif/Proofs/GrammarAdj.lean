import Mathlib.Data.List.Chain
import Verif.Proofs.GrammarFacts
/-!
# What may precede NOT in a derivation
-/

namespace Verif.Proofs
open Verif Verif.Spec

/-- Tokens after which an expression may start. -/
def Opens (t : Token) : Prop := t.type = .lparn ∨ AndTok t ∨ OrTok t

/-- NOT only follows such tokens. -/
def NotAfter (a b : Token) : Prop := b.type = .notOp → Opens a

theorem chain_no_not (ts : List Token) (h : ∀ t ∈ ts, t.type ≠ .notOp) : ts.IsChain NotAfter := by
  induction ts with
  | nil => exact .nil
  | cons t ts ih =>
    rw [List.isChain_cons]
    exact ⟨fun y hy e => absurd e (h y (by simp [List.mem_of_mem_head? hy])),
      ih (fun t ht => h t (by simp [ht]))⟩

theorem dsetVal_no_not {b ts es} (h : DSetVal b ts es) : ∀ t ∈ ts, t.type ≠ .notOp := by
  induction h with
  | one ht => intro t h e; simp only [List.mem_singleton] at h; subst h; simp [AtomTok, e] at ht
  | cons ht hc _ ih =>
    intro t h e
    simp only [List.mem_cons] at h
    rcases h with rfl | rfl | h
    · simp [AtomTok, e] at ht
    · rw [hc] at e; simp at e
    · exact ih t h e

theorem dvar_no_not {b ts v} (h : DVar b ts v) : ∀ t ∈ ts, t.type ≠ .notOp := by
  intro t ht e
  cases h with
  | att h => simp only [List.mem_singleton] at ht; subst ht; simp [AttTok, e] at h
  | atom h => simp only [List.mem_singleton] at ht; subst ht; simp [AtomTok, e] at h
  | empty hl hr =>
    simp only [List.mem_cons, List.not_mem_nil, or_false] at ht
    rcases ht with rfl | rfl
    · rw [hl] at e; simp at e
    · rw [hr] at e; simp at e
  | set hl h hr =>
    simp only [List.mem_cons, List.mem_append, List.not_mem_nil, or_false] at ht
    rcases ht with rfl | ht | rfl
    · rw [hl] at e; simp at e
    · exact dsetVal_no_not h t ht e
    · rw [hr] at e; simp at e

theorem chain_paren {l r : Token} {ts : List Token} (hl : l.type = .lparn) (h : ts.IsChain NotAfter)
    (hr : r.type = .rparn) : (l :: (ts ++ [r])).IsChain NotAfter := by
  rw [List.isChain_cons]
  refine ⟨fun y _ _ => Or.inl hl, ?_⟩
  rw [List.isChain_append]
  refine ⟨h, by simp, ?_⟩
  intro x _ y hy e
  simp only [List.head?_cons, Option.mem_def, Option.some.injEq] at hy
  subst hy
  rw [hr] at e; simp at e

theorem chain_bin {o : Token} {ts us : List Token} (ho : AndTok o ∨ OrTok o)
    (h1 : ts.IsChain NotAfter) (h2 : us.IsChain NotAfter) : (ts ++ o :: us).IsChain NotAfter := by
  rw [List.isChain_append]
  refine ⟨h1, ?_, ?_⟩
  · rw [List.isChain_cons]
    exact ⟨fun y _ _ => Or.inr ho, h2⟩
  · intro x _ y hy e
    simp only [List.head?_cons, Option.mem_def, Option.some.injEq] at hy
    subst hy
    rcases ho with h | h <;> (rw [h.1] at e; simp at e)

mutual
theorem dexp_chain {b ts p} (h : DExp b ts p) : ts.IsChain NotAfter := by
  match h with
  | .cmp hl ho hr =>
    apply chain_no_not
    intro t ht e
    simp only [List.mem_cons, List.mem_append] at ht
    rcases ht with ht | rfl | ht
    · exact dvar_no_not hl t ht e
    · rw [ho] at e; simp at e
    · exact dvar_no_not hr t ht e
  | .lit _ => simp
  | .att _ => simp
  | .notLit (t := t) hn ht =>
    rw [List.isChain_cons_cons]
    exact ⟨fun e => by rw [ht.1] at e; simp at e, by simp⟩
  | .notAtt (t := t) hn ht =>
    rw [List.isChain_cons_cons]
    exact ⟨fun e => by simp [AttTok, e] at ht, by simp⟩
  | .paren hl hp hr => exact chain_paren hl (dpolicy_chain hp) hr
  | .notParen hn hl hp hr =>
    rw [List.isChain_cons_cons]
    exact ⟨fun e => by rw [hl] at e; simp at e, chain_paren hl (dpolicy_chain hp) hr⟩
theorem dterm_chain {b ts p} (h : DTerm b ts p) : ts.IsChain NotAfter := by
  match h with
  | .exp h => exact dexp_chain h
  | .and hp ho hq => exact chain_bin (Or.inl ho) (dterm_chain hp) (dexp_chain hq)
theorem dpolicy_chain {b ts p} (h : DPolicy b ts p) : ts.IsChain NotAfter := by
  match h with
  | .term h => exact dterm_chain h
  | .or hp ho hq => exact chain_bin (Or.inr ho) (dpolicy_chain hp) (dterm_chain hq)
end

end Verif.Proofs
