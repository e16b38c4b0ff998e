import Verif.Proofs.InterpSem
import Verif.Props.Parser
/-!
# Policies given as texts
-/

namespace Verif.Proofs
open Verif Verif.Spec Verif.Props

/-- What evaluation needs to know about a token. -/
def TokOk (t : Token) : Prop :=
  (t.type = .op → ∃ e ∈ operators, t.value = .str e.1.toList) ∧ (AttTok t → ∃ s, t.value = .str s)

theorem lexeme_tokOk {U : Uni} {w : Str} {ty : TokenType} {v : TVal} {nx : Option Char} (p : Int)
    (h : Lexeme U w ty v nx) : TokOk ⟨ty, p, v⟩ := by
  cases h with
  | punct w ty v nx h =>
    simp only [punctuation, List.mem_cons, Prod.mk.injEq, List.not_mem_nil, or_false] at h
    rcases h with ⟨_, rfl, rfl⟩ | ⟨_, rfl, rfl⟩ | ⟨_, rfl, rfl⟩ | ⟨_, rfl, rfl⟩ | ⟨_, rfl, rfl⟩ |
      ⟨_, rfl, rfl⟩ | ⟨_, rfl, rfl⟩ | ⟨_, rfl, rfl⟩ | ⟨_, rfl, rfl⟩ <;>
      simp [TokOk, AttTok, operators, optVal]
  | gt => simp [TokOk, AttTok, operators]
  | lt => simp [TokOk, AttTok, operators]
  | string => simp [TokOk, AttTok]
  | int => simp [TokOk, AttTok]
  | float => simp [TokOk, AttTok]
  | att pre ident kw ty nx hc =>
    simp only [attClasses, List.mem_cons, Prod.mk.injEq, List.not_mem_nil, or_false] at hc
    rcases hc with ⟨_, rfl⟩ | ⟨_, rfl⟩ | ⟨_, rfl⟩ | ⟨_, rfl⟩ | ⟨_, rfl⟩ <;> simp [TokOk]
  | keyword w kw ty v nx hk =>
    simp only [keywords, List.mem_cons, Prod.mk.injEq, List.not_mem_nil, or_false] at hk
    rcases hk with ⟨_, rfl, rfl⟩ | ⟨_, rfl, rfl⟩ | ⟨_, rfl, rfl⟩ | ⟨_, rfl, rfl⟩ | ⟨_, rfl, rfl⟩ |
      ⟨_, rfl, rfl⟩ | ⟨_, rfl, rfl⟩ | ⟨_, rfl, rfl⟩ | ⟨_, rfl, rfl⟩ <;>
      simp [TokOk, AttTok, operators]

theorem tokenizes_tokOk {U : Uni} {text : Str} {pos : Nat} {ts : List Token}
    (h : Tokenizes U text pos ts) : ∀ t ∈ ts, TokOk t := by
  induction h with
  | done ws pos h => simp [TokOk, AttTok]
  | tok ws w rest pos ty v toks h hw hr ih =>
    intro t ht
    simp only [List.mem_cons] at ht
    rcases ht with rfl | ht
    · exact lexeme_tokOk _ hw
    · exact ih t ht

theorem operand_names {v : Operand} (hw : v.WF) (h : ∀ t ∈ v.tokens, TokOk t) : v.NamesOk := by
  cases v with
  | att t => exact (h t (by simp [Operand.tokens])).2 hw
  | atom t => trivial
  | set l es => trivial

theorem policy_ok {p : Policy} (hw : p.WF) (h : ∀ t ∈ p.tokens, TokOk t) :
    p.OpsOk ∧ p.NamesOk := by
  induction p with
  | cmp l o r =>
    simp only [Policy.tokens, List.mem_append, List.mem_cons] at h
    exact ⟨(h o (by simp)).1 hw.2.1, operand_names hw.1 (fun t ht => h t (by simp [ht])),
      operand_names hw.2.2 (fun t ht => h t (by simp [ht]))⟩
  | lit t => exact ⟨trivial, trivial⟩
  | att t => exact ⟨trivial, (h t (by simp [Policy.tokens])).2 hw⟩
  | not n p ih =>
    simp only [Policy.tokens, List.mem_cons] at h
    exact ih hw.2 (fun t ht => h t (by simp [ht]))
  | bin o p q ihp ihq =>
    simp only [Policy.tokens, List.mem_append, List.mem_cons] at h
    have h1 := ihp hw.2.1 (fun t ht => h t (by simp [ht]))
    have h2 := ihq hw.2.2 (fun t ht => h t (by simp [ht]))
    exact ⟨⟨h1.1, h2.1⟩, ⟨h1.2, h2.2⟩⟩

theorem policyOf_ok {U : Uni} {text : Str} {p : Policy} (h : PolicyOf U text p) :
    p.WF ∧ p.OpsOk ∧ p.NamesOk := by
  obtain ⟨ts, e, h1, h2⟩ := h
  have hw := dpolicy_wf h2
  have ht := tokenizes_tokOk h1
  refine ⟨hw, policy_ok hw ?_⟩
  intro t hm
  rw [← dpolicy_tokens h2, List.mem_filter] at hm
  exact ht t (by simp [hm.1])

theorem lexTokens_tokenizes {U : Uni} (hU : U.Lawful) {text : Str} {toks : List Token}
    (h : lexTokens U text = .ok toks) :
    ∃ ts e, toks = ⟨.start, 0, .none⟩ :: (ts ++ [e]) ∧ Tokenizes U text 0 (ts ++ [e]) ∧
      e.type = .«end» ∧ ∀ t ∈ ts, t.type ≠ .«end» := by
  obtain ⟨us, h1, h2⟩ := (lexer_refines_grammar U hU text toks).1 h
  obtain ⟨b, ts, e, h3, _, h4, h5, _⟩ := lexed_shape U hU text toks h
  rw [h1] at h3
  simp only [List.cons.injEq] at h3
  obtain ⟨rfl, rfl⟩ := h3
  exact ⟨ts, e, h1, h2, h4, fun t ht => (h5 t ht).1⟩

theorem parseText_iff {U : Uni} (hU : U.Lawful) (k k' : Nat) (text : Str) (n : Node) :
    parseText U k text = .ok (n, k') ↔ ∃ p, PolicyOf U text p ∧ p.build U k = (n, k') := by
  unfold parseText
  constructor
  · intro h
    cases hl : lexTokens U text with
    | error e => rw [hl] at h; simp [bind, Except.bind] at h
    | ok toks =>
      rw [hl] at h
      simp only [bind, Except.bind] at h
      obtain ⟨ts, e, rfl, h2, h3, h4⟩ := lexTokens_tokenizes hU hl
      obtain ⟨p, h5, h6⟩ := (parse_lexed U k k' _ e ts n rfl h3 h4).1 h
      exact ⟨p, ⟨ts, e, h2, h5⟩, h6⟩
  · rintro ⟨p, ⟨ts, e, h1, h2⟩, h3⟩
    have hl := (lexer_refines_grammar U hU text _).2 ⟨_, rfl, h1⟩
    obtain ⟨us, e', h4, h5, h6, h7⟩ := lexTokens_tokenizes hU hl
    simp only [List.cons.injEq, true_and] at h4
    have h8 := List.append_inj' h4 rfl
    obtain ⟨rfl, h9⟩ := h8
    simp only [List.cons.injEq, and_true] at h9
    subst h9
    rw [hl]
    simp only [bind, Except.bind]
    exact (parse_lexed U k k' _ e ts n rfl h6 h7).2 ⟨p, h2, h3⟩

/-- A text has one syntax tree. -/
theorem policyOf_unique {U : Uni} (hU : U.Lawful) {text : Str} {p q : Policy}
    (hp : PolicyOf U text p) (hq : PolicyOf U text q) : p = q := by
  obtain ⟨ts, e, h1, h2⟩ := hp
  obtain ⟨us, f, h3, h4⟩ := hq
  have e1 := (lexer_refines_grammar U hU text _).2 ⟨_, rfl, h1⟩
  have e2 := (lexer_refines_grammar U hU text _).2 ⟨_, rfl, h3⟩
  rw [e1] at e2
  simp only [Except.ok.injEq, List.cons.injEq, true_and] at e2
  obtain ⟨rfl, _⟩ := List.append_inj' e2 rfl
  exact grammar_unambiguous ts p q h2 h4

end Verif.Proofs
