import Verif.Proofs.GrammarFacts
import Verif.Spec.Printing
import Verif.Props.Lexer
/-!
# Positions and printing
-/

namespace Verif.Proofs
open Verif Verif.Spec

/-! ### Positions do not matter -/

@[simp] theorem strip_type (t : Token) : (Token.strip t).type = t.type := rfl
@[simp] theorem strip_value (t : Token) : (Token.strip t).value = t.value := rfl

theorem attTok_strip (t : Token) : AttTok (Token.strip t) ↔ AttTok t := Iff.rfl
theorem atomTok_strip (b : Bool) (t : Token) : AtomTok b (Token.strip t) ↔ AtomTok b t := Iff.rfl
theorem boolTok_strip (t : Token) : BoolTok (Token.strip t) ↔ BoolTok t := Iff.rfl
theorem andTok_strip (t : Token) : AndTok (Token.strip t) ↔ AndTok t := Iff.rfl
theorem orTok_strip (t : Token) : OrTok (Token.strip t) ↔ OrTok t := Iff.rfl

theorem dsetVal_strip {b us es} (h : DSetVal b us es) :
    ∀ ts : List Token, ts.map Token.strip = us →
      ∃ es', DSetVal b ts es' ∧ es'.map Token.strip = es := by
  induction h with
  | one ht =>
    intro ts e
    rw [List.map_eq_singleton_iff] at e
    obtain ⟨t', rfl, rfl⟩ := e
    exact ⟨[t'], .one ht, rfl⟩
  | cons ht hc _ ih =>
    intro ts e
    rw [List.map_eq_cons_iff] at e
    obtain ⟨t', ts', rfl, rfl, e⟩ := e
    rw [List.map_eq_cons_iff] at e
    obtain ⟨c', ts'', rfl, rfl, e⟩ := e
    obtain ⟨es', h1, h2⟩ := ih ts'' e
    exact ⟨t' :: es', .cons ht hc h1, by simp [h2]⟩

theorem dvar_strip {b us v} (h : DVar b us v) :
    ∀ ts : List Token, ts.map Token.strip = us → ∃ v', DVar b ts v' ∧ v'.strip = v := by
  intro ts e
  cases h with
  | att ht =>
    rw [List.map_eq_singleton_iff] at e
    obtain ⟨t', rfl, rfl⟩ := e
    exact ⟨_, .att ht, rfl⟩
  | atom ht =>
    rw [List.map_eq_singleton_iff] at e
    obtain ⟨t', rfl, rfl⟩ := e
    exact ⟨_, .atom ht, rfl⟩
  | empty hl hr =>
    rw [List.map_eq_cons_iff] at e
    obtain ⟨l', ts', rfl, rfl, e⟩ := e
    rw [List.map_eq_singleton_iff] at e
    obtain ⟨r', rfl, rfl⟩ := e
    exact ⟨_, .empty hl hr, rfl⟩
  | set hl h hr =>
    rw [List.map_eq_cons_iff] at e
    obtain ⟨l', ts', rfl, rfl, e⟩ := e
    rw [List.map_eq_append_iff] at e
    obtain ⟨a, c, rfl, e1, e2⟩ := e
    rw [List.map_eq_singleton_iff] at e2
    obtain ⟨r', rfl, rfl⟩ := e2
    obtain ⟨es', h1, h2⟩ := dsetVal_strip h a e1
    exact ⟨_, .set hl h1 hr, by simp [Operand.strip, h2]⟩

mutual
theorem dexp_strip {b us q} (h : DExp b us q) :
    ∀ ts : List Token, ts.map Token.strip = us → ∃ p, DExp b ts p ∧ p.strip = q := by
  intro ts e
  match h with
  | .cmp hl ho hr =>
    rw [List.map_eq_append_iff] at e
    obtain ⟨a, c, rfl, e1, e2⟩ := e
    rw [List.map_eq_cons_iff] at e2
    obtain ⟨o', d, rfl, rfl, e2⟩ := e2
    obtain ⟨l', hl1, hl2⟩ := dvar_strip hl a e1
    obtain ⟨r', hr1, hr2⟩ := dvar_strip hr d e2
    exact ⟨_, .cmp hl1 ho hr1, by simp [Policy.strip, hl2, hr2]⟩
  | .lit hb =>
    rw [List.map_eq_singleton_iff] at e
    obtain ⟨t', rfl, rfl⟩ := e
    exact ⟨_, .lit hb, rfl⟩
  | .att ha =>
    rw [List.map_eq_singleton_iff] at e
    obtain ⟨t', rfl, rfl⟩ := e
    exact ⟨_, .att ha, rfl⟩
  | .notLit hn hb =>
    rw [List.map_eq_cons_iff] at e
    obtain ⟨n', ts', rfl, rfl, e⟩ := e
    rw [List.map_eq_singleton_iff] at e
    obtain ⟨t', rfl, rfl⟩ := e
    exact ⟨_, .notLit hn hb, rfl⟩
  | .notAtt hn ha =>
    rw [List.map_eq_cons_iff] at e
    obtain ⟨n', ts', rfl, rfl, e⟩ := e
    rw [List.map_eq_singleton_iff] at e
    obtain ⟨t', rfl, rfl⟩ := e
    exact ⟨_, .notAtt hn ha, rfl⟩
  | .paren hl hp hr =>
    rw [List.map_eq_cons_iff] at e
    obtain ⟨l', ts', rfl, rfl, e⟩ := e
    rw [List.map_eq_append_iff] at e
    obtain ⟨a, c, rfl, e1, e2⟩ := e
    rw [List.map_eq_singleton_iff] at e2
    obtain ⟨r', rfl, rfl⟩ := e2
    obtain ⟨p', hp1, hp2⟩ := dpolicy_strip hp a e1
    exact ⟨_, .paren hl hp1 hr, hp2⟩
  | .notParen hn hl hp hr =>
    rw [List.map_eq_cons_iff] at e
    obtain ⟨n', ts', rfl, rfl, e⟩ := e
    rw [List.map_eq_cons_iff] at e
    obtain ⟨l', ts', rfl, rfl, e⟩ := e
    rw [List.map_eq_append_iff] at e
    obtain ⟨a, c, rfl, e1, e2⟩ := e
    rw [List.map_eq_singleton_iff] at e2
    obtain ⟨r', rfl, rfl⟩ := e2
    obtain ⟨p', hp1, hp2⟩ := dpolicy_strip hp a e1
    exact ⟨_, .notParen hn hl hp1 hr, by simp [Policy.strip, hp2]⟩

theorem dterm_strip {b us q} (h : DTerm b us q) :
    ∀ ts : List Token, ts.map Token.strip = us → ∃ p, DTerm b ts p ∧ p.strip = q := by
  intro ts e
  match h with
  | .exp h =>
    obtain ⟨p, h1, h2⟩ := dexp_strip h ts e
    exact ⟨p, .exp h1, h2⟩
  | .and hp ho hq =>
    rw [List.map_eq_append_iff] at e
    obtain ⟨a, c, rfl, e1, e2⟩ := e
    rw [List.map_eq_cons_iff] at e2
    obtain ⟨o', d, rfl, rfl, e2⟩ := e2
    obtain ⟨p', hp1, hp2⟩ := dterm_strip hp a e1
    obtain ⟨q', hq1, hq2⟩ := dexp_strip hq d e2
    exact ⟨_, .and hp1 ho hq1, by simp [Policy.strip, hp2, hq2]⟩

theorem dpolicy_strip {b us q} (h : DPolicy b us q) :
    ∀ ts : List Token, ts.map Token.strip = us → ∃ p, DPolicy b ts p ∧ p.strip = q := by
  intro ts e
  match h with
  | .term h =>
    obtain ⟨p, h1, h2⟩ := dterm_strip h ts e
    exact ⟨p, .term h1, h2⟩
  | .or hp ho hq =>
    rw [List.map_eq_append_iff] at e
    obtain ⟨a, c, rfl, e1, e2⟩ := e
    rw [List.map_eq_cons_iff] at e2
    obtain ⟨o', d, rfl, rfl, e2⟩ := e2
    obtain ⟨p', hp1, hp2⟩ := dpolicy_strip hp a e1
    obtain ⟨q', hq1, hq2⟩ := dterm_strip hq d e2
    exact ⟨_, .or hp1 ho hq1, by simp [Policy.strip, hp2, hq2]⟩
end

/-- Forgetting positions in a derivation. -/
theorem dsetVal_map {b us es} (h : DSetVal b us es) :
    DSetVal b (us.map Token.strip) (es.map Token.strip) := by
  induction h with
  | one ht => exact .one ht
  | cons ht hc _ ih => exact .cons ht hc ih

theorem dvar_map {b us v} (h : DVar b us v) : DVar b (us.map Token.strip) v.strip := by
  cases h with
  | att ht => exact .att ht
  | atom ht => exact .atom ht
  | empty hl hr => exact .empty hl hr
  | set hl h hr =>
    simp only [List.map_cons, List.map_append, List.map_nil, Operand.strip]
    exact .set hl (dsetVal_map h) hr

mutual
theorem dexp_map {b us q} (h : DExp b us q) : DExp b (us.map Token.strip) q.strip := by
  match h with
  | .cmp hl ho hr =>
    simp only [List.map_cons, List.map_append, Policy.strip]
    exact .cmp (dvar_map hl) ho (dvar_map hr)
  | .lit h => exact .lit h
  | .att h => exact .att h
  | .notLit hn h => exact .notLit hn h
  | .notAtt hn h => exact .notAtt hn h
  | .paren hl h hr =>
    simp only [List.map_cons, List.map_append, List.map_nil]
    exact .paren hl (dpolicy_map h) hr
  | .notParen hn hl h hr =>
    simp only [List.map_cons, List.map_append, List.map_nil, Policy.strip]
    exact .notParen hn hl (dpolicy_map h) hr
theorem dterm_map {b us q} (h : DTerm b us q) : DTerm b (us.map Token.strip) q.strip := by
  match h with
  | .exp h => exact .exp (dexp_map h)
  | .and hp ho hq =>
    simp only [List.map_cons, List.map_append, Policy.strip]
    exact .and (dterm_map hp) ho (dexp_map hq)
theorem dpolicy_map {b us q} (h : DPolicy b us q) : DPolicy b (us.map Token.strip) q.strip := by
  match h with
  | .term h => exact .term (dterm_map h)
  | .or hp ho hq =>
    simp only [List.map_cons, List.map_append, Policy.strip]
    exact .or (dpolicy_map hp) ho (dterm_map hq)
end

/-! ### Building commutes with forgetting positions -/

theorem atomRes_strip (t : Token) : atomRes (Token.strip t) = atomRes t := rfl

theorem atomNodes_strip (es : List Token) (k : Nat) :
    atomNodes (es.map Token.strip) k = Node.stripList (atomNodes es k) := by
  induction es generalizing k with
  | nil => rfl
  | cons e es ih =>
    simp [atomNodes, Node.stripList, ih, atomNode, Node.strip, atomRes_strip]

theorem operand_build_strip (l : Operand) (k : Nat) :
    l.strip.build k = (Node.strip (l.build k).1, (l.build k).2) := by
  cases l with
  | att t => simp [Operand.strip, Operand.build, attNode, Node.strip, Node.stripList]
  | atom t => simp [Operand.strip, Operand.build, atomNode, Node.strip, Node.stripList, atomRes_strip]
  | set l es => simp [Operand.strip, Operand.build, Node.strip, atomNodes_strip]

theorem litTri_strip (U : Uni) (t : Token) : litTri U (Token.strip t) = litTri U t := rfl

theorem policy_build_strip (U : Uni) (p : Policy) (k : Nat) :
    p.strip.build U k = (Node.strip (p.build U k).1, (p.build U k).2) := by
  induction p generalizing k with
  | cmp l o r =>
    simp [Policy.strip, Policy.build, operand_build_strip, Node.strip, Node.stripList]
  | lit t => simp [Policy.strip, Policy.build, Node.strip, Node.stripList, litTri_strip]
  | att t => simp [Policy.strip, Policy.build, attNode, Node.strip, Node.stripList]
  | not n p ih => simp [Policy.strip, Policy.build, ih, Node.strip, Node.stripList]
  | bin o p q ihp ihq => simp [Policy.strip, Policy.build, ihp, ihq, Node.strip, Node.stripList]

/-! ### Well-formed trees are exactly the derivable ones -/

theorem dsetVal_wf {ts es} (h : DSetVal false ts es) : ∀ t ∈ es, AtomTok false t := by
  induction h with
  | one ht => simpa using ht
  | cons ht _ _ ih => simpa using ⟨ht, ih⟩

theorem dvar_wf {ts v} (h : DVar false ts v) : v.WF := by
  cases h with
  | att ht => exact ht
  | atom ht => exact ht
  | empty hl hr => exact ⟨hl, by simp⟩
  | set hl h hr => exact ⟨hl, dsetVal_wf h⟩

mutual
theorem dexp_wf {ts p} (h : DExp false ts p) : p.WF := by
  match h with
  | .cmp hl ho hr => exact ⟨dvar_wf hl, ho, dvar_wf hr⟩
  | .lit h => exact h
  | .att h => exact h
  | .notLit hn h => exact ⟨hn, h⟩
  | .notAtt hn h => exact ⟨hn, h⟩
  | .paren _ h _ => exact dpolicy_wf h
  | .notParen hn _ h _ => exact ⟨hn, dpolicy_wf h⟩
theorem dterm_wf {ts p} (h : DTerm false ts p) : p.WF := by
  match h with
  | .exp h => exact dexp_wf h
  | .and hp ho hq => exact ⟨Or.inl ho, dterm_wf hp, dexp_wf hq⟩
theorem dpolicy_wf {ts p} (h : DPolicy false ts p) : p.WF := by
  match h with
  | .term h => exact dterm_wf h
  | .or hp ho hq => exact ⟨Or.inr ho, dpolicy_wf hp, dterm_wf hq⟩
end

theorem printTail_tail (es : List Token) (h : ∀ t ∈ es, AtomTok false t) :
    SetTail (printTail es) es := by
  induction es with
  | nil => exact .nil
  | cons e es ih => exact .cons rfl (h e (by simp)) (ih (fun t ht => h t (by simp [ht])))

theorem operand_print (v : Operand) (h : v.WF) : DVar false v.print v := by
  cases v with
  | att t => exact .att h
  | atom t => exact .atom h
  | set l es =>
    cases es with
    | nil => exact .empty h.1 rfl
    | cons e es =>
      exact .set h.1 ((dsetVal_iff _ _).2 ⟨e, _, es, rfl, rfl, h.2 e (by simp),
        printTail_tail es (fun t ht => h.2 t (by simp [ht]))⟩) rfl

theorem parens_exp {ts p} (h : DPolicy false ts p) : DExp false (parens ts) p := .paren rfl h rfl

theorem policy_print (p : Policy) (h : p.WF) : DPolicy false p.print p := by
  induction p with
  | cmp l o r => exact .term (.exp (.cmp (operand_print l h.1) h.2.1 (operand_print r h.2.2)))
  | lit t => exact .term (.exp (.lit h))
  | att t => exact .term (.exp (.att h))
  | not n p ih => exact .term (.exp (.notParen h.1 rfl (ih h.2) rfl))
  | bin o p q ihp ihq =>
    rcases h.1 with ho | ho
    · exact .term (.and (.exp (parens_exp (ihp h.2.1))) ho (parens_exp (ihq h.2.2)))
    · exact .or (.term (.exp (parens_exp (ihp h.2.1)))) ho (.exp (parens_exp (ihq h.2.2)))

/-! ### Spellings -/

theorem printTail_mem {es : List Token} {t : Token} (h : t ∈ printTail es) :
    t ∈ es ∨ t = punctTok .comma := by
  induction es with
  | nil => simp [printTail] at h
  | cons e es ih =>
    simp only [printTail, List.mem_cons] at h
    rcases h with rfl | rfl | h
    · exact Or.inr rfl
    · simp
    · rcases ih h with h | h
      · simp [h]
      · exact Or.inr h

/-- Printed tokens are tokens of the policy or punctuation. -/
theorem operand_print_mem {v : Operand} {t : Token} (h : t ∈ v.print) :
    t ∈ v.tokens ∨ t = punctTok .comma ∨ t = punctTok .rset := by
  cases v with
  | att t => exact Or.inl h
  | atom t => exact Or.inl h
  | set l es =>
    cases es with
    | nil =>
      simp only [Operand.print, List.mem_cons, List.not_mem_nil, or_false] at h
      rcases h with rfl | rfl
      · exact Or.inl (by simp [Operand.tokens])
      · exact Or.inr (Or.inr rfl)
    | cons e es =>
      simp only [Operand.print, List.mem_cons, List.mem_append, List.not_mem_nil, or_false] at h
      rcases h with rfl | (rfl | h) | rfl
      · exact Or.inl (by simp [Operand.tokens])
      · exact Or.inl (by simp [Operand.tokens])
      · rcases printTail_mem h with h | h
        · exact Or.inl (by simp [Operand.tokens, h])
        · exact Or.inr (Or.inl h)
      · exact Or.inr (Or.inr rfl)

theorem print_mem {p : Policy} {t : Token} (h : t ∈ p.print) :
    t ∈ p.tokens ∨ ∃ ty, t = punctTok ty ∧ ty ∈ [TokenType.comma, .rset, .lparn, .rparn] := by
  induction p with
  | cmp l o r =>
    simp only [Policy.print, List.mem_append, List.mem_cons] at h
    rcases h with h | rfl | h
    · rcases operand_print_mem h with h | h | h
      · exact Or.inl (by simp [Policy.tokens, h])
      · exact Or.inr ⟨_, h, by simp⟩
      · exact Or.inr ⟨_, h, by simp⟩
    · exact Or.inl (by simp [Policy.tokens])
    · rcases operand_print_mem h with h | h | h
      · exact Or.inl (by simp [Policy.tokens, h])
      · exact Or.inr ⟨_, h, by simp⟩
      · exact Or.inr ⟨_, h, by simp⟩
  | lit t => exact Or.inl h
  | att t => exact Or.inl h
  | not n p ih =>
    simp only [Policy.print, parens, List.mem_append, List.mem_cons, List.not_mem_nil, or_false] at h
    rcases h with rfl | h | h | h
    · exact Or.inl (by simp [Policy.tokens])
    · exact Or.inr ⟨_, h, by simp⟩
    · rcases ih h with h | h
      · exact Or.inl (by simp [Policy.tokens, h])
      · exact Or.inr h
    · exact Or.inr ⟨_, h, by simp⟩
  | bin o p q ihp ihq =>
    simp only [Policy.print, parens, List.mem_append, List.mem_cons, List.not_mem_nil, or_false] at h
    rcases h with (h | h | h) | rfl | h | h | h
    · exact Or.inr ⟨_, h, by simp⟩
    · rcases ihp h with h | h
      · exact Or.inl (by simp [Policy.tokens, h])
      · exact Or.inr h
    · exact Or.inr ⟨_, h, by simp⟩
    · exact Or.inl (by simp [Policy.tokens])
    · exact Or.inr ⟨_, h, by simp⟩
    · rcases ihq h with h | h
      · exact Or.inl (by simp [Policy.tokens, h])
      · exact Or.inr h
    · exact Or.inr ⟨_, h, by simp⟩

theorem operand_tokens_type {v : Operand} (hv : v.WF) {t : Token} (h : t ∈ v.tokens) :
    t.type ∉ [TokenType.comma, .rset, .lparn, .rparn] := by
  have hatt : ∀ t, AttTok t → t.type ∉ [TokenType.comma, .rset, .lparn, .rparn] := by
    intro t ht; unfold AttTok at ht; rcases ht with h | h | h | h | h <;> simp [h]
  have hatom : ∀ t, AtomTok false t → t.type ∉ [TokenType.comma, .rset, .lparn, .rparn] := by
    intro t ht
    simp only [AtomTok, Bool.false_eq_true, false_and, or_false] at ht
    rcases ht with h | h | h | h <;> simp [h]
  cases v with
  | att t => simp only [Operand.tokens, List.mem_singleton] at h; subst h; exact hatt _ hv
  | atom t => simp only [Operand.tokens, List.mem_singleton] at h; subst h; exact hatom _ hv
  | set l es =>
    simp only [Operand.tokens, List.mem_cons] at h
    rcases h with rfl | h
    · simp [hv.1]
    · exact hatom _ (hv.2 _ h)

theorem tokens_type {p : Policy} (hp : p.WF) {t : Token} (h : t ∈ p.tokens) :
    t.type ∉ [TokenType.comma, .rset, .lparn, .rparn] := by
  induction p with
  | cmp l o r =>
    simp only [Policy.tokens, List.mem_append, List.mem_cons] at h
    rcases h with h | rfl | h
    · exact operand_tokens_type hp.1 h
    · simp [hp.2.1]
    · exact operand_tokens_type hp.2.2 h
  | lit t' =>
    simp only [Policy.tokens, List.mem_singleton] at h
    subst h
    have : t.type = .bool := hp.1
    simp [this]
  | att t' =>
    simp only [Policy.tokens, List.mem_singleton] at h
    subst h
    have : AttTok t := hp
    unfold AttTok at this
    rcases this with h | h | h | h | h <;> simp [h]
  | not n p ih =>
    simp only [Policy.tokens, List.mem_cons] at h
    rcases h with rfl | h
    · simp [hp.1]
    · exact ih hp.2 h
  | bin o p q ihp ihq =>
    simp only [Policy.tokens, List.mem_append, List.mem_cons] at h
    rcases h with h | rfl | h
    · exact ihp hp.2.1 h
    · rcases hp.1 with h | h <;> simp [h.1]
    · exact ihq hp.2.2 h

/-- Every printed token has its spelling as lexeme. -/
theorem print_lexeme (U : Uni) (sp : Token → Str) (p : Policy) (hp : p.WF)
    (hsp : ∀ t ∈ p.tokens, Lexeme U (sp t) t.type t.value none) (t : Token) (ht : t ∈ p.print) :
    Lexeme U (spell sp t) t.type t.value none := by
  rcases print_mem ht with h | ⟨ty, rfl, hty⟩
  · have h1 := tokens_type hp h
    have h2 := hsp t h
    have : spell sp t = sp t := by
      unfold spell
      split <;> simp_all
    rw [this]; exact h2
  · simp only [List.mem_cons, List.not_mem_nil, or_false] at hty
    rcases hty with rfl | rfl | rfl | rfl
    · exact .punct "," .comma none none (by simp [punctuation])
    · exact .punct "}" .rset none none (by simp [punctuation])
    · exact .punct "(" .lparn none none (by simp [punctuation])
    · exact .punct ")" .rparn none none (by simp [punctuation])

/-! ### Decimal digits -/

theorem digit_char (n : Nat) (h : n < 10) :
    (Char.ofNat (48 + n)).toNat = 48 + n ∧ isAscii (Char.ofNat (48 + n)) = true ∧
      asciiDigit (Char.ofNat (48 + n)) = true := by
  have : n = 0 ∨ n = 1 ∨ n = 2 ∨ n = 3 ∨ n = 4 ∨ n = 5 ∨ n = 6 ∨ n = 7 ∨ n = 8 ∨ n = 9 := by omega
  rcases this with h | h | h | h | h | h | h | h | h | h <;> subst h <;> decide

theorem padded_length (m n : Nat) : (padded m n).length = m := by
  induction m generalizing n with
  | zero => rfl
  | succ m ih => simp [padded, ih]

theorem padded_digits (U : Uni) (hU : U.Lawful) (m n : Nat) (h : n < 10 ^ m) :
    ∀ c ∈ padded m n, U.isDigit c = true := by
  induction m generalizing n with
  | zero => simp [padded]
  | succ m ih =>
    intro c hc
    simp only [padded, List.mem_cons] at hc
    rcases hc with rfl | hc
    · have : n / 10 ^ m < 10 := by
        rw [Nat.div_lt_iff_lt_mul (Nat.pow_pos (by omega))]
        rw [Nat.pow_succ, Nat.mul_comm] at h; exact h
      obtain ⟨_, h1, h2⟩ := digit_char _ this
      rw [hU.digit_ascii _ h1, h2]
    · exact ih _ (Nat.mod_lt _ (Nat.pow_pos (by omega))) c hc

theorem padded_val (U : Uni) (hU : U.Lawful) (m n : Nat) (h : n < 10 ^ m) :
    decVal U (padded m n) = some n := by
  induction m generalizing n with
  | zero => simp at h; subst h; rfl
  | succ m ih =>
    have hd : n / 10 ^ m < 10 := by
      rw [Nat.div_lt_iff_lt_mul (Nat.pow_pos (by omega))]
      rw [Nat.pow_succ, Nat.mul_comm] at h; exact h
    obtain ⟨h0, h1, h2⟩ := digit_char _ hd
    simp only [padded, decVal]
    rw [hU.digitVal_ascii _ h1 h2, ih _ (Nat.mod_lt _ (Nat.pow_pos (by omega))), padded_length, h0]
    simp only [bind, Option.bind, pure, Option.some.injEq]
    have : 48 + n / 10 ^ m - 48 = n / 10 ^ m := Nat.add_sub_cancel_left _ _
    rw [this, Nat.mul_comm]
    exact Nat.div_add_mod n (10 ^ m)

theorem spells_self (kw : String) (h : kw.toList.map asciiLower = kw.toList) :
    Spells kw.toList kw := h

/-- Every printable token has a spelling. -/
theorem printable_spelling (U : Uni) (hU : U.Lawful) (t : Token) (h : Printable U t) :
    ∃ w, Lexeme U w t.type t.value none := by
  rcases h with ⟨⟨kw, hk⟩, ident, h1, h2, h3⟩ | ⟨h1, i, h2, m, h3, h4, h5⟩ |
    ⟨h1, neg, a, b, m, h2, h3, h4⟩ | ⟨h1, s, h2, h3⟩ | ⟨kw, v, h1, h2⟩ | ⟨w, v, h1, h2⟩ | ⟨h1, h2⟩
  · refine ⟨kw.toList ++ '.' :: ident, ?_⟩
    rw [h1]
    refine .att _ _ kw _ _ hk ?_ h2 h3 (by simp)
    have hk' := hk
    simp only [attClasses, List.mem_cons, Prod.mk.injEq, List.not_mem_nil, or_false] at hk'
    rcases hk' with ⟨rfl, _⟩ | ⟨rfl, _⟩ | ⟨rfl, _⟩ | ⟨rfl, _⟩ | ⟨rfl, _⟩ <;> (unfold Spells; decide)
  · refine ⟨(if i < 0 then ['-'] else []) ++ padded m i.natAbs, ?_⟩
    have hl : padded m i.natAbs ≠ [] := by
      intro e
      have := padded_length m i.natAbs
      rw [e] at this; simp at this; omega
    have key := Lexeme.int (U := U) (decide (i < 0)) (padded m i.natAbs) i.natAbs none hl
      (padded_digits U hU m _ h4) (padded_val U hU m _ h4)
      (by intro l hl'; rw [padded_length]; exact h5 l hl') (by simp)
    rw [h1, h2]
    have e : (if decide (i < 0) = true then -(i.natAbs : Int) else i.natAbs) = i := by
      by_cases hi : i < 0
      · rw [if_pos (by simpa using hi)]; omega
      · rw [if_neg (by simpa using hi)]; omega
    rw [e] at key
    simpa using key
  · have hm' : padded m b ≠ [] := by
      intro e
      have := padded_length m b
      rw [e] at this; simp at this; omega
    have ha : a < 10 ^ (a + 1) :=
      Nat.lt_of_lt_of_le (Nat.lt_succ_self a) (Nat.le_of_lt (Nat.lt_pow_self (by omega)))
    have ha' : padded (a + 1) a ≠ [] := by simp [padded]
    have key := Lexeme.float (U := U) neg (padded (a + 1) a) (padded m b) a b none ha' hm'
      (padded_digits U hU _ _ ha) (padded_digits U hU _ _ h2) (padded_val U hU _ _ ha)
      (padded_val U hU _ _ h2) (by simp)
    rw [padded_length] at key
    rw [h1, h4]
    exact ⟨_, key⟩
  · rw [h1, h2]; exact ⟨_, .string s none h3⟩
  · rw [h2]
    refine ⟨kw.toList, .keyword _ kw _ _ _ h1 ?_ (by simp)⟩
    simp only [keywords, List.mem_cons, Prod.mk.injEq, List.not_mem_nil, or_false] at h1
    rcases h1 with ⟨rfl, _⟩ | ⟨rfl, _⟩ | ⟨rfl, _⟩ | ⟨rfl, _⟩ | ⟨rfl, _⟩ | ⟨rfl, _⟩ | ⟨rfl, _⟩ |
      ⟨rfl, _⟩ | ⟨rfl, _⟩ <;> (unfold Spells; decide)
  · rw [h2]; exact ⟨_, .punct w _ v none h1⟩
  · rw [h1]
    rcases h2 with h2 | h2
    · rw [h2]; exact ⟨_, .gt none (by simp)⟩
    · rw [h2]; exact ⟨_, .lt none (by simp)⟩

end Verif.Proofs
