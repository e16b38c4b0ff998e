import Verif.Spec.CaseVariant
import Verif.Props.Interpreter
/-!
# Case variants of a text have case variants of its tokens and syntax tree
-/

namespace Verif.Proofs
open Verif Verif.Spec

/-! ### Tokens to syntax trees -/

theorem caseTok_eq {a b : Token} (h : CaseTok a b) (hn : ¬ AttTok a) : a = b := by
  obtain ⟨h1, h2, h3⟩ := h
  have h3 : a.value = b.value := by
    rcases h3 with h3 | ⟨h3, _⟩
    · exact h3
    · exact absurd h3 hn
  cases a; cases b; simp_all

theorem not_att_of {a : Token} {ty : TokenType} (h : a.type = ty)
    (hn : ty ≠ .usrAtt ∧ ty ≠ .objAtt ∧ ty ≠ .envAtt ∧ ty ≠ .admAtt ∧ ty ≠ .conAtt) : ¬ AttTok a := by
  simp [AttTok, h, hn]

theorem not_att_atom {b : Bool} {a : Token} (h : AtomTok b a) : ¬ AttTok a := by
  rcases h with h | h | h | h | ⟨_, h⟩ <;> simp [AttTok, h]

abbrev F2 := List.Forall₂ CaseTok

theorem f2_append {a b c : List Token} (h : F2 (a ++ b) c) :
    ∃ x y, F2 a x ∧ F2 b y ∧ c = x ++ y := by
  induction a generalizing c with
  | nil => exact ⟨[], c, .nil, h, rfl⟩
  | cons t a ih =>
    cases h with
    | cons h1 h2 =>
      obtain ⟨x, y, h3, h4, rfl⟩ := ih h2
      exact ⟨_ :: x, y, .cons h1 h3, h4, rfl⟩

theorem dsetVal_case {b us es} (h : DSetVal b us es) : ∀ ts, F2 us ts → DSetVal b ts es := by
  induction h with
  | one ht =>
    intro ts e
    cases e with
    | cons h1 h2 =>
      cases h2
      rw [← caseTok_eq h1 (not_att_atom ht)]
      exact .one ht
  | cons ht hc _ ih =>
    intro ts e
    cases e with
    | cons h1 h2 =>
      cases h2 with
      | cons h2 h3 =>
        rw [← caseTok_eq h1 (not_att_atom ht), ← caseTok_eq h2 (not_att_of hc (by decide))]
        exact .cons ht hc (ih _ h3)

theorem attTok_case {a b : Token} (h : CaseTok a b) (ha : AttTok a) : AttTok b := by
  simpa [AttTok, ← h.1] using ha

theorem dvar_case {b us v} (h : DVar b us v) :
    ∀ ts, F2 us ts → ∃ v', DVar b ts v' ∧ v.CaseRel v' := by
  intro ts e
  cases h with
  | att ht =>
    cases e with
    | cons h1 h2 => cases h2; exact ⟨_, .att (attTok_case h1 ht), h1⟩
  | atom ht =>
    cases e with
    | cons h1 h2 =>
      cases h2
      rw [← caseTok_eq h1 (not_att_atom ht)]
      exact ⟨_, .atom ht, rfl⟩
  | empty hl hr =>
    cases e with
    | cons h1 h2 =>
      cases h2 with
      | cons h2 h3 =>
        cases h3
        rw [← caseTok_eq h1 (not_att_of hl (by decide)), ← caseTok_eq h2 (not_att_of hr (by decide))]
        exact ⟨_, .empty hl hr, rfl, rfl⟩
  | set hl h hr =>
    cases e with
    | cons h1 h2 =>
      obtain ⟨xs, ys, h3, h4, rfl⟩ := f2_append h2
      cases h4 with
      | cons h4 h5 =>
        cases h5
        rw [← caseTok_eq h1 (not_att_of hl (by decide)), ← caseTok_eq h4 (not_att_of hr (by decide))]
        exact ⟨_, .set hl (dsetVal_case h _ h3) hr, rfl, rfl⟩

theorem not_att_bool {a : Token} (h : BoolTok a) : ¬ AttTok a := not_att_of h.1 (by decide)
theorem not_att_and {a : Token} (h : AndTok a) : ¬ AttTok a := not_att_of h.1 (by decide)
theorem not_att_or {a : Token} (h : OrTok a) : ¬ AttTok a := not_att_of h.1 (by decide)

mutual
theorem dexp_case {b us p} (h : DExp b us p) :
    ∀ ts, F2 us ts → ∃ q, DExp b ts q ∧ p.CaseRel q := by
  intro ts e
  match h with
  | .cmp hl ho hr =>
    obtain ⟨xs, ys, h3, h4, rfl⟩ := f2_append e
    cases h4 with
    | cons h4 h5 =>
      obtain ⟨l', hl1, hl2⟩ := dvar_case hl _ h3
      obtain ⟨r', hr1, hr2⟩ := dvar_case hr _ h5
      rw [← caseTok_eq h4 (not_att_of ho (by decide))]
      exact ⟨_, .cmp hl1 ho hr1, hl2, rfl, hr2⟩
  | .lit hb =>
    cases e with
    | cons h1 h2 =>
      cases h2
      rw [← caseTok_eq h1 (not_att_bool hb)]
      exact ⟨_, .lit hb, rfl⟩
  | .att ha =>
    cases e with
    | cons h1 h2 => cases h2; exact ⟨_, .att (attTok_case h1 ha), h1⟩
  | .notLit hn hb =>
    cases e with
    | cons h1 h2 =>
      cases h2 with
      | cons h2 h3 =>
        cases h3
        rw [← caseTok_eq h1 (not_att_of hn (by decide)), ← caseTok_eq h2 (not_att_bool hb)]
        exact ⟨_, .notLit hn hb, rfl, rfl⟩
  | .notAtt hn ha =>
    cases e with
    | cons h1 h2 =>
      cases h2 with
      | cons h2 h3 =>
        cases h3
        rw [← caseTok_eq h1 (not_att_of hn (by decide))]
        exact ⟨_, .notAtt hn (attTok_case h2 ha), rfl, h2⟩
  | .paren hl hp hr =>
    cases e with
    | cons h1 h2 =>
      obtain ⟨xs, ys, h3, h4, rfl⟩ := f2_append h2
      cases h4 with
      | cons h4 h5 =>
        cases h5
        obtain ⟨q, hq1, hq2⟩ := dpolicy_case hp _ h3
        rw [← caseTok_eq h1 (not_att_of hl (by decide)), ← caseTok_eq h4 (not_att_of hr (by decide))]
        exact ⟨_, .paren hl hq1 hr, hq2⟩
  | .notParen hn hl hp hr =>
    cases e with
    | cons h0 h1 =>
      cases h1 with
      | cons h1 h2 =>
        obtain ⟨xs, ys, h3, h4, rfl⟩ := f2_append h2
        cases h4 with
        | cons h4 h5 =>
          cases h5
          obtain ⟨q, hq1, hq2⟩ := dpolicy_case hp _ h3
          rw [← caseTok_eq h0 (not_att_of hn (by decide)), ← caseTok_eq h1 (not_att_of hl (by decide)),
            ← caseTok_eq h4 (not_att_of hr (by decide))]
          exact ⟨_, .notParen hn hl hq1 hr, rfl, hq2⟩

theorem dterm_case {b us p} (h : DTerm b us p) :
    ∀ ts, F2 us ts → ∃ q, DTerm b ts q ∧ p.CaseRel q := by
  intro ts e
  match h with
  | .exp h =>
    obtain ⟨p, h1, h2⟩ := dexp_case h ts e
    exact ⟨p, .exp h1, h2⟩
  | .and hp ho hq =>
    obtain ⟨xs, ys, h3, h4, rfl⟩ := f2_append e
    cases h4 with
    | cons h4 h5 =>
      obtain ⟨p', hp1, hp2⟩ := dterm_case hp _ h3
      obtain ⟨q', hq1, hq2⟩ := dexp_case hq _ h5
      rw [← caseTok_eq h4 (not_att_and ho)]
      exact ⟨_, .and hp1 ho hq1, rfl, hp2, hq2⟩

theorem dpolicy_case {b us p} (h : DPolicy b us p) :
    ∀ ts, F2 us ts → ∃ q, DPolicy b ts q ∧ p.CaseRel q := by
  intro ts e
  match h with
  | .term h =>
    obtain ⟨p, h1, h2⟩ := dterm_case h ts e
    exact ⟨p, .term h1, h2⟩
  | .or hp ho hq =>
    obtain ⟨xs, ys, h3, h4, rfl⟩ := f2_append e
    cases h4 with
    | cons h4 h5 =>
      obtain ⟨p', hp1, hp2⟩ := dpolicy_case hp _ h3
      obtain ⟨q', hq1, hq2⟩ := dterm_case hq _ h5
      rw [← caseTok_eq h4 (not_att_or ho)]
      exact ⟨_, .or hp1 ho hq1, rfl, hp2, hq2⟩
end

/-! ### Texts to tokens -/

/-- Whether one is inside a string literal after a text. -/
def inQuote : Bool → Str → Bool
  | q, [] => q
  | q, c :: s => inQuote (if c = '"' then !q else q) s

theorem caseEq_append {q : Bool} {s t u : Str} (h : CaseEq q (s ++ t) u) :
    ∃ s' t', u = s' ++ t' ∧ CaseEq q s s' ∧ CaseEq (inQuote q s) t t' := by
  induction s generalizing q u with
  | nil => exact ⟨[], u, rfl, trivial, h⟩
  | cons c s ih =>
    cases u with
    | nil => exact absurd h id
    | cons d u =>
      obtain ⟨h1, h2⟩ := h
      obtain ⟨s', t', rfl, h3, h4⟩ := ih h2
      exact ⟨d :: s', t', rfl, ⟨h1, h3⟩, h4⟩

theorem caseEq_symm {q : Bool} {s t : Str} (h : CaseEq q s t) : CaseEq q t s := by
  induction s generalizing q t with
  | nil =>
    cases t with
    | nil => trivial
    | cons d t => exact absurd h id
  | cons c s ih =>
    cases t with
    | nil => exact absurd h id
    | cons d t =>
      obtain ⟨h1, h2⟩ := h
      have hq : (c = '"') = (d = '"') := by
        cases q with
        | true => simp only [if_true] at h1; rw [h1]
        | false =>
          simp only [Bool.false_eq_true, if_false] at h1
          have h3 : (asciiLower c).toNat = (asciiLower d).toNat := by rw [h1]
          rw [toNat_asciiLower, toNat_asciiLower] at h3
          apply propext
          constructor
          · rintro rfl
            apply char_ext
            have : ('"' : Char).toNat = 34 := rfl
            rw [this] at h3 ⊢
            split at h3 <;> split at h3 <;> omega
          · rintro rfl
            apply char_ext
            have : ('"' : Char).toNat = 34 := rfl
            rw [this] at h3 ⊢
            split at h3 <;> split at h3 <;> omega
      refine ⟨?_, ?_⟩
      · cases q
        · simpa using h1.symm
        · simpa using h1.symm
      · have := ih h2
        simpa only [hq] using this

theorem caseEq_length {q : Bool} {s t : Str} (h : CaseEq q s t) : s.length = t.length := by
  induction s generalizing q t with
  | nil =>
    cases t with
    | nil => rfl
    | cons d t => exact absurd h id
  | cons c s ih =>
    cases t with
    | nil => exact absurd h id
    | cons d t => simp [ih h.2]

/-- Characters with the same lower case are the same or both ASCII letters. -/
theorem lower_cases {c d : Char} (h : asciiLower c = asciiLower d) :
    c = d ∨ (isAscii c = true ∧ asciiAlpha c = true ∧ isAscii d = true ∧ asciiAlpha d = true) := by
  have h3 : (asciiLower c).toNat = (asciiLower d).toNat := by rw [h]
  rw [toNat_asciiLower, toNat_asciiLower] at h3
  simp only [isAscii, asciiAlpha, decide_eq_true_eq, Bool.or_eq_true, Bool.and_eq_true]
  by_cases hc : 65 ≤ c.toNat ∧ c.toNat ≤ 90
  · by_cases hd : 65 ≤ d.toNat ∧ d.toNat ≤ 90
    · rw [if_pos hc, if_pos hd] at h3
      exact Or.inl (char_ext (by omega))
    · rw [if_pos hc, if_neg hd] at h3
      right; omega
  · by_cases hd : 65 ≤ d.toNat ∧ d.toNat ≤ 90
    · rw [if_neg hc, if_pos hd] at h3
      right; omega
    · rw [if_neg hc, if_neg hd] at h3
      exact Or.inl (char_ext h3)

section
variable {U : Uni} (hU : U.Lawful)

/-- A property of characters that case does not change. -/
def CaseBlind (P : Char → Prop) : Prop := ∀ c d, asciiLower c = asciiLower d → P c → P d

include hU in
theorem blind_idChar : CaseBlind (IdChar U) := by
  intro c d h hc
  rcases lower_cases h with rfl | ⟨_, _, h3, h4⟩
  · exact hc
  · exact Or.inl (by rw [hU.alpha_ascii d h3, h4])

/-- Outside strings, text without quotes and letters has no other variant. -/
theorem caseEq_exact {s t : Str} (h : CaseEq false s t)
    (hs : ∀ c ∈ s, c ≠ '"' ∧ ¬ (isAscii c = true ∧ asciiAlpha c = true)) : t = s := by
  induction s generalizing t with
  | nil =>
    cases t with
    | nil => rfl
    | cons d t => exact absurd h id
  | cons c s ih =>
    cases t with
    | nil => exact absurd h id
    | cons d t =>
      obtain ⟨h1, h2⟩ := h
      have hc := hs c (by simp)
      simp only [Bool.false_eq_true, if_false] at h1
      rw [if_neg hc.1] at h2
      rw [ih h2 (fun e he => hs e (by simp [he]))]
      rcases lower_cases h1 with rfl | h3
      · rfl
      · exact absurd ⟨h3.1, h3.2.1⟩ hc.2

/-- Outside strings, text without quotes. -/
theorem caseEq_lower {s t : Str} (h : CaseEq false s t) (hs : ∀ c ∈ s, c ≠ '"') :
    s.map asciiLower = t.map asciiLower := by
  induction s generalizing t with
  | nil =>
    cases t with
    | nil => rfl
    | cons d t => exact absurd h id
  | cons c s ih =>
    cases t with
    | nil => exact absurd h id
    | cons d t =>
      obtain ⟨h1, h2⟩ := h
      simp only [Bool.false_eq_true, if_false] at h1
      rw [if_neg (hs c (by simp))] at h2
      simp [h1, ih h2 (fun e he => hs e (by simp [he]))]

/-- Inside strings nothing changes. -/
theorem caseEq_string {s t : Str} (h : CaseEq true s t) (hs : ∀ c ∈ s, c ≠ '"') : t = s := by
  induction s generalizing t with
  | nil =>
    cases t with
    | nil => rfl
    | cons d t => exact absurd h id
  | cons c s ih =>
    cases t with
    | nil => exact absurd h id
    | cons d t =>
      obtain ⟨h1, h2⟩ := h
      simp only [if_true] at h1
      rw [if_neg (hs c (by simp))] at h2
      rw [ih h2 (fun e he => hs e (by simp [he])), h1]

theorem inQuote_none {q : Bool} {s : Str} (hs : ∀ c ∈ s, c ≠ '"') : inQuote q s = q := by
  induction s with
  | nil => rfl
  | cons c s ih =>
    rw [inQuote, if_neg (hs c (by simp))]
    exact ih (fun e he => hs e (by simp [he]))

theorem inQuote_append {q : Bool} {s t : Str} : inQuote q (s ++ t) = inQuote (inQuote q s) t := by
  induction s generalizing q with
  | nil => rfl
  | cons c s ih => rw [List.cons_append, inQuote, ih, inQuote]

theorem spells_noQuote {w : Str} {kw : String} (h : Spells w kw) (hk : kw.toList ∈ reservedWords) :
    ∀ c ∈ w, c ≠ '"' := by
  rintro c hc rfl
  have : '"' ∈ w.map asciiLower := List.mem_map.2 ⟨'"', hc, by decide⟩
  rw [h] at this
  simp only [reservedWords, List.map_cons, List.map_nil, List.mem_cons, List.not_mem_nil,
    or_false] at hk
  rcases hk with h | h | h | h | h | h | h | h | h | h | h | h | h | h <;> rw [h] at this <;>
    revert this <;> decide

include hU in
theorem space_plain {c : Char} (h : U.isSpace c = true) :
    c ≠ '"' ∧ ¬ (isAscii c = true ∧ asciiAlpha c = true) := by
  refine ⟨?_, ?_⟩
  · rintro rfl
    rw [hU.space_ascii _ (by decide)] at h
    exact absurd h (by decide)
  · rintro ⟨h1, h2⟩
    have := hU.alpha_not_space c (by rw [hU.alpha_ascii c h1, h2])
    rw [this] at h
    exact absurd h (by simp)

include hU in
theorem digit_plain {c : Char} (h : U.isDigit c = true) :
    c ≠ '"' ∧ ¬ (isAscii c = true ∧ asciiAlpha c = true) := by
  refine ⟨?_, ?_⟩
  · rintro rfl
    rw [hU.digit_ascii _ (by decide)] at h
    exact absurd h (by decide)
  · rintro ⟨h1, h2⟩
    have := hU.digit_not_alpha c h
    rw [hU.alpha_ascii c h1, h2] at this
    exact absurd this (by simp)

include hU in
theorem id_noQuote {c : Char} (h : IdChar U c) : c ≠ '"' := by
  rintro rfl
  rcases h with h | h | h
  · rw [hU.alpha_ascii _ (by decide)] at h; exact absurd h (by decide)
  · rw [hU.digit_ascii _ (by decide)] at h; exact absurd h (by decide)
  · exact absurd h (by decide)

/-- What may follow, with case ignored. -/
def NextRel (a b : Option Char) : Prop :=
  match a, b with
  | none, none => True
  | some c, some d => asciiLower c = asciiLower d
  | _, _ => False

theorem nextRel_head {s t : Str} (h : CaseEq false s t) : NextRel s.head? t.head? := by
  cases s with
  | nil =>
    cases t with
    | nil => trivial
    | cons d t => exact absurd h id
  | cons c s =>
    cases t with
    | nil => exact absurd h id
    | cons d t => simpa [NextRel] using h.1

theorem nextRel_all {P : Char → Prop} (hP : CaseBlind P) {a b : Option Char} (h : NextRel a b)
    (ha : ∀ c, a = some c → ¬ P c) : ∀ d, b = some d → ¬ P d := by
  rintro d rfl hd
  cases a with
  | none => exact absurd h id
  | some c => exact ha c rfl (hP d c (Eq.symm h) hd)

theorem blind_plain {P : Char → Prop}
    (hP : ∀ c, P c → ¬ (isAscii c = true ∧ asciiAlpha c = true)) : CaseBlind P := by
  intro c d h hc
  rcases lower_cases h with rfl | h3
  · exact hc
  · exact absurd ⟨h3.1, h3.2.1⟩ (hP c hc)

include hU in
/-- A case variant of a lexeme is a lexeme of the same type, with the same value unless it is an attribute. -/
theorem lexeme_case {w w' : Str} {ty : TokenType} {v : TVal} {nx nx' : Option Char}
    (h : Lexeme U w ty v nx) (hn : inQuote false w = false → NextRel nx nx') (hc : CaseEq false w w') :
    inQuote false w = false ∧ ∃ v', Lexeme U w' ty v' nx' ∧
      ∀ pos, CaseTok ⟨ty, pos, v⟩ ⟨ty, pos, v'⟩ := by
  have numEnd : NextRel nx nx' → (∀ c, nx = some c → U.isDigit c = false ∧ c ≠ '.') →
      ∀ c, nx' = some c → U.isDigit c = false ∧ c ≠ '.' := by
    intro hn hx
    have := nextRel_all (P := fun c => U.isDigit c = true ∨ c = '.') (blind_plain (by
      rintro c (hc | rfl)
      · exact (digit_plain hU hc).2
      · decide)) hn (by
        intro c hc; have := hx c hc; simp [this])
    intro c hc
    have := this c hc
    simpa [not_or] using this
  cases h with
  | punct w ty v nx h =>
    have hp : ∀ c ∈ w.toList, c ≠ '"' ∧ ¬ (isAscii c = true ∧ asciiAlpha c = true) := by
      simp only [punctuation, List.mem_cons, Prod.mk.injEq, List.not_mem_nil, or_false] at h
      rcases h with ⟨rfl, _⟩ | ⟨rfl, _⟩ | ⟨rfl, _⟩ | ⟨rfl, _⟩ | ⟨rfl, _⟩ | ⟨rfl, _⟩ | ⟨rfl, _⟩ |
        ⟨rfl, _⟩ | ⟨rfl, _⟩ <;> decide
    rw [caseEq_exact hc hp]
    exact ⟨inQuote_none (fun c h => (hp c h).1), _, .punct w ty v nx' h, fun _ => ⟨rfl, rfl, Or.inl rfl⟩⟩
  | gt _ h =>
    have hp : ∀ c ∈ ['>'], c ≠ '"' ∧ ¬ (isAscii c = true ∧ asciiAlpha c = true) := by decide
    rw [caseEq_exact hc hp]
    have hq : inQuote false ['>'] = false := by decide
    refine ⟨hq, _, .gt nx' ?_, fun _ => ⟨rfl, rfl, Or.inl rfl⟩⟩
    intro he
    exact nextRel_all (P := fun c => c = '=') (blind_plain (by rintro c rfl; decide)) (hn hq)
      (fun c hc => by rintro rfl; exact h hc) '=' he rfl
  | lt _ h =>
    have hp : ∀ c ∈ ['<'], c ≠ '"' ∧ ¬ (isAscii c = true ∧ asciiAlpha c = true) := by decide
    rw [caseEq_exact hc hp]
    have hq : inQuote false ['<'] = false := by decide
    refine ⟨hq, _, .lt nx' ?_, fun _ => ⟨rfl, rfl, Or.inl rfl⟩⟩
    intro he
    exact nextRel_all (P := fun c => c = '=') (blind_plain (by rintro c rfl; decide)) (hn hq)
      (fun c hc => by rintro rfl; exact h hc) '=' he rfl
  | string body nx h =>
    have hb : ∀ c ∈ body, c ≠ '"' := fun c hc => (h c hc).2.2
    have hq : inQuote false ('"' :: body ++ ['"']) = false := by
      rw [List.cons_append, inQuote, if_pos rfl, inQuote_append, inQuote_none hb]
      rfl
    refine ⟨hq, .str body, ?_, fun _ => ⟨rfl, rfl, Or.inl rfl⟩⟩
    cases w' with
    | nil => exact absurd hc id
    | cons d w' =>
      obtain ⟨h1, h2⟩ := hc
      simp only [Bool.false_eq_true, if_false, if_true, Bool.not_false] at h1 h2
      have hd : d = '"' := by
        rcases lower_cases h1 with rfl | h3
        · rfl
        · exact absurd h3.2.1 (by decide)
      subst hd
      obtain ⟨b', r', rfl, h3, h4⟩ := caseEq_append h2
      rw [caseEq_string h3 hb]
      rw [inQuote_none hb] at h4
      cases r' with
      | nil => exact absurd h4 id
      | cons e r' =>
        obtain ⟨h5, h6⟩ := h4
        simp only [if_true] at h5
        subst h5
        cases r' with
        | nil => exact .string body nx' h
        | cons e r' => exact absurd h6 id
  | int neg ds n _ hne hd hv hl hx =>
    have hp : ∀ c ∈ (if neg then ['-'] else []) ++ ds, c ≠ '"' ∧ ¬ (isAscii c = true ∧ asciiAlpha c = true) := by
      intro c hc
      rcases List.mem_append.1 hc with hc | hc
      · cases neg <;> simp at hc
        subst hc; decide
      · exact digit_plain hU (hd c hc)
    have hq := inQuote_none (q := false) (fun c h => (hp c h).1)
    rw [caseEq_exact hc hp]
    exact ⟨hq, _, .int neg ds n nx' hne hd hv hl (numEnd (hn hq) hx), fun _ => ⟨rfl, rfl, Or.inl rfl⟩⟩
  | float neg ip fp a b _ hi hf hdi hdf ha hb hx =>
    have hp : ∀ c ∈ (if neg then ['-'] else []) ++ ip ++ '.' :: fp,
        c ≠ '"' ∧ ¬ (isAscii c = true ∧ asciiAlpha c = true) := by
      intro c hc
      rcases List.mem_append.1 hc with hc | hc
      · rcases List.mem_append.1 hc with hc | hc
        · cases neg <;> simp at hc
          subst hc; decide
        · exact digit_plain hU (hdi c hc)
      · rcases List.mem_cons.1 hc with rfl | hc
        · decide
        · exact digit_plain hU (hdf c hc)
    have hq := inQuote_none (q := false) (fun c h => (hp c h).1)
    rw [caseEq_exact hc hp]
    exact ⟨hq, _, .float neg ip fp a b nx' hi hf hdi hdf ha hb (numEnd (hn hq) hx),
      fun _ => ⟨rfl, rfl, Or.inl rfl⟩⟩
  | att pre ident kw ty _ hcl hp hne hid hx =>
    have hkw : kw.toList ∈ reservedWords := by
      simp only [attClasses, List.mem_cons, Prod.mk.injEq, List.not_mem_nil, or_false] at hcl
      rcases hcl with ⟨rfl, _⟩ | ⟨rfl, _⟩ | ⟨rfl, _⟩ | ⟨rfl, _⟩ | ⟨rfl, _⟩ <;> decide
    have hpre := spells_noQuote hp hkw
    have hidq : ∀ c ∈ ident, c ≠ '"' := fun c h => id_noQuote hU (hid c h)
    have hq : inQuote false (pre ++ '.' :: ident) = false := inQuote_none (by
      intro c hc
      rcases List.mem_append.1 hc with hc | hc
      · exact hpre c hc
      · rcases List.mem_cons.1 hc with rfl | hc
        · decide
        · exact hidq c hc)
    obtain ⟨pre', r, rfl, h1, h2⟩ := caseEq_append hc
    rw [inQuote_none hpre] at h2
    cases r with
    | nil => exact absurd h2 id
    | cons d ident' =>
      obtain ⟨h3, h4⟩ := h2
      simp only [Bool.false_eq_true, if_false] at h3
      rw [if_neg (by decide)] at h4
      have hd : d = '.' := by
        rcases lower_cases h3 with rfl | h3
        · rfl
        · exact absurd h3.2.1 (by decide)
      subst hd
      have hl := caseEq_lower h4 hidq
      refine ⟨hq, .str ident', .att pre' ident' kw ty nx' hcl ?_ ?_ ?_ ?_, ?_⟩
      · unfold Spells at hp ⊢
        rw [← hp, caseEq_lower h1 hpre]
      · rintro rfl
        exact hne (by simpa using hl)
      · intro c hc
        have : ∀ (s t : Str), s.map asciiLower = t.map asciiLower → (∀ c ∈ s, IdChar U c) →
            ∀ c ∈ t, IdChar U c := by
          intro s
          induction s with
          | nil => intro t h _ c hc; simp at h; subst h; simp at hc
          | cons a s ih =>
            intro t h hs c hc
            cases t with
            | nil => simp at h
            | cons b t =>
              simp only [List.map_cons, List.cons.injEq] at h
              rcases List.mem_cons.1 hc with rfl | hc
              · exact blind_idChar hU _ _ h.1 (hs a (by simp))
              · exact ih t h.2 (fun e he => hs e (by simp [he])) c hc
        exact this _ _ hl hid c hc
      · exact nextRel_all (blind_idChar hU) (hn hq) hx
      · intro pos
        refine ⟨rfl, rfl, Or.inr ⟨?_, ident, ident', rfl, rfl, hl⟩⟩
        simp only [attClasses, List.mem_cons, Prod.mk.injEq, List.not_mem_nil, or_false] at hcl
        rcases hcl with ⟨_, rfl⟩ | ⟨_, rfl⟩ | ⟨_, rfl⟩ | ⟨_, rfl⟩ | ⟨_, rfl⟩ <;> simp [AttTok]
  | keyword _ kw ty v _ hk hw hx =>
    have hkw : kw.toList ∈ reservedWords := by
      simp only [keywords, List.mem_cons, Prod.mk.injEq, List.not_mem_nil, or_false] at hk
      rcases hk with ⟨rfl, _⟩ | ⟨rfl, _⟩ | ⟨rfl, _⟩ | ⟨rfl, _⟩ | ⟨rfl, _⟩ | ⟨rfl, _⟩ | ⟨rfl, _⟩ |
        ⟨rfl, _⟩ | ⟨rfl, _⟩ <;> decide
    have hwq := spells_noQuote hw hkw
    have hq := inQuote_none (q := false) hwq
    refine ⟨hq, _, .keyword w' kw ty v nx' hk ?_ ?_, fun _ => ⟨rfl, rfl, Or.inl rfl⟩⟩
    · unfold Spells at hw ⊢
      rw [← hw, caseEq_lower hc hwq]
    · have h1 := nextRel_all (blind_idChar hU) (hn hq) (fun c h => (hx c h).1)
      have h2 := nextRel_all (P := fun c => c = '.') (blind_plain (by rintro c rfl; decide)) (hn hq)
        (fun c h => (hx c h).2)
      exact fun c hc => ⟨h1 c hc, h2 c hc⟩

include hU in
/-- Case variants of a text have case variants of its tokens. -/
theorem tokenizes_case {text : Str} {pos : Nat} {toks : List Token} (h : Tokenizes U text pos toks) :
    ∀ text', CaseEq false text text' → ∃ toks', Tokenizes U text' pos toks' ∧ F2 toks toks' := by
  induction h with
  | done ws pos h =>
    intro text' hc
    rw [caseEq_exact hc (fun c hc => space_plain hU (h c hc))]
    exact ⟨_, .done ws pos h, .cons ⟨rfl, rfl, Or.inl rfl⟩ .nil⟩
  | tok ws w rest pos ty v toks h hw hr ih =>
    intro text' hc
    obtain ⟨r, rest', rfl, h1, h2⟩ := caseEq_append hc
    obtain ⟨ws', w', rfl, h3, h4⟩ := caseEq_append h1
    have hws : ∀ c ∈ ws, c ≠ '"' := fun c hc => (space_plain hU (h c hc)).1
    rw [caseEq_exact h3 (fun c hc => space_plain hU (h c hc))]
    rw [inQuote_none hws] at h4
    rw [inQuote_append, inQuote_none hws] at h2
    obtain ⟨h5, v', h6, h7⟩ := lexeme_case hU hw
      (nx' := rest'.head?) (fun he => nextRel_head (by rw [he] at h2; exact h2)) h4
    rw [h5] at h2
    obtain ⟨toks', h8, h9⟩ := ih rest' h2
    rw [caseEq_length h4] at h8
    exact ⟨_, .tok ws w' rest' pos ty v' toks' h h6 h8, .cons (h7 _) h9⟩

include hU in
theorem policyOf_case {text text' : Str} {p : Policy} (h : PolicyOf U text p)
    (hc : CaseEq false text text') : ∃ q, PolicyOf U text' q ∧ p.CaseRel q := by
  obtain ⟨ts, e, h1, h2⟩ := h
  obtain ⟨us, h3, h4⟩ := tokenizes_case hU h1 text' hc
  obtain ⟨xs, ys, h5, h6, rfl⟩ := f2_append h4
  cases h6 with
  | cons h6 h7 =>
    cases h7
    obtain ⟨q, h8, h9⟩ := dpolicy_case h2 _ h5
    exact ⟨q, ⟨xs, _, h3, h8⟩, h9⟩
end

/-! ### Meaning -/

/-- Attribute knowledge that ignores the case of ASCII letters. -/
def BlindAtts (A : Atts) : Prop :=
  ∀ ty (s t : Str), s.map asciiLower = t.map asciiLower → A ty s = A ty t

theorem semAtt_case {A : Atts} (hA : BlindAtts A) {t u : Token} (h : CaseTok t u) :
    semAtt A t = semAtt A u := by
  obtain ⟨h1, h2, h3⟩ := h
  have : A t.type (attName t) = A u.type (attName u) := by
    rw [h1]
    rcases h3 with h3 | ⟨_, s, s', h3, h4, h5⟩
    · simp [attName, h3]
    · simp only [attName, h3, h4]
      exact hA _ _ _ h5
  simp only [semAtt, h2, this]

theorem semOperand_case {A : Atts} (hA : BlindAtts A) {v w : Operand} (h : v.CaseRel w) :
    semOperand A v = semOperand A w := by
  cases v <;> cases w <;> simp only [Operand.CaseRel] at h
  · exact semAtt_case hA h
  · rw [h]
  · rw [h.1, h.2]

theorem sem_case {U : Uni} {A : Atts} (hA : BlindAtts A) {p q : Policy} (h : p.CaseRel q) :
    sem U A p = sem U A q := by
  induction p generalizing q with
  | cmp l o r =>
    cases q <;> simp only [Policy.CaseRel] at h
    obtain ⟨h1, rfl, h2⟩ := h
    rw [sem, sem, semOperand_case hA h1, semOperand_case hA h2]
  | lit t => cases q <;> simp only [Policy.CaseRel] at h; rw [h]
  | att t => cases q <;> simp only [Policy.CaseRel] at h; exact semAtt_case hA h
  | not n p ih =>
    cases q <;> simp only [Policy.CaseRel] at h
    obtain ⟨rfl, h2⟩ := h
    rw [sem, sem, ih h2]
  | bin o p1 p2 ihp ihq =>
    cases q <;> simp only [Policy.CaseRel] at h
    obtain ⟨rfl, h1, h2⟩ := h
    rw [sem, sem, ihp h1, ihq h2]

theorem semPolicy_case {U : Uni} {A : Atts} (hA : BlindAtts A) {p q : Policy} (h : p.CaseRel q) :
    semPolicy U A p = semPolicy U A q := by
  have hs := sem_case (U := U) hA h
  cases p <;> cases q <;> first | exact absurd h id | exact hs | (rw [show _ = _ from h])

end Verif.Proofs
