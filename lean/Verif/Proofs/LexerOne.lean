import Verif.Proofs.LexerLoops
import Mathlib.Tactic.FieldSimp
import Mathlib.Algebra.Order.Field.Rat
/-!
Helper lemmas: one step of the lexer against the lexical grammar.
-/

namespace Verif
open Spec

theorem splitSign_of_ne (c : Char) (tl : Str) (h : c ≠ '-') : splitSign (c :: tl) = (false, c :: tl) := by
  unfold splitSign
  split
  · rename_i t heq
    simp only [List.cons.injEq] at heq
    exact absurd heq.1 h
  · rfl

theorem splitSign_neg (tl : Str) : splitSign ('-' :: tl) = (true, tl) := rfl

/-- The numeral with its sign. -/
def signed (neg : Bool) (ds : Str) : Str := (if neg then ['-'] else []) ++ ds

theorem splitSign_signed (U : Uni) (hU : U.Lawful) (neg : Bool) (ds : Str) (hne : ds ≠ [])
    (hd : U.isDigit (ds.headD 'x') = true) : splitSign (signed neg ds) = (neg, ds) := by
  cases neg with
  | true => rfl
  | false =>
    cases ds with
    | nil => exact absurd rfl hne
    | cons c tl =>
      have : c ≠ '-' := by
        rintro rfl
        rw [List.headD_cons, hU.digit_ascii _ rfl] at hd
        exact absurd hd (by decide)
      simp [signed, splitSign_of_ne _ _ this]

theorem pyInt_signed (U : Uni) (hU : U.Lawful) (neg : Bool) (ds : Str) (hne : ds ≠ [])
    (hd : ∀ c ∈ ds, U.isDigit c = true) (i : Int) :
    pyInt U (signed neg ds) = .ok i ↔ ∃ n, decVal U ds = some n ∧
      (∀ m, U.intLimit = some m → ds.length ≤ m) ∧ i = (if neg then -(n : Int) else n) := by
  have hh : U.isDigit (ds.headD 'x') = true := by
    cases ds with
    | nil => exact absurd rfl hne
    | cons c tl => exact hd c (by simp)
  unfold pyInt
  rw [splitSign_signed U hU neg ds hne hh]
  simp only [digitsVal_eq]
  cases hv : decVal U ds with
  | none => simp
  | some n =>
    cases hl : U.intLimit with
    | none => simp [eq_comm]
    | some m =>
      simp only [Option.map_some, Nat.zero_mul, Nat.zero_add, Option.some.injEq, forall_eq']
      by_cases hm : ds.length > m
      · rw [if_pos hm]
        constructor
        · intro h; cases h
        · rintro ⟨_, _, h, _⟩; omega
      · rw [if_neg hm]
        simp only [Except.ok.injEq, exists_eq_left']
        constructor
        · rintro rfl; exact ⟨by omega, rfl⟩
        · rintro ⟨_, rfl⟩; rfl

theorem takeWhile_ne_dot (U : Uni) (hU : U.Lawful) (ip fp : Str) (hd : ∀ c ∈ ip, U.isDigit c = true) :
    (ip ++ '.' :: fp).takeWhile (· ≠ '.') = ip ∧
    ((ip ++ '.' :: fp).dropWhile (· ≠ '.')).tail = fp := by
  induction ip with
  | nil => simp
  | cons c tl ih =>
    have hc : c ≠ '.' := by
      rintro rfl
      have := hd _ List.mem_cons_self
      rw [hU.digit_ascii _ rfl] at this
      exact absurd this (by decide)
    obtain ⟨h1, h2⟩ := ih (fun x hx => hd x (by simp [hx]))
    refine ⟨?_, ?_⟩
    · rw [List.cons_append, List.takeWhile_cons_of_pos (by simpa using hc), h1]
    · rw [List.cons_append, List.dropWhile_cons_of_pos (by simpa using hc), h2]

theorem pyFloat_signed (U : Uni) (hU : U.Lawful) (neg : Bool) (ip fp : Str) (hne : ip ≠ [])
    (hd : ∀ c ∈ ip, U.isDigit c = true) (f : PyFloat) :
    pyFloat U (signed neg (ip ++ '.' :: fp)) = .ok f ↔ ∃ a b, decVal U ip = some a ∧
      decVal U fp = some b ∧
      f = U.roundF ((if neg then -1 else 1) * ((a : Rat) + (b : Rat) / 10 ^ fp.length)) := by
  have hh : U.isDigit ((ip ++ '.' :: fp).headD 'x') = true := by
    cases ip with
    | nil => exact absurd rfl hne
    | cons c tl => exact hd c (by simp)
  obtain ⟨h1, h2⟩ := takeWhile_ne_dot U hU ip fp hd
  unfold pyFloat
  rw [splitSign_signed U hU neg _ (by simp) hh]
  simp only [h1, h2, digitsVal_eq, decVal_append]
  cases ha : decVal U ip with
  | none => simp
  | some a =>
    cases hb : decVal U fp with
    | none => simp
    | some b =>
      have hp : ((10 : Rat) ^ fp.length) ≠ 0 := by
        exact pow_ne_zero _ (by decide)
      simp only [Option.bind_eq_bind, Option.bind_some, Option.pure_def, Option.map_some,
        Nat.zero_mul, Nat.zero_add, Except.ok.injEq, Option.some.injEq, exists_and_left,
        exists_eq_left']
      have e : (if neg = true then -(((a * 10 ^ fp.length + b : Nat) : Rat) / 10 ^ fp.length)
            else ((a * 10 ^ fp.length + b : Nat) : Rat) / 10 ^ fp.length) =
          (if neg = true then -1 else 1) * ((a : Rat) + (b : Rat) / 10 ^ fp.length) := by
        have : ((a * 10 ^ fp.length + b : Nat) : Rat) / 10 ^ fp.length =
            (a : Rat) + (b : Rat) / 10 ^ fp.length := by
          push_cast
          field_simp
        rw [this]
        cases neg <;> simp
      rw [e]
      exact eq_comm

theorem lexNumber_sound (U : Uni) (hU : U.Lawful) (c : Char) (tail : Str) (pos : Nat) (t : Token)
    (tail' : Str) (pos' : Nat)
    (hc : (U.isDigit c || (c == '-' && headIs U.isDigit tail)) = true)
    (h : lexNumber U c tail pos = .ok (t, tail', pos')) :
    (t.type = .int ∨ t.type = .float) ∧ ∃ w, c :: tail = w ++ tail' ∧ w ≠ [] ∧
      Lexeme U w t.type t.value tail'.head? ∧ t.pos = pos ∧ pos' + 1 = pos + w.length := by
  have key : ∀ num f tail' pos', numLoop U [c] false tail pos = .ok (num, f, tail', pos') →
      NumEnd U tail' ∧ ∃ neg, ((f = false ∧ ∃ ds, num = signed neg ds ∧ ds ≠ [] ∧
        (∀ c ∈ ds, U.isDigit c = true) ∧ c :: tail = signed neg ds ++ tail' ∧
        pos' + 1 = pos + (signed neg ds).length) ∨
      (f = true ∧ ∃ ip fp, num = signed neg (ip ++ '.' :: fp) ∧ ip ≠ [] ∧ fp ≠ [] ∧
        (∀ c ∈ ip, U.isDigit c = true) ∧ (∀ c ∈ fp, U.isDigit c = true) ∧
        c :: tail = signed neg (ip ++ '.' :: fp) ++ tail' ∧
        pos' + 1 = pos + (signed neg (ip ++ '.' :: fp)).length)) := by
    intro num f tail' pos' hn
    simp only [Bool.or_eq_true, Bool.and_eq_true, beq_iff_eq] at hc
    rcases numLoop_false_sound U _ _ _ _ _ _ _ hn with
      ⟨h0, ds, h1, h2, h3, h4, h5⟩ | ⟨h0, ip, fp, h1, h1', h6, h2, h3, h4, h5⟩
    · refine ⟨h5, ?_⟩
      rcases hc with hc | ⟨hc, hh⟩
      · refine ⟨false, Or.inl ⟨h0, c :: ds, by simp [signed, h3], by simp, ?_, by simp [signed, h2],
          by simp [signed]; omega⟩⟩
        intro x hx
        rcases List.mem_cons.mp hx with rfl | hx
        · exact hc
        · exact h1 x hx
      · refine ⟨true, Or.inl ⟨h0, ds, by simp [signed, h3, hc], ?_, h1, by simp [signed, h2, hc],
          by simp [signed]; omega⟩⟩
        rintro rfl
        simp only [List.nil_append] at h2
        subst h2
        cases tail with
        | nil => simp [headIs] at hh
        | cons q tl =>
          have := h5 q rfl
          simp only [headIs] at hh
          simp [hh] at this
    · refine ⟨h5, ?_⟩
      rcases hc with hc | ⟨hc, hh⟩
      · refine ⟨false, Or.inr ⟨h0, c :: ip, fp, by simp [signed, h3], by simp, h6, ?_, h1',
          by simp [signed, h2], by simp [signed]; omega⟩⟩
        intro x hx
        rcases List.mem_cons.mp hx with rfl | hx
        · exact hc
        · exact h1 x hx
      · refine ⟨true, Or.inr ⟨h0, ip, fp, by simp [signed, h3, hc], ?_, h6, h1, h1',
          by simp [signed, h2, hc], by simp [signed]; omega⟩⟩
        rintro rfl
        simp only [List.nil_append] at h2
        subst h2
        simp only [headIs] at hh
        rw [hU.digit_ascii _ rfl] at hh
        exact absurd hh (by decide)
  unfold lexNumber at h
  cases hn : numLoop U [c] false tail pos with
  | error e => rw [hn] at h; simp [bind, Except.bind] at h
  | ok r =>
    obtain ⟨num, f, tl, ps⟩ := r
    rw [hn] at h
    obtain ⟨hend, neg, hk⟩ := key _ _ _ _ hn
    rcases hk with ⟨rfl, ds, rfl, hne, hd, hs, hp⟩ | ⟨rfl, ip, fp, rfl, hne, hnf, hdi, hdf, hs, hp⟩
    · simp only [bind, Except.bind, if_true] at h
      cases hi : pyInt U (signed neg ds) with
      | error e => rw [hi] at h; simp at h
      | ok i =>
        rw [hi] at h
        simp only [pure, Except.pure, Except.ok.injEq, Prod.mk.injEq] at h
        obtain ⟨rfl, rfl, rfl⟩ := h
        obtain ⟨n, hv, hl, rfl⟩ := (pyInt_signed U hU neg ds hne hd i).mp hi
        refine ⟨Or.inl rfl, signed neg ds, hs, by cases neg <;> simp [signed, hne], ?_, rfl, hp⟩
        exact Lexeme.int neg ds n _ hne hd hv hl hend
    · simp only [bind, Except.bind, Bool.true_eq_false, if_false] at h
      cases hi : pyFloat U (signed neg (ip ++ '.' :: fp)) with
      | error e => rw [hi] at h; simp at h
      | ok i =>
        rw [hi] at h
        simp only [pure, Except.pure, Except.ok.injEq, Prod.mk.injEq] at h
        obtain ⟨rfl, rfl, rfl⟩ := h
        obtain ⟨a, b, ha, hb, rfl⟩ := (pyFloat_signed U hU neg ip fp hne hdi i).mp hi
        refine ⟨Or.inr rfl, signed neg (ip ++ '.' :: fp), hs, by cases neg <;> simp [signed], ?_,
          rfl, hp⟩
        have := Lexeme.float (U := U) neg ip fp a b tl.head? hne hnf hdi hdf ha hb hend
        simpa [signed, List.append_assoc] using this

theorem attPrefix_sound (U : Uni) (hU : U.Lawful) (pre : Str) (ty : TokenType)
    (h : attPrefix (U.lower pre) = some ty) : ∃ kw, (kw, ty) ∈ attClasses ∧ Spells pre kw := by
  unfold attPrefix at h
  repeat' split at h
  all_goals first
    | (simp only [Option.some.injEq] at h; subst h)
    | (simp at h)
  · rename_i h1; exact ⟨"user", by decide, (hU.lower_iff _ _ (by decide)).mp h1⟩
  · rename_i h1; exact ⟨"object", by decide, (hU.lower_iff _ _ (by decide)).mp h1⟩
  · rename_i h1; exact ⟨"env", by decide, (hU.lower_iff _ _ (by decide)).mp h1⟩
  · rename_i h1; exact ⟨"admin", by decide, (hU.lower_iff _ _ (by decide)).mp h1⟩
  · rename_i h1; exact ⟨"connect", by decide, (hU.lower_iff _ _ (by decide)).mp h1⟩

theorem attPrefix_complete (U : Uni) (hU : U.Lawful) (pre : Str) (ty : TokenType) (kw : String)
    (hc : (kw, ty) ∈ attClasses) (hs : Spells pre kw) : attPrefix (U.lower pre) = some ty := by
  simp only [attClasses, List.mem_cons, Prod.mk.injEq, List.not_mem_nil, or_false] at hc
  rcases hc with ⟨rfl, rfl⟩ | ⟨rfl, rfl⟩ | ⟨rfl, rfl⟩ | ⟨rfl, rfl⟩ | ⟨rfl, rfl⟩ <;>
    rw [(hU.lower_iff pre _ (by decide)).mpr hs] <;> decide

theorem lexWord_sound (U : Uni) (hU : U.Lawful) (c : Char) (tail : Str) (pos : Nat) (t : Token)
    (isAtt : Bool) (tail' : Str) (pos' : Nat)
    (h : lexWord U c tail pos = .ok (t, isAtt, tail', pos')) :
    t.type ≠ .start ∧ t.type ≠ .«end» ∧ (isAtt = true ↔ IsAtt t.type) ∧
      ∃ w, c :: tail = w ++ tail' ∧ w ≠ [] ∧
      Lexeme U w t.type t.value tail'.head? ∧ t.pos = pos ∧ pos' + 1 = pos + w.length := by
  obtain ⟨ds, h1, tl1, h2, h3, h4⟩ := idLoop_sound U [c] tail pos
  unfold lexWord at h
  rw [h3] at h
  simp only at h
  split at h
  · rename_i hdot
    split at h
    · simp at h
    · rename_i d tl htl
      split at h
      · rename_i hd
        obtain ⟨ds2, g1, tl2, g2, g3, g4⟩ := idLoop_sound U [d] tl (pos + ds.length + 2)
        rw [g3] at h
        simp only at h
        split at h
        · rename_i ty hty
          simp only [Except.ok.injEq, Prod.mk.injEq] at h
          obtain ⟨rfl, rfl, rfl, rfl⟩ := h
          obtain ⟨kw, hkw, hsp⟩ := attPrefix_sound U hU _ _ hty
          have htl1 : tl1 = '.' :: d :: tl := by
            cases tl1 with
            | nil => simp at hdot
            | cons a b =>
              simp only [List.head?_cons, Option.some.injEq] at hdot
              simp only [List.tail_cons] at htl
              rw [hdot, htl]
          have hid : ∀ x ∈ d :: ds2, IdChar U x := by
            intro x hx
            rcases List.mem_cons.mp hx with rfl | hx
            · exact (idChar_iff U x).mp hd
            · exact g1 x hx
          refine ⟨?_, ?_, ?_, ([c] ++ ds) ++ '.' :: (d :: ds2), ?_, by simp,
            Lexeme.att _ _ kw ty _ hkw hsp (by simp) hid g4, rfl, ?_⟩
          · rintro e
            simp only at e
            subst e; revert hkw; simp [attClasses]
          · rintro e
            simp only at e
            subst e; revert hkw; simp [attClasses]
          · simp only [true_iff]; exact ⟨kw, hkw⟩
          · simp [h2, htl1, g2]
          · simp; omega
        · simp at h
      · simp at h
  · rename_i hdot
    have hend : ∀ x, tl1.head? = some x → ¬ IdChar U x ∧ x ≠ '.' := by
      intro x hx
      refine ⟨h4 x hx, ?_⟩
      rintro rfl
      exact hdot hx
    have main : ∀ kw ty v, (kw, ty, v) ∈ keywords → kw.toList ∈ reservedWords →
        U.lower ([c] ++ ds) = kw.toList →
        (∃ w, c :: tail = w ++ tl1 ∧ w ≠ [] ∧
          Lexeme U w ty (.str v.toList) tl1.head? ∧ (pos : Int) = pos ∧
            pos + ds.length + 1 = pos + w.length) := by
      intro kw ty v hk hr hl
      refine ⟨[c] ++ ds, by simp [h2], by simp,
        Lexeme.keyword _ kw ty v _ hk ((hU.lower_iff _ _ hr).mp hl) hend, rfl, by simp; omega⟩
    have up : ∀ kw v : String, kw.toList ∈ reservedWords → kw.toList.map asciiUpper = v.toList →
        U.lower ([c] ++ ds) = kw.toList → U.upper ([c] ++ ds) = v.toList := by
      intro kw v hr hv hl
      rw [← hv]
      exact hU.upper_of_spells _ kw hr ((hU.lower_iff _ _ hr).mp hl)
    simp only [List.mem_cons, List.not_mem_nil, or_false] at h
    split at h
    · rename_i hw
      simp only [Except.ok.injEq, Prod.mk.injEq] at h
      obtain ⟨rfl, rfl, rfl, rfl⟩ := h
      refine ⟨by simp, by simp, by simp [IsAtt, attClasses], ?_⟩
      rcases hw with hw | hw
      · rw [up "in" "IN" (by decide) (by decide) hw]
        exact main "in" .op "IN" (by decide) (by decide) hw
      · rw [up "subset" "SUBSET" (by decide) (by decide) hw]
        exact main "subset" .op "SUBSET" (by decide) (by decide) hw
    · split at h
      · rename_i hw
        simp only [Except.ok.injEq, Prod.mk.injEq] at h
        obtain ⟨rfl, rfl, rfl, rfl⟩ := h
        refine ⟨by simp, by simp, by simp [IsAtt, attClasses], ?_⟩
        rcases hw with hw | hw
        · rw [up "and" "AND" (by decide) (by decide) hw]
          exact main "and" .boolOp "AND" (by decide) (by decide) hw
        · rw [up "or" "OR" (by decide) (by decide) hw]
          exact main "or" .boolOp "OR" (by decide) (by decide) hw
      · split at h
        · rename_i hw
          simp only [Except.ok.injEq, Prod.mk.injEq] at h
          obtain ⟨rfl, rfl, rfl, rfl⟩ := h
          refine ⟨by simp, by simp, by simp [IsAtt, attClasses], ?_⟩
          rcases hw with hw | hw | hw
          · rw [up "true" "TRUE" (by decide) (by decide) hw]
            exact main "true" .bool "TRUE" (by decide) (by decide) hw
          · rw [up "false" "FALSE" (by decide) (by decide) hw]
            exact main "false" .bool "FALSE" (by decide) (by decide) hw
          · rw [up "undef" "UNDEF" (by decide) (by decide) hw]
            exact main "undef" .bool "UNDEF" (by decide) (by decide) hw
        · split at h
          · rename_i hw
            simp only [Except.ok.injEq, Prod.mk.injEq] at h
            obtain ⟨rfl, rfl, rfl, rfl⟩ := h
            exact ⟨by simp, by simp, by simp [IsAtt, attClasses],
              main "not" .notOp "NOT" (by decide) (by decide) hw⟩
          · split at h
            · rename_i hw
              simp only [Except.ok.injEq, Prod.mk.injEq] at h
              obtain ⟨rfl, rfl, rfl, rfl⟩ := h
              exact ⟨by simp, by simp, by simp [IsAtt, attClasses],
                main "null" .null "NULL" (by decide) (by decide) hw⟩
            · simp at h

theorem lexOne_sound (U : Uni) (hU : U.Lawful) (c : Char) (tail : Str) (pos : Nat) (t : Token)
    (isAtt : Bool) (tail' : Str) (pos' : Nat)
    (h : lexOne U c tail pos = .ok (t, isAtt, tail', pos')) :
    t.type ≠ .start ∧ t.type ≠ .«end» ∧ (isAtt = true ↔ IsAtt t.type) ∧
      ∃ w, c :: tail = w ++ tail' ∧ w ≠ [] ∧
      Lexeme U w t.type t.value tail'.head? ∧ t.pos = pos ∧ pos' + 1 = pos + w.length := by
  have P : ∀ w ty v nx, (w, ty, v) ∈ punctuation → Lexeme U w.toList ty (optVal v) nx :=
    fun w ty v nx h => Lexeme.punct w ty v nx h
  have two : ∀ ch : Char, tail.head? = some ch → tail = ch :: tail.tail := by
    intro ch hh
    cases tail with
    | nil => simp at hh
    | cons a b => simp at hh; simp [hh]
  unfold lexOne at h
  by_cases hc : c = '{'
  · rw [if_pos hc] at h
    subst hc
    simp only [Except.ok.injEq, Prod.mk.injEq] at h
    obtain ⟨rfl, rfl, rfl, rfl⟩ := h
    exact ⟨by simp, by simp, by simp [IsAtt, attClasses], ['{'], rfl, by simp,
      P "{" .lset none _ (by decide), rfl, by simp⟩
  rw [if_neg hc] at h
  clear hc
  by_cases hc : c = '}'
  · rw [if_pos hc] at h
    subst hc
    simp only [Except.ok.injEq, Prod.mk.injEq] at h
    obtain ⟨rfl, rfl, rfl, rfl⟩ := h
    exact ⟨by simp, by simp, by simp [IsAtt, attClasses], ['}'], rfl, by simp,
      P "}" .rset none _ (by decide), rfl, by simp⟩
  rw [if_neg hc] at h
  clear hc
  by_cases hc : c = ','
  · rw [if_pos hc] at h
    subst hc
    simp only [Except.ok.injEq, Prod.mk.injEq] at h
    obtain ⟨rfl, rfl, rfl, rfl⟩ := h
    exact ⟨by simp, by simp, by simp [IsAtt, attClasses], [','], rfl, by simp,
      P "," .comma none _ (by decide), rfl, by simp⟩
  rw [if_neg hc] at h
  clear hc
  by_cases hc : c = '('
  · rw [if_pos hc] at h
    subst hc
    simp only [Except.ok.injEq, Prod.mk.injEq] at h
    obtain ⟨rfl, rfl, rfl, rfl⟩ := h
    exact ⟨by simp, by simp, by simp [IsAtt, attClasses], ['('], rfl, by simp,
      P "(" .lparn none _ (by decide), rfl, by simp⟩
  rw [if_neg hc] at h
  clear hc
  by_cases hc : c = ')'
  · rw [if_pos hc] at h
    subst hc
    simp only [Except.ok.injEq, Prod.mk.injEq] at h
    obtain ⟨rfl, rfl, rfl, rfl⟩ := h
    exact ⟨by simp, by simp, by simp [IsAtt, attClasses], [')'], rfl, by simp,
      P ")" .rparn none _ (by decide), rfl, by simp⟩
  rw [if_neg hc] at h
  clear hc
  by_cases hc : c = '='
  · rw [if_pos hc] at h
    subst hc
    simp only [Except.ok.injEq, Prod.mk.injEq] at h
    obtain ⟨rfl, rfl, rfl, rfl⟩ := h
    exact ⟨by simp, by simp, by simp [IsAtt, attClasses], ['='], rfl, by simp,
      P "=" .op (some "=") _ (by decide), rfl, by simp⟩
  rw [if_neg hc] at h
  clear hc
  by_cases hc : c = '>'
  · rw [if_pos hc] at h
    subst hc
    split at h
    · rename_i he
      simp only [Except.ok.injEq, Prod.mk.injEq] at h
      obtain ⟨rfl, rfl, rfl, rfl⟩ := h
      exact ⟨by simp, by simp, by simp [IsAtt, attClasses], ['>', '='],
        by rw [List.cons_append, List.cons_append, List.nil_append, ← two _ he], by simp,
        P ">=" .op (some ">=") _ (by decide), rfl, by simp⟩
    · rename_i he
      simp only [Except.ok.injEq, Prod.mk.injEq] at h
      obtain ⟨rfl, rfl, rfl, rfl⟩ := h
      exact ⟨by simp, by simp, by simp [IsAtt, attClasses], ['>'], rfl, by simp,
        Lexeme.gt _ he, rfl, by simp⟩
  rw [if_neg hc] at h
  clear hc
  by_cases hc : c = '<'
  · rw [if_pos hc] at h
    subst hc
    split at h
    · rename_i he
      simp only [Except.ok.injEq, Prod.mk.injEq] at h
      obtain ⟨rfl, rfl, rfl, rfl⟩ := h
      exact ⟨by simp, by simp, by simp [IsAtt, attClasses], ['<', '='],
        by rw [List.cons_append, List.cons_append, List.nil_append, ← two _ he], by simp,
        P "<=" .op (some "<=") _ (by decide), rfl, by simp⟩
    · rename_i he
      simp only [Except.ok.injEq, Prod.mk.injEq] at h
      obtain ⟨rfl, rfl, rfl, rfl⟩ := h
      exact ⟨by simp, by simp, by simp [IsAtt, attClasses], ['<'], rfl, by simp,
        Lexeme.lt _ he, rfl, by simp⟩
  rw [if_neg hc] at h
  clear hc
  by_cases hc : c = '!'
  · rw [if_pos hc] at h
    subst hc
    split at h
    · rename_i he
      simp only [Except.ok.injEq, Prod.mk.injEq] at h
      obtain ⟨rfl, rfl, rfl, rfl⟩ := h
      exact ⟨by simp, by simp, by simp [IsAtt, attClasses], ['!', '='],
        by rw [List.cons_append, List.cons_append, List.nil_append, ← two _ he], by simp,
        P "!=" .op (some "!=") _ (by decide), rfl, by simp⟩
    · simp at h
  rw [if_neg hc] at h
  clear hc
  by_cases hc : c = '"'
  · rw [if_pos hc] at h
    subst hc
    unfold lexString at h
    cases hs : stringLoop pos [] tail (pos + 1) with
    | error e => rw [hs] at h; simp [bind, Except.bind] at h
    | ok r =>
      obtain ⟨s, tl, ps⟩ := r
      rw [hs] at h
      simp only [bind, Except.bind, pure, Except.pure, Except.ok.injEq, Prod.mk.injEq] at h
      obtain ⟨rfl, rfl, rfl, rfl⟩ := h
      obtain ⟨body, h1, h2, h3, h4⟩ := stringLoop_sound _ _ _ _ _ _ _ hs
      simp only [List.nil_append] at h2
      subst h2
      exact ⟨by simp, by simp, by simp [IsAtt, attClasses], '"' :: s ++ ['"'], by simp [h1],
        by simp, Lexeme.string s _ h4, rfl, by simp; omega⟩
  rw [if_neg hc] at h
  clear hc
  by_cases hc : (U.isDigit c || (c == '-' && headIs U.isDigit tail)) = true
  · rw [if_pos hc] at h
    cases hn : lexNumber U c tail pos with
    | error e => rw [hn] at h; simp [bind, Except.bind] at h
    | ok r =>
      obtain ⟨s, tl, ps⟩ := r
      rw [hn] at h
      simp only [bind, Except.bind, pure, Except.pure, Except.ok.injEq, Prod.mk.injEq] at h
      obtain ⟨rfl, rfl, rfl, rfl⟩ := h
      obtain ⟨hty, hrest⟩ := lexNumber_sound U hU c tail pos _ _ _ hc hn
      refine ⟨?_, ?_, ?_, hrest⟩
      · rcases hty with e | e <;> rw [e] <;> decide
      · rcases hty with e | e <;> rw [e] <;> decide
      · rcases hty with e | e <;> rw [e] <;> simp [IsAtt, attClasses]
  rw [if_neg hc] at h
  clear hc
  by_cases hc : U.isAlpha c = true
  · rw [if_pos hc] at h
    exact lexWord_sound U hU c tail pos t isAtt tail' pos' h
  · rw [if_neg hc] at h
    simp at h

end Verif

