import Verif.Proofs.LexerRun
/-!
Helper lemmas: the exceptions of the lexer.
-/

namespace Verif
open Spec

/-- What an exception raised while reading the text `s` (starting at `pos`) can be. -/
def LexFail (U : Uni) (s : Str) (pos : Nat) (e : PyExc) : Prop :=
  (∃ p : Nat, e = .lexerError p ∧ pos ≤ p ∧ p ≤ pos + s.length) ∨
  (e = .attributeError ∧ s.getLast? = some '.') ∨
  (e = .valueError ∧ ((∃ c ∈ s, U.isDigit c = true ∧ U.digitVal c = none) ∨
    ∃ m, U.intLimit = some m ∧ m < s.length))

theorem LexFail.mono {U : Uni} {s : Str} {pos : Nat} {e : PyExc} (pre : Str)
    (h : LexFail U s (pos + pre.length) e) : LexFail U (pre ++ s) pos e := by
  rcases h with ⟨p, h1, h2, h3⟩ | ⟨h1, h2⟩ | ⟨h1, h2⟩
  · exact Or.inl ⟨p, h1, by omega, by simp <;> omega⟩
  · refine Or.inr (Or.inl ⟨h1, ?_⟩)
    rw [List.getLast?_append, h2]; rfl
  · refine Or.inr (Or.inr ⟨h1, ?_⟩)
    rcases h2 with ⟨c, hc, h⟩ | ⟨m, h, hm⟩
    · exact Or.inl ⟨c, by simp [hc], h⟩
    · exact Or.inr ⟨m, h, by simp <;> omega⟩

theorem stringLoop_error (start : Nat) (acc s : Str) (pos : Nat) (e : PyExc) (hs : start ≤ pos)
    (h : stringLoop start acc s pos = .error e) :
    ∃ p : Nat, e = .lexerError p ∧ start ≤ p ∧ p ≤ pos + s.length := by
  induction s generalizing acc pos with
  | nil =>
    simp only [stringLoop, Except.error.injEq] at h
    exact ⟨start, h.symm, by omega, by simp <;> omega⟩
  | cons c t ih =>
    rw [stringLoop] at h
    split at h
    · simp at h
    · split at h
      · obtain ⟨p, h1, h2, h3⟩ := ih _ _ (by omega) h
        exact ⟨p, h1, h2, by simp <;> omega⟩
      · simp only [Except.error.injEq] at h
        exact ⟨pos, h.symm, by omega, by simp⟩

theorem numLoop_error (U : Uni) (acc : Str) (f : Bool) (s : Str) (pos : Nat) (e : PyExc)
    (h : numLoop U acc f s pos = .error e) :
    ∃ p : Nat, e = .lexerError p ∧ pos ≤ p ∧ p ≤ pos + s.length + 1 := by
  induction s generalizing acc pos f with
  | nil => simp [numLoop] at h
  | cons c t ih =>
    rw [numLoop] at h
    split at h
    · obtain ⟨p, h1, h2, h3⟩ := ih _ _ _ h
      exact ⟨p, h1, by omega, by simp <;> omega⟩
    · split at h
      · split at h
        · split at h
          · obtain ⟨p, h1, h2, h3⟩ := ih _ _ _ h
            exact ⟨p, h1, by omega, by simp <;> omega⟩
          · simp only [Except.error.injEq] at h
            exact ⟨pos + 2, h.symm, by omega, by simp <;> omega⟩
        · simp only [Except.error.injEq] at h
          exact ⟨pos + 1, h.symm, by omega, by simp⟩
      · simp at h

theorem decVal_none (U : Uni) (ds : Str) (h : decVal U ds = none) :
    ∃ c ∈ ds, U.digitVal c = none := by
  induction ds with
  | nil => simp [decVal] at h
  | cons c tl ih =>
    rw [decVal] at h
    cases hc : U.digitVal c with
    | none => exact ⟨c, by simp, hc⟩
    | some d =>
      rw [hc] at h
      cases ht : decVal U tl with
      | none =>
        obtain ⟨x, hx, hv⟩ := ih ht
        exact ⟨x, by simp [hx], hv⟩
      | some n => rw [ht] at h; simp at h

/-- All characters after the sign are digits or the point. -/
theorem pyInt_error (U : Uni) (s : Str) (e : PyExc) (h : pyInt U s = .error e) :
    e = .valueError ∧ ((∃ c ∈ (splitSign s).2, U.digitVal c = none) ∨
      ∃ m, U.intLimit = some m ∧ m < (splitSign s).2.length) := by
  unfold pyInt at h
  simp only [digitsVal_eq] at h
  cases hv : decVal U (splitSign s).2 with
  | none =>
    rw [hv] at h
    simp only [Option.map_none, Except.error.injEq] at h
    exact ⟨h.symm, Or.inl (decVal_none U _ hv)⟩
  | some n =>
    rw [hv] at h
    simp only [Option.map_some] at h
    cases hl : U.intLimit with
    | none => rw [hl] at h; simp at h
    | some m =>
      rw [hl] at h
      simp only at h
      split at h
      · rename_i hm
        simp only [Except.error.injEq] at h
        exact ⟨h.symm, Or.inr ⟨m, rfl, hm⟩⟩
      · simp at h

theorem pyFloat_error (U : Uni) (s : Str) (e : PyExc) (h : pyFloat U s = .error e) :
    e = .valueError ∧ ∃ c ∈ (splitSign s).2.takeWhile (· ≠ '.') ++
      ((splitSign s).2.dropWhile (· ≠ '.')).tail, U.digitVal c = none := by
  unfold pyFloat at h
  simp only [digitsVal_eq] at h
  cases hv : decVal U ((splitSign s).2.takeWhile (· ≠ '.') ++
      ((splitSign s).2.dropWhile (· ≠ '.')).tail) with
  | none =>
    rw [hv] at h
    simp only [Option.map_none, Except.error.injEq] at h
    exact ⟨h.symm, decVal_none U _ hv⟩
  | some n => rw [hv] at h; simp at h

theorem lexNumber_error (U : Uni) (hU : U.Lawful) (c : Char) (tail : Str) (pos : Nat) (e : PyExc)
    (hc : (U.isDigit c || (c == '-' && headIs U.isDigit tail)) = true)
    (h : lexNumber U c tail pos = .error e) : LexFail U (c :: tail) pos e := by
  unfold lexNumber at h
  cases hn : numLoop U [c] false tail pos with
  | error e' =>
    rw [hn] at h
    simp only [bind, Except.bind, Except.error.injEq] at h
    obtain ⟨p, h1, h2, h3⟩ := numLoop_error U _ _ _ _ _ hn
    exact Or.inl ⟨p, h ▸ h1, h2, by simp <;> omega⟩
  | ok r =>
    obtain ⟨num, f, tl, ps⟩ := r
    rw [hn] at h
    have hsign : ∀ ds : Str, (∀ x ∈ ds, U.isDigit x = true) →
        ∀ suf : Str, (splitSign (c :: ds ++ suf)).2 = (if U.isDigit c then c :: ds else ds) ++ suf := by
      intro ds hds suf
      simp only [Bool.or_eq_true, Bool.and_eq_true, beq_iff_eq] at hc
      rcases hc with hc | ⟨hc, hh⟩
      · have hm : c ≠ '-' := by
          rintro rfl
          rw [hU.digit_ascii _ (by decide)] at hc
          exact absurd hc (by decide)
        rw [if_pos hc, List.cons_append, splitSign_of_ne _ _ hm]
      · subst hc
        rw [if_neg (by rw [hU.digit_ascii _ (by decide)]; decide)]
        rfl
    rcases numLoop_false_sound U _ _ _ _ _ _ _ hn with
      ⟨h0, ds, h1, h2, h3, h4, h5⟩ | ⟨h0, ip, fp, h1, h1', h6, h2, h3, h4, h5⟩
    · subst h0
      simp only [bind, Except.bind, if_true] at h
      cases hi : pyInt U num with
      | ok i => rw [hi] at h; simp [pure, Except.pure] at h
      | error e' =>
        rw [hi] at h
        simp only [Except.error.injEq] at h
        subst h
        obtain ⟨g1, g2⟩ := pyInt_error U _ _ hi
        have hs := hsign ds h1 []
        simp only [List.append_nil] at hs
        rw [h3, List.cons_append, List.nil_append, hs] at g2
        refine Or.inr (Or.inr ⟨g1, ?_⟩)
        rcases g2 with ⟨x, hx, hv⟩ | ⟨m, hm, hlt⟩
        · refine Or.inl ⟨x, ?_, ?_, hv⟩
          · rw [h2]
            split at hx
            · rcases List.mem_cons.mp hx with rfl | hx
              · simp
              · simp [hx]
            · simp [hx]
          · split at hx
            · rename_i hcd
              rcases List.mem_cons.mp hx with rfl | hx
              · exact hcd
              · exact h1 x hx
            · exact h1 x hx
        · refine Or.inr ⟨m, hm, ?_⟩
          rw [h2]
          split at hlt <;> simp at hlt ⊢ <;> omega
    · subst h0
      simp only [bind, Except.bind, Bool.true_eq_false, if_false] at h
      cases hi : pyFloat U num with
      | ok i => rw [hi] at h; simp [pure, Except.pure] at h
      | error e' =>
        rw [hi] at h
        simp only [Except.error.injEq] at h
        subst h
        obtain ⟨g1, x, hx, hv⟩ := pyFloat_error U _ _ hi
        have hs := hsign ip h1 ('.' :: fp)
        rw [h3, List.cons_append, List.nil_append, hs] at hx
        have hip : ∀ x ∈ (if U.isDigit c then c :: ip else ip), U.isDigit x = true := by
          intro x hx
          split at hx
          · rename_i hcd
            rcases List.mem_cons.mp hx with rfl | hx
            · exact hcd
            · exact h1 x hx
          · exact h1 x hx
        obtain ⟨k1, k2⟩ := takeWhile_ne_dot U hU _ fp hip
        rw [k1, k2] at hx
        refine Or.inr (Or.inr ⟨g1, Or.inl ⟨x, ?_, ?_, hv⟩⟩)
        · rw [h2]
          rcases List.mem_append.mp hx with hx | hx
          · split at hx
            · rcases List.mem_cons.mp hx with rfl | hx
              · simp
              · simp [hx]
            · simp [hx]
          · simp [hx]
        · rcases List.mem_append.mp hx with hx | hx
          · exact hip x hx
          · exact h1' x hx

theorem lexWord_error (U : Uni) (c : Char) (tail : Str) (pos : Nat) (e : PyExc)
    (h : lexWord U c tail pos = .error e) : LexFail U (c :: tail) pos e := by
  obtain ⟨ds, h1, tl1, h2, h3, h4⟩ := idLoop_sound U [c] tail pos
  have here : LexFail U (c :: tail) pos (.lexerError pos) :=
    Or.inl ⟨pos, rfl, by omega, by simp <;> omega⟩
  unfold lexWord at h
  rw [h3] at h
  simp only at h
  split at h
  · rename_i hdot
    split at h
    · rename_i htl
      simp only [Except.error.injEq] at h
      subst h
      refine Or.inr (Or.inl ⟨rfl, ?_⟩)
      have : tl1 = ['.'] := by
        cases tl1 with
        | nil => simp at hdot
        | cons a b => simp at hdot htl; simp [hdot, htl]
      rw [h2, this, ← List.cons_append, List.getLast?_append]
      rfl
    · rename_i d tl htl
      have hlen : ds.length + 2 ≤ tail.length := by
        rw [h2]
        cases tl1 with
        | nil => simp at hdot
        | cons a b => simp at htl; simp [htl]
      split at h
      · obtain ⟨ds2, g1, tl2, g2, g3, g4⟩ := idLoop_sound U [d] tl (pos + ds.length + 2)
        rw [g3] at h
        simp only at h
        split at h
        · simp at h
        · simp only [Except.error.injEq] at h
          subst h
          exact here
      · simp only [Except.error.injEq] at h
        subst h
        exact Or.inl ⟨pos + ds.length + 2, by push_cast; rfl, by omega, by simp <;> omega⟩
  · split at h
    · simp at h
    · split at h
      · simp at h
      · split at h
        · simp at h
        · split at h
          · simp at h
          · split at h
            · simp at h
            · simp only [Except.error.injEq] at h
              subst h
              exact here

theorem lexOne_error (U : Uni) (hU : U.Lawful) (c : Char) (tail : Str) (pos : Nat) (e : PyExc)
    (h : lexOne U c tail pos = .error e) : LexFail U (c :: tail) pos e := by
  unfold lexOne at h
  by_cases hc : c = '{'
  · rw [if_pos hc] at h; simp at h
  rw [if_neg hc] at h; clear hc
  by_cases hc : c = '}'
  · rw [if_pos hc] at h; simp at h
  rw [if_neg hc] at h; clear hc
  by_cases hc : c = ','
  · rw [if_pos hc] at h; simp at h
  rw [if_neg hc] at h; clear hc
  by_cases hc : c = '('
  · rw [if_pos hc] at h; simp at h
  rw [if_neg hc] at h; clear hc
  by_cases hc : c = ')'
  · rw [if_pos hc] at h; simp at h
  rw [if_neg hc] at h; clear hc
  by_cases hc : c = '='
  · rw [if_pos hc] at h; simp at h
  rw [if_neg hc] at h; clear hc
  by_cases hc : c = '>'
  · rw [if_pos hc] at h; split at h <;> simp at h
  rw [if_neg hc] at h; clear hc
  by_cases hc : c = '<'
  · rw [if_pos hc] at h; split at h <;> simp at h
  rw [if_neg hc] at h; clear hc
  by_cases hc : c = '!'
  · rw [if_pos hc] at h
    split at h
    · simp at h
    · simp only [Except.error.injEq] at h
      subst h
      exact Or.inl ⟨pos + 1, rfl, by omega, by simp⟩
  rw [if_neg hc] at h; clear hc
  by_cases hc : c = '"'
  · rw [if_pos hc] at h
    unfold lexString at h
    cases hs : stringLoop pos [] tail (pos + 1) with
    | ok r => rw [hs] at h; simp [bind, Except.bind, pure, Except.pure] at h
    | error e' =>
      rw [hs] at h
      simp only [bind, Except.bind, Except.error.injEq] at h
      obtain ⟨p, h1, h2, h3⟩ := stringLoop_error _ _ _ _ _ (by omega) hs
      exact Or.inl ⟨p, h ▸ h1, h2, by simp <;> omega⟩
  rw [if_neg hc] at h; clear hc
  by_cases hc : (U.isDigit c || (c == '-' && headIs U.isDigit tail)) = true
  · rw [if_pos hc] at h
    cases hn : lexNumber U c tail pos with
    | ok r => rw [hn] at h; simp [bind, Except.bind, pure, Except.pure] at h
    | error e' =>
      rw [hn] at h
      simp only [bind, Except.bind, Except.error.injEq] at h
      exact h ▸ lexNumber_error U hU c tail pos _ hc hn
  rw [if_neg hc] at h; clear hc
  by_cases hc : U.isAlpha c = true
  · rw [if_pos hc] at h
    exact lexWord_error U c tail pos e h
  · rw [if_neg hc] at h
    simp only [Except.error.injEq] at h
    subst h
    exact Or.inl ⟨pos, rfl, by omega, by simp <;> omega⟩

theorem run_error (U : Uni) (hU : U.Lawful) (n : Nat) (s : LexState) (e : PyExc) (hn : s.enough n)
    (h : s.tokenizeFuel U n = .error e) : LexFail U s.rest s.pos e := by
  induction n generalizing s with
  | zero => rcases hn with h | ⟨_, _, h⟩ <;> omega
  | succ n ih =>
    rw [LexState.tokenizeFuel] at h
    cases hx : s.next U with
    | ok r =>
      obtain ⟨s', t⟩ := r
      rw [hx] at h
      cases t with
      | none => simp [bind, Except.bind, pure, Except.pure] at h
      | some t =>
        simp only [bind, Except.bind] at h
        have := ih s' (next_enough U hU s s' t n hn hx) h
        unfold LexState.next at hx
        cases hs : skipSpace U s.rest s.pos with
        | mk r p =>
          rw [hs] at hx
          obtain ⟨ws, h1, h2, h3, h4⟩ := skipSpace_sound U _ _ _ _ hs
          cases r with
          | nil =>
            simp only at hx
            split at hx
            · simp only [Except.ok.injEq, Prod.mk.injEq, Option.some.injEq] at hx
              obtain ⟨rfl, rfl⟩ := hx
              exfalso
              have he : LexState.ended ⟨[], p + 1, s.toks ++ [⟨.«end», p, .none⟩], s.atts⟩ := by
                simp [LexState.ended]
              cases n with
              | zero =>
                rename_i hne
                rcases hn with hn | ⟨_, hn, _⟩
                · omega
                · exact hne hn
              | succ n =>
                rw [fuel_tokenize U hU _ _ (Or.inr ⟨rfl, he, by omega⟩),
                  tokenize_ended U hU _ rfl he] at h
                simp at h
            · simp at hx
          | cons c tail =>
            simp only at hx
            cases ho : lexOne U c tail p with
            | error e => rw [ho] at hx; simp [bind, Except.bind] at hx
            | ok r =>
              obtain ⟨t', isAtt, tail', pos'⟩ := r
              rw [ho] at hx
              simp only [bind, Except.bind, pure, Except.pure, Except.ok.injEq, Prod.mk.injEq,
                Option.some.injEq] at hx
              obtain ⟨rfl, rfl⟩ := hx
              obtain ⟨_, _, _, w, g4, _, _, _, g8⟩ := lexOne_sound U hU _ _ _ _ _ _ _ ho
              have e1 : s.rest = (ws ++ w) ++ tail' := by rw [h1, g4]; simp
              rw [e1]
              apply LexFail.mono
              have e2 : s.pos + (ws ++ w).length = pos' + 1 := by simp; omega
              rw [e2]
              exact this
    | error e' =>
      rw [hx] at h
      simp only [bind, Except.bind, Except.error.injEq] at h
      subst h
      unfold LexState.next at hx
      cases hs : skipSpace U s.rest s.pos with
      | mk r p =>
        rw [hs] at hx
        obtain ⟨ws, h1, h2, h3, h4⟩ := skipSpace_sound U _ _ _ _ hs
        cases r with
        | nil =>
          simp only at hx
          split at hx <;> simp at hx
        | cons c tail =>
          simp only at hx
          cases ho : lexOne U c tail p with
          | ok r => rw [ho] at hx; simp [bind, Except.bind, pure, Except.pure] at hx
          | error e =>
            rw [ho] at hx
            simp only [bind, Except.bind, Except.error.injEq] at hx
            subst hx
            rw [h1]
            apply LexFail.mono
            rw [← h3]
            exact lexOne_error U hU c tail p _ ho

end Verif
