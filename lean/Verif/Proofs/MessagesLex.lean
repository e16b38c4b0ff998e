import Verif.Proofs.Messages
import Verif.Proofs.LexerErrors
import Verif.Spec.LexErrors
/-!
# The errors of one step of the lexer
-/

namespace Verif.Proofs
open Verif Verif.Spec

/-! ### Numbers -/

/-- No digit comes next. -/
def NoDigit (U : Uni) (s : Str) : Prop := ∀ d, s.head? = some d → U.isDigit d = false

theorem headIs_false (U : Uni) (s : Str) : headIs U.isDigit s = false ↔ NoDigit U s := by
  cases s <;> simp [headIs, NoDigit]

theorem headIs_true (U : Uni) (s : Str) : headIs U.isDigit s = true ↔ ¬ NoDigit U s := by
  rw [← headIs_false]; simp

theorem numLoopM_true_error (U : Uni) (hU : U.Lawful) (start : Nat) (acc s : Str) (pos : Nat) (r : SyntaxErr) :
    numLoopM U start acc true s pos = .error r ↔ ∃ ds tl, s = ds ++ '.' :: tl ∧ (∀ c ∈ ds, U.isDigit c = true) ∧
      r = .lexer msgDots (pos + ds.length + 1 : Nat) (some ⟨.float, start, .none⟩) := by
  have hdot : U.isDigit '.' = false := hU.digit_false _ rfl rfl
  induction s generalizing acc pos with
  | nil => simp [numLoopM]
  | cons c t ih =>
    rw [numLoopM]
    by_cases hc : U.isDigit c = true
    · rw [if_pos hc]
      refine (ih _ _).trans ?_
      constructor
      · rintro ⟨ds, tl, rfl, h1, rfl⟩
        refine ⟨c :: ds, tl, rfl, by simpa [hc] using h1, ?_⟩
        simp only [List.length_cons]; congr 2; omega
      · rintro ⟨ds, tl, h0, h1, rfl⟩
        cases ds with
        | nil => simp only [List.nil_append, List.cons.injEq] at h0; rw [h0.1, hdot] at hc; simp at hc
        | cons d ds =>
          simp only [List.cons_append, List.cons.injEq] at h0
          refine ⟨ds, tl, h0.2, fun x hx => h1 x (by simp [hx]), ?_⟩
          simp only [List.length_cons]; congr 2; omega
    · rw [if_neg hc]
      by_cases hd : c = '.'
      · rw [if_pos hd]
        simp only [Bool.true_eq_false, if_false, Except.error.injEq]
        constructor
        · rintro rfl; exact ⟨[], t, by simp [hd], by simp, by simp⟩
        · rintro ⟨ds, tl, h0, h1, rfl⟩
          cases ds with
          | nil => simp
          | cons d ds =>
            simp only [List.cons_append, List.cons.injEq] at h0
            exact absurd (h0.1 ▸ h1 d (by simp)) hc
      · rw [if_neg hd]
        simp only [reduceCtorEq, false_iff, not_exists, not_and]
        intro ds tl h0 h1
        cases ds with
        | nil => simp only [List.nil_append, List.cons.injEq] at h0; exact absurd h0.1 hd
        | cons d ds =>
          simp only [List.cons_append, List.cons.injEq] at h0
          exact absurd (h0.1 ▸ h1 d (by simp)) hc

/-- How the loop of `_number` fails on the text after the first character. -/
def NumBad (U : Uni) (start : Nat) (s : Str) (pos : Nat) (r : SyntaxErr) : Prop :=
  (∃ ds tl, s = ds ++ '.' :: tl ∧ (∀ c ∈ ds, U.isDigit c = true) ∧ NoDigit U tl ∧
    r = .lexer (msgDot tl) (pos + ds.length + 2 : Nat) (some ⟨.float, start, .none⟩)) ∨
  (∃ ip fp tl, s = ip ++ '.' :: (fp ++ '.' :: tl) ∧ (∀ c ∈ ip, U.isDigit c = true) ∧ (∀ c ∈ fp, U.isDigit c = true) ∧ fp ≠ [] ∧
    r = .lexer msgDots (pos + ip.length + 1 + fp.length + 1 : Nat) (some ⟨.float, start, .none⟩))

theorem NumBad.cons (U : Uni) (hU : U.Lawful) (start : Nat) (c : Char) (t : Str) (pos : Nat) (r : SyntaxErr)
    (hc : U.isDigit c = true) : NumBad U start (c :: t) pos r ↔ NumBad U start t (pos + 1) r := by
  have hdot : U.isDigit '.' = false := hU.digit_false _ rfl rfl
  constructor
  · rintro (⟨ds, tl, h0, h1, h2, rfl⟩ | ⟨ip, fp, tl, h0, h1, h2, h3, rfl⟩)
    · cases ds with
      | nil => simp only [List.nil_append, List.cons.injEq] at h0; rw [h0.1, hdot] at hc; simp at hc
      | cons d ds =>
        simp only [List.cons_append, List.cons.injEq] at h0
        refine Or.inl ⟨ds, tl, h0.2, fun x hx => h1 x (by simp [hx]), h2, ?_⟩
        simp only [List.length_cons]; congr 2; omega
    · cases ip with
      | nil => simp only [List.nil_append, List.cons.injEq] at h0; rw [h0.1, hdot] at hc; simp at hc
      | cons d ip =>
        simp only [List.cons_append, List.cons.injEq] at h0
        refine Or.inr ⟨ip, fp, tl, h0.2, fun x hx => h1 x (by simp [hx]), h2, h3, ?_⟩
        simp only [List.length_cons]; congr 2; omega
  · rintro (⟨ds, tl, rfl, h1, h2, rfl⟩ | ⟨ip, fp, tl, rfl, h1, h2, h3, rfl⟩)
    · refine Or.inl ⟨c :: ds, tl, rfl, by simpa [hc] using h1, h2, ?_⟩
      simp only [List.length_cons]; congr 2; omega
    · refine Or.inr ⟨c :: ip, fp, tl, rfl, by simpa [hc] using h1, h2, h3, ?_⟩
      simp only [List.length_cons]; congr 2; omega

theorem numLoopM_false_error (U : Uni) (hU : U.Lawful) (start : Nat) (acc s : Str) (pos : Nat) (r : SyntaxErr) :
    numLoopM U start acc false s pos = .error r ↔ NumBad U start s pos r := by
  induction s generalizing acc pos with
  | nil => simp [numLoopM, NumBad]
  | cons c t ih =>
    rw [numLoopM]
    by_cases hc : U.isDigit c = true
    · rw [if_pos hc, ih, NumBad.cons U hU start c t pos r hc]
    · rw [if_neg hc]
      have first : ∀ ds X : Str, (∀ x ∈ ds, U.isDigit x = true) → c :: t = ds ++ '.' :: X → ds = [] ∧ c = '.' ∧ t = X := by
        intro ds X h1 h0
        cases ds with
        | nil => simp only [List.nil_append, List.cons.injEq] at h0; exact ⟨rfl, h0⟩
        | cons d ds =>
          simp only [List.cons_append, List.cons.injEq] at h0
          exact absurd (h0.1 ▸ h1 d (by simp)) hc
      by_cases hd : c = '.'
      · rw [if_pos hd]
        simp only [if_true]
        by_cases hh : headIs U.isDigit t = true
        · rw [if_pos hh, numLoopM_true_error U hU]
          constructor
          · rintro ⟨ds, tl, rfl, h1, rfl⟩
            refine Or.inr ⟨[], ds, tl, by simp [hd], by simp, h1, ?_, ?_⟩
            · rintro rfl
              rw [headIs_true] at hh
              apply hh
              intro d hd'
              simp only [List.nil_append, List.head?_cons, Option.some.injEq] at hd'
              subst hd'
              exact hU.digit_false _ rfl rfl
            · simp
          · rintro (⟨ds, tl, h0, h1, h2, rfl⟩ | ⟨ip, fp, tl, h0, h1, h2, h3, rfl⟩)
            · obtain ⟨rfl, _, rfl⟩ := first ds tl h1 h0
              rw [headIs_true] at hh
              exact absurd h2 hh
            · obtain ⟨rfl, _, rfl⟩ := first ip _ h1 h0
              exact ⟨fp, tl, rfl, h2, by simp⟩
        · rw [if_neg hh]
          have hh' : NoDigit U t := by rw [← headIs_false]; simpa using hh
          simp only [Except.error.injEq]
          constructor
          · rintro rfl; exact Or.inl ⟨[], t, by simp [hd], by simp, hh', by simp⟩
          · rintro (⟨ds, tl, h0, h1, h2, rfl⟩ | ⟨ip, fp, tl, h0, h1, h2, h3, rfl⟩)
            · obtain ⟨rfl, _, rfl⟩ := first ds tl h1 h0
              simp
            · obtain ⟨rfl, _, rfl⟩ := first ip _ h1 h0
              cases fp with
              | nil => exact absurd rfl h3
              | cons d fp =>
                have := hh' d rfl
                rw [h2 d (by simp)] at this
                simp at this
      · rw [if_neg hd]
        simp only [reduceCtorEq, false_iff]
        rintro (⟨ds, tl, h0, h1, h2, rfl⟩ | ⟨ip, fp, tl, h0, h1, h2, h3, rfl⟩)
        · exact hd (first ds tl h1 h0).2.1
        · exact hd (first ip _ h1 h0).2.1

/-- The test for numbers in `next`. -/
def numStart (U : Uni) (c : Char) (tail : Str) : Bool := U.isDigit c || (c == '-' && headIs U.isDigit tail)

theorem num_shape (U : Uni) (c : Char) (ds X : Str) (hc : numStart U c (ds ++ X) = true)
    (hd : ∀ x ∈ ds, U.isDigit x = true) (hX : NoDigit U X) :
    ∃ neg ds', c :: ds = sign neg ++ ds' ∧ ds' ≠ [] ∧ ∀ x ∈ ds', U.isDigit x = true := by
  simp only [numStart, Bool.or_eq_true, Bool.and_eq_true, beq_iff_eq] at hc
  rcases hc with hc | ⟨rfl, hh⟩
  · exact ⟨false, c :: ds, rfl, by simp, by simpa [hc] using hd⟩
  · refine ⟨true, ds, rfl, ?_, hd⟩
    rintro rfl
    rw [headIs_true] at hh
    exact hh hX

theorem num_unshape (U : Uni) (neg : Bool) (ds X : Str) (hne : ds ≠ []) (hd : ∀ x ∈ ds, U.isDigit x = true) :
    ∃ c ds0, sign neg ++ ds = c :: ds0 ∧ (∀ x ∈ ds0, U.isDigit x = true) ∧ numStart U c (ds0 ++ X) = true := by
  cases ds with
  | nil => exact absurd rfl hne
  | cons d ds =>
    cases neg with
    | false => exact ⟨d, ds, rfl, fun x hx => hd x (by simp [hx]), by simp [numStart, hd d (by simp)]⟩
    | true => exact ⟨'-', d :: ds, rfl, hd, by simp [numStart, headIs, hd d (by simp)]⟩

theorem decVal_none_iff (U : Uni) (ds : Str) : decVal U ds = none ↔ ∃ c ∈ ds, U.digitVal c = none := by
  induction ds with
  | nil => simp [decVal]
  | cons c tl ih =>
    rw [decVal]
    cases hc : U.digitVal c with
    | none => simp [hc]
    | some d =>
      cases ht : decVal U tl with
      | none => simp [hc, ← ih, ht]
      | some n =>
        have := ih.not.mp (by simp [ht])
        simp only [not_exists, not_and] at this
        simp [hc]
        exact fun a ha => this a ha

theorem pyInt_fails (U : Uni) (hU : U.Lawful) (neg : Bool) (ds : Str) (hne : ds ≠ []) (hd : ∀ c ∈ ds, U.isDigit c = true)
    (e : PyExc) : pyInt U (sign neg ++ ds) = .error e ↔
      e = .valueError ∧ ((∃ c ∈ ds, U.digitVal c = none) ∨ ∃ m, U.intLimit = some m ∧ m < ds.length) := by
  have h := pyInt_signed U hU neg ds hne hd
  constructor
  · intro he
    refine ⟨(pyInt_error U _ _ he).1, ?_⟩
    by_contra hn
    simp only [not_or] at hn
    rw [← decVal_none_iff, ← ne_eq, Option.ne_none_iff_exists'] at hn
    obtain ⟨⟨n, hn⟩, hl⟩ := hn
    have := (h _).mpr ⟨n, hn, fun m hm => by
      by_contra hlt; exact hl ⟨m, hm, by omega⟩, rfl⟩
    unfold signed at this
    unfold sign at he
    rw [this] at he
    simp at he
  · rintro ⟨rfl, hb⟩
    cases hp : pyInt U (sign neg ++ ds) with
    | error e => rw [(pyInt_error U _ _ hp).1]
    | ok i =>
      obtain ⟨n, h1, h2, _⟩ := (h i).mp hp
      rcases hb with hb | ⟨m, hm, hlt⟩
      · rw [← decVal_none_iff, h1] at hb; simp at hb
      · have := h2 m hm; omega

theorem pyFloat_fails (U : Uni) (hU : U.Lawful) (neg : Bool) (ip fp : Str) (hne : ip ≠ []) (hd : ∀ c ∈ ip, U.isDigit c = true)
    (e : PyExc) : pyFloat U (sign neg ++ (ip ++ '.' :: fp)) = .error e ↔ e = .valueError ∧ ∃ c ∈ ip ++ fp, U.digitVal c = none := by
  have h := pyFloat_signed U hU neg ip fp hne hd
  constructor
  · intro he
    refine ⟨(pyFloat_error U _ _ he).1, ?_⟩
    by_contra hn
    simp only [List.mem_append, not_exists, not_and] at hn
    have hi : decVal U ip ≠ none := by
      rw [ne_eq, decVal_none_iff]; rintro ⟨c, hc, hv⟩; exact hn c (Or.inl hc) hv
    have hf : decVal U fp ≠ none := by
      rw [ne_eq, decVal_none_iff]; rintro ⟨c, hc, hv⟩; exact hn c (Or.inr hc) hv
    obtain ⟨a, ha⟩ := Option.ne_none_iff_exists'.mp hi
    obtain ⟨b, hb⟩ := Option.ne_none_iff_exists'.mp hf
    have := (h _).mpr ⟨a, b, ha, hb, rfl⟩
    unfold signed at this
    unfold sign at he
    rw [this] at he
    simp at he
  · rintro ⟨rfl, c, hc, hv⟩
    cases hp : pyFloat U (sign neg ++ (ip ++ '.' :: fp)) with
    | error e => rw [(pyFloat_error U _ _ hp).1]
    | ok i =>
      obtain ⟨a, b, h1, h2, _⟩ := (h i).mp hp
      rcases List.mem_append.mp hc with hc | hc
      · rw [(decVal_none_iff U ip).mpr ⟨c, hc, hv⟩] at h1; simp at h1
      · rw [(decVal_none_iff U fp).mpr ⟨c, hc, hv⟩] at h2; simp at h2

theorem msgDot_eq (tl : Str) : msgDot tl = say
    "Syntax error encountered while reading floating point number. '.' should be followed by a digit and not '"
    (shown tl.head?) "'." := by
  cases tl <;> rfl

theorem numLoopM_ok (U : Uni) (start : Nat) (acc : Str) (f : Bool) (s : Str) (pos : Nat) (x : Str × Bool × Str × Nat) :
    numLoopM U start acc f s pos = .ok x ↔ numLoop U acc f s pos = .ok x := by
  rw [← er_numLoop U start, er_ok_iff]

/-- Errors of `_number`. -/
theorem lexNumberM_error (U : Uni) (hU : U.Lawful) (c : Char) (tail : Str) (pos : Nat) (r : SyntaxErr)
    (hc : numStart U c tail = true) (h : lexNumberM U c tail pos = .error r) : BadLexeme U (c :: tail) pos r := by
  have hdot : U.isDigit '.' = false := hU.digit_false _ rfl rfl
  have nodot : ∀ X : Str, NoDigit U ('.' :: X) := by
    intro X d hd; simp only [List.head?_cons, Option.some.injEq] at hd; rw [← hd]; exact hdot
  unfold lexNumberM at h
  cases hn : numLoopM U pos [c] false tail pos with
  | error r' =>
    rw [hn] at h
    simp only [bind, Except.bind, Except.error.injEq] at h
    subst h
    rcases (numLoopM_false_error U hU _ _ _ _ _).mp hn with ⟨ds, tl, rfl, h1, h2, rfl⟩ | ⟨ip, fp, tl, rfl, h1, h2, h3, rfl⟩
    · obtain ⟨neg, ds', e1, e2, e3⟩ := num_shape U c ds _ hc h1 (nodot _)
      have := BadLexeme.dot (U := U) neg ds' tl pos e2 e3 h2
      rw [← e1] at this
      rw [msgDot_eq]
      have e : pos + ds.length + 2 = pos + (c :: ds).length + 1 := by simp only [List.length_cons]; omega
      rw [e]
      exact this
    · obtain ⟨neg, ip', e1, e2, e3⟩ := num_shape U c ip _ hc h1 (nodot _)
      have := BadLexeme.dots (U := U) neg ip' fp tl pos e2 h3 e3 h2
      rw [← e1] at this
      have e : pos + ip.length + 1 + fp.length + 1 = pos + (c :: ip ++ '.' :: fp).length := by
        simp only [List.length_cons, List.length_append]; omega
      rw [e]
      unfold msgDots
      simpa only [List.append_assoc, List.cons_append] using this
  | ok x =>
    obtain ⟨num, f, tl, p⟩ := x
    rw [hn] at h
    rw [numLoopM_ok] at hn
    rcases numLoop_false_sound U _ _ _ _ _ _ _ hn with ⟨rfl, ds, h1, rfl, rfl, h4, h5⟩ | ⟨rfl, ip, fp, h1, h1', h6, rfl, rfl, h4, h5⟩
    · simp only [bind, Except.bind, if_true] at h
      obtain ⟨neg, ds', e1, e2, e3⟩ := num_shape U c ds _ hc h1 (fun d hd => (h5 d hd).1)
      cases hi : pyInt U ([c] ++ ds) with
      | ok i => rw [hi] at h; simp [plain, Except.mapError, pure, Except.pure] at h
      | error e =>
        rw [hi] at h
        simp only [plain, Except.mapError, Except.error.injEq] at h
        subst h
        have hi' := hi
        rw [List.singleton_append, e1] at hi'
        obtain ⟨rfl, hb⟩ := (pyInt_fails U hU neg ds' e2 e3 e).mp hi'
        have := BadLexeme.int (U := U) neg ds' tl pos e2 e3 h5 hb
        rwa [← e1] at this
    · simp only [bind, Except.bind, Bool.true_eq_false, if_false] at h
      obtain ⟨neg, ip', e1, e2, e3⟩ := num_shape U c ip _ hc h1 (nodot _)
      cases hi : pyFloat U ([c] ++ ip ++ '.' :: fp) with
      | ok i => rw [hi] at h; simp [plain, Except.mapError, pure, Except.pure] at h
      | error e =>
        rw [hi] at h
        simp only [plain, Except.mapError, Except.error.injEq] at h
        subst h
        have hi' := hi
        rw [List.singleton_append, e1, List.append_assoc] at hi'
        obtain ⟨rfl, hb⟩ := (pyFloat_fails U hU neg ip' fp e2 e3 e).mp hi'
        have := BadLexeme.float (U := U) neg ip' fp tl pos e2 h6 e3 h1' h5 hb
        rw [← e1] at this
        simpa only [List.append_assoc, List.cons_append] using this

theorem lexNumberM_dot (U : Uni) (hU : U.Lawful) (c : Char) (ds tl : Str) (pos : Nat) (hd : ∀ x ∈ ds, U.isDigit x = true)
    (hx : NoDigit U tl) : lexNumberM U c (ds ++ '.' :: tl) pos =
      .error (.lexer (msgDot tl) (pos + ds.length + 2 : Nat) (some ⟨.float, pos, .none⟩)) := by
  unfold lexNumberM
  rw [(numLoopM_false_error U hU pos [c] _ pos _).mpr (Or.inl ⟨ds, tl, rfl, hd, hx, rfl⟩)]
  rfl

theorem lexNumberM_dots (U : Uni) (hU : U.Lawful) (c : Char) (ip fp tl : Str) (pos : Nat) (hi : ∀ x ∈ ip, U.isDigit x = true)
    (hf : ∀ x ∈ fp, U.isDigit x = true) (hne : fp ≠ []) : lexNumberM U c (ip ++ '.' :: (fp ++ '.' :: tl)) pos =
      .error (.lexer msgDots (pos + ip.length + 1 + fp.length + 1 : Nat) (some ⟨.float, pos, .none⟩)) := by
  unfold lexNumberM
  rw [(numLoopM_false_error U hU pos [c] _ pos _).mpr (Or.inr ⟨ip, fp, tl, rfl, hi, hf, hne, rfl⟩)]
  rfl

theorem lexNumberM_int (U : Uni) (c : Char) (ds tl : Str) (pos : Nat) (hd : ∀ x ∈ ds, U.isDigit x = true)
    (hx : NumEnd U tl) (he : pyInt U (c :: ds) = .error .valueError) :
    lexNumberM U c (ds ++ tl) pos = .error (.other .valueError) := by
  unfold lexNumberM
  rw [(numLoopM_ok U pos [c] false _ pos _).mpr (numLoop_int_complete U [c] ds tl pos hd hx)]
  simp only [bind, Except.bind, if_true, List.singleton_append, he, plain, Except.mapError]

theorem lexNumberM_float (U : Uni) (hU : U.Lawful) (c : Char) (ip fp tl : Str) (pos : Nat) (hi : ∀ x ∈ ip, U.isDigit x = true)
    (hf : ∀ x ∈ fp, U.isDigit x = true) (hne : fp ≠ []) (hx : NumEnd U tl)
    (he : pyFloat U (c :: ip ++ '.' :: fp) = .error .valueError) :
    lexNumberM U c (ip ++ '.' :: (fp ++ tl)) pos = .error (.other .valueError) := by
  unfold lexNumberM
  rw [(numLoopM_ok U pos [c] false _ pos _).mpr (numLoop_float_complete U hU [c] ip fp tl pos hi hf hne hx)]
  simp only [bind, Except.bind, Bool.true_eq_false, if_false, List.singleton_append, he, plain, Except.mapError]

/-! ### Strings -/

theorem stringLoopM_error (start : Nat) (acc s : Str) (pos : Nat) (r : SyntaxErr) :
    stringLoopM start acc s pos = .error r ↔
      ((∀ c ∈ s, StrChar c) ∧ r = .lexer msgOpen start (some ⟨.string, start, .none⟩)) ∨
      ∃ body c tl, s = body ++ c :: tl ∧ (∀ c ∈ body, StrChar c) ∧ ¬ StrChar c ∧ c ≠ '"' ∧
        r = .lexer (msgStringChar c) (pos + body.length : Nat) (some ⟨.string, start, .none⟩) := by
  induction s generalizing acc pos with
  | nil => simp [stringLoopM, eq_comm]
  | cons c t ih =>
    rw [stringLoopM]
    by_cases hq : c = '"'
    · rw [if_pos hq]
      have hn : ¬ StrChar c := fun h => h.2.2 hq
      simp only [reduceCtorEq, false_iff]
      rintro (⟨h, _⟩ | ⟨body, d, tl, h0, h1, h2, h3, _⟩)
      · exact hn (h c (by simp))
      · cases body with
        | nil => simp only [List.nil_append, List.cons.injEq] at h0; exact h3 (h0.1 ▸ hq)
        | cons b body =>
          simp only [List.cons_append, List.cons.injEq] at h0
          exact hn (h0.1 ▸ h1 b (by simp))
    · rw [if_neg hq]
      by_cases hs : stringChar c = true
      · have hs' := (stringChar_iff c hq).mp hs
        rw [if_pos hs]
        refine (ih _ _).trans ?_
        constructor
        · rintro (⟨h, rfl⟩ | ⟨body, d, tl, rfl, h1, h2, h3, rfl⟩)
          · exact Or.inl ⟨by simpa [hs'] using h, rfl⟩
          · refine Or.inr ⟨c :: body, d, tl, rfl, by simpa [hs'] using h1, h2, h3, ?_⟩
            simp only [List.length_cons]; congr 2; omega
        · rintro (⟨h, rfl⟩ | ⟨body, d, tl, h0, h1, h2, h3, rfl⟩)
          · exact Or.inl ⟨fun x hx => h x (by simp [hx]), rfl⟩
          · cases body with
            | nil => simp only [List.nil_append, List.cons.injEq] at h0; exact absurd (h0.1 ▸ hs') h2
            | cons b body =>
              simp only [List.cons_append, List.cons.injEq] at h0
              refine Or.inr ⟨body, d, tl, h0.2, fun x hx => h1 x (by simp [hx]), h2, h3, ?_⟩
              simp only [List.length_cons]; congr 2; omega
      · have hs' : ¬ StrChar c := fun h => hs ((stringChar_iff c hq).mpr h)
        rw [if_neg hs]
        simp only [Except.error.injEq]
        constructor
        · rintro rfl; exact Or.inr ⟨[], c, t, rfl, by simp, hs', hq, by simp⟩
        · rintro (⟨h, rfl⟩ | ⟨body, d, tl, h0, h1, h2, h3, rfl⟩)
          · exact absurd (h c (by simp)) hs'
          · cases body with
            | nil => simp only [List.nil_append, List.cons.injEq] at h0; rw [h0.1]; simp
            | cons b body =>
              simp only [List.cons_append, List.cons.injEq] at h0
              exact absurd (h0.1 ▸ h1 b (by simp)) hs'

theorem lexStringM_error (tail : Str) (pos : Nat) (r : SyntaxErr) :
    lexStringM tail pos = .error r ↔ stringLoopM pos [] tail (pos + 1) = .error r := by
  unfold lexStringM
  cases stringLoopM pos [] tail (pos + 1) <;> simp [bind, Except.bind, pure, Except.pure]

/-! ### Words -/

theorem dot_not_id (U : Uni) (hU : U.Lawful) : ¬ IdChar U '.' := by
  rintro (h | h | h)
  · rw [hU.alpha_false _ rfl rfl] at h; simp at h
  · rw [hU.digit_false _ rfl rfl] at h; simp at h
  · exact absurd h (by decide)

theorem attPrefix_none (U : Uni) (hU : U.Lawful) (w : Str) :
    attPrefix (U.lower w) = none ↔ ∀ kw ty, (kw, ty) ∈ attClasses → ¬ Spells w kw := by
  constructor
  · intro h kw ty hc hs
    rw [attPrefix_complete U hU w ty kw hc hs] at h
    simp at h
  · intro h
    cases hp : attPrefix (U.lower w) with
    | none => rfl
    | some ty =>
      obtain ⟨kw, h1, h2⟩ := attPrefix_sound U hU w ty hp
      exact absurd h2 (h kw ty h1)

theorem not_keyword (U : Uni) (hU : U.Lawful) (w : Str) :
    (∀ kw ty v, (kw, ty, v) ∈ keywords → ¬ Spells w kw) ↔
      U.lower w ∉ ["in".toList, "subset".toList] ∧ U.lower w ∉ ["and".toList, "or".toList] ∧
      U.lower w ∉ ["true".toList, "false".toList, "undef".toList] ∧ U.lower w ≠ "not".toList ∧ U.lower w ≠ "null".toList := by
  have l : ∀ kw : String, kw.toList ∈ reservedWords → (Spells w kw ↔ U.lower w = kw.toList) :=
    fun kw hk => (hU.lower_iff w kw hk).symm
  constructor
  · intro h
    simp only [List.mem_cons, List.not_mem_nil, or_false, not_or]
    exact ⟨⟨fun e => h "in" .op "IN" (by decide) ((l _ (by decide)).mpr e),
        fun e => h "subset" .op "SUBSET" (by decide) ((l _ (by decide)).mpr e)⟩,
      ⟨fun e => h "and" .boolOp "AND" (by decide) ((l _ (by decide)).mpr e),
        fun e => h "or" .boolOp "OR" (by decide) ((l _ (by decide)).mpr e)⟩,
      ⟨fun e => h "true" .bool "TRUE" (by decide) ((l _ (by decide)).mpr e),
        fun e => h "false" .bool "FALSE" (by decide) ((l _ (by decide)).mpr e),
        fun e => h "undef" .bool "UNDEF" (by decide) ((l _ (by decide)).mpr e)⟩,
      fun e => h "not" .notOp "NOT" (by decide) ((l _ (by decide)).mpr e),
      fun e => h "null" .null "NULL" (by decide) ((l _ (by decide)).mpr e)⟩
  · rintro ⟨h1, h2, h3, h4, h5⟩ kw ty v hk hs
    simp only [List.mem_cons, List.not_mem_nil, or_false, not_or] at h1 h2 h3
    rw [l kw (keyword_reserved kw ty v hk).1] at hs
    simp only [keywords, List.mem_cons, Prod.mk.injEq, List.not_mem_nil, or_false] at hk
    rcases hk with ⟨rfl, _⟩ | ⟨rfl, _⟩ | ⟨rfl, _⟩ | ⟨rfl, _⟩ | ⟨rfl, _⟩ | ⟨rfl, _⟩ | ⟨rfl, _⟩ | ⟨rfl, _⟩ | ⟨rfl, _⟩
    · exact h1.1 hs
    · exact h1.2 hs
    · exact h2.1 hs
    · exact h2.2 hs
    · exact h3.1 hs
    · exact h3.2.1 hs
    · exact h3.2.2 hs
    · exact h4 hs
    · exact h5 hs

theorem lexWordM_error (U : Uni) (hU : U.Lawful) (c : Char) (tail : Str) (pos : Nat) (r : SyntaxErr) (hc : U.isAlpha c = true)
    (h : lexWordM U c tail pos = .error r) : BadLexeme U (c :: tail) pos r := by
  obtain ⟨ds, h1, tl1, rfl, h3, h4⟩ := idLoop_sound U [c] tail pos
  have hw : Ident U (c :: ds) := ⟨c, ds, rfl, hc, h1⟩
  unfold lexWordM at h
  rw [h3] at h
  simp only [List.singleton_append] at h
  by_cases hdot : tl1.head? = some '.'
  · rw [if_pos hdot] at h
    cases tl1 with
    | nil => simp at hdot
    | cons a tl =>
      simp only [List.head?_cons, Option.some.injEq] at hdot
      subst hdot
      simp only [List.tail_cons] at h
      cases tl with
      | nil =>
        simp only [Except.error.injEq] at h
        subst h
        exact BadLexeme.attEnd (c :: ds) pos hw
      | cons d tl =>
        simp only at h
        by_cases hd : (U.isAlpha d || U.isDigit d || d == '_') = true
        · rw [if_pos hd] at h
          obtain ⟨ds2, g1, tl2, rfl, g3, g4⟩ := idLoop_sound U [d] tl (pos + ds.length + 2)
          rw [g3] at h
          simp only at h
          cases hp : attPrefix (U.lower (c :: ds)) with
          | some ty => rw [hp] at h; simp at h
          | none =>
            rw [hp] at h
            simp only [Except.error.injEq] at h
            subst h
            have := BadLexeme.attType (U := U) (c :: ds) (d :: ds2) tl2 pos hw (by simp) (by
              intro x hx
              rcases List.mem_cons.mp hx with rfl | hx
              · exact (idChar_iff U x).mp hd
              · exact g1 x hx) g4 ((attPrefix_none U hU _).mp hp)
            rw [List.append_assoc] at this
            exact this
        · rw [if_neg hd] at h
          simp only [Except.error.injEq] at h
          subst h
          have := BadLexeme.attName (U := U) (c :: ds) d tl pos hw (fun hi => hd ((idChar_iff U d).mpr hi))
          have e : ((pos + ds.length : Nat) : Int) + 2 = (pos + (c :: ds).length + 1 : Nat) := by
            simp only [List.length_cons]; push_cast; omega
          rw [e]
          exact this
  · rw [if_neg hdot] at h
    by_cases a1 : U.lower (c :: ds) ∈ ["in".toList, "subset".toList]
    · rw [if_pos a1] at h; simp at h
    rw [if_neg a1] at h
    by_cases a2 : U.lower (c :: ds) ∈ ["and".toList, "or".toList]
    · rw [if_pos a2] at h; simp at h
    rw [if_neg a2] at h
    by_cases a3 : U.lower (c :: ds) ∈ ["true".toList, "false".toList, "undef".toList]
    · rw [if_pos a3] at h; simp at h
    rw [if_neg a3] at h
    by_cases a4 : U.lower (c :: ds) = "not".toList
    · rw [if_pos a4] at h; simp at h
    rw [if_neg a4] at h
    by_cases a5 : U.lower (c :: ds) = "null".toList
    · rw [if_pos a5] at h; simp at h
    rw [if_neg a5] at h
    simp only [Except.error.injEq] at h
    subst h
    exact BadLexeme.unknown (U := U) (c :: ds) tl1 pos hw (fun x hx => ⟨h4 x hx, by rintro rfl; exact hdot hx⟩)
      ((not_keyword U hU _).mpr ⟨a1, a2, a3, a4, a5⟩)

/-! ### One step -/

theorem lexOneM_number (U : Uni) (hU : U.Lawful) (c : Char) (tail : Str) (pos : Nat) (r : SyntaxErr)
    (hc : numStart U c tail = true) (h : lexNumberM U c tail pos = .error r) : lexOneM U c tail pos = .error r := by
  have hc' : (U.isDigit c || (c == '-' && headIs U.isDigit tail)) = true := hc
  have ne : ∀ d : Char, isAscii d = true → asciiDigit d = false → d ≠ '-' → c ≠ d := by
    rintro d h1 h2 h3 rfl
    rw [hU.digit_ascii _ h1, h2] at hc'
    simp [h3] at hc'
  unfold lexOneM
  rw [if_neg (ne _ (by decide) (by decide) (by decide)), if_neg (ne _ (by decide) (by decide) (by decide)),
    if_neg (ne _ (by decide) (by decide) (by decide)), if_neg (ne _ (by decide) (by decide) (by decide)),
    if_neg (ne _ (by decide) (by decide) (by decide)), if_neg (ne _ (by decide) (by decide) (by decide)),
    if_neg (ne _ (by decide) (by decide) (by decide)), if_neg (ne _ (by decide) (by decide) (by decide)),
    if_neg (ne _ (by decide) (by decide) (by decide)), if_neg (ne _ (by decide) (by decide) (by decide)),
    if_pos hc', h]
  rfl

theorem lexOneM_word (U : Uni) (hU : U.Lawful) (c : Char) (tail : Str) (pos : Nat)
    (hc : U.isAlpha c = true) : lexOneM U c tail pos = lexWordM U c tail pos := by
  have ne : ∀ d : Char, isAscii d = true → asciiAlpha d = false → c ≠ d := by
    rintro d h1 h2 rfl
    rw [hU.alpha_ascii _ h1, h2] at hc
    simp at hc
  have hd : U.isDigit c = false := by
    cases h : U.isDigit c with
    | false => rfl
    | true => rw [hU.digit_not_alpha c h] at hc; simp at hc
  have hm : c ≠ '-' := ne _ (by decide) (by decide)
  unfold lexOneM
  rw [if_neg (ne _ (by decide) (by decide)), if_neg (ne _ (by decide) (by decide)),
    if_neg (ne _ (by decide) (by decide)), if_neg (ne _ (by decide) (by decide)),
    if_neg (ne _ (by decide) (by decide)), if_neg (ne _ (by decide) (by decide)),
    if_neg (ne _ (by decide) (by decide)), if_neg (ne _ (by decide) (by decide)),
    if_neg (ne _ (by decide) (by decide)), if_neg (ne _ (by decide) (by decide)),
    if_neg (by simp [hd, hm]), if_pos hc]

theorem lexOneM_error (U : Uni) (hU : U.Lawful) (c : Char) (tail : Str) (pos : Nat) (r : SyntaxErr) (hs : U.isSpace c = false)
    (h : lexOneM U c tail pos = .error r) : BadLexeme U (c :: tail) pos r := by
  unfold lexOneM at h
  by_cases c1 : c = '{'
  · rw [if_pos c1] at h; simp at h
  rw [if_neg c1] at h
  by_cases c2 : c = '}'
  · rw [if_pos c2] at h; simp at h
  rw [if_neg c2] at h
  by_cases c3 : c = ','
  · rw [if_pos c3] at h; simp at h
  rw [if_neg c3] at h
  by_cases c4 : c = '('
  · rw [if_pos c4] at h; simp at h
  rw [if_neg c4] at h
  by_cases c5 : c = ')'
  · rw [if_pos c5] at h; simp at h
  rw [if_neg c5] at h
  by_cases c6 : c = '='
  · rw [if_pos c6] at h; simp at h
  rw [if_neg c6] at h
  by_cases c7 : c = '>'
  · rw [if_pos c7] at h; split at h <;> simp at h
  rw [if_neg c7] at h
  by_cases c8 : c = '<'
  · rw [if_pos c8] at h; split at h <;> simp at h
  rw [if_neg c8] at h
  by_cases c9 : c = '!'
  · rw [if_pos c9] at h
    subst c9
    split at h
    · simp at h
    · rename_i hx
      simp only [Except.error.injEq] at h
      subst h
      exact BadLexeme.bang tail pos hx
  rw [if_neg c9] at h
  by_cases c10 : c = '"'
  · rw [if_pos c10] at h
    subst c10
    cases hn : lexStringM tail pos with
    | ok x => rw [hn] at h; simp [bind, Except.bind, pure, Except.pure] at h
    | error r' =>
      rw [hn] at h
      simp only [bind, Except.bind, Except.error.injEq] at h
      subst h
      rw [lexStringM_error, stringLoopM_error] at hn
      rcases hn with ⟨h1, rfl⟩ | ⟨body, d, tl, rfl, h1, h2, h3, rfl⟩
      · exact BadLexeme.openString tail pos h1
      · exact BadLexeme.stringChar body d tl pos h1 h2 h3
  rw [if_neg c10] at h
  by_cases c11 : (U.isDigit c || (c == '-' && headIs U.isDigit tail)) = true
  · rw [if_pos c11] at h
    cases hn : lexNumberM U c tail pos with
    | ok x => rw [hn] at h; simp [bind, Except.bind, pure, Except.pure] at h
    | error r' =>
      rw [hn] at h
      simp only [bind, Except.bind, Except.error.injEq] at h
      subst h
      exact lexNumberM_error U hU c tail pos _ c11 hn
  rw [if_neg c11] at h
  by_cases c12 : U.isAlpha c = true
  · rw [if_pos c12] at h
    exact lexWordM_error U hU c tail pos r c12 h
  rw [if_neg c12] at h
  simp only [Except.error.injEq] at h
  subst h
  simp only [Bool.or_eq_true, Bool.and_eq_true, beq_iff_eq, not_or, not_and, Bool.not_eq_true] at c11 c12
  refine BadLexeme.char c tail pos hs c11.1 c12 ?_ ?_
  · simp [starters, c1, c2, c3, c4, c5, c6, c7, c8, c9, c10]
  · intro hm
    exact (headIs_false U tail).mp (c11.2 hm)

theorem ident_word (U : Uni) (hU : U.Lawful) (w rest : Str) (pos : Nat) (hw : Ident U w)
    (hx : ∀ x, rest.head? = some x → ¬ IdChar U x) (c : Char) (tail : Str) (hs : c :: tail = w ++ rest) :
    U.isAlpha c = true ∧ idLoop U [c] tail pos = (w, rest, pos + (w.length - 1)) := by
  obtain ⟨d, ds, rfl, hd, hi⟩ := hw
  simp only [List.cons_append, List.cons.injEq] at hs
  obtain ⟨rfl, rfl⟩ := hs
  refine ⟨hd, ?_⟩
  rw [idLoop_complete U [c] ds rest pos hi hx]
  simp

/-- What is no lexeme is refused, with the error the list of faults tells. -/
theorem lexOneM_bad (U : Uni) (hU : U.Lawful) (s : Str) (pos : Nat) (r : SyntaxErr) (h : BadLexeme U s pos r) :
    ∃ c tail, s = c :: tail ∧ U.isSpace c = false ∧ lexOneM U c tail pos = .error r := by
  have hdot : U.isDigit '.' = false := hU.digit_false _ rfl rfl
  have numSpace : ∀ c tl, numStart U c tl = true → U.isSpace c = false := by
    intro c tl hc
    simp only [numStart, Bool.or_eq_true, Bool.and_eq_true, beq_iff_eq] at hc
    rcases hc with hc | ⟨rfl, _⟩
    · exact hU.digit_not_space c hc
    · exact hU.space_false _ rfl rfl
  cases h with
  | char c tl _ hs hd ha hc hm =>
    refine ⟨c, tl, rfl, hs, ?_⟩
    simp only [starters, List.mem_cons, List.not_mem_nil, or_false, not_or] at hc
    obtain ⟨c1, c2, c3, c4, c5, c6, c7, c8, c9, c10⟩ := hc
    unfold lexOneM
    rw [if_neg c1, if_neg c2, if_neg c3, if_neg c4, if_neg c5, if_neg c6, if_neg c7, if_neg c8, if_neg c9, if_neg c10,
      if_neg, if_neg (by simp [ha])]
    · rfl
    · simp only [hd, Bool.false_or, Bool.and_eq_true, beq_iff_eq, not_and, Bool.not_eq_true]
      intro e
      exact (headIs_false U tl).mpr (hm e)
  | bang tl _ hx =>
    refine ⟨'!', tl, rfl, hU.space_false _ rfl rfl, ?_⟩
    unfold lexOneM
    simp only [Char.reduceEq, if_false, if_true, if_neg hx]
    rfl
  | openString body _ hb =>
    refine ⟨'"', body, rfl, hU.space_false _ rfl rfl, ?_⟩
    have := (lexStringM_error body pos _).mpr ((stringLoopM_error pos [] body (pos + 1) _).mpr (Or.inl ⟨hb, rfl⟩))
    unfold lexOneM
    simp only [Char.reduceEq, if_false, if_true, this]
    rfl
  | stringChar body c tl _ hb hc hq =>
    refine ⟨'"', _, rfl, hU.space_false _ rfl rfl, ?_⟩
    have := (lexStringM_error (body ++ c :: tl) pos _).mpr
      ((stringLoopM_error pos [] _ (pos + 1) _).mpr (Or.inr ⟨body, c, tl, rfl, hb, hc, hq, rfl⟩))
    unfold lexOneM
    simp only [Char.reduceEq, if_false, if_true, this]
    rfl
  | dot neg ds tl _ hne hd hx =>
    obtain ⟨c, ds0, e1, e2, e3⟩ := num_unshape U neg ds ('.' :: tl) hne hd
    rw [e1]
    refine ⟨c, ds0 ++ '.' :: tl, rfl, numSpace _ _ e3, ?_⟩
    refine lexOneM_number U hU c _ pos _ e3 ?_
    rw [lexNumberM_dot U hU c ds0 tl pos e2 hx, msgDot_eq]
    congr 2
  | dots neg ip fp tl _ hi hf hdi hdf =>
    obtain ⟨c, ds0, e1, e2, e3⟩ := num_unshape U neg ip ('.' :: (fp ++ '.' :: tl)) hi hdi
    rw [e1]
    refine ⟨c, ds0 ++ '.' :: (fp ++ '.' :: tl), by simp, numSpace _ _ e3, ?_⟩
    refine lexOneM_number U hU c _ pos _ e3 ?_
    rw [lexNumberM_dots U hU c ds0 fp tl pos e2 hdf hf]
    have e : pos + ds0.length + 1 + fp.length + 1 = pos + (c :: ds0 ++ '.' :: fp).length := by
      simp only [List.length_cons, List.length_append]; omega
    rw [e]
    rfl
  | int neg ds tl _ hne hd hx hb =>
    obtain ⟨c, ds0, e1, e2, e3⟩ := num_unshape U neg ds tl hne hd
    have hi := (pyInt_fails U hU neg ds hne hd _).mpr ⟨rfl, hb⟩
    rw [e1] at hi ⊢
    exact ⟨c, ds0 ++ tl, rfl, numSpace _ _ e3, lexOneM_number U hU c _ pos _ e3 (lexNumberM_int U c ds0 tl pos e2 hx hi)⟩
  | float neg ip fp tl _ hi hf hdi hdf hx hb =>
    obtain ⟨c, ds0, e1, e2, e3⟩ := num_unshape U neg ip ('.' :: (fp ++ tl)) hi hdi
    have hp := (pyFloat_fails U hU neg ip fp hi hdi _).mpr ⟨rfl, hb⟩
    rw [← List.append_assoc, e1] at hp
    rw [e1]
    exact ⟨c, ds0 ++ '.' :: (fp ++ tl), by simp, numSpace _ _ e3,
      lexOneM_number U hU c _ pos _ e3 (lexNumberM_float U hU c ds0 fp tl pos e2 hdf hf hx hp)⟩
  | attEnd w _ hw =>
    have hd : ∀ x, (['.'] : Str).head? = some x → ¬ IdChar U x := by
      intro x hx; simp only [List.head?_cons, Option.some.injEq] at hx; exact hx ▸ dot_not_id U hU
    obtain ⟨c, ds, rfl, _, _⟩ := id hw
    obtain ⟨h1, h2⟩ := ident_word U hU _ ['.'] pos hw hd c (ds ++ ['.']) rfl
    refine ⟨c, ds ++ ['.'], rfl, hU.alpha_not_space c h1, ?_⟩
    rw [lexOneM_word U hU c _ pos h1]
    unfold lexWordM
    rw [h2]
    simp
  | attName w d tl _ hw hc =>
    have hd : ∀ x, ('.' :: d :: tl : Str).head? = some x → ¬ IdChar U x := by
      intro x hx; simp only [List.head?_cons, Option.some.injEq] at hx; exact hx ▸ dot_not_id U hU
    obtain ⟨c, ds, rfl, _, _⟩ := id hw
    obtain ⟨h1, h2⟩ := ident_word U hU _ ('.' :: d :: tl) pos hw hd c (ds ++ '.' :: d :: tl) rfl
    refine ⟨c, ds ++ '.' :: d :: tl, rfl, hU.alpha_not_space c h1, ?_⟩
    rw [lexOneM_word U hU c _ pos h1]
    unfold lexWordM
    rw [h2]
    have hn : ¬ (U.isAlpha d || U.isDigit d || d == '_') = true := fun e => hc ((idChar_iff U d).mp e)
    simp only [List.head?_cons, if_true, List.tail_cons, if_neg hn]
    congr 2
  | attType w ident tl _ hw hne hi hx hc =>
    have hd : ∀ x, ('.' :: (ident ++ tl) : Str).head? = some x → ¬ IdChar U x := by
      intro x hx; simp only [List.head?_cons, Option.some.injEq] at hx; exact hx ▸ dot_not_id U hU
    obtain ⟨c, ds, rfl, _, _⟩ := id hw
    obtain ⟨h1, h2⟩ := ident_word U hU _ ('.' :: (ident ++ tl)) pos hw hd c (ds ++ '.' :: (ident ++ tl)) rfl
    refine ⟨c, ds ++ '.' :: (ident ++ tl), by simp, hU.alpha_not_space c h1, ?_⟩
    rw [lexOneM_word U hU c _ pos h1]
    unfold lexWordM
    rw [h2]
    cases ident with
    | nil => exact absurd rfl hne
    | cons d ident =>
      have hy : (U.isAlpha d || U.isDigit d || d == '_') = true := (idChar_iff U d).mpr (hi d (by simp))
      simp only [List.head?_cons, if_true, List.tail_cons, List.cons_append, if_pos hy]
      rw [idLoop_complete U [d] ident tl _ (fun x hx => hi x (by simp [hx])) hx]
      simp only [(attPrefix_none U hU _).mpr hc]
      rfl
  | unknown w tl _ hw hx hk =>
    obtain ⟨c, ds, rfl, _, _⟩ := id hw
    obtain ⟨h1, h2⟩ := ident_word U hU _ tl pos hw (fun x h => (hx x h).1) c (ds ++ tl) rfl
    refine ⟨c, ds ++ tl, rfl, hU.alpha_not_space c h1, ?_⟩
    rw [lexOneM_word U hU c _ pos h1]
    unfold lexWordM
    rw [h2]
    obtain ⟨a1, a2, a3, a4, a5⟩ := (not_keyword U hU _).mp hk
    have hdt : tl.head? ≠ some '.' := fun e => (hx _ e).2 rfl
    simp only [if_neg hdt, if_neg a1, if_neg a2, if_neg a3, if_neg a4, if_neg a5]
    rfl

/-! ### Runs -/

theorem nextM_ok (U : Uni) (s : LexState) (x : LexState × Option Token) : s.nextM U = .ok x ↔ s.next U = .ok x := by
  rw [← er_next, er_ok_iff]

/-- Every failing run fails at something that is no lexeme. -/
theorem runM_error (U : Uni) (hU : U.Lawful) (n : Nat) (s : LexState) (r : SyntaxErr) (hn : s.enough n)
    (h : s.tokenizeFuelM U n = .error r) : LexFails U s.rest s.pos r := by
  induction n generalizing s with
  | zero => rcases hn with h | ⟨_, _, h⟩ <;> omega
  | succ n ih =>
    rw [LexState.tokenizeFuelM] at h
    cases hx : s.nextM U with
    | ok x =>
      obtain ⟨s', t⟩ := x
      rw [hx] at h
      cases t with
      | none => simp [bind, Except.bind, pure, Except.pure] at h
      | some t =>
        simp only [bind, Except.bind] at h
        rw [nextM_ok] at hx
        have hl := ih s' (next_enough U hU s s' t n hn hx) h
        unfold LexState.next at hx
        cases hs : skipSpace U s.rest s.pos with
        | mk rr p =>
          rw [hs] at hx
          obtain ⟨ws, h1, h2, h3, h4⟩ := skipSpace_sound U _ _ _ _ hs
          cases rr with
          | nil =>
            simp only at hx
            split at hx
            · simp only [Except.ok.injEq, Prod.mk.injEq, Option.some.injEq] at hx
              obtain ⟨rfl, rfl⟩ := hx
              exfalso
              have he : LexState.ended ⟨[], p + 1, s.toks ++ [⟨.«end», p, .none⟩], s.atts⟩ := by
                simp [LexState.ended]
              cases n with
              | zero =>
                rename_i hne
                rcases hn with hn | ⟨_, hn, _⟩
                · omega
                · exact hne hn
              | succ n =>
                have e := er_tokenizeFuel U (n + 1) ⟨[], p + 1, s.toks ++ [⟨.«end», p, .none⟩], s.atts⟩
                rw [h, fuel_tokenize U hU _ _ (Or.inr ⟨rfl, he, by omega⟩), tokenize_ended U hU _ rfl he] at e
                simp [er, Except.mapError] at e
            · simp at hx
          | cons c tail =>
            simp only at hx
            cases ho : lexOne U c tail p with
            | error e => rw [ho] at hx; simp [bind, Except.bind] at hx
            | ok x =>
              obtain ⟨t', isAtt, tail', pos'⟩ := x
              rw [ho] at hx
              simp only [bind, Except.bind, pure, Except.pure, Except.ok.injEq, Prod.mk.injEq,
                Option.some.injEq] at hx
              obtain ⟨rfl, rfl⟩ := hx
              obtain ⟨_, _, _, w, g4, _, g6, _, g8⟩ := lexOne_sound U hU _ _ _ _ _ _ _ ho
              obtain ⟨ws', bad, p', k1, k2, k3⟩ := hl
              have e1 : s.rest = ws ++ w ++ tail' := by rw [h1, g4]; simp
              rw [e1]
              refine ⟨ws', bad, p', Reads.tok ws w tail' _ s.pos p' _ _ h2 g6 ?_, k2, k3⟩
              have e2 : s.pos + ws.length + w.length = pos' + 1 := by omega
              rw [e2]
              exact k1
    | error r' =>
      rw [hx] at h
      simp only [bind, Except.bind, Except.error.injEq] at h
      subst h
      unfold LexState.nextM at hx
      cases hs : skipSpace U s.rest s.pos with
      | mk rr p =>
        rw [hs] at hx
        obtain ⟨ws, h1, h2, h3, h4⟩ := skipSpace_sound U _ _ _ _ hs
        cases rr with
        | nil =>
          simp only at hx
          split at hx <;> simp at hx
        | cons c tail =>
          simp only at hx
          cases ho : lexOneM U c tail p with
          | ok x => rw [ho] at hx; simp [bind, Except.bind, pure, Except.pure] at hx
          | error e =>
            rw [ho] at hx
            simp only [bind, Except.bind, Except.error.injEq] at hx
            subst hx
            rw [h1]
            refine ⟨ws, c :: tail, s.pos, Reads.none _ _, h2, ?_⟩
            rw [← h3]
            exact lexOneM_error U hU c tail p _ (h4 c rfl) ho

/-- A text with something that is no lexeme is refused. -/
theorem runM_fails (U : Uni) (hU : U.Lawful) (text : Str) (pos : Nat) (r : SyntaxErr) (h : LexFails U text pos r) :
    ∀ (n : Nat) (toks atts : List Token), text.length + 2 ≤ n →
      (LexState.mk text pos toks atts).tokenizeFuelM U n = .error r := by
  obtain ⟨ws, bad, p, h1, h2, h3⟩ := h
  generalize hs : ws ++ bad = s at h1
  induction h1 with
  | none s pos =>
    intro n toks atts hn
    subst hs
    obtain ⟨m, rfl⟩ : ∃ m, n = m + 1 := ⟨n - 1, by omega⟩
    obtain ⟨c, tail, rfl, hc, ho⟩ := lexOneM_bad U hU bad _ r h3
    have hk : skipSpace U (ws ++ c :: tail) pos = (c :: tail, pos + ws.length) := by
      rw [skipSpace_append U ws _ pos h2, skipSpace, if_neg (by simp [hc])]
    rw [LexState.tokenizeFuelM]
    unfold LexState.nextM
    simp only [hk, ho, bind, Except.bind]
  | tok ws' w rest s pos p' ty v hw hl _ ih =>
    intro n toks atts hn
    obtain ⟨m, rfl⟩ : ∃ m, n = m + 1 := ⟨n - 1, by omega⟩
    have hx := next_lexeme U hU ws' w rest pos ty v toks atts hw hl
    rw [← nextM_ok] at hx
    rw [LexState.tokenizeFuelM, hx]
    simp only [bind, Except.bind]
    have hwne : 0 < w.length := by
      obtain ⟨c, tl, rfl, _⟩ := lexOne_complete U hU w ty v rest hl
      simp
    exact ih h3 hs m _ _ (by simp only [List.length_append] at hn; omega)

end Verif.Proofs
