import Verif.Model.Lexer
import Verif.Proofs.Ascii
import Mathlib.Tactic.Ring
/-!
Helper lemmas: the loops of the lexer.
-/

namespace Verif
open Spec

theorem skipSpace_eq (U : Uni) (s : Str) (pos : Nat) :
    skipSpace U s pos = (s.dropWhile U.isSpace, pos + (s.takeWhile U.isSpace).length) := by
  induction s generalizing pos with
  | nil => simp [skipSpace]
  | cons c tl ih =>
    by_cases h : U.isSpace c = true
    · simp [skipSpace, h, ih]; omega
    · simp [skipSpace, h]

theorem skipSpace_append (U : Uni) (ws s : Str) (pos : Nat) (h : ∀ c ∈ ws, U.isSpace c = true) :
    skipSpace U (ws ++ s) pos = skipSpace U s (pos + ws.length) := by
  induction ws generalizing pos with
  | nil => simp
  | cons c tl ih =>
    have hc : U.isSpace c = true := h c (by simp)
    rw [List.cons_append, skipSpace, if_pos hc, ih _ (fun x hx => h x (by simp [hx]))]
    congr 1
    simp; omega

theorem skipSpace_sound (U : Uni) (s s' : Str) (pos pos' : Nat) (h : skipSpace U s pos = (s', pos')) :
    ∃ ws, s = ws ++ s' ∧ (∀ c ∈ ws, U.isSpace c = true) ∧ pos' = pos + ws.length ∧
      ∀ c, s'.head? = some c → U.isSpace c = false := by
  induction s generalizing pos with
  | nil =>
    simp only [skipSpace, Prod.mk.injEq] at h
    obtain ⟨rfl, rfl⟩ := h
    exact ⟨[], by simp⟩
  | cons c tl ih =>
    by_cases hc : U.isSpace c = true
    · rw [skipSpace, if_pos hc] at h
      obtain ⟨ws, h1, h2, h3, h4⟩ := ih _ h
      refine ⟨c :: ws, by simp [h1], ?_, by simp; omega, h4⟩
      intro x hx
      rcases List.mem_cons.mp hx with rfl | hx
      · exact hc
      · exact h2 x hx
    · rw [skipSpace, if_neg hc] at h
      simp only [Prod.mk.injEq] at h
      obtain ⟨rfl, rfl⟩ := h
      refine ⟨[], by simp, by simp, by simp, ?_⟩
      intro x hx
      simp at hx
      subst hx
      simpa using hc

theorem idChar_iff (U : Uni) (c : Char) : idChar U c = true ↔ IdChar U c := by
  simp [idChar, IdChar, or_assoc]

theorem idLoop_sound (U : Uni) (acc tail : Str) (pos : Nat) :
    ∃ ds, (∀ c ∈ ds, IdChar U c) ∧ ∃ tail', tail = ds ++ tail' ∧
      idLoop U acc tail pos = (acc ++ ds, tail', pos + ds.length) ∧
      ∀ c, tail'.head? = some c → ¬ IdChar U c := by
  induction tail generalizing acc pos with
  | nil => exact ⟨[], by simp, [], by simp [idLoop]⟩
  | cons p tl ih =>
    by_cases hp : idChar U p = true
    · obtain ⟨ds, h1, tail', h2, h3, h4⟩ := ih (acc ++ [p]) (pos + 1)
      refine ⟨p :: ds, ?_, tail', by simp [h2], ?_, h4⟩
      · intro c hc
        rcases List.mem_cons.mp hc with rfl | hc
        · exact (idChar_iff U _).mp hp
        · exact h1 c hc
      · rw [idLoop, if_pos hp, h3]
        simp; omega
    · refine ⟨[], by simp, p :: tl, by simp, ?_, ?_⟩
      · rw [idLoop, if_neg hp]; simp
      · intro c hc
        simp at hc
        subst hc
        rwa [← idChar_iff]

theorem idLoop_complete (U : Uni) (acc ds rest : Str) (pos : Nat) (h : ∀ c ∈ ds, IdChar U c)
    (hx : ∀ c, rest.head? = some c → ¬ IdChar U c) :
    idLoop U acc (ds ++ rest) pos = (acc ++ ds, rest, pos + ds.length) := by
  induction ds generalizing acc pos with
  | nil =>
    cases rest with
    | nil => simp [idLoop]
    | cons p tl =>
      have := hx p rfl
      rw [← idChar_iff] at this
      simp [idLoop, this]
  | cons c tl ih =>
    have hc := (idChar_iff U c).mpr (h c (by simp))
    rw [List.cons_append, idLoop, if_pos hc, ih _ _ (fun x hx => h x (by simp [hx]))]
    simp; omega

theorem stringChar_iff (c : Char) (h : c ≠ '"') : stringChar c = true ↔ StrChar c := by
  have h34 : c.toNat ≠ 34 := fun e => h (char_ext e)
  simp only [stringChar, StrChar, ne_eq, h, not_false_eq_true, and_true]
  split
  · simp; omega
  · split <;> simp <;> omega

theorem stringLoop_sound (start : Nat) (acc s : Str) (pos : Nat) (r tl : Str) (pos' : Nat)
    (h : stringLoop start acc s pos = .ok (r, tl, pos')) :
    ∃ body, s = body ++ '"' :: tl ∧ r = acc ++ body ∧ pos' = pos + body.length ∧
      ∀ c ∈ body, StrChar c := by
  induction s generalizing acc pos with
  | nil => simp [stringLoop] at h
  | cons c t ih =>
    rw [stringLoop] at h
    split at h
    · rename_i hc
      simp only [Except.ok.injEq, Prod.mk.injEq] at h
      obtain ⟨rfl, rfl, rfl⟩ := h
      exact ⟨[], by simp [hc]⟩
    · rename_i hc
      split at h
      · rename_i hs
        obtain ⟨body, h1, h2, h3, h4⟩ := ih _ _ h
        refine ⟨c :: body, by simp [h1], by simp [h2], by simp; omega, ?_⟩
        intro x hx
        rcases List.mem_cons.mp hx with rfl | hx
        · exact (stringChar_iff _ hc).mp hs
        · exact h4 x hx
      · simp at h

theorem stringLoop_complete (start : Nat) (acc body tl : Str) (pos : Nat)
    (h : ∀ c ∈ body, StrChar c) :
    stringLoop start acc (body ++ '"' :: tl) pos = .ok (acc ++ body, tl, pos + body.length) := by
  induction body generalizing acc pos with
  | nil => simp [stringLoop]
  | cons c t ih =>
    have hc : StrChar c := h c (by simp)
    have hne : c ≠ '"' := hc.2.2
    have := ih (acc ++ [c]) (pos + 1) (fun x hx => h x (by simp [hx]))
    rw [List.cons_append, stringLoop, if_neg hne, if_pos ((stringChar_iff c hne).mpr hc), this]
    simp; omega

/-- What may follow a number. -/
def NumEnd (U : Uni) (rest : Str) : Prop :=
  ∀ c, rest.head? = some c → U.isDigit c = false ∧ c ≠ '.'

theorem numLoop_true_sound (U : Uni) (acc tail : Str) (pos : Nat) (num : Str) (f : Bool)
    (tail' : Str) (pos' : Nat) (h : numLoop U acc true tail pos = .ok (num, f, tail', pos')) :
    f = true ∧ ∃ ds, (∀ c ∈ ds, U.isDigit c = true) ∧ tail = ds ++ tail' ∧ num = acc ++ ds ∧
      pos' = pos + ds.length ∧ NumEnd U tail' := by
  induction tail generalizing acc pos with
  | nil =>
    simp only [numLoop, Except.ok.injEq, Prod.mk.injEq] at h
    obtain ⟨rfl, rfl, rfl, rfl⟩ := h
    exact ⟨rfl, [], by simp [NumEnd]⟩
  | cons p tl ih =>
    rw [numLoop] at h
    split at h
    · rename_i hp
      obtain ⟨h0, ds, h1, h2, h3, h4, h5⟩ := ih _ _ h
      refine ⟨h0, p :: ds, ?_, by simp [h2], by simp [h3], by simp; omega, h5⟩
      intro c hc
      rcases List.mem_cons.mp hc with rfl | hc
      · exact hp
      · exact h1 c hc
    · split at h
      · simp at h
      · rename_i hp hd
        simp only [Except.ok.injEq, Prod.mk.injEq] at h
        obtain ⟨rfl, rfl, rfl, rfl⟩ := h
        refine ⟨rfl, [], by simp, by simp, by simp, by simp, ?_⟩
        intro c hc
        simp at hc
        subst hc
        exact ⟨by simpa using hp, hd⟩

theorem numLoop_true_complete (U : Uni) (acc ds rest : Str) (pos : Nat)
    (hd : ∀ c ∈ ds, U.isDigit c = true) (hx : NumEnd U rest) :
    numLoop U acc true (ds ++ rest) pos = .ok (acc ++ ds, true, rest, pos + ds.length) := by
  induction ds generalizing acc pos with
  | nil =>
    cases rest with
    | nil => simp [numLoop]
    | cons p tl =>
      obtain ⟨h1, h2⟩ := hx p rfl
      simp [numLoop, h1, h2]
  | cons c tl ih =>
    have hc := hd c (by simp)
    rw [List.cons_append, numLoop, if_pos hc, ih _ _ (fun x hx => hd x (by simp [hx]))]
    simp; omega

theorem numLoop_false_sound (U : Uni) (acc tail : Str) (pos : Nat) (num : Str) (f : Bool)
    (tail' : Str) (pos' : Nat) (h : numLoop U acc false tail pos = .ok (num, f, tail', pos')) :
    (f = false ∧ ∃ ds, (∀ c ∈ ds, U.isDigit c = true) ∧ tail = ds ++ tail' ∧ num = acc ++ ds ∧
      pos' = pos + ds.length ∧ NumEnd U tail') ∨
    (f = true ∧ ∃ ip fp, (∀ c ∈ ip, U.isDigit c = true) ∧ (∀ c ∈ fp, U.isDigit c = true) ∧
      fp ≠ [] ∧ tail = ip ++ '.' :: (fp ++ tail') ∧ num = acc ++ ip ++ '.' :: fp ∧
      pos' = pos + ip.length + 1 + fp.length ∧ NumEnd U tail') := by
  induction tail generalizing acc pos with
  | nil =>
    simp only [numLoop, Except.ok.injEq, Prod.mk.injEq] at h
    obtain ⟨rfl, rfl, rfl, rfl⟩ := h
    exact Or.inl ⟨rfl, [], by simp [NumEnd]⟩
  | cons p tl ih =>
    rw [numLoop] at h
    split at h
    · rename_i hp
      have key : ∀ ds : Str, (∀ c ∈ ds, U.isDigit c = true) → ∀ c ∈ p :: ds, U.isDigit c = true := by
        intro ds h1 c hc
        rcases List.mem_cons.mp hc with rfl | hc
        · exact hp
        · exact h1 c hc
      rcases ih _ _ h with ⟨h0, ds, h1, h2, h3, h4, h5⟩ | ⟨h0, ip, fp, h1, h1', h6, h2, h3, h4, h5⟩
      · exact Or.inl ⟨h0, p :: ds, key ds h1, by simp [h2], by simp [h3], by simp; omega, h5⟩
      · exact Or.inr ⟨h0, p :: ip, fp, key ip h1, h1', h6, by simp [h2], by simp [h3],
          by simp; omega, h5⟩
    · split at h
      · rename_i hp hd
        simp only [if_true] at h
        split at h
        · rename_i hq
          obtain ⟨h0, ds, h1, h2, h3, h4, h5⟩ := numLoop_true_sound U _ _ _ _ _ _ _ h
          refine Or.inr ⟨h0, [], ds, by simp, h1, ?_, by simp [h2, hd], by simp [h3], by simp; omega, h5⟩
          rintro rfl
          simp only [List.nil_append] at h2
          cases tl with
          | nil => simp [headIs] at hq
          | cons q tl' =>
            have := h5 q (by simp [← h2])
            simp [headIs] at hq
            simp [hq] at this
        · simp at h
      · rename_i hp hd
        simp only [Except.ok.injEq, Prod.mk.injEq] at h
        obtain ⟨rfl, rfl, rfl, rfl⟩ := h
        refine Or.inl ⟨rfl, [], by simp, by simp, by simp, by simp, ?_⟩
        intro c hc
        simp at hc
        subst hc
        exact ⟨by simpa using hp, hd⟩

theorem numLoop_int_complete (U : Uni) (acc ds rest : Str) (pos : Nat)
    (hd : ∀ c ∈ ds, U.isDigit c = true) (hx : NumEnd U rest) :
    numLoop U acc false (ds ++ rest) pos = .ok (acc ++ ds, false, rest, pos + ds.length) := by
  induction ds generalizing acc pos with
  | nil =>
    cases rest with
    | nil => simp [numLoop]
    | cons p tl =>
      obtain ⟨h1, h2⟩ := hx p rfl
      simp [numLoop, h1, h2]
  | cons c tl ih =>
    have hc := hd c (by simp)
    rw [List.cons_append, numLoop, if_pos hc, ih _ _ (fun x hx => hd x (by simp [hx]))]
    simp; omega

theorem numLoop_float_complete (U : Uni) (hU : U.Lawful) (acc ip fp rest : Str) (pos : Nat)
    (hd : ∀ c ∈ ip, U.isDigit c = true) (hf : ∀ c ∈ fp, U.isDigit c = true) (hne : fp ≠ [])
    (hx : NumEnd U rest) :
    numLoop U acc false (ip ++ '.' :: (fp ++ rest)) pos =
      .ok (acc ++ ip ++ '.' :: fp, true, rest, pos + ip.length + 1 + fp.length) := by
  induction ip generalizing acc pos with
  | nil =>
    have hdot : U.isDigit '.' = false := hU.digit_false _ rfl rfl
    cases fp with
    | nil => exact absurd rfl hne
    | cons q tl =>
      have hq := hf q (by simp)
      have := numLoop_true_complete U (acc ++ ['.']) (q :: tl) rest (pos + 1) hf hx
      simp only [List.nil_append, List.cons_append] at this ⊢
      rw [numLoop]
      simp only [hdot, Bool.false_eq_true, if_false, if_true, headIs, hq]
      rw [this]
      simp
  | cons c tl ih =>
    have hc := hd c (by simp)
    rw [List.cons_append, numLoop, if_pos hc, ih _ _ (fun x hx => hd x (by simp [hx]))]
    simp; omega

theorem digitsVal_eq (U : Uni) (acc : Nat) (ds : Str) :
    digitsVal U acc ds = (decVal U ds).map (fun n => acc * 10 ^ ds.length + n) := by
  induction ds generalizing acc with
  | nil => simp [digitsVal, decVal]
  | cons c tl ih =>
    rw [digitsVal, decVal]
    cases hd : U.digitVal c with
    | none => simp
    | some d =>
      simp only [ih]
      cases hv : decVal U tl with
      | none => simp
      | some n =>
        simp [Nat.pow_succ]
        ring

theorem decVal_append (U : Uni) (a b : Str) :
    decVal U (a ++ b) = (do let x ← decVal U a; let y ← decVal U b; return x * 10 ^ b.length + y) := by
  induction a with
  | nil => cases h : decVal U b <;> simp [decVal, h]
  | cons c tl ih =>
    simp only [List.cons_append, decVal, ih]
    cases U.digitVal c with
    | none => rfl
    | some d =>
      cases decVal U tl with
      | none => rfl
      | some n =>
        cases decVal U b with
        | none => rfl
        | some m =>
          simp [pow_add]
          ring

end Verif
