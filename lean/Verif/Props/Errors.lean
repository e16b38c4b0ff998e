import Verif.Model.Errors
import Verif.Props.Parser
/-!
# C57: error excerpts
-/

namespace Verif.Props
open Verif Verif.Spec Verif.Proofs

/-- The characters of a text whose index satisfies a condition, in order. -/
def charsAt (t : Str) (P : Nat → Bool) : Str := (t.zipIdx.filter (fun e => P e.2)).map Prod.fst

theorem charsAt_window (t : Str) (a b : Nat) :
    charsAt t (fun i => decide (a ≤ i ∧ i < b)) = (t.drop a).take (b - a) := by
  unfold charsAt
  have key : ∀ (t : Str) (k : Nat), ((t.zipIdx k).filter (fun e => decide (a ≤ e.2 ∧ e.2 < b))).map Prod.fst =
      (t.drop (a - k)).take (b - max a k) := by
    intro t
    induction t with
    | nil => simp
    | cons c t ih =>
      intro k
      rw [List.zipIdx_cons, List.filter_cons]
      by_cases h : a ≤ k ∧ k < b
      · rw [if_pos (by simpa using h), List.map_cons, ih]
        have e1 : a - k = 0 := by omega
        have e2 : a - (k + 1) = 0 := by omega
        have e3 : b - max a k = (b - max a (k + 1)) + 1 := by omega
        rw [e1, e2, e3]; rfl
      · rw [if_neg (by simpa using h), ih]
        by_cases h2 : a ≤ k
        · have e1 : b - max a k = 0 := by omega
          have e2 : b - max a (k + 1) = 0 := by omega
          rw [e1, e2]; simp
        · have e1 : a - k = (a - (k + 1)) + 1 := by omega
          have e2 : max a (k + 1) = max a k := by omega
          rw [e1, e2]; rfl
  have := key t 0
  simpa using this

/-- `near` on an error with a text and a position. -/
theorem near_eq (m t : Str) (pos n : Nat) (ht : t ≠ []) :
    HGPLError.near ⟨m, some t, pos⟩ n =
      some ((t.drop (pos - n)).take (min (pos + n + 1) t.length - (pos - n))) := by
  unfold HGPLError.near
  dsimp only
  rw [if_pos ⟨ht, by omega⟩]
  congr 1
  unfold pySlice
  dsimp only
  have e1 : (if (pos : Int) - n ≥ 0 then (pos : Int) - n else 0) = ((pos - n : Nat) : Int) := by split <;> omega
  have e2 : (if (pos : Int) + n + 1 ≤ t.length then (pos : Int) + n + 1 else t.length) =
      ((min (pos + n + 1) t.length : Nat) : Int) := by split <;> omega
  rw [e1, e2]
  have c1 : ∀ k : Nat, (max 0 (min (t.length : Int) (if (k : Int) < 0 then (k : Int) + t.length else k))).toNat =
      min k t.length := by
    intro k
    rw [if_neg (by omega)]; omega
  rw [c1, c1]
  by_cases h : pos - n ≤ t.length
  · rw [Nat.min_eq_left h]
    congr 1; omega
  · rw [List.drop_eq_nil_of_le (i := pos - n) (by omega), List.drop_eq_nil_of_le (by omega)]
    simp

/-- C57: `near(n)` consists of the characters at most `n` places away from the position, in order. -/
theorem near_window (m t : Str) (pos n : Nat) (ht : t ≠ []) :
    HGPLError.near ⟨m, some t, pos⟩ n = some (charsAt t (fun i => decide (pos ≤ i + n ∧ i ≤ pos + n))) := by
  rw [near_eq m t pos n ht]
  have h := charsAt_window t (pos - n) (pos + n + 1)
  have hc : (fun i => decide (pos ≤ i + n ∧ i ≤ pos + n)) = fun i => decide (pos - n ≤ i ∧ i < pos + n + 1) := by
    funext i
    congr 1
    apply propext
    omega
  rw [hc, h]
  congr 1
  by_cases hl : pos + n + 1 ≤ t.length
  · rw [Nat.min_eq_left hl]
  · rw [Nat.min_eq_right (by omega), List.take_of_length_le (by simp),
      List.take_of_length_le (by simp; omega)]

/-- C57: the excerpt is a contiguous part of the policy; if the position is inside the policy it contains the character
there. -/
theorem near_contiguous (m t : Str) (pos n : Nat) (ht : t ≠ []) :
    ∃ a w b, HGPLError.near ⟨m, some t, pos⟩ n = some w ∧ t = a ++ w ++ b ∧ w.length ≤ 2 * n + 1 ∧
      (pos < t.length → a.length ≤ pos ∧ w[pos - a.length]? = t[pos]?) := by
  refine ⟨t.take (pos - n), _, (t.drop (pos - n)).drop (min (pos + n + 1) t.length - (pos - n)), near_eq m t pos n ht,
    ?_, ?_, ?_⟩
  · rw [List.append_assoc, List.take_append_drop, List.take_append_drop]
  · rw [List.length_take]; omega
  · intro hp
    rw [List.length_take, Nat.min_eq_left (by omega)]
    refine ⟨by omega, ?_⟩
    rw [List.getElem?_take, if_pos (by omega), List.getElem?_drop]
    congr 1; omega

/-- C57: there is no excerpt exactly if there is no text or no position. -/
theorem near_none (e : HGPLError) (n : Int) :
    e.near n = none ↔ e.text = none ∨ e.text = some [] ∨ e.pos < 0 := by
  unfold HGPLError.near
  cases h : e.text with
  | none => simp
  | some t =>
    dsimp only
    by_cases h2 : t ≠ [] ∧ e.pos ≥ 0
    · rw [if_pos h2]
      simp only [reduceCtorEq, false_or, false_iff, Option.some.injEq, not_or]
      exact ⟨h2.1, by omega⟩
    · rw [if_neg h2]
      simp only [reduceCtorEq, false_or, true_iff, Option.some.injEq]
      by_cases h3 : t = []
      · exact Or.inl h3
      · right
        have : ¬ e.pos ≥ 0 := fun h4 => h2 ⟨h3, h4⟩
        omega

/-- C57: an error report ends with the excerpt of width 10 around the position and never shows `None`. -/
theorem str_spec (e : HGPLError) :
    e.str = (if e.pos < 0 then e.message else e.message ++ " @ char ".toList ++ (toString e.pos).toList ++
      match e.near 10 with
      | none => []
      | some w => " near '".toList ++ w ++ "'".toList) := by
  unfold HGPLError.str
  by_cases h : e.pos ≥ 0
  · have h' : ¬ e.pos < 0 := by omega
    rw [if_pos h, if_neg h']
    dsimp only
    cases hn : e.near 10 with
    | none =>
      have : e.hasText = false := by
        rcases (near_none e 10).1 hn with h1 | h1 | h1
        · simp [HGPLError.hasText, h1]
        · simp [HGPLError.hasText, h1]
        · omega
      rw [this]; simp
    | some w =>
      have : e.hasText = true := by
        have h1 : ¬ (e.text = none ∨ e.text = some [] ∨ e.pos < 0) := by
          rw [← near_none e 10, hn]; simp
        unfold HGPLError.hasText
        cases ht : e.text with
        | none => exact absurd (Or.inl ht) h1
        | some t =>
          have : t ≠ [] := fun h2 => h1 (Or.inr (Or.inl (by rw [ht, h2])))
          simp [this]
      rw [this]; simp
  · have h' : e.pos < 0 := by omega
    rw [if_neg h, if_pos h']

/-- C57: the excerpt of a LexerError is never empty: the reported place is inside the policy or at its end. -/
theorem lexer_error_excerpt (U : Uni) (hU : U.Lawful) (m text : Str) (p : Int) (ht : text ≠ [])
    (h : lexTokens U text = .error (.lexerError p)) :
    ∃ w, HGPLError.near ⟨m, some text, p⟩ 10 = some w ∧ w ≠ [] := by
  rcases lexer_failures U hU text _ h with ⟨q, h1, h2⟩ | ⟨h1, _⟩ | ⟨h1, _⟩
  · cases h1
    refine ⟨_, near_eq m text q 10 ht, ?_⟩
    have hl : 0 < text.length := List.length_pos_iff.2 ht
    intro hnil
    have := congrArg List.length hnil
    simp only [List.length_take, List.length_drop, List.length_nil] at this
    omega
  · cases h1
  · cases h1

/-- The report of a ParserError names the rule. -/
theorem parser_str (U : Uni) (e : HGPLError) (rule : Option Str) :
    HGPLError.parserStr U e rule = e.str ++
      match rule with
      | none | some [] => []
      | some r => " while parsing ".toList ++ U.upper r ++ " rule.".toList := by
  unfold HGPLError.parserStr
  cases rule with
  | none => simp
  | some r =>
    cases r with
    | nil => simp
    | cons c r => simp

example : HGPLError.near ⟨[], some "user.a = 1 AND %".toList, 15⟩ 3 = some "ND %".toList := by decide
example : HGPLError.near ⟨[], some "abcdef".toList, 2⟩ 1 = some "bcd".toList := by decide
example : (HGPLError.str ⟨"bad".toList, some "abcdef".toList, 2⟩) = "bad @ char 2 near 'abcdef'".toList := by decide +kernel
example : lexTokens asciiUni "user.a = %".toList = .error (.lexerError 9) := by decide +kernel

/-- A negative width gives surprising excerpts: the bounds count from the end of the text. -/
example : HGPLError.near ⟨[], some "abcdef".toList, 1⟩ (-3) = some "e".toList := by decide

end Verif.Props
