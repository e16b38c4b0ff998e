import Verif.Proofs.AAuthCon

/-!
# Lemmas about numerals
-/

namespace Verif.Proofs

open Verif.Spec

variable {U : Uni}

/-! ### Texts that are no numerals -/

theorem mem_dropWhile_of_not {α : Type} {p : α → Bool} {x : α} {l : List α} (h : x ∈ l) (hx : p x = false) :
    x ∈ l.dropWhile p := by
  induction l with
  | nil => cases h
  | cons y l ih =>
    rw [List.dropWhile_cons]
    split
    · rename_i hy
      rcases List.mem_cons.mp h with rfl | h
      · rw [hx] at hy; cases hy
      · exact ih h
    · exact h

theorem mem_pyStrip {c : Char} {s : Str} (h : c ∈ s) (hc : U.isSpace c = false) : c ∈ pyStrip U s := by
  rw [pyStrip, List.mem_reverse]
  refine mem_dropWhile_of_not ?_ hc
  rw [List.mem_reverse]
  exact mem_dropWhile_of_not h hc

theorem mem_intSign {c : Char} {s : Str} (h : c ∈ s) (h1 : c ≠ '-') (h2 : c ≠ '+') : c ∈ (intSign s).2 := by
  unfold intSign
  split
  · rcases List.mem_cons.mp h with h | h
    · exact absurd h h1
    · exact h
  · rcases List.mem_cons.mp h with h | h
    · exact absurd h h2
    · exact h
  · exact h

theorem baseDigits_none {base : Nat} {c : Char} (hc : c ≠ '_') (hd : baseDigit U base c = none) (s : Str) (h : c ∈ s)
    (acc : Nat) (last : Bool) : baseDigits U base acc last s = none := by
  induction s generalizing acc last with
  | nil => cases h
  | cons x s ih =>
    rw [baseDigits]
    rcases List.mem_cons.mp h with rfl | h
    · rw [if_neg hc, hd]
    · split
      · split
        · exact ih h _ _
        · rfl
      · split
        · exact ih h _ _
        · rfl

theorem colon_refused (hU : U.Lawful) {p : Str} (h : ':' ∈ p) (v : Int) : pyIntBase U 10 p ≠ .ok v := by
  intro he
  obtain ⟨n, hn, _⟩ := pyIntBase_ok.mp he
  rw [if_neg (by decide)] at hn
  unfold intDigits at hn
  rw [baseDigits_none (c := ':') (by decide) ?_ _ ?_] at hn
  · cases hn
  · unfold baseDigit
    rw [hU.digitVal_none ':' (by decide) (by decide)]
    rfl
  · refine mem_intSign (mem_pyStrip h ?_) (by decide) (by decide)
    rw [hU.space_ascii ':' (by decide)]
    decide

theorem empty_refused (base : Nat) (v : Int) : pyIntBase U base [] ≠ .ok v := by
  intro he
  obtain ⟨n, hn, _⟩ := pyIntBase_ok.mp he
  have : (if base = 16 then dropHexPrefix (intSign (pyStrip U [])).2 else (intSign (pyStrip U [])).2) = [] := by
    split <;> rfl
  rw [this] at hn
  cases hn

theorem nil_mem_pySplit (c : Char) (a b : Str) : [] ∈ (pySplit c (a ++ c :: c :: b)).tail := by
  induction a with
  | nil =>
    rw [List.nil_append, pySplit, if_pos rfl, List.tail_cons, pySplit, if_pos rfl]
    exact List.mem_cons_self
  | cons x a ih =>
    rw [List.cons_append, pySplit]
    split
    · exact List.mem_of_mem_tail ih
    · split
      · rename_i h
        exact absurd h (pySplit_nil_iff c _)
      · rename_i h
        rw [h] at ih
        exact ih

theorem forall₂_left {α β : Type} {R : α → β → Prop} {xs : List α} {ys : List β} (h : List.Forall₂ R xs ys) {x : α}
    (hx : x ∈ xs) : ∃ y, R x y := by
  induction h with
  | nil => cases hx
  | cons h1 _ ih =>
    rcases List.mem_cons.mp hx with rfl | hx
    · exact ⟨_, h1⟩
    · exact ih hx

theorem mem_of_mem_intercalate {c x : Char} {ps : List Str} (h : x ∈ List.intercalate [c] ps) (hx : x ≠ c) : ∃ p ∈ ps, x ∈ p := by
  induction ps with
  | nil => simp [List.intercalate] at h
  | cons p ps ih =>
    cases ps with
    | nil =>
      simp [List.intercalate] at h
      exact ⟨p, by simp, h⟩
    | cons q qs =>
      rw [List.intercalate_cons_cons, List.mem_append, List.mem_append] at h
      rcases h with (h | h) | h
      · exact ⟨p, by simp, h⟩
      · simp at h; exact absurd h hx
      · obtain ⟨r, hr, hm⟩ := ih h
        exact ⟨r, List.mem_cons_of_mem _ hr, hm⟩

/-! ### Numerals -/

theorem baseDigits_snoc {base d : Nat} {c : Char} (hc : c ≠ '_') (hd : baseDigit U base c = some d) (s : Str) (acc v : Nat)
    (last : Bool) (h : baseDigits U base acc last s = some v) : baseDigits U base acc last (s ++ [c]) = some (v * base + d) := by
  induction s generalizing acc last with
  | nil =>
    rw [baseDigits] at h
    split at h
    · cases h
      rw [List.nil_append, baseDigits, if_neg hc, hd]
      rfl
    · cases h
  | cons x s ih =>
    rw [List.cons_append, baseDigits]
    rw [baseDigits] at h
    split
    · rename_i hx
      rw [if_pos hx] at h
      split
      · rename_i hl
        rw [if_pos hl] at h
        exact ih _ _ h
      · rename_i hl
        rw [if_neg hl] at h
        cases h
    · rename_i hx
      rw [if_neg hx] at h
      cases hb : baseDigit U base x with
      | none => rw [hb] at h; cases h
      | some e =>
        rw [hb] at h
        exact ih _ _ h

theorem baseDigits_toDigits {base : Nat} (hb : 1 < base) (g : Char → Char)
    (hg : ∀ d < base, g (Nat.digitChar d) ≠ '_' ∧ baseDigit U base (g (Nat.digitChar d)) = some d) (n : Nat) :
    baseDigits U base 0 false ((Nat.toDigits base n).map g) = some n := by
  induction n using Nat.strongRecOn with
  | ind n ih =>
    rw [Nat.toDigits_eq_if hb]
    split
    · rename_i h
      obtain ⟨h1, h2⟩ := hg n h
      rw [List.map_cons, List.map_nil, baseDigits, if_neg h1, h2]
      simp [baseDigits]
    · rename_i h
      obtain ⟨h1, h2⟩ := hg (n % base) (Nat.mod_lt _ (by omega))
      rw [List.map_append, List.map_cons, List.map_nil,
        baseDigits_snoc h1 h2 _ _ _ _ (ih (n / base) (Nat.div_lt_self (by omega) hb))]
      rw [Nat.div_add_mod']

theorem digitChar_facts : ∀ d < 16, isAscii (Nat.digitChar d) = true ∧ Nat.digitChar d ≠ '_' ∧
    asciiUpper (Nat.digitChar d) ≠ '_' ∧ isAscii (asciiUpper (Nat.digitChar d)) = true ∧
    (if d < 10 then asciiDigit (Nat.digitChar d) = true ∧ (Nat.digitChar d).toNat = d + 48 ∧
        asciiUpper (Nat.digitChar d) = Nat.digitChar d
      else asciiDigit (Nat.digitChar d) = false ∧ (Nat.digitChar d).toNat = d + 87 ∧
        asciiDigit (asciiUpper (Nat.digitChar d)) = false ∧ (asciiUpper (Nat.digitChar d)).toNat = d + 55) := by
  decide

theorem baseDigit_digitChar (hU : U.Lawful) {base d : Nat} (hb : base ≤ 16) (hd : d < base) :
    baseDigit U base (Nat.digitChar d) = some d := by
  obtain ⟨h1, _, _, _, h2⟩ := digitChar_facts d (by omega)
  unfold baseDigit
  by_cases h10 : d < 10
  · rw [if_pos h10] at h2
    rw [hU.digitVal_ascii _ h1 h2.1, h2.2.1]
    simp [hd]
  · rw [if_neg h10] at h2
    rw [hU.digitVal_none _ h1 h2.1, h2.2.1]
    dsimp only
    rw [if_pos (by omega)]
    simp [hd]

theorem baseDigit_upper (hU : U.Lawful) {d : Nat} (hd : d < 16) :
    baseDigit U 16 (asciiUpper (Nat.digitChar d)) = some d := by
  obtain ⟨h1, _, _, h3, h2⟩ := digitChar_facts d hd
  by_cases h10 : d < 10
  · rw [if_pos h10] at h2
    rw [h2.2.2]
    exact baseDigit_digitChar hU (by omega) hd
  · rw [if_neg h10] at h2
    unfold baseDigit
    rw [hU.digitVal_none _ h3 h2.2.2.1, h2.2.2.2]
    dsimp only
    rw [if_neg (by omega), if_pos (by omega)]
    simp [hd]

theorem baseDigits_start {base acc : Nat} {c : Char} {s : Str} (hc : c ≠ '_') (l l' : Bool) :
    baseDigits U base acc l (c :: s) = baseDigits U base acc l' (c :: s) := by
  rw [baseDigits, baseDigits, if_neg hc, if_neg hc]

/-- The file names of certificates can be read back. -/
theorem hexUpper_read (n : Nat) : baseDigits asciiUni 16 0 false (hexUpper n) = some n := by
  have h := baseDigits_toDigits (U := asciiUni) (base := 16) (by omega) asciiUpper
    (fun d hd => ⟨(digitChar_facts d hd).2.2.1, baseDigit_upper asciiUni_lawful hd⟩) n
  unfold hexUpper
  dsimp only
  split
  · have hne : Nat.toDigits 16 n ≠ [] := fun e => by
      have := Nat.length_toDigits_pos (b := 16) (n := n)
      rw [e] at this
      simp at this
    cases hd : Nat.toDigits 16 n with
    | nil => exact absurd hd hne
    | cons c s =>
      have hc : asciiUpper c ≠ '_' := by
        rw [hd, List.map_cons, baseDigits] at h
        intro e
        rw [if_pos e] at h
        cases h
      rw [hd] at h
      rw [baseDigits, if_neg (by decide), show baseDigit asciiUni 16 '0' = some 0 by decide]
      dsimp only
      rw [Nat.zero_mul, List.map_cons, baseDigits_start hc true false, ← List.map_cons]
      exact h
  · exact h

theorem hexUpper_inj {n m : Nat} (h : hexUpper n = hexUpper m) : n = m := by
  have h1 := hexUpper_read n
  rw [h, hexUpper_read m] at h1
  exact (Option.some.inj h1).symm

theorem digit_mem_toDigits {base : Nat} (hb : 1 < base) (n : Nat) : ∀ c ∈ Nat.toDigits base n, ∃ d < base, c = Nat.digitChar d := by
  induction n using Nat.strongRecOn with
  | ind n ih =>
    intro c hc
    rw [Nat.toDigits_eq_if hb] at hc
    split at hc
    · rename_i h
      simp at hc
      exact ⟨n, h, hc⟩
    · rw [List.mem_append] at hc
      rcases hc with hc | hc
      · exact ih (n / base) (Nat.div_lt_self (by omega) hb) c hc
      · simp at hc
        exact ⟨n % base, Nat.mod_lt _ (by omega), hc⟩

theorem pyStrip_plain {s : Str} (h : ∀ c ∈ s, U.isSpace c = false) : pyStrip U s = s := by
  have key : ∀ l : Str, (∀ c ∈ l, U.isSpace c = false) → l.dropWhile U.isSpace = l := by
    intro l hl
    cases l with
    | nil => rfl
    | cons x l => rw [List.dropWhile_cons, if_neg (by rw [hl x (by simp)]; simp)]
  rw [pyStrip, key s h, key _ (fun c hc => h c (List.mem_reverse.mp hc)), List.reverse_reverse]

theorem intSign_plain {s : Str} (h : ∀ c ∈ s, c ≠ '-' ∧ c ≠ '+') : intSign s = (false, s) := by
  unfold intSign
  split
  · exact absurd rfl (h '-' (by simp)).1
  · exact absurd rfl (h '+' (by simp)).2
  · rfl

theorem dropHexPrefix_plain {s : Str} (h : ∀ c ∈ s, c ≠ 'x' ∧ c ≠ 'X') : dropHexPrefix s = s := by
  unfold dropHexPrefix
  split
  · exact absurd rfl (h 'x' (by simp)).1
  · exact absurd rfl (h 'X' (by simp)).2
  · exact absurd rfl (h 'x' (by simp)).1
  · exact absurd rfl (h 'X' (by simp)).2
  · rfl

theorem digitChar_plain : ∀ d < 16, asciiSpace (Nat.digitChar d) = false ∧ Nat.digitChar d ≠ '-' ∧ Nat.digitChar d ≠ '+' ∧
    Nat.digitChar d ≠ 'x' ∧ Nat.digitChar d ≠ 'X' ∧ Nat.digitChar d ≠ '.' ∧ Nat.digitChar d ≠ ':' := by decide

/-- `int` reads the usual digits of a number. -/
theorem pyIntBase_toDigits (hU : U.Lawful) {base : Nat} (hb : base = 10 ∨ base = 16) (n : Nat)
    (hl : base = 10 → ∀ m, U.intLimit = some m → (Nat.toDigits 10 n).length ≤ m) :
    pyIntBase U base (Nat.toDigits base n) = .ok n := by
  have hb1 : 1 < base := by omega
  have hmem : ∀ c ∈ Nat.toDigits base n, ∃ d < 16, c = Nat.digitChar d := fun c hc => by
    obtain ⟨d, hd, e⟩ := digit_mem_toDigits hb1 n c hc
    exact ⟨d, by omega, e⟩
  have h1 : pyStrip U (Nat.toDigits base n) = Nat.toDigits base n := by
    refine pyStrip_plain (fun c hc => ?_)
    obtain ⟨d, hd, rfl⟩ := hmem c hc
    rw [hU.space_ascii _ (digitChar_facts d hd).1]
    exact (digitChar_plain d hd).1
  have h2 : intSign (Nat.toDigits base n) = (false, Nat.toDigits base n) := by
    refine intSign_plain (fun c hc => ?_)
    obtain ⟨d, hd, rfl⟩ := hmem c hc
    exact ⟨(digitChar_plain d hd).2.1, (digitChar_plain d hd).2.2.1⟩
  have h3 : dropHexPrefix (Nat.toDigits base n) = Nat.toDigits base n := by
    refine dropHexPrefix_plain (fun c hc => ?_)
    obtain ⟨d, hd, rfl⟩ := hmem c hc
    exact ⟨(digitChar_plain d hd).2.2.2.1, (digitChar_plain d hd).2.2.2.2.1⟩
  refine pyIntBase_ok.mpr ⟨n, ?_, ?_⟩
  · rw [h1, h2, h3]
    dsimp only
    rw [show (if base = 16 then Nat.toDigits base n else Nat.toDigits base n) = Nat.toDigits base n by split <;> rfl]
    have hd := baseDigits_toDigits (U := U) hb1 id (fun d hd => ⟨(digitChar_facts d (by omega)).2.1, baseDigit_digitChar hU (by omega) hd⟩) n
    rw [List.map_id] at hd
    unfold intDigits
    rw [hd]
    dsimp only
    rw [if_neg]
    intro hc
    rw [Bool.and_eq_true, decide_eq_true_eq] at hc
    obtain ⟨hc1, hc2⟩ := hc
    rw [Option.any_eq_true_iff_get] at hc2
    obtain ⟨hs, hc2⟩ := hc2
    have := hl hc1 _ (Option.some_get hs).symm
    have hlen := List.length_filter_le (fun x : Char => decide (x ≠ '_')) (Nat.toDigits base n)
    have hc3 := of_decide_eq_true hc2
    rw [← hc1] at this
    omega
  · rw [h1, h2]; rfl

theorem decimal_nat (n : Nat) : decimal n = Nat.toDigits 10 n := by
  rw [decimal, Int.toString_eq_repr, Int.repr_eq_if, if_pos (by omega)]
  simp

end Verif.Proofs
