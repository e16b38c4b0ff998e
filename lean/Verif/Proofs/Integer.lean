import Verif.Spec.Integer
import Verif.Model.AAuth
import Verif.Proofs.AttCert

/-!
# Lemmas about texts of integers
-/

namespace Verif.Proofs

open Verif.Spec

variable {U : Uni} {base : Nat}

theorem dropWhile_all {α : Type} {p : α → Bool} {l m : List α} (h : ∀ x ∈ l, p x = true) :
    (l ++ m).dropWhile p = m.dropWhile p := by
  induction l with
  | nil => rfl
  | cons x l ih =>
    rw [List.cons_append, List.dropWhile_cons, if_pos (h x List.mem_cons_self)]
    exact ih (fun y hy => h y (List.mem_cons_of_mem _ hy))

theorem dropWhile_split {α : Type} (p : α → Bool) (l : List α) : ∃ pre, l = pre ++ l.dropWhile p ∧ (∀ x ∈ pre, p x = true) ∧
    ∀ x, (l.dropWhile p).head? = some x → p x = false := by
  induction l with
  | nil => exact ⟨[], rfl, fun _ h => (by cases h), fun _ h => (by cases h)⟩
  | cons x l ih =>
    rw [List.dropWhile_cons]
    by_cases hx : p x = true
    · rw [if_pos hx]
      obtain ⟨pre, h1, h2, h3⟩ := ih
      refine ⟨x :: pre, ?_, ?_, h3⟩
      · rw [List.cons_append, ← h1]
      · intro y hy
        rcases List.mem_cons.mp hy with rfl | hy
        · exact hx
        · exact h2 y hy
    · rw [if_neg hx]
      refine ⟨[], rfl, fun _ h => (by cases h), ?_⟩
      intro y hy
      cases hy
      simpa using hx

theorem dropWhile_head {α : Type} {p : α → Bool} {l : List α} (h : ∀ x, l.head? = some x → p x = false) : l.dropWhile p = l := by
  cases l with
  | nil => rfl
  | cons x l => rw [List.dropWhile_cons, h x rfl]; rfl

theorem pyStrip_iff {s t : Str} : pyStrip U s = t ↔ Stripped U s t := by
  unfold pyStrip
  constructor
  · rintro rfl
    obtain ⟨pre, h1, h2, h3⟩ := dropWhile_split U.isSpace s
    obtain ⟨post, h4, h5, h6⟩ := dropWhile_split U.isSpace (s.dropWhile U.isSpace).reverse
    have h7 := congrArg List.reverse h4
    rw [List.reverse_reverse, List.reverse_append] at h7
    refine ⟨pre, post.reverse, ?_, h2, ?_, ?_, ?_⟩
    · rw [← h7]; exact h1
    · intro c hc
      exact h5 c (List.mem_reverse.mp hc)
    · intro c hc
      apply h3 c
      rw [h7]
      cases hr : ((s.dropWhile U.isSpace).reverse.dropWhile U.isSpace).reverse with
      | nil => rw [hr] at hc; cases hc
      | cons x l => rw [hr] at hc; exact hc
    · intro c hc
      rw [List.getLast?_reverse] at hc
      exact h6 c hc
  · rintro ⟨pre, post, rfl, h1, h2, h3, h4⟩
    rw [dropWhile_all h1]
    cases t with
    | nil =>
      rw [List.nil_append]
      have : post.dropWhile U.isSpace = [] := by
        have := dropWhile_all (m := []) h2
        rwa [List.append_nil] at this
      rw [this]
      rfl
    | cons x t =>
      have : ((x :: t) ++ post).dropWhile U.isSpace = (x :: t) ++ post := dropWhile_head (fun y hy => h3 y hy)
      rw [this, List.reverse_append, dropWhile_all (fun c hc => h2 c (List.mem_reverse.mp hc)), dropWhile_head, List.reverse_reverse]
      intro y hy
      rw [List.head?_reverse] at hy
      exact h4 y hy

theorem pyStrip_nil {s : Str} : pyStrip U s = [] ↔ s.all U.isSpace = true := by
  rw [pyStrip_iff, List.all_eq_true]
  constructor
  · rintro ⟨pre, post, rfl, h1, h2, _⟩ c hc
    rw [List.nil_append] at hc
    rcases List.mem_append.mp hc with h | h
    · exact h1 c h
    · exact h2 c h
  · intro h
    exact ⟨s, [], by simp, h, fun _ h => (by cases h), fun _ h => (by cases h), fun _ h => (by cases h)⟩

theorem hex_letters {d : Nat} {c : Char} (hd : 10 ≤ d) : (lowerHex[d - 10]? = some c ∨ upperHex[d - 10]? = some c) ↔
    (97 ≤ c.toNat ∧ c.toNat ≤ 102 ∧ d = c.toNat - 87 ∨ 65 ≤ c.toNat ∧ c.toNat ≤ 70 ∧ d = c.toNat - 55) := by
  have key : ∀ x : Char, x = c ↔ x.toNat = c.toNat := fun x => ⟨fun h => h ▸ rfl, fun h => Char.toNat_inj.mp h⟩
  by_cases h16 : d < 16
  · have : d = 10 ∨ d = 11 ∨ d = 12 ∨ d = 13 ∨ d = 14 ∨ d = 15 := by omega
    rcases this with rfl | rfl | rfl | rfl | rfl | rfl <;>
      simp only [lowerHex, upperHex, String.reduceToList, Nat.reduceSub, List.getElem?_cons_zero, List.getElem?_cons_succ,
        Option.some.injEq, key, Char.reduceToNat] <;> omega
  · have h1 : lowerHex[d - 10]? = none := by
      rw [List.getElem?_eq_none]
      show 6 ≤ _
      omega
    have h2 : upperHex[d - 10]? = none := by
      rw [List.getElem?_eq_none]
      show 6 ≤ _
      omega
    rw [h1, h2]
    constructor
    · rintro (h | h) <;> cases h
    · omega

theorem baseDigit_iff (hU : U.Lawful) {c : Char} {d : Nat} : baseDigit U base c = some d ↔ DigitOf U base c d := by
  unfold baseDigit DigitOf
  have letter : ∀ {n : Nat}, 65 ≤ n → n ≤ 70 ∨ 97 ≤ n ∧ n ≤ 102 → c.toNat = n → U.digitVal c = none := by
    intro n h1 h2 h3
    refine hU.digitVal_none c ?_ ?_
    · unfold isAscii
      simp only [decide_eq_true_eq]
      omega
    · unfold asciiDigit
      simp only [decide_eq_false_iff_not, Bool.and_eq_false_iff]
      omega
  cases hv : U.digitVal c with
  | some v =>
    dsimp only
    rw [Option.filter_eq_some_iff]
    constructor
    · rintro ⟨h1, h2⟩
      cases h1
      exact ⟨of_decide_eq_true h2, .inl rfl⟩
    · rintro ⟨h1, h2 | ⟨h2, h3⟩⟩
      · exact ⟨h2, decide_eq_true h1⟩
      · rw [hex_letters h2] at h3
        rcases h3 with h3 | h3
        · rw [letter (by omega) (.inr ⟨h3.1, h3.2.1⟩) rfl] at hv; cases hv
        · rw [letter h3.1 (.inl h3.2.1) rfl] at hv; cases hv
  | none =>
    dsimp only
    rw [Option.filter_eq_some_iff]
    constructor
    · rintro ⟨h1, h2⟩
      refine ⟨of_decide_eq_true h2, .inr ?_⟩
      split at h1
      · have := Option.some.inj h1
        exact ⟨by omega, (hex_letters (by omega)).mpr (by omega)⟩
      split at h1
      · have := Option.some.inj h1
        exact ⟨by omega, (hex_letters (by omega)).mpr (by omega)⟩
      · cases h1
    · rintro ⟨h1, h2 | ⟨h2, h3⟩⟩
      · cases h2
      · refine ⟨?_, decide_eq_true h1⟩
        rw [hex_letters h2] at h3
        rcases h3 with h3 | h3
        · rw [if_pos ⟨h3.1, h3.2.1⟩, h3.2.2]
        · rw [if_neg (by omega), if_pos ⟨h3.1, h3.2.1⟩, h3.2.2]

theorem digit_not_underscore (hU : U.Lawful) {c : Char} {d : Nat} (h : DigitOf U base c d) : c ≠ '_' := by
  rintro rfl
  rw [← baseDigit_iff hU, baseDigit, hU.digitVal_none '_' (by decide) (by decide)] at h
  cases h

/-- What `baseDigits` reads, in terms of the grammar. -/
theorem baseDigits_iff (hU : U.Lawful) {s : Str} {acc n : Nat} :
    (baseDigits U base acc true s = some n ↔ s = [] ∧ n = acc ∨
      (∃ ds, Digits U base s ds ∧ n = acc * base ^ ds.length + digitsValue base ds) ∨
      (∃ t ds, s = '_' :: t ∧ Digits U base t ds ∧ n = acc * base ^ ds.length + digitsValue base ds)) ∧
    (baseDigits U base acc false s = some n ↔
      ∃ ds, Digits U base s ds ∧ n = acc * base ^ ds.length + digitsValue base ds) := by
  induction s generalizing acc n with
  | nil =>
    constructor
    · rw [baseDigits, if_pos rfl]
      constructor
      · intro h; exact .inl ⟨rfl, (Option.some.inj h).symm⟩
      · rintro (⟨_, rfl⟩ | ⟨ds, h, _⟩ | ⟨t, ds, h, _⟩)
        · rfl
        · cases h
        · cases h
    · rw [baseDigits, if_neg (by decide)]
      constructor
      · intro h; cases h
      · rintro ⟨ds, h, _⟩; cases h
  | cons c s ih =>
    have step : ∀ last, c ≠ '_' → (baseDigits U base acc last (c :: s) = some n ↔
        ∃ ds, Digits U base (c :: s) ds ∧ n = acc * base ^ ds.length + digitsValue base ds) := by
      intro last hc
      rw [baseDigits, if_neg hc]
      have arith : ∀ d : Nat, ∀ ds : List Nat, (acc * base + d) * base ^ ds.length + digitsValue base ds =
          acc * base ^ (d :: ds).length + digitsValue base (d :: ds) := by
        intro d ds
        rw [digitsValue, List.length_cons, Nat.pow_succ', Nat.add_mul, Nat.mul_assoc, Nat.add_assoc]
      cases hd : baseDigit U base c with
      | none =>
        constructor
        · intro h; cases h
        · rintro ⟨ds, h, _⟩
          cases h with
          | one h => rw [(baseDigit_iff hU).mpr h] at hd; cases hd
          | next h _ => rw [(baseDigit_iff hU).mpr h] at hd; cases hd
          | sep h _ => rw [(baseDigit_iff hU).mpr h] at hd; cases hd
      | some d =>
        have hd' := (baseDigit_iff hU).mp hd
        dsimp only
        rw [ih.1]
        constructor
        · rintro (⟨rfl, rfl⟩ | ⟨ds, h, rfl⟩ | ⟨t, ds, rfl, h, rfl⟩)
          · exact ⟨[d], .one hd', by simp [digitsValue]⟩
          · exact ⟨d :: ds, .next hd' h, arith d ds⟩
          · exact ⟨d :: ds, .sep hd' h, arith d ds⟩
        · rintro ⟨ds, h, rfl⟩
          cases h with
          | one h =>
            rw [(baseDigit_iff hU).mpr h] at hd
            cases hd
            exact .inl ⟨rfl, by simp [digitsValue]⟩
          | next h h' =>
            rw [(baseDigit_iff hU).mpr h] at hd
            cases hd
            exact .inr (.inl ⟨_, h', (arith _ _).symm⟩)
          | sep h h' =>
            rw [(baseDigit_iff hU).mpr h] at hd
            cases hd
            exact .inr (.inr ⟨_, _, rfl, h', (arith _ _).symm⟩)
    by_cases hc : c = '_'
    · subst hc
      have no : ∀ ds, ¬ Digits U base ('_' :: s) ds := by
        intro ds h
        cases h with
        | one h => exact digit_not_underscore hU h rfl
        | next h _ => exact digit_not_underscore hU h rfl
        | sep h _ => exact digit_not_underscore hU h rfl
      constructor
      · rw [baseDigits, if_pos rfl, if_pos rfl, ih.2]
        constructor
        · rintro ⟨ds, h, rfl⟩
          exact .inr (.inr ⟨s, ds, rfl, h, rfl⟩)
        · rintro (⟨h, _⟩ | ⟨ds, h, _⟩ | ⟨t, ds, h, h', rfl⟩)
          · cases h
          · exact absurd h (no ds)
          · cases h
            exact ⟨ds, h', rfl⟩
      · rw [baseDigits, if_pos rfl, if_neg (by decide)]
        constructor
        · intro h; cases h
        · rintro ⟨ds, h, _⟩
          exact absurd h (no ds)
    · refine ⟨?_, step false hc⟩
      rw [step true hc]
      constructor
      · intro h; exact .inr (.inl h)
      · rintro (⟨h, _⟩ | h | ⟨t, ds, h, _⟩)
        · cases h
        · exact h
        · cases h; exact absurd rfl hc

theorem digits_count (hU : U.Lawful) {s : Str} {ds : List Nat} (h : Digits U base s ds) :
    (s.filter (· ≠ '_')).length = ds.length := by
  induction h with
  | one h => simp [digit_not_underscore hU h]
  | next h _ ih => rw [List.filter_cons, if_pos (by simp [digit_not_underscore hU h]), List.length_cons, ih, List.length_cons]
  | sep h _ ih =>
    rw [List.filter_cons, if_pos (by simp [digit_not_underscore hU h]), List.filter_cons, if_neg (by simp), List.length_cons, ih,
      List.length_cons]

theorem intDigits_iff (hU : U.Lawful) {s : Str} {n : Nat} : intDigits U base s = .ok n ↔
    ∃ ds, Digits U base s ds ∧ (base = 10 → ∀ m, U.intLimit = some m → ds.length ≤ m) ∧ n = digitsValue base ds := by
  unfold intDigits
  have h0 := fun n => (baseDigits_iff (base := base) hU (s := s) (acc := 0) (n := n)).2
  simp only [Nat.zero_mul, Nat.zero_add] at h0
  cases hb : baseDigits U base 0 false s with
  | none =>
    constructor
    · intro h; cases h
    · rintro ⟨ds, h, _, rfl⟩
      rw [(h0 _).mpr ⟨ds, h, rfl⟩] at hb
      cases hb
  | some v =>
    dsimp only
    obtain ⟨ds, hds, rfl⟩ := (h0 _).mp hb
    have uniq : ∀ ds', Digits U base s ds' → ds'.length = ds.length := fun ds' h => by
      rw [← digits_count hU h, digits_count hU hds]
    have hlim : (base = 10 && U.intLimit.any (fun m => decide (m < (s.filter (· ≠ '_')).length))) = true ↔
        ¬ (base = 10 → ∀ m, U.intLimit = some m → ds.length ≤ m) := by
      rw [digits_count hU hds]
      cases U.intLimit with
      | none => simp
      | some m => simp
    constructor
    · intro h
      split at h
      · cases h
      · rename_i hn
        rw [hlim, Classical.not_not] at hn
        exact ⟨ds, hds, hn, (Except.ok.inj h).symm⟩
    · rintro ⟨ds', h', hl, rfl⟩
      rw [if_neg (by rw [hlim, Classical.not_not, ← uniq ds' h']; exact hl)]
      have := (h0 _).mpr ⟨ds', h', rfl⟩
      rw [hb] at this
      rw [Option.some.inj this]

/-- The first character of digits. -/
theorem digits_head {s : Str} {ds : List Nat} (h : Digits U base s ds) : ∃ c d t, s = c :: t ∧ DigitOf U base c d := by
  cases h with
  | one h => exact ⟨_, _, _, rfl, h⟩
  | next h _ => exact ⟨_, _, _, rfl, h⟩
  | sep h _ => exact ⟨_, _, _, rfl, h⟩

theorem not_digit (hU : U.Lawful) {c : Char} (hc : c ∈ ['+', '-', '_', 'x', 'X']) (d : Nat) : ¬ DigitOf U base c d := by
  intro h
  rw [← baseDigit_iff hU, baseDigit] at h
  simp only [List.mem_cons, List.not_mem_nil, or_false] at hc
  rcases hc with rfl | rfl | rfl | rfl | rfl <;> rw [hU.digitVal_none _ (by decide) (by decide)] at h <;> cases h

/-- `pyIntBase` reads the grammar of integers. -/
theorem pyIntBase_iff (hU : U.Lawful) {s : Str} {v : Int} : pyIntBase U base s = .ok v ↔ IntText U base s v := by
  have h1 : pyIntBase U base s = .ok v ↔ ∃ n : Nat,
      intDigits U base (if base = 16 then dropHexPrefix (intSign (pyStrip U s)).2 else (intSign (pyStrip U s)).2) = .ok n ∧
        v = if (intSign (pyStrip U s)).1 then -(n : Int) else n := by
    unfold pyIntBase
    simp only [except_bind_ok, except_pure_ok]
    constructor
    · rintro ⟨n, h1, rfl⟩; exact ⟨n, h1, rfl⟩
    · rintro ⟨n, h1, rfl⟩; exact ⟨n, h1, rfl⟩
  rw [h1]
  simp only [intDigits_iff hU]
  generalize hs : pyStrip U s = w
  rw [pyStrip_iff] at hs
  have hw : ∀ x, Stripped U s x → x = w := fun x hx => (pyStrip_iff.mpr hx).symm.trans (pyStrip_iff.mpr hs)
  have sign : ∀ r : Str, (∃ sign, sign ∈ [[], ['+'], ['-']] ∧ w = sign ++ r ∧ ((sign = ['-']) ↔ (intSign w).1 = true) ∧
      r = (intSign w).2) ↔ r = (intSign w).2 := by
    intro r
    constructor
    · rintro ⟨_, _, _, _, h⟩; exact h
    · rintro rfl
      unfold intSign
      split
      · exact ⟨['-'], by simp, rfl, by simp, rfl⟩
      · exact ⟨['+'], by simp, rfl, by simp, rfl⟩
      · exact ⟨[], by simp, rfl, by simp, rfl⟩
  have pre : ∀ r : Str, ∃ p ∈ intPrefixes base, r = p ++ (if base = 16 then dropHexPrefix r else r) := by
    intro r
    unfold intPrefixes
    by_cases hb : base = 16
    · rw [if_pos hb, if_pos hb]
      unfold dropHexPrefix
      split
      · exact ⟨"0x_".toList, by simp, rfl⟩
      · exact ⟨"0X_".toList, by simp, rfl⟩
      · exact ⟨"0x".toList, by simp, rfl⟩
      · exact ⟨"0X".toList, by simp, rfl⟩
      · exact ⟨[], by simp, rfl⟩
    · rw [if_neg hb, if_neg hb]
      exact ⟨[], by simp, rfl⟩
  have pre' : ∀ (p t : Str) (ds : List Nat), p ∈ intPrefixes base → Digits U base t ds →
      (if base = 16 then dropHexPrefix (p ++ t) else p ++ t) = t := by
    intro p t ds hp ht
    unfold intPrefixes at hp
    obtain ⟨c, d, t', rfl, hc⟩ := digits_head ht
    have hu : c ≠ '_' := fun e => not_digit hU (by simp [e]) d hc
    by_cases hb : base = 16
    · rw [if_pos hb] at hp ⊢
      simp only [List.mem_cons, List.not_mem_nil, or_false] at hp
      rcases hp with rfl | rfl | rfl | rfl | rfl
      · rw [List.nil_append]
        have h2 : ∀ x rest, t' = x :: rest → x ≠ 'x' ∧ x ≠ 'X' := by
          rintro x rest rfl
          cases ht with
          | next _ h =>
            obtain ⟨c', d', t'', e, hc'⟩ := digits_head h
            cases e
            exact ⟨fun e => not_digit hU (by simp [e]) d' hc', fun e => not_digit hU (by simp [e]) d' hc'⟩
          | sep _ h => exact ⟨by decide, by decide⟩
        unfold dropHexPrefix
        split
        · rename_i e; cases e; exact absurd rfl (h2 _ _ rfl).1
        · rename_i e; cases e; exact absurd rfl (h2 _ _ rfl).2
        · rename_i e; cases e; exact absurd rfl (h2 _ _ rfl).1
        · rename_i e; cases e; exact absurd rfl (h2 _ _ rfl).2
        · rfl
      · show dropHexPrefix ('0' :: 'x' :: c :: t') = _
        unfold dropHexPrefix
        split
        · rename_i e; cases e; exact absurd rfl hu
        · rename_i e; cases e
        · rename_i e; cases e; rfl
        · rename_i e; cases e
        · rename_i h3 _; exact absurd rfl (h3 _)
      · show dropHexPrefix ('0' :: 'X' :: c :: t') = _
        unfold dropHexPrefix
        split
        · rename_i e; cases e
        · rename_i e; cases e; exact absurd rfl hu
        · rename_i e; cases e
        · rename_i e; cases e; rfl
        · rename_i h4; exact absurd rfl (h4 _)
      · rfl
      · rfl
    · rw [if_neg hb] at hp ⊢
      rw [List.mem_singleton] at hp
      rw [hp, List.nil_append]
  have sign' : ∀ (sign p t : Str) (ds : List Nat), w = sign ++ (p ++ t) → sign ∈ [[], ['+'], ['-']] → p ∈ intPrefixes base →
      Digits U base t ds → intSign w = (decide (sign = ['-']), p ++ t) := by
    intro sg p t ds hw hsg hp ht
    subst hw
    simp only [List.mem_cons, List.not_mem_nil, or_false] at hsg
    rcases hsg with rfl | rfl | rfl
    · have : ∀ x rest, p ++ t = x :: rest → x ≠ '-' ∧ x ≠ '+' := by
        intro x rest e
        obtain ⟨c, d, t', rfl, hc⟩ := digits_head ht
        unfold intPrefixes at hp
        have hd : c ≠ '-' ∧ c ≠ '+' := ⟨fun e => not_digit hU (by simp [e]) d hc, fun e => not_digit hU (by simp [e]) d hc⟩
        split at hp
        · simp only [List.mem_cons, List.not_mem_nil, or_false] at hp
          rcases hp with rfl | rfl | rfl | rfl | rfl
          · cases e; exact hd
          all_goals (cases e; exact ⟨by decide, by decide⟩)
        · rw [List.mem_singleton] at hp
          subst hp
          cases e; exact hd
      rw [List.nil_append]
      unfold intSign
      split
      · rename_i e; exact absurd rfl (this _ _ e).1
      · rename_i e; exact absurd rfl (this _ _ e).2
      · rfl
    · rfl
    · rfl
  constructor
  · rintro ⟨n, ⟨ds, hd, hl, rfl⟩, hv⟩
    obtain ⟨sg, h1, h2, h3, _⟩ := (sign _).mpr rfl
    obtain ⟨p, hp, h4⟩ := pre (intSign w).2
    refine ⟨sg, p, _, ds, ?_, h1, hp, hd, hl, ?_⟩
    · rw [← h4, ← h2]; exact hs
    · rw [hv]
      by_cases hb : (intSign w).1 = true
      · rw [if_pos hb, if_pos (h3.mpr hb)]
      · rw [if_neg hb, if_neg (fun h => hb (h3.mp h))]
  · rintro ⟨sg, p, t, ds, hst, hsg, hp, hd, hl, hv⟩
    have hww := hw _ hst
    have hsgn := sign' sg p t ds hww.symm hsg hp hd
    refine ⟨_, ⟨ds, ?_, hl, rfl⟩, ?_⟩
    · rw [hsgn]
      dsimp only
      rw [pre' p t ds hp hd]
      exact hd
    · rw [hsgn, hv]
      simp only [decide_eq_true_eq]

end Verif.Proofs
