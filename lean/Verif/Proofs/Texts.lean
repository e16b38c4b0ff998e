import Verif.Model.Texts
import Verif.Spec.PyExpr
/-!
# Reading back the texts of literals and tokens
-/

namespace Verif.Proofs
open Verif Verif.Spec

theorem expect_append (p s : Str) : expect p (p ++ s) = some s := by
  unfold expect
  rw [if_pos (by simp)]
  simp

theorem expect_ne {a b : Char} (h : a ≠ b) (p s : Str) : expect (a :: p) (b :: s) = none := by
  unfold expect
  rw [if_neg (by simp [List.isPrefixOf, h])]

/-! ### Numbers -/

theorem natOf_append (a b : Str) (x : Nat) :
    (a ++ b).foldl (fun a c => 10 * a + (Char.toNat c - 48)) x =
      b.foldl (fun a c => 10 * a + (Char.toNat c - 48)) (a.foldl (fun a c => 10 * a + (Char.toNat c - 48)) x) :=
  List.foldl_append

theorem natOf_toDigits (n : Nat) : natOf (Nat.toDigits 10 n) = n := by
  unfold natOf
  induction n using Nat.strongRecOn with
  | _ n ih =>
    rw [Nat.toDigits_eq_if (by omega)]
    split
    · rename_i h
      simp only [List.foldl_cons, List.foldl_nil]
      rw [Nat.toNat_digitChar_of_lt_ten h]
      omega
    · rw [List.foldl_append, ih _ (by omega)]
      simp only [List.foldl_cons, List.foldl_nil]
      rw [Nat.toNat_digitChar_of_lt_ten (Nat.mod_lt _ (by omega))]
      omega

theorem toDigits_digit (n : Nat) : ∀ c ∈ Nat.toDigits 10 n, c.isDigit = true := fun _ hc =>
  Nat.isDigit_of_mem_toDigits (by decide) (by decide) hc

theorem toDigits_ne (n : Nat) : Nat.toDigits 10 n ≠ [] := fun e => by
  have := Nat.length_toDigits_pos (b := 10) (n := n)
  rw [e] at this
  simp at this

theorem intText_eq (i : Int) :
    intText i = if 0 ≤ i then Nat.toDigits 10 i.toNat else '-' :: Nat.toDigits 10 (-i).toNat := by
  have hm : "-".toList = ['-'] := by decide +kernel
  rw [intText, Int.toString_eq_repr, Int.repr_eq_if]
  by_cases h : 0 ≤ i
  · rw [if_pos h, if_pos h, Nat.toList_repr]
  · rw [if_neg h, if_neg h, String.toList_append, Nat.toList_repr, hm]
    rfl

theorem digit_numChar {c : Char} (h : c.isDigit = true) : numChar c = true := by
  have h1 : 48 ≤ c.toNat ∧ c.toNat ≤ 57 := by
    simp only [Char.isDigit, Bool.and_eq_true, decide_eq_true_eq, ge_iff_le, UInt32.le_iff_toNat_le] at h
    exact h
  simp [numChar, h1.1, h1.2]

theorem intText_num (i : Int) : ∀ c ∈ intText i, numChar c = true := by
  intro c hc
  rw [intText_eq] at hc
  split at hc
  · exact digit_numChar (toDigits_digit _ c hc)
  · rcases List.mem_cons.1 hc with rfl | hc
    · decide
    · exact digit_numChar (toDigits_digit _ c hc)

theorem intOf_digits {ds : Str} (h1 : ds ≠ []) (h2 : ∀ c ∈ ds, c.isDigit = true) : intOf ds = some (natOf ds : Int) := by
  cases ds with
  | nil => exact absurd rfl h1
  | cons d r =>
    have hd : d ≠ '-' := by
      rintro rfl
      have := h2 '-' (by simp)
      revert this; decide
    unfold intOf
    split
    · rename_i e; exact absurd (List.cons.inj e).1 hd
    · rw [if_pos ⟨by simp, by rw [List.all_eq_true]; exact h2⟩]

theorem intOf_intText (i : Int) : intOf (intText i) = some i := by
  rw [intText_eq]
  split
  · rename_i h
    rw [intOf_digits (toDigits_ne _) (toDigits_digit _), natOf_toDigits]
    congr 1
    omega
  · rename_i h
    rw [intOf]
    rw [if_pos ⟨toDigits_ne _, by rw [List.all_eq_true]; exact toDigits_digit _⟩, natOf_toDigits]
    congr 1
    omega

theorem intText_ne (i : Int) : intText i ≠ [] := by
  rw [intText_eq]
  split
  · exact toDigits_ne _
  · simp

theorem takeWhile_stop {p : Char → Bool} {a : Str} {d : Char} {r : Str} (ha : ∀ c ∈ a, p c = true) (hd : p d = false) :
    (a ++ d :: r).takeWhile p = a ∧ (a ++ d :: r).dropWhile p = d :: r := by
  induction a with
  | nil => simp [hd]
  | cons x a ih =>
    have hx := ha x (by simp)
    have := ih (fun c hc => ha c (by simp [hc]))
    simp [hx, this.1, this.2]

/-! ### Strings -/

theorem hexVal_digit (n : Nat) (h : n < 16) : hexVal ("0123456789abcdef".toList.getD n '0') = some n := by
  have : ∀ n < 16, hexVal ("0123456789abcdef".toList.getD n '0') = some n := by decide +kernel
  exact this n h

theorem readHex_one (k acc : Nat) (s r : Str) (m : Nat) (h : readHex k acc (s ++ r) = some (m, r)) (c : Char) (d : Nat)
    (hc : hexVal c = some d) (hs : s.length = k) : ∀ r', readHex (k + 1) acc (s ++ c :: r') = some (16 * m + d, r') := by
  intro r'
  induction k generalizing s acc with
  | zero =>
    have : s = [] := List.eq_nil_of_length_eq_zero hs
    subst this
    simp only [List.nil_append, readHex, Option.some.injEq, Prod.mk.injEq] at h
    simp [readHex, hc, h.1]
  | succ k ih =>
    cases s with
    | nil => simp at hs
    | cons x s =>
      simp only [List.cons_append, readHex] at h ⊢
      cases hx : hexVal x with
      | none => rw [hx] at h; simp at h
      | some y =>
        rw [hx] at h
        simp only [Option.bind_some] at h ⊢
        exact ih (16 * acc + y) s h (by simpa using hs)

theorem hexText_length (k n : Nat) : (hexText k n).length = k := by
  induction k generalizing n with
  | zero => rfl
  | succ k ih => rw [hexText, List.length_append, ih]; rfl

theorem readHex_hexText (k n : Nat) (h : n < 16 ^ k) (r : Str) : readHex k 0 (hexText k n ++ r) = some (n, r) := by
  induction k generalizing n r with
  | zero =>
    simp only [Nat.pow_zero] at h
    have : n = 0 := by omega
    subst this; rfl
  | succ k ih =>
    have h1 : n / 16 < 16 ^ k := by
      rw [Nat.pow_succ] at h
      omega
    rw [hexText, List.append_assoc]
    have := readHex_one k 0 (hexText k (n / 16)) r (n / 16) (ih _ h1 r) _ (n % 16) (hexVal_digit _ (Nat.mod_lt _ (by omega)))
      (hexText_length _ _) r
    rw [List.cons_append, List.nil_append, this]
    congr 2
    omega

theorem ofNat_toNat (c : Char) : Char.ofNat c.toNat = c := Char.ofNat_toNat c

theorem readBody_char (T : Texts) (quote c : Char) (hq : quote = '\'' ∨ quote = '"') (f : Nat) (r : Str) :
    readBody quote (f + 1) (charRepr T quote c ++ r) = (readBody quote f r).map fun x => (c :: x.1, x.2) := by
  have hqb : quote ≠ '\\' := by rcases hq with rfl | rfl <;> decide
  unfold charRepr
  by_cases h1 : c = quote ∨ c = '\\'
  · rw [if_pos h1]
    have h2 : c = '\\' ∨ c = '\'' ∨ c = '"' := by
      rcases h1 with rfl | h
      · exact Or.inr hq
      · exact Or.inl h
    simp only [List.cons_append, List.nil_append, readBody]
    rw [if_neg (Ne.symm hqb), if_pos trivial, if_pos h2]
  · rw [if_neg h1]
    have hn : ¬ (c = quote) := fun h => h1 (Or.inl h)
    have hb : ¬ (c = '\\') := fun h => h1 (Or.inr h)
    have esc : ∀ (e : Char) (k : Nat), (e = 'x' ∧ k = 2 ∨ e = 'u' ∧ k = 4 ∨ e = 'U' ∧ k = 8) → c.toNat < 16 ^ k →
        readBody quote (f + 1) ('\\' :: e :: hexText k c.toNat ++ r) = (readBody quote f r).map fun x => (c :: x.1, x.2) := by
      intro e k he hk
      simp only [List.cons_append, readBody]
      rw [if_neg (Ne.symm hqb), if_pos trivial]
      have := readHex_hexText k c.toNat hk r
      rcases he with ⟨rfl, rfl⟩ | ⟨rfl, rfl⟩ | ⟨rfl, rfl⟩ <;>
      · rw [if_neg (by decide), if_neg (by decide), if_neg (by decide), if_neg (by decide)]
        simp only [reduceIte, Char.reduceEq]
        rw [this]
        simp only [Option.bind_some, ofNat_toNat]
    have lit : ∀ (e : Char), (e = 't' ∧ c = '\t' ∨ e = 'n' ∧ c = '\n' ∨ e = 'r' ∧ c = '\r') →
        readBody quote (f + 1) (['\\', e] ++ r) = (readBody quote f r).map fun x => (c :: x.1, x.2) := by
      intro e he
      simp only [List.cons_append, List.nil_append, readBody]
      rw [if_neg (Ne.symm hqb), if_pos trivial]
      rcases he with ⟨rfl, rfl⟩ | ⟨rfl, rfl⟩ | ⟨rfl, rfl⟩ <;> simp
    by_cases ht : c = '\t'
    · rw [if_pos ht]; exact lit 't' (Or.inl ⟨rfl, ht⟩)
    rw [if_neg ht]
    by_cases hnl : c = '\n'
    · rw [if_pos hnl]; exact lit 'n' (Or.inr (Or.inl ⟨rfl, hnl⟩))
    rw [if_neg hnl]
    by_cases hr : c = '\r'
    · rw [if_pos hr]; exact lit 'r' (Or.inr (Or.inr ⟨rfl, hr⟩))
    rw [if_neg hr]
    by_cases h3 : c.toNat < 32 ∨ c.toNat = 127
    · rw [if_pos h3]; exact esc 'x' 2 (Or.inl ⟨rfl, rfl⟩) (by omega)
    rw [if_neg h3]
    by_cases h4 : c.toNat < 127 ∨ T.printable c = true
    · rw [if_pos h4]
      simp only [List.cons_append, List.nil_append, readBody]
      rw [if_neg hn, if_neg hb, if_neg hnl]
    rw [if_neg h4]
    by_cases h5 : c.toNat ≤ 0xff
    · rw [if_pos h5]; exact esc 'x' 2 (Or.inl ⟨rfl, rfl⟩) (by omega)
    rw [if_neg h5]
    by_cases h6 : c.toNat ≤ 0xffff
    · rw [if_pos h6]; exact esc 'u' 4 (Or.inr (Or.inl ⟨rfl, rfl⟩)) (by omega)
    rw [if_neg h6]
    refine esc 'U' 8 (Or.inr (Or.inr ⟨rfl, rfl⟩)) ?_
    have : c.toNat < 2 ^ 32 := c.val.toNat_lt
    omega

theorem readBody_text (T : Texts) (quote : Char) (hq : quote = '\'' ∨ quote = '"') (s rest : Str) (f : Nat)
    (hf : s.length < f) : readBody quote f (s.flatMap (charRepr T quote) ++ quote :: rest) = some (s, rest) := by
  induction s generalizing f with
  | nil =>
    cases f with
    | zero => simp at hf
    | succ f => simp [readBody]
  | cons c s ih =>
    cases f with
    | zero => simp at hf
    | succ f =>
      rw [List.flatMap_cons, List.append_assoc, readBody_char T quote c hq, ih f (by simpa using hf)]
      rfl

theorem charRepr_pos (T : Texts) (q c : Char) : 0 < (charRepr T q c).length := by
  unfold charRepr
  repeat' split
  all_goals simp

theorem flatMap_length (T : Texts) (q : Char) (s : Str) : s.length ≤ (s.flatMap (charRepr T q)).length := by
  induction s with
  | nil => simp
  | cons c s ih =>
    have := charRepr_pos T q c
    rw [List.flatMap_cons, List.length_append, List.length_cons]
    omega

theorem readString_repr (T : Texts) (s rest : Str) : readString (strRepr T s ++ rest) = some (s, rest) := by
  unfold strRepr
  obtain ⟨q, hq⟩ : ∃ q : Char, (if '\'' ∈ s ∧ '"' ∉ s then '"' else '\'') = q := ⟨_, rfl⟩
  have hq' : q = '\'' ∨ q = '"' := by
    rw [← hq]
    split
    · exact Or.inr rfl
    · exact Or.inl rfl
  simp only [hq]
  rw [List.cons_append, readString, if_pos hq', List.append_assoc]
  refine readBody_text T q hq' s rest _ ?_
  have := flatMap_length T q s
  simp only [List.length_append, List.length_cons]
  omega

/-! ### Literals -/

/-- What the texts of floats must satisfy, with a reader of float literals: they are made of the characters of numbers, are no
integer literals, and are read as the number they are the text of. -/
structure Lawful (T : Texts) (R : FloatReader) : Prop where
  chars : ∀ q, ∀ c ∈ T.flt q, numChar c = true
  notInt : ∀ q, intOf (T.flt q) = none
  digit : ∀ q, (T.flt q).any Char.isDigit = true
  read : ∀ q, R (T.flt q) = some q

theorem flt_ne {T : Texts} {R : FloatReader} (h : Lawful T R) (q : Rat) : T.flt q ≠ [] := fun e => by
  have := h.digit q
  rw [e] at this
  simp at this

theorem repr_ne {T : Texts} {R : FloatReader} (h : Lawful T R) (v : TVal) : v.repr T ≠ [] := by
  cases v with
  | none => simp only [TVal.repr]; decide
  | str s => simp [TVal.repr, strRepr]
  | int i => exact intText_ne i
  | flt f =>
    cases f with
    | fin q => exact flt_ne h q
    | inf b => cases b <;> simp only [TVal.repr, fltText] <;> decide

theorem readString_ne {c : Char} (h1 : c ≠ '\'') (h2 : c ≠ '"') (s : Str) : readString (c :: s) = none := by
  rw [readString, if_neg (by simp [h1, h2])]

theorem none_text : "None".toList = ['N', 'o', 'n', 'e'] := by decide +kernel

/-- A number is read as a number. -/
theorem readLit_number (R : FloatReader) {a : Str} (ha : ∀ c ∈ a, numChar c = true) (hne : a ≠ []) {d : Char} {r : Str}
    (hd : numChar d = false) :
    readLit R (a ++ d :: r) =
      match intOf a with
      | some i => some (.int i, d :: r)
      | none => if a.any Char.isDigit then (R a).map fun q => (.flt (.fin q), d :: r) else none := by
  cases a with
  | nil => exact absurd rfl hne
  | cons c a =>
    have hc := ha c (by simp)
    have h1 : readString (c :: a ++ d :: r) = none := by
      refine readString_ne ?_ ?_ _
      · rintro rfl; revert hc; decide
      · rintro rfl; revert hc; decide
    have h2 : expect "None".toList (c :: a ++ d :: r) = none := by
      rw [none_text]
      refine expect_ne ?_ _ _
      rintro rfl; revert hc; decide
    unfold readLit
    rw [h1, h2]
    simp only [(takeWhile_stop ha hd).1, (takeWhile_stop ha hd).2]
    cases intOf (c :: a) <;> rfl

/-- The value is an infinite float. -/
def TInf : TVal → Bool
  | .flt (.inf _) => true
  | _ => false

theorem readLit_repr {T : Texts} {R : FloatReader} (h : Lawful T R) (v : TVal) {d : Char} {r : Str} (hd : numChar d = false) :
    readLit R (v.repr T ++ d :: r) = if TInf v then none else some (v, d :: r) := by
  cases v with
  | none =>
    simp only [TVal.repr, TInf]
    unfold readLit
    have h1 : readString ("None".toList ++ d :: r) = none := by
      rw [none_text]; exact readString_ne (by decide) (by decide) _
    rw [h1, expect_append]
    rfl
  | str s =>
    simp only [TVal.repr, TInf]
    unfold readLit
    rw [readString_repr]
    rfl
  | int i =>
    simp only [TVal.repr, TInf]
    rw [readLit_number R (intText_num i) (intText_ne i) hd, intOf_intText]
    rfl
  | flt f =>
    cases f with
    | fin q =>
      simp only [TVal.repr, TInf, fltText]
      rw [readLit_number R (h.chars q) (flt_ne h q) hd, h.notInt, h.read]
      simp only [h.digit, if_true]
      rfl
    | inf b =>
      cases b with
      | false =>
        have e : "inf".toList = ['i', 'n', 'f'] := by decide +kernel
        simp only [TVal.repr, TInf, fltText, e]
        unfold readLit
        rw [List.cons_append, readString_ne (by decide) (by decide), none_text, expect_ne (by decide)]
        rfl
      | true =>
        have e : "-inf".toList = ['-', 'i', 'n', 'f'] := by decide +kernel
        simp only [TVal.repr, TInf, fltText, e]
        unfold readLit
        rw [List.cons_append, readString_ne (by decide) (by decide), none_text, expect_ne (by decide)]
        rfl

/-! ### Tokens -/

theorem readName_type (ty : TokenType) (d : Char) (r : Str) (hd : d = ')' ∨ d = ',' ∨ d = ':') :
    readName typeNames (ty.name ++ d :: r) = some (ty, d :: r) := by
  have hs : ∀ c ∈ ty.name, nameChar c = true := by
    have : ∀ ty : TokenType, ty.name.all nameChar = true := by
      intro ty; cases ty <;> decide +kernel
    exact List.all_eq_true.1 (this ty)
  have hd' : nameChar d = false := by rcases hd with rfl | rfl | rfl <;> decide
  unfold readName
  rw [(takeWhile_stop hs hd').1, (takeWhile_stop hs hd').2]
  have : typeNames.find? (fun e => e.1.toList == ty.name) = some (String.ofList ty.name, ty) := by
    cases ty <;> decide +kernel
  rw [this]
  rfl

theorem blank_eq (t : Token) : blank t = if t.value.truthy then t else ⟨t.type, t.pos, .none⟩ := by
  obtain ⟨ty, pos, v⟩ := t
  unfold blank TVal.truthy
  cases v with
  | none => rfl
  | str s => cases s <;> simp
  | int i =>
    by_cases h : i = 0
    · subst h; rfl
    · simp only [h, ne_eq, not_false_eq_true, decide_true, if_true]
      split <;> simp_all
  | flt f =>
    by_cases h : f = .fin 0
    · subst h; rfl
    · simp only [h, ne_eq, not_false_eq_true, decide_true, if_true]
      split <;> simp_all

theorem infinite_eq (t : Token) : infinite t = TInf t.value := by
  obtain ⟨ty, pos, v⟩ := t
  cases v with
  | flt f => cases f <;> rfl
  | _ => rfl

theorem inf_truthy {v : TVal} (h : v.truthy = false) : TInf v = false := by
  cases v with
  | flt f =>
    cases f with
    | fin q => rfl
    | inf b => simp [TVal.truthy] at h
  | _ => rfl

theorem paren_text : ")".toList = [')'] := by decide +kernel
theorem comma_text : ", ".toList = [',', ' '] := by decide +kernel
theorem value_text : ", value=".toList = [',', ' ', 'v', 'a', 'l', 'u', 'e', '='] := by decide +kernel

theorem readToken_repr {T : Texts} {R : FloatReader} (h : Lawful T R) (t : Token) (hp : -1 ≤ t.pos) (r : Str) :
    readToken R (t.repr T ++ r) = if infinite t then none else some (blank t, r) := by
  obtain ⟨ty, pos, v⟩ := t
  rw [blank_eq, infinite_eq]
  simp only at hp
  have hne : decide (v.repr T ≠ []) = true := decide_eq_true (repr_ne h v)
  have hpar : ∀ s : Str, expect ")".toList (')' :: s) = some s := fun s => by
    rw [paren_text]; exact expect_append [')'] s
  have hpar2 : ∀ s : Str, expect [')'] (')' :: s) = some s := fun s => expect_append [')'] s
  have hcom : ∀ s : Str, expect ")".toList (',' :: s) = none := fun s => by
    rw [paren_text]; exact expect_ne (by decide) _ _
  have hco : ∀ s : Str, expect ", ".toList (',' :: ' ' :: s) = some s := fun s => by
    rw [comma_text]; exact expect_append [',', ' '] s
  have hval : ∀ s : Str, expect ", value=".toList (", value=".toList ++ s) = some s := fun s => expect_append _ s
  have hnv : ∀ (i : Int) (s : Str), expect ", value=".toList (',' :: ' ' :: (intText i ++ s)) = none := fun i s => by
    have hn := intText_num i
    cases hi : intText i with
    | nil => exact absurd hi (intText_ne i)
    | cons c r =>
      rw [hi] at hn
      have hc := hn c (by simp)
      have : c ≠ 'v' := by rintro rfl; revert hc; decide
      unfold expect
      rw [value_text, if_neg]
      simp [List.isPrefixOf, Ne.symm this]
  by_cases ht : v.truthy = true
  · by_cases hpos : pos ≥ 0
    · simp only [Token.repr, ht, hne, hpos, Bool.and_self, if_true, List.append_assoc, readToken, expect_append,
        Option.bind_some]
      rw [comma_text, paren_text]
      simp only [List.cons_append, List.nil_append]
      rw [readName_type ty ',' _ (Or.inr (Or.inl rfl))]
      simp only [Option.bind_some]
      rw [← comma_text, ← paren_text, hcom]
      simp only
      rw [hnv]
      simp only
      rw [hco]
      simp only [Option.bind_some]
      rw [show ∀ x : Str, intText pos ++ ',' :: x = TVal.repr T (.int pos) ++ ',' :: x from fun _ => rfl,
        readLit_repr h (.int pos) (by decide)]
      rw [show TInf (.int pos) = false from rfl]
      simp only [Bool.false_eq_true, if_false, Option.bind_some]
      rw [hcom]
      simp only
      rw [hco]
      simp only [Option.bind_some]
      rw [readLit_repr h v (by decide)]
      cases hi : TInf v with
      | true => simp
      | false => simp [hpar, hpar2]
    · have hp1 : pos = -1 := by omega
      subst hp1
      simp only [Token.repr, ht, hne, hpos, Bool.and_self, if_true, if_false, List.append_assoc, readToken, expect_append,
        Option.bind_some]
      have e : ∀ s : Str, ", value=".toList ++ s = ',' :: ([' ', 'v', 'a', 'l', 'u', 'e', '='] ++ s) := fun s => by
        rw [value_text]; rfl
      rw [e, readName_type ty ',' _ (Or.inr (Or.inl rfl))]
      simp only [Option.bind_some]
      rw [hcom, ← e]
      simp only
      rw [hval]
      simp only
      rw [paren_text]
      simp only [List.cons_append, List.nil_append]
      rw [readLit_repr h v (by decide), ← paren_text]
      cases hi : TInf v with
      | true => simp
      | false => simp [hpar, hpar2]
  · have ht' : v.truthy = false := by simpa using ht
    rw [inf_truthy ht']
    by_cases hpos : pos ≥ 0
    · simp only [Token.repr, ht', hpos, Bool.false_and, Bool.false_eq_true, if_true, if_false, List.append_assoc, readToken,
        expect_append, Option.bind_some]
      rw [comma_text, paren_text]
      simp only [List.cons_append, List.nil_append]
      rw [readName_type ty ',' _ (Or.inr (Or.inl rfl))]
      simp only [Option.bind_some]
      rw [← comma_text, ← paren_text, hcom]
      simp only
      rw [hnv]
      simp only
      rw [hco]
      simp only [Option.bind_some]
      rw [show ∀ x : Str, intText pos ++ ')' :: x = TVal.repr T (.int pos) ++ ')' :: x from fun _ => rfl,
        readLit_repr h (.int pos) (by decide)]
      rw [show TInf (.int pos) = false from rfl]
      simp only [Bool.false_eq_true, if_false, Option.bind_some]
      rw [hpar]
    · have hp1 : pos = -1 := by omega
      subst hp1
      simp only [Token.repr, ht', hpos, Bool.false_and, Bool.false_eq_true, if_false, List.append_assoc, readToken, expect_append,
        Option.bind_some]
      rw [paren_text]
      simp only [List.cons_append, List.nil_append]
      rw [readName_type ty ')' _ (Or.inl rfl)]
      simp only [Option.bind_some]
      rw [← paren_text, hpar]

end Verif.Proofs
