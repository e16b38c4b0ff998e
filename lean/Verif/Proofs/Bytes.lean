import Verif.Py.Bytes
/-!
# Laws of the byte level functions
-/

namespace Verif.Proofs
open Verif

theorem except_bind_ok {α β : Type} {x : Except PyExc α} {f : α → Except PyExc β} {b : β} :
    (x >>= f) = .ok b ↔ ∃ a, x = .ok a ∧ f a = .ok b := by
  cases x with
  | error e => simp [bind, Except.bind]
  | ok a => simp [bind, Except.bind]

theorem except_pure_ok {α : Type} {a b : α} : (pure a : Except PyExc α) = .ok b ↔ a = b := by
  simp [pure, Except.pure]

@[simp] theorem packLE_length (k n : Nat) : (packLE k n).length = k := by
  induction k generalizing n with
  | zero => rfl
  | succ k ih => simp [packLE, ih]

theorem unpackLE_packLE {k n : Nat} (h : n < 256 ^ k) : unpackLE (packLE k n) = n := by
  induction k generalizing n with
  | zero => simp at h; simp [packLE, unpackLE, h]
  | succ k ih =>
    rw [packLE, unpackLE, ih (by rw [Nat.pow_succ] at h; omega), UInt8.toNat_ofNat']
    omega

theorem unpackLE_lt (bs : Bytes) : unpackLE bs < 256 ^ bs.length := by
  induction bs with
  | nil => simp [unpackLE]
  | cons b bs ih =>
    rw [unpackLE, List.length_cons, Nat.pow_succ]
    have := b.toNat_lt
    omega

theorem packLE_unpackLE (bs : Bytes) : packLE bs.length (unpackLE bs) = bs := by
  induction bs with
  | nil => rfl
  | cons b bs ih =>
    rw [List.length_cons, unpackLE, packLE]
    have hb := b.toNat_lt
    have e1 : (b.toNat + 256 * unpackLE bs) / 256 = unpackLE bs := by omega
    rw [e1, ih]
    congr 1
    apply UInt8.toNat_inj.1
    rw [UInt8.toNat_ofNat']
    omega

theorem packLE_inj {k m n : Nat} (hm : m < 256 ^ k) (hn : n < 256 ^ k) (h : packLE k m = packLE k n) : m = n := by
  rw [← unpackLE_packLE hm, h, unpackLE_packLE hn]

theorem packU_ok {k : Nat} {v : Int} {bs : Bytes} :
    packU k v = .ok bs ↔ ∃ n : Nat, v = n ∧ n < 256 ^ k ∧ bs = packLE k n := by
  unfold packU
  have hp : ((256 ^ k : Nat) : Int) = (256 : Int) ^ k := by simp
  constructor
  · intro h
    split at h
    · rename_i hv
      injection h with h
      refine ⟨v.toNat, by omega, by omega, h.symm⟩
    · cases h
  · rintro ⟨n, rfl, h, rfl⟩
    rw [if_pos ⟨by omega, by omega⟩, Int.toNat_natCast]

theorem packU_nat {k n : Nat} (h : n < 256 ^ k) : packU k (n : Int) = .ok (packLE k n) :=
  packU_ok.2 ⟨n, rfl, h, rfl⟩

theorem packU_error {k : Nat} {v : Int} {e : PyExc} (h : packU k v = .error e) : e = .structError := by
  unfold packU at h
  split at h
  · cases h
  · injection h with h; exact h.symm

theorem unpackI32_packI32 {v : Int} {bs : Bytes} (h : packI32 v = .ok bs) : bs.length = 4 ∧ unpackI32 bs = v := by
  unfold packI32 at h
  split at h
  · rename_i hv
    injection h with h
    subst h
    refine ⟨packLE_length _ _, ?_⟩
    unfold unpackI32
    dsimp only
    rw [unpackLE_packLE (by omega)]
    split <;> omega
  · cases h

theorem takeBytes_ok {k : Nat} {bs a r : Bytes} : takeBytes k bs = .ok (a, r) ↔ bs = a ++ r ∧ a.length = k := by
  unfold takeBytes
  constructor
  · intro h
    split at h
    · rename_i hk
      injection h with h
      obtain ⟨rfl, rfl⟩ := Prod.mk.inj h
      exact ⟨(List.take_append_drop _ _).symm, by simp [hk]⟩
    · cases h
  · rintro ⟨rfl, rfl⟩
    rw [if_pos (by simp)]
    simp

theorem takeBytes_error {k : Nat} {bs : Bytes} {e : PyExc} (h : takeBytes k bs = .error e) :
    e = .structError ∧ bs.length < k := by
  unfold takeBytes at h
  split at h
  · cases h
  · injection h with h; exact ⟨h.symm, by omega⟩

theorem getU_ok {k : Nat} {bs r : Bytes} {n : Nat} :
    getU k bs = .ok (n, r) ↔ bs = packLE k n ++ r ∧ n < 256 ^ k := by
  unfold getU
  constructor
  · intro h
    cases ht : takeBytes k bs with
    | error e => rw [ht] at h; cases h
    | ok x =>
      obtain ⟨a, r'⟩ := x
      rw [ht] at h
      obtain ⟨h1, h2⟩ := takeBytes_ok.1 ht
      injection h with h
      obtain ⟨rfl, rfl⟩ := Prod.mk.inj h
      refine ⟨?_, by rw [← h2]; exact unpackLE_lt a⟩
      rw [h1, ← h2, packLE_unpackLE]
  · rintro ⟨rfl, h⟩
    rw [takeBytes_ok.2 ⟨rfl, packLE_length k n⟩]
    show Except.ok (unpackLE (packLE k n), r) = _
    rw [unpackLE_packLE h]

theorem getU_error {k : Nat} {bs : Bytes} {e : PyExc} (h : getU k bs = .error e) :
    e = .structError ∧ bs.length < k := by
  unfold getU at h
  cases ht : takeBytes k bs with
  | error e' => rw [ht] at h; injection h with h; subst h; exact takeBytes_error ht
  | ok x => rw [ht] at h; cases h

theorem getU_append {k n : Nat} (h : n < 256 ^ k) (r : Bytes) : getU k (packLE k n ++ r) = .ok (n, r) :=
  getU_ok.2 ⟨rfl, h⟩

/-! ### UTF-8 -/

theorem utf8Char_length_pos (c : Char) : 0 < (utf8Char c).length := by
  unfold utf8Char; dsimp only
  repeat' split
  all_goals simp

theorem utf8_ascii (s : Str) (h : s.all isAscii = true) : utf8 s = s.map (fun c => UInt8.ofNat c.toNat) := by
  induction s with
  | nil => rfl
  | cons c s ih =>
    rw [List.all_cons, Bool.and_eq_true] at h
    have hc : c.toNat < 128 := by simpa [isAscii] using h.1
    simp only [utf8, List.flatMap_cons, List.map_cons] at ih ⊢
    rw [ih h.2]
    unfold utf8Char
    dsimp only
    rw [if_pos hc]; rfl

theorem utf8_length (s : Str) : s.length ≤ (utf8 s).length := by
  induction s with
  | nil => simp [utf8]
  | cons c s ih =>
    simp only [utf8, List.flatMap_cons, List.length_append, List.length_cons] at ih ⊢
    have := utf8Char_length_pos c
    omega

theorem utf8_length_eq (s : Str) : (utf8 s).length = s.length ↔ s.all isAscii = true := by
  constructor
  · intro h
    induction s with
    | nil => rfl
    | cons c s ih =>
      simp only [utf8, List.flatMap_cons, List.length_append, List.length_cons] at ih h
      have h1 := utf8Char_length_pos c
      have h2 := utf8_length s
      simp only [utf8] at h2
      rw [List.all_cons, Bool.and_eq_true]
      refine ⟨?_, ih (by omega)⟩
      have h3 : (utf8Char c).length = 1 := by omega
      unfold utf8Char at h3
      dsimp only at h3
      unfold isAscii
      by_cases hc : c.toNat < 128
      · simpa using hc
      · rw [if_neg hc] at h3
        split at h3
        · simp at h3
        · split at h3 <;> simp at h3
  · intro h
    rw [utf8_ascii s h, List.length_map]

theorem utf8DecodeOne_sound {bs r : Bytes} {c : Char} (h : utf8DecodeOne bs = some (c, r)) : bs = utf8Char c ++ r := by
  unfold utf8DecodeOne at h
  dsimp only at h
  split at h
  · rename_i hp
    injection h with h
    obtain ⟨rfl, rfl⟩ := Prod.mk.inj h
    rw [List.isPrefixOf_iff_prefix, List.prefix_iff_eq_append] at hp
    exact hp.symm
  · cases h

theorem char_toNat_lt (c : Char) : c.toNat < 0x110000 := by
  have := c.valid
  unfold UInt32.isValidChar Nat.isValidChar at this
  unfold Char.toNat
  omega

theorem utf8Guess_char (c : Char) (r : Bytes) : utf8Guess (utf8Char c ++ r) = c.toNat := by
  have hc := char_toNat_lt c
  have ofN : ∀ n : Nat, n < 256 → (UInt8.ofNat n).toNat = n := fun n h => by rw [UInt8.toNat_ofNat']; omega
  unfold utf8Char
  dsimp only
  generalize c.toNat = v at *
  by_cases h1 : v < 0x80
  · rw [if_pos h1]
    simp only [utf8Guess, List.cons_append, List.nil_append]
    rw [ofN v (by omega), if_pos h1]
  · rw [if_neg h1]
    by_cases h2 : v < 0x800
    · rw [if_pos h2]
      simp only [utf8Guess, List.cons_append, List.nil_append, List.getElem?_cons_zero, Option.getD_some]
      rw [ofN _ (by omega), ofN _ (by omega), if_neg (by omega), if_pos (by omega)]
      omega
    · rw [if_neg h2]
      by_cases h3 : v < 0x10000
      · rw [if_pos h3]
        simp only [utf8Guess, List.cons_append, List.nil_append, List.getElem?_cons_zero, List.getElem?_cons_succ,
          Option.getD_some]
        rw [ofN _ (by omega), ofN _ (by omega), ofN _ (by omega), if_neg (by omega), if_neg (by omega), if_pos (by omega)]
        omega
      · rw [if_neg h3]
        simp only [utf8Guess, List.cons_append, List.nil_append, List.getElem?_cons_zero, List.getElem?_cons_succ,
          Option.getD_some]
        rw [ofN _ (by omega), ofN _ (by omega), ofN _ (by omega), ofN _ (by omega), if_neg (by omega),
          if_neg (by omega), if_neg (by omega)]
        omega

theorem utf8DecodeOne_char (c : Char) (r : Bytes) : utf8DecodeOne (utf8Char c ++ r) = some (c, r) := by
  unfold utf8DecodeOne
  rw [utf8Guess_char, Char.ofNat_toNat]
  dsimp only
  rw [if_pos (List.isPrefixOf_iff_prefix.2 ⟨r, rfl⟩), List.drop_left]

theorem utf8DecodeAux_utf8 (s : Str) (n : Nat) (h : s.length ≤ n) : utf8DecodeAux n (utf8 s) = some s := by
  induction s generalizing n with
  | nil => cases n <;> rfl
  | cons c s ih =>
    cases n with
    | zero => simp at h
    | succ n =>
      have hd := utf8DecodeOne_char c (utf8 s)
      have e : utf8 (c :: s) = utf8Char c ++ utf8 s := rfl
      rw [e]
      cases hx : utf8Char c ++ utf8 s with
      | nil =>
        have := utf8Char_length_pos c
        simp at hx
        rw [hx.1] at this; simp at this
      | cons b bs =>
        rw [hx] at hd
        rw [utf8DecodeAux, hd]
        dsimp only
        rw [ih n (by simp at h; omega)]
        rfl

/-- Decoding what was encoded gives it back. -/
theorem utf8Decode_utf8 (s : Str) : utf8Decode (utf8 s) = .ok s := by
  unfold utf8Decode
  rw [utf8DecodeAux_utf8 s _ (utf8_length s)]

theorem utf8DecodeAux_sound {n : Nat} {bs : Bytes} {s : Str} (h : utf8DecodeAux n bs = some s) : bs = utf8 s := by
  induction n generalizing bs s with
  | zero =>
    cases bs with
    | nil => simp [utf8DecodeAux] at h; subst h; rfl
    | cons b bs => simp [utf8DecodeAux] at h
  | succ n ih =>
    cases bs with
    | nil => simp [utf8DecodeAux] at h; subst h; rfl
    | cons b bs =>
      rw [utf8DecodeAux] at h
      cases hd : utf8DecodeOne (b :: bs) with
      | none => rw [hd] at h; cases h
      | some x =>
        obtain ⟨c, r⟩ := x
        rw [hd] at h
        dsimp only at h
        cases ha : utf8DecodeAux n r with
        | none => rw [ha] at h; cases h
        | some t =>
          rw [ha] at h
          injection h with h
          subst h
          rw [utf8DecodeOne_sound hd, ih ha]; rfl

/-- Only encodings decode. -/
theorem utf8Decode_ok {bs : Bytes} {s : Str} : utf8Decode bs = .ok s ↔ bs = utf8 s := by
  constructor
  · intro h
    unfold utf8Decode at h
    split at h
    · rename_i t ht
      injection h with h
      subst h
      exact utf8DecodeAux_sound ht
    · cases h
  · rintro rfl; exact utf8Decode_utf8 s

theorem utf8_inj {s t : Str} (h : utf8 s = utf8 t) : s = t := by
  have h1 := utf8Decode_utf8 s
  rw [h, utf8Decode_utf8] at h1
  injection h1 with h1
  exact h1.symm

theorem utf8_append (s t : Str) : utf8 (s ++ t) = utf8 s ++ utf8 t := by simp [utf8]

/-! ### base64 -/

theorem b64Digit_value {n : Nat} (h : n < 64) : b64Value (b64Digit n) = some n ∧ b64Digit n ≠ 61 := by
  have ofN : ∀ n : Nat, n < 256 → (UInt8.ofNat n).toNat = n := fun n h => by rw [UInt8.toNat_ofNat']; omega
  have key : ∀ m < 64, b64Value (b64Digit m) = some m ∧ b64Digit m ≠ 61 := by decide
  exact key n h

theorem b64Loop_0 {l p n : Nat} (h : n < 64) (bs : Bytes) : b64Loop 0 l p (b64Digit n :: bs) = b64Loop 1 n 0 bs := by
  obtain ⟨h1, h2⟩ := b64Digit_value h
  rw [b64Loop, if_neg h2, h1]; rfl

theorem b64Loop_1 {l p n : Nat} (h : n < 64) (bs : Bytes) :
    b64Loop 1 l p (b64Digit n :: bs) = (b64Loop 2 (n % 16) 0 bs).map (UInt8.ofNat (l * 4 + n / 16) :: ·) := by
  obtain ⟨h1, h2⟩ := b64Digit_value h
  rw [b64Loop, if_neg h2, h1]; rfl

theorem b64Loop_2 {l p n : Nat} (h : n < 64) (bs : Bytes) :
    b64Loop 2 l p (b64Digit n :: bs) = (b64Loop 3 (n % 4) 0 bs).map (UInt8.ofNat (l * 16 + n / 4) :: ·) := by
  obtain ⟨h1, h2⟩ := b64Digit_value h
  rw [b64Loop, if_neg h2, h1]; rfl

theorem b64Loop_3 {l p n : Nat} (h : n < 64) (bs : Bytes) :
    b64Loop 3 l p (b64Digit n :: bs) = (b64Loop 0 0 0 bs).map (UInt8.ofNat (l * 64 + n) :: ·) := by
  obtain ⟨h1, h2⟩ := b64Digit_value h
  rw [b64Loop, if_neg h2, h1]; rfl

theorem ofNat_toNat8 (a : UInt8) {n : Nat} (h : n = a.toNat) : UInt8.ofNat n = a := by
  subst h; exact UInt8.ofNat_toNat

/-- Decoding what was encoded gives it back. -/
theorem b64decode_b64encode (bs : Bytes) : b64decode (b64encode bs) = .ok bs := by
  have key : ∀ (n : Nat) (bs : Bytes), bs.length ≤ n → b64Loop 0 0 0 (b64encode bs) = some bs := by
    intro n
    induction n with
    | zero => intro bs h; cases bs with
      | nil => rfl
      | cons => simp at h
    | succ n ih =>
      intro bs h
      match bs with
      | [] => rfl
      | [a] =>
        have ha := a.toNat_lt
        rw [b64encode, b64Loop_0 (by omega), b64Loop_1 (by omega)]
        rw [b64Loop, if_pos rfl, if_pos (by omega), if_neg (by omega), b64Loop, if_pos rfl, if_pos (by omega),
          if_pos (by omega), Option.map_some]
        congr 2
        exact ofNat_toNat8 a (by omega)
      | [a, b] =>
        have ha := a.toNat_lt
        have hb := b.toNat_lt
        rw [b64encode, b64Loop_0 (by omega), b64Loop_1 (by omega), b64Loop_2 (by omega)]
        rw [b64Loop, if_pos rfl, if_pos (by omega), if_pos (by omega), Option.map_some, Option.map_some]
        rw [ofNat_toNat8 a (by omega), ofNat_toNat8 b (by omega)]
      | a :: b :: c :: r =>
        have ha := a.toNat_lt
        have hb := b.toNat_lt
        have hc := c.toNat_lt
        rw [b64encode, b64Loop_0 (by omega), b64Loop_1 (by omega), b64Loop_2 (by omega), b64Loop_3 (by omega)]
        rw [ih r (by simp at h; omega), Option.map_some, Option.map_some, Option.map_some]
        rw [ofNat_toNat8 a (by omega), ofNat_toNat8 b (by omega), ofNat_toNat8 c (by omega)]
  unfold b64decode
  rw [key bs.length bs (Nat.le_refl _)]

theorem b64encode_inj {a b : Bytes} (h : b64encode a = b64encode b) : a = b := by
  have h1 := b64decode_b64encode a
  rw [h, b64decode_b64encode] at h1
  injection h1 with h1
  exact h1.symm

end Verif.Proofs
