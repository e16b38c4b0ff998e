import Verif.Py.Basic
import Verif.Spec.Lexical
/-!
Helper lemmas on ASCII case mapping and the lawful Unicode tables.
-/

namespace Verif
open Spec

theorem toNat_ofNat_small (n : Nat) (h : n < 0xd800) : (Char.ofNat n).toNat = n := by
  have : n.isValidChar := Or.inl h
  simp [Char.ofNat, this, Char.toNat, Char.ofNatAux]

theorem char_ext {a b : Char} (h : a.toNat = b.toNat) : a = b :=
  Char.ext (UInt32.toNat_inj.mp h)

theorem toNat_asciiLower (c : Char) : (asciiLower c).toNat =
    if 65 ≤ c.toNat ∧ c.toNat ≤ 90 then c.toNat + 32 else c.toNat := by
  unfold asciiLower; split
  · rw [toNat_ofNat_small]; omega
  · rfl

theorem toNat_asciiUpper (c : Char) : (asciiUpper c).toNat =
    if 97 ≤ c.toNat ∧ c.toNat ≤ 122 then c.toNat - 32 else c.toNat := by
  unfold asciiUpper; split
  · rw [toNat_ofNat_small]; omega
  · rfl

theorem asciiUpper_asciiLower (c : Char) : asciiUpper (asciiLower c) = asciiUpper c := by
  apply char_ext
  rw [toNat_asciiUpper, toNat_asciiUpper, toNat_asciiLower]
  repeat' split
  all_goals omega

theorem asciiLower_idem (c : Char) : asciiLower (asciiLower c) = asciiLower c := by
  apply char_ext
  rw [toNat_asciiLower, toNat_asciiLower]
  repeat' split
  all_goals omega

theorem isAscii_of_lower (c : Char) (h : isAscii (asciiLower c) = true) : isAscii c = true := by
  simp only [isAscii, decide_eq_true_eq, toNat_asciiLower] at *
  split at h <;> omega

theorem all_isAscii_of_lower (s : Str) (h : (s.map asciiLower).all isAscii = true) :
    s.all isAscii = true := by
  simp only [List.all_eq_true, List.mem_map] at *
  intro c hc
  exact isAscii_of_lower c (h _ ⟨c, hc, rfl⟩)

theorem reserved_all_ascii (w : Str) (h : w ∈ reservedWords) : w.all isAscii = true := by
  simp only [reservedWords, List.map_cons, List.map_nil, List.mem_cons, List.not_mem_nil,
    or_false] at h
  rcases h with h | h | h | h | h | h | h | h | h | h | h | h | h | h <;> subst h <;> decide

/-- The ASCII tables are lawful. -/
theorem asciiUni_lawful : asciiUni.Lawful where
  space_ascii c h := by simp [asciiUni, h]
  digit_ascii c h := by simp [asciiUni, h]
  alpha_ascii c h := by simp [asciiUni, h]
  digit_not_space c h := by
    simp only [asciiUni, asciiDigit, asciiSpace, Bool.and_eq_true, Bool.and_eq_false_iff, Bool.or_eq_false_iff,
      decide_eq_true_eq, decide_eq_false_iff_not] at *
    omega
  alpha_not_space c h := by
    simp only [asciiUni, asciiAlpha, asciiSpace, Bool.and_eq_true, Bool.or_eq_true, Bool.and_eq_false_iff, Bool.or_eq_false_iff,
      decide_eq_true_eq, decide_eq_false_iff_not] at *
    omega
  digit_not_alpha c h := by
    simp only [asciiUni, asciiAlpha, asciiDigit, Bool.and_eq_true, Bool.and_eq_false_iff, Bool.or_eq_false_iff,
      decide_eq_true_eq, decide_eq_false_iff_not] at *
    omega
  lower_ascii s _ := rfl
  upper_ascii s _ := rfl
  reserved_ascii s h := all_isAscii_of_lower s (reserved_all_ascii _ h)
  lower_case _ _ h := h
  lower_prefix p s _ := ⟨s.map asciiLower, List.map_append⟩
  digitVal_ascii c _ h := by simp [asciiUni, h]
  digitVal_none c _ h := by simp [asciiUni, h]

namespace Uni.Lawful
variable {U : Uni} (hU : U.Lawful)
include hU

/-- Lower-casing to a reserved word is spelling it in any case. -/
theorem lower_iff (w : Str) (kw : String) (hk : kw.toList ∈ reservedWords) :
    U.lower w = kw.toList ↔ Spells w kw := by
  constructor
  · intro h
    have ha : w.all isAscii = true := hU.reserved_ascii w (h ▸ hk)
    rw [hU.lower_ascii w ha] at h
    exact h
  · intro h
    have ha : w.all isAscii = true := by
      apply all_isAscii_of_lower
      rw [h]
      exact reserved_all_ascii _ hk
    rw [hU.lower_ascii w ha]
    exact h

/-- Upper-casing a spelling of a reserved word. -/
theorem upper_of_spells (w : Str) (kw : String) (hk : kw.toList ∈ reservedWords)
    (h : Spells w kw) : U.upper w = kw.toList.map asciiUpper := by
  have ha : w.all isAscii = true := by
    apply all_isAscii_of_lower
    rw [h]
    exact reserved_all_ascii _ hk
  rw [hU.upper_ascii w ha, ← h, List.map_map]
  apply List.map_congr_left
  intro c _
  exact (asciiUpper_asciiLower c).symm

theorem space_false (c : Char) (h : isAscii c = true) (h2 : asciiSpace c = false) :
    U.isSpace c = false := by rw [hU.space_ascii c h, h2]
theorem digit_false (c : Char) (h : isAscii c = true) (h2 : asciiDigit c = false) :
    U.isDigit c = false := by rw [hU.digit_ascii c h, h2]
theorem alpha_false (c : Char) (h : isAscii c = true) (h2 : asciiAlpha c = false) :
    U.isAlpha c = false := by rw [hU.alpha_ascii c h, h2]

end Uni.Lawful
end Verif
