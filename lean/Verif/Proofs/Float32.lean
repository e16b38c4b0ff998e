import Verif.Py.Float32
import Verif.Proofs.Bytes
import Mathlib.Algebra.Order.Field.Rat
import Mathlib.Algebra.Order.Field.Power
import Mathlib.Tactic.FieldSimp
import Mathlib.Tactic.Linarith
import Mathlib.Tactic.Positivity
/-!
# Rounding to binary32 and back
-/

namespace Verif.Proofs
open Verif

theorem pow2_eq (e : Int) : pow2 e = (2 : ℚ) ^ e := by
  unfold pow2
  by_cases h : 0 ≤ e
  · rw [if_pos h]
    obtain ⟨n, rfl⟩ := Int.eq_ofNat_of_zero_le h
    simp
  · rw [if_neg h]
    obtain ⟨n, hn⟩ := Int.eq_ofNat_of_zero_le (show 0 ≤ -e by omega)
    have he : e = -(n : ℤ) := by omega
    subst he
    simp

theorem pow2_pos (e : Int) : 0 < pow2 e := by rw [pow2_eq]; positivity

theorem pow2_lt {a b : Int} : pow2 a < pow2 b ↔ a < b := by
  rw [pow2_eq, pow2_eq]; exact zpow_lt_zpow_iff_right₀ (by norm_num)

theorem pow2_le {a b : Int} : pow2 a ≤ pow2 b ↔ a ≤ b := by
  rw [pow2_eq, pow2_eq]; exact zpow_le_zpow_iff_right₀ (by norm_num)

theorem pow2_add (a b : Int) : pow2 (a + b) = pow2 a * pow2 b := by
  rw [pow2_eq, pow2_eq, pow2_eq]; exact zpow_add₀ (by norm_num) a b

theorem pow2_nat (n : Nat) : pow2 (n : Int) = ((2 ^ n : Nat) : ℚ) := by
  unfold pow2; rw [if_pos (by omega)]; simp

theorem ilog2_spec {q : ℚ} (hq : 0 < q) : pow2 (ilog2 q) ≤ q ∧ q < pow2 (ilog2 q + 1) := by
  have hn : 0 < q.num := Rat.num_pos.2 hq
  have hna : q.num.natAbs ≠ 0 := by omega
  have hd := q.den_pos
  have h1 := Nat.log2_self_le hna
  have h2 : q.num.natAbs < 2 ^ (Nat.log2 q.num.natAbs + 1) := Nat.lt_log2_self
  have h3 := Nat.log2_self_le (show q.den ≠ 0 by omega)
  have h4 : q.den < 2 ^ (Nat.log2 q.den + 1) := Nat.lt_log2_self
  generalize hA : Nat.log2 q.num.natAbs = A at *
  generalize hB : Nat.log2 q.den = B at *
  have hnq : ((q.num.natAbs : ℕ) : ℚ) = (q.num : ℚ) := by
    have : ((q.num.natAbs : ℕ) : ℤ) = q.num := by omega
    have h := congrArg (Int.cast : ℤ → ℚ) this
    rwa [Int.cast_natCast] at h
  have hqd : q * q.den = q.num := Rat.mul_den_eq_num q
  have hden : (0 : ℚ) < q.den := by exact_mod_cast hd
  have c1 : pow2 A ≤ (q.num : ℚ) := by rw [pow2_nat, ← hnq]; exact_mod_cast h1
  have c2 : (q.num : ℚ) < pow2 (A + 1) := by
    rw [show ((A : Int) + 1) = ((A + 1 : Nat) : Int) by simp, pow2_nat, ← hnq]; exact_mod_cast h2
  have c3 : pow2 B ≤ (q.den : ℚ) := by rw [pow2_nat]; exact_mod_cast h3
  have c4 : (q.den : ℚ) < pow2 (B + 1) := by
    rw [show ((B : Int) + 1) = ((B + 1 : Nat) : Int) by simp, pow2_nat]; exact_mod_cast h4
  have hAB : pow2 ((A : Int) - B) * pow2 B = pow2 A := by rw [← pow2_add]; congr 1; omega
  have hAB1 : pow2 ((A : Int) - B + 1) * pow2 B = pow2 (A + 1) := by rw [← pow2_add]; congr 1; omega
  have hAB2 : pow2 ((A : Int) - B - 1) * pow2 (B + 1) = pow2 A := by rw [← pow2_add]; congr 1; omega
  have up : q < pow2 ((A : Int) - B + 1) := by
    by_contra hc
    rw [not_lt] at hc
    have : pow2 ((A : Int) - B + 1) * pow2 B ≤ q * q.den := mul_le_mul hc c3 (le_of_lt (pow2_pos _)) (le_of_lt hq)
    rw [hAB1, hqd] at this
    linarith
  have low : pow2 ((A : Int) - B - 1) ≤ q := by
    by_contra hc
    rw [not_le] at hc
    have : q * q.den < pow2 ((A : Int) - B - 1) * pow2 (B + 1) :=
      mul_lt_mul hc (le_of_lt c4) hden (le_of_lt (pow2_pos _))
    rw [hAB2, hqd] at this
    linarith
  unfold ilog2
  rw [hA, hB]
  dsimp only
  split
  · rename_i h; exact ⟨h, up⟩
  · rename_i h
    refine ⟨low, ?_⟩
    rw [not_le] at h
    rw [show (A : Int) - B - 1 + 1 = (A : Int) - B by omega]
    exact h

theorem ilog2_eq {q : ℚ} {e : Int} (h1 : pow2 e ≤ q) (h2 : q < pow2 (e + 1)) : ilog2 q = e := by
  obtain ⟨h3, h4⟩ := ilog2_spec (lt_of_lt_of_le (pow2_pos e) h1)
  have a := pow2_lt.1 (lt_of_le_of_lt h1 h4)
  have b := pow2_lt.1 (lt_of_le_of_lt h3 h2)
  omega

theorem roundHalfEven_nat (n : Nat) : roundHalfEven (n : ℚ) = n := by
  unfold roundHalfEven
  have : (n : ℚ).floor = (n : ℤ) := by
    rw [show (n : ℚ) = ((n : ℤ) : ℚ) by simp, Rat.floor_intCast]
  rw [this]
  dsimp only
  rw [if_pos (by simp)]
  simp

theorem f32Value_pos {r : Nat} (h : 0 < r) : 0 < f32Value r := by
  unfold f32Value
  have hr : (0 : ℚ) < r := by exact_mod_cast h
  split
  · exact mul_pos hr (pow2_pos _)
  · refine mul_pos ?_ (pow2_pos _)
    have : 0 < 2 ^ 23 + r % 2 ^ 23 := by omega
    exact_mod_cast this

theorem f32Bits_value {r : Nat} (h0 : 0 < r) : f32Bits (f32Value r) = r := by
  unfold f32Bits
  dsimp only
  by_cases h : r < 2 ^ 23
  · have hv : f32Value r = (r : ℚ) * pow2 (-149) := by unfold f32Value; rw [if_pos h]
    have hlt : f32Value r < pow2 (-126) := by
      rw [hv, show (-126 : Int) = 23 + -149 by omega, pow2_add]
      refine mul_lt_mul_of_pos_right ?_ (pow2_pos _)
      rw [show (23 : Int) = ((23 : Nat) : Int) by rfl, pow2_nat]
      exact_mod_cast h
    have hl := (ilog2_spec (f32Value_pos h0)).1
    have : ilog2 (f32Value r) < -126 := pow2_lt.1 (lt_of_le_of_lt hl hlt)
    rw [show max (ilog2 (f32Value r) - 23) (-149) = -149 by omega, hv, mul_div_assoc, div_self (ne_of_gt (pow2_pos _)),
      mul_one, roundHalfEven_nat]
    simp
  · have hv : f32Value r = ((2 ^ 23 + r % 2 ^ 23 : Nat) : ℚ) * pow2 ((r / 2 ^ 23 : Nat) - 150) := by
      unfold f32Value; rw [if_neg h]
    have hlog : ilog2 (f32Value r) = ((r / 2 ^ 23 : Nat) : Int) - 127 := by
      apply ilog2_eq
      · rw [hv, show ((r / 2 ^ 23 : Nat) : Int) - 127 = 23 + (((r / 2 ^ 23 : Nat) : Int) - 150) by omega, pow2_add]
        refine mul_le_mul_of_nonneg_right ?_ (le_of_lt (pow2_pos _))
        rw [show (23 : Int) = ((23 : Nat) : Int) by rfl, pow2_nat]
        have : 2 ^ 23 ≤ 2 ^ 23 + r % 2 ^ 23 := by omega
        exact_mod_cast this
      · rw [hv, show ((r / 2 ^ 23 : Nat) : Int) - 127 + 1 = 24 + (((r / 2 ^ 23 : Nat) : Int) - 150) by omega, pow2_add]
        refine mul_lt_mul_of_pos_right ?_ (pow2_pos _)
        rw [show (24 : Int) = ((24 : Nat) : Int) by rfl, pow2_nat]
        have : 2 ^ 23 + r % 2 ^ 23 < 2 ^ 24 := by omega
        exact_mod_cast this
    have he : max (ilog2 (f32Value r) - 23) (-149) = ((r / 2 ^ 23 : Nat) : Int) - 150 := by
      rw [hlog]; omega
    rw [he, hv, mul_div_assoc, div_self (ne_of_gt (pow2_pos _)), mul_one, roundHalfEven_nat]
    omega

theorem f32Value_zero : f32Value 0 = 0 := by
  unfold f32Value; rw [if_pos (by norm_num)]; simp

/-- A binary32 number survives packing and unpacking. -/
theorem unpackF32_packF32 (nan f : PyFloat) (h : IsF32 f) :
    ∃ bs, packF32 f = .ok bs ∧ bs.length = 4 ∧ unpackF32 nan bs = f := by
  cases f with
  | inf neg =>
    refine ⟨_, rfl, packLE_length _ _, ?_⟩
    unfold unpackF32
    dsimp only
    rw [unpackLE_packLE (by cases neg <;> simp)]
    cases neg <;> simp
  | fin q =>
    obtain ⟨neg, r, hr, hq⟩ := h
    rcases Nat.eq_zero_or_pos r with rfl | h0
    · have : q = 0 := by rw [hq, f32Value_zero]; cases neg <;> simp
      subst this
      refine ⟨_, rfl, packLE_length _ _, ?_⟩
      unfold unpackF32
      dsimp only
      rw [unpackLE_packLE (by norm_num)]
      norm_num [f32Value_zero]
    · have hp := f32Value_pos h0
      have hq0 : q ≠ 0 := by
        rw [hq]; cases neg
        · simpa using ne_of_gt hp
        · simpa using ne_of_gt hp
      have hneg : q < 0 ↔ neg = true := by
        rw [hq]; cases neg
        · simp; exact le_of_lt hp
        · simpa using hp
      have habs : (if q < 0 then -q else q) = f32Value r := by
        cases neg
        · rw [if_neg (by rw [hneg]; simp), hq]; simp
        · rw [if_pos (by rw [hneg]), hq]; simp
      refine ⟨packLE 4 ((if q < 0 then 2 ^ 31 else 0) + r), ?_, packLE_length _ _, ?_⟩
      · unfold packF32
        dsimp only
        rw [if_neg hq0]
        rw [habs, f32Bits_value h0, if_pos hr]
      · unfold unpackF32
        dsimp only
        have hs : (if q < 0 then 2 ^ 31 else 0) = if neg then 2 ^ 31 else 0 := by
          cases neg
          · rw [if_neg (by rw [hneg]; simp)]; simp
          · rw [if_pos (by rw [hneg])]; simp
        rw [hs]
        rw [unpackLE_packLE (by cases neg <;> simp <;> omega)]
        have hm : ((if neg = true then 2 ^ 31 else 0) + r) % 2 ^ 31 = r := by cases neg <;> simp <;> omega
        rw [hm, if_pos hr, hq]
        congr 2
        cases neg <;> simp <;> omega

theorem packF32_length {f : PyFloat} {bs : Bytes} (h : packF32 f = .ok bs) : bs.length = 4 := by
  unfold packF32 at h
  cases f with
  | inf neg => injection h with h; rw [← h]; exact packLE_length _ _
  | fin q =>
    dsimp only at h
    split at h
    · injection h with h; rw [← h]; exact packLE_length _ _
    · generalize f32Bits (if q < 0 then -q else q) = b at h
      generalize (if q < 0 then 2 ^ 31 else 0) = c at h
      split at h
      · injection h with h; rw [← h]; exact packLE_length _ _
      · cases h

/-- Everything unpacked is a binary32 number, unless it is NaN. -/
theorem unpackF32_isF32 (nan : PyFloat) (bs : Bytes) (h : unpackLE bs % 2 ^ 31 ≤ 255 * 2 ^ 23) :
    IsF32 (unpackF32 nan bs) := by
  unfold unpackF32
  dsimp only
  split
  · rename_i hr
    exact ⟨_, _, hr, rfl⟩
  · split
    · trivial
    · omega

end Verif.Proofs
