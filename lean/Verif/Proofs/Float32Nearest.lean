import Verif.Proofs.Float32
import Verif.Spec.Binary32
import Mathlib.Algebra.Order.Group.Abs
import Mathlib.Tactic.Ring
/-!
# Packing a float rounds to the nearest binary32 number
-/

namespace Verif.Proofs
open Verif

/-- What rounding does, for non-negative numbers: within a half, and at exactly a half the even number. -/
theorem roundHalfEven_spec {t : ℚ} (ht : 0 ≤ t) : |(roundHalfEven t : ℚ) - t| ≤ 1 / 2 ∧
    (|(roundHalfEven t : ℚ) - t| = 1 / 2 → roundHalfEven t % 2 = 0) := by
  have h1 : (t.floor : ℚ) ≤ t := Rat.floor_le t
  have h2 : t < (t.floor : ℚ) + 1 := by
    have := Rat.lt_floor_add_one t
    push_cast at this; exact this
  have h0 : 0 ≤ t.floor := Rat.le_floor_iff.2 (by simpa using ht)
  obtain ⟨n, hn⟩ := Int.eq_ofNat_of_zero_le h0
  unfold roundHalfEven
  rw [hn] at h1 h2 ⊢
  simp only [Int.toNat_natCast, Int.cast_natCast] at h1 h2 ⊢
  split
  · rename_i h
    rw [abs_of_nonpos (by linarith)]
    exact ⟨by linarith, fun e => by exfalso; linarith⟩
  · split
    · rename_i h
      push_cast
      rw [abs_of_nonneg (by linarith)]
      exact ⟨by linarith, fun e => by exfalso; linarith⟩
    · have he : t = n + 1 / 2 := by linarith
      split
      · rename_i h
        rw [abs_of_nonpos (by linarith)]
        exact ⟨by linarith, fun _ => h⟩
      · rename_i h
        push_cast
        rw [abs_of_nonneg (by linarith)]
        exact ⟨by linarith, fun _ => by omega⟩

/-- So no other natural number is nearer, and one as near only if the result is even. -/
theorem roundHalfEven_nearest {t : ℚ} (ht : 0 ≤ t) (k : Nat) : |(roundHalfEven t : ℚ) - t| ≤ |(k : ℚ) - t| ∧
    (|(roundHalfEven t : ℚ) - t| = |(k : ℚ) - t| → k = roundHalfEven t ∨ roundHalfEven t % 2 = 0) := by
  obtain ⟨h1, h2⟩ := roundHalfEven_spec ht
  generalize roundHalfEven t = m at h1 h2 ⊢
  by_cases hk : k = m
  · subst hk; exact ⟨le_refl _, fun _ => .inl rfl⟩
  have hd : (1 : ℚ) ≤ |(k : ℚ) - m| := by
    rcases Nat.lt_or_gt_of_ne hk with h | h
    · have : (k : ℚ) + 1 ≤ m := by exact_mod_cast h
      rw [abs_of_nonpos (by linarith)]; linarith
    · have : (m : ℚ) + 1 ≤ k := by exact_mod_cast h
      rw [abs_of_nonneg (by linarith)]; linarith
  have htri : |(k : ℚ) - m| ≤ |(k : ℚ) - t| + |(m : ℚ) - t| := by
    have := abs_sub_le (k : ℚ) t m
    rwa [abs_sub_comm t (m : ℚ)] at this
  refine ⟨by linarith, fun e => .inr (h2 ?_)⟩
  linarith

/-- The exponent of the last bit. -/
def lastExp (a : ℚ) : Int := max (ilog2 a - 23) (-149)

theorem scaled_bounds {a : ℚ} (ha : 0 < a) : 0 ≤ a / pow2 (lastExp a) ∧ a / pow2 (lastExp a) < 2 ^ 24 ∧
    (-149 < lastExp a → 2 ^ 23 ≤ a / pow2 (lastExp a)) := by
  obtain ⟨h1, h2⟩ := ilog2_spec ha
  have hp := pow2_pos (lastExp a)
  refine ⟨div_nonneg ha.le hp.le, ?_, fun h => ?_⟩
  · rw [div_lt_iff₀ hp]
    have e : (2 : ℚ) ^ 24 * pow2 (lastExp a) = pow2 (24 + lastExp a) := by
      rw [pow2_add, show pow2 24 = (2 : ℚ) ^ 24 by rw [pow2_eq]; norm_num]
    rw [e]
    refine lt_of_lt_of_le h2 (pow2_le.2 ?_)
    unfold lastExp; omega
  · rw [le_div_iff₀ hp]
    have e : (2 : ℚ) ^ 23 * pow2 (lastExp a) = pow2 (23 + lastExp a) := by
      rw [pow2_add, show pow2 23 = (2 : ℚ) ^ 23 by rw [pow2_eq]; norm_num]
    rw [e]
    refine le_trans (pow2_le.2 ?_) h1
    unfold lastExp at h ⊢; omega

theorem round_bounds {a : ℚ} (ha : 0 < a) : roundHalfEven (a / pow2 (lastExp a)) ≤ 2 ^ 24 ∧
    (-149 < lastExp a → 2 ^ 23 ≤ roundHalfEven (a / pow2 (lastExp a))) := by
  obtain ⟨h0, h1, h2⟩ := scaled_bounds ha
  obtain ⟨h3, _⟩ := roundHalfEven_spec h0
  generalize roundHalfEven (a / pow2 (lastExp a)) = m at h3 ⊢
  obtain ⟨h4, h5⟩ := abs_le.1 h3
  constructor
  · by_contra hc
    have : (2 : ℚ) ^ 24 + 1 ≤ m := by exact_mod_cast Nat.lt_of_not_le hc
    linarith
  · intro h
    have := h2 h
    by_contra hc
    have : (m : ℚ) + 1 ≤ 2 ^ 23 := by exact_mod_cast Nat.lt_of_not_le hc
    linarith

/-- The bits stand for the rounded mantissa times the power of two. -/
theorem f32Value_bits {a : ℚ} (ha : 0 < a) :
    f32Value (f32Bits a) = (roundHalfEven (a / pow2 (lastExp a)) : ℚ) * pow2 (lastExp a) := by
  obtain ⟨h1, h2⟩ := round_bounds ha
  have he : -149 ≤ lastExp a := by unfold lastExp; omega
  have hb : f32Bits a = (lastExp a + 149).toNat * 2 ^ 23 + roundHalfEven (a / pow2 (lastExp a)) := rfl
  rw [hb]
  generalize roundHalfEven (a / pow2 (lastExp a)) = m at h1 h2 ⊢
  generalize lastExp a = e at h2 he ⊢
  obtain ⟨n, hn⟩ := Int.eq_ofNat_of_zero_le (show 0 ≤ e + 149 by omega)
  have hen : e = (n : Int) - 149 := by omega
  subst hen
  rw [hn, Int.toNat_natCast]
  by_cases hc : n * 2 ^ 23 + m < 2 ^ 23
  · unfold f32Value
    rw [if_pos hc]
    have hn0 : n = 0 := by
      by_contra h
      have : 1 * 2 ^ 23 ≤ n * 2 ^ 23 := Nat.mul_le_mul_right _ (by omega)
      omega
    subst hn0
    norm_num
  · have hm : 2 ^ 23 ≤ m := by
      by_cases h0 : n = 0
      · subst h0; omega
      · exact h2 (by omega)
    unfold f32Value
    rw [if_neg hc]
    by_cases hm2 : m = 2 ^ 24
    · subst hm2
      have e1 : (n * 2 ^ 23 + 2 ^ 24) % 2 ^ 23 = 0 := by omega
      have e2 : (n * 2 ^ 23 + 2 ^ 24) / 2 ^ 23 = n + 2 := by omega
      rw [e1, e2]
      have e3 : (((n + 2 : Nat) : Int) - 150) = ((n : Int) - 149) + 1 := by push_cast; omega
      rw [e3, pow2_add, show pow2 1 = (2 : ℚ) by rw [pow2_eq]; norm_num]
      push_cast
      ring
    · have e1 : (n * 2 ^ 23 + m) % 2 ^ 23 = m - 2 ^ 23 := by omega
      have e2 : (n * 2 ^ 23 + m) / 2 ^ 23 = n + 1 := by omega
      rw [e1, e2]
      have e3 : (((n + 1 : Nat) : Int) - 150) = (n : Int) - 149 := by push_cast; omega
      have e4 : 2 ^ 23 + (m - 2 ^ 23) = m := by omega
      rw [e3, e4]

/-- Every value is a mantissa of 24 bits times a power of two. -/
theorem f32Value_form (r : Nat) : ∃ (k : Nat) (e : Int), k < 2 ^ 24 ∧ -149 ≤ e ∧ f32Value r = (k : ℚ) * pow2 e := by
  unfold f32Value
  split
  · rename_i h
    exact ⟨r, -149, by omega, le_refl _, rfl⟩
  · rename_i h
    refine ⟨2 ^ 23 + r % 2 ^ 23, (r / 2 ^ 23 : Nat) - 150, ?_, ?_, rfl⟩
    · have := Nat.mod_lt r (show 0 < 2 ^ 23 by norm_num)
      omega
    · have : 1 ≤ r / 2 ^ 23 := (Nat.one_le_div_iff (by norm_num)).2 (by omega)
      omega

/-- No value is nearer to a positive number than the one of its bits; one as near is the same or the bits are even. -/
theorem f32Bits_nearest {a : ℚ} (ha : 0 < a) (r : Nat) :
    |f32Value (f32Bits a) - a| ≤ |f32Value r - a| ∧
    (|f32Value (f32Bits a) - a| = |f32Value r - a| → f32Value r = f32Value (f32Bits a) ∨ f32Bits a % 2 = 0) := by
  have hp := pow2_pos (lastExp a)
  obtain ⟨h0, h1, h2⟩ := scaled_bounds ha
  have hn := roundHalfEven_nearest h0
  have hv := f32Value_bits ha
  have heven : f32Bits a % 2 = roundHalfEven (a / pow2 (lastExp a)) % 2 := by
    have hb : f32Bits a = (lastExp a + 149).toNat * 2 ^ 23 + roundHalfEven (a / pow2 (lastExp a)) := rfl
    omega
  have hat : a = a / pow2 (lastExp a) * pow2 (lastExp a) := (div_mul_cancel₀ _ hp.ne').symm
  have hscale : ∀ k : ℚ, |k * pow2 (lastExp a) - a| = |k - a / pow2 (lastExp a)| * pow2 (lastExp a) := by
    intro k
    rw [← abs_of_pos hp, ← abs_mul, abs_of_pos hp, sub_mul, ← hat]
  obtain ⟨k, e, hk, he, hr⟩ := f32Value_form r
  rw [hv, heven, hscale]
  by_cases hle : lastExp a ≤ e
  · obtain ⟨d, hd⟩ := Int.eq_ofNat_of_zero_le (show 0 ≤ e - lastExp a by omega)
    have hr' : f32Value r = ((k * 2 ^ d : Nat) : ℚ) * pow2 (lastExp a) := by
      rw [hr, show e = (d : Int) + lastExp a by omega, pow2_add, pow2_nat]
      push_cast; ring
    obtain ⟨h3, h4⟩ := hn (k * 2 ^ d)
    rw [hr', hscale]
    refine ⟨mul_le_mul_of_nonneg_right h3 hp.le, fun heq => ?_⟩
    rcases h4 (mul_right_cancel₀ hp.ne' heq) with h | h
    · left; rw [h]
    · exact .inr h
  · have h2 := h2 (by omega)
    obtain ⟨h3, _⟩ := hn (2 ^ 23)
    have hx : f32Value r < (2 ^ 23 : Nat) * pow2 (lastExp a) := by
      rw [hr]
      have e1 : pow2 (e + 1) ≤ pow2 (lastExp a) := pow2_le.2 (by omega)
      rw [pow2_add, show pow2 1 = (2 : ℚ) by rw [pow2_eq]; norm_num] at e1
      have e2 : (k : ℚ) < 2 ^ 24 := by exact_mod_cast hk
      have e3 := pow2_pos e
      push_cast
      nlinarith
    have hlt : |((2 ^ 23 : Nat) : ℚ) - a / pow2 (lastExp a)| * pow2 (lastExp a) < |f32Value r - a| := by
      rw [← hscale]
      have h5 : ((2 ^ 23 : Nat) : ℚ) * pow2 (lastExp a) ≤ a := by
        rw [← le_div_iff₀ hp]; push_cast; exact h2
      rw [abs_of_nonpos (by linarith), abs_of_neg (by linarith)]
      linarith
    have hlt' := lt_of_le_of_lt (mul_le_mul_of_nonneg_right h3 hp.le) hlt
    exact ⟨hlt'.le, fun heq => absurd heq hlt'.ne⟩

theorem f32Value_nonneg (r : Nat) : 0 ≤ f32Value r := by
  rcases Nat.eq_zero_or_pos r with rfl | h
  · rw [f32Value_zero]
  · exact (f32Value_pos h).le

/-- The bits stay below those of infinity exactly for numbers below the middle between the largest value and the next
power of two. -/
theorem f32Bits_finite {a : ℚ} (ha : 0 < a) : f32Bits a < 255 * 2 ^ 23 ↔ a < (2 ^ 25 - 1) * 2 ^ 103 := by
  have hb : f32Bits a = (lastExp a + 149).toNat * 2 ^ 23 + roundHalfEven (a / pow2 (lastExp a)) := rfl
  obtain ⟨h1, h2⟩ := round_bounds ha
  obtain ⟨g1, g2⟩ := ilog2_spec ha
  rcases lt_trichotomy (lastExp a) 104 with h | h | h
  · constructor
    · intro _
      have hl : ilog2 a + 1 ≤ 127 := by unfold lastExp at h; omega
      have := lt_of_lt_of_le g2 (pow2_le.2 hl)
      rw [show pow2 127 = (2 : ℚ) ^ 127 by rw [pow2_eq]; norm_num] at this
      norm_num at this ⊢
      linarith
    · intro _
      have : (lastExp a + 149).toNat ≤ 252 := by omega
      omega
  · have hs := scaled_bounds ha
    obtain ⟨s1, s2⟩ := roundHalfEven_spec hs.1
    rw [hb, h] at *
    rw [show ((104 : Int) + 149).toNat = 253 from rfl]
    have hp : pow2 104 = (2 : ℚ) ^ 104 := by rw [pow2_eq]; norm_num
    have ht : a / pow2 104 < 2 ^ 24 - 1 / 2 ↔ a < (2 ^ 25 - 1) * 2 ^ 103 := by
      rw [div_lt_iff₀ (pow2_pos _), hp]; norm_num
    rw [← ht]
    generalize a / pow2 104 = t at *
    generalize roundHalfEven t = m at *
    obtain ⟨a1, a2⟩ := abs_le.1 s1
    constructor
    · intro hm
      have hm' : m + 1 ≤ 2 ^ 24 := by omega
      have hq : (m : ℚ) + 1 ≤ 2 ^ 24 := by exact_mod_cast hm'
      rcases lt_or_eq_of_le (show t ≤ 2 ^ 24 - 1 / 2 by linarith) with h | h
      · exact h
      · exfalso
        have hm2 : (m : ℚ) = 2 ^ 24 - 1 := by linarith
        have : m + 1 = 2 ^ 24 := by
          have : (m : ℚ) + 1 = 2 ^ 24 := by linarith
          exact_mod_cast this
        have he := s2 (by rw [hm2, h, abs_of_nonpos] <;> norm_num)
        omega
    · intro hm
      have hq : (m : ℚ) < 2 ^ 24 := by linarith
      have : m < 2 ^ 24 := by exact_mod_cast hq
      omega
  · constructor
    · intro hlt
      have : 254 ≤ (lastExp a + 149).toNat := by omega
      have := h2 (by omega)
      omega
    · intro hlt
      exfalso
      have hl : 128 ≤ ilog2 a := by unfold lastExp at h; omega
      have := le_trans (pow2_le.2 hl) g1
      rw [show pow2 128 = (2 : ℚ) ^ 128 by rw [pow2_eq]; norm_num] at this
      norm_num at this hlt
      linarith

/-- `struct.pack('<f', q)` raises exactly for numbers of at least this size. -/
theorem packF32_overflow (q : ℚ) : packF32 (.fin q) = .error .overflowError ↔ (2 ^ 25 - 1) * 2 ^ 103 ≤ |q| := by
  unfold packF32
  by_cases h0 : q = 0
  · subst h0
    dsimp only
    rw [if_pos rfl]
    simp only [abs_zero, reduceCtorEq, false_iff, not_le]
    norm_num
  · dsimp only
    rw [if_neg h0]
    have hab : (if q < 0 then -q else q) = |q| := by
      split
      · rename_i h; rw [abs_of_neg h]
      · rename_i h; rw [abs_of_nonneg (not_lt.1 h)]
    rw [hab]
    have := f32Bits_finite (abs_pos.2 h0)
    by_cases hf : f32Bits |q| < 255 * 2 ^ 23
    · rw [if_pos hf]
      simp only [reduceCtorEq, false_iff, not_le]
      exact this.1 hf
    · rw [if_neg hf]
      simp only [true_iff]
      exact not_lt.1 fun h => hf (this.2 h)

/-- Packing a number and reading it back gives a binary32 number that no other is nearer to; if another is as near, the
last bit is 0. -/
theorem packF32_nearest (nan : PyFloat) {q : ℚ} {bs : Bytes} (h : packF32 (.fin q) = .ok bs) :
    ∃ y, unpackF32 nan bs = .fin y ∧ unpackLE bs % 2 ^ 31 < 255 * 2 ^ 23 ∧ IsF32 (.fin y) ∧ ∀ z, IsF32 (.fin z) → |y - q| ≤ |z - q| ∧
      (|y - q| = |z - q| → z = y ∨ unpackLE bs % 2 = 0) := by
  unfold packF32 at h
  by_cases h0 : q = 0
  · subst h0
    dsimp only at h
    rw [if_pos rfl] at h
    have h := Except.ok.inj h
    subst h
    have hu : unpackLE (packLE 4 0) = 0 := by decide +kernel
    refine ⟨0, ?_, by rw [hu]; norm_num, ⟨false, 0, by norm_num, by simp [f32Value_zero]⟩, fun z hz => ⟨by simp, fun _ => .inr (by rw [hu])⟩⟩
    unfold unpackF32
    rw [hu]
    simp [f32Value_zero]
  · dsimp only at h
    rw [if_neg h0] at h
    have hab : (if q < 0 then -q else q) = |q| := by
      split
      · rename_i h; rw [abs_of_neg h]
      · rename_i h; rw [abs_of_nonneg (not_lt.1 h)]
    rw [hab] at h
    split at h
    swap
    · cases h
    rename_i hf
    have h := Except.ok.inj h
    subst h
    have hq := abs_pos.2 h0
    have hn := f32Bits_nearest hq
    generalize f32Bits |q| = b at hf hn ⊢
    have hb : (if q < 0 then 2 ^ 31 else 0) + b < 256 ^ 4 := by split <;> omega
    have hu : unpackLE (packLE 4 ((if q < 0 then 2 ^ 31 else 0) + b)) = (if q < 0 then 2 ^ 31 else 0) + b :=
      unpackLE_packLE hb
    have hmod : ((if q < 0 then 2 ^ 31 else 0) + b) % 2 ^ 31 = b := by split <;> omega
    have hneg : (2 ^ 31 ≤ (if q < 0 then 2 ^ 31 else 0) + b) = (q < 0) := by
      by_cases hq0 : q < 0
      · simp only [hq0, if_true]; simp
      · simp only [hq0, if_false]; simp; omega
    refine ⟨if q < 0 then -f32Value b else f32Value b, ?_, by rw [hu, hmod]; exact hf, ⟨decide (q < 0), b, hf, ?_⟩, ?_⟩
    · unfold unpackF32
      rw [hu]
      simp only [hmod, hneg]
      rw [if_pos hf]
      by_cases hq0 : q < 0 <;> simp [hq0]
    · by_cases hq0 : q < 0 <;> simp [hq0]
    · rintro z ⟨neg, r, hr, hz⟩
      rw [hu]
      have hpar : ((if q < 0 then 2 ^ 31 else 0) + b) % 2 = b % 2 := by split <;> omega
      rw [hpar]
      obtain ⟨n1, n2⟩ := hn r
      have hy : |(if q < 0 then -f32Value b else f32Value b) - q| = |f32Value b - abs q| := by
        by_cases hq0 : q < 0
        · rw [if_pos hq0, abs_of_neg hq0, ← abs_neg]; congr 1; ring
        · rw [if_neg hq0, abs_of_nonneg (not_lt.1 hq0)]
      have hr0 := f32Value_nonneg r
      have hzr : |z| = f32Value r := by
        rw [hz]
        cases neg
        · simp [abs_of_nonneg hr0]
        · simp [abs_of_nonneg hr0]
      have hrev : |f32Value r - abs q| ≤ |z - q| := by
        rw [← hzr]; exact abs_abs_sub_abs_le z q
      rw [hy]
      refine ⟨le_trans n1 hrev, fun heq => ?_⟩
      rcases n2 (le_antisymm n1 (heq ▸ hrev)) with h | h
      · left
        rw [← h]
        have he : |f32Value r - abs q| = |z - q| := by rw [h]; exact heq
        rw [← hzr] at he ⊢
        by_cases hq0 : q < 0
        · rw [if_pos hq0]
          rw [abs_of_neg hq0] at he
          rcases le_or_gt z 0 with hz0 | hz0
          · rw [abs_of_nonpos hz0]; ring
          · exfalso
            rw [abs_of_pos hz0, abs_of_pos (show 0 < z - q by linarith)] at he
            rcases abs_cases (z - -q) with ⟨e, _⟩ | ⟨e, _⟩ <;> linarith
        · rw [if_neg hq0]
          have hq1 : 0 < q := lt_of_le_of_ne (not_lt.1 hq0) (Ne.symm h0)
          rw [abs_of_pos hq1] at he
          rcases le_or_gt 0 z with hz0 | hz0
          · rw [abs_of_nonneg hz0]
          · exfalso
            rw [abs_of_neg hz0, abs_of_neg (show z - q < 0 by linarith)] at he
            rcases abs_cases (-z - q) with ⟨e, _⟩ | ⟨e, _⟩ <;> linarith
      · exact .inr h

/-- The bit patterns of the code denote exactly the binary32 numbers. -/
theorem isF32_iff (q : ℚ) : IsF32 (.fin q) ↔ Spec.Binary32 q := by
  constructor
  · rintro ⟨neg, r, hr, rfl⟩
    have key : ∃ k e : ℤ, |k| < 2 ^ 24 ∧ -149 ≤ e ∧ e ≤ 104 ∧ f32Value r = k * 2 ^ e := by
      unfold f32Value
      split
      · rename_i h
        refine ⟨r, -149, ?_, le_refl _, by norm_num, by rw [pow2_eq]; simp⟩
        rw [abs_of_nonneg (by positivity)]
        norm_num at h ⊢; omega
      · rename_i h
        have h1 : 1 ≤ r / 2 ^ 23 := (Nat.one_le_div_iff (by norm_num)).2 (by omega)
        have h2 := Nat.mod_lt r (show 0 < 2 ^ 23 by norm_num)
        refine ⟨((2 ^ 23 + r % 2 ^ 23 : Nat) : ℤ), (r / 2 ^ 23 : Nat) - 150, ?_, by omega, by omega,
          by rw [pow2_eq, Int.cast_natCast]⟩
        rw [abs_of_nonneg (by positivity)]
        norm_num at h2 ⊢; omega
    obtain ⟨k, e, h1, h2, h3, h4⟩ := key
    cases neg
    · exact ⟨k, e, h1, h2, h3, by simpa using h4⟩
    · exact ⟨-k, e, by rwa [abs_neg], h2, h3, by simp [h4]⟩
  · rintro ⟨k, e, h1, h2, h3, rfl⟩
    by_cases h0 : k = 0
    · subst h0
      exact ⟨false, 0, by norm_num, by simp [f32Value_zero]⟩
    obtain ⟨n, hn⟩ := Int.eq_ofNat_of_zero_le (abs_nonneg k)
    have hn0 : 0 < n := by have := abs_pos.2 h0; omega
    have hn1 : n < 2 ^ 24 := by rw [hn] at h1; exact_mod_cast h1
    have hpos : 0 < (n : ℚ) * pow2 e := mul_pos (by exact_mod_cast hn0) (pow2_pos e)
    have hnq : (n : ℚ) + 1 ≤ 2 ^ 24 := by exact_mod_cast hn1
    have hlog : ilog2 ((n : ℚ) * pow2 e) < 24 + e := by
      by_contra hc
      have a1 := pow2_le.2 (not_lt.1 hc)
      have a2 := (ilog2_spec hpos).1
      have a3 := le_trans a1 a2
      rw [pow2_add, show pow2 24 = (2 : ℚ) ^ 24 by rw [pow2_eq]; norm_num] at a3
      have := pow2_pos e
      nlinarith
    have hle : lastExp ((n : ℚ) * pow2 e) ≤ e := by unfold lastExp; omega
    have hv := f32Value_bits hpos
    obtain ⟨d, hd⟩ := Int.eq_ofNat_of_zero_le (show 0 ≤ e - lastExp ((n : ℚ) * pow2 e) by omega)
    have ht : (n : ℚ) * pow2 e / pow2 (lastExp ((n : ℚ) * pow2 e)) = ((n * 2 ^ d : Nat) : ℚ) := by
      rw [div_eq_iff (pow2_pos _).ne']
      conv_lhs => rw [show e = (d : Int) + lastExp ((n : ℚ) * pow2 e) by omega, pow2_add, pow2_nat]
      push_cast
      ring
    rw [ht, roundHalfEven_nat, ← ht, div_mul_cancel₀ _ (pow2_pos _).ne'] at hv
    have hfin : f32Bits ((n : ℚ) * pow2 e) < 255 * 2 ^ 23 := by
      rw [f32Bits_finite hpos]
      have a1 : pow2 e ≤ 2 ^ 104 := by
        have := pow2_le.2 h3
        rwa [show pow2 104 = (2 : ℚ) ^ 104 by rw [pow2_eq]; norm_num] at this
      have a2 := pow2_pos e
      nlinarith
    refine ⟨decide (k < 0), _, hfin, ?_⟩
    rw [hv, pow2_eq]
    by_cases hk : k < 0
    · rw [abs_of_neg hk] at hn
      have : (k : ℚ) = -(n : ℚ) := by
        have : k = -(n : ℤ) := by omega
        rw [this]; push_cast; rfl
      simp [hk, this]
    · rw [abs_of_nonneg (not_lt.1 hk)] at hn
      have : (k : ℚ) = (n : ℚ) := by rw [hn]; push_cast; rfl
      simp [hk, this]

/-- Even bit patterns denote the numbers whose last bit is 0. -/
theorem evenBits (neg : Bool) (r : Nat) (hr : r < 255 * 2 ^ 23) (he : r % 2 = 0) :
    Spec.EvenBinary32 (if neg then -f32Value r else f32Value r) := by
  have key : ∃ k e : ℤ, |k| < 2 ^ 24 ∧ -149 ≤ e ∧ e ≤ 104 ∧ (2 ^ 23 ≤ |k| ∨ e = -149) ∧ k % 2 = 0 ∧
      f32Value r = k * 2 ^ e := by
    unfold f32Value
    split
    · rename_i h
      refine ⟨r, -149, ?_, le_refl _, by norm_num, .inr rfl, by omega, by rw [pow2_eq]; simp⟩
      rw [abs_of_nonneg (by positivity)]
      norm_num at h ⊢; omega
    · rename_i h
      have h1 : 1 ≤ r / 2 ^ 23 := (Nat.one_le_div_iff (by norm_num)).2 (by omega)
      have h2 := Nat.mod_lt r (show 0 < 2 ^ 23 by norm_num)
      have h3 : |((2 ^ 23 + r % 2 ^ 23 : Nat) : ℤ)| = ((2 ^ 23 + r % 2 ^ 23 : Nat) : ℤ) := abs_of_nonneg (by positivity)
      refine ⟨((2 ^ 23 + r % 2 ^ 23 : Nat) : ℤ), (r / 2 ^ 23 : Nat) - 150, ?_, by omega, by omega, .inl ?_, by omega,
        by rw [pow2_eq, Int.cast_natCast]⟩
      · rw [h3]; norm_num at h2 ⊢; omega
      · rw [h3]; push_cast; omega
  obtain ⟨k, e, h1, h2, h3, h4, h5, h6⟩ := key
  cases neg
  · exact ⟨k, e, h1, h2, h3, h4, h5, by simpa using h6⟩
  · exact ⟨-k, e, by rwa [abs_neg], h2, h3, by rwa [abs_neg], by omega, by simp [h6]⟩

/-- Packing rounds. -/
theorem packF32_rounds (nan : PyFloat) {q : ℚ} {bs : Bytes} (h : packF32 (.fin q) = .ok bs) :
    ∃ y, unpackF32 nan bs = .fin y ∧ Spec.Rounded q y := by
  obtain ⟨y, h1, hfin, h2, h3⟩ := packF32_nearest nan h
  refine ⟨y, h1, (isF32_iff y).1 h2, fun z hz => ?_⟩
  obtain ⟨a, b⟩ := h3 z ((isF32_iff z).2 hz)
  refine ⟨a, fun e => ?_⟩
  rcases b e with b | b
  · exact .inl b
  right
  unfold unpackF32 at h1
  dsimp only at h1
  split at h1
  · rename_i hr
    injection h1 with h1
    rw [← h1]
    exact evenBits _ _ hr (by omega)
  · exfalso
    contradiction

end Verif.Proofs
