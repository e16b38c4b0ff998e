import Verif.Proofs.Float32Nearest
import Verif.Spec.Binary64
import Verif.Py.Float64
import Verif.Spec.Semantics
/-!
# Rounding to binary64
-/

namespace Verif.Proofs
open Verif Spec

/-- The exponent of the last bit. -/
def lastExp64 (a : ℚ) : Int := max (ilog2 a - 52) (-1074)

theorem pow2_53 : pow2 53 = (2 : ℚ) ^ 53 := by rw [pow2_eq]; norm_num
theorem pow2_52 : pow2 52 = (2 : ℚ) ^ 52 := by rw [pow2_eq]; norm_num
theorem pow2_one : pow2 1 = (2 : ℚ) := by rw [pow2_eq]; norm_num

theorem scaled64_bounds {a : ℚ} (ha : 0 < a) : 0 ≤ a / pow2 (lastExp64 a) ∧ a / pow2 (lastExp64 a) < 2 ^ 53 ∧
    (-1074 < lastExp64 a → 2 ^ 52 ≤ a / pow2 (lastExp64 a)) := by
  obtain ⟨h1, h2⟩ := ilog2_spec ha
  have hp := pow2_pos (lastExp64 a)
  refine ⟨div_nonneg ha.le hp.le, ?_, fun h => ?_⟩
  · rw [div_lt_iff₀ hp, ← pow2_53, ← pow2_add]
    refine lt_of_lt_of_le h2 (pow2_le.2 ?_)
    unfold lastExp64; omega
  · rw [le_div_iff₀ hp, ← pow2_52, ← pow2_add]
    refine le_trans (pow2_le.2 ?_) h1
    unfold lastExp64 at h ⊢; omega

theorem round64_bounds {a : ℚ} (ha : 0 < a) : roundHalfEven (a / pow2 (lastExp64 a)) ≤ 2 ^ 53 ∧
    (-1074 < lastExp64 a → 2 ^ 52 ≤ roundHalfEven (a / pow2 (lastExp64 a))) := by
  obtain ⟨h0, h1, h2⟩ := scaled64_bounds ha
  obtain ⟨h3, _⟩ := roundHalfEven_spec h0
  generalize roundHalfEven (a / pow2 (lastExp64 a)) = m at h3 ⊢
  obtain ⟨h4, h5⟩ := abs_le.1 h3
  constructor
  · by_contra hc
    have : (2 : ℚ) ^ 53 + 1 ≤ m := by exact_mod_cast Nat.lt_of_not_le hc
    linarith
  · intro h
    have := h2 h
    by_contra hc
    have : (m : ℚ) + 1 ≤ 2 ^ 52 := by exact_mod_cast Nat.lt_of_not_le hc
    linarith

/-- The rounded number, if exponents had no upper bound. -/
def near64 (a : ℚ) : ℚ := (roundHalfEven (a / pow2 (lastExp64 a)) : ℚ) * pow2 (lastExp64 a)

theorem near64_nearest {a : ℚ} (ha : 0 < a) (k : Nat) (e : Int) (hk : k < 2 ^ 53) (he : -1074 ≤ e) :
    |near64 a - a| ≤ |k * pow2 e - a| ∧
    (|near64 a - a| = |k * pow2 e - a| → k * pow2 e = near64 a ∨ roundHalfEven (a / pow2 (lastExp64 a)) % 2 = 0) := by
  have hp := pow2_pos (lastExp64 a)
  obtain ⟨h0, h1, h2⟩ := scaled64_bounds ha
  have hn := roundHalfEven_nearest h0
  have hat : a = a / pow2 (lastExp64 a) * pow2 (lastExp64 a) := (div_mul_cancel₀ _ hp.ne').symm
  have hscale : ∀ k : ℚ, |k * pow2 (lastExp64 a) - a| = |k - a / pow2 (lastExp64 a)| * pow2 (lastExp64 a) := by
    intro k
    rw [← abs_of_pos hp, ← abs_mul, abs_of_pos hp, sub_mul, ← hat]
  unfold near64
  rw [hscale]
  by_cases hle : lastExp64 a ≤ e
  · obtain ⟨d, hd⟩ := Int.eq_ofNat_of_zero_le (show 0 ≤ e - lastExp64 a by omega)
    have hr' : (k : ℚ) * pow2 e = ((k * 2 ^ d : Nat) : ℚ) * pow2 (lastExp64 a) := by
      rw [show e = (d : Int) + lastExp64 a by omega, pow2_add, pow2_nat]
      push_cast; ring
    obtain ⟨h3, h4⟩ := hn (k * 2 ^ d)
    rw [hr', hscale]
    refine ⟨mul_le_mul_of_nonneg_right h3 hp.le, fun heq => ?_⟩
    rcases h4 (mul_right_cancel₀ hp.ne' heq) with h | h
    · left; rw [h]
    · exact .inr h
  · have h2 := h2 (by omega)
    obtain ⟨h3, _⟩ := hn (2 ^ 52)
    have hx : (k : ℚ) * pow2 e < (2 ^ 52 : Nat) * pow2 (lastExp64 a) := by
      have e1 : pow2 (e + 1) ≤ pow2 (lastExp64 a) := pow2_le.2 (by omega)
      rw [pow2_add, pow2_one] at e1
      have e2 : (k : ℚ) < 2 ^ 53 := by exact_mod_cast hk
      have e3 := pow2_pos e
      push_cast
      nlinarith
    have hlt : |((2 ^ 52 : Nat) : ℚ) - a / pow2 (lastExp64 a)| * pow2 (lastExp64 a) < |(k : ℚ) * pow2 e - a| := by
      rw [← hscale]
      have h5 : ((2 ^ 52 : Nat) : ℚ) * pow2 (lastExp64 a) ≤ a := by
        rw [← le_div_iff₀ hp]; push_cast; exact h2
      rw [abs_of_nonpos (by linarith), abs_of_neg (by linarith)]
      linarith
    have hlt' := lt_of_le_of_lt (mul_le_mul_of_nonneg_right h3 hp.le) hlt
    exact ⟨hlt'.le, fun h => absurd h hlt'.ne⟩

theorem near64_finite {a : ℚ} (ha : 0 < a) : near64 a < pow2 1024 ↔ a < overflow64 := by
  obtain ⟨h1, h2⟩ := round64_bounds ha
  obtain ⟨g1, g2⟩ := ilog2_spec ha
  have hov : overflow64 = (2 ^ 53 - 1 / 2) * pow2 971 := by
    unfold overflow64; rw [pow2_eq]
    rw [show ((2 : ℚ) ^ (971 : ℤ)) = 2 ^ 970 * 2 by rw [← zpow_natCast, ← zpow_add_one₀ (by norm_num)]; norm_num]
    ring
  have hpe : ∀ e : Int, (2 : ℚ) ^ 53 * pow2 e = pow2 (53 + e) := fun e => by rw [pow2_add, pow2_53]
  have hpe' : ∀ e : Int, (2 : ℚ) ^ 52 * pow2 e = pow2 (52 + e) := fun e => by rw [pow2_add, pow2_52]
  rcases lt_trichotomy (lastExp64 a) 971 with h | h | h
  · constructor
    · intro _
      have hl : ilog2 a + 1 ≤ 1023 := by unfold lastExp64 at h; omega
      have := lt_of_lt_of_le g2 (pow2_le.2 hl)
      rw [hov]
      rw [show (1023 : Int) = 52 + 971 by norm_num, pow2_add, pow2_52] at this
      have := pow2_pos 971
      nlinarith
    · intro _
      unfold near64
      have hm : (roundHalfEven (a / pow2 (lastExp64 a)) : ℚ) ≤ 2 ^ 53 := by exact_mod_cast h1
      have hp := pow2_pos (lastExp64 a)
      calc _ ≤ 2 ^ 53 * pow2 (lastExp64 a) := mul_le_mul_of_nonneg_right hm hp.le
        _ = pow2 (53 + lastExp64 a) := hpe _
        _ < pow2 1024 := pow2_lt.2 (by omega)
  · have hs := scaled64_bounds ha
    obtain ⟨s1, s2⟩ := roundHalfEven_spec hs.1
    unfold near64
    rw [h] at *
    have hp := pow2_pos 971
    rw [hov, ← div_lt_iff₀ hp, show (1024 : Int) = 53 + 971 by norm_num, ← hpe, mul_lt_mul_iff_left₀ hp]
    generalize a / pow2 971 = t at *
    generalize roundHalfEven t = m at *
    obtain ⟨a1, a2⟩ := abs_le.1 s1
    constructor
    · intro hm
      have hm' : m + 1 ≤ 2 ^ 53 := by
        have : (m : ℚ) < ((2 ^ 53 : ℕ) : ℚ) := by push_cast; exact hm
        exact_mod_cast this
      have hq : (m : ℚ) + 1 ≤ 2 ^ 53 := by exact_mod_cast hm'
      rcases lt_or_eq_of_le (show t ≤ 2 ^ 53 - 1 / 2 by linarith) with h | h
      · exact h
      · exfalso
        have hm2 : (m : ℚ) = 2 ^ 53 - 1 := by linarith
        have : m + 1 = 2 ^ 53 := by
          have : (m : ℚ) + 1 = 2 ^ 53 := by linarith
          exact_mod_cast this
        have he := s2 (by rw [hm2, h, abs_of_nonpos] <;> norm_num)
        omega
    · intro hm
      linarith
  · constructor
    · intro hlt
      exfalso
      unfold near64 at hlt
      have hm : (2 : ℚ) ^ 52 ≤ roundHalfEven (a / pow2 (lastExp64 a)) := by exact_mod_cast h2 (by omega)
      have hp := pow2_pos (lastExp64 a)
      have h3 : pow2 1024 ≤ (2 : ℚ) ^ 52 * pow2 (lastExp64 a) := by rw [hpe']; exact pow2_le.2 (by omega)
      have := mul_le_mul_of_nonneg_right hm hp.le
      linarith
    · intro hlt
      exfalso
      have hl : 1024 ≤ ilog2 a := by unfold lastExp64 at h; omega
      have := le_trans (pow2_le.2 hl) g1
      rw [show (1024 : Int) = 53 + 971 by norm_num, ← hpe] at this
      rw [hov] at hlt
      have := pow2_pos 971
      linarith

theorem near64_form {a : ℚ} (ha : 0 < a) (hf : near64 a < pow2 1024) :
    Binary64 (near64 a) ∧ (roundHalfEven (a / pow2 (lastExp64 a)) % 2 = 0 → EvenBinary64 (near64 a)) := by
  obtain ⟨h1, h2⟩ := round64_bounds ha
  have he : -1074 ≤ lastExp64 a := by unfold lastExp64; omega
  unfold near64 at hf ⊢
  generalize roundHalfEven (a / pow2 (lastExp64 a)) = m at *
  generalize lastExp64 a = e at *
  by_cases hm : m = 2 ^ 53
  · subst hm
    have hlt : e < 971 := by
      rw [show (((2 ^ 53 : ℕ) : ℚ)) = pow2 53 by rw [pow2_53]; norm_num, ← pow2_add, pow2_lt] at hf
      omega
    have heq : (((2 ^ 53 : ℕ) : ℚ)) * pow2 e = ((2 ^ 52 : ℤ) : ℚ) * 2 ^ (e + 1) := by
      rw [← pow2_eq, pow2_add, pow2_one]; push_cast; ring
    exact ⟨⟨2 ^ 52, e + 1, by norm_num, by omega, by omega, heq⟩,
      fun _ => ⟨2 ^ 52, e + 1, by norm_num, by omega, by omega, .inl (by norm_num), by norm_num, heq⟩⟩
  · have hlt : m < 2 ^ 53 := by omega
    have hu : e ≤ 971 := by
      by_contra hc
      have h3 := h2 (by omega)
      have h4 : (2 : ℚ) ^ 52 ≤ m := by exact_mod_cast h3
      have := mul_le_mul_of_nonneg_right h4 (pow2_pos e).le
      rw [← pow2_52, ← pow2_add] at this
      have := lt_of_le_of_lt this hf
      rw [pow2_lt] at this
      omega
    have habs : |(m : ℤ)| = m := abs_of_nonneg (by omega)
    have heq : (m : ℚ) * pow2 e = ((m : ℤ) : ℚ) * 2 ^ e := by rw [pow2_eq]; push_cast; rfl
    refine ⟨⟨m, e, by rw [habs]; exact_mod_cast hlt, he, hu, heq⟩, fun h => ⟨m, e, by rw [habs]; exact_mod_cast hlt, he, hu, ?_, ?_, heq⟩⟩
    · by_cases h0 : e = -1074
      · exact .inr h0
      · left; rw [habs]; exact_mod_cast h2 (by omega)
    · omega

theorem near64_rounded {a : ℚ} (ha : 0 < a) (hf : near64 a < pow2 1024) : Rounded64 a (near64 a) := by
  obtain ⟨h1, h2⟩ := near64_form ha hf
  refine ⟨h1, fun z hz => ?_⟩
  obtain ⟨k, e, hk, he, hu, rfl⟩ := hz
  rcases le_or_gt 0 k with hk0 | hk0
  · obtain ⟨n, rfl⟩ := Int.eq_ofNat_of_zero_le hk0
    rw [abs_of_nonneg hk0] at hk
    obtain ⟨h3, h4⟩ := near64_nearest ha n e (by exact_mod_cast hk) he
    rw [pow2_eq] at h3 h4
    refine ⟨by push_cast; exact h3, fun h => ?_⟩
    rcases h4 (by push_cast at h; exact h) with h5 | h5
    · left; push_cast; exact h5
    · exact .inr (h2 h5)
  · obtain ⟨h3, _⟩ := near64_nearest ha 0 0 (by norm_num) (by norm_num)
    have hz : (k : ℚ) * 2 ^ e < 0 := mul_neg_of_neg_of_pos (by exact_mod_cast hk0) (by positivity)
    have : |near64 a - a| < |(k : ℚ) * 2 ^ e - a| := by
      refine lt_of_le_of_lt h3 ?_
      rw [Nat.cast_zero, zero_mul, zero_sub, abs_neg, abs_of_pos ha, abs_of_neg (by linarith)]
      linarith
    exact ⟨this.le, fun h => absurd h this.ne⟩

theorem binary64_neg {q : ℚ} (h : Binary64 q) : Binary64 (-q) := by
  obtain ⟨k, e, h1, h2, h3, rfl⟩ := h
  exact ⟨-k, e, by rwa [abs_neg], h2, h3, by push_cast; ring⟩

theorem evenBinary64_neg {q : ℚ} (h : EvenBinary64 q) : EvenBinary64 (-q) := by
  obtain ⟨k, e, h1, h2, h3, h4, h5, rfl⟩ := h
  exact ⟨-k, e, by rwa [abs_neg], h2, h3, by rwa [abs_neg], by omega, by push_cast; ring⟩

theorem rounded64_neg {q y : ℚ} (h : Rounded64 q y) : Rounded64 (-q) (-y) := by
  refine ⟨binary64_neg h.1, fun z hz => ?_⟩
  obtain ⟨h1, h2⟩ := h.2 (-z) (binary64_neg hz)
  have e1 : |-y - -q| = |y - q| := by rw [← abs_neg]; ring_nf
  have e2 : |z - -q| = |-z - q| := by rw [← abs_neg]; ring_nf
  rw [e1, e2]
  refine ⟨h1, fun h => ?_⟩
  rcases h2 h with h | h
  · left; rw [← h]; ring
  · exact .inr (evenBinary64_neg h)

theorem rounded64_self {q : ℚ} (h : Binary64 q) : Rounded64 q q := by
  refine ⟨h, fun z _ => ?_⟩
  rw [sub_self, abs_zero]
  refine ⟨abs_nonneg _, fun h => .inl ?_⟩
  have := abs_eq_zero.1 h.symm
  linarith

theorem overflow64_pos : 0 < overflow64 := by unfold overflow64; norm_num

theorem f64Pos_eq (a : ℚ) : f64Pos a = if near64 a < pow2 1024 then .fin (near64 a) else .inf false := rfl

/-- The algorithm rounds. -/
theorem f64_reads (q : ℚ) : Reads64 q (f64 q) := by
  have pos : ∀ a : ℚ, 0 < a → (a < overflow64 ∧ f64Pos a = .fin (near64 a) ∧ Rounded64 a (near64 a)) ∨
      (overflow64 ≤ a ∧ f64Pos a = .inf false) := by
    intro a ha
    rw [f64Pos_eq]
    by_cases hf : near64 a < pow2 1024
    · rw [if_pos hf]
      exact .inl ⟨(near64_finite ha).1 hf, rfl, near64_rounded ha hf⟩
    · rw [if_neg hf]
      exact .inr ⟨not_lt.1 fun h => hf ((near64_finite ha).2 h), rfl⟩
  unfold f64
  by_cases h0 : q = 0
  · rw [if_pos h0, h0]
    exact .near (by rw [abs_zero]; exact overflow64_pos) (rounded64_self ⟨0, 0, by norm_num, by norm_num, by norm_num, by simp⟩)
  rw [if_neg h0]
  by_cases hn : q < 0
  · rw [if_pos hn]
    rcases pos (-q) (by linarith) with ⟨h1, h2, h3⟩ | ⟨h1, h2⟩
    · rw [h2]
      have := rounded64_neg h3
      rw [neg_neg] at this
      exact .near (by rwa [abs_of_neg hn]) this
    · rw [h2]
      exact .low (by linarith)
  · rw [if_neg hn]
    have hq : 0 < q := lt_of_le_of_ne (not_lt.1 hn) (Ne.symm h0)
    rcases pos q hq with ⟨h1, h2, h3⟩ | ⟨h1, h2⟩
    · rw [h2]
      exact .near (by rwa [abs_of_pos hq]) h3
    · rw [h2]
      exact .high h1

theorem toward {c d u : ℚ} (hu : 0 < u) (h : u < |c|) (hc : |c - d| = |d|) : ∃ s : ℤ, |s| ≤ 1 ∧ |s * u - d| < |d| := by
  have hd : c = 2 * d ∨ c = 0 := by
    rcases abs_eq_abs.1 hc with h | h
    · left; linarith
    · right; linarith
  rcases hd with rfl | rfl
  · rcases lt_or_ge 0 d with hp | hp
    · refine ⟨1, by norm_num, ?_⟩
      rw [abs_of_pos (by linarith)] at h
      rw [abs_of_pos hp, abs_lt]; push_cast; constructor <;> linarith
    · refine ⟨-1, by norm_num, ?_⟩
      rw [abs_of_nonpos (by linarith)] at h
      rw [abs_of_nonpos hp, abs_lt]; push_cast; constructor <;> linarith
  · rw [abs_zero] at h; linarith

theorem even_pair {q y z : ℚ} (hy : EvenBinary64 y) (hz : EvenBinary64 z) (hne : y ≠ z) (heq : |y - q| = |z - q|) :
    ∃ x, Binary64 x ∧ |x - q| < |y - q| := by
  have key : ∀ (k e l f : ℤ), |k| < 2 ^ 53 → -1074 ≤ e → e ≤ 971 → k % 2 = 0 → l % 2 = 0 → e ≤ f →
      (k : ℚ) * 2 ^ e ≠ l * 2 ^ f → |(k : ℚ) * 2 ^ e - q| = |(l : ℚ) * 2 ^ f - q| →
      ∃ x, Binary64 x ∧ |x - q| < |(k : ℚ) * 2 ^ e - q| := by
    intro k e l f hk he hu hk2 hl2 hef hne heq
    obtain ⟨d, hd⟩ := Int.eq_ofNat_of_zero_le (show 0 ≤ f - e by omega)
    obtain ⟨k', rfl⟩ : ∃ k', k = 2 * k' := ⟨k / 2, by omega⟩
    obtain ⟨l', rfl⟩ : ∃ l', l = 2 * l' := ⟨l / 2, by omega⟩
    have hu0 : (0 : ℚ) < 2 ^ e := by positivity
    have hl : ((2 * l' : ℤ) : ℚ) * 2 ^ f = ((2 * (l' * 2 ^ d) : ℤ) : ℚ) * 2 ^ e := by
      rw [show f = (d : ℤ) + e by omega, zpow_add₀ (by norm_num)]; push_cast; rw [zpow_natCast]; ring
    rw [hl] at hne heq
    generalize l' * 2 ^ d = n at hne heq
    have hkn : k' ≠ n := fun h => hne (by rw [h])
    have h1 : (1 : ℚ) ≤ |((n - k' : ℤ) : ℚ)| := by
      have : (1 : ℤ) ≤ |n - k'| := Int.one_le_abs (by omega)
      exact_mod_cast this
    obtain ⟨s, hs, hlt⟩ := toward (u := (2 : ℚ) ^ e) (c := ((2 * n : ℤ) : ℚ) * 2 ^ e - ((2 * k' : ℤ) : ℚ) * 2 ^ e)
        (d := q - ((2 * k' : ℤ) : ℚ) * 2 ^ e) hu0 (by
      rw [show ((2 * n : ℤ) : ℚ) * 2 ^ e - ((2 * k' : ℤ) : ℚ) * 2 ^ e = 2 * ((n - k' : ℤ) : ℚ) * 2 ^ e by push_cast; ring,
        abs_mul, abs_mul, abs_of_pos hu0, abs_of_pos (by norm_num : (0 : ℚ) < 2)]
      nlinarith) (by
      rw [show ((2 * n : ℤ) : ℚ) * 2 ^ e - ((2 * k' : ℤ) : ℚ) * 2 ^ e - (q - ((2 * k' : ℤ) : ℚ) * 2 ^ e) = ((2 * n : ℤ) : ℚ) * 2 ^ e - q by ring,
        ← heq, abs_sub_comm])
    refine ⟨((2 * k' + s : ℤ) : ℚ) * 2 ^ e, ⟨2 * k' + s, e, ?_, he, hu, rfl⟩, ?_⟩
    · rw [abs_lt] at hk ⊢
      rw [abs_le] at hs
      constructor <;> omega
    · rw [show ((2 * k' + s : ℤ) : ℚ) * 2 ^ e - q = s * 2 ^ e - (q - ((2 * k' : ℤ) : ℚ) * 2 ^ e) by push_cast; ring,
        abs_sub_comm (((2 * k' : ℤ) : ℚ) * 2 ^ e)]
      exact hlt
  obtain ⟨k, e, h1, h2, h3, _, h5, rfl⟩ := hy
  obtain ⟨l, f, g1, g2, g3, _, g5, rfl⟩ := hz
  rcases le_total e f with h | h
  · exact key k e l f h1 h2 h3 h5 g5 h hne heq
  · obtain ⟨x, hx, hlt⟩ := key l f k e g1 g2 g3 g5 h5 h hne.symm heq.symm
    exact ⟨x, hx, heq ▸ hlt⟩

theorem rounded64_unique {q y z : ℚ} (hy : Rounded64 q y) (hz : Rounded64 q z) : y = z := by
  have heq : |y - q| = |z - q| := le_antisymm (hy.2 z hz.1).1 (hz.2 y hy.1).1
  by_contra hne
  rcases (hy.2 z hz.1).2 heq with h | h
  · exact hne h.symm
  rcases (hz.2 y hy.1).2 heq.symm with h' | h'
  · exact hne h'
  obtain ⟨x, hx, hlt⟩ := even_pair h h' hne heq
  exact absurd (hy.2 x hx).1 (not_le.2 hlt)

theorem reads64_unique {q : ℚ} {f g : PyFloat} (hf : Reads64 q f) (hg : Reads64 q g) : f = g := by
  have := overflow64_pos
  cases hf with
  | near h1 h2 =>
    rw [abs_lt] at h1
    cases hg with
    | near _ g2 => rw [rounded64_unique h2 g2]
    | high g => linarith
    | low g => linarith
  | high h =>
    cases hg with
    | near g _ => rw [abs_lt] at g; linarith
    | high _ => rfl
    | low g => linarith
  | low h =>
    cases hg with
    | near g _ => rw [abs_lt] at g; linarith
    | high g => linarith
    | low _ => rfl

theorem reads64_iff {q : ℚ} {f : PyFloat} : Reads64 q f ↔ f = f64 q :=
  ⟨fun h => reads64_unique h (f64_reads q), fun h => h ▸ f64_reads q⟩

theorem binary64_small {q : ℚ} (h : Binary64 q) : |q| < overflow64 := by
  obtain ⟨k, e, h1, _, h3, rfl⟩ := h
  have hk : (|k| : ℤ) ≤ 2 ^ 53 - 1 := by omega
  have hk' : |(k : ℚ)| ≤ 2 ^ 53 - 1 := by exact_mod_cast hk
  have he : (2 : ℚ) ^ e ≤ 2 ^ 971 := by
    rw [← zpow_natCast]; exact zpow_le_zpow_right₀ (by norm_num) (by exact_mod_cast h3)
  have hp : (0 : ℚ) < 2 ^ e := by positivity
  rw [abs_mul, abs_of_pos hp]
  calc |(k : ℚ)| * 2 ^ e ≤ (2 ^ 53 - 1) * 2 ^ 971 := mul_le_mul hk' he hp.le (by norm_num)
    _ = (2 ^ 54 - 2) * 2 ^ 970 := by rw [pow_succ (2 : ℚ) 970]; ring
    _ < overflow64 := mul_lt_mul_of_pos_right (by norm_num) (by positivity)

theorem f64_exact {q : ℚ} (h : Binary64 q) : f64 q = .fin q :=
  (reads64_iff.1 (.near (binary64_small h) (rounded64_self h))).symm

theorem binary64_int {i : ℤ} (h : |i| ≤ 2 ^ 53) : Binary64 i := by
  by_cases h1 : |i| < 2 ^ 53
  · exact ⟨i, 0, h1, by norm_num, by norm_num, by simp⟩
  · rcases abs_cases i with ⟨h2, _⟩ | ⟨h2, _⟩
    · have : i = 2 ^ 53 := by omega
      subst this
      exact ⟨1, 53, by norm_num, by norm_num, by norm_num, by norm_num⟩
    · have : i = -2 ^ 53 := by omega
      subst this
      exact ⟨-1, 53, by norm_num, by norm_num, by norm_num, by norm_num⟩

/-- Rounding keeps order. -/
theorem f64_mono {q r : ℚ} (h : q ≤ r) : ¬ numLt (f64 r) (f64 q) := by
  rcases eq_or_lt_of_le h with rfl | hlt
  · cases f64 q with
    | fin a => simp [numLt]
    | inf b => cases b <;> simp [numLt]
  have hq := f64_reads q
  have hr := f64_reads r
  have := overflow64_pos
  generalize f64 q = f at *
  generalize f64 r = g at *
  cases hq with
  | near h1 h2 =>
    rw [abs_lt] at h1
    cases hr with
    | near g1 g2 =>
      rename_i y z
      simp only [numLt, not_lt]
      by_contra hc
      rw [not_le] at hc
      have a1 := (h2.2 z g2.1).1
      have a2 := (g2.2 y h2.1).1
      have b1 : (y + z) / 2 ≤ q := by
        by_contra hb
        rw [not_le] at hb
        have : |z - q| < |y - q| := by
          rw [abs_of_pos (show 0 < y - q by linarith), abs_lt]; constructor <;> linarith
        linarith
      have b2 : r ≤ (y + z) / 2 := by
        by_contra hb
        rw [not_le] at hb
        have : |y - r| < |z - r| := by
          rw [abs_of_neg (show z - r < 0 by linarith), abs_lt]; constructor <;> linarith
        linarith
      linarith
    | high _ => simp [numLt]
    | low g => linarith
  | high h1 =>
    cases hr with
    | near g _ => rw [abs_lt] at g; linarith
    | high _ => simp [numLt]
    | low g => linarith
  | low h1 => cases g <;> simp [numLt]

theorem near64_error {a : ℚ} (h : 1 / 2 ^ 1022 ≤ a) : |near64 a - a| ≤ a / 2 ^ 53 := by
  have ha : 0 < a := lt_of_lt_of_le (by positivity) h
  obtain ⟨h0, _, _⟩ := scaled64_bounds ha
  have he : lastExp64 a = ilog2 a - 52 := by
    have h1 := (ilog2_spec ha).2
    have h2 : pow2 (-1022) < pow2 (ilog2 a + 1) := by
      refine lt_of_le_of_lt ?_ h1
      rw [pow2_eq, zpow_neg, ← one_div]
      exact_mod_cast h
    rw [pow2_lt] at h2
    unfold lastExp64; omega
  have hp := pow2_pos (lastExp64 a)
  obtain ⟨h3, _⟩ := roundHalfEven_spec h0
  have hat : a = a / pow2 (lastExp64 a) * pow2 (lastExp64 a) := (div_mul_cancel₀ _ hp.ne').symm
  have h4 : (2 : ℚ) ^ 52 * pow2 (lastExp64 a) ≤ a := by
    rw [he, ← pow2_52, ← pow2_add]
    have := (ilog2_spec ha).1
    rwa [show (52 : Int) + (ilog2 a - 52) = ilog2 a by omega]
  have h5 : |near64 a - a| ≤ 1 / 2 * pow2 (lastExp64 a) := by
    have : near64 a - a = (roundHalfEven (a / pow2 (lastExp64 a)) - a / pow2 (lastExp64 a)) * pow2 (lastExp64 a) := by
      unfold near64; rw [sub_mul, ← hat]
    rw [this, abs_mul, abs_of_pos hp]
    exact mul_le_mul_of_nonneg_right h3 hp.le
  rw [le_div_iff₀ (by norm_num)]
  nlinarith

/-- The error of rounding, away from the smallest numbers. -/
theorem f64_error {q y : ℚ} (hq : q = 0 ∨ 1 / 2 ^ 1022 ≤ |q|) (h : f64 q = .fin y) : |y - q| ≤ |q| / 2 ^ 53 := by
  rcases hq with rfl | hq
  · rw [f64, if_pos rfl] at h
    cases h; simp
  have pos : ∀ a z : ℚ, f64Pos a = .fin z → z = near64 a := by
    intro a z h
    rw [f64Pos_eq] at h
    split at h
    · cases h; rfl
    · cases h
  unfold f64 at h
  have h0 : q ≠ 0 := by
    rintro rfl
    rw [abs_zero] at hq
    have : (0 : ℚ) < 1 / 2 ^ 1022 := by positivity
    linarith
  rw [if_neg h0] at h
  by_cases hn : q < 0
  · rw [if_pos hn] at h
    rw [abs_of_neg hn] at hq ⊢
    cases hz : f64Pos (-q) with
    | inf b => rw [hz] at h; cases h
    | fin z =>
      rw [hz] at h
      cases h
      rw [pos _ _ hz]
      have := near64_error hq
      rw [← abs_neg]
      rwa [show -(-near64 (-q) - q) = near64 (-q) - -q by ring]
  · rw [if_neg hn] at h
    rw [abs_of_nonneg (not_lt.1 hn)] at hq ⊢
    rw [pos _ _ h]
    exact near64_error hq

/-- Decimal numbers with at most fifteen digits stay apart. -/
theorem f64_apart {q r : ℚ} (hq : FifteenDigits q) (hr : FifteenDigits r) (hq' : |q| < overflow64) (hr' : |r| < overflow64)
    (h : f64 q = f64 r) : q = r := by
  obtain ⟨⟨m, i, hm, hmq⟩, hq0⟩ := hq
  obtain ⟨⟨n, j, hn, hnr⟩, hr0⟩ := hr
  have hfin : ∀ x : ℚ, |x| < overflow64 → ∃ y, f64 x = .fin y := by
    intro x hx
    have := f64_reads x
    rw [abs_lt] at hx
    generalize f64 x = f at this
    cases this with
    | near _ _ => exact ⟨_, rfl⟩
    | high g => linarith
    | low g => linarith
  obtain ⟨y, hy⟩ := hfin q hq'
  have hz : f64 r = .fin y := h ▸ hy
  have e1 := f64_error hq0 hy
  have e2 := f64_error hr0 hz
  have key : ∀ (a b : ℚ) (m n : ℤ) (i j : ℤ), i ≤ j → |m| < 10 ^ 15 → a = m * 10 ^ i → b = n * 10 ^ j →
      |y - a| ≤ |a| / 2 ^ 53 → |y - b| ≤ |b| / 2 ^ 53 → a = b := by
    intro a b m n i j hij hm ha hb e1 e2
    by_contra hne
    obtain ⟨d, hd⟩ := Int.eq_ofNat_of_zero_le (show 0 ≤ j - i by omega)
    have hp : (0 : ℚ) < 10 ^ i := by positivity
    have hb' : b = ((n * 10 ^ d : ℤ) : ℚ) * 10 ^ i := by
      rw [hb, show j = (d : ℤ) + i by omega, zpow_add₀ (by norm_num)]; push_cast; rw [zpow_natCast]; ring
    have hmn : m ≠ n * 10 ^ d := fun h => hne (by rw [ha, hb', h])
    have hD : (10 : ℚ) ^ i ≤ |a - b| := by
      have : (1 : ℤ) ≤ |m - n * 10 ^ d| := Int.one_le_abs (by omega)
      have h1 : (1 : ℚ) ≤ |((m - n * 10 ^ d : ℤ) : ℚ)| := by exact_mod_cast this
      rw [ha, hb', ← sub_mul, abs_mul, abs_of_pos hp]
      push_cast at h1 ⊢
      nlinarith
    have hA : |a| < 10 ^ 15 * 10 ^ i := by
      have h1 : |(m : ℚ)| < 10 ^ 15 := by exact_mod_cast hm
      rw [ha, abs_mul, abs_of_pos hp]
      exact mul_lt_mul_of_pos_right h1 hp
    have t1 : |a - b| ≤ |y - a| + |y - b| := by
      have := abs_sub_le a y b
      rwa [abs_sub_comm a y] at this
    have t2 : |b| ≤ |a| + |a - b| := by
      have := abs_sub_abs_le_abs_sub b a
      rw [abs_sub_comm b a] at this
      linarith
    rw [le_div_iff₀ (by norm_num)] at e1 e2
    norm_num at e1 e2 hA
    nlinarith
  rcases le_total i j with hij | hij
  · exact key q r m n i j hij hm hmq hnr e1 e2
  · exact (key r q n m j i hij hn hnr hmq e2 e1).symm

end Verif.Proofs
