import Verif.Props.Thresholds
import Verif.Props.Numbers
/-!
# Decisions on a float (C168)

Unlike decisions on an integer, all decisions on a float can be written: there are finitely many binary64 numbers, and each but 0 is the
value of some literal. It is 0 if it is none of the others.
-/

namespace Verif.Props
open Verif.Spec Proofs

/-- The floats of CPython: infinite, or a binary64 number. -/
def IsDouble (f : PyFloat) : Prop := ∀ r, f = .fin r → Binary64 r

/-- The user attribute is this float. -/
def IsFloat (name : Str) (A : Atts) (f : PyFloat) : Prop := A .usrAtt name = some (.float, .sc (.atom (.flt f))) ∧ IsDouble f

/-- A binary number is a decimal number. -/
theorem binary_decimal (k : Int) {e : Int} {m : Nat} (h : -(m : Int) ≤ e) :
    ∃ (neg : Bool) (a b : Nat), b < 10 ^ m ∧ (k : Rat) * 2 ^ e = (if neg then -1 else 1) * ((a : Rat) + (b : Rat) / 10 ^ m) := by
  obtain ⟨j, hj⟩ : ∃ j : Nat, e = j - m := ⟨(e + m).toNat, by omega⟩
  have hp : (10 : Nat) ^ m ≠ 0 := pow_ne_zero _ (by decide)
  have h10 : (10 : Rat) ^ m ≠ 0 := pow_ne_zero _ (by norm_num)
  have h2 : (2 : Rat) ^ m ≠ 0 := pow_ne_zero _ (by norm_num)
  refine ⟨decide (k < 0), k.natAbs * 2 ^ j * 5 ^ m / 10 ^ m, k.natAbs * 2 ^ j * 5 ^ m % 10 ^ m, Nat.mod_lt _ (Nat.pos_of_ne_zero hp), ?_⟩
  have hN : ((k.natAbs * 2 ^ j * 5 ^ m / 10 ^ m : Nat) : Rat) + ((k.natAbs * 2 ^ j * 5 ^ m % 10 ^ m : Nat) : Rat) / 10 ^ m =
      ((k.natAbs * 2 ^ j * 5 ^ m : Nat) : Rat) / 10 ^ m := by
    have := congrArg (Nat.cast (R := Rat)) (Nat.div_add_mod (k.natAbs * 2 ^ j * 5 ^ m) (10 ^ m))
    rw [eq_div_iff h10, add_mul, div_mul_cancel₀ _ h10, ← this]
    push_cast
    ring
  have hk : (k : Rat) = (if decide (k < 0) = true then -1 else 1) * (k.natAbs : Rat) := by
    by_cases h0 : k < 0
    · rw [if_pos (decide_eq_true h0)]
      have := congrArg (Int.cast (R := Rat)) (show k = -(k.natAbs : Int) by omega)
      rw [Int.cast_neg, Int.cast_natCast] at this
      rw [neg_one_mul]
      exact this
    · rw [if_neg (by simpa using h0)]
      have := congrArg (Int.cast (R := Rat)) (show k = (k.natAbs : Int) by omega)
      rw [Int.cast_natCast] at this
      rw [one_mul]
      exact this
  have he : (2 : Rat) ^ e = 2 ^ j * 5 ^ m / 10 ^ m := by
    rw [hj, zpow_sub₀ (by norm_num), zpow_natCast, zpow_natCast, show (10 : Rat) = 2 * 5 by norm_num, mul_pow,
      mul_div_mul_right _ _ (pow_ne_zero _ (by norm_num))]
  rw [hN, he]
  conv_lhs => rw [hk]
  push_cast
  ring

/-- Every float is the value of some decimal number. -/
theorem double_literal {f : PyFloat} (hf : IsDouble f) : ∃ (neg : Bool) (a b m : Nat), b < 10 ^ m ∧ 0 < m ∧
    f = f64 ((if neg then -1 else 1) * ((a : Rat) + (b : Rat) / 10 ^ m)) := by
  cases f with
  | fin r =>
    have hr := hf r rfl
    have hr' := hr
    obtain ⟨k, e, -, he, -, rfl⟩ := hr'
    obtain ⟨neg, a, b, h1, h2⟩ := binary_decimal k (m := 1074) he
    refine ⟨neg, a, b, 1074, h1, by decide, ?_⟩
    rw [← h2]
    exact (f64_exact hr).symm
  | inf n =>
    have hmax : ((2 : Int) ^ 54 - 1) * 2 ^ 970 ≤ ((10 ^ 309 : Nat) : Int) := by decide +kernel
    have hmax : overflow64 ≤ ((10 ^ 309 : Nat) : Rat) := by
      unfold overflow64
      exact_mod_cast hmax
    refine ⟨n, 10 ^ 309, 0, 1, by decide, by decide, ?_⟩
    generalize 10 ^ 309 = B at *
    cases n with
    | true => exact reads64_iff.mp (.low (by simpa using hmax))
    | false => exact reads64_iff.mp (.high (by simpa using hmax))

section
variable {U : Uni} (hU : U.Lawful) (hR : U.roundF = f64) {name : Str} (hn : name ≠ []) (hc : ∀ c ∈ name, IdChar U c)
include hU hR hn hc

theorem writes_float {g : PyFloat} (hg : IsDouble g) (h0 : g ≠ .fin 0) : Writes U (IsFloat name) fun f => decide (f = g) := by
  obtain ⟨neg, a, b, m, h1, h2, h3⟩ := double_literal hg
  obtain ⟨w, hw⟩ := printable_spelling U hU ⟨.float, 0, .flt g⟩ (.inr (.inr (.inl ⟨rfl, neg, a, b, m, h1, h2, by rw [h3, hR]⟩)))
  refine ⟨_, _, reads_cmp hU hn hc (o := "=".toList) (ov := .str "=".toList) (fun b => .punct "=" .op (some "=") _ (by decide))
    hw (.inr (.inl rfl)), fun A f hA => ?_⟩
  have hconst : constOf ⟨.float, 0, .flt g⟩ = some (.flt g) := by
    simp [constOf, h0]
  show ((semAtt A ⟨.usrAtt, 0, .str name⟩).bind fun x => (semOperand A (.atom ⟨.float, 0, .flt g⟩)).bind fun y => semCmp _ x y).2 = _
  rw [att_single hA.1 rfl rfl]
  have hop : semOperand A (.atom ⟨.float, 0, .flt g⟩) = Eff.pure (.const (.flt g)) := by
    unfold semOperand
    dsimp only
    rw [hconst]
  rw [hop]
  show (semCmp ⟨.op, 0, .str "=".toList⟩ (.single (.atom (.flt f))) (.const (.flt g))).2 = _
  show (answerOut "eq_op" (.ok (some (decide (f = g))))).2 = Except.ok (Den.truth (triOf (decide (f = g))))
  cases decide (f = g) <;> rfl

theorem writes_listed (P : PyFloat → Bool) (b : Bool) : ∀ (l : List PyFloat), (∀ g ∈ l, IsDouble g ∧ g ≠ .fin 0) →
    Writes U (IsFloat name) fun f => if f ∈ l then P f else b
  | [], _ => by
    refine cast (congrArg _ (funext fun f => ?_)) (writes_const (H := IsFloat name) hU b)
    rw [if_neg (by simp)]
  | g :: l, h => by
    obtain ⟨h1, h2⟩ := h g List.mem_cons_self
    have := writes_case hU (writes_float hU hR hn hc h1 h2) (writes_const hU (P g))
      (writes_listed P b l fun x hx => h x (List.mem_cons_of_mem _ hx))
    refine cast (congrArg _ (funext fun f => ?_)) this
    by_cases hf : f = g
    · rw [if_pos (decide_eq_true hf), if_pos (by simp [hf]), hf]
    · rw [if_neg (by simpa using hf)]
      simp [hf]

end

/-- The numbers with a mantissa and an exponent within some bounds. -/
def grid (K J M : Nat) : List PyFloat :=
  (List.range (2 * K)).flatMap fun i : Nat => (List.range J).map fun j : Nat => .fin ((((i : Int) - K : Int) : Rat) * 2 ^ ((j : Int) - M))

theorem mem_grid {K J M : Nat} {k e : Int} (h1 : |k| < K) (h2 : -(M : Int) ≤ e) (h3 : e + M < J) : PyFloat.fin (k * 2 ^ e) ∈ grid K J M := by
  have h1 := abs_lt.mp h1
  have h4 : (k + K).toNat < 2 * K := by omega
  have h5 : (e + M).toNat < J := by omega
  refine List.mem_flatMap.mpr ⟨(k + K).toNat, List.mem_range.mpr h4, List.mem_map.mpr ⟨(e + M).toNat, List.mem_range.mpr h5, ?_⟩⟩
  have e1 : (((k + K).toNat : Int) - K) = k := by omega
  have e2 : (((e + M).toNat : Int) - M) = e := by omega
  rw [e1, e2]

/-- There are finitely many floats. -/
theorem doubles_listed : ∃ l : List PyFloat, ∀ f, IsDouble f → f ∈ l := by
  refine ⟨.inf true :: .inf false :: grid (2 ^ 53) 2046 1074, fun f hf => ?_⟩
  cases f with
  | inf n => cases n <;> simp
  | fin r =>
    obtain ⟨k, e, h1, h2, h3, rfl⟩ := hf r rfl
    refine List.mem_cons_of_mem _ (List.mem_cons_of_mem _ (mem_grid (by exact_mod_cast h1) (by omega) (by omega)))

open Classical in
/-- **C168**: every decision on a float can be written. -/
theorem float_decisions {U : Uni} (hU : U.Lawful) (hR : U.roundF = f64) {name : Str} (hn : name ≠ []) (hc : ∀ c ∈ name, IdChar U c)
    {m : Int} (hm : 2 < m) (P : PyFloat → Bool) :
    ∃ text p, PolicyOf U text p ∧ ∀ E, SymEnv.SetsOk E → ∀ f, IsDouble f → attsOf U E .usrAtt name = some (.float, .sc (.atom (.flt f))) →
      Gives U E (some m) text (if P f then .true else .false) := by
  obtain ⟨l, hl⟩ := doubles_listed
  obtain ⟨text, p, h1, h2⟩ := writes_gives hU (writes_listed hU hR hn hc P (P (.fin 0)) (l.filter fun g => decide (IsDouble g ∧ g ≠ .fin 0))
    fun g hg => by simpa using (List.mem_filter.mp hg).2) hm
  refine ⟨text, p, h1, fun E hE f hf hA => ?_⟩
  have h3 := h2 E hE f ⟨hA, hf⟩
  by_cases h0 : f = .fin 0
  · rw [if_neg (by simp [h0])] at h3
    rw [h0]
    exact h3
  · rw [if_pos (List.mem_filter.mpr ⟨hl f hf, by simp [hf, h0]⟩)] at h3
    exact h3

/-! ### Concrete cases -/

/-- Being 0, though the literal 0.0 cannot be used. -/
example : (∃ text p, PolicyOf cpythonUni text p ∧ ∀ E, SymEnv.SetsOk E → ∀ f, IsDouble f →
      attsOf cpythonUni E .usrAtt "a".toList = some (.float, .sc (.atom (.flt f))) →
      Gives cpythonUni E (some 3) text (if decide (f = .fin 0) then .true else .false)) ∧
    IsDouble (.fin 0) ∧ IsDouble (.fin (3 / 2)) ∧ IsDouble (.inf true) :=
  ⟨float_decisions cpythonUni_lawful rfl (name_a cpythonUni_lawful).1 (name_a cpythonUni_lawful).2 (by decide) fun f => decide (f = .fin 0),
    fun r h => by cases h; exact ⟨0, 0, by norm_num, by norm_num, by norm_num, by norm_num⟩,
    fun r h => by cases h; exact ⟨3, -1, by norm_num, by norm_num, by norm_num, by norm_num⟩, fun r h => by cases h⟩

end Verif.Props
