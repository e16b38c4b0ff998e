import Verif.Props.Thresholds
import Verif.Props.Numbers
/-!
# Decisions on a number under the limit of digits (C166)

Current versions of CPython read integers of at most 4300 digits, and their floats are below 10^309. So the thresholds of a policy lie
within these bounds, and the decisions on a number that can be written are exactly those that are the same beyond them.
-/

namespace Verif.Props
open Verif.Spec Proofs

/-- The numbers beyond a bound. -/
def lateFar (s : Bool) (B : Int) : Late Int where
  is _ a := B ≤ if s then a else -a
  any := ()
  meet _ _ := ()
  both h := ⟨h, h⟩

/-- Numbers of less than the bound. -/
def BelowAbs (B : Int) (f : PyFloat) : Prop := ∀ r, f = .fin r → |r| < (B : Rat)

theorem smooth_far (s : Bool) (B : Int) : Smooth (lateFar s B) whole fun y => ∀ q, y.num = some q → BelowAbs B q :=
  smooth_whole fun y q hy hq => settles_far s q fun r hr => by
    have h := abs_lt.mp (hy q hq r hr)
    refine ⟨(), fun a (ha : B ≤ if s then a else -a) => ?_⟩
    cases s with
    | true =>
      have ha : (B : Rat) ≤ a := Int.cast_le.mpr (by simpa using ha)
      exact lt_of_lt_of_le h.2 ha
    | false =>
      have ha : (a : Rat) ≤ -B := by
        have : a ≤ -B := by
          simp only [Bool.false_eq_true, if_false] at ha
          omega
        exact_mod_cast this
      exact lt_of_le_of_lt ha h.1

theorem decVal_lt {U : Uni} (hU : ∀ c d, U.digitVal c = some d → d < 10) : ∀ {ds : Str} {n : Nat}, decVal U ds = some n → n < 10 ^ ds.length
  | [], n, h => by
    cases h
    exact Nat.one_pos
  | c :: ds, n, h => by
    unfold decVal at h
    cases hc : U.digitVal c with
    | none => rw [hc] at h; cases h
    | some d =>
      cases hd : decVal U ds with
      | none => rw [hc, hd] at h; cases h
      | some k =>
        rw [hc, hd] at h
        cases h
        have h1 := hU c d hc
        have h2 := decVal_lt hU hd
        rw [List.length_cons, Nat.pow_succ]
        have := Nat.mul_le_mul_right (10 ^ ds.length) (Nat.le_of_lt_succ h1)
        omega

/-- The value of the literal is below the bound. -/
def NumOk (B : Int) (t : Token) : Prop := (∀ i, t.value = .int i → |i| < B) ∧ ∀ f, t.value = .flt f → BelowAbs B f

section
variable {U : Uni} {l : Nat} (hl : U.intLimit = some l) (hdig : ∀ c d, U.digitVal c = some d → d < 10)
  (hround : ∀ q, BelowAbs (10 ^ l) (U.roundF q))
include hl hdig hround

theorem lexeme_numOk {w : Str} {ty : TokenType} {v : TVal} {nx : Option Char} (h : Lexeme U w ty v nx) (pos : Int) :
    NumOk (10 ^ l) ⟨ty, pos, v⟩ := by
  cases h with
  | punct w ty v nx h => cases v <;> exact ⟨fun i h => (by cases h), fun f h => (by cases h)⟩
  | int neg ds n nx hne hd hv hlen hx =>
    refine ⟨fun i hi => ?_, fun f h => (by cases h)⟩
    have hi : TVal.int (if neg then -(n : Int) else n) = .int i := hi
    injection hi with hi
    have h1 : n < 10 ^ l := lt_of_lt_of_le (decVal_lt hdig hv) (Nat.pow_le_pow_right (by omega) (hlen l hl))
    have h2 : (n : Int) < 10 ^ l := by exact_mod_cast h1
    rw [← hi]
    cases neg <;> simpa using h2
  | float =>
    refine ⟨fun i h => (by cases h), fun f hf => ?_⟩
    cases hf
    exact hround _
  | _ => exact ⟨fun i h => (by cases h), fun f h => (by cases h)⟩

theorem tokenizes_numOk {text : Str} {pos : Nat} {ts : List Token} (h : Tokenizes U text pos ts) : ∀ t ∈ ts, NumOk (10 ^ l) t := by
  induction h with
  | done ws pos h =>
    intro t ht
    rw [List.mem_singleton.mp ht]
    exact ⟨fun i h => (by cases h), fun f h => (by cases h)⟩
  | tok ws w rest pos ty v toks h hw hr ih =>
    intro t ht
    rcases List.mem_cons.mp ht with rfl | ht
    · exact lexeme_numOk hl hdig hround hw _
    · exact ih t ht

theorem policyOf_numOk {text : Str} {p : Policy} (h : PolicyOf U text p) : ∀ t ∈ p.tokens, NumOk (10 ^ l) t := by
  obtain ⟨ts, e, h1, h2⟩ := h
  intro t hm
  rw [← dpolicy_tokens h2, List.mem_filter] at hm
  exact tokenizes_numOk hl hdig hround h1 t (by simp [hm.1])

end

theorem const_below {B : Int} {t : Token} (ht : NumOk B t) {c : Atom} (hc : constOf t = some c) {q : PyFloat}
    (hq : (Scalar.atom c).num = some q) : BelowAbs B q := by
  unfold constOf at hc
  by_cases hn : t.type = .null
  · rw [if_pos hn] at hc
    cases hc
    cases hq
  · rw [if_neg hn] at hc
    cases hv : t.value with
    | none => rw [hv] at hc; cases hc
    | str u =>
      rw [hv] at hc
      dsimp only at hc
      split at hc
      · cases hc
      · cases hc
        cases hq
    | int i =>
      rw [hv] at hc
      dsimp only at hc
      split at hc
      · cases hc
      · cases hc
        cases hq
        intro r hr
        cases hr
        have := ht.1 i hv
        exact_mod_cast this
    | flt f =>
      rw [hv] at hc
      dsimp only at hc
      split at hc
      · cases hc
      · cases hc
        cases hq
        exact ht.2 q hv

/-- **C166**: under a limit of digits that no float reaches, the decisions on a number that can be written are exactly those that are the
same for all numbers with more digits and the same sign. -/
theorem number_decisions_limited {U : Uni} (hU : U.Lawful) {l : Nat} (hl0 : 0 < l) (hl : U.intLimit = some l)
    (hdig : ∀ c d, U.digitVal c = some d → d < 10) (hround : ∀ q, BelowAbs (10 ^ l) (U.roundF q))
    {name : Str} (hn : name ≠ []) (hc : ∀ c ∈ name, IdChar U c) {m : Int} (hm : 2 < m) (P : Int → Bool) :
    (∃ text p, PolicyOf U text p ∧ ∀ E, SymEnv.SetsOk E → ∀ a, attsOf U E .usrAtt name = some (.int, .sc (.atom (.int a))) →
      Gives U E (some m) text (if P a then .true else .false)) ↔
    ∀ a b : Int, (10 ^ l ≤ a ∧ 10 ^ l ≤ b) ∨ (a ≤ -10 ^ l ∧ b ≤ -10 ^ l) → P a = P b := by
  constructor
  · rintro ⟨text, p, hp, h⟩
    have hE := fun a : Int => soleEnv_sets U name .int (.int a)
    have hown : ∀ a : Int, attsOf U (soleEnv U name .int (.int a)) .usrAtt name = some (.int, .sc (.atom (.int a))) := fun a => by
      rw [soleEnv_atts]
      exact if_pos rfl
    have hw : p.WF := by
      obtain ⟨ts, e, -, h2⟩ := hp
      exact dpolicy_wf h2
    have side : ∀ s, Settles (lateFar s (10 ^ l)) fun a => {v | Gives U (soleEnv U name .int (.int a)) (some m) text v} := fun s => by
      refine gives_settles (x := whole) (E := fun a => soleEnv U name .int (.int a))
        (key := U.lower ("user.".toList ++ name)) hU hE
        (fun a b t n hne => by rw [soleEnv_atts, soleEnv_atts, if_neg hne, if_neg hne])
        (fun a t ht => by
          have ht : U.lower (fullPrefix (some t.type) ++ attName t) = U.lower ("user.".toList ++ name) := ht
          rw [soleEnv_atts, if_pos ht]
          rfl) hp hm (smooth_far s (10 ^ l)) (fun _ => ⟨rfl, fun h => (by cases h), rfl⟩) 0
        (G := fun z => ∀ t ∈ z.tokens, NumOk (10 ^ l) t) (fun z ht hi d hd => ?_)
        (fun c hc => by
          obtain ⟨-, -, h3, h4⟩ := cmp_parts hw hc
          exact ⟨fun t ht => policyOf_numOk hl hdig hround hp t (h3 t ht), fun t ht => policyOf_numOk hl hdig hround hp t (h4 t ht)⟩)
      cases z with
      | att t =>
        have hi : semAtt (attsOf U (soleEnv U name .int (.int 0))) t = semAtt (attsOf U (soleEnv U name .int (.int 1))) t := hi 0 1
        have hd : (semAtt (attsOf U (soleEnv U name .int (.int 0))) t).2 = .ok d := hd
        unfold semAtt at hi hd
        rw [soleEnv_atts] at hi hd
        rw [soleEnv_atts] at hi
        by_cases hk : U.lower (fullPrefix (some t.type) ++ attName t) = U.lower ("user.".toList ++ name)
        · rw [if_pos hk, if_pos hk] at hi
          cases hi
        · rw [if_neg hk] at hd
          cases hd
          trivial
      | atom t =>
        have hd : (semOperand (attsOf U (soleEnv U name .int (.int 0))) (.atom t)).2 = .ok d := hd
        unfold semOperand at hd
        dsimp only at hd
        cases hco : constOf t with
        | none => rw [hco] at hd; cases hd
        | some c =>
          rw [hco] at hd
          cases hd
          exact fun q hq => const_below (ht t List.mem_cons_self) hco hq
      | set b es =>
        have hd : (semElems es).map Den.lit = .ok d := hd
        cases hse : semElems es with
        | error e => rw [hse] at hd; cases hd
        | ok k =>
          rw [hse] at hd
          cases hd
          intro y hy q hq
          obtain ⟨c, hc, rfl⟩ := List.mem_map.mp hy
          obtain ⟨t, h1, h2⟩ := elems_const hse c hc
          exact const_below (ht t (List.mem_cons_of_mem _ h1)) h2 hq
    have fin : ∀ a b : Int, {v | Gives U (soleEnv U name .int (.int a)) (some m) text v} =
        {v | Gives U (soleEnv U name .int (.int b)) (some m) text v} → P a = P b := fun a b hs => by
      have h1 := (Set.ext_iff.mp hs _).mp (h _ (hE a) a (hown a))
      have h2 := gives_unique hU (hE b) hm hp h1 (h _ (hE b) b (hown b))
      revert h2
      cases P a <;> cases P b <;> simp
    rintro a b (⟨ha, hb⟩ | ⟨ha, hb⟩)
    · obtain ⟨_, hs⟩ := side true
      exact fin a b (hs a b ha hb)
    · obtain ⟨_, hs⟩ := side false
      exact fin a b (hs a b (show (10 : Int) ^ l ≤ -a by omega) (show (10 : Int) ^ l ≤ -b by omega))
  · intro hP
    refine settled_writable hU hn hc hm hl0 (fun k h => ?_) (le_refl (10 ^ l)) fun a b h => hP a b ?_
    · rw [hl] at h
      cases h
      exact le_refl _
    · push_cast at h
      exact h

theorem f64_below {l : Nat} (hl : 309 ≤ l) (q : Rat) : BelowAbs (10 ^ l) (f64 q) := by
  intro r hr
  have h : Reads64 q (.fin r) := hr ▸ f64_reads q
  cases h with
  | near _ h =>
    have hmax : ((2 : Int) ^ 54 - 1) * 2 ^ 970 < 10 ^ 309 := by decide +kernel
    refine lt_trans (binary64_small h.1) (lt_of_lt_of_le (b := (10 : Rat) ^ 309) (by unfold overflow64; exact_mod_cast hmax) ?_)
    push_cast
    exact pow_le_pow_right₀ (by norm_num) hl

/-- **C166**: with the floats of CPython and a limit of at least 309 digits, so with the 4300 that are its default. -/
theorem number_decisions_cpython {U : Uni} (hU : U.Lawful) {l : Nat} (hl309 : 309 ≤ l) (hl : U.intLimit = some l)
    (hdig : ∀ c d, U.digitVal c = some d → d < 10) (hR : U.roundF = f64) {name : Str} (hn : name ≠ []) (hc : ∀ c ∈ name, IdChar U c)
    {m : Int} (hm : 2 < m) (P : Int → Bool) :
    (∃ text p, PolicyOf U text p ∧ ∀ E, SymEnv.SetsOk E → ∀ a, attsOf U E .usrAtt name = some (.int, .sc (.atom (.int a))) →
      Gives U E (some m) text (if P a then .true else .false)) ↔
    ∀ a b : Int, (10 ^ l ≤ a ∧ 10 ^ l ≤ b) ∨ (a ≤ -10 ^ l ∧ b ≤ -10 ^ l) → P a = P b :=
  number_decisions_limited hU (by omega) hl hdig (fun q => by rw [hR]; exact f64_below hl309 q) hn hc hm P

/-! ### Concrete cases -/

theorem cpython_digits (c : Char) (d : Nat) (h : cpythonUni.digitVal c = some d) : d < 10 := by
  have h : (if asciiDigit c then some (c.toNat - 48) else none) = some d := h
  split at h
  · next hc =>
    cases h
    unfold asciiDigit at hc
    simp only [Bool.and_eq_true, decide_eq_true_eq] at hc
    omega
  · cases h

/-- Whether a number has more than 4300 digits can be written; the test for being 10 ^ 4300 cannot. -/
example : (∃ text p, PolicyOf cpythonUni text p ∧ ∀ E, SymEnv.SetsOk E → ∀ a,
      attsOf cpythonUni E .usrAtt "a".toList = some (.int, .sc (.atom (.int a))) →
      Gives cpythonUni E (some 3) text (if decide ((10 : Int) ^ 4300 ≤ a) then .true else .false)) ∧
    ¬ ∃ text p, PolicyOf cpythonUni text p ∧ ∀ E, SymEnv.SetsOk E → ∀ a,
      attsOf cpythonUni E .usrAtt "a".toList = some (.int, .sc (.atom (.int a))) →
      Gives cpythonUni E (some 3) text (if decide (a = (10 : Int) ^ 4300) then .true else .false) := by
  have key := fun P => number_decisions_cpython cpythonUni_lawful (l := 4300) (by decide) rfl cpython_digits rfl (name_a cpythonUni_lawful).1
    (name_a cpythonUni_lawful).2 (m := 3) (by decide) P
  have hpos : (0 : Int) < 10 ^ 4300 := pow_pos (by decide) 4300
  constructor
  · refine (key fun a => decide ((10 : Int) ^ 4300 ≤ a)).mpr fun a b h => decide_eq_decide.mpr ?_
    generalize (10 : Int) ^ 4300 = B at *
    omega
  · intro h
    have h1 := (key fun a => decide (a = (10 : Int) ^ 4300)).mp h ((10 : Int) ^ 4300) ((10 : Int) ^ 4300 + 1)
    generalize (10 : Int) ^ 4300 = B at *
    have := decide_eq_decide.mp (h1 (.inl (by omega)))
    omega

end Verif.Props
