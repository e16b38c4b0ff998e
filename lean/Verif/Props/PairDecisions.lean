import Mathlib.Algebra.Order.Archimedean.Basic
import Verif.Props.Matching
/-!
# Decisions on two numbers (C171)

A decision on two whole numbers can be written exactly if it depends only on the order of the two and, for some bound, on the numbers
where they are within it and their signs where they are not.
-/

namespace Verif.Spec

/-- The numbers are the same, or both large, or both small. -/
def SameSide (N : Nat) (a a' : Int) : Prop := a = a' ∨ (N ≤ a ∧ N ≤ a') ∨ (a ≤ -N ∧ a' ≤ -N)

end Verif.Spec

namespace Verif.Props
open Verif.Spec Proofs

/-- Two user attributes are these numbers. -/
def IsPair (x y : Str) (A : Atts) (a : Int × Int) : Prop := IsNumber x A a.1 ∧ IsNumber y A a.2

theorem writes_pull {U : Uni} {ι κ : Type} {H : Atts → ι → Prop} {H' : Atts → κ → Prop} {f : ι → Bool} (φ : κ → ι)
    (h : ∀ A i, H' A i → H A (φ i)) (hf : Writes U H f) : Writes U H' fun i => f (φ i) := by
  obtain ⟨t, p, h1, h2⟩ := hf
  exact ⟨t, p, h1, fun A i hi => h2 A _ (h A i hi)⟩

/-- `user.x > user.y` -/
theorem writes_greater {U : Uni} (hU : U.Lawful) {x y : Str} (hx : x ≠ []) (hxc : ∀ c ∈ x, IdChar U c) (hy : y ≠ [])
    (hyc : ∀ c ∈ y, IdChar U c) : Writes U (IsPair x y) fun a => decide (a.2 < a.1) := by
  have hr : Reads U (("user".toList ++ '.' :: x) ++ ' ' :: (['>'] ++ ' ' :: (("user".toList ++ '.' :: y) ++ [])))
      (.cmp (.att ⟨.usrAtt, 0, .str x⟩) ⟨.op, 0, .str ['>']⟩ (.att ⟨.usrAtt, 0, .str y⟩)) := by
    refine ⟨_, ?_, .term (.exp (.cmp (ts := [⟨.usrAtt, 0, .str x⟩]) (us := [⟨.usrAtt, 0, .str y⟩]) (.att (Or.inl rfl)) rfl (.att (Or.inl rfl))))⟩
    refine toks_cons (.att "user".toList x "user" .usrAtt _ (by decide) (by unfold Spells; decide) hx hxc ?_)
      (toks_space hU (toks_cons (.gt _ (by simp)) (toks_space hU (toks_cons (b := [])
        (.att "user".toList y "user" .usrAtt _ (by decide) (by unfold Spells; decide) hy hyc (by simp)) (toks_nil U)))))
    intro c h
    cases h
    exact (boundary_blank hU).2.2.2
  refine ⟨_, _, hr, fun A a hA => ?_⟩
  show ((semAtt A ⟨.usrAtt, 0, .str x⟩).bind fun x => (semAtt A ⟨.usrAtt, 0, .str y⟩).bind fun y => semCmp _ x y).2 = _
  rw [att_single hA.1 rfl rfl, att_single hA.2 rfl rfl]
  show (semCmp _ (.single (.atom (.int a.1))) (.single (.atom (.int a.2)))).2 = _
  rw [ord_value (e := (">", "qt_op", semOrd fun m n => decide (numLt n m))) (by simp [operators]) rfl rfl]
  show Except.ok (Den.truth (triOf (decide ((a.2 : Rat) < (a.1 : Rat))))) = _
  congr 3
  exact decide_eq_decide.mpr Int.cast_lt

/-- The numbers thresholds are at. -/
def marks (N : Nat) : List Int := (List.range (2 * N + 3)).map fun i : Nat => (i : Int) - (N + 1)

theorem mem_marks {N : Nat} {k : Int} : k ∈ marks N ↔ -(N + 1) ≤ k ∧ k ≤ N + 1 := by
  unfold marks
  simp only [List.mem_map, List.mem_range]
  constructor
  · rintro ⟨i, hi, rfl⟩
    omega
  · intro h
    exact ⟨(k + (N + 1)).toNat, by omega, by omega⟩

theorem marks_side {N : Nat} {a a' : Int} (h : ∀ k ∈ marks N, k < a ↔ k < a') : SameSide N a a' := by
  unfold SameSide
  by_cases h1 : N ≤ a
  · have := (h (N - 1) (mem_marks.mpr (by omega))).mp (by omega)
    omega
  · by_cases h2 : a ≤ -N
    · have := h (-N) (mem_marks.mpr (by omega))
      omega
    · have g1 := h a (mem_marks.mpr (by omega))
      have g2 := h (a - 1) (mem_marks.mpr (by omega))
      omega

/-- **C171**: such decisions on two numbers can be written. -/
theorem pairs_writable {U : Uni} (hU : U.Lawful) (hlim : U.intLimit = none) {x y : Str} (hx : x ≠ []) (hxc : ∀ c ∈ x, IdChar U c)
    (hy : y ≠ []) (hyc : ∀ c ∈ y, IdChar U c) {m : Int} (hm : 2 < m) {N : Nat} {P : Int → Int → Bool}
    (hP : ∀ a b a' b', SameSide N a a' → SameSide N b b' → (a < b ↔ a' < b') → (b < a ↔ b' < a') → P a b = P a' b') :
    ∃ text p, PolicyOf U text p ∧ ∀ E, SymEnv.SetsOk E → ∀ a b, attsOf U E .usrAtt x = some (.int, .sc (.atom (.int a))) →
      attsOf U E .usrAtt y = some (.int, .sc (.atom (.int b))) → Gives U E (some m) text (if P a b then .true else .false) := by
  have hpow : N + 2 < 10 ^ (N + 2) := Nat.lt_pow_self (by omega)
  have hcast : ((10 ^ (N + 2) : Nat) : Int) = 10 ^ (N + 2) := by push_cast; rfl
  have above : ∀ {z : Str}, z ≠ [] → (∀ c ∈ z, IdChar U c) → ∀ k ∈ marks N, Writes U (IsNumber z) fun a => decide (k < a) := fun hz hzc k hk => by
    have := mem_marks.mp hk
    exact writes_above hU hz hzc (d := N + 2) (by omega) (fun l h => by rw [hlim] at h; cases h) k (by omega) (by omega)
  have hw : Writes U (IsPair x y) fun a => P a.1 a.2 := by
    refine writes_tests hU ((fun a => decide (a.2 < a.1)) :: (fun a => decide (a.1 < a.2)) ::
      ((marks N).map (fun k a => decide (k < a.1)) ++ (marks N).map fun k a => decide (k < a.2))) _ ?_ ?_
    · intro f hf
      simp only [List.mem_cons, List.mem_append, List.mem_map] at hf
      rcases hf with rfl | rfl | ⟨k, hk, rfl⟩ | ⟨k, hk, rfl⟩
      · exact writes_greater hU hx hxc hy hyc
      · exact writes_pull (H := IsPair y x) (fun a : Int × Int => (a.2, a.1)) (fun A i hi => ⟨hi.2, hi.1⟩) (writes_greater hU hy hyc hx hxc)
      · exact writes_pull (H := IsNumber x) (fun a : Int × Int => a.1) (fun A i hi => hi.1) (above hx hxc k hk)
      · exact writes_pull (H := IsNumber y) (fun a : Int × Int => a.2) (fun A i hi => hi.2) (above hy hyc k hk)
    · intro a b h
      simp only [List.forall_mem_cons, List.forall_mem_append, List.forall_mem_map] at h
      obtain ⟨h1, h2, h3, h4⟩ := h
      exact hP _ _ _ _ (marks_side fun k hk => decide_eq_decide.mp (h3 k hk)) (marks_side fun k hk => decide_eq_decide.mp (h4 k hk))
        (decide_eq_decide.mp h2) (decide_eq_decide.mp h1)
  obtain ⟨text, p, h1, h2⟩ := writes_gives hU hw hm
  exact ⟨text, p, h1, fun E hE a b ha hb => h2 E hE (a, b) ⟨ha, hb⟩⟩

/-! ### The converse -/

/-- A table with two numbers. -/
def pairEnv (U : Uni) (x y : Str) (a b : Int) : SymEnv :=
  ⟨⟨[(U.lower ("user.".toList ++ x), 0), (U.lower ("user.".toList ++ y), 1)]⟩, fun
    | 0 => ⟨.int, .usrAtt, .sc (.atom (.int a)), [], []⟩
    | _ => ⟨.int, .usrAtt, .sc (.atom (.int b)), [], []⟩⟩

theorem pairEnv_sets (U : Uni) (x y : Str) (a b : Int) : SymEnv.SetsOk (pairEnv U x y a b) := by
  intro r l h
  unfold pairEnv at h
  dsimp only at h
  split at h <;> cases h

theorem pairEnv_atts (U : Uni) (x y : Str) (a b : Int) (t : TokenType) (n : Str) : attsOf U (pairEnv U x y a b) t n =
    if U.lower (fullPrefix (some t) ++ n) = U.lower ("user.".toList ++ x) then some (.int, .sc (.atom (.int a))) else
    if U.lower (fullPrefix (some t) ++ n) = U.lower ("user.".toList ++ y) then some (.int, .sc (.atom (.int b))) else none := by
  unfold attsOf SymTab.lookup SymTab.get pairEnv
  rw [← prefix_eq]
  dsimp only [List.find?]
  by_cases h1 : U.lower (fullPrefix (some t) ++ n) = U.lower ("user.".toList ++ x)
  · rw [if_pos h1, h1]
    simp
  · rw [if_neg h1, beq_eq_false_iff_ne.mpr (Ne.symm h1)]
    by_cases h2 : U.lower (fullPrefix (some t) ++ n) = U.lower ("user.".toList ++ y)
    · rw [if_pos h2, h2]
      simp
    · rw [if_neg h2, beq_eq_false_iff_ne.mpr (Ne.symm h2)]
      rfl

/-- The literals are within a bound. -/
theorem literals_bound (ts : List Token) : ∃ N : Nat, ∀ t ∈ ts, ∀ c, constOf t = some c → ∀ q, (Scalar.atom c).num = some (.fin q) → -(N : Rat) < q ∧ q < N := by
  induction ts with
  | nil => exact ⟨0, fun t ht => by cases ht⟩
  | cons t ts ih =>
    obtain ⟨N, hN⟩ := ih
    have : ∃ M : Nat, ∀ c, constOf t = some c → ∀ q, (Scalar.atom c).num = some (.fin q) → -(M : Rat) < q ∧ q < M := by
      cases hco : constOf t with
      | none => exact ⟨0, fun c h => by cases h⟩
      | some c =>
        cases hq : (Scalar.atom c).num with
        | none => exact ⟨0, fun d hd q h => by cases hd; rw [hq] at h; cases h⟩
        | some f =>
          cases f with
          | inf g => exact ⟨0, fun d hd q h => by cases hd; rw [hq] at h; cases h⟩
          | fin q =>
            obtain ⟨M, hM⟩ := exists_nat_gt |q|
            exact ⟨M, fun d hd r h => by cases hd; rw [hq] at h; cases h; exact abs_lt.mp hM⟩
    obtain ⟨M, hM⟩ := this
    have e1 : (N : Rat) ≤ ((N + M : Nat) : Rat) := by exact_mod_cast Nat.le_add_right N M
    have e2 : (M : Rat) ≤ ((N + M : Nat) : Rat) := by exact_mod_cast Nat.le_add_left M N
    refine ⟨N + M, fun u hu c hc q hq => ?_⟩
    rcases List.mem_cons.mp hu with rfl | hu
    · obtain ⟨g1, g2⟩ := hM c hc q hq
      exact ⟨by linarith, by linarith⟩
    · obtain ⟨g1, g2⟩ := hN u hu c hc q hq
      exact ⟨by linarith, by linarith⟩

/-- Numbers on the same side compare the same with numbers within the bound. -/
theorem side_compare {N : Nat} {a a' : Int} (h : SameSide N a a') {q : Rat} (h1 : -(N : Rat) < q) (h2 : q < N) :
    ((a : Rat) = q ↔ (a' : Rat) = q) ∧ ((a : Rat) < q ↔ (a' : Rat) < q) ∧ (q < (a : Rat) ↔ q < (a' : Rat)) := by
  rcases h with rfl | ⟨g1, g2⟩ | ⟨g1, g2⟩
  · exact ⟨Iff.rfl, Iff.rfl, Iff.rfl⟩
  · have e1 : (N : Rat) ≤ a := by exact_mod_cast g1
    have e2 : (N : Rat) ≤ a' := by exact_mod_cast g2
    refine ⟨⟨fun e => ?_, fun e => ?_⟩, ⟨fun e => ?_, fun e => ?_⟩, fun _ => ?_, fun _ => ?_⟩ <;> linarith
  · have e1 : (a : Rat) ≤ -N := by exact_mod_cast g1
    have e2 : (a' : Rat) ≤ -N := by exact_mod_cast g2
    refine ⟨⟨fun e => ?_, fun e => ?_⟩, ⟨fun _ => ?_, fun _ => ?_⟩, fun e => ?_, fun e => ?_⟩ <;> linarith

/-- The two numbers are matched with the two others, and constants with themselves. -/
def PairMatched (C : Atom → Prop) (a b a' b' : Int) (x x' : Scalar) : Prop :=
  (∃ i i', ((i = a ∧ i' = a') ∨ (i = b ∧ i' = b')) ∧ x = wholeScalar i ∧ x' = wholeScalar i') ∨ ∃ c, C c ∧ x = .atom c ∧ x' = .atom c

theorem pair_matching {C : Atom → Prop} {N : Nat} (hC : ∀ c, C c → ∀ q, (Scalar.atom c).num = some (.fin q) → -(N : Rat) < q ∧ q < N)
    {a b a' b' : Int} (ha : SameSide N a a') (hb : SameSide N b b') (h1 : a < b ↔ a' < b') (h2 : b < a ↔ b' < a') :
    Matching (PairMatched C a b a' b') := by
  have side : ∀ {i i' : Int}, ((i = a ∧ i' = a') ∨ (i = b ∧ i' = b')) → SameSide N i i' := by
    rintro i i' (⟨rfl, rfl⟩ | ⟨rfl, rfl⟩)
    · exact ha
    · exact hb
  have pair : ∀ {i i' j j' : Int}, ((i = a ∧ i' = a') ∨ (i = b ∧ i' = b')) → ((j = a ∧ j' = a') ∨ (j = b ∧ j' = b')) →
      ((i = j ↔ i' = j') ∧ (i < j ↔ i' < j')) := by
    intro i i' j j' g1 g2
    omega
  refine ⟨?_, ?_, ?_⟩
  · rintro x x' (⟨i, i', hi, rfl, rfl⟩ | ⟨c, hc, rfl, rfl⟩) <;> rfl
  · rintro x x' y y' (⟨i, i', hi, rfl, rfl⟩ | ⟨c, hc, rfl, rfl⟩) (⟨j, j', hj, rfl, rfl⟩ | ⟨d, hd, rfl, rfl⟩)
    · simp only [wholeScalar, Scalar.pyEq, Scalar.num, PyFloat.fin.injEq, Int.cast_inj]
      exact decide_eq_decide.mpr (pair hi hj).1
    · unfold Scalar.pyEq
      show (match some (PyFloat.fin (i : Rat)), (Scalar.atom d).num with | some x, some y => decide (x = y) | none, none => _ | _, _ => false) =
        (match some (PyFloat.fin (i' : Rat)), (Scalar.atom d).num with | some x, some y => decide (x = y) | none, none => _ | _, _ => false)
      cases hq : (Scalar.atom d).num with
      | none => rfl
      | some f =>
        cases f with
        | inf g => simp
        | fin q =>
          obtain ⟨g1, g2⟩ := hC d hd q hq
          refine decide_eq_decide.mpr ?_
          simp only [PyFloat.fin.injEq]
          exact (side_compare (side hi) g1 g2).1
    · unfold Scalar.pyEq
      show (match (Scalar.atom c).num, some (PyFloat.fin (j : Rat)) with | some x, some y => decide (x = y) | none, none => _ | _, _ => false) =
        (match (Scalar.atom c).num, some (PyFloat.fin (j' : Rat)) with | some x, some y => decide (x = y) | none, none => _ | _, _ => false)
      cases hq : (Scalar.atom c).num with
      | none => rfl
      | some f =>
        cases f with
        | inf g => simp
        | fin q =>
          obtain ⟨g1, g2⟩ := hC c hc q hq
          refine decide_eq_decide.mpr ?_
          simp only [PyFloat.fin.injEq, eq_comm (a := q)]
          exact (side_compare (side hj) g1 g2).1
    · rfl
  · rintro x x' y y' (⟨i, i', hi, rfl, rfl⟩ | ⟨c, hc, rfl, rfl⟩) (⟨j, j', hj, rfl, rfl⟩ | ⟨d, hd, rfl, rfl⟩) m n m' n' e1 e2 e3 e4
    · cases e1
      cases e2
      cases e3
      cases e4
      show ((i : Rat) < j) ↔ ((i' : Rat) < j')
      rw [Int.cast_lt, Int.cast_lt]
      exact (pair hi hj).2
    · rw [e2] at e4
      cases e4
      cases e1
      cases e3
      cases n with
      | inf g => exact Iff.rfl
      | fin q =>
        obtain ⟨g1, g2⟩ := hC d hd q e2
        exact (side_compare (side hi) g1 g2).2.1
    · rw [e1] at e3
      cases e3
      cases e2
      cases e4
      cases m with
      | inf g => exact Iff.rfl
      | fin q =>
        obtain ⟨g1, g2⟩ := hC c hc q e1
        exact (side_compare (side hj) g1 g2).2.2
    · rw [e1] at e3
      rw [e2] at e4
      cases e3
      cases e4
      exact Iff.rfl

/-- **C171**: where the digits of numbers are not limited, exactly these decisions on two numbers can be written. -/
theorem pair_decisions {U : Uni} (hU : U.Lawful) (hlim : U.intLimit = none) {x y : Str} (hx : x ≠ []) (hxc : ∀ c ∈ x, IdChar U c)
    (hy : y ≠ []) (hyc : ∀ c ∈ y, IdChar U c) (hxy : U.lower ("user.".toList ++ x) ≠ U.lower ("user.".toList ++ y)) {m : Int} (hm : 2 < m)
    (P : Int → Int → Bool) :
    (∃ text p, PolicyOf U text p ∧ ∀ E, SymEnv.SetsOk E → ∀ a b, attsOf U E .usrAtt x = some (.int, .sc (.atom (.int a))) →
      attsOf U E .usrAtt y = some (.int, .sc (.atom (.int b))) → Gives U E (some m) text (if P a b then .true else .false)) ↔
    ∃ N : Nat, ∀ a b a' b', SameSide N a a' → SameSide N b b' → (a < b ↔ a' < b') → (b < a ↔ b' < a') → P a b = P a' b' := by
  constructor
  · rintro ⟨text, p, hp, h⟩
    obtain ⟨N, hN⟩ := literals_bound p.tokens
    refine ⟨N, fun a b a' b' ha hb h1 h2 => ?_⟩
    have hE := fun a b : Int => pairEnv_sets U x y a b
    have ox : ∀ a b : Int, attsOf U (pairEnv U x y a b) .usrAtt x = some (.int, .sc (.atom (.int a))) := fun a b => by
      rw [pairEnv_atts]
      exact if_pos rfl
    have oy : ∀ a b : Int, attsOf U (pairEnv U x y a b) .usrAtt y = some (.int, .sc (.atom (.int b))) := fun a b => by
      rw [pairEnv_atts]
      exact (if_neg hxy.symm).trans (if_pos rfl)
    have hmat := pair_matching (C := fun c => ∃ t ∈ p.tokens, constOf t = some c) (fun c ⟨t, ht, hco⟩ => hN t ht c hco) ha hb h1 h2
    have g1 := h _ (hE a b) a b (ox a b) (oy a b)
    have g2 := h _ (hE a' b') a' b' (ox a' b') (oy a' b')
    rw [matched_gives hmat hU (hE a b) (hE a' b') hp (fun t _ => ?_) (fun t ht _ c hco => .inr ⟨c, ⟨t, ht, hco⟩, rfl, rfl⟩)] at g1
    · have g3 := gives_unique hU (hE a' b') hm hp g1 g2
      revert g3
      cases P a b <;> cases P a' b' <;> simp
    · unfold MatchAtts
      rw [pairEnv_atts, pairEnv_atts]
      split
      · exact .inr ⟨_, _, _, rfl, rfl, .sc (.inl ⟨a, a', .inl ⟨rfl, rfl⟩, rfl, rfl⟩)⟩
      · split
        · exact .inr ⟨_, _, _, rfl, rfl, .sc (.inl ⟨b, b', .inr ⟨rfl, rfl⟩, rfl, rfl⟩)⟩
        · exact .inl ⟨rfl, rfl⟩
  · rintro ⟨N, hP⟩
    exact pairs_writable hU hlim hx hxc hy hyc hm hP

/-- **C171**: so no policy tells whether two numbers differ by exactly one. -/
theorem difference_untestable {U : Uni} (hU : U.Lawful) (hlim : U.intLimit = none) {x y : Str} (hx : x ≠ []) (hxc : ∀ c ∈ x, IdChar U c)
    (hy : y ≠ []) (hyc : ∀ c ∈ y, IdChar U c) (hxy : U.lower ("user.".toList ++ x) ≠ U.lower ("user.".toList ++ y)) {m : Int} (hm : 2 < m) :
    ¬ ∃ text p, PolicyOf U text p ∧ ∀ E, SymEnv.SetsOk E → ∀ a b, attsOf U E .usrAtt x = some (.int, .sc (.atom (.int a))) →
      attsOf U E .usrAtt y = some (.int, .sc (.atom (.int b))) → Gives U E (some m) text (if decide (b = a + 1) then .true else .false) := by
  intro h
  obtain ⟨N, hN⟩ := (pair_decisions hU hlim hx hxc hy hyc hxy hm fun a b => decide (b = a + 1)).mp h
  have := decide_eq_decide.mp (hN N (N + 1) N (N + 2) (.inl rfl) (.inr (.inl (by omega))) (by omega) (by omega))
  omega

/-! ### Concrete cases -/

/-- Being positive and not more than the other, or more than 5. -/
example : ∃ text p, PolicyOf asciiUni text p ∧ ∀ E, SymEnv.SetsOk E → ∀ a b : Int,
    attsOf asciiUni E .usrAtt "a".toList = some (.int, .sc (.atom (.int a))) →
    attsOf asciiUni E .usrAtt "aa".toList = some (.int, .sc (.atom (.int b))) →
    Gives asciiUni E (some 3) text (if decide ((0 < a ∧ a ≤ b) ∨ 5 < a) then .true else .false) := by
  have hn := names_exist asciiUni_lawful
  refine pairs_writable asciiUni_lawful rfl (hn.some 0) (hn.chars 0) (hn.some 1) (hn.chars 1) (by decide) (N := 6)
    (P := fun a b => decide ((0 < a ∧ a ≤ b) ∨ 5 < a)) fun a b a' b' h1 h2 h3 h4 => decide_eq_decide.mpr ?_
  unfold SameSide at h1 h2
  omega

/-- The names differ. -/
example : asciiUni.lower ("user.".toList ++ "a".toList) ≠ asciiUni.lower ("user.".toList ++ "aa".toList) := by decide +kernel

end Verif.Props
