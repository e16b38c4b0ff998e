import Verif.Props.PairDecisions
/-!
# Decisions on two texts (C172)

A decision on two texts can be written exactly if it depends only on whether they are equal and on which of finitely many texts that can be
written each of them is, if any.
-/

namespace Verif.Props
open Verif.Spec Proofs

/-- Two user attributes are these texts. -/
def IsTextPair (x y : Str) (A : Atts) (a : Str × Str) : Prop := IsText x A a.1 ∧ IsText y A a.2

/-- `user.x = user.y` -/
theorem writes_equal {U : Uni} (hU : U.Lawful) {x y : Str} (hx : x ≠ []) (hxc : ∀ c ∈ x, IdChar U c) (hy : y ≠ [])
    (hyc : ∀ c ∈ y, IdChar U c) : Writes U (IsTextPair x y) fun a => decide (a.1 = a.2) := by
  have hr : Reads U (("user".toList ++ '.' :: x) ++ ' ' :: ("=".toList ++ ' ' :: (("user".toList ++ '.' :: y) ++ [])))
      (.cmp (.att ⟨.usrAtt, 0, .str x⟩) ⟨.op, 0, .str "=".toList⟩ (.att ⟨.usrAtt, 0, .str y⟩)) := by
    refine ⟨_, ?_, .term (.exp (.cmp (ts := [⟨.usrAtt, 0, .str x⟩]) (us := [⟨.usrAtt, 0, .str y⟩]) (.att (Or.inl rfl)) rfl (.att (Or.inl rfl))))⟩
    refine toks_cons (.att "user".toList x "user" .usrAtt _ (by decide) (by unfold Spells; decide) hx hxc ?_)
      (toks_space hU (toks_cons (.punct "=" .op (some "=") _ (by decide)) (toks_space hU (toks_cons (b := [])
        (.att "user".toList y "user" .usrAtt _ (by decide) (by unfold Spells; decide) hy hyc (by simp)) (toks_nil U)))))
    intro c h
    cases h
    exact (boundary_blank hU).2.2.2
  refine ⟨_, _, hr, fun A a hA => ?_⟩
  show ((semAtt A ⟨.usrAtt, 0, .str x⟩).bind fun x => (semAtt A ⟨.usrAtt, 0, .str y⟩).bind fun y => semCmp _ x y).2 = _
  rw [att_single hA.1 rfl rfl, att_single hA.2 rfl rfl]
  show (answerOut "eq_op" (.ok (some ((textual a.1).pyEq (textual a.2))))).2 = Except.ok (Den.truth (triOf (decide (a.1 = a.2))))
  rw [textual_eq]
  cases decide (a.1 = a.2) <;> rfl

/-- **C172**: such decisions on two texts can be written. -/
theorem text_pairs_writable {U : Uni} (hU : U.Lawful) {x y : Str} (hx : x ≠ []) (hxc : ∀ c ∈ x, IdChar U c)
    (hy : y ≠ []) (hyc : ∀ c ∈ y, IdChar U c) {m : Int} (hm : 2 < m) {l : List Str} (hl : ∀ s ∈ l, s ≠ [] ∧ ∀ c ∈ s, StrChar c)
    {P : Str → Str → Bool}
    (hP : ∀ a b a' b', (∀ s ∈ l, a = s ↔ a' = s) → (∀ s ∈ l, b = s ↔ b' = s) → (a = b ↔ a' = b') → P a b = P a' b') :
    ∃ text p, PolicyOf U text p ∧ ∀ E, SymEnv.SetsOk E → ∀ a b, attsOf U E .usrAtt x = some (.string, .sc (.atom (.str a))) →
      attsOf U E .usrAtt y = some (.string, .sc (.atom (.str b))) → Gives U E (some m) text (if P a b then .true else .false) := by
  have hw : Writes U (IsTextPair x y) fun a => P a.1 a.2 := by
    refine writes_tests hU ((fun a => decide (a.1 = a.2)) :: (l.map (fun s a => decide (a.1 = s)) ++ l.map fun s a => decide (a.2 = s))) _ ?_ ?_
    · intro f hf
      simp only [List.mem_cons, List.mem_append, List.mem_map] at hf
      rcases hf with rfl | ⟨s, hs, rfl⟩ | ⟨s, hs, rfl⟩
      · exact writes_equal hU hx hxc hy hyc
      · exact writes_pull (H := IsText x) (fun a : Str × Str => a.1) (fun A i hi => hi.1) (writes_is hU hx hxc (hl s hs).1 (hl s hs).2)
      · exact writes_pull (H := IsText y) (fun a : Str × Str => a.2) (fun A i hi => hi.2) (writes_is hU hy hyc (hl s hs).1 (hl s hs).2)
    · intro a b h
      simp only [List.forall_mem_cons, List.forall_mem_append, List.forall_mem_map] at h
      obtain ⟨h1, h2, h3⟩ := h
      exact hP _ _ _ _ (fun s hs => decide_eq_decide.mp (h2 s hs)) (fun s hs => decide_eq_decide.mp (h3 s hs)) (decide_eq_decide.mp h1)
  obtain ⟨text, p, h1, h2⟩ := writes_gives hU hw hm
  exact ⟨text, p, h1, fun E hE a b ha hb => h2 E hE (a, b) ⟨ha, hb⟩⟩

/-! ### The converse -/

/-- A table with two texts. -/
def textPairEnv (U : Uni) (x y : Str) (a b : Str) : SymEnv :=
  ⟨⟨[(U.lower ("user.".toList ++ x), 0), (U.lower ("user.".toList ++ y), 1)]⟩, fun
    | 0 => ⟨.string, .usrAtt, .sc (.atom (.str a)), [], []⟩
    | _ => ⟨.string, .usrAtt, .sc (.atom (.str b)), [], []⟩⟩

theorem textPairEnv_sets (U : Uni) (x y : Str) (a b : Str) : SymEnv.SetsOk (textPairEnv U x y a b) := by
  intro r l h
  unfold textPairEnv at h
  dsimp only at h
  split at h <;> cases h

theorem textPairEnv_atts (U : Uni) (x y : Str) (a b : Str) (t : TokenType) (n : Str) : attsOf U (textPairEnv U x y a b) t n =
    if U.lower (fullPrefix (some t) ++ n) = U.lower ("user.".toList ++ x) then some (.string, .sc (.atom (.str a))) else
    if U.lower (fullPrefix (some t) ++ n) = U.lower ("user.".toList ++ y) then some (.string, .sc (.atom (.str b))) else none := by
  unfold attsOf SymTab.lookup SymTab.get textPairEnv
  rw [← prefix_eq]
  dsimp only [List.find?]
  by_cases h1 : U.lower (fullPrefix (some t) ++ n) = U.lower ("user.".toList ++ x)
  · rw [if_pos h1, h1]
    simp
  · rw [if_neg h1, beq_eq_false_iff_ne.mpr (Ne.symm h1)]
    by_cases h2 : U.lower (fullPrefix (some t) ++ n) = U.lower ("user.".toList ++ y)
    · rw [if_pos h2, h2]
      simp
    · rw [if_neg h2, beq_eq_false_iff_ne.mpr (Ne.symm h2)]
      rfl

/-- The two texts are matched with the two others, and constants with themselves. -/
def TextsMatched (C : Atom → Prop) (a b a' b' : Str) (x x' : Scalar) : Prop :=
  (∃ s s', ((s = a ∧ s' = a') ∨ (s = b ∧ s' = b')) ∧ x = textual s ∧ x' = textual s') ∨ ∃ c, C c ∧ x = .atom c ∧ x' = .atom c

theorem texts_matching {C : Atom → Prop} {l : List Str} (hC : ∀ s, C (.str s) → s ∈ l) {a b a' b' : Str} (ha : ∀ s ∈ l, a = s ↔ a' = s)
    (hb : ∀ s ∈ l, b = s ↔ b' = s) (hab : a = b ↔ a' = b') : Matching (TextsMatched C a b a' b') := by
  have side : ∀ {s s' : Str}, ((s = a ∧ s' = a') ∨ (s = b ∧ s' = b')) → ∀ {c}, C c → (c = .str s ↔ c = .str s') := by
    intro s s' hs c hc
    cases c with
    | str u =>
      have hu := hC u hc
      rw [Atom.str.injEq, Atom.str.injEq, eq_comm, eq_comm (a := u)]
      rcases hs with ⟨rfl, rfl⟩ | ⟨rfl, rfl⟩
      · exact ha u hu
      · exact hb u hu
    | _ => simp
  refine ⟨?_, ?_, ?_⟩
  · rintro x x' (⟨i, i', hi, rfl, rfl⟩ | ⟨c, hc, rfl, rfl⟩) <;> rfl
  · rintro x x' y y' (⟨i, i', hi, rfl, rfl⟩ | ⟨c, hc, rfl, rfl⟩) (⟨j, j', hj, rfl, rfl⟩ | ⟨d, hd, rfl, rfl⟩)
    · rw [textual_eq, textual_eq]
      refine decide_eq_decide.mpr ?_
      rcases hi with ⟨rfl, rfl⟩ | ⟨rfl, rfl⟩ <;> rcases hj with ⟨rfl, rfl⟩ | ⟨rfl, rfl⟩
      · simp
      · exact hab
      · rw [eq_comm, hab, eq_comm]
      · simp
    · rw [(atom_textual d i).2, (atom_textual d i').2]
      exact decide_eq_decide.mpr (side hi hd)
    · rw [(atom_textual c j).1, (atom_textual c j').1]
      exact decide_eq_decide.mpr (side hj hc)
    · rfl
  · rintro x x' y y' (⟨i, i', hi, rfl, rfl⟩ | ⟨c, hc, rfl, rfl⟩) (⟨j, j', hj, rfl, rfl⟩ | ⟨d, hd, rfl, rfl⟩) m n m' n' e1 e2 e3 e4
    · cases e1
    · cases e1
    · cases e2
    · rw [e1] at e3
      rw [e2] at e4
      cases e3
      cases e4
      exact Iff.rfl

open Classical in
/-- **C172**: exactly these decisions on two texts can be written. -/
theorem text_pair_decisions {U : Uni} (hU : U.Lawful) {x y : Str} (hx : x ≠ []) (hxc : ∀ c ∈ x, IdChar U c)
    (hy : y ≠ []) (hyc : ∀ c ∈ y, IdChar U c) (hxy : U.lower ("user.".toList ++ x) ≠ U.lower ("user.".toList ++ y)) {m : Int} (hm : 2 < m)
    (P : Str → Str → Bool) :
    (∃ text p, PolicyOf U text p ∧ ∀ E, SymEnv.SetsOk E → ∀ a b, attsOf U E .usrAtt x = some (.string, .sc (.atom (.str a))) →
      attsOf U E .usrAtt y = some (.string, .sc (.atom (.str b))) → Gives U E (some m) text (if P a b then .true else .false)) ↔
    ∃ l : List Str, (∀ s ∈ l, s ≠ [] ∧ ∀ c ∈ s, StrChar c) ∧
      ∀ a b a' b', (∀ s ∈ l, a = s ↔ a' = s) → (∀ s ∈ l, b = s ↔ b' = s) → (a = b ↔ a' = b') → P a b = P a' b' := by
  constructor
  · rintro ⟨text, p, hp, h⟩
    let word : Token → Option Str := fun t => match constOf t with | some (.str s) => if Writable s then some s else none | _ => none
    have hword : ∀ t ∈ p.tokens, AtomTok false t → ∀ s, constOf t = some (.str s) → s ∈ p.tokens.filterMap word := fun t ht ha s hs => by
      refine List.mem_filterMap.mpr ⟨t, ht, ?_⟩
      have := const_writable ha (policyOf_textOk hp t ht) hs (s := s) rfl
      simp only [word, hs, if_pos this]
    refine ⟨p.tokens.filterMap word, fun s hs => ?_, fun a b a' b' ha hb hab => ?_⟩
    · obtain ⟨t, -, ht⟩ := List.mem_filterMap.mp hs
      simp only [word] at ht
      split at ht
      · split at ht
        · next hwr =>
          cases ht
          exact hwr
        · cases ht
      · cases ht
    · have hE := fun a b : Str => textPairEnv_sets U x y a b
      have ox : ∀ a b : Str, attsOf U (textPairEnv U x y a b) .usrAtt x = some (.string, .sc (.atom (.str a))) := fun a b => by
        rw [textPairEnv_atts]
        exact if_pos rfl
      have oy : ∀ a b : Str, attsOf U (textPairEnv U x y a b) .usrAtt y = some (.string, .sc (.atom (.str b))) := fun a b => by
        rw [textPairEnv_atts]
        exact (if_neg hxy.symm).trans (if_pos rfl)
      have hmat := texts_matching (C := fun c => ∃ t ∈ p.tokens, AtomTok false t ∧ constOf t = some c)
        (fun s ⟨t, ht, hat, hco⟩ => hword t ht hat s hco) ha hb hab
      have g1 := h _ (hE a b) a b (ox a b) (oy a b)
      have g2 := h _ (hE a' b') a' b' (ox a' b') (oy a' b')
      rw [matched_gives hmat hU (hE a b) (hE a' b') hp (fun t _ => ?_) (fun t ht hat c hco => .inr ⟨c, ⟨t, ht, hat, hco⟩, rfl, rfl⟩)] at g1
      · have g3 := gives_unique hU (hE a' b') hm hp g1 g2
        revert g3
        cases P a b <;> cases P a' b' <;> simp
      · unfold MatchAtts
        rw [textPairEnv_atts, textPairEnv_atts]
        split
        · exact .inr ⟨_, _, _, rfl, rfl, .sc (.inl ⟨a, a', .inl ⟨rfl, rfl⟩, rfl, rfl⟩)⟩
        · split
          · exact .inr ⟨_, _, _, rfl, rfl, .sc (.inl ⟨b, b', .inr ⟨rfl, rfl⟩, rfl, rfl⟩)⟩
          · exact .inl ⟨rfl, rfl⟩
  · rintro ⟨l, hl, hP⟩
    exact text_pairs_writable hU hx hxc hy hyc hm hl hP

/-- **C172**: so no policy tells whether a text starts with another. -/
theorem prefix_untestable {U : Uni} (hU : U.Lawful) {x y : Str} (hx : x ≠ []) (hxc : ∀ c ∈ x, IdChar U c)
    (hy : y ≠ []) (hyc : ∀ c ∈ y, IdChar U c) (hxy : U.lower ("user.".toList ++ x) ≠ U.lower ("user.".toList ++ y)) {m : Int} (hm : 2 < m) :
    ¬ ∃ text p, PolicyOf U text p ∧ ∀ E, SymEnv.SetsOk E → ∀ a b : Str, attsOf U E .usrAtt x = some (.string, .sc (.atom (.str a))) →
      attsOf U E .usrAtt y = some (.string, .sc (.atom (.str b))) → Gives U E (some m) text (if decide (a <+: b) then .true else .false) := by
  intro h
  obtain ⟨l, hl, hP⟩ := (text_pair_decisions hU hx hxc hy hyc hxy hm fun a b => decide (a <+: b)).mp h
  have h1 : ∀ s : Str, '"' ∈ s → s ∉ l := fun s hq hs => ((hl s hs).2 '"' hq).2.2 rfl
  have apart : ∀ u v : Str, '"' ∈ u → '"' ∈ v → ∀ s ∈ l, u = s ↔ v = s := fun u v hu hv s hs =>
    ⟨fun e => absurd (e ▸ hs) (h1 u hu), fun e => absurd (e ▸ hs) (h1 v hv)⟩
  have := decide_eq_decide.mp (hP ['"'] ['"', '"'] ['"'] ['a', '"'] (apart _ _ (by simp) (by simp)) (apart _ _ (by simp) (by simp)) (by decide))
  revert this
  decide

/-! ### Concrete cases -/

/-- Being equal, or the first being admin. -/
example : ∃ text p, PolicyOf asciiUni text p ∧ ∀ E, SymEnv.SetsOk E → ∀ a b : Str,
    attsOf asciiUni E .usrAtt "a".toList = some (.string, .sc (.atom (.str a))) →
    attsOf asciiUni E .usrAtt "aa".toList = some (.string, .sc (.atom (.str b))) →
    Gives asciiUni E (some 3) text (if decide (a = b ∨ a = "admin".toList) then .true else .false) := by
  have hn := names_exist asciiUni_lawful
  refine text_pairs_writable asciiUni_lawful (hn.some 0) (hn.chars 0) (hn.some 1) (hn.chars 1) (by decide) (l := ["admin".toList]) ?_
    (P := fun a b => decide (a = b ∨ a = "admin".toList)) fun a b a' b' h1 h2 h3 => decide_eq_decide.mpr ?_
  · unfold StrChar
    decide
  · rw [h3, h1 _ (by simp)]

end Verif.Props
