import Verif.Props.Relevant

/-!
# Decisions without attributes (C158)

What policies that mention each attribute once give if all their attributes are missing, or one of them.
-/

namespace Verif.Props

open Verif.Spec Proofs

/-- The table without the symbol of this full name. -/
def without (E : SymEnv) (key : Str) : SymEnv := ⟨⟨E.tab.entries.filter fun e => e.1 ≠ key⟩, E.heap⟩

theorem without_lookup (U : Uni) (E : SymEnv) (key name : Str) :
    (without E key).tab.lookup U name = if U.lower name = key then none else E.tab.lookup U name := by
  unfold SymTab.lookup SymTab.get without
  dsimp only
  rw [List.find?_filter]
  split
  · rename_i h
    rw [Option.map_eq_none_iff, List.find?_eq_none]
    intro e _
    simp [h]
  · rename_i h
    congr 2
    funext e
    by_cases he : e.1 = U.lower name
    · simp [he, h]
    · simp [he]

theorem without_atts (U : Uni) (E : SymEnv) (key : Str) (ty : TokenType) (n : Str) :
    attsOf U (without E key) ty n = if U.lower (fullPrefix (some ty) ++ n) = key then none else attsOf U E ty n := by
  unfold attsOf
  rw [without_lookup, prefix_eq]
  split <;> rfl

theorem nothing_sets : SymEnv.SetsOk nothingEnv := fun _ _ h => by cases h

theorem nothing_missing (U : Uni) (ty : TokenType) (n : Str) : attsOf U nothingEnv ty n = none := rfl

theorem noConstants_atts (p : Policy) (h : p.NoConstants) (hs : p.OneSided) : ∃ t, t ∈ p.atts := by
  induction p with
  | cmp l o r =>
    cases l with
    | att t => exact ⟨t, by simp [Policy.atts, Operand.atts]⟩
    | atom t =>
      cases r with
      | att t => exact ⟨t, by simp [Policy.atts, Operand.atts]⟩
      | atom t => exact absurd hs id
      | set s l => exact absurd hs id
    | set s l =>
      cases r with
      | att t => exact ⟨t, by simp [Policy.atts, Operand.atts]⟩
      | atom t => exact absurd hs id
      | set s l => exact absurd hs id
  | lit t => exact absurd h id
  | att t => exact ⟨t, by simp [Policy.atts]⟩
  | not n p ih => exact ih h hs
  | bin o p q ih _ =>
    obtain ⟨t, ht⟩ := ih h.1 hs.1
    exact ⟨t, List.mem_append_left _ ht⟩

/-- **C158**: a policy whose attributes are all missing gives TRUE, or FALSE, exactly if all tables that keep the promises give it. -/
theorem constant_iff {U : Uni} (hU : U.Lawful) {E : SymEnv} (hE : SymEnv.SetsOk E) {text : Str} {p : Policy} (hp : PolicyOf U text p)
    {Γ : Promises} (ht : PromiseTyped U Γ p) (hs : p.OneSided) (hr : ReadOnce U p)
    (hn : ∀ t ∈ p.atts, attsOf U E t.type (attName t) = none) {m : Int} (hm : 2 < m) (v : Bool) :
    Gives U E (some m) text (triOf v) ↔
      ∀ F, SymEnv.SetsOk F → KeptBy U Γ (attsOf U F) p.atts → Gives U F (some m) text (triOf v) := by
  obtain ⟨hl, -⟩ := typed_noLit ht
  have h0 : Gives U E (some m) text (triOf v) ↔ Gives U nothingEnv (some m) text (triOf v) := by
    rw [gives_sem hU hE hm hp hl, gives_sem hU nothing_sets hm hp hl, sem_atts (B := attsOf U nothingEnv) p fun t ht => hn t ht]
  rw [h0, certain_iff hU nothing_sets hp ht hs hr (fun t _ => .inl rfl) hm v]
  exact ⟨fun h F hF hk => h F hF (fun _ _ h => by cases h) hk, fun h F hF _ hk => h F hF hk⟩

/-- **C158**: without boolean constants it gives UNDEF then. -/
theorem nothing_known {U : Uni} (hU : U.Lawful) {Γ : Promises} {text : Str} {p : Policy} (h : Relevant U Γ text p)
    {E : SymEnv} (hE : SymEnv.SetsOk E) (hn : ∀ t ∈ p.atts, attsOf U E t.type (attName t) = none) {m : Int} (hm : 2 < m) :
    Gives U E (some m) text .undef := by
  obtain ⟨hl, -⟩ := typed_noLit h.typed
  obtain ⟨w, hw⟩ := has_value hU hE h.parsed h.typed h.oneSided h.once (fun t ht => .inl (hn t ht)) hm
  obtain ⟨t, ht⟩ := noConstants_atts p h.noConstants h.oneSided
  obtain ⟨F, G, hF, hG, kF, kG, -, gF, gG⟩ := every_attribute_matters hU h ht p hm
  have kF := fun u hu => kF u (List.mem_append_left _ hu)
  have kG := fun u hu => kG u (List.mem_append_left _ hu)
  cases w with
  | undef => exact hw
  | true =>
    have := (constant_iff hU hE h.parsed h.typed h.oneSided h.once hn hm true).mp hw G hG kG
    rw [gives_sem hU hG hm h.parsed hl] at this gG
    rw [this] at gG
    cases gG
  | false =>
    have := (constant_iff hU hE h.parsed h.typed h.oneSided h.once hn hm false).mp hw F hF kF
    rw [gives_sem hU hF hm h.parsed hl] at this gF
    rw [this] at gF
    cases gF

/-- **C158**: for each attribute there is a table that has all other attributes and keeps the promises about them, for which the
policy gives UNDEF, TRUE with one value of this attribute and FALSE with another. -/
theorem every_attribute_needed {U : Uni} (hU : U.Lawful) {Γ : Promises} {text : Str} {p : Policy} (h : Relevant U Γ text p)
    {t : Token} (ht : t ∈ p.atts) {m : Int} (hm : 2 < m) :
    ∃ E, SymEnv.SetsOk E ∧ attsOf U E t.type (attName t) = none ∧
      (∀ u ∈ p.atts, attKey U u ≠ attKey U t → (Γ (attKey U u)).Kept (attsOf U E u.type (attName u))) ∧
      Gives U E (some m) text .undef ∧
      ∀ v, ∃ F, SymEnv.SetsOk F ∧ KeptBy U Γ (attsOf U F) p.atts ∧ DifferOnly U (attKey U t) (attsOf U E) (attsOf U F) ∧
        Gives U F (some m) text (triOf v) := by
  obtain ⟨hl, hc⟩ := typed_noLit h.typed
  obtain ⟨F, G, hF, hG, kF, kG, hd, gF, gG⟩ := every_attribute_matters hU h ht p hm
  have kF : KeptBy U Γ (attsOf U F) p.atts := fun u hu => kF u (List.mem_append_left _ hu)
  have kG : KeptBy U Γ (attsOf U G) p.atts := fun u hu => kG u (List.mem_append_left _ hu)
  have hE : SymEnv.SetsOk (without F (attKey U t)) := fun r l h => hF r l h
  have hmiss : attsOf U (without F (attKey U t)) t.type (attName t) = none := by rw [without_atts]; exact if_pos rfl
  have hkept : ∀ u ∈ p.atts, attKey U u ≠ attKey U t →
      (Γ (attKey U u)).Kept (attsOf U (without F (attKey U t)) u.type (attName u)) := by
    intro u hu hne
    rw [without_atts, if_neg (show ¬ U.lower (fullPrefix (some u.type) ++ attName u) = attKey U t from hne)]
    exact kF u hu
  have dF : DifferOnly U (attKey U t) (attsOf U (without F (attKey U t))) (attsOf U F) := fun ty n hne => by
    rw [without_atts, if_neg hne]
  have dG : DifferOnly U (attKey U t) (attsOf U (without F (attKey U t))) (attsOf U G) := fun ty n hne =>
    (dF ty n hne).trans (hd ty n hne)
  have ext : ∀ {K : SymEnv}, DifferOnly U (attKey U t) (attsOf U (without F (attKey U t))) (attsOf U K) →
      Extends (attsOf U (without F (attKey U t))) (attsOf U K) := by
    intro K hK ty n
    by_cases hk : U.lower (fullPrefix (some ty) ++ n) = attKey U t
    · exact .inl (by rw [without_atts, if_pos hk])
    · exact .inr (hK ty n hk)
  refine ⟨without F (attKey U t), hE, hmiss, hkept, ?_, ?_⟩
  · obtain ⟨w, hw⟩ := has_value hU hE h.parsed h.typed h.oneSided h.once (fun u hu => by
      by_cases hk : attKey U u = attKey U t
      · exact .inl (by rw [without_atts]; exact if_pos hk)
      · exact .inr (hkept u hu hk)) hm
    have hs := (gives_sem hU hE hm h.parsed hl w).mp hw
    have sF := (gives_sem hU hF hm h.parsed hl _).mp gF
    have sG := (gives_sem hU hG hm h.parsed hl _).mp gG
    rcases sem_mono (ext dF) p hs sF with e | e
    · cases e; exact hw
    · rcases sem_mono (ext dG) p hs sG with e' | e'
      · cases e'; exact hw
      · rw [e] at e'; cases e'
  · intro v
    cases v with
    | true => exact ⟨F, hF, kF, dF, gF⟩
    | false => exact ⟨G, hG, kG, dG, gG⟩

/-! ### Concrete cases -/

/-- `user.a = 1 AND user.b` gives UNDEF without attributes. -/
example : Gives asciiUni nothingEnv (some 3) "user.a = 1 AND user.b".toList .undef :=
  nothing_known asciiUni_lawful typedPlain_relevant nothing_sets (fun _ _ => rfl) (by decide)

/-- With all attributes but `user.b` it may do so, too. -/
example : ∃ E, SymEnv.SetsOk E ∧ attsOf asciiUni E .usrAtt "b".toList = none ∧ attsOf asciiUni E .usrAtt "a".toList ≠ none ∧
    Gives asciiUni E (some 3) "user.a = 1 AND user.b".toList .undef := by
  obtain ⟨E, h1, h2, h3, h4, -⟩ := every_attribute_needed asciiUni_lawful typedPlain_relevant (t := typedAtt 15 "b") (by decide)
    (m := 3) (by decide)
  refine ⟨E, h1, h2, fun hn => ?_, h4⟩
  have := h3 (typedAtt 0 "a") (by decide) (by decide)
  rw [show attsOf asciiUni E (typedAtt 0 "a").type (attName (typedAtt 0 "a")) = none from hn] at this
  rw [show inferred asciiUni typedPlain (attKey asciiUni (typedAtt 0 "a")) = .number from by decide +kernel] at this
  obtain ⟨_, _, this, _⟩ := this
  cases this

/-- Constants can decide without attributes: `TRUE OR user.a`. -/
example : ((evaluateText asciiUni nothingEnv (some 3) 0 "TRUE OR user.a".toList).map fun x => x.2) = .ok (.ok (.tri .true)) := by
  decide +kernel

end Verif.Props
