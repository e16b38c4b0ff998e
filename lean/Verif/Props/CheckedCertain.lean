import Verif.Props.Needed

/-!
# Policies the type checker passes, with attributes missing (C159)

C156 to C158 are about promises that make a policy well typed. For plain policies (C145) that mention each attribute once, what the type
checker infers are such promises if it has nothing to report, and there are none otherwise.
-/

namespace Verif.Props

open Verif.Spec Proofs

section
variable {U : Uni} (hU : U.Lawful) (h : Heap) (r k : Nat) (level : Option Int) {text : Str} {p : Policy}
  (hp : PolicyOf U text p) (hf : FoldsAll U p) (hpl : p.Plain U) (hpass : Passes U h r k level text)
  (hs : p.OneSided) (hr : ReadOnce U p) {m : Int} (hm : 2 < m)
include hU h r k level hp hf hpl hpass

theorem passed_typed : PromiseTyped U (inferred U p) p :=
  silent_inferred hp hpl ((passes_iff hU h r k level hp hf).mp hpass)

include hs hr hm

/-- **C159**: a policy that passes gives a truth value if its attributes are missing or hold what was inferred. It gives TRUE, or
FALSE, exactly if it does so however the missing attributes are added with values of the inferred kinds. -/
theorem passed_certain {E : SymEnv} (hE : SymEnv.SetsOk E) (hk : KeptOrMissing U (inferred U p) (attsOf U E) p.atts) :
    (∃ w, Gives U E (some m) text w) ∧
    (∀ v, Gives U E (some m) text (triOf v) ↔ ∀ F, SymEnv.SetsOk F → Completes U E F →
      KeptBy U (inferred U p) (attsOf U F) p.atts → Gives U F (some m) text (triOf v)) ∧
    (Gives U E (some m) text .undef ↔ ∀ v, ∃ F, SymEnv.SetsOk F ∧ Completes U E F ∧
      KeptBy U (inferred U p) (attsOf U F) p.atts ∧ Gives U F (some m) text (triOf v)) :=
  have ht := passed_typed hU h r k level hp hf hpl hpass
  ⟨has_value hU hE hp ht hs hr hk hm, certain_iff hU hE hp ht hs hr hk hm, undecided_iff hU hE hp ht hs hr hk hm⟩

/-- **C159**: without boolean constants each attribute of a policy that passes matters, and may be needed. -/
theorem passed_matters (hc : p.NoConstants) {t : Token} (ht : t ∈ p.atts) :
    ∃ E, SymEnv.SetsOk E ∧ attsOf U E t.type (attName t) = none ∧
      (∀ u ∈ p.atts, attKey U u ≠ attKey U t → (inferred U p (attKey U u)).Kept (attsOf U E u.type (attName u))) ∧
      Gives U E (some m) text .undef ∧
      ∀ v, ∃ F, SymEnv.SetsOk F ∧ KeptBy U (inferred U p) (attsOf U F) p.atts ∧
        DifferOnly U (attKey U t) (attsOf U E) (attsOf U F) ∧ Gives U F (some m) text (triOf v) :=
  every_attribute_needed hU ⟨hp, passed_typed hU h r k level hp hf hpl hpass, hs, hr, hc⟩ ht hm

end

/-- **C159**: for a plain policy that does not pass, whatever is promised, there is a table that keeps the promises for which it does
not decide. -/
theorem failed_open {U : Uni} (hU : U.Lawful) (h : Heap) (r k : Nat) (level : Option Int) {text : Str} {p : Policy}
    (hp : PolicyOf U text p) (hf : FoldsAll U p) (hpl : p.Plain U) (hfail : ¬ Passes U h r k level text) (Γ : Promises) :
    ∃ E, SymEnv.SetsOk E ∧ KeptBy U Γ (attsOf U E) p.atts ∧ ∀ level' k', ¬ Decides U E level' k' text := by
  have hn : ¬ PromiseTyped U Γ p := fun ht => hfail ((plain_passes hU h r k level hp hf hpl).mpr ⟨Γ, ht⟩)
  obtain ⟨h1, h2, h3⟩ := promiseEnv_ok U Γ p
  exact ⟨_, h1, h2, fun level' k' => untyped_fails hU hp hn h1 h2 h3 level' k'⟩

/-! ### Concrete cases -/

theorem typedPlain_plain : typedPlain.Plain asciiUni := by
  refine ⟨fun t h => (by cases h), fun c hc => ?_, fun t ht => (by cases ht), ?_⟩
  · cases List.mem_singleton.mp hc
    exact ⟨.inr (by decide), trivial, (by show constOf _ ≠ none; decide), fun _ => (by decide), fun h => (by cases h)⟩
  · intro t ht c hc u hu
    cases List.mem_singleton.mp ht
    cases List.mem_singleton.mp hc
    cases List.mem_singleton.mp hu
    decide +kernel

/-- `user.a = 1 AND user.b` passes, and may need `user.b`. -/
example : ∃ E, attsOf asciiUni E .usrAtt "b".toList = none ∧ Gives asciiUni E (some 3) "user.a = 1 AND user.b".toList .undef := by
  have hf : FoldsAll asciiUni typedPlain := by
    unfold FoldsAll Folds
    decide +kernel
  have hpass : Passes asciiUni (fun _ => ⟨.unknown, .unkAtt, .sc .none, [], []⟩) 0 0 (some 4) "user.a = 1 AND user.b".toList :=
    (passes_iff asciiUni_lawful _ _ _ _ typedPlain_of hf).mpr (by decide +kernel)
  obtain ⟨E, -, h2, -, h4, -⟩ := passed_matters asciiUni_lawful _ _ _ _ typedPlain_of hf typedPlain_plain hpass
    typedPlain_relevant.oneSided typedPlain_relevant.once (m := 3) (by decide) typedPlain_relevant.noConstants
    (t := typedAtt 15 "b") (by decide)
  exact ⟨E, h2, h4⟩

end Verif.Props
