import Verif.Proofs.CaseVariant
import Verif.Props.Evaluation
/-!
# C25: letter case of attribute names
-/

namespace Verif.Props
open Verif Verif.Spec Verif.Proofs

theorem attsOf_blind (U : Uni) (hU : U.Lawful) (E : SymEnv) : BlindAtts (attsOf U E) := by
  intro ty s t h
  have : U.lower (attTypePrefix (some ty) ++ s) = U.lower (attTypePrefix (some ty) ++ t) :=
    hU.lower_case _ _ (by rw [List.map_append, List.map_append, h])
  simp only [attsOf, SymTab.lookup, this]

/-- C25, policies: two texts that differ only in the case of ASCII letters outside string literals are both rejected or
both accepted; evaluation then records the same warnings and returns results that show the same or raises the
same. -/
theorem policy_case_partial (U : Uni) (hU : U.Lawful) (E : SymEnv) (hE : SymEnv.SetsOk E) (level : Option Int)
    (k : Nat) (text text' : Str) (hc : CaseEq false text text') :
    ((∃ e, evaluateText U E level k text = .error e) ∧ ∃ e, evaluateText U E level k text' = .error e) ∨
    ∃ s r s' r', evaluateText U E level k text = .ok (s, r) ∧ evaluateText U E level k text' = .ok (s', r') ∧
      s.warnings = s'.warnings ∧ r.map (resultDen E) = r'.map (resultDen E) := by
  by_cases h : ∃ p, PolicyOf U text p
  · obtain ⟨p, hp⟩ := h
    obtain ⟨q, hq, hpq⟩ := policyOf_case hU hp hc
    obtain ⟨s, r, h1, h2, h3⟩ := (evaluate_refines U hU E hE level k text).2 p hp
    obtain ⟨s', r', h1', h2', h3'⟩ := (evaluate_refines U hU E hE level k text').2 q hq
    have := semPolicy_case (U := U) (attsOf_blind U hU E) hpq
    refine Or.inr ⟨s, r, s', r', h1, h1', ?_, ?_⟩
    · rw [h2, h2', this]
    · rw [h3, h3', this]
  · left
    refine ⟨(evaluate_refines U hU E hE level k text).1.2 h, (evaluate_refines U hU E hE level k text').1.2 ?_⟩
    rintro ⟨q, hq⟩
    obtain ⟨p, hp, _⟩ := policyOf_case hU hq (caseEq_symm hc)
    exact h ⟨p, hp⟩

/-- Dictionaries that differ only in the case of ASCII letters in their keys. -/
abbrev CaseDict (d d' : Dict PyVal) : Prop :=
  List.Forall₂ (fun a b => a.1.map asciiLower = b.1.map asciiLower ∧ a.2 = b.2) d d'

theorem symbol_case (U : Uni) (hU : U.Lawful) (s t : Str) (h : s.map asciiLower = t.map asciiLower)
    (ty : Option TokenType) (st : Option SymType) (v : PyVal) :
    Symbol.new U s ty st v = Symbol.new U t ty st v := by
  simp only [Symbol.new, hU.lower_case s t h]

theorem classSymbols_case (U : Uni) (hU : U.Lawful) (b b' : Builder) (ht : b.types = b'.types) (ty : TokenType)
    (d d' : Dict PyVal) (h : CaseDict d d') : b.classSymbols U ty d = b'.classSymbols U ty d' := by
  unfold Builder.classSymbols
  induction h with
  | nil => rfl
  | cons h _ ih =>
    rw [List.map_cons, List.map_cons, ih, ht, h.2]
    simp only [symbol_case U hU _ _ h.1]

/-- C25, tables: names that differ only in the case of ASCII letters give the same symbols, hence dictionaries that do
give the same table, and evaluation with it is the same. -/
theorem table_case_partial (U : Uni) (hU : U.Lawful) (b b' : Builder) (ht : b.types = b'.types)
    (hu : CaseDict b.user b'.user) (ho : CaseDict b.object b'.object) (he : CaseDict b.env b'.env)
    (ha : CaseDict b.admin b'.admin) (hc : CaseDict b.connect b'.connect) (h : Heap) (r : Nat) :
    b.build U h r = b'.build U h r := by
  unfold Builder.build Builder.symbols
  rw [classSymbols_case U hU b b' ht _ _ _ hu, classSymbols_case U hU b b' ht _ _ _ ho,
    classSymbols_case U hU b b' ht _ _ _ he, classSymbols_case U hU b b' ht _ _ _ ha,
    classSymbols_case U hU b b' ht _ _ _ hc]

/-! ### The general claim is false -/

/-- Lower-casing with the final sigma rule for words of ASCII letters, dots and capital sigmas: `Σ` becomes `ς` at the end
of a text after a letter and `σ` elsewhere. -/
def greekLower : Bool → Str → Str
  | _, [] => []
  | seen, c :: s =>
    (if c = 'Σ' then (if seen = true ∧ s = [] then 'ς' else 'σ') else asciiLower c) ::
      greekLower (seen || asciiAlpha c || c == 'Σ') s

/-- Tables that know sigmas. -/
def greekUni : Uni :=
  { asciiUni with
    isAlpha := fun c => asciiUni.isAlpha c || c == 'Σ' || c == 'σ' || c == 'ς'
    lower := greekLower false }

theorem greekLower_ascii (s : Str) (h : s.all isAscii = true) (b : Bool) : greekLower b s = s.map asciiLower := by
  induction s generalizing b with
  | nil => rfl
  | cons c s ih =>
    simp only [List.all_cons, Bool.and_eq_true] at h
    have hc : c ≠ 'Σ' := by rintro rfl; exact absurd h.1 (by decide)
    rw [greekLower, if_neg hc, ih h.2, List.map_cons]

theorem ascii_greekLower (s : Str) (b : Bool) (h : (greekLower b s).all isAscii = true) :
    s.all isAscii = true := by
  induction s generalizing b with
  | nil => rfl
  | cons c s ih =>
    rw [greekLower, List.all_cons, Bool.and_eq_true] at h
    rw [List.all_cons, Bool.and_eq_true]
    refine ⟨?_, ih _ h.2⟩
    by_cases hc : c = 'Σ'
    · rw [if_pos hc] at h
      split at h <;> exact absurd h.1 (by decide)
    · rw [if_neg hc] at h
      exact isAscii_of_lower c h.1

theorem greekLower_case (s t : Str) (h : s.map asciiLower = t.map asciiLower) (b : Bool) :
    greekLower b s = greekLower b t := by
  induction s generalizing t b with
  | nil =>
    cases t with
    | nil => rfl
    | cons d t => simp at h
  | cons c s ih =>
    cases t with
    | nil => simp at h
    | cons d t =>
      simp only [List.map_cons, List.cons.injEq] at h
      have hn : (s = []) ↔ (t = []) := by
        constructor
        · rintro rfl; simpa using h.2.symm
        · rintro rfl; simpa using h.2
      rw [greekLower, greekLower]
      rcases lower_cases h.1 with rfl | ⟨h1, h2, h3, h4⟩
      · rw [ih t h.2]
        simp only [hn]
      · have hc : c ≠ 'Σ' := by rintro rfl; exact absurd h1 (by decide)
        have hd : d ≠ 'Σ' := by rintro rfl; exact absurd h3 (by decide)
        rw [if_neg hc, if_neg hd, h.1, ih t h.2, h2, h4]
        simp

theorem greekLower_prefix (p s : Str) (h : p.all isAscii = true) (b : Bool) :
    ∃ s', greekLower b (p ++ s) = p.map asciiLower ++ s' := by
  induction p generalizing b with
  | nil => exact ⟨_, rfl⟩
  | cons c p ih =>
    simp only [List.all_cons, Bool.and_eq_true] at h
    have hc : c ≠ 'Σ' := by rintro rfl; exact absurd h.1 (by decide)
    obtain ⟨s', hs⟩ := ih h.2 (b || asciiAlpha c || c == 'Σ')
    exact ⟨s', by rw [List.cons_append, greekLower, if_neg hc, hs]; rfl⟩

theorem greekUni_lawful : greekUni.Lawful where
  space_ascii := asciiUni_lawful.space_ascii
  digit_ascii := asciiUni_lawful.digit_ascii
  alpha_ascii c h := by
    have h1 : c ≠ 'Σ' := by rintro rfl; exact absurd h (by decide)
    have h2 : c ≠ 'σ' := by rintro rfl; exact absurd h (by decide)
    have h3 : c ≠ 'ς' := by rintro rfl; exact absurd h (by decide)
    simp only [greekUni]
    rw [asciiUni_lawful.alpha_ascii c h]
    rw [beq_eq_false_iff_ne.2 h1, beq_eq_false_iff_ne.2 h2, beq_eq_false_iff_ne.2 h3]; simp
  digit_not_space := asciiUni_lawful.digit_not_space
  alpha_not_space c h := by
    simp only [greekUni, Bool.or_eq_true, beq_iff_eq] at h ⊢
    rcases h with ((h | rfl) | rfl) | rfl
    · exact asciiUni_lawful.alpha_not_space c h
    · decide
    · decide
    · decide
  digit_not_alpha c h := by
    have h0 : isAscii c = true := by
      have h' : (isAscii c && asciiDigit c) = true := h
      simp only [Bool.and_eq_true] at h'
      exact h'.1
    have h1 : c ≠ 'Σ' := by rintro rfl; exact absurd h0 (by decide)
    have h2 : c ≠ 'σ' := by rintro rfl; exact absurd h0 (by decide)
    have h3 : c ≠ 'ς' := by rintro rfl; exact absurd h0 (by decide)
    have h4 : asciiUni.isAlpha c = false := asciiUni_lawful.digit_not_alpha c h
    simp only [greekUni]
    rw [h4, beq_eq_false_iff_ne.2 h1, beq_eq_false_iff_ne.2 h2, beq_eq_false_iff_ne.2 h3]; rfl
  lower_ascii s h := greekLower_ascii s h false
  upper_ascii := asciiUni_lawful.upper_ascii
  reserved_ascii s h := ascii_greekLower s false (reserved_all_ascii _ h)
  lower_case s t h := greekLower_case s t h false
  lower_prefix p s h := greekLower_prefix p s h false
  digitVal_ascii := asciiUni_lawful.digitVal_ascii
  digitVal_none := asciiUni_lawful.digitVal_none

/-- The outcome of a text on the table a builder makes. -/
def builtOutcome (U : Uni) (b : Builder) (text : String) : Option (Except PyExc Res) :=
  let (h, t) := b.build U (fun _ => Symbol.new U [] none none (.sc .none)) 0
  match evaluateText U ⟨t, h⟩ (some 3) 0 text.toList with
  | .ok (_, r) => some r
  | .error _ => none

/-- C25 is false beyond ASCII: the attribute named `Σ` in the dictionary is found under `user.σ` in a policy but not under
`user.Σ`, the spelling used to define it, because the final sigma rule sees the class name in one
place and not in the other. -/
theorem sigma_lost : greekUni.Lawful ∧
    (let b : Builder := { types := [("user.σ".toList, .int)], user := [("Σ".toList, .sc (.atom (.int 1)))] }
     builtOutcome greekUni b "user.σ = 1" = some (.ok (.tri .true)) ∧
     builtOutcome greekUni b "user.Σ = 1" = some (.ok (.tri .undef))) :=
  ⟨greekUni_lawful, by decide +kernel⟩

/-- C25 is false for the declared types: a type declared with a capital letter in the name is not found. -/
theorem type_case_lost :
    (let b : Builder := { types := [("user.age".toList, .int)], user := [("Age".toList, .sc (.atom (.int 1)))] }
     let b' : Builder := { b with types := [("user.Age".toList, .int)] }
     builtOutcome asciiUni b "user.Age = 1" = some (.ok (.tri .true)) ∧
     builtOutcome asciiUni b' "user.Age = 1" = some (.ok (.tri .undef))) := by
  decide +kernel

/-! ### Concrete cases -/

example : CaseEq false "user.Age >= 18 And User.dept In {\"CS\", NULL}".toList
    "USER.aGE >= 18 AND uSER.DEPT in {\"CS\", null}".toList := by decide

example : ¬ CaseEq false "user.dept = \"CS\"".toList "user.dept = \"cs\"".toList := by decide

example : CaseDict [("Age".toList, .sc (.atom (.int 1)))] [("aGE".toList, .sc (.atom (.int 1)))] :=
  .cons ⟨by decide, rfl⟩ .nil

/-- Case inside string literals does matter. -/
example :
    (let b : Builder := { types := [("user.dept".toList, .string)],
                          user := [("Dept".toList, .sc (.atom (.str "CS".toList)))] }
     builtOutcome asciiUni b "User.DEPT = \"CS\"" = some (.ok (.tri .true)) ∧
     builtOutcome asciiUni b "User.DEPT = \"cs\"" = some (.ok (.tri .false))) := by
  decide +kernel

end Verif.Props
