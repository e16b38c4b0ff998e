import Verif.Spec.Expressive
import Verif.Props.Relevant
import Verif.Props.Laws

/-!
# Which decisions can be written as policies (C162)

A table of decisions for truth values of attributes can be written as a policy exactly if no decision in it is taken back when more becomes
known.
-/

namespace Verif.Props

open Verif.Spec Proofs

/-! ### Templates -/

/-- Truth values of the places: TRUE, UNDEF, and then the attributes. -/
def placed (ρ : Nat → Tri) : Nat → Tri
  | 0 => .true
  | 1 => .undef
  | i + 2 => ρ i

/-- The function with one argument fixed. -/
def fixAt (f : (Nat → Tri) → Tri) (n : Nat) (v : Tri) (ρ : Nat → Tri) : Tri := f fun i => if i = n then v else ρ i

theorem fixAt_steady {n : Nat} {f : (Nat → Tri) → Tri} (h : Steady (n + 1) f) (v : Tri) : Steady n (fixAt f n v) := by
  intro ρ σ hρ
  refine h _ _ fun i hi => ?_
  by_cases hn : i = n
  · simp only [if_pos hn]
    exact .inr rfl
  · simp only [if_neg hn]
    exact hρ i (by omega)

theorem steady_local {n : Nat} {f : (Nat → Tri) → Tri} (h : Steady n f) {ρ σ : Nat → Tri} (he : ∀ i < n, ρ i = σ i) : f ρ = f σ := by
  rcases h ρ σ fun i hi => .inr (he i hi) with h1 | h1
  · rcases h σ ρ fun i hi => .inr (he i hi).symm with h2 | h2
    · rw [h1, h2]
    · exact h2.symm
  · exact h1

/-- The decision by cases, written with the connectives. -/
theorem case_rank (x : Tri) {a b c : Tri} (h1 : InfoLe c a) (h2 : InfoLe c b) :
    max (max (min (rank x) (rank a)) (min (2 - rank x) (rank b)))
      (max (min (rank c) (min (rank a) (rank b))) (min (rank c) (min (rank x) (2 - rank x)))) =
    rank (match x with | .true => a | .false => b | .undef => c) := by
  revert h1 h2
  cases x <;> cases a <;> cases b <;> cases c <;> simp [InfoLe, rank]

/-- Every steady function is that of a template. -/
theorem template_exists (n : Nat) {f : (Nat → Tri) → Tri} (h : Steady n f) :
    ∃ g : Template, (∀ i ∈ g.places, i < n + 2) ∧ ∀ ρ, g.truth (placed ρ) = rank (f ρ) := by
  induction n generalizing f with
  | zero =>
    have hc : ∀ ρ, f ρ = f fun _ => .undef := fun ρ => steady_local h fun i hi => absurd hi (Nat.not_lt_zero i)
    cases hv : f fun _ => .undef with
    | true => exact ⟨.place 0, by simp [Template.places], fun ρ => by rw [hc, hv]; rfl⟩
    | false => exact ⟨.neg (.place 0), by simp [Template.places], fun ρ => by rw [hc, hv]; rfl⟩
    | undef => exact ⟨.place 1, by simp [Template.places], fun ρ => by rw [hc, hv]; rfl⟩
  | succ n ih =>
    obtain ⟨t, pt, ht⟩ := ih (fixAt_steady h .true)
    obtain ⟨e, pe, he⟩ := ih (fixAt_steady h .false)
    obtain ⟨u, pu, hu⟩ := ih (fixAt_steady h .undef)
    refine ⟨.disj (.disj (.conj (.place (n + 2)) t) (.conj (.neg (.place (n + 2))) e))
      (.disj (.conj u (.conj t e)) (.conj u (.conj (.place (n + 2)) (.neg (.place (n + 2)))))), ?_, fun ρ => ?_⟩
    · intro i hi
      simp only [Template.places, List.mem_append, List.mem_singleton] at hi
      have h1 := pt i
      have h2 := pe i
      have h3 := pu i
      have h4 : i ∈ t.places ∨ i ∈ e.places ∨ i ∈ u.places ∨ i = n + 2 := by tauto
      rcases h4 with h4 | h4 | h4 | h4
      · exact Nat.lt_succ_of_lt (h1 h4)
      · exact Nat.lt_succ_of_lt (h2 h4)
      · exact Nat.lt_succ_of_lt (h3 h4)
      · omega
    · have hself : ∀ v, ρ n = v → f ρ = fixAt f n v ρ := fun v hv => steady_local h fun i _ => by
        by_cases hi : i = n
        · rw [if_pos hi, hi, hv]
        · rw [if_neg hi]
      have h1 : InfoLe (fixAt f n .undef ρ) (fixAt f n .true ρ) := h _ _ fun i _ => by
        by_cases hi : i = n
        · rw [if_pos hi]; exact .inl rfl
        · rw [if_neg hi, if_neg hi]; exact .inr rfl
      have h2 : InfoLe (fixAt f n .undef ρ) (fixAt f n .false ρ) := h _ _ fun i _ => by
        by_cases hi : i = n
        · rw [if_pos hi]; exact .inl rfl
        · rw [if_neg hi, if_neg hi]; exact .inr rfl
      simp only [Template.truth, ht, he, hu]
      rw [hself _ rfl]
      show max (max (min (rank (ρ n)) _) (min (2 - rank (ρ n)) _)) (max _ (min _ (min (rank (ρ n)) (2 - rank (ρ n))))) = _
      rw [case_rank _ h1 h2]
      cases hv : ρ n <;> rfl

/-! ### Texts -/

/-- `NULL > NULL` is UNDEF. -/
def undefPolicy : Policy := .cmp (.atom ⟨.null, 0, .str "NULL".toList⟩) ⟨.op, 0, .str ">".toList⟩ (.atom ⟨.null, 0, .str "NULL".toList⟩)

theorem reads_undef {U : Uni} (hU : U.Lawful) : Reads U "NULL > NULL".toList undefPolicy := by
  refine ⟨_, ?_, .term (.exp (.cmp (ts := [⟨.null, 0, .str "NULL".toList⟩]) (us := [⟨.null, 0, .str "NULL".toList⟩]) (.atom (by decide)) rfl
    (.atom (by decide))))⟩
  show Toks U ("NULL".toList ++ (' ' :: (['>'] ++ (' ' :: ("NULL".toList ++ []))))) _
  exact toks_cons (lex_word hU _ (kw := "null") (v := "NULL") (by decide) (by unfold Spells; decide) _ (Or.inr rfl))
    (toks_space hU (toks_cons (.gt _ (by simp)) (toks_space hU
      (toks_cons (lex_word hU _ (kw := "null") (v := "NULL") (by decide) (by unfold Spells; decide) [] (Or.inl rfl)) (toks_nil U)))))

theorem reads_user {U : Uni} {name : Nat → Str} (hn : UserNames U name) (i : Nat) :
    Reads U ("user.".toList ++ name i) (.att ⟨.usrAtt, 0, .str (name i)⟩) := by
  refine ⟨_, ?_, .term (.exp (.att (Or.inl rfl)))⟩
  have := toks_cons (U := U) (w := "user".toList ++ '.' :: name i) (b := [])
    (.att "user".toList (name i) "user" .usrAtt _ (by decide) (by unfold Spells; decide) (hn.some i) (hn.chars i) (by simp)) (toks_nil U)
  rw [List.append_nil] at this
  exact this

/-- The texts in the places. -/
def placeText (name : Nat → Str) : Nat → Str
  | 0 => "TRUE".toList
  | 1 => "NULL > NULL".toList
  | i + 2 => "user.".toList ++ name i

/-- The policies in the places, up to positions. -/
def placePolicy (name : Nat → Str) : Nat → Policy
  | 0 => .lit ⟨.bool, 0, .str "TRUE".toList⟩
  | 1 => undefPolicy
  | i + 2 => .att ⟨.usrAtt, 0, .str (name i)⟩

theorem place_reads {U : Uni} (hU : U.Lawful) {name : Nat → Str} (hn : UserNames U name) : ∀ i, Reads U (placeText name i) (placePolicy name i)
  | 0 => reads_true hU
  | 1 => reads_undef hU
  | i + 2 => reads_user hn i

theorem value_of {U : Uni} {A : Atts} {m : Int} (hm : 2 < m) {p : Policy} {t : Tri} (h : (sem U A p).2 = .ok (.truth t)) :
    Value U A (some m) p t := by
  rcases hx : sem U A p with ⟨w, o⟩
  rw [hx] at h
  cases h
  exact ⟨_, by rw [hx]; rfl, .inr ⟨m, rfl, hm⟩⟩

theorem place_value {U : Uni} (hU : U.Lawful) {name : Nat → Str} {n : Nat} {E : SymEnv} {ρ : Nat → Tri}
    (h : Holds U name n E ρ) {m : Int} (hm : 2 < m) : ∀ i < n + 2, Value U (attsOf U E) (some m) (placePolicy name i) (placed ρ i)
  | 0, _ => by
    refine value_of hm ?_
    have ht : litTri U ⟨.bool, 0, .str "TRUE".toList⟩ = .true := by
      simp only [litTri, hU.upper_ascii "TRUE".toList (by decide)]
      decide
    show (sem U _ (.lit ⟨.bool, 0, .str "TRUE".toList⟩)).2 = _
    rw [sem, if_pos ht]
    rfl
  | 1, _ => value_of hm rfl
  | i + 2, hi => by
    refine value_of hm ?_
    show (semAtt (attsOf U E) ⟨.usrAtt, 0, .str (name i)⟩).2 = .ok (.truth (ρ i))
    have hname : attName ⟨.usrAtt, 0, .str (name i)⟩ = name i := rfl
    unfold semAtt
    rw [hname]
    rcases h i (by omega) with h | ⟨h1, h⟩
    · rw [h]
      rfl
    · rw [h, h1]

/-! ### Symbol tables -/

/-- The table with the attributes that are TRUE or FALSE. -/
def tableOf (U : Uni) (name : Nat → Str) (n : Nat) (ρ : Nat → Tri) : SymEnv :=
  ⟨⟨((List.range n).filter fun i => ρ i ≠ .undef).map fun i => (U.lower ("user.".toList ++ name i), i)⟩,
    fun i => ⟨.bool, .usrAtt, .sc (.tri (ρ i)), [], []⟩⟩

theorem tableOf_sets (U : Uni) (name : Nat → Str) (n : Nat) (ρ : Nat → Tri) : SymEnv.SetsOk (tableOf U name n ρ) :=
  fun _ _ h => by cases h

theorem tableOf_some {U : Uni} {name : Nat → Str} {n : Nat} {ρ : Nat → Tri} {ty : TokenType} {x : Str} {v : SymType × PyVal}
    (h : attsOf U (tableOf U name n ρ) ty x = some v) :
    ∃ i < n, ρ i ≠ .undef ∧ U.lower ("user.".toList ++ name i) = U.lower (attTypePrefix (some ty) ++ x) ∧ v = (.bool, .sc (.tri (ρ i))) := by
  unfold attsOf SymTab.lookup SymTab.get at h
  rw [Option.map_map, Option.map_eq_some_iff] at h
  obtain ⟨e, he, rfl⟩ := h
  have hmem := List.mem_of_find?_eq_some he
  have hkey := List.find?_some he
  simp only [tableOf, List.mem_map, List.mem_filter, List.mem_range, decide_eq_true_eq] at hmem
  obtain ⟨i, ⟨hi, hu⟩, rfl⟩ := hmem
  exact ⟨i, hi, hu, by simpa using hkey, rfl⟩

theorem tableOf_has {U : Uni} {name : Nat → Str} (hn : UserNames U name) {n : Nat} {ρ : Nat → Tri} {ty : TokenType} {x : Str} {i : Nat}
    (hi : i < n) (hu : ρ i ≠ .undef) (hk : U.lower ("user.".toList ++ name i) = U.lower (attTypePrefix (some ty) ++ x)) :
    attsOf U (tableOf U name n ρ) ty x = some (.bool, .sc (.tri (ρ i))) := by
  cases h : attsOf U (tableOf U name n ρ) ty x with
  | some v =>
    obtain ⟨j, _, _, h3, rfl⟩ := tableOf_some h
    rw [hn.apart i j (hk.trans h3.symm)]
  | none =>
    unfold attsOf SymTab.lookup SymTab.get at h
    rw [Option.map_map, Option.map_eq_none_iff, List.find?_eq_none] at h
    refine absurd ?_ (h (U.lower ("user.".toList ++ name i), i) ?_)
    · simpa using hk
    · simp only [tableOf, List.mem_map, List.mem_filter, List.mem_range, decide_eq_true_eq]
      exact ⟨i, ⟨hi, hu⟩, rfl⟩

theorem tableOf_holds {U : Uni} {name : Nat → Str} (hn : UserNames U name) (n : Nat) (ρ : Nat → Tri) :
    Holds U name n (tableOf U name n ρ) ρ := by
  intro i hi
  by_cases hu : ρ i = .undef
  · refine .inr ⟨hu, ?_⟩
    cases h : attsOf U (tableOf U name n ρ) .usrAtt (name i) with
    | none => rfl
    | some v =>
      obtain ⟨j, _, h2, h3, _⟩ := tableOf_some h
      rw [hn.apart j i h3] at h2
      exact absurd hu h2
  · exact .inl (tableOf_has hn hi hu rfl)

theorem tableOf_extends {U : Uni} {name : Nat → Str} (hn : UserNames U name) {n : Nat} {ρ σ : Nat → Tri} (h : ∀ i < n, InfoLe (ρ i) (σ i)) :
    Extends (attsOf U (tableOf U name n ρ)) (attsOf U (tableOf U name n σ)) := by
  intro ty x
  cases hx : attsOf U (tableOf U name n ρ) ty x with
  | none => exact .inl rfl
  | some v =>
    obtain ⟨i, hi, h2, h3, rfl⟩ := tableOf_some hx
    rcases h i hi with h4 | h4
    · exact absurd h4 h2
    · rw [h4] at h2 ⊢
      exact .inr (tableOf_has hn hi h2 h3).symm

/-! ### The theorem -/

/-- **C162**: a table of decisions can be written as a policy exactly if it is steady. -/
theorem expressible_iff {U : Uni} (hU : U.Lawful) {name : Nat → Str} (hn : UserNames U name) (n : Nat) {m : Int} (hm : 2 < m)
    (f : (Nat → Tri) → Tri) :
    (∃ text p, PolicyOf U text p ∧ ∀ E, SymEnv.SetsOk E → ∀ ρ, Holds U name n E ρ → Gives U E (some m) text (f ρ)) ↔ Steady n f := by
  constructor
  · rintro ⟨text, p, hp, h⟩ ρ σ hρ
    have h1 := h _ (tableOf_sets U name n ρ) ρ (tableOf_holds hn n ρ)
    have h2 := h _ (tableOf_sets U name n σ) σ (tableOf_holds hn n σ)
    by_cases hl : ∃ x, p = .lit x
    · obtain ⟨x, rfl⟩ := hl
      exact absurd h1 (lit_gives hU (tableOf_sets U name n ρ) hp)
    · have hl : ∀ x, p ≠ .lit x := fun x hx => hl ⟨x, hx⟩
      rcases sem_mono (tableOf_extends hn hρ) p ((gives_sem hU (tableOf_sets U name n ρ) hm hp hl _).mp h1)
        ((gives_sem hU (tableOf_sets U name n σ) hm hp hl _).mp h2) with h3 | h3
      · cases h3' : f ρ <;> rw [h3'] at h3 <;> cases h3
        exact .inl rfl
      · exact .inr (by injection h3)
  · intro hf
    obtain ⟨g, hg, ht⟩ := template_exists n hf
    have hP : ∀ i, ∃ q, PolicyOf U (placeText name i) q ∧ q.strip = (placePolicy name i).strip := fun i => reads_policy (place_reads hU hn i)
    choose P hP hS using hP
    obtain ⟨q, hq, -⟩ := reads_policy (reads_fill hU (.neg (.neg g)) fun i _ => policy_reads (hP i))
    refine ⟨(Template.neg (.neg g)).fill (placeText name), q, hq, fun E hE ρ hρ => ?_⟩
    refine (fill_value hU hE hP (f := .neg (.neg g)) trivial).mpr ⟨placed ρ, fun i hi => ?_, ?_⟩
    · exact (value_strip (hS i)).mpr (place_value hU hρ hm i (hg i hi))
    · show _ = 2 - (2 - g.truth (placed ρ))
      rw [ht]
      cases f ρ <;> rfl

/-- **C162**: tables of decisions with neither missing attributes nor UNDEF can all be written. -/
theorem classical_expressible {U : Uni} (hU : U.Lawful) {name : Nat → Str} (hn : UserNames U name) (n : Nat) {m : Int} (hm : 2 < m)
    (f : (Nat → Bool) → Bool) (hf : ∀ a b : Nat → Bool, (∀ i < n, a i = b i) → f a = f b) :
    ∃ text p, PolicyOf U text p ∧ ∀ E, SymEnv.SetsOk E → ∀ a : Nat → Bool,
      (∀ i < n, attsOf U E .usrAtt (name i) = some (.bool, .sc (.tri (triOf (a i))))) → Gives U E (some m) text (triOf (f a)) := by
  obtain ⟨text, p, hp, h⟩ := (expressible_iff hU hn n hm
    fun ρ => if ∃ i < n, ρ i = .undef then .undef else triOf (f fun i => ρ i == .true)).mpr (by
      intro ρ σ hρ
      by_cases hu : ∃ i < n, ρ i = .undef
      · exact .inl (if_pos hu)
      · have he : ∀ i < n, ρ i = σ i := fun i hi => (hρ i hi).resolve_left fun hx => hu ⟨i, hi, hx⟩
        have hs : ¬ ∃ i < n, σ i = .undef := fun ⟨i, hi, hx⟩ => hu ⟨i, hi, (he i hi).trans hx⟩
        refine .inr ?_
        show (if _ then _ else _) = if _ then _ else _
        rw [if_neg hu, if_neg hs, hf _ _ fun i hi => by rw [he i hi]])
  refine ⟨text, p, hp, fun E hE a ha => ?_⟩
  have := h E hE (fun i => triOf (a i)) fun i hi => .inl (ha i hi)
  rw [if_neg (fun ⟨i, _, hx⟩ => triOf_undef hx)] at this
  have hb : (fun i => triOf (a i) == Tri.true) = a := by
    funext i
    cases a i <;> rfl
  rw [hb] at this
  exact this

/-! ### Without comparisons -/

open Classical in
/-- A function that decides, whenever all attributes are known, what the decision by cases needs. -/
noncomputable def resolve (n : Nat) (f : (Nat → Tri) → Tri) (ρ : Nat → Tri) : Tri :=
  if (∀ i < n, ρ i ≠ .undef) ∧ fixAt f n .undef ρ = .undef then
    if fixAt f n .true ρ = .false ∧ fixAt f n .false ρ = .false then .true else .false
  else fixAt f n .undef ρ

theorem resolve_resolved (n : Nat) (f : (Nat → Tri) → Tri) : Resolved n (resolve n f) := by
  intro ρ h
  unfold resolve
  by_cases hu : fixAt f n .undef ρ = .undef
  · rw [if_pos ⟨h, hu⟩]
    split <;> exact fun h => by cases h
  · rw [if_neg fun h => hu h.2]
    exact hu

theorem resolve_steady {n : Nat} {f : (Nat → Tri) → Tri} (hf : Steady (n + 1) f) : Steady n (resolve n f) := by
  intro ρ σ h
  by_cases hr : ∀ i < n, ρ i ≠ .undef
  · have he : ∀ i < n, ρ i = σ i := fun i hi => (h i hi).resolve_left (hr i hi)
    have hs : ∀ i < n, σ i ≠ .undef := fun i hi => by rw [← he i hi]; exact hr i hi
    have e := fun v => steady_local (fixAt_steady hf v) he
    refine .inr ?_
    unfold resolve
    rw [e .true, e .false, e .undef]
    by_cases hu : fixAt f n .undef σ = .undef
    · have h1 : (∀ i < n, ρ i ≠ .undef) ∧ fixAt f n .undef σ = .undef := ⟨hr, hu⟩
      have h2 : (∀ i < n, σ i ≠ .undef) ∧ fixAt f n .undef σ = .undef := ⟨hs, hu⟩
      exact (if_pos h1).trans (if_pos h2).symm
    · rw [if_neg fun h => hu h.2, if_neg fun h => hu h.2]
  · have h1 : resolve n f ρ = fixAt f n .undef ρ := if_neg fun h => hr h.1
    rw [h1]
    rcases fixAt_steady hf .undef ρ σ h with h2 | h2
    · exact .inl h2
    · rw [h2]
      by_cases hu : fixAt f n .undef σ = .undef
      · exact .inl hu
      · exact .inr (if_neg fun h => hu h.2).symm

/-- The same decision by cases. -/
theorem case_resolved (x : Tri) {n : Nat} {f : (Nat → Tri) → Tri} (hf : Steady (n + 1) f) (hr : Resolved (n + 1) f) (ρ : Nat → Tri) :
    max (max (min (rank x) (rank (fixAt f n .true ρ))) (min (2 - rank x) (rank (fixAt f n .false ρ))))
      (max (min (rank (resolve n f ρ)) (min (rank (fixAt f n .true ρ)) (rank (fixAt f n .false ρ))))
        (min (rank (resolve n f ρ)) (min (rank x) (2 - rank x)))) =
    rank (fixAt f n x ρ) := by
  have hle : ∀ v, InfoLe (fixAt f n .undef ρ) (fixAt f n v ρ) := fun v => hf _ _ fun i _ => by
    by_cases hi : i = n
    · rw [if_pos hi]; exact .inl rfl
    · rw [if_neg hi, if_neg hi]; exact .inr rfl
  by_cases hu : (∀ i < n, ρ i ≠ .undef) ∧ fixAt f n .undef ρ = .undef
  · have hk : ∀ v, v ≠ .undef → fixAt f n v ρ ≠ .undef := fun v hv => hr _ fun i hi => by
      by_cases h : i = n
      · rw [if_pos h]; exact hv
      · rw [if_neg h]; exact hu.1 i (by omega)
    have h1 := hk .true (by decide)
    have h2 := hk .false (by decide)
    have h3 := hu.2
    unfold resolve
    rw [if_pos hu]
    revert h1 h2 h3
    cases x <;> cases fixAt f n .true ρ <;> cases fixAt f n .false ρ <;> cases fixAt f n .undef ρ <;> simp [rank]
  · rw [show resolve n f ρ = fixAt f n .undef ρ from if_neg hu, case_rank x (hle _) (hle _)]
    cases x <;> rfl

/-- Every steady function that decides whenever all attributes are known is that of a template without the place for UNDEF. -/
theorem bare_template (n : Nat) {f : (Nat → Tri) → Tri} (h : Steady n f) (hr : Resolved n f) :
    ∃ g : Template, (∀ i ∈ g.places, i < n + 2 ∧ i ≠ 1) ∧ ∀ ρ, g.truth (placed ρ) = rank (f ρ) := by
  induction n generalizing f with
  | zero =>
    have hc : ∀ ρ, f ρ = f fun _ => .undef := fun ρ => steady_local h fun i hi => absurd hi (Nat.not_lt_zero i)
    cases hv : f fun _ => .undef with
    | true => exact ⟨.place 0, by simp [Template.places], fun ρ => by rw [hc, hv]; rfl⟩
    | false => exact ⟨.neg (.place 0), by simp [Template.places], fun ρ => by rw [hc, hv]; rfl⟩
    | undef => exact absurd hv (hr _ fun i hi => absurd hi (Nat.not_lt_zero i))
  | succ n ih =>
    have hfix : ∀ v, v ≠ .undef → Resolved n (fixAt f n v) := fun v hv ρ hρ => hr _ fun i hi => by
      by_cases h : i = n
      · rw [if_pos h]; exact hv
      · rw [if_neg h]; exact hρ i (by omega)
    obtain ⟨t, pt, ht⟩ := ih (fixAt_steady h .true) (hfix .true (by decide))
    obtain ⟨e, pe, he⟩ := ih (fixAt_steady h .false) (hfix .false (by decide))
    obtain ⟨u, pu, hu⟩ := ih (resolve_steady h) (resolve_resolved n f)
    refine ⟨.disj (.disj (.conj (.place (n + 2)) t) (.conj (.neg (.place (n + 2))) e))
      (.disj (.conj u (.conj t e)) (.conj u (.conj (.place (n + 2)) (.neg (.place (n + 2)))))), ?_, fun ρ => ?_⟩
    · intro i hi
      simp only [Template.places, List.mem_append, List.mem_singleton] at hi
      have h4 : i ∈ t.places ∨ i ∈ e.places ∨ i ∈ u.places ∨ i = n + 2 := by tauto
      rcases h4 with h4 | h4 | h4 | h4
      · exact ⟨Nat.lt_succ_of_lt (pt i h4).1, (pt i h4).2⟩
      · exact ⟨Nat.lt_succ_of_lt (pe i h4).1, (pe i h4).2⟩
      · exact ⟨Nat.lt_succ_of_lt (pu i h4).1, (pu i h4).2⟩
      · omega
    · have hself : f ρ = fixAt f n (ρ n) ρ := steady_local h fun i _ => by
        by_cases hi : i = n
        · rw [if_pos hi, hi]
        · rw [if_neg hi]
      simp only [Template.truth, ht, he, hu]
      rw [hself]
      exact case_resolved (ρ n) h hr ρ

theorem strip_bare (p : Policy) : p.strip.Bare ↔ p.Bare := by
  induction p with
  | not n p ih => exact ih
  | bin o p q ihp ihq => exact and_congr ihp ihq
  | _ => exact Iff.rfl

theorem bare_strip {p q : Policy} (h : p.strip = q.strip) (hq : q.Bare) : p.Bare := by
  rw [← strip_bare, h, strip_bare]
  exact hq

theorem bare_instance {P : Nat → Policy} (f : Template) (h : ∀ i ∈ f.places, (P i).Bare) : (instanceOf P f).Bare := by
  induction f with
  | place i => exact h i (by simp [Template.places])
  | neg f ih => exact ih h
  | conj f g ih1 ih2 => exact ⟨ih1 fun i hi => h i (by simp [Template.places, hi]), ih2 fun i hi => h i (by simp [Template.places, hi])⟩
  | disj f g ih1 ih2 => exact ⟨ih1 fun i hi => h i (by simp [Template.places, hi]), ih2 fun i hi => h i (by simp [Template.places, hi])⟩

/-- Policies without comparisons decide if all their attributes are TRUE or FALSE. -/
theorem bare_resolved {U : Uni} {A : Atts} (p : Policy) (hp : p.Bare)
    (hA : ∀ t ∈ p.atts, ∃ b, A t.type (attName t) = some (.bool, .sc (.tri (triOf b)))) {v : Tri} (h : (sem U A p).2 = .ok (.truth v)) :
    v ≠ .undef := by
  induction p generalizing v with
  | cmp l o r => exact hp.elim
  | lit t =>
    rw [sem] at h
    split at h
    · cases h
      decide
    · cases h
  | att t =>
    obtain ⟨b, hb⟩ := hA t (by simp [Policy.atts])
    change (semAtt A t).2 = _ at h
    unfold semAtt at h
    rw [hb] at h
    cases b <;> cases h <;> decide
  | not n p ih =>
    rw [sem_not] at h
    obtain ⟨a, ha, h1⟩ := bind_ok h
    cases a with
    | truth x =>
      cases h1
      have := ih hp hA ha
      cases x <;> first | decide | exact absurd rfl this
    | _ => cases h1
  | bin o p q ihp ihq =>
    rw [sem_bin] at h
    obtain ⟨a, ha, h1⟩ := bind_ok h
    obtain ⟨b, hb, h2⟩ := bind_ok h1
    cases a with
    | truth x =>
      cases b with
      | truth y =>
        cases h2
        have h3 := ihp hp.1 (fun t ht => hA t (List.mem_append_left _ ht)) ha
        have h4 := ihq hp.2 (fun t ht => hA t (List.mem_append_right _ ht)) hb
        unfold kleene
        cases x <;> cases y <;> first | exact absurd rfl h3 | exact absurd rfl h4 | (split <;> decide)
      | _ => cases h2
    | _ => cases h2

/-- **C162**: a table of decisions can be written without comparisons exactly if, besides, it decides whenever all attributes are known. -/
theorem bare_expressible_iff {U : Uni} (hU : U.Lawful) {name : Nat → Str} (hn : UserNames U name) (n : Nat) {m : Int} (hm : 2 < m)
    (f : (Nat → Tri) → Tri) :
    (∃ text p, PolicyOf U text p ∧ p.Bare ∧ ∀ E, SymEnv.SetsOk E → ∀ ρ, Holds U name n E ρ → Gives U E (some m) text (f ρ)) ↔
      Steady n f ∧ Resolved n f := by
  constructor
  · rintro ⟨text, p, hp, hb, h⟩
    refine ⟨(expressible_iff hU hn n hm f).mp ⟨text, p, hp, h⟩, fun ρ hρ => ?_⟩
    have hE := tableOf_sets U name n ρ
    have hF : SymEnv.SetsOk (completed U (tableOf U name n ρ) p fun _ => (.bool, .sc (.tri .true))) :=
      completed_sets hE fun _ l hl => by cases hl
    have hH : Holds U name n (completed U (tableOf U name n ρ) p fun _ => (.bool, .sc (.tri .true))) ρ := by
      intro i hi
      refine .inl ?_
      have h1 := tableOf_has hn hi (hρ i hi) (ty := .usrAtt) (x := name i) rfl
      unfold attsOf at h1 ⊢
      obtain ⟨r, hr, h2⟩ := Option.map_eq_some_iff.mp h1
      obtain ⟨r', hr', h3, h4⟩ := completed_completes U _ p (fun _ => (.bool, .sc (.tri .true))) _ r hr
      rw [hr']
      show some _ = _
      rw [← h2]
      first | rw [h3, h4] | rw [← h3, ← h4]
    have h1 := h _ hF ρ hH
    by_cases hl : ∃ x, p = .lit x
    · obtain ⟨x, rfl⟩ := hl
      exact absurd h1 (lit_gives hU hF hp)
    · refine bare_resolved p hb (fun t ht => ?_) ((gives_sem hU hF hm hp (fun x hx => hl ⟨x, hx⟩) _).mp h1)
      rw [completed_atts ht]
      cases hx : attsOf U (tableOf U name n ρ) t.type (attName t) with
      | none => exact ⟨true, filled_missing hx⟩
      | some v =>
        rw [filled_present (by rw [hx]; exact fun h => by cases h), hx]
        obtain ⟨i, hi, h2, -, rfl⟩ := tableOf_some hx
        cases hi' : ρ i with
        | true => exact ⟨true, rfl⟩
        | false => exact ⟨false, rfl⟩
        | undef => exact absurd hi' h2
  · rintro ⟨hf, hr⟩
    obtain ⟨g, hg, ht⟩ := bare_template n hf hr
    have hP : ∀ i, ∃ q, PolicyOf U (placeText name i) q ∧ q.strip = (placePolicy name i).strip := fun i => reads_policy (place_reads hU hn i)
    choose P hP hS using hP
    obtain ⟨q, hq, hs⟩ := reads_policy (reads_fill hU (.neg (.neg g)) fun i _ => policy_reads (hP i))
    refine ⟨(Template.neg (.neg g)).fill (placeText name), q, hq, bare_strip hs (bare_instance _ fun i hi => bare_strip (hS i) ?_),
      fun E hE ρ hρ => ?_⟩
    · match i, hg i hi with
      | 0, _ => trivial
      | 1, h => exact absurd rfl h.2
      | i + 2, _ => trivial
    refine (fill_value hU hE hP (f := .neg (.neg g)) trivial).mpr ⟨placed ρ, fun i hi => ?_, ?_⟩
    · exact (value_strip (hS i)).mpr (place_value hU hρ hm i (hg i hi).1)
    · show _ = 2 - (2 - g.truth (placed ρ))
      rw [ht]
      cases f ρ <;> rfl

theorem gives_unique {U : Uni} (hU : U.Lawful) {E : SymEnv} (hE : SymEnv.SetsOk E) {m : Int} (hm : 2 < m) {text : Str} {p : Policy}
    (hp : PolicyOf U text p) {v w : Tri} (h : Gives U E (some m) text v) (h' : Gives U E (some m) text w) : v = w := by
  by_cases hl : ∃ x, p = .lit x
  · obtain ⟨x, rfl⟩ := hl
    exact absurd h (lit_gives hU hE hp)
  · have hl : ∀ x, p ≠ .lit x := fun x hx => hl ⟨x, hx⟩
    have := ((gives_sem hU hE hm hp hl _).mp h).symm.trans ((gives_sem hU hE hm hp hl _).mp h')
    injection this with this
    injection this

open Classical in
/-- What is certain. -/
noncomputable def certainly (n : Nat) (f : (Nat → Bool) → Bool) (ρ : Nat → Tri) : Tri :=
  if Certainly n f ρ true then .true else if Certainly n f ρ false then .false else .undef

theorem certainly_steady (n : Nat) (f : (Nat → Bool) → Bool) : Steady n (certainly n f) := by
  intro ρ σ h
  have step : ∀ v, Certainly n f ρ v → Certainly n f σ v := fun v hv a ha => hv a fun i hi => by
    rcases h i hi with h | h
    · exact .inl h
    · rw [h]; exact ha i hi
  have one : ∀ τ, ¬ (Certainly n f τ true ∧ Certainly n f τ false) := by
    intro τ ⟨h1, h2⟩
    have hc : ∀ i < n, InfoLe (τ i) (if (τ i == .true) then .true else .false) := fun i _ => by
      cases τ i <;> first | exact .inr rfl | exact .inl rfl
    have := (h1 (fun i => τ i == .true) hc).symm.trans (h2 _ hc)
    cases this
  by_cases h1 : Certainly n f ρ true
  · exact .inr ((if_pos h1).trans (if_pos (step _ h1)).symm)
  · by_cases h2 : Certainly n f ρ false
    · have h3 : ¬ Certainly n f σ true := fun h3 => one σ ⟨h3, step _ h2⟩
      unfold certainly
      rw [if_neg h1, if_pos h2, if_neg h3, if_pos (step _ h2)]
      exact .inr rfl
    · exact .inl ((if_neg h1).trans (if_neg h2))

theorem certainly_resolved {n : Nat} {f : (Nat → Bool) → Bool} (hf : ∀ a b : Nat → Bool, (∀ i < n, a i = b i) → f a = f b) :
    Resolved n (certainly n f) := by
  intro ρ hρ
  have hc : Certainly n f ρ (f fun i => ρ i == .true) := by
    intro a ha
    refine hf _ _ fun i hi => ?_
    have h1 := hρ i hi
    have h2 := ha i hi
    revert h1 h2
    cases ρ i <;> cases a i <;> simp [InfoLe]
  unfold certainly
  by_cases h1 : Certainly n f ρ true
  · rw [if_pos h1]; decide
  · by_cases h2 : Certainly n f ρ false
    · rw [if_neg h1, if_pos h2]; decide
    · cases hv : f fun i => ρ i == .true <;> rw [hv] at hc
      · exact absurd hc h2
      · exact absurd hc h1

/-- **C162**: every classical decision can be written, without comparisons, such that the policy decides as soon as the decision is
certain. -/
theorem certain_expressible {U : Uni} (hU : U.Lawful) {name : Nat → Str} (hn : UserNames U name) (n : Nat) {m : Int} (hm : 2 < m)
    {f : (Nat → Bool) → Bool} (hf : ∀ a b : Nat → Bool, (∀ i < n, a i = b i) → f a = f b) :
    ∃ text p, PolicyOf U text p ∧ p.Bare ∧ ∀ E, SymEnv.SetsOk E → ∀ ρ, Holds U name n E ρ →
      (∃ v, Gives U E (some m) text v) ∧ ∀ b, Gives U E (some m) text (triOf b) ↔ Certainly n f ρ b := by
  obtain ⟨text, p, hp, hb, h⟩ := (bare_expressible_iff hU hn n hm _).mpr ⟨certainly_steady n f, certainly_resolved hf⟩
  refine ⟨text, p, hp, hb, fun E hE ρ hρ => ⟨⟨_, h E hE ρ hρ⟩, fun b => ?_⟩⟩
  have hg := h E hE ρ hρ
  constructor
  · intro h'
    have he := gives_unique hU hE hm hp h' hg
    unfold certainly at he
    by_cases h1 : Certainly n f ρ true
    · rw [if_pos h1] at he
      cases b
      · cases he
      · exact h1
    · rw [if_neg h1] at he
      by_cases h2 : Certainly n f ρ false
      · rw [if_pos h2] at he
        cases b
        · exact h2
        · cases he
      · rw [if_neg h2] at he
        exact absurd he triOf_undef
  · intro hc
    have h0 : ∀ i < n, InfoLe (ρ i) (if (ρ i == .true) then .true else .false) := fun i _ => by
      cases ρ i <;> first | exact .inr rfl | exact .inl rfl
    have he : certainly n f ρ = triOf b := by
      unfold certainly
      cases b
      · have h1 : ¬ Certainly n f ρ true := fun h1 => by
          have := (h1 (fun i => ρ i == .true) h0).symm.trans (hc _ h0)
          cases this
        rw [if_neg h1, if_pos hc]
        rfl
      · rw [if_pos hc]
        rfl
    rw [← he]
    exact hg

/-! ### Concrete cases -/

/-- The names `a`, `aa`, `aaa`, ... -/
theorem names_exist {U : Uni} (hU : U.Lawful) : UserNames U fun i => List.replicate (i + 1) 'a' where
  some i := by simp
  chars i c hc := by
    rw [List.eq_of_mem_replicate hc]
    exact .inl (by rw [hU.alpha_ascii _ (by decide)]; decide)
  apart i j h := by
    have ha : ∀ k, ("user.".toList ++ List.replicate (k + 1) 'a').all isAscii = true := fun k => by
      rw [List.all_append, List.all_replicate, if_neg (Nat.succ_ne_zero k)]
      decide
    rw [hU.lower_ascii _ (ha i), hU.lower_ascii _ (ha j)] at h
    have := congrArg List.length h
    simp at this
    exact this

/-- The majority of three votes, where two that agree decide. -/
example : ∃ text p, PolicyOf asciiUni text p ∧ ∀ E, SymEnv.SetsOk E → ∀ ρ, Holds asciiUni (fun i => List.replicate (i + 1) 'a') 3 E ρ →
    Gives asciiUni E (some 3) text (if ρ 0 = ρ 1 ∨ ρ 0 = ρ 2 then ρ 0 else if ρ 1 = ρ 2 then ρ 1 else .undef) := by
  refine (expressible_iff asciiUni_lawful (names_exist asciiUni_lawful) 3 (by decide) _).mpr ?_
  intro ρ σ h
  have h0 := h 0 (by decide)
  have h1 := h 1 (by decide)
  have h2 := h 2 (by decide)
  dsimp only
  revert h0 h1 h2
  generalize ρ 0 = a, ρ 1 = b, ρ 2 = c, σ 0 = x, σ 1 = y, σ 2 = z
  cases a <;> cases b <;> cases c <;> cases x <;> cases y <;> cases z <;> simp [InfoLe]

/-- Whether two attributes agree, if both are known, without comparisons. -/
example : ∃ text p, PolicyOf asciiUni text p ∧ p.Bare ∧ ∀ E, SymEnv.SetsOk E → ∀ ρ,
    Holds asciiUni (fun i => List.replicate (i + 1) 'a') 2 E ρ →
    Gives asciiUni E (some 3) text (if ρ 0 = .undef ∨ ρ 1 = .undef then .undef else if ρ 0 = ρ 1 then .true else .false) := by
  refine (bare_expressible_iff asciiUni_lawful (names_exist asciiUni_lawful) 2 (by decide) _).mpr ⟨?_, ?_⟩
  · intro ρ σ h
    have h0 := h 0 (by decide)
    have h1 := h 1 (by decide)
    dsimp only
    revert h0 h1
    generalize ρ 0 = a, ρ 1 = b, σ 0 = x, σ 1 = y
    cases a <;> cases b <;> cases x <;> cases y <;> simp [InfoLe]
  · intro ρ h
    have h0 := h 0 (by decide)
    have h1 := h 1 (by decide)
    dsimp only
    rw [if_neg (fun h => h.elim h0 h1)]
    split <;> decide

/-- If the first of three attributes tells which of the others counts, and these agree, the first one is not needed. -/
example : ∃ text p, PolicyOf asciiUni text p ∧ p.Bare ∧ ∀ E, SymEnv.SetsOk E →
    Holds asciiUni (fun i => List.replicate (i + 1) 'a') 3 E (fun i => if i = 0 then .undef else .true) → Gives asciiUni E (some 3) text .true := by
  obtain ⟨text, p, hp, hb, h⟩ := certain_expressible asciiUni_lawful (names_exist asciiUni_lawful) 3 (by decide) (m := 3)
    (f := fun a => if a 0 then a 1 else a 2) (fun a b hab => by
      rw [hab 0 (by decide), hab 1 (by decide), hab 2 (by decide)])
  refine ⟨text, p, hp, hb, fun E hE hρ => ((h E hE _ hρ).2 true).mpr fun a ha => ?_⟩
  have h1 := ha 1 (by decide)
  have h2 := ha 2 (by decide)
  dsimp only at h1 h2 ⊢
  revert h1 h2
  cases a 0 <;> cases a 1 <;> cases a 2 <;> simp [InfoLe]

/-- **C162**: no policy is TRUE exactly if an attribute is missing. -/
theorem missing_untestable {U : Uni} (hU : U.Lawful) {name : Nat → Str} (hn : UserNames U name) {m : Int} (hm : 2 < m) :
    ¬ ∃ text p, PolicyOf U text p ∧ ∀ E, SymEnv.SetsOk E → ∀ ρ, Holds U name 1 E ρ →
      Gives U E (some m) text (if ρ 0 = .undef then .true else .false) := by
  intro h
  have := (expressible_iff hU hn 1 hm fun ρ => if ρ 0 = .undef then .true else .false).mp h (fun _ => .undef) (fun _ => .true)
    fun i _ => .inl rfl
  rcases this with h | h <;> cases h

end Verif.Props
