import Verif.Spec.Relevant
import Verif.Props.Certain
/-!
# C157: every attribute of a policy that mentions it once matters
-/

namespace Verif.Props
open Verif Verif.Spec Verif.Proofs

/-- Nothing is known. -/
def noAtts : Atts := fun _ _ => none

theorem missing_all {U : Uni} {Γ : Promises} (p : Policy) (ho : p.OpsOk) (hs : p.OneSided) (hn : p.NoConstants) (ht : CondTyped U Γ p) :
    (sem U noAtts p).2 = .ok (.truth .undef) := by
  induction p with
  | cmp l o r =>
    have hl : l.typed U Γ ≠ .rejected := fun h => rejected_untyped ho (.inl h) ht
    have hr' : r.typed U Γ ≠ .rejected := fun h => rejected_untyped ho (.inr h) ht
    cases l with
    | att t =>
      obtain ⟨c, h1, -⟩ := finite_const (x := r) hs U Γ hr'
      unfold sem
      rw [bind_snd (show (semOperand noAtts (.att t)).2 = _ from missing_undef rfl), h1, bind_pure]
      rfl
    | atom u =>
      cases r with
      | att t =>
        obtain ⟨c, h1, -⟩ := finite_const (x := .atom u) hs U Γ hl
        unfold sem
        rw [h1, bind_pure, bind_snd (show (semOperand noAtts (.att t)).2 = _ from missing_undef rfl)]
        unfold semCmp
        rw [if_pos (.inr rfl)]
        rfl
      | atom _ => exact absurd hs id
      | set _ _ => exact absurd hs id
    | set b es => cases r <;> exact absurd hs id
  | lit t => exact absurd hn id
  | att t => exact missing_undef rfl
  | not n p ih =>
    rw [sem_not, bind_snd (ih ho hs hn ht)]
    rfl
  | bin o p q ihp ihq =>
    rw [sem_bin, bind_snd (ihp ho.1 hs.1 hn.1 ht.1), bind_snd (ihq ho.2 hs.2 hn.2 ht.2)]
    show Except.ok (Den.truth (kleene o .undef .undef)) = _
    unfold kleene
    split <;> rfl

/-- Values for all attributes. -/
structure ValuesFor (U : Uni) (Γ : Promises) (p : Policy) (G : Str → SymType × PyVal) : Prop where
  sets : ∀ k, SetVal (G k).2
  kept : ∀ t ∈ p.atts, (Γ (attKey U t)).Kept (some (G (attKey U t)))

/-- Such a policy can be made TRUE and FALSE. -/
theorem free_policy {U : Uni} {Γ : Promises} (p : Policy) (ho : p.OpsOk) (hs : p.OneSided) (hr : ReadOnce U p) (hn : p.NoConstants)
    (ht : CondTyped U Γ p) (v : Bool) : ∃ G, ValuesFor U Γ p G ∧ (sem U (filled U noAtts G) p).2 = .ok (.truth (triOf v)) := by
  obtain ⟨w, h1, h2⟩ := open_policy (A := noAtts) p ho hs hr ht fun t _ => .inl rfl
  rw [missing_all p ho hs hn ht] at h1
  cases h1
  obtain ⟨G, g0, g1, g2⟩ := h2 v (.inl rfl)
  exact ⟨G, ⟨g0, g1⟩, g2⟩

/-- Values of one policy, and of the other one for its attributes. -/
def merged (U : Uni) (p : Policy) (G H : Str → SymType × PyVal) : Str → SymType × PyVal :=
  fun k => if k ∈ p.atts.map (attKey U) then G k else H k

section
variable {U : Uni} {Γ : Promises} {o : Token} {p q : Policy} {G H : Str → SymType × PyVal}

theorem merged_left {t : Token} (h : t ∈ p.atts) : merged U p G H (attKey U t) = G (attKey U t) := if_pos (List.mem_map_of_mem h)

theorem merged_right (hr : ReadOnce U (.bin o p q)) {t : Token} (h : t ∈ q.atts) : merged U p G H (attKey U t) = H (attKey U t) := by
  have hr : ((p.atts ++ q.atts).map (attKey U)).Nodup := hr
  rw [List.map_append] at hr
  exact if_neg fun hm => (List.nodup_append.mp hr).2.2 _ hm _ (List.mem_map_of_mem h) rfl

theorem merged_values (hr : ReadOnce U (.bin o p q)) (hG : ValuesFor U Γ p G) (hH : ValuesFor U Γ q H) :
    ValuesFor U Γ (.bin o p q) (merged U p G H) := by
  refine ⟨fun k => ?_, fun t ht => ?_⟩
  · unfold merged
    split
    · exact hG.sets k
    · exact hH.sets k
  · rcases List.mem_append.mp ht with ht | ht
    · rw [merged_left ht]
      exact hG.kept t ht
    · rw [merged_right hr ht]
      exact hH.kept t ht

theorem filled_congr {p : Policy} {G H : Str → SymType × PyVal} (h : ∀ t ∈ p.atts, G (attKey U t) = H (attKey U t)) :
    sem U (filled U noAtts G) p = sem U (filled U noAtts H) p := by
  refine sem_atts p fun t ht => ?_
  rw [filled_missing rfl, filled_missing rfl, h t ht]

theorem merged_sem (hr : ReadOnce U (.bin o p q)) {x y : Tri} (h1 : (sem U (filled U noAtts G) p).2 = .ok (.truth x))
    (h2 : (sem U (filled U noAtts H) q).2 = .ok (.truth y)) :
    (sem U (filled U noAtts (merged U p G H)) (.bin o p q)).2 = .ok (.truth (kleene o x y)) := by
  rw [sem_bin, filled_congr (H := G) fun t => merged_left, bind_snd h1, filled_congr (H := H) fun t ht => merged_right hr ht, bind_snd h2]
  rfl

end

/-- A truth value that does not change the other one. -/
theorem neutral (o : Token) : ∃ b, ∀ v, kleene o (triOf v) (triOf b) = triOf v ∧ kleene o (triOf b) (triOf v) = triOf v := by
  unfold kleene
  by_cases ho : o.value = .str "AND".toList
  · simp only [if_pos ho]
    exact ⟨true, by decide⟩
  · simp only [if_neg ho]
    exact ⟨false, by decide⟩

/-- A policy with one attribute. -/
theorem pivot_atom {U : Uni} {Γ : Promises} (p : Policy) (ho : p.OpsOk) (hs : p.OneSided) (hr : ReadOnce U p) (hn : p.NoConstants)
    (ht : CondTyped U Γ p) {t : Token} (ha : p.atts = [t]) : ∃ G : Bool → Str → SymType × PyVal, (∀ v, ValuesFor U Γ p (G v)) ∧
      (∀ k, k ≠ attKey U t → G true k = G false k) ∧ ∀ v, (sem U (filled U noAtts (G v)) p).2 = .ok (.truth (triOf v)) := by
  choose G g1 g2 using free_policy p ho hs hr hn ht
  refine ⟨fun v k => if k = attKey U t then G v k else anyValue .number, fun v => ⟨fun k => ?_, fun u hu => ?_⟩, fun k hk => ?_, fun v => ?_⟩
  · dsimp only
    split
    · exact (g1 v).sets k
    · exact anyValue_set _
  · have := (g1 v).kept u hu
    rw [ha] at hu
    cases List.mem_singleton.mp hu
    dsimp only
    rw [if_pos rfl]
    exact this
  · dsimp only
    rw [if_neg hk, if_neg hk]
  · rw [← g2 v]
    congr 1
    refine filled_congr fun u hu => ?_
    rw [ha] at hu
    cases List.mem_singleton.mp hu
    exact if_pos rfl

/-- Values that differ in one attribute and make the policy TRUE and FALSE. -/
theorem pivot {U : Uni} {Γ : Promises} (p : Policy) (ho : p.OpsOk) (hs : p.OneSided) (hr : ReadOnce U p) (hn : p.NoConstants)
    (ht : CondTyped U Γ p) {t : Token} (hm : t ∈ p.atts) : ∃ G : Bool → Str → SymType × PyVal, (∀ v, ValuesFor U Γ p (G v)) ∧
      (∀ k, k ≠ attKey U t → G true k = G false k) ∧ ∀ v, (sem U (filled U noAtts (G v)) p).2 = .ok (.truth (triOf v)) := by
  induction p with
  | cmp l o r =>
    refine pivot_atom _ ho hs hr hn ht ?_
    cases l with
    | att u =>
      obtain ⟨c, -, -, -, h4⟩ := finite_const (x := r) hs U Γ fun h => rejected_untyped ho (.inr h) ht
      have hm : t ∈ [u] ++ r.atts := hm
      rw [h4] at hm
      cases List.mem_singleton.mp hm
      show [t] ++ r.atts = [t]
      rw [h4]
      rfl
    | atom u =>
      cases r with
      | att u =>
        cases List.mem_singleton.mp (show t ∈ [u] from hm)
        rfl
      | atom _ => exact absurd hs id
      | set _ _ => exact absurd hs id
    | set b es => cases r <;> exact absurd hs id
  | lit u => exact absurd hn id
  | att u =>
    cases List.mem_singleton.mp (show t ∈ [u] from hm)
    exact pivot_atom _ ho hs hr hn ht rfl
  | not n p ih =>
    obtain ⟨G, g1, g2, g3⟩ := ih ho hs hr hn ht hm
    refine ⟨fun v => G !v, fun v => ⟨(g1 !v).sets, (g1 !v).kept⟩, fun k hk => (g2 k hk).symm, fun v => ?_⟩
    rw [sem_not, bind_snd (g3 !v)]
    cases v <;> rfl
  | bin o p q ihp ihq =>
    obtain ⟨b, hb⟩ := neutral o
    have hr' : (p.atts.map (attKey U) ++ q.atts.map (attKey U)).Nodup := by
      have : (p.atts ++ q.atts).map (attKey U) = _ := List.map_append
      rw [← this]
      exact hr
    have hrp : ReadOnce U p := (List.nodup_append.mp hr').1
    have hrq : ReadOnce U q := (List.nodup_append.mp hr').2.1
    rcases List.mem_append.mp (show t ∈ p.atts ++ q.atts from hm) with hm | hm
    · obtain ⟨G, g1, g2, g3⟩ := ihp ho.1 hs.1 hrp hn.1 ht.1 hm
      obtain ⟨H, h1, h2⟩ := free_policy q ho.2 hs.2 hrq hn.2 ht.2 b
      refine ⟨fun v => merged U p (G v) H, fun v => merged_values hr (g1 v) h1, fun k hk => ?_, fun v => ?_⟩
      · dsimp only [merged]
        rw [g2 k hk]
      · rw [merged_sem hr (g3 v) h2, (hb v).1]
    · obtain ⟨G, g1, g2, g3⟩ := ihq ho.2 hs.2 hrq hn.2 ht.2 hm
      obtain ⟨H, h1, h2⟩ := free_policy p ho.1 hs.1 hrp hn.1 ht.1 b
      refine ⟨fun v => merged U p H (G v), fun v => merged_values hr h1 (g1 v), fun k hk => ?_, fun v => ?_⟩
      · dsimp only [merged]
        rw [g2 k hk]
      · rw [merged_sem hr h2 (g3 v), (hb v).2]

/-! ### Tables -/

theorem valued_atts {U : Uni} {p : Policy} {G : Str → SymType × PyVal} {t : Token} (ht : t ∈ p.atts) :
    attsOf U (completed U nothingEnv p G) t.type (attName t) = filled U noAtts G t.type (attName t) :=
  completed_atts ht

theorem valued_differ {U : Uni} {p : Policy} {G H : Str → SymType × PyVal} {key : Str} (h : ∀ k, k ≠ key → G k = H k) :
    DifferOnly U key (attsOf U (completed U nothingEnv p G)) (attsOf U (completed U nothingEnv p H)) := by
  intro ty n hk
  rw [prefix_eq] at hk
  unfold attsOf
  by_cases hm : U.lower (attTypePrefix (some ty) ++ n) ∈ keysOf U p
  · have h3 : (keysOf U p).getD ((keysOf U p).idxOf (U.lower (attTypePrefix (some ty) ++ n))) [] = U.lower (attTypePrefix (some ty) ++ n) := by
      rw [List.getD_eq_getElem?_getD, List.getElem?_eq_getElem (List.idxOf_lt_length_iff.mpr hm), List.getElem_idxOf]
      rfl
    generalize hi : (keysOf U p).idxOf (U.lower (attTypePrefix (some ty) ++ n)) = i at h3
    have h1 : (2 * i + 1) % 2 = 1 := by omega
    have h2 : (2 * i + 1) / 2 = i := by omega
    rw [completed_adds rfl hm, completed_adds rfl hm, hi]
    dsimp only [Option.map_some]
    unfold completed
    dsimp only
    rw [h1, if_neg (by decide), if_neg (by decide), h2, h3, h _ hk]
  · have hnone : ∀ G, (completed U nothingEnv p G).tab.lookup U (attTypePrefix (some ty) ++ n) = none := by
      intro G
      unfold SymTab.lookup SymTab.get completed
      rw [Option.map_eq_none_iff, List.find?_eq_none]
      intro e he
      obtain ⟨k, hk, rfl⟩ := List.mem_map.mp (show e ∈ (keysOf U p).map _ from he)
      intro hc
      exact hm ((beq_iff_eq.mp hc) ▸ hk)
    rw [hnone, hnone]
    rfl

/-- What a policy needs so that each of its attributes matters. -/
structure Relevant (U : Uni) (Γ : Promises) (text : Str) (p : Policy) : Prop where
  parsed : PolicyOf U text p
  typed : PromiseTyped U Γ p
  oneSided : p.OneSided
  once : ReadOnce U p
  noConstants : p.NoConstants

/-- **C157**: for each attribute there are two tables that differ in it only, keep the promises, also about the attributes of another policy,
and give TRUE and FALSE. -/
theorem every_attribute_matters {U : Uni} (hU : U.Lawful) {Γ : Promises} {text : Str} {p : Policy} (h : Relevant U Γ text p)
    {t : Token} (ht : t ∈ p.atts) (q : Policy) {m : Int} (hm : 2 < m) :
    ∃ E F, SymEnv.SetsOk E ∧ SymEnv.SetsOk F ∧ KeptBy U Γ (attsOf U E) (p.atts ++ q.atts) ∧ KeptBy U Γ (attsOf U F) (p.atts ++ q.atts) ∧
      DifferOnly U (attKey U t) (attsOf U E) (attsOf U F) ∧ Gives U E (some m) text .true ∧ Gives U F (some m) text .false := by
  obtain ⟨hl, hc⟩ := typed_noLit h.typed
  obtain ⟨G, g1, g2, g3⟩ := pivot p (policyOf_ok h.parsed).2.1 h.oneSided h.once h.noConstants hc ht
  have hE : SymEnv.SetsOk nothingEnv := fun _ _ h => by cases h
  let H : Bool → Str → SymType × PyVal := fun v => merged U p (G v) fun k => anyValue (Γ k)
  let T : Bool → SymEnv := fun v => completed U nothingEnv (.bin t p q) (H v)
  have ok : ∀ v, SymEnv.SetsOk (T v) := by
    refine fun v => completed_sets hE fun k => ?_
    show SetVal (merged U p (G v) _ k).2
    unfold merged
    split
    · exact (g1 v).sets k
    · exact anyValue_set _
  have kept : ∀ v, KeptBy U Γ (attsOf U (T v)) (p.atts ++ q.atts) := by
    intro v u hu
    rw [valued_atts (p := .bin t p q) hu, filled_missing rfl]
    show (Γ (attKey U u)).Kept (some (merged U p (G v) _ (attKey U u)))
    unfold merged
    split
    · rename_i hk
      obtain ⟨w, hw, hk⟩ := List.mem_map.mp hk
      have := (g1 v).kept w hw
      rw [hk] at this
      exact this
    · exact anyValue_kept _
  have gives : ∀ v, Gives U (T v) (some m) text (triOf v) := by
    intro v
    rw [gives_sem hU (ok v) hm h.parsed hl, ← g3 v, sem_atts p fun u hu => valued_atts (p := .bin t p q) (List.mem_append_left _ hu)]
    congr 1
    exact filled_congr fun u hu => merged_left hu
  refine ⟨_, _, ok true, ok false, kept true, kept false, valued_differ fun k hk => ?_, gives true, gives false⟩
  show merged U p (G true) _ k = merged U p (G false) _ k
  unfold merged
  rw [g2 k hk]

/-- A literal gives no truth value. -/
theorem lit_gives {U : Uni} (hU : U.Lawful) {E : SymEnv} (hE : SymEnv.SetsOk E) {level : Option Int} {text : Str} {x : Token}
    (hp : PolicyOf U text (.lit x)) {v : Tri} : ¬ Gives U E level text v := by
  rintro ⟨k, s, h⟩
  obtain ⟨s', r, h1, -, h3⟩ := (evaluate_refines U hU E hE level k text).2 _ hp
  rw [h] at h1
  cases h1
  cases h3

/-- **C157**: no policy that does not mention the attribute decides the same for all tables that keep the promises. -/
theorem no_replacement {U : Uni} (hU : U.Lawful) {Γ : Promises} {text text' : Str} {p q : Policy} (h : Relevant U Γ text p)
    (hq : PolicyOf U text' q) {t : Token} (ht : t ∈ p.atts) (hn : ∀ u ∈ q.atts, attKey U u ≠ attKey U t) {m : Int} (hm : 2 < m) :
    ∃ E v, SymEnv.SetsOk E ∧ KeptBy U Γ (attsOf U E) (p.atts ++ q.atts) ∧ v ≠ .undef ∧ Gives U E (some m) text v ∧ ¬ Gives U E (some m) text' v := by
  obtain ⟨E, F, e1, f1, e2, f2, hd, e3, f3⟩ := every_attribute_matters hU h ht q hm
  by_cases hg : Gives U E (some m) text' .true
  · refine ⟨F, .false, f1, f2, by decide, f3, fun hf => ?_⟩
    by_cases hl : ∃ x, q = .lit x
    · obtain ⟨x, rfl⟩ := hl
      exact lit_gives hU e1 hq hg
    · have hl : ∀ x, q ≠ .lit x := fun x hx => hl ⟨x, hx⟩
      rw [gives_sem hU e1 hm hq hl, sem_atts q fun u hu => hd _ _ (hn u hu)] at hg
      rw [gives_sem hU f1 hm hq hl, hg] at hf
      cases hf
  · exact ⟨E, .true, e1, e2, by decide, e3, hg⟩

/-- **C157**: two such policies that decide the same for all tables that keep the promises mention the same attributes. -/
theorem same_attributes {U : Uni} (hU : U.Lawful) {Γ : Promises} {text text' : Str} {p q : Policy} (h : Relevant U Γ text p)
    (h' : Relevant U Γ text' q) {m : Int} (hm : 2 < m)
    (heq : ∀ E, SymEnv.SetsOk E → KeptBy U Γ (attsOf U E) (p.atts ++ q.atts) → ∀ v, Gives U E (some m) text v ↔ Gives U E (some m) text' v)
    (k : Str) : k ∈ p.atts.map (attKey U) ↔ k ∈ q.atts.map (attKey U) := by
  constructor
  · intro hk
    obtain ⟨t, ht, rfl⟩ := List.mem_map.mp hk
    by_contra hn
    obtain ⟨E, v, h1, h2, -, h3, h4⟩ := no_replacement hU h h'.parsed ht (fun u hu he => hn (he ▸ List.mem_map_of_mem hu)) hm
    exact h4 ((heq E h1 h2 v).mp h3)
  · intro hk
    obtain ⟨t, ht, rfl⟩ := List.mem_map.mp hk
    by_contra hn
    obtain ⟨E, v, h1, h2, -, h3, h4⟩ := no_replacement hU h' h.parsed ht (fun u hu he => hn (he ▸ List.mem_map_of_mem hu)) hm
    exact h4 ((heq E h1 (fun t ht => h2 t (List.mem_append.mpr (List.mem_append.mp ht).symm)) v).mpr h3)

/-! ### Concrete cases -/

/-- The hypotheses hold for `user.a = 1 AND user.b`. -/
theorem typedPlain_relevant : Relevant asciiUni (inferred asciiUni typedPlain) "user.a = 1 AND user.b".toList typedPlain := by
  refine ⟨typedPlain_of, ⟨eq_op_typed (.inl rfl), ?_⟩, ⟨fun b h => (by cases h), trivial⟩, ?_, ⟨trivial, trivial⟩⟩
  · show inferred asciiUni typedPlain _ = _
    decide +kernel
  · unfold ReadOnce
    decide +kernel

/-- `user.b` cannot be left out. -/
example : ∃ E v, SymEnv.SetsOk E ∧ KeptBy asciiUni (inferred asciiUni typedPlain) (attsOf asciiUni E) typedPlain.atts ∧ v ≠ .undef ∧
    Gives asciiUni E (some 3) "user.a = 1 AND user.b".toList v ∧ ¬ Gives asciiUni E (some 3) "user.a = 1 AND user.a = 1".toList v := by
  have hq : ∃ q, PolicyOf asciiUni "user.a = 1 AND user.a = 1".toList q ∧ ∀ u ∈ q.atts, attKey asciiUni u ≠ attKey asciiUni (typedAtt 15 "b") := by
    have h : lexTokens asciiUni "user.a = 1 AND user.a = 1".toList = .ok (⟨.start, 0, .none⟩ :: ((([typedAtt 0 "a"] ++ typedOp 7 "=" ::
        [typedOne 9]) ++ typedAnd 11 :: ([typedAtt 15 "a"] ++ typedOp 22 "=" :: [typedOne 24])) ++ [⟨.«end», 25, .none⟩])) := by decide +kernel
    obtain ⟨ts, h1, h2⟩ := (lexer_refines_grammar asciiUni asciiUni_lawful _ _).1 h
    simp only [List.cons.injEq, true_and] at h1
    subst h1
    refine ⟨_, ⟨_, _, h2, .term (.and (.exp (.cmp (.att (by decide)) rfl (.atom (by decide)))) (by decide)
      (.cmp (.att (by decide)) rfl (.atom (by decide))))⟩, ?_⟩
    decide +kernel
  obtain ⟨q, h1, h2⟩ := hq
  obtain ⟨E, v, k1, k2, k3⟩ := no_replacement asciiUni_lawful typedPlain_relevant h1 (t := typedAtt 15 "b") (by decide) h2 (m := 3) (by decide)
  exact ⟨E, v, k1, fun t ht => k2 t (List.mem_append_left _ ht), k3⟩

/-- A policy with constants may mention an attribute that does not matter: `TRUE OR user.a`. -/
example : ∀ b, b = Tri.true ∨ b = Tri.false →
    ((evaluateText asciiUni ⟨⟨[("user.a".toList, 0)]⟩, fun _ => ⟨.bool, .usrAtt, .sc (.tri b), [], []⟩⟩ (some 3) 0
      "TRUE OR user.a".toList).map fun x => x.2) = .ok (.ok (.tri .true)) := by
  rintro b (rfl | rfl) <;> decide +kernel

end Verif.Props
