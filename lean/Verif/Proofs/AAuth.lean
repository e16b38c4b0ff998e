import Verif.Spec.Authority
import Verif.Proofs.Dict
import Verif.Proofs.AttCertCert
import Mathlib.Data.List.Nodup

/-!
# Lemmas about the attribute authority
-/

namespace Verif.Proofs

open Verif.Spec

/-! ### Requests -/

theorem whileRemove_eq (x : Option Str) (l : List (Option Str)) : whileRemove x l = l.filter (· ≠ x) := by
  induction l using whileRemove.induct x with
  | case1 l h ih =>
    rw [whileRemove, dif_pos h, ih]
    clear ih
    induction l with
    | nil => simp at h
    | cons y l ih =>
      by_cases hy : y = x
      · subst hy
        simp
      · rw [List.erase_cons_tail (by simpa using hy), List.filter_cons_of_pos (by simpa using hy),
          List.filter_cons_of_pos (by simpa using hy), ih]
        rcases List.mem_cons.mp h with rfl | h
        · exact absurd rfl hy
        · exact h
  | case2 l h =>
    rw [whileRemove, dif_neg h, eq_comm, List.filter_eq_self]
    intro a ha
    simp only [decide_not, Bool.not_eq_eq_eq_not, Bool.not_true, decide_eq_false_iff_not]
    rintro rfl
    exact h ha

theorem dropWildcards_eq (l : List (Option Str)) : dropWildcards l = (wanted l).map some := by
  rw [dropWildcards, whileRemove_eq, whileRemove_eq, whileRemove_eq]
  unfold wanted
  induction l with
  | nil => rfl
  | cons x l ih =>
    by_cases h : x = none ∨ x = some "*".toList ∨ x = some []
    · rw [List.filterMap_cons_none (by rw [if_pos h]), ← ih]
      rcases h with rfl | rfl | rfl
      · rw [List.filter_cons_of_neg (by simp)]
      · rw [List.filter_cons_of_pos (by simp), List.filter_cons_of_neg (by simp)]
      · rw [List.filter_cons_of_pos (by simp), List.filter_cons_of_pos (by decide), List.filter_cons_of_neg (by simp)]
    · obtain ⟨h1, h2, h3⟩ : x ≠ none ∧ x ≠ some "*".toList ∧ x ≠ some [] := by
        simpa only [not_or] using h
      cases x with
      | none => exact absurd rfl h1
      | some s =>
        rw [List.filterMap_cons_some (b := s) (by rw [if_neg h]), List.map_cons, ← ih,
          List.filter_cons_of_pos (by simp), List.filter_cons_of_pos (by simpa using h2),
          List.filter_cons_of_pos (by simpa using h3)]

/-! ### Dictionaries of attributes -/

/-- The dictionary built by storing every attribute under a key. -/
def keyed (f : UserAtt → Str) (d : Dict UserAtt) (l : List UserAtt) : Dict UserAtt := l.foldl (fun d x => d.put (f x) x) d

theorem keyed_cons (f : UserAtt → Str) (d : Dict UserAtt) (x : UserAtt) (l : List UserAtt) :
    keyed f d (x :: l) = keyed f (d.put (f x) x) l := rfl

theorem keyed_get (f : UserAtt → Str) (l : List UserAtt) (d : Dict UserAtt) (k : Str) (x : UserAtt) :
    (keyed f d l).get k = some x ↔
      (∃ before after, l = before ++ x :: after ∧ f x = k ∧ ∀ y ∈ after, f y ≠ k) ∨
      (d.get k = some x ∧ ∀ y ∈ l, f y ≠ k) := by
  induction l generalizing d with
  | nil => simp [keyed]
  | cons z l ih =>
    rw [keyed_cons, ih, dict_get_put]
    constructor
    · rintro (⟨b, a, rfl, h1, h2⟩ | ⟨h1, h2⟩)
      · exact .inl ⟨z :: b, a, rfl, h1, h2⟩
      · by_cases hz : f z = k
        · rw [if_pos hz] at h1
          cases h1
          exact .inl ⟨[], l, rfl, hz, h2⟩
        · rw [if_neg hz] at h1
          exact .inr ⟨h1, by simpa using ⟨hz, h2⟩⟩
    · rintro (⟨b, a, h0, h1, h2⟩ | ⟨h1, h2⟩)
      · cases b with
        | nil =>
          cases h0
          exact .inr ⟨by rw [if_pos h1], h2⟩
        | cons w b =>
          cases h0
          exact .inl ⟨b, a, rfl, h1, h2⟩
      · have h2' := List.forall_mem_cons.mp h2
        exact .inr ⟨by rw [if_neg h2'.1, h1], h2'.2⟩

theorem keyed_isSome (f : UserAtt → Str) (l : List UserAtt) (d : Dict UserAtt) (k : Str) :
    (∃ x, (keyed f d l).get k = some x) ↔ (∃ x ∈ l, f x = k) ∨ ∃ x, d.get k = some x := by
  induction l generalizing d with
  | nil => simp [keyed]
  | cons z l ih =>
    rw [keyed_cons, ih, dict_get_put]
    by_cases hz : f z = k
    · simp [hz]
    · simp [hz]

theorem keyed_nodup (f : UserAtt → Str) (l : List UserAtt) (h : (l.map f).Nodup) : keyed f [] l = l.map (fun x => (f x, x)) := by
  have := dict_putAll_new ([] : Dict UserAtt) (l.map (fun x => (f x, x))) (by
    rw [List.nil_append, List.map_map]
    exact h)
  rw [List.foldl_map] at this
  simpa [keyed] using this

/-- `x` is the last attribute of the list with its id. -/
theorem last_of_nodup {f : UserAtt → Str} {l : List UserAtt} (h : (l.map f).Nodup) {x : UserAtt} (hx : x ∈ l) :
    ∃ before after, l = before ++ x :: after ∧ f x = f x ∧ ∀ y ∈ after, f y ≠ f x := by
  obtain ⟨b, a, rfl⟩ := List.append_of_mem hx
  refine ⟨b, a, rfl, rfl, ?_⟩
  intro y hy he
  rw [List.map_append, List.map_cons, List.nodup_append] at h
  exact (List.nodup_cons.mp h.2.1).1 (he ▸ List.mem_map_of_mem hy)

/-- A selection: every attribute is stored under its own id, once. -/
structure Sel (d : Dict UserAtt) : Prop where
  keys : ∀ e ∈ d, e.1 = e.2.att.id
  nodup : (d.map Prod.fst).Nodup

theorem sel_put {d : Dict UserAtt} (h : Sel d) (x : UserAtt) : Sel (d.put x.att.id x) := by
  refine ⟨?_, dict_put_nodup _ _ _ h.nodup⟩
  rintro ⟨k, y⟩ he
  have := dict_get_of_mem (dict_put_nodup d x.att.id x h.nodup) he
  rw [dict_get_put] at this
  by_cases hk : x.att.id = k
  · rw [if_pos hk] at this
    cases this
    exact hk.symm
  · rw [if_neg hk] at this
    exact h.keys _ (dict_mem_of_get this)

theorem sel_keyed (l : List UserAtt) {d : Dict UserAtt} (h : Sel d) : Sel (keyed (fun x => x.att.id) d l) := by
  induction l generalizing d with
  | nil => exact h
  | cons x l ih => exact ih (sel_put h x)

theorem sel_mem {d : Dict UserAtt} (h : Sel d) (x : UserAtt) : x ∈ d.map Prod.snd ↔ d.get x.att.id = some x := by
  constructor
  · intro hx
    obtain ⟨⟨k, y⟩, he, rfl⟩ := List.mem_map.mp hx
    have := h.keys _ he
    dsimp only at this ⊢
    rw [← this]
    exact dict_get_of_mem h.nodup he
  · intro hx
    exact List.mem_map.mpr ⟨_, dict_mem_of_get hx, rfl⟩

/-- The loop over the requested ids, on the strings it is given. -/
theorem selectIds_ok (byId : Dict UserAtt) (hb : Sel byId) (ids : List Str) (sel : Dict UserAtt) (hs : Sel sel) (r : Dict UserAtt) :
    selectIds byId sel (ids.map some) = .ok r →
      Sel r ∧ (∀ i ∈ ids, ∃ x, byId.get i = some x) ∧
      ∀ k x, r.get k = some x ↔ (k ∈ ids ∧ byId.get k = some x) ∨ (k ∉ ids ∧ sel.get k = some x) := by
  induction ids generalizing sel with
  | nil =>
    intro h
    cases h
    exact ⟨hs, by simp, by simp⟩
  | cons i ids ih =>
    intro h
    rw [List.map_cons, selectIds, Option.bind_some] at h
    cases hi : byId.get i with
    | none => rw [hi] at h; cases h
    | some x =>
      rw [hi] at h
      have hxi : x.att.id = i := (hb.keys _ (dict_mem_of_get hi)).symm
      obtain ⟨h1, h2, h3⟩ := ih _ (sel_put hs x) h
      refine ⟨h1, by simpa using ⟨⟨x, hi⟩, h2⟩, ?_⟩
      intro k y
      rw [h3, dict_get_put, hxi, List.mem_cons]
      by_cases hk : k ∈ ids
      · simp [hk]
      · by_cases hki : i = k
        · subst hki
          simp [hk, hi]
        · have : k ≠ i := fun e => hki e.symm
          simp [hk, hki, this]

theorem selectIds_total (byId : Dict UserAtt) (ids : List Str) (sel : Dict UserAtt) :
    (∀ i ∈ ids, ∃ x, byId.get i = some x) → ∃ r, selectIds byId sel (ids.map some) = .ok r := by
  induction ids generalizing sel with
  | nil => intro _; exact ⟨sel, rfl⟩
  | cons i ids ih =>
    intro h
    obtain ⟨⟨x, hx⟩, h'⟩ := List.forall_mem_cons.mp h
    rw [List.map_cons, selectIds, Option.bind_some, hx]
    exact ih _ h'

/-- The loop over the requested names. -/
theorem selectNames_ok (byName : Dict UserAtt) (names : List Str) (sel : Dict UserAtt) (hs : Sel sel) (r : Dict UserAtt) :
    selectNames byName sel (names.map some) = .ok r →
      Sel r ∧ (∀ n ∈ names, ∃ x, byName.get n = some x) ∧
      (∀ k x, sel.get k = some x → r.get k = some x) ∧
      (∀ n ∈ names, ∀ x, byName.get n = some x → (r.get x.att.id).isSome = true) ∧
      ∀ k x, r.get k = some x → sel.get k = some x ∨ (k = x.att.id ∧ ∃ n ∈ names, byName.get n = some x) := by
  induction names generalizing sel with
  | nil =>
    intro h
    cases h
    exact ⟨hs, by simp, fun _ _ h => h, by simp, fun _ _ h => .inl h⟩
  | cons n names ih =>
    intro h
    rw [List.map_cons, selectNames, Option.bind_some] at h
    cases hn : byName.get n with
    | none => rw [hn] at h; cases h
    | some x =>
      rw [hn] at h
      dsimp only at h
      by_cases hsome : (sel.get x.att.id).isSome = true
      · rw [if_pos hsome] at h
        obtain ⟨h1, h2, h3, h4, h5⟩ := ih sel hs h
        refine ⟨h1, by simpa using ⟨⟨x, hn⟩, h2⟩, h3, ?_, ?_⟩
        · refine List.forall_mem_cons.mpr ⟨?_, h4⟩
          intro y hy
          rw [hn] at hy
          cases hy
          obtain ⟨z, hz⟩ := Option.isSome_iff_exists.mp hsome
          rw [h3 _ _ hz]; rfl
        · intro k y hy
          rcases h5 k y hy with h | ⟨h, m, hm, hm'⟩
          · exact .inl h
          · exact .inr ⟨h, m, List.mem_cons_of_mem _ hm, hm'⟩
      · rw [if_neg hsome] at h
        have hnone : sel.get x.att.id = none := by
          cases hg : sel.get x.att.id with
          | none => rfl
          | some z => rw [hg] at hsome; exact absurd rfl hsome
        obtain ⟨h1, h2, h3, h4, h5⟩ := ih _ (sel_put hs x) h
        refine ⟨h1, by simpa using ⟨⟨x, hn⟩, h2⟩, ?_, ?_, ?_⟩
        · intro k y hy
          apply h3
          rw [dict_get_put]
          have : x.att.id ≠ k := by rintro rfl; rw [hnone] at hy; cases hy
          rw [if_neg this, hy]
        · refine List.forall_mem_cons.mpr ⟨?_, h4⟩
          intro y hy
          rw [hn] at hy
          cases hy
          rw [h3 x.att.id x (by rw [dict_get_put, if_pos rfl])]; rfl
        · intro k y hy
          rcases h5 k y hy with h | ⟨h, m, hm, hm'⟩
          · rw [dict_get_put] at h
            by_cases hk : x.att.id = k
            · rw [if_pos hk] at h
              cases h
              exact .inr ⟨hk.symm, n, List.mem_cons_self, hn⟩
            · rw [if_neg hk] at h
              exact .inl h
          · exact .inr ⟨h, m, List.mem_cons_of_mem _ hm, hm'⟩

theorem selectNames_total (byName : Dict UserAtt) (names : List Str) (sel : Dict UserAtt) :
    (∀ n ∈ names, ∃ x, byName.get n = some x) → ∃ r, selectNames byName sel (names.map some) = .ok r := by
  induction names generalizing sel with
  | nil => intro _; exact ⟨sel, rfl⟩
  | cons i ids ih =>
    intro h
    obtain ⟨⟨x, hx⟩, h'⟩ := List.forall_mem_cons.mp h
    rw [List.map_cons, selectNames, Option.bind_some, hx]
    exact ih _ h'

/-- Both loops only raise `ClientFault`. -/
theorem selectIds_error (byId : Dict UserAtt) (ids : List (Option Str)) (sel : Dict UserAtt) (e : PyExc) :
    selectIds byId sel ids = .error e → ∃ m, e = .clientFault m := by
  induction ids generalizing sel with
  | nil => intro h; cases h
  | cons i ids ih =>
    intro h
    rw [selectIds] at h
    split at h
    · cases h; exact ⟨_, rfl⟩
    · exact ih _ h

theorem selectNames_error (byName : Dict UserAtt) (ns : List (Option Str)) (sel : Dict UserAtt) (e : PyExc) :
    selectNames byName sel ns = .error e → ∃ m, e = .clientFault m := by
  induction ns generalizing sel with
  | nil => intro h; cases h
  | cons i ids ih =>
    intro h
    rw [selectNames] at h
    split at h
    · cases h; exact ⟨_, rfl⟩
    · exact ih _ h

/-! ### The join -/

theorem userAttributes_mem (collate : Str → Str) (db : AAuthDb) (id : Int) (x : UserAtt) :
    x ∈ db.userAttributes collate id ↔ Assigned collate db id x := by
  unfold AAuthDb.userAttributes Assigned
  simp only [List.mem_flatMap, List.mem_filter, decide_eq_true_eq, List.mem_map]
  constructor
  · rintro ⟨a, ⟨h1, h2⟩, t, ⟨h3, h4⟩, rfl⟩
    exact ⟨h3, a, h1, h2, h4.symm, rfl⟩
  · rintro ⟨h3, a, h1, h2, h4, h5⟩
    exact ⟨a, ⟨h1, h2⟩, x.att, ⟨h3, h4.symm⟩, by rw [h5]⟩

/-- With the primary keys of the schema no attribute is joined twice. -/
theorem userAttributes_nodup {collate : Str → Str} {db : AAuthDb} (h : PrimaryKeys collate db) (id : Int) :
    ((db.userAttributes collate id).map (fun x => x.att.id)).Nodup := by
  suffices H : ((db.userAttributes collate id).map (fun x => collate x.att.id)).Nodup by
    have : (db.userAttributes collate id).map (fun x => collate x.att.id) =
        ((db.userAttributes collate id).map (fun x => x.att.id)).map collate := by simp
    rw [this] at H
    exact H.of_map _
  unfold AAuthDb.userAttributes
  have h2 : ((db.assignments.filter (fun a => decide (a.userId = id))).map (fun a => collate a.attId)).Nodup := by
    have hp := h.assignments
    have hsub : ((db.assignments.filter (fun a => decide (a.userId = id))).map (fun a => (a.userId, collate a.attId))).Nodup :=
      hp.sublist (List.Sublist.map _ List.filter_sublist)
    have he : (db.assignments.filter (fun a => decide (a.userId = id))).map (fun a => (a.userId, collate a.attId)) =
        ((db.assignments.filter (fun a => decide (a.userId = id))).map (fun a => collate a.attId)).map (fun k => (id, k)) := by
      rw [List.map_map]
      apply List.map_congr_left
      intro a ha
      have := of_decide_eq_true (List.mem_filter.mp ha).2
      simp [this]
    rw [he] at hsub
    exact hsub.of_map _
  generalize db.assignments.filter (fun a => decide (a.userId = id)) = as at h2
  induction as with
  | nil => simp
  | cons a as ih =>
    rw [List.map_cons, List.nodup_cons] at h2
    rw [List.flatMap_cons, List.map_append, List.nodup_append]
    refine ⟨?_, ih h2.2, ?_⟩
    · rw [List.map_map]
      exact h.attributes.sublist (List.Sublist.map _ List.filter_sublist)
    · intro k hk k' hk' hkk
      subst hkk
      rw [List.map_map, List.mem_map] at hk
      obtain ⟨t, ht, rfl⟩ := hk
      rw [List.mem_map] at hk'
      obtain ⟨x, hx, hx'⟩ := hk'
      obtain ⟨a', ha', hx2⟩ := List.mem_flatMap.mp hx
      rw [List.mem_map] at hx2
      obtain ⟨t', ht', rfl⟩ := hx2
      have e1 := of_decide_eq_true (List.mem_filter.mp ht).2
      have e2 := of_decide_eq_true (List.mem_filter.mp ht').2
      dsimp only [Function.comp] at hx'
      exact h2.1 (List.mem_map.mpr ⟨a', ha', by rw [← e2, hx', e1]⟩)

/-! ### Selection -/

theorem selectAtts_eq (atts : List UserAtt) (req : AttributeListArg) (ids names : List (Option Str))
    (hi : req.ids = some ids) (hn : req.names = some names) :
    selectAtts atts req =
      if wanted ids = [] ∧ wanted names = [] then .ok (keyed (fun x => x.att.id) [] atts)
      else (selectIds (keyed (fun x => x.att.id) [] atts) [] ((wanted ids).map some)).bind (fun sel =>
        selectNames (keyed (fun x => x.att.name) [] atts) sel ((wanted names).map some)) := by
  unfold selectAtts
  rw [hi, hn]
  change (if _ then _ else _) = _
  rw [dropWildcards_eq, dropWildcards_eq]
  by_cases h : wanted ids = [] ∧ wanted names = []
  · rw [if_pos h, if_pos (by simp [h.1, h.2])]
    rfl
  · have h' : ¬ (List.map some (wanted ids)).length + (List.map some (wanted names)).length = 0 := by
      rw [List.length_map, List.length_map]
      intro e
      exact h ⟨List.length_eq_zero_iff.mp (by omega), List.length_eq_zero_iff.mp (by omega)⟩
    rw [if_neg h, if_neg h']
    rfl

theorem sel_nil : Sel ([] : Dict UserAtt) := ⟨by simp, by simp⟩

/-- Everything selected is among the attributes given. -/
theorem keyed_mem {f : UserAtt → Str} {l : List UserAtt} {k : Str} {x : UserAtt}
    (h : (keyed f [] l).get k = some x) : x ∈ l ∧ f x = k := by
  rcases (keyed_get f l [] k x).mp h with ⟨b, a, rfl, h1, _⟩ | ⟨h, _⟩
  · exact ⟨by simp, h1⟩
  · cases h

theorem selectAtts_sel {atts : List UserAtt} {req : AttributeListArg} {d : Dict UserAtt}
    (h : selectAtts atts req = .ok d) : Sel d ∧ ∀ x ∈ d.map Prod.snd, x ∈ atts := by
  obtain ⟨ids, hi⟩ : ∃ ids, req.ids = some ids := by
    cases hi : req.ids with
    | none => rw [selectAtts, hi] at h; cases h
    | some ids => exact ⟨ids, rfl⟩
  obtain ⟨names, hn⟩ : ∃ names, req.names = some names := by
    cases hn : req.names with
    | none => rw [selectAtts, hi, hn] at h; cases h
    | some names => exact ⟨names, rfl⟩
  rw [selectAtts_eq atts req ids names hi hn] at h
  split at h
  · cases h
    have hs := sel_keyed atts sel_nil
    refine ⟨hs, fun x hx => ?_⟩
    exact (keyed_mem ((sel_mem hs x).mp hx)).1
  · cases h1 : selectIds (keyed (fun x => x.att.id) [] atts) [] ((wanted ids).map some) with
    | error e => rw [h1] at h; cases h
    | ok sel =>
      rw [h1] at h
      change selectNames _ _ _ = _ at h
      obtain ⟨hs1, _, hg1⟩ := selectIds_ok _ (sel_keyed atts sel_nil) _ _ sel_nil _ h1
      obtain ⟨hs2, _, _, _, hg2⟩ := selectNames_ok _ _ _ hs1 _ h
      refine ⟨hs2, fun x hx => ?_⟩
      rcases hg2 _ _ ((sel_mem hs2 x).mp hx) with h3 | ⟨_, n, _, h3⟩
      · rcases (hg1 _ _).mp h3 with ⟨_, h4⟩ | ⟨_, h4⟩
        · exact (keyed_mem h4).1
        · cases h4
      · exact (keyed_mem h3).1

end Verif.Proofs
