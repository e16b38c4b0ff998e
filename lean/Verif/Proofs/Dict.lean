import Verif.Model.Symbols

/-!
# Python dictionaries
-/

namespace Verif.Proofs

variable {α : Type}

theorem dict_get_nil (k : Str) : Dict.get ([] : Dict α) k = none := rfl

theorem dict_get_cons (k' : Str) (v : α) (d : Dict α) (k : Str) :
    Dict.get ((k', v) :: d) k = if k' = k then some v else d.get k := by
  unfold Dict.get
  rw [List.find?_cons]
  by_cases h : k' = k
  · simp [h]
  · have hb : (k' == k) = false := beq_eq_false_iff_ne.mpr h
    simp only [hb, if_neg h]

theorem dict_get_put (d : Dict α) (k n : Str) (v : α) : (d.put k v).get n = if k = n then some v else d.get n := by
  induction d with
  | nil => simp [Dict.put, dict_get_cons, dict_get_nil]
  | cons e d ih =>
    obtain ⟨k', v'⟩ := e
    rw [Dict.put]
    by_cases h : k' = k
    · subst h
      rw [if_pos rfl, dict_get_cons, dict_get_cons]
      by_cases hn : k' = n <;> simp [hn]
    · rw [if_neg h, dict_get_cons, dict_get_cons, ih]
      by_cases hn : k' = n
      · have : k ≠ n := fun e => h (hn.trans e.symm)
        simp [hn, this]
      · simp [hn]

theorem dict_put_new (d : Dict α) (k : Str) (v : α) (h : k ∉ d.map Prod.fst) : d.put k v = d ++ [(k, v)] := by
  induction d with
  | nil => rfl
  | cons e d ih =>
    obtain ⟨k', v'⟩ := e
    simp only [List.map_cons, List.mem_cons, not_or] at h
    rw [Dict.put, if_neg (fun e => h.1 e.symm), ih h.2]
    rfl

theorem dict_put_keys_old (d : Dict α) (k : Str) (v : α) (h : k ∈ d.map Prod.fst) :
    (d.put k v).map Prod.fst = d.map Prod.fst := by
  induction d with
  | nil => simp at h
  | cons e d ih =>
    obtain ⟨k', v'⟩ := e
    rw [Dict.put]
    by_cases hk : k' = k
    · rw [if_pos hk]; rfl
    · rw [if_neg hk]
      simp only [List.map_cons, List.mem_cons] at h
      rw [List.map_cons, List.map_cons, ih (h.resolve_left (fun e => hk e.symm))]

theorem dict_mem_keys_put (d : Dict α) (k n : Str) (v : α) : n ∈ (d.put k v).map Prod.fst ↔ n = k ∨ n ∈ d.map Prod.fst := by
  by_cases h : k ∈ d.map Prod.fst
  · rw [dict_put_keys_old d k v h]
    constructor
    · exact .inr
    · rintro (rfl | h') <;> assumption
  · rw [dict_put_new d k v h]
    simp [or_comm]

theorem dict_put_nodup (d : Dict α) (k : Str) (v : α) (h : (d.map Prod.fst).Nodup) : ((d.put k v).map Prod.fst).Nodup := by
  by_cases hk : k ∈ d.map Prod.fst
  · rwa [dict_put_keys_old d k v hk]
  · rw [dict_put_new d k v hk, List.map_append, List.nodup_append]
    refine ⟨h, by simp, ?_⟩
    intro a ha b hb
    simp only [List.map_cons, List.map_nil, List.mem_singleton] at hb
    rintro rfl
    exact hk (hb ▸ ha)

theorem dict_mem_of_get {d : Dict α} {k : Str} {v : α} (h : d.get k = some v) : (k, v) ∈ d := by
  induction d with
  | nil => cases h
  | cons e d ih =>
    obtain ⟨k', v'⟩ := e
    rw [dict_get_cons] at h
    by_cases hk : k' = k
    · rw [if_pos hk] at h
      cases h; subst hk
      exact List.mem_cons_self
    · rw [if_neg hk] at h
      exact List.mem_cons_of_mem _ (ih h)

theorem dict_get_of_mem {d : Dict α} (hd : (d.map Prod.fst).Nodup) {k : Str} {v : α} (h : (k, v) ∈ d) :
    d.get k = some v := by
  induction d with
  | nil => cases h
  | cons e d ih =>
    obtain ⟨k', v'⟩ := e
    rw [List.map_cons, List.nodup_cons] at hd
    rw [dict_get_cons]
    rcases List.mem_cons.mp h with h | h
    · cases h
      rw [if_pos rfl]
    · have : k' ≠ k := fun e => hd.1 (List.mem_map.mpr ⟨(k, v), h, e.symm⟩)
      rw [if_neg this]
      exact ih hd.2 h

theorem dict_get_none_iff {d : Dict α} {k : Str} : d.get k = none ↔ k ∉ d.map Prod.fst := by
  induction d with
  | nil => simp [dict_get_nil]
  | cons e d ih =>
    obtain ⟨k', v'⟩ := e
    rw [dict_get_cons, List.map_cons, List.mem_cons, not_or]
    by_cases hk : k' = k
    · simp [hk]
    · rw [if_neg hk, ih]
      exact ⟨fun h => ⟨fun e => hk e.symm, h⟩, fun h => h.2⟩

/-- Storing entries with new and distinct keys one after the other appends them. -/
theorem dict_putAll_new (d es : Dict α) (h : ((d ++ es).map Prod.fst).Nodup) :
    es.foldl (fun d e => d.put e.1 e.2) d = d ++ es := by
  induction es generalizing d with
  | nil => simp
  | cons e es ih =>
    have hn : e.1 ∉ d.map Prod.fst := by
      rw [List.map_append, List.nodup_append] at h
      intro hm
      exact h.2.2 _ hm _ (by simp) rfl
    rw [List.foldl_cons, dict_put_new d e.1 e.2 hn, ih]
    · simp
    · simpa using h

end Verif.Proofs
