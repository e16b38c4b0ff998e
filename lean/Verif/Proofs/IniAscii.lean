import Verif.Proofs.IniRead

/-!
# Reading ASCII files: the Unicode tables do not matter
-/

namespace Verif.Proofs

open Spec

variable {U : Uni}

/-- All characters are ASCII. -/
def Asc (s : Str) : Prop := ∀ c ∈ s, isAscii c = true

theorem Asc.of_sub {s t : Str} (h : Asc s) (ht : ∀ c ∈ t, c ∈ s) : Asc t := fun c hc => h c (ht c hc)

theorem space_asc (hU : U.Lawful) {c : Char} (h : isAscii c = true) : U.isSpace c = asciiUni.isSpace c := by
  rw [hU.space_ascii c h]
  simp [asciiUni, h]

theorem dropWhile_congr {α : Type} {p q : α → Bool} {l : List α} (h : ∀ x ∈ l, p x = q x) : l.dropWhile p = l.dropWhile q := by
  induction l with
  | nil => rfl
  | cons x l ih =>
    rw [List.dropWhile_cons, List.dropWhile_cons, h x (by simp), ih (fun y hy => h y (by simp [hy]))]

theorem takeWhile_congr {α : Type} {p q : α → Bool} {l : List α} (h : ∀ x ∈ l, p x = q x) : l.takeWhile p = l.takeWhile q := by
  induction l with
  | nil => rfl
  | cons x l ih =>
    rw [List.takeWhile_cons, List.takeWhile_cons, h x (by simp), ih (fun y hy => h y (by simp [hy]))]

theorem mem_of_dropWhile {α : Type} {p : α → Bool} {l : List α} {x : α} (h : x ∈ l.dropWhile p) : x ∈ l :=
  (List.dropWhile_sublist p).subset h

theorem mem_of_takeWhile {α : Type} {p : α → Bool} {l : List α} {x : α} (h : x ∈ l.takeWhile p) : x ∈ l :=
  (List.takeWhile_sublist p).subset h

theorem rstrip_mem {s : Str} {c : Char} (h : c ∈ rstrip U s) : c ∈ s :=
  List.mem_reverse.mp (mem_of_dropWhile (List.mem_reverse.mp h))

theorem pyStrip_mem {s : Str} {c : Char} (h : c ∈ pyStrip U s) : c ∈ s := mem_of_dropWhile (rstrip_mem (U := U) h)

theorem rstrip_asc (hU : U.Lawful) {s : Str} (h : Asc s) : rstrip U s = rstrip asciiUni s := by
  rw [rstrip, rstrip, dropWhile_congr (fun c hc => space_asc hU (h c (List.mem_reverse.mp hc)))]

theorem pyStrip_asc (hU : U.Lawful) {s : Str} (h : Asc s) : pyStrip U s = pyStrip asciiUni s := by
  change rstrip U (s.dropWhile U.isSpace) = rstrip asciiUni (s.dropWhile asciiUni.isSpace)
  rw [dropWhile_congr (fun c hc => space_asc hU (h c hc)), rstrip_asc hU]
  exact h.of_sub (fun c hc => mem_of_dropWhile hc)

theorem optionLine_asc (hU : U.Lawful) {s : Str} (h : Asc s) : optionLine U s = optionLine asciiUni s := by
  unfold optionLine
  split
  · rfl
  · rename_i c v hv
    have h1 : rstrip U (s.takeWhile (fun c => !iniDelim c)) = rstrip asciiUni (s.takeWhile (fun c => !iniDelim c)) :=
      rstrip_asc hU (h.of_sub (fun c hc => mem_of_takeWhile hc))
    have h2 : pyStrip U v = pyStrip asciiUni v := by
      apply pyStrip_asc hU
      intro x hx
      apply h x
      apply mem_of_dropWhile (p := fun c => !iniDelim c)
      rw [hv]
      exact List.mem_cons_of_mem _ hx
    rw [h2]
    exact congrArg (fun a => some (a, pyStrip asciiUni v)) h1

theorem optionLine_mem {s o v : Str} (h : optionLine U s = some (o, v)) : (∀ c ∈ o, c ∈ s) ∧ ∀ c ∈ v, c ∈ s := by
  unfold optionLine at h
  split at h
  · cases h
  · rename_i c w hw
    cases h
    refine ⟨fun x hx => mem_of_takeWhile (rstrip_mem (U := U) hx), fun x hx => ?_⟩
    apply mem_of_dropWhile (p := fun c => !iniDelim c)
    rw [hw]
    exact List.mem_cons_of_mem _ (pyStrip_mem hx)

theorem lower_asc (hU : U.Lawful) {s : Str} (h : Asc s) : U.lower s = asciiUni.lower s :=
  hU.lower_ascii s (List.all_eq_true.mpr h)

theorem iniLine_asc (hU : U.Lawful) (st : IniState) {l : Str} (h : Asc l) : iniLine U st l = iniLine asciiUni st l := by
  unfold iniLine
  have ho : ∀ (st : IniState) (s : Str), st.optionLine U s (pyStrip asciiUni l) = st.optionLine asciiUni s (pyStrip asciiUni l) := by
    intro st s
    have hp : Asc (pyStrip asciiUni l) := h.of_sub (fun c hc => pyStrip_mem hc)
    unfold IniState.optionLine
    rw [optionLine_asc hU hp]
    split
    · rfl
    · rename_i o v hov
      rw [lower_asc hU (hp.of_sub (optionLine_mem hov).1)]
  rw [pyStrip_asc hU h, takeWhile_congr (fun c hc => space_asc hU (h c hc))]
  simp only [ho]

/-- The values stored are ASCII. -/
def AscDict (d : Dict (List Str)) : Prop := ∀ e ∈ d, ∀ l ∈ e.2, Asc l

def AscState (st : IniState) : Prop := AscDict st.defaults ∧ ∀ s ∈ st.sections, AscDict s.2

theorem dict_mem_put {α : Type} {d : Dict α} {k : Str} {v : α} {e : Str × α} (h : e ∈ d.put k v) : e = (k, v) ∨ e ∈ d := by
  induction d with
  | nil => exact .inl (List.mem_singleton.mp h)
  | cons x d ih =>
    obtain ⟨k', v'⟩ := x
    rw [Dict.put] at h
    split at h
    · rename_i hk
      rcases List.mem_cons.mp h with h | h
      · left; rw [h, hk]
      · exact .inr (List.mem_cons_of_mem _ h)
    · rcases List.mem_cons.mp h with h | h
      · exact .inr (h ▸ List.mem_cons_self)
      · rcases ih h with h | h
        · exact .inl h
        · exact .inr (List.mem_cons_of_mem _ h)

theorem ascDict_put {d : Dict (List Str)} {k : Str} {ls : List Str} (h : AscDict d) (hl : ∀ l ∈ ls, Asc l) : AscDict (d.put k ls) := by
  intro e he
  rcases dict_mem_put he with rfl | he
  · exact hl
  · exact h e he

theorem ascDict_section {st : IniState} (h : AscState st) (s : Str) : AscDict ((st.sections.get s).getD []) := by
  cases hg : st.sections.get s with
  | none => intro e he; cases he
  | some d => exact h.2 (s, d) (dict_mem_of_get hg)

theorem ascState_store {st : IniState} {s o : Str} {ls : List Str} (h : AscState st) (hl : ∀ l ∈ ls, Asc l) :
    AscState (st.store s o ls) := by
  unfold IniState.store
  split
  · exact ⟨ascDict_put h.1 hl, h.2⟩
  · refine ⟨h.1, ?_⟩
    intro e he
    rcases dict_mem_put he with rfl | he
    · exact ascDict_put (ascDict_section h s) hl
    · exact h.2 e he

theorem ascState_append {st : IniState} {s o v : Str} (h : AscState st) (hv : Asc v) : AscState (st.append s o v) := by
  apply ascState_store h
  have hval : AscDict (st.values s) := by
    unfold IniState.values
    split
    · exact h.1
    · exact ascDict_section h s
  intro l hl
  rcases List.mem_append.mp hl with hl | hl
  · cases hg : (st.values s).get o with
    | none => rw [hg] at hl; cases hl
    | some ls =>
      rw [hg] at hl
      exact hval (o, ls) (dict_mem_of_get hg) l hl
  · rw [List.mem_singleton] at hl
    rw [hl]
    exact hv

theorem ascState_header {st st' : IniState} {n : Str} (h : AscState st) (hs : st.header n = .ok st') : AscState st' := by
  unfold IniState.header at hs
  split at hs
  · cases hs; exact h
  · split at hs
    · split at hs
      · cases hs
      · cases hs; exact h
    · cases hs
      refine ⟨h.1, ?_⟩
      intro e he
      rcases dict_mem_put he with rfl | he
      · intro x hx; cases hx
      · exact h.2 e he

theorem ascState_option {st st' : IniState} {s v : Str} (h : AscState st) (hv : Asc v) (hs : st.optionLine U s v = .ok st') :
    AscState st' := by
  unfold IniState.optionLine at hs
  split at hs
  · cases hs; exact h
  · rename_i o w hov
    have hw : ∀ l ∈ [w], Asc l := by
      intro l hl
      rw [List.mem_singleton] at hl
      rw [hl]
      exact hv.of_sub (optionLine_mem hov).2
    dsimp only at hs
    split at hs
    · split at hs
      · cases hs
      · cases hs
        exact ascState_store (st := { st with bad := true }) h hw
    · split at hs
      · cases hs
      · cases hs
        exact ascState_store h hw

theorem ascState_line {st st' : IniState} {l : Str} (h : AscState st) (hl : Asc l) (hs : iniLine U st l = .ok st') :
    AscState st' := by
  have hp : Asc (pyStrip U l) := hl.of_sub (fun c hc => pyStrip_mem hc)
  unfold iniLine at hs
  dsimp only at hs
  split at hs
  · cases hs; exact h
  · split at hs
    · injection hs with hs
      subst hs
      cases st.current with
      | none => exact h
      | some c => exact ascState_append h (fun c hc => (by cases hc))
    · split at hs
      · cases hs
        exact ascState_append h hp
      · split at hs
        · exact ascState_header (st := { st with indent := (l.takeWhile U.isSpace).length }) h hs
        · split at hs
          · cases hs
          · exact ascState_option (st := { st with indent := (l.takeWhile U.isSpace).length }) h hp hs

theorem iniLines_asc (hU : U.Lawful) {ls : List Str} : ∀ {st : IniState}, AscState st → (∀ l ∈ ls, Asc l) →
    iniLines U st ls = iniLines asciiUni st ls ∧ ∀ st', iniLines U st ls = .ok st' → AscState st' := by
  induction ls with
  | nil => intro st h _; exact ⟨rfl, fun st' hs => by cases hs; exact h⟩
  | cons l ls ih =>
    intro st h hl
    rw [iniLines, iniLines, iniLine_asc hU st (hl l (by simp))]
    cases hx : iniLine asciiUni st l with
    | error e => exact ⟨rfl, fun st' hs => by cases hs⟩
    | ok x => exact ih (ascState_line h (hl l (by simp)) hx) (fun m hm => hl m (by simp [hm]))

theorem asc_joinLines {ls : List Str} (h : ∀ l ∈ ls, Asc l) : Asc (joinLines ls) := by
  induction ls with
  | nil => intro c hc; cases hc
  | cons l ls ih =>
    cases ls with
    | nil => exact h l (by simp)
    | cons m ls =>
      rw [joinLines]
      · intro c hc
        rcases List.mem_append.mp hc with hc | hc
        · exact h l (by simp) c hc
        · rcases List.mem_cons.mp hc with rfl | hc
          · decide
          · exact ih (fun x hx => h x (List.mem_cons_of_mem _ hx)) c hc
      · exact fun h => (by cases h)

theorem joinValues_asc (hU : U.Lawful) {d : Dict (List Str)} (h : AscDict d) : joinValues U d = joinValues asciiUni d := by
  unfold joinValues
  apply List.map_congr_left
  intro e he
  exact congrArg (Prod.mk e.1) (rstrip_asc hU (asc_joinLines (h e he)))

theorem fileLines_mem {t l : Str} {c : Char} (hl : l ∈ fileLines t) (hc : c ∈ l) : c ∈ t := by
  obtain ⟨ls, x, h1, h2, -, -⟩ := splitLines_spec t
  have hl' : l ∈ ls ++ [x] := by
    unfold fileLines at hl
    dsimp only at hl
    rw [h1] at hl
    split at hl
    · exact List.dropLast_subset _ hl
    · exact hl
  rw [h2]
  rcases List.mem_append.mp hl' with h | h
  · apply List.mem_append.mpr
    left
    exact List.mem_flatMap.mpr ⟨l, h, List.mem_append.mpr (.inl hc)⟩
  · rw [List.mem_singleton] at h
    rw [← h]
    exact List.mem_append.mpr (.inr hc)

/-- An ASCII file is read as the ASCII tables say. -/
theorem readIni_asc (hU : U.Lawful) {t : Str} (h : t.all isAscii = true) : readIni U t = readIni asciiUni t := by
  have hl : ∀ l ∈ fileLines t, Asc l := fun l hl c hc => List.all_eq_true.mp h c (fileLines_mem hl hc)
  have h0 : AscState {} := ⟨fun e he => (by cases he), fun e he => (by cases he)⟩
  obtain ⟨h1, h2⟩ := iniLines_asc hU h0 hl
  unfold readIni
  rw [← h1]
  cases hr : iniLines U {} (fileLines t) with
  | error e => rfl
  | ok st =>
    obtain ⟨g1, g2⟩ := h2 st hr
    change (if st.bad = true then _ else _) = (if st.bad = true then _ else _)
    rw [joinValues_asc hU g1]
    have : st.sections.map (fun e => (e.1, joinValues U e.2)) = st.sections.map (fun e => (e.1, joinValues asciiUni e.2)) := by
      apply List.map_congr_left
      intro e he
      rw [joinValues_asc hU (g2 e he)]
    rw [this]

end Verif.Proofs
