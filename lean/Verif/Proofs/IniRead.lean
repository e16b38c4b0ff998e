import Verif.Model.IniFile
import Verif.Spec.IniFile
import Verif.Proofs.Dict
import Verif.Proofs.Integer
import Verif.Proofs.AttCertText

/-!
# Lemmas about reading INI files
-/

namespace Verif.Proofs

open Spec

variable {U : Uni}

/-! ### Trimming -/

/-- `s.rstrip()` -/
def rstrip (U : Uni) (s : Str) : Str := (s.reverse.dropWhile U.isSpace).reverse

theorem rstrip_split (U : Uni) (s : Str) : ∃ post, s = rstrip U s ++ post ∧ (∀ c ∈ post, U.isSpace c = true) ∧
    ∀ c, (rstrip U s).getLast? = some c → U.isSpace c = false := by
  obtain ⟨pre, h1, h2, h3⟩ := dropWhile_split U.isSpace s.reverse
  refine ⟨pre.reverse, ?_, fun c hc => h2 c (List.mem_reverse.mp hc), ?_⟩
  · have := congrArg List.reverse h1
    rwa [List.reverse_reverse, List.reverse_append] at this
  · intro c hc
    rw [rstrip, List.getLast?_reverse] at hc
    exact h3 c hc

theorem pyStrip_rstrip (s : Str) : pyStrip U (rstrip U s) = pyStrip U s := by
  symm
  rw [pyStrip_iff]
  obtain ⟨post, h1, h2, -⟩ := rstrip_split U s
  obtain ⟨pre, post', g1, g2, g3, g4, g5⟩ := pyStrip_iff.mp (rfl : pyStrip U (rstrip U s) = _)
  refine ⟨pre, post' ++ post, ?_, g2, ?_, g4, g5⟩
  · conv_lhs => rw [h1, g1]
    simp
  · intro c hc
    rcases List.mem_append.mp hc with hc | hc
    · exact g3 c hc
    · exact h2 c hc

theorem rstrip_spaces {s t : Str} (h : ∀ c ∈ t, U.isSpace c = true) : rstrip U (s ++ t) = rstrip U s := by
  rw [rstrip, rstrip, List.reverse_append, dropWhile_all (fun c hc => h c (List.mem_reverse.mp hc))]

theorem rstrip_id {s : Str} (h : ∀ c, s.getLast? = some c → U.isSpace c = false) : rstrip U s = s := by
  rw [rstrip, dropWhile_head, List.reverse_reverse]
  intro c hc
  rw [List.head?_reverse] at hc
  exact h c hc

theorem rstrip_mid {p : Str} {c : Char} {t : Str} (hc : U.isSpace c = false) :
    rstrip U (p ++ c :: t) = p ++ c :: rstrip U t := by
  obtain ⟨post, h1, h2, h3⟩ := rstrip_split U t
  conv_lhs => rw [h1]
  have e : p ++ c :: (rstrip U t ++ post) = (p ++ c :: rstrip U t) ++ post := by simp
  rw [e, rstrip_spaces h2, rstrip_id]
  intro x hx
  cases hr : rstrip U t with
  | nil => rw [hr] at hx; simp at hx; rw [← hx]; exact hc
  | cons y l =>
    rw [hr] at hx h3
    apply h3 x
    rw [List.getLast?_append] at hx
    simpa using hx

/-- Trimming keeps everything from the first to the last character that is no space. -/
theorem pyStrip_mid {p : Str} {c : Char} {t : Str} (hc : U.isSpace c = false)
    (hp : ∀ x, p.head? = some x → U.isSpace x = false) : pyStrip U (p ++ c :: t) = p ++ c :: rstrip U t := by
  have hd : (p ++ c :: t).dropWhile U.isSpace = p ++ c :: t := by
    apply dropWhile_head
    intro x hx
    cases p with
    | nil => cases hx; exact hc
    | cons y p => exact hp x hx
  change rstrip U ((p ++ c :: t).dropWhile U.isSpace) = _
  rw [hd, rstrip_mid hc]

theorem pyStrip_lead {l s : Str} (h : ∀ c ∈ l, U.isSpace c = true) : pyStrip U (l ++ s) = pyStrip U s := by
  rw [pyStrip, pyStrip, dropWhile_all h]

theorem takeWhile_all {α : Type} {p : α → Bool} {l : List α} {x : α} {m : List α} (h : ∀ y ∈ l, p y = true) (hx : p x = false) :
    (l ++ x :: m).takeWhile p = l := by
  rw [List.takeWhile_append_of_pos h, List.takeWhile_cons, hx]
  simp

theorem dropWhile_until {α : Type} {p : α → Bool} {l : List α} {x : α} {m : List α} (h : ∀ y ∈ l, p y = true) (hx : p x = false) :
    (l ++ x :: m).dropWhile p = x :: m := by
  rw [dropWhile_all h, List.dropWhile_cons, hx]
  simp

/-! ### Dictionaries -/

theorem dict_put_last {α : Type} (d : Dict α) (k : Str) (v w : α) (h : k ∉ d.map Prod.fst) :
    Dict.put (d ++ [(k, v)]) k w = d ++ [(k, w)] := by
  induction d with
  | nil => simp [Dict.put]
  | cons e d ih =>
    obtain ⟨k', v'⟩ := e
    simp only [List.map_cons, List.mem_cons, not_or] at h
    rw [List.cons_append, Dict.put, if_neg (fun e => h.1 e.symm), ih h.2]
    rfl

theorem dict_get_last {α : Type} (d : Dict α) (k : Str) (v : α) (h : k ∉ d.map Prod.fst) :
    Dict.get (d ++ [(k, v)]) k = some v := by
  induction d with
  | nil => rw [List.nil_append, dict_get_cons, if_pos rfl]
  | cons e d ih =>
    obtain ⟨k', v'⟩ := e
    simp only [List.map_cons, List.mem_cons, not_or] at h
    rw [List.cons_append, dict_get_cons, if_neg (fun e => h.1 e.symm), ih h.2]

/-! ### What has been read -/

/-- The options of the default section among the pieces read. -/
def defsOf (ds : List (Str × Dict (List Str))) : Dict (List Str) := (ds.filter (·.1 = theDefault)).flatMap Prod.snd

/-- The other sections. -/
def othersOf (ds : List (Str × Dict (List Str))) : Dict (Dict (List Str)) := ds.filter (·.1 ≠ theDefault)

theorem defsOf_append (a b : List (Str × Dict (List Str))) : defsOf (a ++ b) = defsOf a ++ defsOf b := by
  simp [defsOf]

theorem othersOf_append (a b : List (Str × Dict (List Str))) : othersOf (a ++ b) = othersOf a ++ othersOf b := by
  simp [othersOf]

/-- The state of the reader when it has read the sections `ds`. -/
structure Holds (st : IniState) (ds : List (Str × Dict (List Str))) : Prop where
  defaults : st.defaults = defsOf ds
  sections : st.sections = othersOf ds
  seen_opt : ∀ s o, (s, some o) ∈ st.seen ↔ ∃ es, (s, es) ∈ ds ∧ o ∈ es.map Prod.fst
  seen_sect : ∀ s, (s, none) ∈ st.seen ↔ s ≠ theDefault ∧ s ∈ ds.map Prod.fst
  sect : st.sect = ds.getLast?.map Prod.fst
  indent : st.indent = 0
  bad : st.bad = false

/-- The last section can take an option called `k`. -/
def Free (ds : List (Str × Dict (List Str))) (s : Str) (es : Dict (List Str)) (k : Str) : Prop :=
  k ∉ es.map Prod.fst ∧ (if s = theDefault then k ∉ (defsOf ds).map Prod.fst else s ∉ (othersOf ds).map Prod.fst)

theorem theDefault_eq : theDefault = defaultSect := rfl

/-- Storing a new option, or one that was the last to be stored. -/
theorem store_last {st : IniState} {ds : List (Str × Dict (List Str))} {s k : Str} {es tail : Dict (List Str)} {ls : List Str}
    (h1 : st.defaults = defsOf (ds ++ [(s, es ++ tail)])) (h2 : st.sections = othersOf (ds ++ [(s, es ++ tail)]))
    (ht : tail = [] ∨ ∃ ls', tail = [(k, ls')]) (hf : Free ds s es k) :
    (st.store s k ls).defaults = defsOf (ds ++ [(s, es ++ [(k, ls)])]) ∧
    (st.store s k ls).sections = othersOf (ds ++ [(s, es ++ [(k, ls)])]) := by
  have hput : ∀ d : Dict (List Str), k ∉ d.map Prod.fst → (d ++ tail).put k ls = d ++ [(k, ls)] := by
    intro d hd
    rcases ht with rfl | ⟨ls', rfl⟩
    · rw [List.append_nil, dict_put_new d k ls hd]
    · exact dict_put_last d k ls' ls hd
  obtain ⟨hf1, hf2⟩ := hf
  unfold IniState.store
  rw [← theDefault_eq]
  by_cases hs : s = theDefault
  · rw [if_pos hs] at hf2 ⊢
    dsimp only
    subst hs
    rw [h1, h2]
    simp only [defsOf_append, othersOf_append]
    refine ⟨?_, ?_⟩
    · have e : ∀ x : Dict (List Str), defsOf [(theDefault, x)] = x := by intro x; simp [defsOf]
      rw [e, e, ← List.append_assoc, hput _ (by simp only [List.map_append, List.mem_append, not_or]; exact ⟨hf2, hf1⟩),
        List.append_assoc]
    · simp [othersOf]
  · rw [if_neg hs] at hf2 ⊢
    dsimp only
    rw [h1, h2]
    simp only [defsOf_append, othersOf_append]
    have e : ∀ x : Dict (List Str), othersOf [(s, x)] = [(s, x)] := by intro x; simp [othersOf, hs]
    have e' : ∀ x : Dict (List Str), defsOf [(s, x)] = [] := by intro x; simp [defsOf, hs]
    refine ⟨by rw [e', e'], ?_⟩
    rw [e, e, dict_get_last _ _ _ hf2, Option.getD_some, dict_put_last _ _ _ _ hf2, hput _ hf1]

theorem values_last {st : IniState} {ds : List (Str × Dict (List Str))} {s k : Str} {es : Dict (List Str)} {ls : List Str}
    (h1 : st.defaults = defsOf (ds ++ [(s, es ++ [(k, ls)])])) (h2 : st.sections = othersOf (ds ++ [(s, es ++ [(k, ls)])]))
    (hf : Free ds s es k) : (st.values s).get k = some ls := by
  obtain ⟨hf1, hf2⟩ := hf
  unfold IniState.values
  rw [← theDefault_eq]
  by_cases hs : s = theDefault
  · rw [if_pos hs] at hf2 ⊢
    subst hs
    have e : ∀ x : Dict (List Str), defsOf [(theDefault, x)] = x := by intro x; simp [defsOf]
    rw [h1, defsOf_append, e, ← List.append_assoc,
      dict_get_last _ _ _ (by simp only [List.map_append, List.mem_append, not_or]; exact ⟨hf2, hf1⟩)]
  · rw [if_neg hs] at hf2 ⊢
    have e : ∀ x : Dict (List Str), othersOf [(s, x)] = [(s, x)] := by intro x; simp [othersOf, hs]
    rw [h2, othersOf_append, e, dict_get_last _ _ _ hf2, Option.getD_some, dict_get_last _ _ _ hf1]

/-- Storing changes nothing but the values. -/
theorem store_rest (st : IniState) (s k : Str) (ls : List Str) :
    (st.store s k ls).seen = st.seen ∧ (st.store s k ls).sect = st.sect ∧ (st.store s k ls).option = st.option ∧
    (st.store s k ls).indent = st.indent ∧ (st.store s k ls).bad = st.bad := by
  unfold IniState.store
  split <;> exact ⟨rfl, rfl, rfl, rfl, rfl⟩

/-! ### Lines -/

theorem iniLine_blank {st : IniState} {s : Str} (h : Spaces U s) :
    iniLine U st s = .ok (st.current.elim st (fun c => st.append c.1 c.2 [])) := by
  have : pyStrip U s = [] := pyStrip_nil.mpr (List.all_eq_true.mpr (fun c hc => (h c hc).1))
  unfold iniLine
  rw [this]
  simp

theorem space_ascii_false (hU : U.Lawful) {c : Char} (h : isAscii c = true) (h' : asciiSpace c = false) : U.isSpace c = false := by
  rw [hU.space_ascii c h, h']

theorem iniLine_comment (hU : U.Lawful) {st : IniState} {l t : Str} {m : Char} (h : Spaces U l) (hm : m = '#' ∨ m = ';') :
    iniLine U st (l ++ m :: t) = .ok st := by
  have hms : U.isSpace m = false := by
    rcases hm with rfl | rfl
    · exact space_ascii_false hU (by decide) (by decide)
    · exact space_ascii_false hU (by decide) (by decide)
  have : pyStrip U (l ++ m :: t) = m :: rstrip U t := by
    rw [pyStrip_lead (fun c hc => (h c hc).1)]
    exact pyStrip_mid (p := []) hms (fun _ h => (by cases h))
  unfold iniLine
  rw [this]
  dsimp only
  rw [if_pos (by rcases hm with rfl | rfl <;> simp)]

/-- A note has no effect where no value can go on. -/
theorem iniLine_note (hU : U.Lawful) {st : IniState} {v : ValueLine} (h : v.Ok U) (hn : v.Note) (hc : st.current = none) :
    iniLine U st v.line = .ok st := by
  cases v with
  | blank s => rw [ValueLine.line, iniLine_blank h, hc]; rfl
  | comment l m t => exact iniLine_comment hU h.1 h.2.1
  | text l t r => exact hn.elim

theorem iniLines_append (st : IniState) (a b : List Str) :
    iniLines U st (a ++ b) = (iniLines U st a).bind (fun st => iniLines U st b) := by
  induction a generalizing st with
  | nil => rfl
  | cons l a ih =>
    rw [List.cons_append, iniLines, iniLines]
    cases iniLine U st l with
    | error e => rfl
    | ok x => exact ih x

theorem iniLines_notes (hU : U.Lawful) {st : IniState} {vs : List ValueLine} (h : ∀ v ∈ vs, v.Ok U ∧ v.Note)
    (hc : st.current = none) : iniLines U st (vs.map ValueLine.line) = .ok st := by
  induction vs with
  | nil => rfl
  | cons v vs ih =>
    rw [List.map_cons, iniLines, iniLine_note hU (h v (by simp)).1 (h v (by simp)).2 hc]
    exact ih (fun w hw => h w (by simp [hw]))

theorem append_holds {st : IniState} {ds : List (Str × Dict (List Str))} {s k : Str} {es : Dict (List Str)} {ls : List Str} {t : Str}
    (hh : Holds st (ds ++ [(s, es ++ [(k, ls)])])) (ho : st.option = some k) (hf : Free ds s es k) :
    Holds (st.append s k t) (ds ++ [(s, es ++ [(k, ls ++ [t])])]) ∧ (st.append s k t).option = some k := by
  unfold IniState.append
  rw [values_last hh.defaults hh.sections hf, Option.getD_some]
  obtain ⟨r1, r2, r3, r4, r5⟩ := store_rest st s k (ls ++ [t])
  obtain ⟨s1, s2⟩ := store_last (ls := ls ++ [t]) hh.defaults hh.sections (.inr ⟨ls, rfl⟩) hf
  refine ⟨⟨s1, s2, ?_, ?_, ?_, by rw [r4]; exact hh.indent, by rw [r5]; exact hh.bad⟩, by rw [r3]; exact ho⟩
  · intro a o
    rw [r1, hh.seen_opt]
    simp only [List.mem_append, List.mem_singleton]
    constructor
    · rintro ⟨es', h | h, ho⟩
      · exact ⟨es', .inl h, ho⟩
      · cases h; exact ⟨_, .inr rfl, by simpa using ho⟩
    · rintro ⟨es', h | h, ho⟩
      · exact ⟨es', .inl h, ho⟩
      · cases h; exact ⟨_, .inr rfl, by simpa using ho⟩
  · intro a
    rw [r1, hh.seen_sect]
    simp
  · rw [r2, hh.sect]
    simp

theorem current_of {st : IniState} {ds : List (Str × Dict (List Str))} {s k : Str} {es : Dict (List Str)}
    (hh : Holds st (ds ++ [(s, es)])) (ho : st.option = some k) (hk : k ≠ []) : st.current = some (s, k) := by
  unfold IniState.current
  have : st.sect = some s := by rw [hh.sect]; simp
  rw [this, ho]
  simp [hk]

/-- A line behind an option adds to its value. -/
theorem iniLine_more (hU : U.Lawful) {st : IniState} {ds : List (Str × Dict (List Str))} {s k : Str} {es : Dict (List Str)}
    {ls : List Str} {v : ValueLine} (hv : v.Ok U)
    (hh : Holds st (ds ++ [(s, es ++ [(k, ls)])])) (ho : st.option = some k) (hk : k ≠ []) (hf : Free ds s es k) :
    ∃ st', iniLine U st v.line = .ok st' ∧ Holds st' (ds ++ [(s, es ++ [(k, ls ++ v.adds)])]) ∧ st'.option = some k := by
  have hc := current_of hh ho hk
  cases v with
  | blank x =>
    rw [ValueLine.line, iniLine_blank hv, hc]
    exact ⟨_, rfl, append_holds hh ho hf⟩
  | comment l m t =>
    refine ⟨st, iniLine_comment hU hv.1 hv.2.1, ?_, ho⟩
    rw [ValueLine.adds, List.append_nil]
    exact hh
  | text l t r =>
    obtain ⟨hl, hls, htn, ⟨-, ht2, ht3⟩, ht4, ht5, hr⟩ := hv
    have hst : pyStrip U (l ++ (t ++ r)) = t :=
      pyStrip_iff.mpr ⟨l, r, rfl, fun c hc => (hls c hc).1, fun c hc => (hr c hc).1, ht2, ht3⟩
    have hind : ((l ++ (t ++ r)).takeWhile U.isSpace).length = l.length := by
      cases t with
      | nil => exact absurd rfl htn
      | cons c t => rw [List.cons_append, takeWhile_all (fun y hy => (hls y hy).1) (ht2 c rfl)]
    have hlen : 0 < l.length := List.length_pos_iff.mpr hl
    refine ⟨st.append s k t, ?_, append_holds hh ho hf⟩
    rw [ValueLine.line]
    unfold iniLine
    rw [hst]
    dsimp only
    rw [if_neg (by rintro (h | h); exacts [ht4 h, ht5 h]), if_neg htn, hind, hh.indent, if_pos hlen, hc]

theorem iniLines_more (hU : U.Lawful) {ds : List (Str × Dict (List Str))} {s k : Str} {es : Dict (List Str)}
    {vs : List ValueLine} (hv : ∀ v ∈ vs, v.Ok U) (hk : k ≠ []) (hf : Free ds s es k) :
    ∀ {st : IniState} {ls : List Str}, Holds st (ds ++ [(s, es ++ [(k, ls)])]) → st.option = some k →
    ∃ st', iniLines U st (vs.map ValueLine.line) = .ok st' ∧
      Holds st' (ds ++ [(s, es ++ [(k, ls ++ vs.flatMap ValueLine.adds)])]) ∧ st'.option = some k := by
  induction vs with
  | nil =>
    intro st ls hh ho
    refine ⟨st, rfl, ?_, ho⟩
    rw [List.flatMap_nil, List.append_nil]
    exact hh
  | cons v vs ih =>
    intro st ls hh ho
    obtain ⟨st1, h1, h2, h3⟩ := iniLine_more hU (hv v (by simp)) hh ho hk hf
    obtain ⟨st2, g1, g2, g3⟩ := ih (fun w hw => hv w (by simp [hw])) h2 h3
    refine ⟨st2, ?_, ?_, g3⟩
    · rw [List.map_cons, iniLines, h1]; exact g1
    · rw [List.flatMap_cons, ← List.append_assoc]; exact g2

/-! ### Headers and options -/

theorem iniLine_unindented {st : IniState} {line value : Str} (hv : pyStrip U line = value) (h0 : value ≠ [])
    (h1 : value.head? ≠ some '#') (h2 : value.head? ≠ some ';') (hi : st.indent = 0)
    (hs : ∀ c, line.head? = some c → U.isSpace c = false) :
    iniLine U st line = match sectHeader value with
      | some name => st.header name
      | none => match st.sect with
        | none => .error .missingSectionHeader
        | some s => st.optionLine U s value := by
  have hind : (line.takeWhile U.isSpace).length = 0 := by
    cases line with
    | nil => rfl
    | cons c l => rw [List.takeWhile_cons, hs c rfl]; rfl
  have hst : ({ st with indent := 0 } : IniState) = st := by
    cases st; cases hi; rfl
  unfold iniLine
  rw [hv]
  dsimp only
  rw [if_neg (by rintro (h | h); exacts [h1 h, h2 h]), if_neg h0, hind, if_neg (by omega), hst]
  rfl

theorem sectHeader_name {name t : Str} (h1 : name ≠ []) (h2 : ']' ∉ name) :
    sectHeader ('[' :: (name ++ ']' :: t)) = some name := by
  change (if (name ++ ']' :: t).takeWhile (fun c => decide (c ≠ ']')) ≠ [] ∧
    ((name ++ ']' :: t).dropWhile (fun c => decide (c ≠ ']'))).head? = some ']' then
      some ((name ++ ']' :: t).takeWhile (fun c => decide (c ≠ ']'))) else none) = _
  have hn : ∀ y ∈ name, (decide (y ≠ ']')) = true := by
    intro y hy
    rw [decide_eq_true_iff]
    rintro rfl
    exact h2 hy
  rw [takeWhile_all hn (by simp), dropWhile_until hn (by simp)]
  simp [h1]

theorem iniLine_header (hU : U.Lawful) {st : IniState} {s : Section} (hs : s.Ok U) (hi : st.indent = 0) :
    iniLine U st ('[' :: (s.name ++ ']' :: s.trail)) = st.header s.name := by
  have hb : U.isSpace '[' = false := space_ascii_false hU (by decide) (by decide)
  have hb' : U.isSpace ']' = false := space_ascii_false hU (by decide) (by decide)
  have hv : pyStrip U ('[' :: (s.name ++ ']' :: s.trail)) = '[' :: (s.name ++ ']' :: rstrip U s.trail) := by
    have := pyStrip_mid (U := U) (p := '[' :: s.name) (c := ']') (t := s.trail) hb' (by intro x hx; cases hx; exact hb)
    exact this
  rw [iniLine_unindented hv (by simp) (by simp) (by simp) hi (by intro c hc; cases hc; exact hb),
    sectHeader_name hs.name_ne hs.name.1]

theorem option_parts (hU : U.Lawful) {e : Entry} (he : e.Ok U) (t : Str) :
    optionLine U (e.name ++ (e.before ++ e.delim :: t)) = some (e.name, pyStrip U t) := by
  have hd : ∀ c, iniDelim c = true → U.isSpace c = false := by
    intro c hc
    simp only [iniDelim, Bool.or_eq_true, decide_eq_true_eq] at hc
    rcases hc with rfl | rfl
    · exact space_ascii_false hU (by decide) (by decide)
    · exact space_ascii_false hU (by decide) (by decide)
  have hall : ∀ y ∈ e.name ++ e.before, (!iniDelim y) = true := by
    intro y hy
    rw [Bool.not_eq_true']
    by_contra hc
    rw [Bool.not_eq_false] at hc
    rcases List.mem_append.mp hy with hy | hy
    · simp only [iniDelim, Bool.or_eq_true, decide_eq_true_eq] at hc
      rcases hc with rfl | rfl
      · exact he.name_delim.1 hy
      · exact he.name_delim.2 hy
    · have := (he.before y hy).1
      rw [hd y hc] at this
      cases this
  have hx : (!iniDelim e.delim) = false := by
    rcases he.delim with h | h <;> rw [h] <;> decide
  unfold optionLine
  rw [← List.append_assoc, dropWhile_until hall hx, takeWhile_all hall hx]
  dsimp only
  have : ((e.name ++ e.before).reverse.dropWhile U.isSpace).reverse = rstrip U (e.name ++ e.before) := rfl
  rw [this, rstrip_spaces (fun c hc => (he.before c hc).1), rstrip_id he.name_trim.2.2]

theorem sectHeader_none {s : Str} (h : s.head? ≠ some '[') : sectHeader s = none := by
  cases s with
  | nil => rfl
  | cons c s =>
    unfold sectHeader
    split
    · rename_i hc
      injection hc with hc _
      subst hc
      exact absurd rfl h
    · rfl

/-- The line of an option. -/
theorem iniLine_entry_any (hU : U.Lawful) {st : IniState} {e : Entry} (he : e.Ok U) (hi : st.indent = 0) :
    iniLine U st (e.name ++ (e.before ++ e.delim :: (e.after ++ (e.first ++ e.trail)))) =
      match st.sect with
      | none => .error .missingSectionHeader
      | some s =>
        if (s, some (U.lower e.name)) ∈ st.seen then .error (.duplicateOption s (U.lower e.name))
        else .ok { (st.store s (U.lower e.name) [e.first]) with
          option := some (U.lower e.name), seen := (s, some (U.lower e.name)) :: st.seen } := by
  have hdel : U.isSpace e.delim = false := by
    rcases he.delim with h | h <;> rw [h] <;> exact space_ascii_false hU (by decide) (by decide)
  have hhead : ∀ t c, (e.name ++ t).head? = some c → e.name.head? = some c := by
    intro t c hc
    cases hn : e.name with
    | nil => exact absurd hn he.name_ne
    | cons x l => rw [hn] at hc; exact hc
  have hv : pyStrip U (e.name ++ (e.before ++ e.delim :: (e.after ++ (e.first ++ e.trail)))) =
      e.name ++ (e.before ++ e.delim :: rstrip U (e.after ++ (e.first ++ e.trail))) := by
    have := pyStrip_mid (U := U) (p := e.name ++ e.before) (t := e.after ++ (e.first ++ e.trail)) hdel
      (fun x hx => he.name_trim.2.1 x (hhead _ _ hx))
    rwa [List.append_assoc, List.append_assoc] at this
  have hfirst : pyStrip U (e.after ++ (e.first ++ e.trail)) = e.first :=
    pyStrip_iff.mpr ⟨e.after, e.trail, rfl, fun c hc => (he.after c hc).1, fun c hc => (he.trail c hc).1,
      he.first.2.1, he.first.2.2⟩
  rw [iniLine_unindented hv (by simp [he.name_ne]) (fun h => he.name_head.1 (hhead _ _ h))
    (fun h => he.name_head.2.1 (hhead _ _ h)) hi (fun c hc => he.name_trim.2.1 c (hhead _ _ hc)),
    sectHeader_none (fun h => he.name_head.2.2 (hhead _ _ h))]
  dsimp only
  cases st.sect with
  | none => rfl
  | some s =>
    dsimp only
    unfold IniState.optionLine
    rw [option_parts hU he, pyStrip_rstrip, hfirst]
    dsimp only
    rw [if_neg he.name_ne]

theorem iniLine_entry (hU : U.Lawful) {st : IniState} {e : Entry} {s : Str} (he : e.Ok U) (hi : st.indent = 0)
    (hs : st.sect = some s) :
    iniLine U st (e.name ++ (e.before ++ e.delim :: (e.after ++ (e.first ++ e.trail)))) =
      (if (s, some (U.lower e.name)) ∈ st.seen then .error (.duplicateOption s (U.lower e.name))
       else .ok { (st.store s (U.lower e.name) [e.first]) with
        option := some (U.lower e.name), seen := (s, some (U.lower e.name)) :: st.seen }) := by
  rw [iniLine_entry_any hU he hi, hs]

/-- An option with the lines of its value. -/
theorem iniLines_entry (hU : U.Lawful) {st : IniState} {ds : List (Str × Dict (List Str))} {s : Str} {es : Dict (List Str)}
    {e : Entry} (he : e.Ok U) (hh : Holds st (ds ++ [(s, es)])) (hf : Free ds s es (U.lower e.name)) :
    ∃ st', iniLines U st e.lines = .ok st' ∧ Holds st' (ds ++ [(s, es ++ [(U.lower e.name, e.valueLines)])]) := by
  have hs : st.sect = some s := by rw [hh.sect]; simp
  have hns : (s, some (U.lower e.name)) ∉ st.seen := by
    rw [hh.seen_opt]
    rintro ⟨es', h, ho⟩
    rcases List.mem_append.mp h with h | h
    · obtain ⟨-, hf2⟩ := hf
      by_cases hd : s = theDefault
      · rw [if_pos hd] at hf2
        apply hf2
        obtain ⟨p, hp, he⟩ := List.mem_map.mp ho
        refine List.mem_map.mpr ⟨p, ?_, he⟩
        rw [defsOf, List.mem_flatMap]
        exact ⟨(s, es'), List.mem_filter.mpr ⟨h, by simp [hd]⟩, hp⟩
      · rw [if_neg hd] at hf2
        apply hf2
        exact List.mem_map.mpr ⟨(s, es'), List.mem_filter.mpr ⟨h, by simp [hd]⟩, rfl⟩
    · rw [List.mem_singleton] at h
      cases h
      exact hf.1 ho
  obtain ⟨r1, r2, r3, r4, r5⟩ := store_rest st s (U.lower e.name) [e.first]
  obtain ⟨s1, s2⟩ := store_last (ls := [e.first]) (es := es) (tail := []) (ds := ds) (s := s) (k := U.lower e.name)
    (by rw [List.append_nil]; exact hh.defaults) (by rw [List.append_nil]; exact hh.sections) (.inl rfl) hf
  have hline := iniLine_entry hU he hh.indent hs
  rw [if_neg hns] at hline
  have hh' : Holds { (st.store s (U.lower e.name) [e.first]) with
        option := some (U.lower e.name), seen := (s, some (U.lower e.name)) :: st.seen }
      (ds ++ [(s, es ++ [(U.lower e.name, [e.first])])]) := by
    refine ⟨s1, s2, ?_, ?_, ?_, by dsimp only; rw [r4]; exact hh.indent, by dsimp only; rw [r5]; exact hh.bad⟩
    · intro a o
      dsimp only
      rw [List.mem_cons, hh.seen_opt]
      simp only [List.mem_append, List.mem_singleton, Prod.mk.injEq, Option.some.injEq]
      constructor
      · rintro (⟨rfl, rfl⟩ | ⟨es', h | ⟨rfl, rfl⟩, ho⟩)
        · exact ⟨_, .inr ⟨rfl, rfl⟩, by simp⟩
        · exact ⟨es', .inl h, ho⟩
        · exact ⟨_, .inr ⟨rfl, rfl⟩, by simp only [List.map_append, List.mem_append]; exact .inl ho⟩
      · rintro ⟨es', h | ⟨rfl, rfl⟩, ho⟩
        · exact .inr ⟨es', .inl h, ho⟩
        · simp only [List.map_append, List.mem_append, List.map_cons, List.map_nil, List.mem_singleton] at ho
          rcases ho with ho | ho
          · exact .inr ⟨_, .inr ⟨rfl, rfl⟩, ho⟩
          · exact .inl ⟨rfl, ho⟩
    · intro a
      dsimp only
      rw [List.mem_cons, hh.seen_sect]
      simp
    · dsimp only
      rw [r2, hs]
      simp
  obtain ⟨st', g1, g2, -⟩ := iniLines_more hU he.more he.lower_ne hf hh' rfl
  refine ⟨st', ?_, g2⟩
  rw [Entry.lines, iniLines, hline]
  exact g1

/-! ### Sections and documents -/

/-- Nothing is repeated in the pieces. -/
structure Fresh (ds : List (Str × Dict (List Str))) : Prop where
  names : ((othersOf ds).map Prod.fst).Nodup
  defaults : ((defsOf ds).map Prod.fst).Nodup
  options : ∀ s ∈ othersOf ds, (s.2.map Prod.fst).Nodup

theorem Fresh.left {a b : List (Str × Dict (List Str))} (h : Fresh (a ++ b)) : Fresh a := by
  obtain ⟨h1, h2, h3⟩ := h
  rw [othersOf_append, List.map_append] at h1
  rw [defsOf_append, List.map_append] at h2
  rw [othersOf_append] at h3
  exact ⟨(List.nodup_append.mp h1).1, (List.nodup_append.mp h2).1, fun s hs => h3 s (List.mem_append.mpr (.inl hs))⟩

theorem Fresh.free {ds : List (Str × Dict (List Str))} {s k : Str} {es tail : Dict (List Str)} {ls : List Str}
    (h : Fresh (ds ++ [(s, es ++ (k, ls) :: tail)])) : Free ds s es k := by
  obtain ⟨h1, h2, h3⟩ := h
  rw [othersOf_append, List.map_append] at h1
  rw [defsOf_append, List.map_append] at h2
  rw [othersOf_append] at h3
  by_cases hs : s = theDefault
  · subst hs
    have e : ∀ x : Dict (List Str), defsOf [(theDefault, x)] = x := by intro x; simp [defsOf]
    rw [e, List.map_append, List.map_cons] at h2
    obtain ⟨-, h4, h5⟩ := List.nodup_append.mp h2
    obtain ⟨-, -, h6⟩ := List.nodup_append.mp h4
    refine ⟨fun hk => h6 k hk k (by simp) rfl, ?_⟩
    rw [if_pos rfl]
    exact fun hk => h5 k hk k (by simp) rfl
  · have e : ∀ x : Dict (List Str), othersOf [(s, x)] = [(s, x)] := by intro x; simp [othersOf, hs]
    rw [e] at h1 h3
    have h4 := h3 (s, es ++ (k, ls) :: tail) (by simp)
    rw [List.map_append, List.map_cons] at h4
    refine ⟨fun hk => (List.nodup_append.mp h4).2.2 k hk k (by simp) rfl, ?_⟩
    rw [if_neg hs]
    exact fun hk => (List.nodup_append.mp h1).2.2 s hk s (by simp) rfl

/-- The header of a new section. -/
theorem header_holds {st : IniState} {ds : List (Str × Dict (List Str))} {s : Str} (hh : Holds st ds)
    (hn : s = theDefault ∨ s ∉ (othersOf ds).map Prod.fst) :
    ∃ st', st.header s = .ok st' ∧ Holds st' (ds ++ [(s, [])]) ∧ st'.option = none := by
  have hopt : ∀ (a o : Str), (∃ es, (a, es) ∈ ds ∧ o ∈ es.map Prod.fst) ↔
      ∃ es, (a, es) ∈ ds ++ [(s, [])] ∧ o ∈ es.map Prod.fst := by
    intro a o
    constructor
    · rintro ⟨es, h, ho⟩; exact ⟨es, by simp [h], ho⟩
    · rintro ⟨es, h, ho⟩
      rcases List.mem_append.mp h with h | h
      · exact ⟨es, h, ho⟩
      · rw [List.mem_singleton] at h
        cases h
        cases ho
  unfold IniState.header
  by_cases hd : s = theDefault
  · rw [if_pos (hd.trans theDefault_eq)]
    refine ⟨_, rfl, ⟨?_, ?_, ?_, ?_, ?_, hh.indent, hh.bad⟩, rfl⟩
    · dsimp only; rw [hh.defaults, defsOf_append, hd]; simp [defsOf]
    · dsimp only; rw [hh.sections, othersOf_append, hd]; simp [othersOf]
    · intro a o; dsimp only; rw [hh.seen_opt, hopt]
    · intro a
      dsimp only
      rw [hh.seen_sect, hd]
      simp only [List.map_append, List.map_cons, List.map_nil, List.mem_append, List.mem_singleton]
      constructor
      · rintro ⟨h1, h2⟩; exact ⟨h1, .inl h2⟩
      · rintro ⟨h1, h2 | h2⟩
        · exact ⟨h1, h2⟩
        · exact absurd h2 h1
    · dsimp only; simp
  · have hn : s ∉ (othersOf ds).map Prod.fst := hn.resolve_left hd
    have hg : st.sections.get s = none := by rw [hh.sections]; exact dict_get_none_iff.mpr hn
    rw [if_neg (fun h => hd (h.trans theDefault_eq.symm)), hg]
    refine ⟨_, rfl, ⟨?_, ?_, ?_, ?_, ?_, hh.indent, hh.bad⟩, rfl⟩
    · dsimp only; rw [hh.defaults, defsOf_append]; simp [defsOf, hd]
    · dsimp only
      rw [hh.sections, dict_put_new _ _ _ hn, othersOf_append]
      simp [othersOf, hd]
    · intro a o
      dsimp only
      rw [List.mem_cons, hh.seen_opt, hopt]
      simp
    · intro a
      dsimp only
      rw [List.mem_cons, hh.seen_sect]
      simp only [List.map_append, List.map_cons, List.map_nil, List.mem_append, List.mem_singleton, Prod.mk.injEq, and_true]
      constructor
      · rintro (rfl | ⟨h1, h2⟩)
        · exact ⟨hd, .inr rfl⟩
        · exact ⟨h1, .inl h2⟩
      · rintro ⟨h1, h2 | h2⟩
        · exact .inr ⟨h1, h2⟩
        · exact .inl h2
    · dsimp only; simp

theorem iniLines_entries (hU : U.Lawful) {ds : List (Str × Dict (List Str))} {s : Str} {entries : List Entry} :
    ∀ {st : IniState} {es : Dict (List Str)}, (∀ e ∈ entries, e.Ok U) → Holds st (ds ++ [(s, es)]) →
    Fresh (ds ++ [(s, es ++ entries.map (fun e => (U.lower e.name, e.valueLines)))]) →
    ∃ st', iniLines U st (entries.flatMap Entry.lines) = .ok st' ∧
      Holds st' (ds ++ [(s, es ++ entries.map (fun e => (U.lower e.name, e.valueLines)))]) := by
  induction entries with
  | nil =>
    intro st es _ hh _
    refine ⟨st, rfl, ?_⟩
    rw [List.map_nil, List.append_nil]
    exact hh
  | cons e entries ih =>
    intro st es he hh hf
    obtain ⟨st1, h1, h2⟩ := iniLines_entry hU (he e (by simp)) hh (Fresh.free hf)
    have ee : es ++ (e :: entries).map (fun e => (U.lower e.name, e.valueLines)) =
        (es ++ [(U.lower e.name, e.valueLines)]) ++ entries.map (fun e => (U.lower e.name, e.valueLines)) := by simp
    rw [ee] at hf ⊢
    obtain ⟨st2, g1, g2⟩ := ih (fun x hx => he x (by simp [hx])) h2 hf
    refine ⟨st2, ?_, g2⟩
    rw [List.flatMap_cons, iniLines_append, h1]
    exact g1

theorem iniLines_section (hU : U.Lawful) {st : IniState} {ds : List (Str × Dict (List Str))} {s : Section} (hs : s.Ok U)
    (hh : Holds st ds) (hf : Fresh (ds ++ [(s.name, s.options U)])) :
    ∃ st', iniLines U st s.lines = .ok st' ∧ Holds st' (ds ++ [(s.name, s.options U)]) := by
  have hn : s.name = theDefault ∨ s.name ∉ (othersOf ds).map Prod.fst := by
    by_cases hd : s.name = theDefault
    · exact .inl hd
    · right
      have h1 := hf.names
      rw [othersOf_append, List.map_append] at h1
      have e : ∀ x : Dict (List Str), othersOf [(s.name, x)] = [(s.name, x)] := by intro x; simp [othersOf, hd]
      rw [e] at h1
      exact fun hk => (List.nodup_append.mp h1).2.2 s.name hk s.name (by simp) rfl
  obtain ⟨st1, h1, h2, h3⟩ := header_holds hh hn
  have hc : st1.current = none := by
    unfold IniState.current
    rw [h3]
    cases st1.sect <;> rfl
  obtain ⟨st2, g1, g2⟩ := iniLines_entries hU (es := []) hs.entries h2 (by rw [List.nil_append]; exact hf)
  refine ⟨st2, ?_, g2⟩
  rw [Section.lines, iniLines, iniLine_header hU hs hh.indent, h1]
  change iniLines U st1 _ = _
  rw [iniLines_append, iniLines_notes hU hs.notes hc]
  exact g1

/-- The pieces of a document. -/
def pieces (U : Uni) (ss : List Section) : List (Str × Dict (List Str)) := ss.map (fun s => (s.name, s.options U))

theorem iniLines_sections (hU : U.Lawful) {ss : List Section} :
    ∀ {st : IniState} {ds : List (Str × Dict (List Str))}, (∀ s ∈ ss, s.Ok U) → Holds st ds → Fresh (ds ++ pieces U ss) →
    ∃ st', iniLines U st (ss.flatMap Section.lines) = .ok st' ∧ Holds st' (ds ++ pieces U ss) := by
  induction ss with
  | nil =>
    intro st ds _ hh _
    refine ⟨st, rfl, ?_⟩
    rw [pieces, List.map_nil, List.append_nil]
    exact hh
  | cons s ss ih =>
    intro st ds hs hh hf
    have e : ds ++ pieces U (s :: ss) = (ds ++ [(s.name, s.options U)]) ++ pieces U ss := by
      simp [pieces]
    rw [e] at hf ⊢
    obtain ⟨st1, h1, h2⟩ := iniLines_section hU (hs s (by simp)) hh hf.left
    obtain ⟨st2, g1, g2⟩ := ih (fun x hx => hs x (by simp [hx])) h2 hf
    refine ⟨st2, ?_, g2⟩
    rw [List.flatMap_cons, iniLines_append, h1]
    exact g1

theorem holds_start : Holds {} [] :=
  ⟨rfl, rfl, fun _ _ => ⟨fun h => (by cases h), fun ⟨_, h, _⟩ => (by cases h)⟩,
    fun _ => ⟨fun h => (by cases h), fun ⟨_, h⟩ => (by cases h)⟩, rfl, rfl, rfl⟩

theorem defsOf_pieces (d : Document) : defsOf (pieces U d.sections) = d.defaults U := by
  unfold defsOf pieces Document.defaults
  rw [List.filter_map, List.flatMap_map]
  rfl

theorem othersOf_pieces (d : Document) : othersOf (pieces U d.sections) = d.others U := by
  unfold othersOf pieces Document.others
  rw [List.filter_map]
  rfl

/-- The state after a document. -/
theorem iniLines_document (hU : U.Lawful) {d : Document} (hd : d.Ok U) (hf : d.Distinct U) :
    ∃ st, iniLines U {} d.lines = .ok st ∧ Holds st (pieces U d.sections) := by
  have hf' : Fresh (pieces U d.sections) :=
    ⟨by rw [othersOf_pieces]; exact hf.names, by rw [defsOf_pieces]; exact hf.defaults,
      by rw [othersOf_pieces]; exact hf.options⟩
  obtain ⟨st, h1, h2⟩ := iniLines_sections hU hd.sections holds_start (by rw [List.nil_append]; exact hf')
  rw [List.nil_append] at h2
  refine ⟨st, ?_, h2⟩
  rw [Document.lines, iniLines_append, iniLines_notes hU hd.notes rfl]
  exact h1

/-! ### Lines that cannot be read -/

theorem header_bad {st st' : IniState} {n : Str} (h : st.header n = .ok st') : st'.bad = st.bad := by
  unfold IniState.header at h
  split at h
  · cases h; rfl
  · split at h
    · split at h
      · cases h
      · cases h; rfl
    · cases h; rfl

theorem optionLine_bad {st st' : IniState} {s v : Str} (h : st.optionLine U s v = .ok st') (hb : st.bad = true) :
    st'.bad = true := by
  unfold IniState.optionLine at h
  split at h
  · cases h; rfl
  · dsimp only at h
    split at h
    · split at h
      · cases h
      · cases h
        dsimp only
        rw [(store_rest _ _ _ _).2.2.2.2]
    · split at h
      · cases h
      · cases h
        dsimp only
        rw [(store_rest _ _ _ _).2.2.2.2]
        exact hb

/-- Once a line could not be parsed the file is not accepted any more. -/
theorem iniLine_bad {st st' : IniState} {l : Str} (h : iniLine U st l = .ok st') (hb : st.bad = true) : st'.bad = true := by
  unfold iniLine at h
  dsimp only at h
  split at h
  · cases h; exact hb
  · split at h
    · injection h with h
      subst h
      cases st.current with
      | none => exact hb
      | some c => exact (store_rest _ _ _ _).2.2.2.2.trans hb
    · split at h
      · cases h
        exact (store_rest _ _ _ _).2.2.2.2.trans hb
      · split at h
        · exact (header_bad h).trans hb
        · split at h
          · cases h
          · exact optionLine_bad h hb

theorem iniLines_bad {st st' : IniState} {ls : List Str} (h : iniLines U st ls = .ok st') (hb : st.bad = true) :
    st'.bad = true := by
  induction ls generalizing st with
  | nil => cases h; exact hb
  | cons l ls ih =>
    rw [iniLines] at h
    cases hl : iniLine U st l with
    | error e => rw [hl] at h; cases h
    | ok x => rw [hl] at h; exact ih h (iniLine_bad hl hb)

/-! ### The lines of a text -/

theorem fileLines_textOf {ls : List Str} (h : NoBreak ls) : fileLines (textOf ls) = ls := by
  have : splitLines (textOf ls) = ls ++ [[]] := by
    have := splitLines_unlines h []
    rwa [List.append_nil] at this
  unfold fileLines
  rw [this]
  simp

theorem fileLines_last {ls : List Str} (h : NoBreak ls) {l : Str} (hl : '\n' ∉ l) (h0 : l ≠ []) :
    fileLines (textOf ls ++ l) = ls ++ [l] := by
  have : splitLines (textOf ls ++ l) = ls ++ [l] := by
    have := splitLines_unlines h l
    rwa [splitLines_single hl] at this
  unfold fileLines
  rw [this]
  simp [h0]

/-- Every text is made of lines. -/
theorem splitLines_spec (t : Str) : ∃ ls l, splitLines t = ls ++ [l] ∧ t = textOf ls ++ l ∧ NoBreak ls ∧ '\n' ∉ l := by
  induction t with
  | nil => exact ⟨[], [], rfl, rfl, noBreak_nil, by simp⟩
  | cons c t ih =>
    obtain ⟨ls, l, h1, h2, h3, h4⟩ := ih
    rw [splitLines]
    by_cases hc : c = '\n'
    · rw [if_pos hc, h1]
      refine ⟨[] :: ls, l, rfl, ?_, ?_, h4⟩
      · rw [hc, h2]; simp [textOf]
      · intro x hx
        rcases List.mem_cons.mp hx with rfl | hx
        · simp
        · exact h3 x hx
    · rw [if_neg hc, h1]
      cases ls with
      | nil =>
        refine ⟨[], c :: l, rfl, ?_, noBreak_nil, ?_⟩
        · rw [h2]; simp [textOf]
        · simp only [List.mem_cons, not_or]; exact ⟨Ne.symm hc, h4⟩
      | cons x ls =>
        refine ⟨(c :: x) :: ls, l, rfl, ?_, ?_, h4⟩
        · rw [h2]; simp [textOf]
        · intro y hy
          rcases List.mem_cons.mp hy with rfl | hy
          · simp only [List.mem_cons, not_or]; exact ⟨Ne.symm hc, h3 x (by simp)⟩
          · exact h3 y (by simp [hy])

theorem noBreak_spaces {s : Str} (h : Spaces U s) : '\n' ∉ s := fun hc => (h _ hc).2 rfl

theorem noBreak_valueLine {v : ValueLine} (h : v.Ok U) : '\n' ∉ v.line := by
  cases v with
  | blank s => exact noBreak_spaces h
  | comment l m t =>
    obtain ⟨h1, h2, h3⟩ := h
    simp only [ValueLine.line, List.mem_append, List.mem_cons, not_or]
    refine ⟨noBreak_spaces h1, ?_, h3⟩
    rcases h2 with rfl | rfl <;> decide
  | text l t r =>
    obtain ⟨-, h1, -, h2, -, -, h3⟩ := h
    simp only [ValueLine.line, List.mem_append, not_or]
    exact ⟨noBreak_spaces h1, h2.1, noBreak_spaces h3⟩

theorem noBreak_iniEntry {e : Entry} (h : e.Ok U) : NoBreak e.lines := by
  intro l hl
  rw [Entry.lines] at hl
  rcases List.mem_cons.mp hl with rfl | hl
  · simp only [List.mem_append, List.mem_cons, not_or]
    refine ⟨h.name_trim.1, noBreak_spaces h.before, ?_, noBreak_spaces h.after, h.first.1, noBreak_spaces h.trail⟩
    rcases h.delim with h | h <;> rw [h] <;> decide
  · obtain ⟨v, hv, rfl⟩ := List.mem_map.mp hl
    exact noBreak_valueLine (h.more v hv)

theorem noBreak_iniSection {s : Section} (h : s.Ok U) : NoBreak s.lines := by
  intro l hl
  rw [Section.lines] at hl
  rcases List.mem_cons.mp hl with rfl | hl
  · simp only [List.mem_append, List.mem_cons, not_or]
    exact ⟨by decide, h.name.2, by decide, h.trail⟩
  · rcases List.mem_append.mp hl with hl | hl
    · obtain ⟨v, hv, rfl⟩ := List.mem_map.mp hl
      exact noBreak_valueLine (h.notes v hv).1
    · obtain ⟨e, he, hl⟩ := List.mem_flatMap.mp hl
      exact noBreak_iniEntry (h.entries e he) l hl

theorem noBreak_iniDocument {d : Document} (h : d.Ok U) : NoBreak d.lines := by
  intro l hl
  rw [Document.lines] at hl
  rcases List.mem_append.mp hl with hl | hl
  · obtain ⟨v, hv, rfl⟩ := List.mem_map.mp hl
    exact noBreak_valueLine (h.notes v hv).1
  · obtain ⟨s, hs, hl⟩ := List.mem_flatMap.mp hl
    exact noBreak_iniSection (h.sections s hs) l hl

theorem joinLines_eq (ls : List Str) : joinLines ls = joined ls := by
  induction ls with
  | nil => rfl
  | cons l ls ih =>
    cases ls with
    | nil => rfl
    | cons m ls => rw [joinLines, joined, ih] <;> exact fun h => (by cases h)

end Verif.Proofs
