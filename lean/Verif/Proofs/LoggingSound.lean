import Verif.Proofs.LoggingDisk

/-!
# Log files written by one handler each
-/

namespace Verif.Proofs

/-- Every file is open once, and at its end. -/
structure Sound (s : LogSt) : Prop where
  once : (s.opened.map LogFile.path).Nodup
  atEnd : ∀ f ∈ s.opened, f.append = true ∨ f.pos = ((s.disk f.path).getD []).length

/-- What a record adds to a file. -/
def fileOut (E : LogEnv) (s : LogSt) (p : Str) (t : Nat) (r : LogRecord) (hs : List LogHandler) : Str :=
  hs.flatMap (fun h =>
    if h.file.bind (fun k => s.opened[k]?.map LogFile.path) = some p then
      (E.render h.format h.dateFormat t r).elim [] (· ++ ['\n'])
    else [])

/-- What a record adds to the standard error. -/
def errOut (E : LogEnv) (t : Nat) (r : LogRecord) (hs : List LogHandler) : Str :=
  hs.flatMap (fun h => if h.file = none then (E.render h.format h.dateFormat t r).elim [] (· ++ ['\n']) else [])

theorem writeAt_end (content text : Str) : writeAt content content.length text = content ++ text := by
  simp [writeAt]

theorem write_disk {s : LogSt} (hs : Sound s) {k : Nat} {f : LogFile} (hk : s.opened[k]? = some f) (text p : Str) :
    ((s.write k text).disk p).getD [] = (s.disk p).getD [] ++ (if f.path = p then text else []) := by
  unfold LogSt.write
  rw [hk]
  simp only
  by_cases hp : f.path = p
  · subst hp
    rw [if_pos rfl, if_pos rfl]
    simp only [Option.getD_some]
    rcases hs.atEnd f (List.mem_of_getElem? hk) with h | h
    · rw [if_pos h]
    · split
      · rfl
      · rw [h, writeAt_end]
  · rw [if_neg (fun e => hp e.symm), if_neg hp, List.append_nil]

theorem write_sound {s : LogSt} (hs : Sound s) (k : Nat) (text : Str) : Sound (s.write k text) := by
  cases hk : s.opened[k]? with
  | none =>
    have : s.write k text = s := by unfold LogSt.write; rw [hk]
    rw [this]
    exact hs
  | some f =>
    have hopen : (s.write k text).opened = s.opened.set k { f with pos := f.pos + text.length } := by
      unfold LogSt.write; rw [hk]
    obtain ⟨hlt, hf⟩ := List.getElem?_eq_some_iff.mp hk
    constructor
    · have hpath : (s.write k text).opened.map LogFile.path = s.opened.map LogFile.path := by
        have := congrArg (List.map Prod.fst) (write_setup s k text).opened
        simp only [List.map_map] at this
        exact this
      rw [hpath]
      exact hs.once
    · intro g hg
      rw [write_disk hs hk]
      rw [hopen] at hg
      obtain ⟨i, hi⟩ := List.mem_iff_getElem?.mp hg
      rw [List.getElem?_set] at hi
      split at hi
      · cases hi
        simp only [if_true]
        rcases hs.atEnd f (List.mem_of_getElem? hk) with h | h
        · exact .inl h
        · right
          rw [h, List.length_append]
      · next hne =>
        have hgm := List.mem_of_getElem? hi
        have hp : f.path ≠ g.path := by
          intro e
          have hn := hs.once
          have h1 : (s.opened.map LogFile.path)[k]? = some f.path := by simp [hk]
          have h2 : (s.opened.map LogFile.path)[i]? = some f.path := by simp [hi, e]
          exact hne ((List.getElem?_inj (by simpa using hlt) hn).mp (h1.trans h2.symm))
        rw [if_neg hp, List.append_nil]
        exact hs.atEnd g hgm

theorem openFile_sound {s : LogSt} (hs : Sound s) (path : Str) (clean : Bool) (h : ∀ f ∈ s.opened, f.path ≠ path) :
    Sound (s.openFile path clean) := by
  constructor
  · simp only [LogSt.openFile, List.map_append, List.map_cons, List.map_nil]
    rw [List.nodup_append]
    refine ⟨hs.once, by simp, ?_⟩
    intro a ha b hb
    obtain ⟨f, hf, rfl⟩ := List.mem_map.mp ha
    rw [List.mem_singleton] at hb
    subst hb
    exact h f hf
  · intro f hf
    simp only [LogSt.openFile, List.mem_append, List.mem_singleton] at hf ⊢
    rcases hf with hf | rfl
    · rw [if_neg (h f hf)]
      exact hs.atEnd f hf
    · simp only [if_true, Option.getD_some]
      cases clean
      · exact .inl rfl
      · exact .inr rfl

theorem emit_out {s : LogSt} (hs : Sound s) (E : LogEnv) (r : LogRecord) (h : LogHandler) :
    Sound (s.emit E r h) ∧ (s.emit E r h).tick = s.tick ∧
    (∀ p, ((s.emit E r h).disk p).getD [] = (s.disk p).getD [] ++ fileOut E s p s.tick r [h]) ∧
    (s.emit E r h).err = s.err ++ errOut E s.tick r [h] := by
  unfold LogSt.emit fileOut errOut
  simp only [List.flatMap_cons, List.flatMap_nil, List.append_nil]
  cases hr : E.render h.format h.dateFormat s.tick r with
  | none => exact ⟨hs, rfl, by simp, by simp⟩
  | some line =>
    cases hf : h.file with
    | none => exact ⟨⟨hs.once, hs.atEnd⟩, rfl, by simp, by simp⟩
    | some k =>
      simp only [Option.bind_some, Option.elim_some, reduceCtorEq, if_false, List.append_nil]
      obtain ⟨o, hk⟩ : ∃ o, s.opened[k]? = o := ⟨_, rfl⟩
      rcases o with _ | f
      · have : s.write k (line ++ ['\n']) = s := by unfold LogSt.write; rw [hk]
        rw [this]
        exact ⟨hs, rfl, by simp [hk], rfl⟩
      · refine ⟨write_sound hs k _, ?_, ?_, ?_⟩
        · unfold LogSt.write; rw [hk]
        · intro p
          rw [write_disk hs hk]
          simp [hk]
        · unfold LogSt.write; rw [hk]

theorem path_setup {s t : LogSt} (h : SameSetup s t) (k : Nat) : t.opened[k]?.map LogFile.path = s.opened[k]?.map LogFile.path := by
  have := congrArg (fun l => l[k]?.map Prod.fst) h.opened
  simpa [List.getElem?_map, Function.comp_def] using this

theorem fileOut_setup {s t : LogSt} (h : SameSetup s t) (E : LogEnv) (p : Str) (k : Nat) (r : LogRecord) (hs : List LogHandler) :
    fileOut E t p k r hs = fileOut E s p k r hs := by
  unfold fileOut
  congr 1
  funext h'
  have : (fun k : Nat => t.opened[k]?.map LogFile.path) = (fun k : Nat => s.opened[k]?.map LogFile.path) := by
    funext k
    exact path_setup h k
  rw [this]

theorem foldl_out (E : LogEnv) (r : LogRecord) (hs : List LogHandler) (s : LogSt) (h : Sound s) :
    Sound (hs.foldl (LogSt.emit E r) s) ∧ (hs.foldl (LogSt.emit E r) s).tick = s.tick ∧
    (∀ p, ((hs.foldl (LogSt.emit E r) s).disk p).getD [] = (s.disk p).getD [] ++ fileOut E s p s.tick r hs) ∧
    (hs.foldl (LogSt.emit E r) s).err = s.err ++ errOut E s.tick r hs := by
  induction hs generalizing s with
  | nil => exact ⟨h, rfl, fun p => by simp [fileOut], by simp [errOut]⟩
  | cons x hs ih =>
    obtain ⟨h1, h2, h3, h4⟩ := emit_out h E r x
    obtain ⟨g1, g2, g3, g4⟩ := ih _ h1
    rw [List.foldl_cons]
    refine ⟨g1, g2.trans h2, ?_, ?_⟩
    · intro p
      rw [g3, h3, h2, fileOut_setup (emit_setup E r s x), List.append_assoc]
      congr 1
      simp [fileOut]
    · rw [g4, h4, h2, List.append_assoc]
      congr 1
      simp [errOut]

/-- A record is added to the files of the handlers, once for each. -/
theorem log_out {s : LogSt} (hs : Sound s) (E : LogEnv) (name : Str) (level : Nat) (msg : Str) :
    Sound (s.log E name level msg) ∧
    (s.log E name level msg).tick = s.tick + (if s.enabled name level then 1 else 0) ∧
    (∀ p, ((s.log E name level msg).disk p).getD [] = (s.disk p).getD [] ++
      (if s.enabled name level then fileOut E s p s.tick ⟨name, level, msg⟩ (s.handlersFor name) else [])) ∧
    (s.handlersFor name ≠ [] → (s.log E name level msg).err = s.err ++
      (if s.enabled name level then errOut E s.tick ⟨name, level, msg⟩ (s.handlersFor name) else [])) := by
  unfold LogSt.log
  by_cases he : s.enabled name level = true
  · simp only [he, if_true]
    by_cases hh : s.handlersFor name = []
    · rw [if_pos hh]
      have h1 : Sound (s.lastResort ⟨name, level, msg⟩) ∧ (s.lastResort ⟨name, level, msg⟩).tick = s.tick ∧
          (s.lastResort ⟨name, level, msg⟩).disk = s.disk := by
        unfold LogSt.lastResort
        split
        · exact ⟨⟨hs.once, hs.atEnd⟩, rfl, rfl⟩
        · exact ⟨hs, rfl, rfl⟩
      refine ⟨⟨h1.1.once, h1.1.atEnd⟩, by rw [h1.2.1], ?_, fun h => absurd hh h⟩
      intro p
      rw [h1.2.2, hh]
      simp [fileOut]
    · rw [if_neg hh]
      obtain ⟨g1, g2, g3, g4⟩ := foldl_out E ⟨name, level, msg⟩ (s.handlersFor name) s hs
      exact ⟨⟨g1.once, g1.atEnd⟩, by rw [g2], g3, fun _ => g4⟩
  · simp only [he]
    exact ⟨hs, rfl, by simp, by simp⟩

end Verif.Proofs
