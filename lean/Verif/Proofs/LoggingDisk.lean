import Verif.Proofs.Logging

/-!
# What the loggers do to the files
-/

namespace Verif.Proofs

/-- Path and mode of an open file. -/
def LogFile.key (f : LogFile) : Str × Bool := (f.path, f.append)

/-- The state after a computation. -/
def resState {α : Type} : EStateM.Result PyExc LogSt α → LogSt
  | .ok _ s => s
  | .error _ s => s

/-! ### Files not opened, and files opened for appending -/

/-- `t` comes later than `s`: no file was closed, files that are not open are as they were, and where all are open for
appending something may have been added. -/
structure Grew (s t : LogSt) : Prop where
  opened : s.opened.map LogFile.key <+: t.opened.map LogFile.key
  other : ∀ p, (∀ f ∈ t.opened, f.path ≠ p) → t.disk p = s.disk p
  append : ∀ p, (∀ f ∈ t.opened, f.path = p → f.append = true) →
    ∃ text, (t.disk p).getD [] = (s.disk p).getD [] ++ text

theorem key_mem {s t : LogSt} (h : s.opened.map LogFile.key <+: t.opened.map LogFile.key) {f : LogFile} (hf : f ∈ s.opened) :
    ∃ g ∈ t.opened, g.path = f.path ∧ g.append = f.append := by
  have : LogFile.key f ∈ t.opened.map LogFile.key := h.subset (List.mem_map_of_mem hf)
  obtain ⟨g, hg, e⟩ := List.mem_map.mp this
  have e' : (g.path, g.append) = (f.path, f.append) := e
  exact ⟨g, hg, (Prod.mk.inj e').1, (Prod.mk.inj e').2⟩

theorem Grew.refl (s : LogSt) : Grew s s := ⟨List.prefix_refl _, fun _ _ => rfl, fun _ _ => ⟨[], by simp⟩⟩

theorem Grew.trans {s t u : LogSt} (h : Grew s t) (h' : Grew t u) : Grew s u := by
  refine ⟨h.opened.trans h'.opened, ?_, ?_⟩
  · intro p hp
    rw [h'.other p hp]
    apply h.other
    intro f hf e
    obtain ⟨g, hg, hp', _⟩ := key_mem h'.opened hf
    exact hp g hg (hp'.trans e)
  · intro p hp
    obtain ⟨x, hx⟩ := h'.append p hp
    obtain ⟨y, hy⟩ := h.append p (by
      intro f hf e
      obtain ⟨g, hg, hp', ha⟩ := key_mem h'.opened hf
      exact ha ▸ hp g hg (hp'.trans e))
    exact ⟨y ++ x, by rw [hx, hy, List.append_assoc]⟩

/-- Changes that concern neither the disk nor the open files. -/
theorem Grew.of_same {s t : LogSt} (ho : t.opened = s.opened) (hd : t.disk = s.disk) : Grew s t := by
  refine ⟨by rw [ho]; exact List.prefix_refl _, fun p _ => by rw [hd], fun p _ => ⟨[], by rw [hd]; simp⟩⟩

theorem keys_eq (s : LogSt) : s.opened.map LogFile.key = s.opened.map (fun f => (f.path, f.append)) := rfl

theorem write_grew (s : LogSt) (k : Nat) (text : Str) : Grew s (s.write k text) := by
  have hk : (s.write k text).opened.map LogFile.key = s.opened.map LogFile.key := (write_setup s k text).opened
  have hpre : s.opened.map LogFile.key <+: (s.write k text).opened.map LogFile.key := by rw [hk]; exact List.prefix_refl _
  refine ⟨hpre, ?_, ?_⟩
  · intro p hp
    have hp' : ∀ f ∈ s.opened, f.path ≠ p := by
      intro f hf e
      obtain ⟨g, hg, h1, _⟩ := key_mem hpre hf
      exact hp g hg (h1.trans e)
    unfold LogSt.write
    cases h : s.opened[k]? with
    | none => rfl
    | some f =>
      have := hp' f (List.mem_of_getElem? h)
      simp only
      rw [if_neg (fun e => this e.symm)]
  · intro p hp
    have hp' : ∀ f ∈ s.opened, f.path = p → f.append = true := by
      intro f hf e
      obtain ⟨g, hg, h1, h2⟩ := key_mem hpre hf
      exact h2 ▸ hp g hg (h1.trans e)
    unfold LogSt.write
    cases h : s.opened[k]? with
    | none => exact ⟨[], by simp⟩
    | some f =>
      have := hp' f (List.mem_of_getElem? h)
      simp only
      by_cases he : p = f.path
      · subst he
        rw [if_pos rfl, if_pos (this rfl)]
        exact ⟨text, rfl⟩
      · rw [if_neg he]
        exact ⟨[], by simp⟩

theorem emit_grew (E : LogEnv) (r : LogRecord) (s : LogSt) (h : LogHandler) : Grew s (s.emit E r h) := by
  unfold LogSt.emit
  cases E.render h.format h.dateFormat s.tick r with
  | none => exact .refl s
  | some line =>
    cases h.file with
    | none => exact .of_same rfl rfl
    | some k => exact write_grew s k _

theorem log_grew (E : LogEnv) (s : LogSt) (name : Str) (level : Nat) (msg : Str) : Grew s (s.log E name level msg) := by
  have hf : ∀ (hs : List LogHandler) (r : LogRecord) (s : LogSt), Grew s (hs.foldl (LogSt.emit E r) s) := by
    intro hs r
    induction hs with
    | nil => exact .refl
    | cons h hs ih => exact fun s => (emit_grew E r s h).trans (ih _)
  unfold LogSt.log
  split
  · dsimp only
    have htick : ∀ t : LogSt, Grew s t → Grew s { t with tick := t.tick + 1 } := fun t h => h.trans (.of_same rfl rfl)
    apply htick
    split
    · unfold LogSt.lastResort
      split
      · exact .of_same rfl rfl
      · exact .refl s
    · exact hf _ _ s
  · exact .refl s

theorem openFile_grew (s : LogSt) (path : Str) (clean : Bool) : Grew s (s.openFile path clean) := by
  refine ⟨?_, ?_, ?_⟩
  · simp [LogSt.openFile]
  · intro p hp
    have : path ≠ p := hp ⟨path, !clean, 0⟩ (by simp [LogSt.openFile])
    simp only [LogSt.openFile]
    rw [if_neg (fun e => this e.symm)]
  · intro p hp
    refine ⟨[], ?_⟩
    simp only [LogSt.openFile, List.append_nil]
    by_cases he : p = path
    · subst he
      have : (!clean) = true := hp ⟨p, !clean, 0⟩ (by simp [LogSt.openFile]) rfl
      have hc : clean = false := by simpa using this
      rw [if_pos rfl, hc]
      rfl
    · rw [if_neg he]

/-- A computation only grows the state. -/
def Grows {α : Type} (m : LogM α) : Prop := ∀ s, Grew s (resState (m s))

theorem Grows.bind {α β : Type} {m : LogM α} {f : α → LogM β} (hm : Grows m) (hf : ∀ a, Grows (f a)) : Grows (m >>= f) := by
  intro s
  have h1 := hm s
  show Grew s (resState (EStateM.bind m f s))
  unfold EStateM.bind
  cases h : m s with
  | ok a s1 => rw [h] at h1; exact h1.trans (hf a s1)
  | error e s1 => rw [h] at h1; exact h1

theorem Grows.pure {α : Type} (a : α) : Grows (pure a : LogM α) := fun s => .refl s

theorem Grows.lift {α : Type} (x : Except PyExc α) : Grows (logLift x) := by
  intro s
  cases x <;> exact .refl s

theorem Grows.do {f : LogSt → LogSt} (h : ∀ s, Grew s (f s)) : Grows (logDo f) := h

theorem Grows.same {f : LogSt → LogSt} (h : ∀ s, (f s).opened = s.opened) (h' : ∀ s, (f s).disk = s.disk) : Grows (logDo f) :=
  fun s => .of_same (h s) (h' s)

theorem getLogger_grows (n : Str) : Grows (logDo (·.getLogger n)) := by
  apply Grows.same <;> intro s <;> simp only [LogSt.getLogger] <;> split <;> rfl

theorem announce_grows (E : LogEnv) (service : Bool) (n : Option Str) : Grows (announce E service n) := by
  intro s
  unfold announce
  cases n with
  | none => exact .refl s
  | some n =>
    simp only
    split <;> exact log_grew ..

theorem parentLog_grows (service : Bool) (p : Option Str) : Grows (parentLog service p) := by
  intro s
  unfold parentLog
  cases p with
  | some p => exact .refl s
  | none =>
    simp only
    split <;> exact .refl s

theorem addFileHandler_grows (E : LogEnv) (name file : Str) (clean : Bool) (f d : Option Str) :
    Grows (addFileHandler E name file clean f d) := by
  intro s
  unfold addFileHandler
  cases E.openFault (E.abspath file) with
  | some e => exact .refl s
  | none => exact (openFile_grew s _ clean).trans (.of_same rfl rfl)

theorem makeLogger_grows (U : Uni) (E : LogEnv) (c : Config) (dir name : Str) (service : Bool) (parent : Option Str) :
    Grows (makeLoggerIO U E c dir name service parent) := by
  unfold makeLoggerIO
  refine .bind (.lift _) fun _ => .bind (.lift _) fun _ => .bind (.lift _) fun _ => .bind (.lift _) fun _ =>
    .bind (.lift _) fun _ => .bind (.lift _) fun _ => .bind (.lift _) fun _ => .bind (.lift _) fun _ =>
    .bind (announce_grows _ _ _) fun _ => .bind (parentLog_grows _ _) fun _ => .bind (getLogger_grows _) fun _ =>
    .bind (.same (fun _ => rfl) (fun _ => rfl)) fun _ => .bind (.lift _) fun _ => .bind (.lift _) fun file => ?_
  have htail : ∀ (logstdout format dateformat : Option Str) (logger : Str), Grows (do
      let out ← logLift (confStr logstdout)
      if U.upper out = "TRUE".toList then
        logDo (·.addHandler logger ⟨none, format, dateformat⟩)
      else pure ()
      logDo (fun s => s.log E logger 20 (logger ++ " log started on ".toList ++ E.now s.tick))
      return logger) := by
    intro logstdout format dateformat logger
    refine .bind (.lift _) fun out => ?_
    split
    · exact .bind (.same (fun _ => rfl) (fun _ => rfl)) fun _ => .bind (.do fun s => log_grew ..) fun _ => .pure _
    · exact .bind (.do fun s => log_grew ..) fun _ => .pure _
  rcases file with _ | ⟨f, w⟩
  · exact htail _ _ _ _
  · exact .bind (addFileHandler_grows _ _ _ _ _ _) fun _ => htail _ _ _ _

theorem makeForeign_grows (U : Uni) (E : LogEnv) (c : Config) (dir name pre sect shown : Str) :
    Grows (makeForeignLog U E c dir name pre sect shown) := by
  unfold makeForeignLog
  refine .bind (getLogger_grows _) fun _ => .bind (.same (fun _ => rfl) (fun _ => rfl)) fun _ => .bind (.lift _) fun _ =>
    .bind (.lift _) fun _ => .bind (.same (fun _ => rfl) (fun _ => rfl)) fun _ => .bind (.lift _) fun _ =>
    .bind (.lift _) fun _ => .bind (.lift _) fun _ => .bind (.lift _) fun _ => .bind (.lift _) fun _ =>
    .bind (fun s => .refl s) fun _ => .bind (.do fun s => openFile_grew ..) fun _ =>
    .bind (.lift _) fun _ => .bind (.lift _) fun _ => .bind (.lift _) fun _ =>
    .bind (.same (fun _ => rfl) (fun _ => rfl)) fun _ => .bind (.lift _) fun _ => .bind (.lift _) fun _ => ?_
  split
  · exact .bind (.same (fun _ => rfl) (fun _ => rfl)) fun _ => .do fun s => log_grew ..
  · exact .do fun s => log_grew ..

theorem import_grows (U : Uni) (E : LogEnv) (c : Config) (dir : Str) : Grows (importLog U E c dir) := by
  unfold importLog
  exact .bind (getLogger_grows _) fun _ => .bind (.do fun s => log_grew ..) fun _ => .bind (.same (fun _ => rfl) (fun _ => rfl)) fun _ =>
    .bind (makeLogger_grows _ _ _ _ _ _ _) fun _ => .bind (.same (fun _ => rfl) (fun _ => rfl)) fun _ =>
    .bind (makeLogger_grows _ _ _ _ _ _ _) fun _ => .bind (.same (fun _ => rfl) (fun _ => rfl)) fun _ =>
    .bind (makeForeign_grows _ _ _ _ _ _ _ _) fun _ => makeForeign_grows _ _ _ _ _ _ _ _

/-! ### Files emptied -/

/-- The states agree but for what is in files that were not emptied since there were `n` open files. -/
structure Agree (n : Nat) (s t : LogSt) : Prop where
  count : n ≤ s.opened.length
  rest : t = { s with disk := t.disk }
  disk : ∀ p, (∃ f ∈ s.opened.drop n, f.path = p ∧ f.append = false) → t.disk p = s.disk p

/-- The results agree. -/
def AgreeRes {α : Type} (n : Nat) : EStateM.Result PyExc LogSt α → EStateM.Result PyExc LogSt α → Prop
  | .ok a s, .ok b t => a = b ∧ Agree n s t
  | .error e s, .error e' t => e = e' ∧ Agree n s t
  | _, _ => False

/-- The computation does not look into files. -/
def Blind {α : Type} (m : LogM α) : Prop := ∀ n s t, Agree n s t → AgreeRes n (m s) (m t)

theorem Blind.bind {α β : Type} {m : LogM α} {f : α → LogM β} (hm : Blind m) (hf : ∀ a, Blind (f a)) : Blind (m >>= f) := by
  intro n s t h
  have h1 := hm n s t h
  show AgreeRes n (EStateM.bind m f s) (EStateM.bind m f t)
  unfold EStateM.bind
  cases hs : m s with
  | ok a s1 =>
    cases ht : m t with
    | ok b t1 =>
      rw [hs, ht] at h1
      obtain ⟨rfl, h1⟩ := h1
      exact hf a n s1 t1 h1
    | error e t1 => rw [hs, ht] at h1; exact h1.elim
  | error e s1 =>
    cases ht : m t with
    | ok b t1 => rw [hs, ht] at h1; exact h1.elim
    | error e' t1 => rw [hs, ht] at h1; exact h1

theorem Blind.pure {α : Type} (a : α) : Blind (pure a : LogM α) := fun _ _ _ h => ⟨rfl, h⟩

theorem Blind.lift {α : Type} (x : Except PyExc α) : Blind (logLift x) := by
  intro n s t h
  cases x <;> exact ⟨rfl, h⟩

theorem Blind.do {f : LogSt → LogSt} (h : ∀ n s t, Agree n s t → Agree n (f s) (f t)) : Blind (logDo f) :=
  fun n s t h' => ⟨rfl, h n s t h'⟩

theorem agree_iff {n : Nat} {s t : LogSt} : Agree n s t ↔ n ≤ s.opened.length ∧ ∃ d : Disk, t = { s with disk := d } ∧
    ∀ p, (∃ f ∈ s.opened.drop n, f.path = p ∧ f.append = false) → d p = s.disk p := by
  constructor
  · rintro ⟨h1, h2, h3⟩
    exact ⟨h1, t.disk, h2, h3⟩
  · rintro ⟨h1, d, rfl, h3⟩
    exact ⟨h1, rfl, h3⟩

/-- Changes that concern neither the disk nor the open files and do not depend on the disk. -/
theorem Blind.same {f : LogSt → LogSt} (h : ∀ s, (f s).opened = s.opened ∧ (f s).disk = s.disk)
    (h' : ∀ s d, f { s with disk := d } = { f s with disk := d }) : Blind (logDo f) := by
  apply Blind.do
  intro n s t ha
  obtain ⟨h1, d, rfl, h3⟩ := agree_iff.mp ha
  refine agree_iff.mpr ⟨by rw [(h s).1]; exact h1, d, h' s d, ?_⟩
  rw [(h s).1, (h s).2]
  exact h3

theorem write_agree {n : Nat} {s t : LogSt} (h : Agree n s t) (k : Nat) (text : Str) :
    Agree n (s.write k text) (t.write k text) := by
  obtain ⟨h1, d, rfl, h3⟩ := agree_iff.mp h
  unfold LogSt.write
  simp only
  cases hk : s.opened[k]? with
  | none => exact h
  | some f =>
    refine agree_iff.mpr ⟨by simpa using h1, _, rfl, ?_⟩
    rintro p ⟨g, hg, hgp, hga⟩
    -- the file of the same number before
    have hpre : ∃ g' ∈ s.opened.drop n, g'.path = p ∧ g'.append = false := by
      obtain ⟨i, hi⟩ := List.mem_iff_getElem?.mp hg
      simp only [List.getElem?_drop] at hi
      rw [List.getElem?_set] at hi
      split at hi
      · next e =>
        split at hi
        · simp only [Option.some.injEq] at hi
          subst hi
          refine ⟨f, List.mem_iff_getElem?.mpr ⟨i, ?_⟩, hgp, hga⟩
          rw [List.getElem?_drop, ← e, hk]
        · cases hi
      · exact ⟨g, List.mem_iff_getElem?.mpr ⟨i, by rw [List.getElem?_drop, hi]⟩, hgp, hga⟩
    have hd := h3 p hpre
    simp only
    by_cases hp : p = f.path
    · rw [if_pos hp, if_pos hp, ← hp, hd]
    · rw [if_neg hp, if_neg hp, hd]

theorem agree_tick {n : Nat} {s t : LogSt} (h : Agree n s t) : t.tick = s.tick := by
  rw [h.rest]

theorem emit_agree {n : Nat} {s t : LogSt} (E : LogEnv) (r : LogRecord) (h : LogHandler) (ha : Agree n s t) :
    Agree n (s.emit E r h) (t.emit E r h) := by
  unfold LogSt.emit
  rw [agree_tick ha]
  cases E.render h.format h.dateFormat s.tick r with
  | none => exact ha
  | some line =>
    cases h.file with
    | none =>
      obtain ⟨h1, d, rfl, h3⟩ := agree_iff.mp ha
      exact agree_iff.mpr ⟨h1, d, rfl, h3⟩
    | some k => exact write_agree ha k _

theorem agree_setup {n : Nat} {s t : LogSt} (h : Agree n s t) : SameSetup s t := by
  obtain ⟨h1, d, rfl, h3⟩ := agree_iff.mp h
  exact ⟨rfl, rfl, rfl, rfl, rfl, rfl⟩

theorem log_agree {n : Nat} {s t : LogSt} (E : LogEnv) (name : Str) (level : Nat) (msg : Str) (h : Agree n s t) :
    Agree n (s.log E name level msg) (t.log E name level msg) := by
  have hf : ∀ (hs : List LogHandler) (r : LogRecord) (s t : LogSt), Agree n s t →
      Agree n (hs.foldl (LogSt.emit E r) s) (hs.foldl (LogSt.emit E r) t) := by
    intro hs r
    induction hs with
    | nil => exact fun _ _ h => h
    | cons h hs ih => exact fun s t ha => ih _ _ (emit_agree E r h ha)
  have htick : ∀ s t : LogSt, Agree n s t → Agree n { s with tick := s.tick + 1 } { t with tick := t.tick + 1 } := by
    intro s t h
    obtain ⟨h1, d, rfl, h3⟩ := agree_iff.mp h
    exact agree_iff.mpr ⟨h1, d, rfl, h3⟩
  unfold LogSt.log
  rw [enabled_setup (agree_setup h), handlersFor_setup (agree_setup h)]
  split
  · apply htick
    split
    · unfold LogSt.lastResort
      split
      · obtain ⟨h1, d, rfl, h3⟩ := agree_iff.mp h
        exact agree_iff.mpr ⟨h1, d, rfl, h3⟩
      · exact h
    · exact hf _ _ _ _ h
  · exact h

theorem openFile_agree {n : Nat} {s t : LogSt} (path : Str) (clean : Bool) (h : Agree n s t) :
    Agree n (s.openFile path clean) (t.openFile path clean) := by
  obtain ⟨h1, d, rfl, h3⟩ := agree_iff.mp h
  refine agree_iff.mpr ⟨by simp [LogSt.openFile]; omega, _, rfl, ?_⟩
  rintro p ⟨f, hf, hfp, hfa⟩
  simp only [LogSt.openFile]
  simp only [LogSt.openFile] at hf
  rw [List.drop_append_of_le_length h1, List.mem_append, List.mem_singleton] at hf
  by_cases hp : p = path
  · rw [if_pos hp, if_pos hp]
    rcases hf with hf | rfl
    · rw [h3 path ⟨f, hf, hfp.trans hp, hfa⟩]
    · have hc : clean = true := by simpa using hfa
      rw [hc]
      rfl
  · rw [if_neg hp, if_neg hp]
    rcases hf with hf | rfl
    · exact h3 p ⟨f, hf, hfp, hfa⟩
    · exact absurd hfp.symm hp

theorem getLogger_blind (n : Str) : Blind (logDo (·.getLogger n)) := by
  apply Blind.same
  · intro s
    simp only [LogSt.getLogger]
    split <;> exact ⟨rfl, rfl⟩
  · intro s d
    simp only [LogSt.getLogger]
    split <;> rfl

theorem announce_blind (E : LogEnv) (service : Bool) (n : Option Str) : Blind (announce E service n) := by
  intro k s t h
  have e := agree_setup h
  unfold announce
  cases n with
  | none => exact ⟨rfl, h⟩
  | some n =>
    simp only
    rw [e.serviceLog, e.clientLog]
    split <;> exact ⟨rfl, log_agree E _ _ _ h⟩

theorem parentLog_blind (service : Bool) (p : Option Str) : Blind (parentLog service p) := by
  intro k s t h
  have e := agree_setup h
  unfold parentLog
  cases p with
  | some p => exact ⟨rfl, h⟩
  | none =>
    simp only
    rw [e.serviceLog, e.clientLog]
    split <;> exact ⟨rfl, h⟩

theorem agree_opened {n : Nat} {s t : LogSt} (h : Agree n s t) : t.opened = s.opened := by rw [h.rest]

theorem addHandler_agree {n : Nat} {s t : LogSt} (name : Str) (h : LogHandler) (ha : Agree n s t) :
    Agree n (s.addHandler name h) (t.addHandler name h) := by
  obtain ⟨h1, d, rfl, h3⟩ := agree_iff.mp ha
  exact agree_iff.mpr ⟨h1, d, rfl, h3⟩

theorem addFileHandler_blind (E : LogEnv) (name file : Str) (clean : Bool) (f d : Option Str) :
    Blind (addFileHandler E name file clean f d) := by
  intro n s t h
  unfold addFileHandler
  cases E.openFault (E.abspath file) with
  | some e => exact ⟨rfl, h⟩
  | none =>
    rw [agree_opened h]
    exact ⟨rfl, addHandler_agree _ _ (openFile_agree _ _ h)⟩

theorem logDo_log_blind (E : LogEnv) (name : Str) (level : Nat) (msg : Nat → Str) :
    Blind (logDo (fun s => s.log E name level (msg s.tick))) := by
  apply Blind.do
  intro n s t h
  rw [agree_tick h]
  exact log_agree E _ _ _ h

theorem makeLogger_blind (U : Uni) (E : LogEnv) (c : Config) (dir name : Str) (service : Bool) (parent : Option Str) :
    Blind (makeLoggerIO U E c dir name service parent) := by
  unfold makeLoggerIO
  refine .bind (.lift _) fun _ => .bind (.lift _) fun _ => .bind (.lift _) fun _ => .bind (.lift _) fun _ =>
    .bind (.lift _) fun _ => .bind (.lift _) fun _ => .bind (.lift _) fun _ => .bind (.lift _) fun _ =>
    .bind (announce_blind _ _ _) fun _ => .bind (parentLog_blind _ _) fun _ => .bind (getLogger_blind _) fun _ =>
    .bind (.same (fun _ => ⟨rfl, rfl⟩) (fun _ _ => rfl)) fun _ => .bind (.lift _) fun _ => .bind (.lift _) fun file => ?_
  have htail : ∀ (logstdout format dateformat : Option Str) (logger : Str), Blind (do
      let out ← logLift (confStr logstdout)
      if U.upper out = "TRUE".toList then
        logDo (·.addHandler logger ⟨none, format, dateformat⟩)
      else pure ()
      logDo (fun s => s.log E logger 20 (logger ++ " log started on ".toList ++ E.now s.tick))
      return logger) := by
    intro logstdout format dateformat logger
    refine .bind (.lift _) fun out => ?_
    split
    · exact .bind (.same (fun _ => ⟨rfl, rfl⟩) (fun _ _ => rfl)) fun _ =>
        .bind (logDo_log_blind E _ _ (fun k => logger ++ " log started on ".toList ++ E.now k)) fun _ => .pure _
    · exact .bind (logDo_log_blind E _ _ (fun k => logger ++ " log started on ".toList ++ E.now k)) fun _ => .pure _
  rcases file with _ | ⟨f, w⟩
  · exact htail _ _ _ _
  · exact .bind (addFileHandler_blind _ _ _ _ _ _) fun _ => htail _ _ _ _

theorem makeForeign_blind (U : Uni) (E : LogEnv) (c : Config) (dir name pre sect shown : Str) :
    Blind (makeForeignLog U E c dir name pre sect shown) := by
  unfold makeForeignLog
  refine .bind (getLogger_blind _) fun _ => .bind (.same (fun _ => ⟨rfl, rfl⟩) (fun _ _ => rfl)) fun _ => .bind (.lift _) fun _ =>
    .bind (.lift _) fun _ => .bind (.same (fun _ => ⟨rfl, rfl⟩) (fun _ _ => rfl)) fun _ => .bind (.lift _) fun _ =>
    .bind (.lift _) fun _ => .bind (.lift _) fun _ => .bind (.lift _) fun _ => .bind (.lift _) fun _ =>
    .bind (fun n s t h => ⟨by rw [agree_opened h], h⟩) fun _ => .bind (.do fun n s t h => openFile_agree _ _ h) fun _ =>
    .bind (.lift _) fun _ => .bind (.lift _) fun _ => .bind (.lift _) fun _ =>
    .bind (.same (fun _ => ⟨rfl, rfl⟩) (fun _ _ => rfl)) fun _ => .bind (.lift _) fun _ => .bind (.lift _) fun _ => ?_
  split
  · exact .bind (.same (fun _ => ⟨rfl, rfl⟩) (fun _ _ => rfl)) fun _ =>
      logDo_log_blind E _ _ (fun k => shown ++ " log started on ".toList ++ E.now k)
  · exact logDo_log_blind E _ _ (fun k => shown ++ " log started on ".toList ++ E.now k)

theorem import_blind (U : Uni) (E : LogEnv) (c : Config) (dir : Str) : Blind (importLog U E c dir) := by
  unfold importLog
  exact .bind (getLogger_blind _) fun _ =>
    .bind (logDo_log_blind E _ _ (fun k => "HGAA root log started on ".toList ++ E.now k)) fun _ =>
    .bind (.same (fun _ => ⟨rfl, rfl⟩) (fun _ _ => rfl)) fun _ =>
    .bind (makeLogger_blind _ _ _ _ _ _ _) fun _ => .bind (.same (fun _ => ⟨rfl, rfl⟩) (fun _ _ => rfl)) fun _ =>
    .bind (makeLogger_blind _ _ _ _ _ _ _) fun _ => .bind (.same (fun _ => ⟨rfl, rfl⟩) (fun _ _ => rfl)) fun _ =>
    .bind (makeForeign_blind _ _ _ _ _ _ _ _) fun _ => makeForeign_blind _ _ _ _ _ _ _ _

end Verif.Proofs
