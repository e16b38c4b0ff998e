import Verif.Props.Logging
import Verif.Proofs.Dict

/-!
# Where records go (C111) and what is in the log files (C112)
-/

namespace Verif.Props

open Proofs

variable {U : Uni}

/-! ### C111: the way of a record -/

/-- The handlers `make_logger` adds: one for the file, if there is one, and one for the standard error, if asked for. `k` is the
number of files open before. -/
def ownHandlers (U : Uni) (v : LogSettings) (file : Option Str) (k : Nat) : List LogHandler :=
  (if file.isSome then [⟨some k, some v.format, some v.dateFormat⟩] else []) ++
  (if IsTrue U v.stdout then [⟨none, some v.format, some v.dateFormat⟩] else [])

/-- The logger of a name; one that does not exist yet would be new. -/
def LogSt.at (s : LogSt) (n : Str) : Logger := (s.loggers.get n).getD {}

theorem withFile_get (E : LogEnv) (v : LogSettings) (l : Str) (w : Bool) (file : Option Str) (s : LogSt) (n : Str)
    (h : (s.loggers.get l).isSome = true) :
    (withFile E v l w file s).loggers.get n =
      if l = n then some ⟨(LogSt.at s l).level, (LogSt.at s l).handlers ++
        (if file.isSome then [⟨some s.opened.length, some v.format, some v.dateFormat⟩] else [])⟩
      else s.loggers.get n := by
  unfold withFile LogSt.at
  obtain ⟨x, hx⟩ := Option.isSome_iff_exists.mp h
  cases file with
  | none =>
    dsimp only
    split
    · next e => subst e; simp [hx]
    · rfl
  | some f =>
    simp only [LogSt.addHandler, LogSt.openFile]
    rw [dict_get_put]
    rfl

theorem withStream_get (v : LogSettings) (l : Str) (s : LogSt) (n : Str) (h : (s.loggers.get l).isSome = true) :
    (withStream U v l s).loggers.get n =
      if l = n then some ⟨(LogSt.at s l).level, (LogSt.at s l).handlers ++
        (if IsTrue U v.stdout then [⟨none, some v.format, some v.dateFormat⟩] else [])⟩
      else s.loggers.get n := by
  unfold withStream LogSt.at
  obtain ⟨x, hx⟩ := Option.isSome_iff_exists.mp h
  by_cases ht : IsTrue U v.stdout = true
  · rw [if_pos ht]
    simp only [LogSt.addHandler]
    rw [dict_get_put, if_pos ht]
  · rw [if_neg ht, if_neg ht]
    split
    · next e => subst e; simp [hx]
    · rfl

/-- What a step leaves alone: which loggers are children of `ROOT_LOG` by assignment, the root logger, and the variables. -/
structure SameGlobals (s t : LogSt) : Prop where
  adopted : t.adopted = s.adopted
  root : t.root = s.root
  serviceLog : t.serviceLog = s.serviceLog
  clientLog : t.clientLog = s.clientLog

theorem SameGlobals.trans {s t u : LogSt} (h : SameGlobals s t) (h' : SameGlobals t u) : SameGlobals s u :=
  ⟨h'.adopted.trans h.adopted, h'.root.trans h.root, h'.serviceLog.trans h.serviceLog, h'.clientLog.trans h.clientLog⟩

theorem SameGlobals.of_setup {s t : LogSt} (h : SameSetup s t) : SameGlobals s t := ⟨h.adopted, h.root, h.serviceLog, h.clientLog⟩

theorem setUp_globals (U : Uni) (E : LogEnv) (v : LogSettings) (l shown : Str) (w : Bool) (file : Option Str) (s : LogSt) :
    SameGlobals s (setUp U E v l shown w file s) := by
  have h1 : SameGlobals s (withFile E v l w file s) := by
    unfold withFile
    cases file <;> exact ⟨rfl, rfl, rfl, rfl⟩
  have h2 : ∀ s, SameGlobals s (withStream U v l s) := by
    intro s
    unfold withStream
    split <;> exact ⟨rfl, rfl, rfl, rfl⟩
  exact (h1.trans (h2 _)).trans (.of_setup (log_setup E (withStream U v l (withFile E v l w file s)) l 20 _))

theorem setUp_get (U : Uni) (E : LogEnv) (v : LogSettings) (l shown : Str) (w : Bool) (file : Option Str) (s : LogSt) (n : Str)
    (h : (s.loggers.get l).isSome = true) :
    (setUp U E v l shown w file s).loggers.get n =
      if l = n then some ⟨(LogSt.at s l).level, (LogSt.at s l).handlers ++ ownHandlers U v file s.opened.length⟩
      else s.loggers.get n := by
  have h1 : ∀ msg, ((withStream U v l (withFile E v l w file s)).log E l 20 msg).loggers =
      (withStream U v l (withFile E v l w file s)).loggers := fun msg => (log_setup E _ l 20 msg).loggers
  unfold setUp
  dsimp only
  have h2 : ((withFile E v l w file s).loggers.get l).isSome = true := by
    rw [withFile_get _ _ _ _ _ _ _ h, if_pos rfl]; rfl
  rw [h1, withStream_get _ _ _ _ h2, withFile_get _ _ _ _ _ _ _ h]
  have h3 : LogSt.at (withFile E v l w file s) l = ⟨(LogSt.at s l).level, (LogSt.at s l).handlers ++
        (if file.isSome then [⟨some s.opened.length, some v.format, some v.dateFormat⟩] else [])⟩ := by
    unfold LogSt.at
    rw [withFile_get _ _ _ _ _ _ _ h, if_pos rfl]
    rfl
  rw [h3]
  split
  · simp [ownHandlers]
  · rfl

theorem getLogger_get (s : LogSt) (l n : Str) : (s.getLogger l).loggers.get n = if l = n then some (LogSt.at s l) else s.loggers.get n := by
  unfold LogSt.getLogger LogSt.at
  split
  · next h =>
    obtain ⟨x, hx⟩ := Option.isSome_iff_exists.mp h
    split
    · next e => subst e; simp [hx]
    · rfl
  · next h =>
    simp only
    rw [dict_get_put]
    have : s.loggers.get l = none := by simpa using h
    rw [this]
    rfl

theorem getLogger_globals (s : LogSt) (l : Str) : SameGlobals s (s.getLogger l) ∧ (s.getLogger l).opened = s.opened := by
  unfold LogSt.getLogger
  split <;> exact ⟨⟨rfl, rfl, rfl, rfl⟩, rfl⟩

theorem named_get (s : LogSt) (l n : Str) (level : Nat) : ((s.getLogger l).setLevel l level).loggers.get n =
    if l = n then some ⟨level, (LogSt.at s l).handlers⟩ else s.loggers.get n := by
  simp only [LogSt.setLevel]
  rw [dict_get_put, getLogger_get, getLogger_get, if_pos rfl]
  split <;> rfl

theorem announced_setup (E : LogEnv) (service : Bool) (n : Str) (s : LogSt) : SameSetup s (announced E service n s) := by
  unfold announced
  dsimp only
  split <;> exact log_setup ..

theorem length_setup {s t : LogSt} (h : SameSetup s t) : t.opened.length = s.opened.length := by
  have := congrArg List.length h.opened
  simpa using this

/-- The loggers after `make_logger`. -/
theorem madeLogger_get (U : Uni) (E : LogEnv) (v : LogSettings) (service : Bool) (n l : Str) (w : Bool) (file : Option Str)
    (s : LogSt) (m : Str) :
    (madeLogger U E v service n l w file s).loggers.get m =
      if l = m then some ⟨strToLogLevel U v.level, (LogSt.at s l).handlers ++ ownHandlers U v file s.opened.length⟩
      else s.loggers.get m := by
  have ha := announced_setup E service n s
  unfold madeLogger
  rw [setUp_get _ _ _ _ _ _ _ _ _ (by rw [named_get, if_pos rfl]; rfl)]
  have h1 : LogSt.at (((announced E service n s).getLogger l).setLevel l (strToLogLevel U v.level)) l =
      ⟨strToLogLevel U v.level, (LogSt.at s l).handlers⟩ := by
    unfold LogSt.at
    rw [named_get, if_pos rfl]
    unfold LogSt.at
    rw [ha.loggers]
    rfl
  have h2 : (((announced E service n s).getLogger l).setLevel l (strToLogLevel U v.level)).opened.length = s.opened.length := by
    show ((announced E service n s).getLogger l).opened.length = _
    rw [(getLogger_globals _ l).2]
    exact length_setup ha
  rw [h1, h2, named_get, ha.loggers]
  split
  · rfl
  · rfl

theorem madeLogger_globals (U : Uni) (E : LogEnv) (v : LogSettings) (service : Bool) (n l : Str) (w : Bool) (file : Option Str)
    (s : LogSt) : SameGlobals s (madeLogger U E v service n l w file s) :=
  (SameGlobals.of_setup (announced_setup E service n s)).trans <| (getLogger_globals _ l).1.trans <|
    SameGlobals.trans (t := LogSt.setLevel _ l (strToLogLevel U v.level)) ⟨rfl, rfl, rfl, rfl⟩ (setUp_globals U E v l l w file _)

theorem madeForeign_get (U : Uni) (E : LogEnv) (v : LogSettings) (name shown : Str) (w : Bool) (file : Option Str)
    (s : LogSt) (m : Str) (h : name ≠ m) : (madeForeign U E v name shown w file s).loggers.get m = s.loggers.get m := by
  have h0 : ∀ n, (((s.getLogger name).adopt name).setLevel name (strToLogLevel U v.level)).loggers.get n =
      ((s.getLogger name).setLevel name (strToLogLevel U v.level)).loggers.get n := fun _ => rfl
  unfold madeForeign
  rw [setUp_get _ _ _ _ _ _ _ _ _ (by rw [h0, named_get, if_pos rfl]; rfl), if_neg h, h0, named_get, if_neg h]

theorem madeForeign_globals (U : Uni) (E : LogEnv) (v : LogSettings) (name shown : Str) (w : Bool) (file : Option Str)
    (s : LogSt) : SameGlobals { s with adopted := name :: s.adopted } (madeForeign U E v name shown w file s) := by
  have h := (getLogger_globals s name).1
  have h1 := setUp_globals U E v name shown w file (((s.getLogger name).adopt name).setLevel name (strToLogLevel U v.level))
  unfold madeForeign
  refine ⟨h1.adopted.trans ?_, h1.root.trans h.root, h1.serviceLog.trans h.serviceLog, h1.clientLog.trans h.clientLog⟩
  show name :: (s.getLogger name).adopted = name :: s.adopted
  rw [h.adopted]

/-! #### After the import -/

/-- A process that has not used the module: nothing is called `hgaa` or a child of it. -/
structure FreshLog (s : LogSt) : Prop where
  loggers : ∀ n, rootLogName <+: n → s.loggers.get n = none
  adopted : s.adopted = []

/-- The loggers of the module are as configured: `p` and `q` are the loggers of services and clients, and `root` is the root
logger of `logging`. -/
structure Ready (s : LogSt) (v : ImportSettings) (p q : Logger) (root : Logger) : Prop where
  adopted : ∀ n ∈ s.adopted, n = "ladonlogger".toList ∨ n = "sqlalchemy".toList
  top : s.loggers.get rootLogName = some {}
  service : s.loggers.get (childName rootLogName v.serviceName) = some p
  client : s.loggers.get (childName rootLogName v.clientName) = some q
  serviceLog : s.serviceLog = some (childName rootLogName v.serviceName)
  clientLog : s.clientLog = some (childName rootLogName v.clientName)
  root : s.root = root

theorem child_ne_root (p n : Str) : childName p n ≠ p := by
  intro h
  have := congrArg List.length h
  simp [childName] at this

theorem child_inj {p n m : Str} (h : childName p n = childName p m) : n = m := by
  simpa [childName] using h

theorem child_foreign (n : Str) : childName rootLogName n ≠ "ladonlogger".toList ∧ childName rootLogName n ≠ "sqlalchemy".toList := by
  constructor <;> intro h <;> have := congrArg List.head? h <;> revert this <;>
    simp [childName, rootLogName]

theorem grandchild_ne {n m k : Str} (hk : '.' ∉ k) : childName (childName rootLogName n) m ≠ childName rootLogName k := by
  intro h
  have : childName (childName rootLogName n) m = childName rootLogName (n ++ '.' :: m) := by simp [childName]
  rw [this] at h
  have := child_inj h
  rw [← this] at hk
  exact hk (by simp)

theorem importStart_get (E : LogEnv) (s : LogSt) (n : Str) :
    (importStart E s).loggers.get n = if rootLogName = n then some (LogSt.at s rootLogName) else s.loggers.get n := by
  have h : (importStart E s).loggers = (s.getLogger rootLogName).loggers :=
    (log_setup E (s.getLogger rootLogName) rootLogName 20 _).loggers
  rw [h, getLogger_get]

/-- **C111**: after the import the loggers of the services and of the clients exist, with their own levels and handlers. -/
theorem import_ready {E : LogEnv} {dir : Str} {v : ImportSettings} (hne : v.serviceName ≠ v.clientName) {s : LogSt} (hs : FreshLog s) :
    Ready (imported U E dir v s) v
      ⟨strToLogLevel U v.service.level, ownHandlers U v.service (logFileOf U dir v.service.file) s.opened.length⟩
      ⟨strToLogLevel U v.client.level, ownHandlers U v.client (logFileOf U dir v.client.file)
        (s.opened.length + (logFileOf U dir v.service.file).toList.length)⟩ s.root := by
  unfold imported
  dsimp only
  generalize hl1 : childName rootLogName v.serviceName = l1
  generalize hl2 : childName rootLogName v.clientName = l2
  have hne' : l1 ≠ l2 := by
    intro e; rw [← hl1, ← hl2] at e; exact hne (child_inj e)
  have hr1 : l1 ≠ rootLogName := hl1 ▸ child_ne_root _ _
  have hr2 : l2 ≠ rootLogName := hl2 ▸ child_ne_root _ _
  have hf1 := hl1 ▸ child_foreign v.serviceName
  have hf2 := hl2 ▸ child_foreign v.clientName
  have hfr : rootLogName ≠ "ladonlogger".toList ∧ rootLogName ≠ "sqlalchemy".toList := by decide
  have hfresh : ∀ n, rootLogName <+: n → s.loggers.get n = none := hs.loggers
  have hp1 : s.loggers.get l1 = none := hfresh _ (hl1 ▸ ⟨'.' :: v.serviceName, by simp [childName]⟩)
  have hp2 : s.loggers.get l2 = none := hfresh _ (hl2 ▸ ⟨'.' :: v.clientName, by simp [childName]⟩)
  have hp0 : s.loggers.get rootLogName = none := hfresh _ (List.prefix_refl _)
  generalize hs1 : madeLogger U E v.service true v.serviceName l1 (IsTrue U v.serviceClean) (logFileOf U dir v.service.file)
    (importStart E s) = s1
  generalize hs2 : madeLogger U E v.client false v.clientName l2 (IsTrue U v.clientClean) (logFileOf U dir v.client.file)
    { s1 with serviceLog := some l1 } = s2
  generalize hs3 : madeForeign U E v.sql "sqlalchemy".toList "SQL".toList (IsTrue U v.serviceClean) (some (dir ++ v.sql.file))
    { s2 with clientLog := some l2 } = s3
  have g0 : SameGlobals { s with serviceLog := none, clientLog := none } (importStart E s) := by
    have h1 := log_setup E (s.getLogger rootLogName) rootLogName 20
      ("HGAA root log started on ".toList ++ E.now (s.getLogger rootLogName).tick)
    have h2 := (getLogger_globals s rootLogName).1
    exact ⟨h1.adopted.trans h2.adopted, h1.root.trans h2.root, rfl, rfl⟩
  have o0 : (importStart E s).opened.length = s.opened.length := by
    have := congrArg List.length (importStart_opens E s).1
    simpa using this
  have g1 : SameGlobals _ s1 := hs1 ▸ madeLogger_globals U E v.service true v.serviceName l1 _ _ _
  have g2 : SameGlobals _ s2 := hs2 ▸ madeLogger_globals U E v.client false v.clientName l2 _ _ _
  have g3 : SameGlobals _ s3 := hs3 ▸ madeForeign_globals U E v.sql _ _ _ _ _
  have g4 := madeForeign_globals U E v.ladon "ladonlogger".toList "LADON".toList (IsTrue U v.serviceClean) (some (dir ++ v.ladon.file)) s3
  have k1 : ∀ m, s1.loggers.get m = if l1 = m then some ⟨strToLogLevel U v.service.level, (LogSt.at (importStart E s) l1).handlers ++
      ownHandlers U v.service (logFileOf U dir v.service.file) (importStart E s).opened.length⟩ else (importStart E s).loggers.get m :=
    fun m => hs1 ▸ madeLogger_get U E v.service true v.serviceName l1 _ _ _ m
  have k2 : ∀ m, s2.loggers.get m = if l2 = m then some ⟨strToLogLevel U v.client.level, (LogSt.at s1 l2).handlers ++
      ownHandlers U v.client (logFileOf U dir v.client.file) s1.opened.length⟩ else s1.loggers.get m :=
    fun m => hs2 ▸ madeLogger_get U E v.client false v.clientName l2 _ _ { s1 with serviceLog := some l1 } m
  have k3 : ∀ m, "sqlalchemy".toList ≠ m → s3.loggers.get m = s2.loggers.get m :=
    fun m hm => hs3 ▸ madeForeign_get U E v.sql _ _ _ _ { s2 with clientLog := some l2 } m hm
  have k4 := fun m => madeForeign_get U E v.ladon "ladonlogger".toList "LADON".toList (IsTrue U v.serviceClean)
    (some (dir ++ v.ladon.file)) s3 m
  have o1 : s1.opened.length = s.opened.length + (logFileOf U dir v.service.file).toList.length := by
    have := congrArg List.length (madeLogger_opens U E v.service true v.serviceName l1 (IsTrue U v.serviceClean)
      (logFileOf U dir v.service.file) (importStart E s)).1
    rw [hs1] at this
    simp only [List.length_map, List.length_append, o0] at this
    exact this
  have a1 : LogSt.at (importStart E s) l1 = {} := by
    unfold LogSt.at
    rw [importStart_get, if_neg (fun e => hr1 e.symm), hp1]
    rfl
  have a2 : LogSt.at s1 l2 = {} := by
    unfold LogSt.at
    rw [k1, if_neg hne', importStart_get, if_neg (fun e => hr2 e.symm), hp2]
    rfl
  have a0 : LogSt.at s rootLogName = {} := by
    unfold LogSt.at
    rw [hp0]
    rfl
  refine ⟨?_, ?_, ?_, ?_, ?_, ?_, ?_⟩
  · rw [g4.adopted]
    show ∀ n ∈ "ladonlogger".toList :: s3.adopted, _
    rw [g3.adopted]
    show ∀ n ∈ "ladonlogger".toList :: "sqlalchemy".toList :: s2.adopted, _
    rw [g2.adopted]
    show ∀ n ∈ "ladonlogger".toList :: "sqlalchemy".toList :: s1.adopted, _
    rw [g1.adopted, g0.adopted]
    show ∀ n ∈ "ladonlogger".toList :: "sqlalchemy".toList :: s.adopted, _
    rw [hs.adopted]
    intro n hn
    simp only [List.mem_cons, List.not_mem_nil, or_false] at hn
    exact hn
  · rw [k4 _ hfr.1.symm, k3 _ hfr.2.symm, k2, if_neg hr2, k1, if_neg hr1, importStart_get, if_pos rfl, a0]
  · rw [hl1, k4 _ hf1.1.symm, k3 _ hf1.2.symm, k2, if_neg hne'.symm, k1, if_pos rfl, a1, o0]
    rfl
  · rw [hl2, k4 _ hf2.1.symm, k3 _ hf2.2.symm, k2, if_pos rfl, a2, o1]
    rfl
  · rw [g4.serviceLog, hl1]
    show s3.serviceLog = _
    rw [g3.serviceLog]
    show s2.serviceLog = _
    rw [g2.serviceLog]
  · rw [g4.clientLog, hl2]
    show s3.clientLog = _
    rw [g3.clientLog]
  · rw [g4.root]
    show s3.root = _
    rw [g3.root]
    show s2.root = _
    rw [g2.root]
    show s1.root = _
    rw [g1.root, g0.root]

/-- Loggers made later, and records, leave the loggers of services and clients as they are. -/
theorem Ready.log {s : LogSt} {v : ImportSettings} {p q r : Logger} (h : Ready s v p q r) (E : LogEnv) (name : Str) (level : Nat) (msg : Str) :
    Ready (s.log E name level msg) v p q r := by
  have hs := log_setup E s name level msg
  exact ⟨by rw [hs.adopted]; exact h.adopted, by rw [hs.loggers]; exact h.top, by rw [hs.loggers]; exact h.service,
    by rw [hs.loggers]; exact h.client, by rw [hs.serviceLog]; exact h.serviceLog, by rw [hs.clientLog]; exact h.clientLog,
    by rw [hs.root]; exact h.root⟩

theorem Ready.made {s : LogSt} {v : ImportSettings} {p q r : Logger} (h : Ready s v p q r) (hsn : '.' ∉ v.serviceName)
    (hcn : '.' ∉ v.clientName) (E : LogEnv) (w : LogSettings) (service : Bool) (n : Str) (clean : Bool) (file : Option Str) :
    Ready (madeLogger U E w service n
      (childName (childName rootLogName (if service then v.serviceName else v.clientName)) n) clean file s) v p q r := by
  generalize hk : (if service then v.serviceName else v.clientName) = k
  have hg := madeLogger_globals U E w service n (childName (childName rootLogName k) n) clean file s
  have hget := madeLogger_get U E w service n (childName (childName rootLogName k) n) clean file s
  have h0 : childName (childName rootLogName k) n ≠ rootLogName := by
    intro e
    have := congrArg List.length e
    simp [childName] at this
  refine ⟨by rw [hg.adopted]; exact h.adopted, ?_, ?_, ?_, hg.serviceLog.trans h.serviceLog, hg.clientLog.trans h.clientLog,
    hg.root.trans h.root⟩
  · rw [hget, if_neg h0]; exact h.top
  · rw [hget, if_neg (grandchild_ne hsn)]; exact h.service
  · rw [hget, if_neg (grandchild_ne hcn)]; exact h.client

/-- The first level that is set. -/
def firstLevel : List Nat → Nat
  | [] => 0
  | 0 :: r => firstLevel r
  | (n + 1) :: _ => n + 1

theorem firstLevel_find (l : List Nat) : (l.find? (· ≠ 0)).getD 0 = firstLevel l := by
  induction l with
  | nil => rfl
  | cons x l ih =>
    cases x with
    | zero => rw [List.find?_cons]; exact ih
    | succ n => rw [List.find?_cons]; rfl

/-- The loggers a record passes. -/
theorem ready_ancestors {s : LogSt} {v : ImportSettings} {p q r : Logger} (h : Ready s v p q r) :
    ('.' ∉ v.serviceName → s.ancestors (childName rootLogName v.serviceName) = [p, {}, r]) ∧
    ('.' ∉ v.clientName → s.ancestors (childName rootLogName v.clientName) = [q, {}, r]) := by
  have hr : rootLogName ∉ s.adopted := by
    intro hm
    rcases h.adopted _ hm with e | e <;> revert e <;> decide
  have hc : ∀ n, childName rootLogName n ∉ s.adopted := by
    intro n hm
    rcases h.adopted _ hm with e | e
    · exact (child_foreign n).1 e
    · exact (child_foreign n).2 e
  have hne : rootLogName ≠ [] := by decide
  have htop : (s.loggers.get rootLogName).isSome = true := by rw [h.top]; rfl
  constructor
  · intro hd
    rw [ancestors_child hr hne hd htop (hc _), ancestors_root hr, h.service, h.top, h.root]
    rfl
  · intro hd
    rw [ancestors_child hr hne hd htop (hc _), ancestors_root hr, h.client, h.top, h.root]
    rfl

theorem child_ancestors {s : LogSt} {v : ImportSettings} {p q r : Logger} (h : Ready s v p q r) (service : Bool)
    (hd : '.' ∉ (if service then v.serviceName else v.clientName)) {n : Str} (hn : '.' ∉ n) :
    s.ancestors (childName (childName rootLogName (if service then v.serviceName else v.clientName)) n) =
      [LogSt.at s (childName (childName rootLogName (if service then v.serviceName else v.clientName)) n),
        if service then p else q, {}, r] := by
  have hr : rootLogName ∉ s.adopted := by
    intro hm
    rcases h.adopted _ hm with e | e <;> revert e <;> decide
  have hc : ∀ k, childName (childName rootLogName k) n ∉ s.adopted := by
    intro k hm
    have : childName (childName rootLogName k) n = childName rootLogName (k ++ '.' :: n) := by simp [childName]
    rw [this] at hm
    rcases h.adopted _ hm with e | e
    · exact (child_foreign _).1 e
    · exact (child_foreign _).2 e
  have hne : ∀ k, childName rootLogName k ≠ [] := by intro k; simp [childName]
  cases service with
  | true =>
    have hex : (s.loggers.get (childName rootLogName v.serviceName)).isSome = true := by rw [h.service]; rfl
    simp only [if_true] at hd ⊢
    rw [ancestors_child hr (hne _) hn hex (hc _), (ready_ancestors h).1 hd]
    rfl
  | false =>
    have hex : (s.loggers.get (childName rootLogName v.clientName)).isSome = true := by rw [h.client]; rfl
    simp only [Bool.false_eq_true, if_false] at hd ⊢
    rw [ancestors_child hr (hne _) hn hex (hc _), (ready_ancestors h).2 hd]
    rfl

/-- **C111**: a record of a service or client, made by a logger from `make_logger`, goes to the handlers of its own section, then to
those of section `DEFAULT`, then to those of the root logger of `logging`; and it is dropped exactly if its level is
below the first level set in this order. So the level of `DEFAULT` holds only for loggers that have no level of their own: it
does not keep records of others out of the file of `DEFAULT`. -/
theorem record_routing {s : LogSt} {v : ImportSettings} {p q r : Logger} (h : Ready s v p q r) (hsn : '.' ∉ v.serviceName)
    (hcn : '.' ∉ v.clientName) (E : LogEnv) (w : LogSettings) (service : Bool) {n : Str} (hn : '.' ∉ n) (clean : Bool) (file : Option Str)
    {l : Str} (hl : l = childName (childName rootLogName (if service then v.serviceName else v.clientName)) n)
    {s' : LogSt} (hs' : s' = madeLogger U E w service n l clean file s) :
    s'.handlersFor l = (LogSt.at s l).handlers ++ ownHandlers U w file s.opened.length ++
      (if service then p else q).handlers ++ r.handlers ∧
    ∀ level, s'.enabled l level = true ↔
      firstLevel [strToLogLevel U w.level, (if service then p else q).level, r.level] ≤ level := by
  have hr : Ready s' v p q r := by
    rw [hs', hl]
    exact h.made hsn hcn E w service n clean file
  have hd : '.' ∉ (if service then v.serviceName else v.clientName) := by cases service <;> simpa
  have ha := child_ancestors hr service hd hn
  rw [← hl] at ha
  have hat : LogSt.at s' l = ⟨strToLogLevel U w.level, (LogSt.at s l).handlers ++ ownHandlers U w file s.opened.length⟩ := by
    unfold LogSt.at
    rw [hs', madeLogger_get, if_pos rfl]
    rfl
  constructor
  · unfold LogSt.handlersFor
    rw [ha, hat]
    simp
  · intro level
    unfold LogSt.enabled LogSt.effective
    rw [ha, hat, firstLevel_find]
    simp only [decide_eq_true_eq, List.map_cons, List.map_nil]
    have : firstLevel [strToLogLevel U w.level, (if service = true then p else q).level, 0, r.level] =
        firstLevel [strToLogLevel U w.level, (if service = true then p else q).level, r.level] := by
      cases strToLogLevel U w.level with
      | zero => cases (if service = true then p else q).level <;> rfl
      | succ k => rfl
    rw [this]


/-! ### C112: what is in the files -/

/-- Records made one after the other, by whatever loggers. -/
def runLog (E : LogEnv) (s : LogSt) (h : List LogRecord) : LogSt := h.foldl (fun s r => s.log E r.name r.level r.msg) s

/-- **C112**: if no file is open twice, then a log file has in it what it had before and then, in order, the lines of all records
that are not dropped, one for each handler of the file on the way of the record. Nothing is lost and nothing written over. -/
theorem log_history (E : LogEnv) (s : LogSt) (hs : Sound s) (h : List LogRecord) :
    Sound (runLog E s h) ∧ ∀ p, ((runLog E s h).disk p).getD [] = (s.disk p).getD [] ++
      ((h.filter (fun r => s.enabled r.name r.level)).zipIdx s.tick).flatMap
        (fun x => fileOut E s p x.2 x.1 (s.handlersFor x.1.name)) := by
  induction h generalizing s with
  | nil => exact ⟨hs, fun p => by simp [runLog]⟩
  | cons r h ih =>
    obtain ⟨h1, h2, h3, _⟩ := log_out hs E r.name r.level r.msg
    have hset := log_setup E s r.name r.level r.msg
    obtain ⟨g1, g2⟩ := ih _ h1
    refine ⟨g1, fun p => ?_⟩
    have g2 := g2 p
    simp only [enabled_setup hset, handlersFor_setup hset, fileOut_setup hset, h2, h3 p] at g2
    show ((runLog E (s.log E r.name r.level r.msg) h).disk p).getD [] = _
    rw [g2]
    by_cases he : s.enabled r.name r.level = true
    · rw [if_pos he, if_pos he, List.filter_cons_of_pos (by exact he), List.zipIdx_cons, List.flatMap_cons, List.append_assoc]
    · rw [if_neg he, if_neg he, List.filter_cons_of_neg (by exact he), List.append_nil, Nat.add_zero]

/-- **C112**: after the import no file is open twice, if the configuration names four different files. -/
theorem import_sound (E : LogEnv) (dir : Str) (v : ImportSettings) (s : LogSt) (h0 : s.opened = [])
    (hn : ((v.files U dir).map (fun f => E.abspath f.1)).Nodup) : Sound (imported U E dir v s) := by
  apply (imported_opens U E dir v s).2
  · exact ⟨by rw [h0]; exact List.nodup_nil, by rw [h0]; intro f hf; cases hf⟩
  · rw [h0]
    simpa [Function.comp_def] using hn

/-- **C112**: and after `make_logger` none is, if the file of the new logger is not open yet. -/
theorem made_sound (E : LogEnv) (w : LogSettings) (service : Bool) (n l : Str) (clean : Bool) (file : Option Str) (s : LogSt)
    (hs : Sound s) (hn : ∀ f, file = some f → ∀ g ∈ s.opened, g.path ≠ E.abspath f) :
    Sound (madeLogger U E w service n l clean file s) := by
  apply (madeLogger_opens U E w service n l clean file s).2 hs
  rw [List.map_append, List.nodup_append]
  refine ⟨?_, ?_, ?_⟩
  · have := hs.once
    simpa [List.map_map, Function.comp_def, LogFile.key] using this
  · cases file <;> simp
  · intro a ha b hb
    cases file with
    | none => simp at hb
    | some f =>
      obtain ⟨k, hk, rfl⟩ := List.mem_map.mp ha
      obtain ⟨g, hg, rfl⟩ := List.mem_map.mp hk
      simp only [Option.toList_some, List.map_cons, List.map_nil, List.mem_singleton] at hb
      subst hb
      exact hn f rfl g hg

/-- **C112**: the usual case: a service whose section has no file of its own writes each record that is not dropped as one
line to the file of `DEFAULT`. -/
theorem one_line {s : LogSt} (hs : Sound s) {v : ImportSettings} {p q r : Logger} (h : Ready s v p q r) (hsn : '.' ∉ v.serviceName)
    (hcn : '.' ∉ v.clientName) (E : LogEnv) (w : LogSettings) {n : Str} (hn : '.' ∉ n) (clean : Bool)
    {l : Str} (hl : l = childName (childName rootLogName v.serviceName) n) (hnew : s.loggers.get l = none)
    {k : Nat} {path : Str} (hk : s.opened[k]?.map LogFile.path = some path)
    (hp : p.handlers = [⟨some k, some v.service.format, some v.service.dateFormat⟩] ∨
      p.handlers = [⟨some k, some v.service.format, some v.service.dateFormat⟩, ⟨none, some v.service.format, some v.service.dateFormat⟩])
    (hr : r.handlers = []) {s' : LogSt} (hs' : s' = madeLogger U E w true n l clean none s)
    (level : Nat) (msg : Str) (hlev : firstLevel [strToLogLevel U w.level, p.level, r.level] ≤ level) (line : Str)
    (hline : E.render (some v.service.format) (some v.service.dateFormat) s'.tick ⟨l, level, msg⟩ = some line) :
    ((s'.log E l level msg).disk path).getD [] = (s'.disk path).getD [] ++ (line ++ ['\n']) := by
  obtain ⟨h1, h2⟩ := record_routing h hsn hcn E w true hn clean none (by simpa using hl) hs'
  have hsound : Sound s' := hs' ▸ made_sound E w true n l clean none s hs (fun _ h => nomatch h)
  obtain ⟨_, _, h3, _⟩ := log_out hsound E l level msg
  rw [h3 path, if_pos ((h2 level).mpr hlev), h1]
  congr 1
  have hat : (LogSt.at s l).handlers = [] := by unfold LogSt.at; rw [hnew]; rfl
  have hpath : s'.opened[k]?.map LogFile.path = some path := by
    have ho := (madeLogger_opens U E w true n l clean none s).1
    rw [← hs'] at ho
    have := congrArg (fun l => l[k]?.map Prod.fst) ho
    simp only [Option.toList_none, List.map_nil, List.append_nil, List.getElem?_map, Option.map_map] at this
    exact this.trans hk
  have hbind : (some k).bind (fun k => s'.opened[k]?.map LogFile.path) = some path := hpath
  rw [hat, hr]
  unfold fileOut ownHandlers
  by_cases ht : IsTrue U w.stdout = true <;> rcases hp with hp | hp <;> simp [hp, ht, hbind, hline]

/-! #### The standard error -/

/-- What a handler of the standard error writes. -/
def errOut (E : LogEnv) (t : Nat) (r : LogRecord) (h : LogHandler) : Str :=
  match h.file, E.render h.format h.dateFormat t r with
  | none, some line => line ++ ['\n']
  | _, _ => []

theorem write_err (s : LogSt) (k : Nat) (text : Str) : (s.write k text).err = s.err ∧ (s.write k text).tick = s.tick := by
  unfold LogSt.write
  split <;> exact ⟨rfl, rfl⟩

theorem emits_err (E : LogEnv) (r : LogRecord) (hs : List LogHandler) (s : LogSt) :
    (hs.foldl (LogSt.emit E r) s).err = s.err ++ hs.flatMap (errOut E s.tick r) := by
  induction hs generalizing s with
  | nil => simp
  | cons h hs ih =>
    have e : (s.emit E r h).err = s.err ++ errOut E s.tick r h ∧ (s.emit E r h).tick = s.tick := by
      unfold LogSt.emit errOut
      cases E.render h.format h.dateFormat s.tick r with
      | none => cases h.file <;> simp
      | some line =>
        cases h.file with
        | none => simp
        | some k =>
          simp only [List.append_nil]
          exact write_err s k _
    rw [List.foldl_cons, ih, e.1, e.2, List.flatMap_cons, List.append_assoc]

/-- **C112**: a record that is not dropped is shown on the standard error once for each handler of the standard error on its way. If
there is no handler at all on its way, the bare message is shown from level WARNING on. -/
theorem error_lines (E : LogEnv) (s : LogSt) (name : Str) (level : Nat) (msg : Str) :
    (s.log E name level msg).err = s.err ++
      if s.enabled name level = true then
        if s.handlersFor name = [] then (if 30 ≤ level then msg ++ ['\n'] else [])
        else (s.handlersFor name).flatMap (errOut E s.tick ⟨name, level, msg⟩)
      else [] := by
  unfold LogSt.log
  by_cases he : s.enabled name level = true
  · rw [if_pos he, if_pos he]
    by_cases hh : s.handlersFor name = []
    · simp only [if_pos hh]
      unfold LogSt.lastResort
      split <;> simp
    · simp only [if_neg hh]
      exact emits_err E _ _ s
  · rw [if_neg he, if_neg he, List.append_nil]

theorem bind_same {α β : Type} {m : LogM α} {f g : α → LogM β} {s : LogSt} (h : ∀ a t, m s = .ok a t → f a t = g a t) :
    (m >>= f) s = (m >>= g) s := by
  show EStateM.bind m f s = EStateM.bind m g s
  unfold EStateM.bind
  split
  · exact h _ _ (by assumption)
  · rfl

theorem bind_fails {α β : Type} {m : LogM α} {f : α → LogM β} {s : LogSt} (h : ∀ a t, m s = .ok a t → ∃ e u, f a t = .error e u) :
    ∃ e u, (m >>= f) s = .error e u := by
  show ∃ e u, EStateM.bind m f s = .error e u
  unfold EStateM.bind
  split
  · exact h _ _ (by assumption)
  · exact ⟨_, _, rfl⟩

theorem logLift_state {α : Type} {x : Except PyExc α} {s t : LogSt} {a : α} (h : logLift x s = .ok a t) : t = s := by
  cases x with
  | ok b => exact (EStateM.Result.ok.inj h).2.symm
  | error e => cases h

theorem announce_globals {E : LogEnv} {service : Bool} {n : Option Str} {s t : LogSt} (h : announce E service n s = .ok () t) :
    (if service then t.serviceLog else t.clientLog) = (if service then s.serviceLog else s.clientLog) := by
  cases n with
  | none => simp [announce] at h
  | some n =>
    have hset : SameSetup s t := by
      unfold announce at h
      simp only at h
      cases hl : (if service = true then s.serviceLog else s.clientLog) <;>
      · rw [hl] at h
        rw [← (EStateM.Result.ok.inj h).2]
        exact log_setup _ _ _ _ _
    rw [hset.serviceLog, hset.clientLog]

/-- **C111**: `make_logger` without a parent makes a child of the logger of services or of clients; there must be one. -/
theorem makeLogger_parent (U : Uni) (E : LogEnv) (c : Config) (dir name : Str) (service : Bool) (s : LogSt) :
    (∀ p, (if service then s.serviceLog else s.clientLog) = some p →
      makeLoggerIO U E c dir name service none s = makeLoggerIO U E c dir name service (some p) s) ∧
    ((if service then s.serviceLog else s.clientLog) = none →
      ∃ e t, makeLoggerIO U E c dir name service none s = .error e t) := by
  refine ⟨?_, ?_⟩
  · intro p hp
    unfold makeLoggerIO
    iterate 8
      refine bind_same fun _ _ h => ?_
      have h := logLift_state h
      subst h
    refine bind_same fun _ t h => ?_
    have hg := announce_globals h
    show EStateM.bind _ _ t = EStateM.bind _ _ t
    unfold EStateM.bind
    rw [show parentLog service none t = .ok p t by unfold parentLog; simp only [hg, hp],
      show parentLog service (some p) t = .ok p t from rfl]
  · intro hp
    unfold makeLoggerIO
    iterate 8
      refine bind_fails fun _ _ h => ?_
      have h := logLift_state h
      subst h
    refine bind_fails fun _ t h => ?_
    have hg := announce_globals h
    refine bind_fails fun _ u h => ?_
    rw [show parentLog service none t = .error .attributeError t by unfold parentLog; simp only [hg, hp]] at h
    cases h

/-! #### Files open twice -/

/-- **C112**, what is missing without the condition: two handlers that have opened the same file for writing, and are at the same
place, write over each other: of the first text nothing is left if the second is as long. -/
theorem overwritten (s : LogSt) (i j : Nat) (f g : LogFile) (hij : i ≠ j) (hi : s.opened[i]? = some f) (hj : s.opened[j]? = some g)
    (hpath : f.path = g.path) (hpos : f.pos = g.pos) (hf : f.append = false) (hg : g.append = false)
    (hlen : f.pos ≤ ((s.disk f.path).getD []).length) (a b : Str) (hab : a.length ≤ b.length) :
    ((s.write i a).write j b).disk f.path = (s.write j b).disk f.path := by
  have hj' : (s.write i a).opened[j]? = some g := by
    unfold LogSt.write
    rw [hi]
    simp only [List.getElem?_set, hij, if_false]
    exact hj
  have hd : ∀ (c : Str), f.pos ≤ c.length → writeAt (writeAt c f.pos a) f.pos b = writeAt c f.pos b := by
    intro c hc
    have h0 : f.pos - c.length = 0 := by omega
    have hlen : (writeAt c f.pos a).length = f.pos + a.length + (c.length - (f.pos + a.length)) := by
      unfold writeAt
      simp [h0]
      omega
    have h1 : f.pos - (writeAt c f.pos a).length = 0 := by omega
    have h2 : (writeAt c f.pos a).take f.pos = c.take f.pos := by
      unfold writeAt
      rw [h0]
      simp only [List.replicate_zero, List.append_nil, List.append_assoc]
      rw [List.take_append_of_le_length (by simp; omega)]
      rw [List.take_take, Nat.min_self]
    have h3 : (writeAt c f.pos a).drop (f.pos + b.length) = c.drop (f.pos + b.length) := by
      unfold writeAt
      rw [h0]
      simp only [List.replicate_zero, List.append_nil]
      rw [List.drop_append, List.drop_eq_nil_of_le (by simp; omega), List.nil_append, List.drop_drop]
      congr 1
      simp only [List.length_append, List.length_take]
      omega
    show (writeAt c f.pos a).take f.pos ++ List.replicate (f.pos - (writeAt c f.pos a).length) '\x00' ++ b ++
      (writeAt c f.pos a).drop (f.pos + b.length) = writeAt c f.pos b
    rw [h1, h2, h3]
    unfold writeAt
    rw [h0]
  have e1 : (s.write i a).disk g.path = some (writeAt ((s.disk f.path).getD []) f.pos a) := by
    unfold LogSt.write
    rw [hi, ← hpath]
    simp [hf]
  have e2 : ((s.write i a).write j b).disk g.path = some (writeAt (((s.write i a).disk g.path).getD []) g.pos b) := by
    rw [LogSt.write, hj']
    simp [hg]
  have e3 : (s.write j b).disk g.path = some (writeAt ((s.disk g.path).getD []) g.pos b) := by
    unfold LogSt.write
    rw [hj]
    simp [hg]
  rw [hpath, e2, e1, e3, ← hpos, ← hpath]
  simp only [Option.getD_some]
  rw [hd _ hlen]

/-- **C112**: if another process empties the file — a client that starts, see `client_wipes_service` —, the next record of a handler
that has opened it for writing comes after as many NULs as there were characters. -/
theorem gap_after_wipe (s : LogSt) (k : Nat) (f : LogFile) (hk : s.opened[k]? = some f) (hf : f.append = false)
    (hd : s.disk f.path = some []) (text : Str) :
    (s.write k text).disk f.path = some (List.replicate f.pos '\x00' ++ text) := by
  unfold LogSt.write
  rw [hk]
  simp [hf, hd, writeAt]

end Verif.Props
