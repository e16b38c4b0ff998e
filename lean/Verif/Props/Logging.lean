import Verif.Proofs.LoggingSound

/-!
# Loggers while they are used (C110–C112)
-/

namespace Verif.Props

open Proofs

variable {U : Uni}

/-! ### The settings of a logger -/

/-- The values of the options of one logger. -/
structure LogSettings where
  file : Str
  level : Str
  format : Str
  dateFormat : Str
  stdout : Str
deriving DecidableEq, Repr

/-- `v` has the values of the options whose names begin with `pre`, for a section. -/
structure LogSettings.Of (U : Uni) (c : Config) (service : Bool) (sect : Str) (pre : Str) (v : LogSettings) : Prop where
  file : Setting U c (pre ++ "LOG_FILE".toList) service sect (some v.file)
  level : Setting U c (pre ++ "LOG_LEVEL".toList) service sect (some v.level)
  format : Setting U c (pre ++ "LOG_FORMAT".toList) service sect (some v.format)
  dateFormat : Setting U c (pre ++ "LOG_DATE_FORMAT".toList) service sect (some v.dateFormat)
  stdout : Setting U c (pre ++ "LOG_STDOUT".toList) service sect (some v.stdout)

/-- No section is called `DEFAULT`; `ConfigParser` never has one. -/
def NoDefault (c : Config) : Prop := ∀ service, (c.ini service).sections.get defaultSect = none

/-- A text that switches something on. -/
def IsTrue (U : Uni) (v : Str) : Bool := decide (U.upper v = "TRUE".toList)

/-- The file a value of `LOG_FILE` names: none, or one in the directory of log files; an empty name stays as it is. -/
def logFileOf (U : Uni) (dir v : Str) : Option Str :=
  if U.lower v = "none".toList ∨ U.lower v = "false".toList then none
  else if v = [] then some [] else some (dir ++ v)

/-- What is assumed of the tables and of the directory: a path in it never spells `NONE` or `FALSE`, and what
lower-cases to `none` or `false` also upper-cases to it. -/
structure LogDirOk (U : Uni) (dir : Str) : Prop where
  path : ∀ f, U.upper (dir ++ f) ≠ "NONE".toList ∧ U.upper (dir ++ f) ≠ "FALSE".toList
  case : ∀ f, U.lower f = "none".toList ∨ U.lower f = "false".toList → U.upper f = "NONE".toList ∨ U.upper f = "FALSE".toList

/-- Every option with a built-in value has a value. -/
theorem setting_exists (hU : U.Lawful) {c : Config} (hc : NoDefault c) {name : Str} {service : Bool} (sect : Str)
    (ha : name.all isAscii = true) (hb : ∀ v, Builtin service (U.upper name) v → v ≠ none) :
    ∃ v, Setting U c name service sect (some v) := by
  obtain ⟨v, hv⟩ := (getConf_terminates hU c 0 name service sect).2
  have hs := (getConf_ascii hU c name service sect (hc service) ha v).mp hv
  cases v with
  | some v => exact ⟨v, hs⟩
  | none =>
    rcases hs with ⟨_, _, _, _, h⟩ | ⟨_, _, _, h⟩ | ⟨_, _, h⟩
    · cases h
    · cases h
    · exact absurd rfl (hb none h)

theorem upper_fixed (hU : U.Lawful) (n : Str) (ha : n.all isAscii = true) (hu : n.map asciiUpper = n) : U.upper n = n := by
  rw [hU.upper_ascii _ ha, hu]

theorem builtin_some (hU : U.Lawful) (n : Str) (service : Bool) (ha : n.all isAscii = true) (hu : n.map asciiUpper = n)
    (h : ((builtinConfigs service).get n).join ≠ none) : ∀ v, Builtin service (U.upper n) v → v ≠ none := by
  intro v hv e
  rw [upper_fixed hU n ha hu] at hv
  rw [builtin_iff] at hv
  exact h (hv.symm.trans e)

/-- Every configuration gives the settings of a logger. -/
theorem settings_exist (hU : U.Lawful) {c : Config} (hc : NoDefault c) (service : Bool) (sect : Str) :
    ∃ v, LogSettings.Of U c service sect [] v := by
  have h : ∀ n ∈ ["LOG_FILE".toList, "LOG_LEVEL".toList, "LOG_FORMAT".toList, "LOG_DATE_FORMAT".toList, "LOG_STDOUT".toList],
      n.all isAscii = true ∧ n.map asciiUpper = n ∧ ((builtinConfigs service).get n).join ≠ none := by
    cases service <;> decide +kernel
  have g : ∀ n ∈ ["LOG_FILE".toList, "LOG_LEVEL".toList, "LOG_FORMAT".toList, "LOG_DATE_FORMAT".toList, "LOG_STDOUT".toList],
      ∃ v, Setting U c n service sect (some v) := fun n hn =>
    setting_exists hU hc sect (h n hn).1 (builtin_some hU n service (h n hn).1 (h n hn).2.1 (h n hn).2.2)
  obtain ⟨a, ha⟩ := g "LOG_FILE".toList (by simp)
  obtain ⟨b, hb⟩ := g "LOG_LEVEL".toList (by simp)
  obtain ⟨d, hd⟩ := g "LOG_FORMAT".toList (by simp)
  obtain ⟨e, he⟩ := g "LOG_DATE_FORMAT".toList (by simp)
  obtain ⟨f, hf⟩ := g "LOG_STDOUT".toList (by simp)
  exact ⟨⟨a, b, d, e, f⟩, ha, hb, hd, he, hf⟩

theorem sqlSettings_exist (hU : U.Lawful) {c : Config} (hc : NoDefault c) (sect : Str) :
    ∃ v, LogSettings.Of U c true sect "SQL_".toList v := by
  have h : ∀ n ∈ ["SQL_LOG_FILE".toList, "SQL_LOG_LEVEL".toList, "SQL_LOG_FORMAT".toList, "SQL_LOG_DATE_FORMAT".toList,
      "SQL_LOG_STDOUT".toList],
      n.all isAscii = true ∧ n.map asciiUpper = n ∧ ((builtinConfigs true).get n).join ≠ none := by
    decide +kernel
  have g : ∀ n ∈ ["SQL_LOG_FILE".toList, "SQL_LOG_LEVEL".toList, "SQL_LOG_FORMAT".toList, "SQL_LOG_DATE_FORMAT".toList,
      "SQL_LOG_STDOUT".toList],
      ∃ v, Setting U c n true sect (some v) := fun n hn =>
    setting_exists hU hc sect (h n hn).1 (builtin_some hU n true (h n hn).1 (h n hn).2.1 (h n hn).2.2)
  obtain ⟨a, ha⟩ := g "SQL_LOG_FILE".toList (by simp)
  obtain ⟨b, hb⟩ := g "SQL_LOG_LEVEL".toList (by simp)
  obtain ⟨d, hd⟩ := g "SQL_LOG_FORMAT".toList (by simp)
  obtain ⟨e, he⟩ := g "SQL_LOG_DATE_FORMAT".toList (by simp)
  obtain ⟨f, hf⟩ := g "SQL_LOG_STDOUT".toList (by simp)
  exact ⟨⟨a, b, d, e, f⟩, ha, hb, hd, he, hf⟩

/-! ### Setting up one logger -/

/-- The message about a new logger. -/
def announced (E : LogEnv) (service : Bool) (n : Str) (s : LogSt) : LogSt :=
  let kind : Str := if service then "service".toList else "client".toList
  match (if service then s.serviceLog else s.clientLog) with
  | some l => s.log E l 10 ("Adding ".toList ++ kind ++ " logger for ".toList ++ childName l n)
  | none => s.log E rootLogName 10 ("Adding root ".toList ++ kind ++ " logger ".toList ++ childName rootLogName n)

/-- Opening the file of a logger and giving it a handler for it. -/
def withFile (E : LogEnv) (v : LogSettings) (l : Str) (w : Bool) (file : Option Str) (s : LogSt) : LogSt :=
  match file with
  | none => s
  | some f => (s.openFile (E.abspath f) w).addHandler l ⟨some s.opened.length, some v.format, some v.dateFormat⟩

/-- The handler for the standard error. -/
def withStream (U : Uni) (v : LogSettings) (l : Str) (s : LogSt) : LogSt :=
  if IsTrue U v.stdout then s.addHandler l ⟨none, some v.format, some v.dateFormat⟩ else s

/-- The state after a logger was made. -/
def setUp (U : Uni) (E : LogEnv) (v : LogSettings) (l shown : Str) (w : Bool) (file : Option Str) (s : LogSt) : LogSt :=
  let s := withStream U v l (withFile E v l w file s)
  s.log E l 20 (shown ++ " log started on ".toList ++ E.now s.tick)

/-- The state after `make_logger`, and after the functions for SQLAlchemy and Ladon. -/
def madeLogger (U : Uni) (E : LogEnv) (v : LogSettings) (service : Bool) (n l : Str) (w : Bool) (file : Option Str) (s : LogSt) : LogSt :=
  setUp U E v l l w file (((announced E service n s).getLogger l).setLevel l (strToLogLevel U v.level))

def madeForeign (U : Uni) (E : LogEnv) (v : LogSettings) (name shown : Str) (w : Bool) (file : Option Str) (s : LogSt) : LogSt :=
  setUp U E v name shown w file (((s.getLogger name).adopt name).setLevel name (strToLogLevel U v.level))

/-- `make_logger` succeeds exactly if the format is accepted and the file can be opened; the state afterwards. -/
theorem makeLogger_ok (hU : U.Lawful) {c : Config} (hc : NoDefault c) {dir : Str} (hdir : LogDirOk U dir) (E : LogEnv) {name : Str}
    (hname : U.upper (U.upper name) = U.upper name) {service : Bool}
    {v : LogSettings} (hv : v.Of U c service name []) {n k : Str}
    (hn : Setting U c "LOG_NAME".toList service name (some n))
    (hk : Setting U c "CLEAN_LOG_ON_START".toList service name (some k)) (p : Str) (s s' : LogSt) (l : Str) :
    makeLoggerIO U E c dir name service (some p) s = .ok l s' ↔
      l = childName p n ∧ E.formatOk (some v.format) = true ∧
      (∀ f, logFileOf U dir v.file = some f → E.openFault (E.abspath f) = none) ∧
      s' = madeLogger U E v service n l (IsTrue U k) (logFileOf U dir v.file) s := by
  have conf : ∀ (o x : Str), o.all isAscii = true → Setting U c o service name (some x) →
      getConf U c o service (U.upper name) = .ok (some x) := by
    intro o x ho hx
    rw [← getConf_case (U := U) c o o service name (U.upper name) rfl hname.symm]
    exact (getConf_ascii hU c o service name (hc service) ho _).mpr hx
  have e1 := conf _ _ (by decide) hv.file
  have e2 := conf _ _ (by decide) hv.level
  have e3 := conf _ _ (by decide) hv.format
  have e4 := conf _ _ (by decide) hn
  have e5 := conf _ _ (by decide) hv.dateFormat
  have e6 := conf _ _ (by decide) hv.stdout
  have e7 := conf _ _ (by decide) hk
  have hfile : logFileHandler U (some (logPath U dir v.file)) (some k) =
      .ok ((logFileOf U dir v.file).map (fun f => (f, IsTrue U k))) := by
    by_cases hnone : U.lower v.file = "none".toList ∨ U.lower v.file = "false".toList
    · have h1 : ¬ (U.lower v.file ≠ "none".toList ∧ U.lower v.file ≠ "false".toList ∧ v.file ≠ []) := by
        rintro ⟨a, b, _⟩
        rcases hnone with h | h <;> contradiction
      have h2 : ¬ (U.upper v.file ≠ "NONE".toList ∧ U.upper v.file ≠ "FALSE".toList) := by
        rintro ⟨a, b⟩
        rcases hdir.case _ hnone with h | h <;> contradiction
      rw [show logPath U dir v.file = v.file from if_neg h1, show logFileOf U dir v.file = none from if_pos hnone]
      exact if_neg h2
    · have hnone' := not_or.mp hnone
      by_cases he : v.file = []
      · have h1 : ¬ (U.lower v.file ≠ "none".toList ∧ U.lower v.file ≠ "false".toList ∧ v.file ≠ []) := fun h => h.2.2 he
        have h2 : U.upper [] ≠ "NONE".toList ∧ U.upper [] ≠ "FALSE".toList := by
          rw [hU.upper_ascii [] rfl]; decide
        have h3 : logFileOf U dir v.file = some [] := by
          unfold logFileOf
          rw [if_neg hnone, if_pos he]
        rw [show logPath U dir v.file = v.file from if_neg h1, h3, he]
        exact if_pos h2
      · have h1 : U.lower v.file ≠ "none".toList ∧ U.lower v.file ≠ "false".toList ∧ v.file ≠ [] := ⟨hnone'.1, hnone'.2, he⟩
        have h3 : logFileOf U dir v.file = some (dir ++ v.file) := by
          unfold logFileOf
          rw [if_neg hnone, if_neg he]
        rw [show logPath U dir v.file = dir ++ v.file from if_pos h1, h3]
        exact if_pos (hdir.path v.file)
  have hann : announce E service (some n) s = .ok () (announced E service n s) := by
    unfold announce announced
    simp only
    cases (if service = true then s.serviceLog else s.clientLog) <;> rfl
  unfold makeLoggerIO
  simp only [List.nil_append] at e1 e2 e3 e5 e6
  simp only [e1, e2, e3, e4, e5, e6, e7, Option.map_some, hfile, Option.getD_some]
  simp only [bind, EStateM.bind, logLift, confStr, Option.elim_some, hann, parentLog, logDo, newFormatter, madeLogger, setUp, Option.map_some,
    Option.getD_some, hfile]
  cases hf : E.formatOk (some v.format) with
  | false => simp
  | true =>
    cases hl : logFileOf U dir v.file with
    | none =>
      by_cases ht : U.upper v.stdout = "TRUE".toList <;>
      · simp only [ht, EStateM.bind, logLift, logDo, withFile, withStream, IsTrue, pure, EStateM.pure,
          if_true, if_false, decide_true, decide_false, Bool.false_eq_true, EStateM.Result.ok.injEq, true_and, reduceCtorEq, false_imp_iff, implies_true, forall_const, Option.some.injEq, forall_eq', Option.map_none, Option.map_some]
        constructor
        · rintro ⟨rfl, rfl⟩; exact ⟨rfl, rfl⟩
        · rintro ⟨rfl, rfl⟩; exact ⟨rfl, rfl⟩
    | some f =>
      cases ho : E.openFault (E.abspath f) with
      | some e => simp [EStateM.bind, addFileHandler, ho]
      | none =>
        by_cases ht : U.upper v.stdout = "TRUE".toList <;>
        · simp only [addFileHandler, EStateM.bind, logLift, logDo, ho, ht, withFile, withStream, IsTrue, pure, EStateM.pure,
            if_true, if_false, decide_true, decide_false, Bool.false_eq_true, EStateM.Result.ok.injEq, true_and, reduceCtorEq, false_imp_iff, implies_true, forall_const, Option.some.injEq, forall_eq', Option.map_none, Option.map_some]
          constructor
          · rintro ⟨rfl, rfl⟩; exact ⟨rfl, rfl⟩
          · rintro ⟨rfl, rfl⟩; exact ⟨rfl, rfl⟩

/-- The same for the loggers of SQLAlchemy and Ladon, whose file is always in the directory of log files. -/
theorem makeForeign_ok (hU : U.Lawful) {c : Config} (hc : NoDefault c) (E : LogEnv) (dir name : Str) {pre : Str}
    (hpre : pre.all isAscii = true) {sect : Str} {v : LogSettings} (hv : v.Of U c true sect pre) {k : Str}
    (hk : Setting U c "CLEAN_LOG_ON_START".toList true "DEFAULT".toList (some k)) (shown : Str) (s s' : LogSt) :
    makeForeignLog U E c dir name pre sect shown s = .ok () s' ↔
      E.formatOk (some v.format) = true ∧ E.openFault (E.abspath (dir ++ v.file)) = none ∧
      s' = madeForeign U E v name shown (IsTrue U k) (some (dir ++ v.file)) s := by
  have conf : ∀ (o x : Str), o.all isAscii = true → Setting U c (pre ++ o) true sect (some x) →
      getConf U c (pre ++ o) true sect = .ok (some x) := by
    intro o x ho hx
    exact (getConf_ascii hU c _ true sect (hc true) (by rw [List.all_append, hpre, ho]; rfl) _).mpr hx
  have e1 := conf _ _ (by decide) hv.file
  have e2 := conf _ _ (by decide) hv.level
  have e3 := conf _ _ (by decide) hv.format
  have e5 := conf _ _ (by decide) hv.dateFormat
  have e6 := conf _ _ (by decide) hv.stdout
  have e7 : getConf U c "CLEAN_LOG_ON_START".toList true "DEFAULT".toList = .ok (some k) :=
    (getConf_ascii hU c _ true _ (hc true) (by decide) _).mpr hk
  unfold makeForeignLog
  simp only [e1, e2, e3, e5, e6, e7]
  simp only [bind, EStateM.bind, logLift, confStr, Option.elim_some, logDo, newFormatter, madeForeign, setUp]
  cases ho : E.openFault (E.abspath (dir ++ v.file)) with
  | some e => simp
  | none =>
    simp only [Option.elim_none]
    cases hf : E.formatOk (some v.format) with
    | false => simp
    | true =>
      by_cases ht : U.upper v.stdout = "TRUE".toList <;>
      · simp only [ht, EStateM.bind, logDo, withFile, withStream, IsTrue, if_true, if_false, decide_true,
          decide_false, Bool.false_eq_true, EStateM.Result.ok.injEq, true_and]
        exact ⟨fun h => h.symm, fun h => h.symm⟩

/-! ### C110: importing the module -/

/-- The settings the import of `hgaa/log.py` depends on. -/
structure ImportSettings where
  /-- of the services and of the clients, section `DEFAULT` -/
  service : LogSettings
  client : LogSettings
  serviceName : Str
  clientName : Str
  serviceClean : Str
  clientClean : Str
  /-- of SQLAlchemy and of Ladon -/
  sql : LogSettings
  ladon : LogSettings

structure ImportSettings.Of (U : Uni) (c : Config) (v : ImportSettings) : Prop where
  service : v.service.Of U c true defaultSect []
  client : v.client.Of U c false defaultSect []
  serviceName : Setting U c "LOG_NAME".toList true defaultSect (some v.serviceName)
  clientName : Setting U c "LOG_NAME".toList false defaultSect (some v.clientName)
  serviceClean : Setting U c "CLEAN_LOG_ON_START".toList true defaultSect (some v.serviceClean)
  clientClean : Setting U c "CLEAN_LOG_ON_START".toList false defaultSect (some v.clientClean)
  sql : v.sql.Of U c true defaultSect "SQL_".toList
  ladon : v.ladon.Of U c true "LADON".toList []

/-- Every configuration gives the settings. -/
theorem importSettings_exist (hU : U.Lawful) {c : Config} (hc : NoDefault c) : ∃ v, ImportSettings.Of U c v := by
  obtain ⟨a, ha⟩ := settings_exist hU hc true defaultSect
  obtain ⟨b, hb⟩ := settings_exist hU hc false defaultSect
  obtain ⟨d, hd⟩ := sqlSettings_exist hU hc defaultSect
  obtain ⟨e, he⟩ := settings_exist hU hc true "LADON".toList
  have h : ∀ service, ∀ n ∈ ["LOG_NAME".toList, "CLEAN_LOG_ON_START".toList],
      n.all isAscii = true ∧ n.map asciiUpper = n ∧ ((builtinConfigs service).get n).join ≠ none := by
    decide +kernel
  have g : ∀ service, ∀ n ∈ ["LOG_NAME".toList, "CLEAN_LOG_ON_START".toList],
      ∃ v, Setting U c n service defaultSect (some v) := fun service n hn =>
    setting_exists hU hc defaultSect (h service n hn).1
      (builtin_some hU n service (h service n hn).1 (h service n hn).2.1 (h service n hn).2.2)
  obtain ⟨n1, h1⟩ := g true "LOG_NAME".toList (by simp)
  obtain ⟨n2, h2⟩ := g false "LOG_NAME".toList (by simp)
  obtain ⟨k1, h3⟩ := g true "CLEAN_LOG_ON_START".toList (by simp)
  obtain ⟨k2, h4⟩ := g false "CLEAN_LOG_ON_START".toList (by simp)
  exact ⟨⟨a, b, n1, n2, k1, k2, d, e⟩, ha, hb, h1, h2, h3, h4, hd, he⟩

/-- The files the import opens, in order: the path, and whether the file is emptied. -/
def ImportSettings.files (U : Uni) (dir : Str) (v : ImportSettings) : List (Str × Bool) :=
  (logFileOf U dir v.service.file).toList.map (fun f => (f, IsTrue U v.serviceClean)) ++
  (logFileOf U dir v.client.file).toList.map (fun f => (f, IsTrue U v.clientClean)) ++
  [(dir ++ v.sql.file, IsTrue U v.serviceClean), (dir ++ v.ladon.file, IsTrue U v.serviceClean)]

/-- The state after the first statements of the module. -/
def importStart (E : LogEnv) (s : LogSt) : LogSt :=
  let s := s.getLogger rootLogName
  { s.log E rootLogName 20 ("HGAA root log started on ".toList ++ E.now s.tick) with serviceLog := none, clientLog := none }

/-- The state after the import. -/
def imported (U : Uni) (E : LogEnv) (dir : Str) (v : ImportSettings) (s : LogSt) : LogSt :=
  let l1 := childName rootLogName v.serviceName
  let l2 := childName rootLogName v.clientName
  let s1 := madeLogger U E v.service true v.serviceName l1 (IsTrue U v.serviceClean) (logFileOf U dir v.service.file) (importStart E s)
  let s2 := madeLogger U E v.client false v.clientName l2 (IsTrue U v.clientClean) (logFileOf U dir v.client.file)
    { s1 with serviceLog := some l1 }
  let s3 := madeForeign U E v.sql "sqlalchemy".toList "SQL".toList (IsTrue U v.serviceClean) (some (dir ++ v.sql.file))
    { s2 with clientLog := some l2 }
  madeForeign U E v.ladon "ladonlogger".toList "LADON".toList (IsTrue U v.serviceClean) (some (dir ++ v.ladon.file)) s3

/-- **C110**: importing `hgaa/log.py`, be it for a service or for a client, succeeds exactly if the formats of all four
loggers are accepted and all their files can be opened. -/
theorem import_ok (hU : U.Lawful) {c : Config} (hc : NoDefault c) {dir : Str} (hdir : LogDirOk U dir) (E : LogEnv)
    {v : ImportSettings} (hv : v.Of U c) (s s' : LogSt) :
    importLog U E c dir s = .ok () s' ↔
      (∀ l ∈ [v.service, v.client, v.sql, v.ladon], E.formatOk (some l.format) = true) ∧
      (∀ f ∈ v.files U dir, E.openFault (E.abspath f.1) = none) ∧ s' = imported U E dir v s := by
  have hdef : U.upper (U.upper defaultSect) = U.upper defaultSect := by rw [upper_defaultSect hU, upper_defaultSect hU]
  unfold importLog makeSqlLog makeLadonLog
  simp only [lm_bind_ok, lm_do_ok, exists_const, exists_eq_left']
  have hservice := fun s s' l => makeLogger_ok hU hc hdir E hdef hv.service hv.serviceName hv.serviceClean rootLogName s s' l
  have hclient := fun s s' l => makeLogger_ok hU hc hdir E hdef hv.client hv.clientName hv.clientClean rootLogName s s' l
  have hsql := fun s s' => makeForeign_ok hU hc E dir "sqlalchemy".toList (by decide) hv.sql hv.serviceClean "SQL".toList s s'
  have hladon := fun s s' => makeForeign_ok hU hc E dir "ladonlogger".toList (by decide) hv.ladon hv.serviceClean "LADON".toList s s'
  simp only [show ("DEFAULT".toList : Str) = defaultSect from rfl, hservice, hclient, hsql, hladon]
  constructor
  · rintro ⟨_, _, ⟨rfl, f1, o1, rfl⟩, _, _, ⟨rfl, f2, o2, rfl⟩, _, _, ⟨f3, o3, rfl⟩, f4, o4, rfl⟩
    refine ⟨by simp [f1, f2, f3, f4], ?_, rfl⟩
    intro f hf
    simp only [ImportSettings.files, List.mem_append, List.mem_map, Option.mem_toList, List.mem_cons, List.not_mem_nil,
      or_false] at hf
    rcases hf with (⟨g, hg, rfl⟩ | ⟨g, hg, rfl⟩) | rfl | rfl
    · exact o1 g hg
    · exact o2 g hg
    · exact o3
    · exact o4
  · rintro ⟨hf, ho, rfl⟩
    have o : ∀ f w, (f, w) ∈ v.files U dir → E.openFault (E.abspath f) = none := fun f w h => ho (f, w) h
    refine ⟨_, _, ⟨rfl, hf _ (by simp), fun f h => o f (IsTrue U v.serviceClean) (by simp [ImportSettings.files, h]), rfl⟩,
      _, _, ⟨rfl, hf _ (by simp), fun f h => o f (IsTrue U v.clientClean) (by simp [ImportSettings.files, h]), rfl⟩,
      (), _, ⟨hf _ (by simp), o _ (IsTrue U v.serviceClean) (by simp [ImportSettings.files]), rfl⟩,
      hf _ (by simp), o _ (IsTrue U v.serviceClean) (by simp [ImportSettings.files]), rfl⟩


/-! #### The files -/

/-- Going from `s` to `t` the files `a` were opened, and if each file is open only once then all are at their ends. -/
def Opens (s t : LogSt) (a : List (Str × Bool)) : Prop :=
  t.opened.map LogFile.key = s.opened.map LogFile.key ++ a ∧
  (Sound s → ((s.opened.map LogFile.key ++ a).map Prod.fst).Nodup → Sound t)

theorem Opens.trans {s t u : LogSt} {a b : List (Str × Bool)} (h : Opens s t a) (h' : Opens t u b) : Opens s u (a ++ b) := by
  refine ⟨by rw [h'.1, h.1, List.append_assoc], fun hs hn => h'.2 (h.2 hs ?_) ?_⟩
  · rw [← List.append_assoc, List.map_append] at hn
    exact (List.nodup_append.mp hn).1
  · rw [h.1, List.append_assoc]
    exact hn

theorem Opens.same {s t : LogSt} (ho : t.opened = s.opened) (hd : t.disk = s.disk) : Opens s t [] := by
  refine ⟨by rw [ho, List.append_nil], fun hs _ => ⟨?_, ?_⟩⟩
  · rw [ho]; exact hs.once
  · rw [ho, hd]; exact hs.atEnd

theorem Opens.log (E : LogEnv) (s : LogSt) (name : Str) (level : Nat) (msg : Str) : Opens s (s.log E name level msg) [] :=
  ⟨by rw [List.append_nil]; exact (log_setup E s name level msg).opened, fun hs _ => (log_out hs E name level msg).1⟩

theorem getLogger_opens (s : LogSt) (n : Str) : Opens s (s.getLogger n) [] := by
  unfold LogSt.getLogger
  split
  · exact .same rfl rfl
  · exact .same rfl rfl

theorem announced_opens (E : LogEnv) (service : Bool) (n : Str) (s : LogSt) : Opens s (announced E service n s) [] := by
  unfold announced
  dsimp only
  split
  · exact .log ..
  · exact .log ..

theorem openFile_opens (s : LogSt) (p : Str) (w : Bool) : Opens s (s.openFile p w) [(p, !w)] := by
  refine ⟨by simp [LogSt.openFile, LogFile.key], fun hs hn => openFile_sound hs p w ?_⟩
  intro f hf e
  rw [List.map_append, List.nodup_append] at hn
  exact hn.2.2 p (List.mem_map.mpr ⟨LogFile.key f, List.mem_map_of_mem hf, e⟩) p (by simp) rfl

theorem setUp_opens (U : Uni) (E : LogEnv) (v : LogSettings) (l shown : Str) (w : Bool) (file : Option Str) (s : LogSt) :
    Opens s (setUp U E v l shown w file s) (file.toList.map (fun f => (E.abspath f, !w))) := by
  have h1 : Opens s (withFile E v l w file s) (file.toList.map (fun f => (E.abspath f, !w))) := by
    unfold withFile
    cases file with
    | none => exact .same rfl rfl
    | some f => exact (openFile_opens s (E.abspath f) w).trans (b := []) (.same rfl rfl)
  have h2 : ∀ s, Opens s (withStream U v l s) [] := by
    intro s
    unfold withStream
    split <;> exact .same rfl rfl
  have h3 := fun msg => (h1.trans (h2 _)).trans (.log E (withStream U v l (withFile E v l w file s)) l 20 msg)
  simp only [List.append_nil] at h3
  exact h3 _

theorem setLevel_opens (s : LogSt) (n : Str) (l : Nat) : Opens s (s.setLevel n l) [] := .same rfl rfl

theorem adopt_opens (s : LogSt) (n : Str) : Opens s (s.adopt n) [] := .same rfl rfl

theorem serviceLog_opens (s : LogSt) (l : Option Str) : Opens s { s with serviceLog := l } [] := .same rfl rfl

theorem clientLog_opens (s : LogSt) (l : Option Str) : Opens s { s with clientLog := l } [] := .same rfl rfl

theorem madeLogger_opens (U : Uni) (E : LogEnv) (v : LogSettings) (service : Bool) (n l : Str) (w : Bool) (file : Option Str)
    (s : LogSt) : Opens s (madeLogger U E v service n l w file s) (file.toList.map (fun f => (E.abspath f, !w))) :=
  (announced_opens E service n s).trans ((getLogger_opens _ l).trans
    ((setLevel_opens _ l (strToLogLevel U v.level)).trans (setUp_opens U E v l l w file _)))

theorem madeForeign_opens (U : Uni) (E : LogEnv) (v : LogSettings) (name shown : Str) (w : Bool) (file : Option Str)
    (s : LogSt) : Opens s (madeForeign U E v name shown w file s) (file.toList.map (fun f => (E.abspath f, !w))) :=
  (getLogger_opens s name).trans
    ((adopt_opens _ name).trans ((setLevel_opens _ name (strToLogLevel U v.level)).trans (setUp_opens U E v name shown w file _)))

theorem importStart_opens (E : LogEnv) (s : LogSt) : Opens s (importStart E s) [] :=
  (getLogger_opens s rootLogName).trans ((Opens.log E _ rootLogName 20 _).trans (b := []) (.same rfl rfl))

theorem imported_opens (U : Uni) (E : LogEnv) (dir : Str) (v : ImportSettings) (s : LogSt) :
    Opens s (imported U E dir v s) ((v.files U dir).map (fun f => (E.abspath f.1, !f.2))) := by
  have hf : (v.files U dir).map (fun f => (E.abspath f.1, !f.2)) = [] ++
      ((logFileOf U dir v.service.file).toList.map (fun f => (E.abspath f, !IsTrue U v.serviceClean)) ++ ([] ++
      ((logFileOf U dir v.client.file).toList.map (fun f => (E.abspath f, !IsTrue U v.clientClean)) ++ ([] ++
      (((some (dir ++ v.sql.file)).toList.map (fun f => (E.abspath f, !IsTrue U v.serviceClean))) ++
      ((some (dir ++ v.ladon.file)).toList.map (fun f => (E.abspath f, !IsTrue U v.serviceClean)))))))) := by
    simp [ImportSettings.files, Function.comp_def]
  rw [hf]
  exact (importStart_opens E s).trans <| (madeLogger_opens ..).trans <|
    (serviceLog_opens ..).trans <| (madeLogger_opens ..).trans <| (clientLog_opens ..).trans <|
    (madeForeign_opens ..).trans <| madeForeign_opens ..

/-- **C110**: the import opens the four files, in this order, in the mode the configuration of the services or of the clients asks for. -/
theorem import_opened (hU : U.Lawful) {c : Config} (hc : NoDefault c) {dir : Str} (hdir : LogDirOk U dir) {E : LogEnv}
    {v : ImportSettings} (hv : v.Of U c) {s s' : LogSt} (h : importLog U E c dir s = .ok () s') :
    s'.opened.map (fun f => (f.path, f.append)) =
      s.opened.map (fun f => (f.path, f.append)) ++ (v.files U dir).map (fun f => (E.abspath f.1, !f.2)) := by
  obtain ⟨_, _, rfl⟩ := (import_ok hU hc hdir E hv s s').mp h
  exact (imported_opens U E dir v s).1

/-- **C110**: whatever happens, files the import does not open stay as they are. -/
theorem import_untouched (U : Uni) (E : LogEnv) (c : Config) (dir : Str) (s : LogSt) (p : Str)
    (h : ∀ f ∈ (resState (importLog U E c dir s)).opened, f.path ≠ p) :
    (resState (importLog U E c dir s)).disk p = s.disk p :=
  (import_grows U E c dir s).other p h

/-- **C110**: and files it opens for appending keep what is in them. -/
theorem import_kept (U : Uni) (E : LogEnv) (c : Config) (dir : Str) (s : LogSt) (p : Str)
    (h : ∀ f ∈ (resState (importLog U E c dir s)).opened, f.path = p → f.append = true) :
    ∃ text, ((resState (importLog U E c dir s)).disk p).getD [] = (s.disk p).getD [] ++ text :=
  (import_grows U E c dir s).append p h

/-- **C110**: of a file that is emptied nothing is left: what is in it after the import is the same whatever was in it before —
also if the import fails later. -/
theorem import_wiped (U : Uni) (E : LogEnv) (c : Config) (dir : Str) (s : LogSt) (d : Disk) (p : Str)
    (h : ∃ f ∈ (resState (importLog U E c dir s)).opened.drop s.opened.length, f.path = p ∧ f.append = false) :
    (resState (importLog U E c dir { s with disk := d })).disk p = (resState (importLog U E c dir s)).disk p := by
  have ha : Agree s.opened.length s { s with disk := d } := by
    refine agree_iff.mpr ⟨Nat.le_refl _, d, rfl, ?_⟩
    rintro p ⟨f, hf, _⟩
    rw [List.drop_length] at hf
    cases hf
  have := import_blind U E c dir _ _ _ ha
  revert this h
  cases importLog U E c dir s <;> cases importLog U E c dir { s with disk := d } <;> intro h this
  · exact this.2.disk p h
  · exact this.elim
  · exact this.elim
  · exact this.2.disk p h

/-- **C110**: a client that imports the module empties the log of the services, if the services are configured so. -/
theorem client_wipes_service (hU : U.Lawful) {c : Config} (hc : NoDefault c) {dir : Str} (hdir : LogDirOk U dir) {E : LogEnv}
    {v : ImportSettings} (hv : v.Of U c) {s s' : LogSt} (h : importLog U E c dir s = .ok () s') (hk : IsTrue U v.serviceClean = true)
    {f : Str} (hf : logFileOf U dir v.service.file = some f ∨ f = dir ++ v.sql.file ∨ f = dir ++ v.ladon.file) (d : Disk) :
    ∃ t, importLog U E c dir { s with disk := d } = .ok () t ∧ t.disk (E.abspath f) = s'.disk (E.abspath f) := by
  have ho := import_opened hU hc hdir hv h
  have hm : (E.abspath f, false) ∈ (v.files U dir).map (fun f => (E.abspath f.1, !f.2)) := by
    refine List.mem_map.mpr ⟨(f, true), ?_, rfl⟩
    rcases hf with hf | rfl | rfl
    · simp [ImportSettings.files, hf, hk]
    · simp [ImportSettings.files, hk]
    · simp [ImportSettings.files, hk]
  have hw := import_wiped U E c dir s d (E.abspath f)
  rw [h] at hw
  have hd : (s'.opened.drop s.opened.length).map (fun f => (f.path, f.append)) =
      (v.files U dir).map (fun f => (E.abspath f.1, !f.2)) := by
    rw [List.map_drop, ho, List.drop_append]
    simp
  rw [← hd] at hm
  obtain ⟨g, hg, e⟩ := List.mem_map.mp hm
  have hw := hw ⟨g, hg, (Prod.mk.inj e).1, (Prod.mk.inj e).2⟩
  obtain ⟨h1, h2, _⟩ := (import_ok hU hc hdir E hv s s').mp h
  refine ⟨_, (import_ok hU hc hdir E hv _ _).mpr ⟨h1, h2, rfl⟩, ?_⟩
  rw [(import_ok hU hc hdir E hv _ _).mpr ⟨h1, h2, rfl⟩] at hw
  exact hw

end Verif.Props
