import Verif.Model.Log

/-!
# Model of the loggers of `hgaa/log.py` while they are used

`Verif/Model/Log.lean` describes what `make_logger` is configured to set up. Here loggers, handlers and log files are
objects with a state: which loggers exist, which files are open at which place, and what is in the files. Modelled of CPython's
`logging` is what the module uses: `getLogger`, `getChild`, `setLevel`, `addHandler`, `parent`, `info` and the like,
`FileHandler` and `StreamHandler`.

Simplifications: `logging.disable`, filters and `propagate` are not used by the code and not modelled. The contents of a file are
characters, one unit each. A file is known by the absolute path `logging` computes; links are not modelled, and
neither are files deleted while they are open. Locks and threads are not modelled.
-/

namespace Verif

/-- A record handed to the handlers: name of the logger, level, and the message with its arguments put in. -/
structure LogRecord where
  name : Str
  level : Nat
  msg : Str
deriving DecidableEq, Repr

/-- The parts of the system the loggers depend on. -/
structure LogEnv where
  /-- `os.path.abspath` -/
  abspath : Str → Str
  /-- the exception of `open`, if it fails -/
  openFault : Str → Option PyExc
  /-- whether `logging.Formatter` accepts a format -/
  formatOk : Option Str → Bool
  /-- the line made of a record by a formatter with this format and date format, for the `n`th record;
  `none` if formatting raises, which `logging` reports on the standard error without telling the caller -/
  render : Option Str → Option Str → Nat → LogRecord → Option Str
  /-- `str(datetime.datetime.now())` -/
  now : Nat → Str

/-- A handler: a number into the list of open files, or the standard error; and its formatter. -/
structure LogHandler where
  file : Option Nat
  format : Option Str
  dateFormat : Option Str
deriving DecidableEq, Repr

/-- A `logging.Logger`. -/
structure Logger where
  level : Nat := 0
  handlers : List LogHandler := []
deriving DecidableEq, Repr

/-- A file opened for writing: the path, whether it was opened for appending, and the place where the next text is
written otherwise. -/
structure LogFile where
  path : Str
  append : Bool
  pos : Nat := 0
deriving DecidableEq, Repr

/-- The contents of the files that exist. -/
abbrev Disk := Str → Option Str

/-- The state: `logging` and the global variables of `hgaa/log.py` in one process, and the disk. -/
structure LogSt where
  /-- the loggers that exist, by name -/
  loggers : Dict Logger := []
  /-- the loggers whose `parent` was set to `ROOT_LOG` -/
  adopted : List Str := []
  /-- the root logger of `logging` -/
  root : Logger := { level := 30 }
  opened : List LogFile := []
  disk : Disk := fun _ => none
  /-- what was written to the standard error by the handlers -/
  err : Str := []
  /-- number of records made so far -/
  tick : Nat := 0
  /-- `SERVICE_LOG` and `CLIENT_LOG`, by name -/
  serviceLog : Option Str := none
  clientLog : Option Str := none

/-- A computation of the module: effects made before an exception stay. -/
abbrev LogM (α : Type) := EStateM PyExc LogSt α

/-! ### `logging` -/

/-- The place of the last dot of a text, if there is one: `s.rfind('.')`. -/
def lastDot (s : Str) : Option Nat :=
  if '.' ∈ s then some (s.length - 1 - s.reverse.idxOf '.') else none

/-- The names `Manager._fixupParents` looks for, nearest first. Behind a dot found at `i` it goes on in `name[:i-1]`, so that of
two dots in a row the first is passed over. A dot at the very beginning does not count. -/
def parentNames (name : Str) : List Str :=
  match h : lastDot name with
  | none => []
  | some 0 => []
  | some (i + 1) => name.take (i + 1) :: parentNames (name.take i)
termination_by name.length
decreasing_by
  unfold lastDot at h
  split at h
  · next hm =>
    have := List.length_pos_of_mem hm
    simp only [List.length_take]
    simp only [Option.some.injEq] at h
    omega
  · cases h

/-- `'hgaa'`, the name of `ROOT_LOG`, `hgaa/log.py:11`. -/
def rootLogName : Str := "hgaa".toList

/-- `logger.parent`; `none` for the root logger. -/
def LogSt.parent (s : LogSt) (name : Str) : Option Str :=
  if name ∈ s.adopted then some rootLogName
  else (parentNames name).find? (fun n => (s.loggers.get n).isSome)

/-- The logger and its ancestors except the root, at most `n` of them. -/
def LogSt.chain (s : LogSt) : Nat → Str → List Str
  | 0, _ => []
  | n + 1, name => name :: (s.parent name).elim [] (s.chain n)

/-- The logger and its ancestors: the loggers visited by `getEffectiveLevel` and `callHandlers`. -/
def LogSt.ancestors (s : LogSt) (name : Str) : List Logger :=
  (s.chain (name.length + 2) name).map (fun n => (s.loggers.get n).getD {}) ++ [s.root]

/-- `getEffectiveLevel()`: the first level that is not NOTSET. -/
def LogSt.effective (s : LogSt) (name : Str) : Nat :=
  (((s.ancestors name).map Logger.level).find? (· ≠ 0)).getD 0

/-- `isEnabledFor(level)` -/
def LogSt.enabled (s : LogSt) (name : Str) (level : Nat) : Bool := decide (s.effective name ≤ level)

/-- The handlers `callHandlers` calls. -/
def LogSt.handlersFor (s : LogSt) (name : Str) : List LogHandler := (s.ancestors name).flatMap Logger.handlers

/-- What is in a file after a text is written to it: at the end, or from `pos` on, where a gap is filled with NULs. -/
def writeAt (content : Str) (pos : Nat) (text : Str) : Str :=
  (content.take pos ++ List.replicate (pos - content.length) '\x00') ++ text ++ content.drop (pos + text.length)

/-- Writing to an open file. -/
def LogSt.write (s : LogSt) (k : Nat) (text : Str) : LogSt :=
  match s.opened[k]? with
  | none => s
  | some f =>
    let old := (s.disk f.path).getD []
    let new := if f.append then old ++ text else writeAt old f.pos text
    { s with
      disk := fun p => if p = f.path then some new else s.disk p
      opened := s.opened.set k { f with pos := f.pos + text.length } }

/-- `handler.emit(record)` with the terminator `'\n'`. -/
def LogSt.emit (E : LogEnv) (r : LogRecord) (s : LogSt) (h : LogHandler) : LogSt :=
  match E.render h.format h.dateFormat s.tick r with
  | none => s
  | some line =>
    match h.file with
    | none => { s with err := s.err ++ (line ++ ['\n']) }
    | some k => s.write k (line ++ ['\n'])

/-- The handler of last resort: it writes the bare message to the standard error if no handler was found. -/
def LogSt.lastResort (r : LogRecord) (s : LogSt) : LogSt :=
  if 30 ≤ r.level then { s with err := s.err ++ (r.msg ++ ['\n']) } else s

/-- `logger.log(level, msg)` -/
def LogSt.log (E : LogEnv) (s : LogSt) (name : Str) (level : Nat) (msg : Str) : LogSt :=
  if s.enabled name level then
    let r : LogRecord := ⟨name, level, msg⟩
    let s' := if s.handlersFor name = [] then s.lastResort r else (s.handlersFor name).foldl (LogSt.emit E r) s
    { s' with tick := s'.tick + 1 }
  else s

/-- `logging.getLogger(name)` -/
def LogSt.getLogger (s : LogSt) (name : Str) : LogSt :=
  if (s.loggers.get name).isSome then s else { s with loggers := s.loggers.put name {} }

/-- The name of `logger.getChild(suffix)` -/
def childName (parent suffix : Str) : Str := parent ++ ['.'] ++ suffix

/-- `logger.setLevel(level)` -/
def LogSt.setLevel (s : LogSt) (name : Str) (level : Nat) : LogSt :=
  { s with loggers := s.loggers.put name { (s.loggers.get name).getD {} with level := level } }

/-- `logger.addHandler(handler)` for a new handler -/
def LogSt.addHandler (s : LogSt) (name : Str) (h : LogHandler) : LogSt :=
  let l := (s.loggers.get name).getD {}
  { s with loggers := s.loggers.put name { l with handlers := l.handlers ++ [h] } }

/-- `logger.parent = ROOT_LOG` -/
def LogSt.adopt (s : LogSt) (name : Str) : LogSt := { s with adopted := name :: s.adopted }

/-- `open(path, 'w')` or `open(path, 'a')` -/
def LogSt.openFile (s : LogSt) (path : Str) (clean : Bool) : LogSt :=
  { s with
    opened := s.opened ++ [⟨path, !clean, 0⟩]
    disk := fun p => if p = path then some (if clean then [] else (s.disk path).getD []) else s.disk p }

/-! ### `hgaa/log.py` -/

/-- Applying a function to the state. -/
def logDo (f : LogSt → LogSt) : LogM Unit := fun s => .ok () (f s)

/-- A value or an exception. -/
def logLift {α : Type} (x : Except PyExc α) : LogM α := fun s =>
  match x with
  | .ok a => .ok a s
  | .error e => .error e s

/-- `logging.Formatter(format, dateformat)`: ValueError for a format it does not accept. -/
def newFormatter (E : LogEnv) (format : Option Str) : LogM Unit :=
  logLift (if E.formatOk format then .ok () else .error .valueError)

/-- `logging.FileHandler(filename, mode)` and `logger.addHandler` with the formatter set. -/
def addFileHandler (E : LogEnv) (name file : Str) (clean : Bool) (format dateFormat : Option Str) : LogM Unit := fun s =>
  match E.openFault (E.abspath file) with
  | some e => .error e s
  | none => .ok () ((s.openFile (E.abspath file) clean).addHandler name ⟨some s.opened.length, format, dateFormat⟩)

/-- The path of the log file, `hgaa/log.py:53-54`. -/
def logPath (U : Uni) (logDir f : Str) : Str :=
  if U.lower f ≠ "none".toList ∧ U.lower f ≠ "false".toList ∧ f ≠ [] then logDir ++ f else f

/-- The message about a new logger, `hgaa/log.py:56-65`: `SERVICE_LOG` or `CLIENT_LOG` is told if it exists already,
`ROOT_LOG` otherwise. -/
def announce (E : LogEnv) (service : Bool) (logname : Option Str) : LogM Unit := fun s =>
  match logname with
  | none => .error .typeError s
  | some n =>
    let kind : Str := if service then "service".toList else "client".toList
    match (if service then s.serviceLog else s.clientLog) with
    | some l => .ok () (s.log E l 10 ("Adding ".toList ++ kind ++ " logger for ".toList ++ childName l n))
    | none => .ok () (s.log E rootLogName 10 ("Adding root ".toList ++ kind ++ " logger ".toList ++ childName rootLogName n))

/-- The parent of the new logger, `hgaa/log.py:67-73`. `None` has no `getChild`. -/
def parentLog (service : Bool) (parent : Option Str) : LogM Str := fun s =>
  match parent with
  | some p => .ok p s
  | none =>
    match (if service then s.serviceLog else s.clientLog) with
    | some p => .ok p s
    | none => .error .attributeError s

/-- `make_logger`, `hgaa/log.py:39-94`; the result is the name of the logger. -/
def makeLoggerIO (U : Uni) (E : LogEnv) (c : Config) (logDir name : Str) (service : Bool) (parent : Option Str) :
    LogM Str := do
  let name := U.upper name
  let logfile ← logLift (getConf U c "LOG_FILE".toList service name)
  let levelstr ← logLift (getConf U c "LOG_LEVEL".toList service name)
  let levelstr ← logLift (confStr levelstr)
  let format ← logLift (getConf U c "LOG_FORMAT".toList service name)
  let logname ← logLift (getConf U c "LOG_NAME".toList service name)
  let dateformat ← logLift (getConf U c "LOG_DATE_FORMAT".toList service name)
  let logstdout ← logLift (getConf U c "LOG_STDOUT".toList service name)
  let clean ← logLift (getConf U c "CLEAN_LOG_ON_START".toList service name)
  let logfile := logfile.map (logPath U logDir)
  announce E service logname
  let parent ← parentLog service parent
  let logger := childName parent (logname.getD [])
  logDo (·.getLogger logger)
  logDo (·.setLevel logger (strToLogLevel U levelstr))
  newFormatter E format
  let file ← logLift (logFileHandler U logfile clean)
  match file with
  | some (f, w) => addFileHandler E logger f w format dateformat
  | none => pure ()
  let out ← logLift (confStr logstdout)
  if U.upper out = "TRUE".toList then
    logDo (·.addHandler logger ⟨none, format, dateformat⟩)
  else pure ()
  logDo (fun s => s.log E logger 20 (logger ++ " log started on ".toList ++ E.now s.tick))
  return logger

/-- What `_make_ladon_log` and `_make_sql_log` have in common, `hgaa/log.py:97-119` and `:122-143`: the logger `name`
configured by options with the given prefix from the given section, and the name used in the last message. `None` cannot be
added to a text. -/
def makeForeignLog (U : Uni) (E : LogEnv) (c : Config) (logDir name : Str) (pre sect shown : Str) : LogM Unit := do
  logDo (·.getLogger name)
  logDo (·.adopt name)
  let levelstr ← logLift (getConf U c (pre ++ "LOG_LEVEL".toList) true sect)
  let levelstr ← logLift (confStr levelstr)
  logDo (·.setLevel name (strToLogLevel U levelstr))
  let clean ← logLift (getConf U c "CLEAN_LOG_ON_START".toList true "DEFAULT".toList)
  let clean ← logLift (confStr clean)
  let file ← logLift (getConf U c (pre ++ "LOG_FILE".toList) true sect)
  let file ← logLift (file.elim (.error .typeError) .ok)
  let fault := E.openFault (E.abspath (logDir ++ file))
  logLift (fault.elim (.ok ()) .error)
  let k ← fun s => .ok s.opened.length s
  logDo (·.openFile (E.abspath (logDir ++ file)) (decide (U.upper clean = "TRUE".toList)))
  let format ← logLift (getConf U c (pre ++ "LOG_FORMAT".toList) true sect)
  let dateformat ← logLift (getConf U c (pre ++ "LOG_DATE_FORMAT".toList) true sect)
  newFormatter E format
  logDo (·.addHandler name ⟨some k, format, dateformat⟩)
  let out ← logLift (getConf U c (pre ++ "LOG_STDOUT".toList) true sect)
  let out ← logLift (confStr out)
  if U.upper out = "TRUE".toList then
    logDo (·.addHandler name ⟨none, format, dateformat⟩)
  else pure ()
  logDo (fun s => s.log E name 20 (shown ++ " log started on ".toList ++ E.now s.tick))

/-- `_make_ladon_log`, `hgaa/log.py:97-119`. -/
def makeLadonLog (U : Uni) (E : LogEnv) (c : Config) (logDir : Str) : LogM Unit :=
  makeForeignLog U E c logDir "ladonlogger".toList [] "LADON".toList "LADON".toList

/-- `_make_sql_log`, `hgaa/log.py:122-143`. -/
def makeSqlLog (U : Uni) (E : LogEnv) (c : Config) (logDir : Str) : LogM Unit :=
  makeForeignLog U E c logDir "sqlalchemy".toList "SQL_".toList "DEFAULT".toList "SQL".toList

/-- The statements of the module, `hgaa/log.py:11-17` and `:145-148`: what importing it does. -/
def importLog (U : Uni) (E : LogEnv) (c : Config) (logDir : Str) : LogM Unit := do
  logDo (·.getLogger rootLogName)
  logDo (fun s => s.log E rootLogName 20 ("HGAA root log started on ".toList ++ E.now s.tick))
  logDo (fun s => { s with serviceLog := none, clientLog := none })
  let l ← makeLoggerIO U E c logDir "DEFAULT".toList true (some rootLogName)
  logDo (fun s => { s with serviceLog := some l })
  let l ← makeLoggerIO U E c logDir "DEFAULT".toList false (some rootLogName)
  logDo (fun s => { s with clientLog := some l })
  makeSqlLog U E c logDir
  makeLadonLog U E c logDir

end Verif
