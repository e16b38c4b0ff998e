import Verif.Model.Config

/-!
# Model of the set-up of loggers and of the service application, `hgaa/log.py` and `hgaa/handler.py`

A logger is described by its level and the handlers added to it; what `logging` does with them is not modelled.
-/

namespace Verif

/-- `str_to_log_level`, `hgaa/log.py:20-36`; the numbers are those of `logging`. -/
def strToLogLevel (U : Uni) (s : Str) : Nat :=
  let s := U.upper s
  if s = "ALL".toList ∨ s = "DEBUG".toList then 10
  else if s = "WARN".toList ∨ s = "WARNING".toList then 30
  else if s = "INFO".toList ∨ s = "INFORMATION".toList then 20
  else if s = "ERROR".toList then 40
  else if s = "CRITICAL".toList then 50
  else 0

/-- The choice of Ladon's log level, `hgaa/handler.py:17-30`; `none` if no branch is taken. -/
def ladonLevel (level : Nat) : Option Nat :=
  if level = 10 then some 6
  else if level = 30 then some 5
  else if level = 20 then some 4
  else if level = 40 then some 3
  else if level = 50 then some 1
  else if level = 0 then some 0
  else none

/-- What `make_logger` sets up: the name of the child logger, its level, the file handler with its path and whether the
file is emptied, and whether there is a handler for the standard streams. -/
structure LogSetup where
  name : Str
  level : Nat
  file : Option (Str × Bool)
  stdout : Bool
deriving DecidableEq, Repr

/-- Subscripting a value of `get_conf`: `None` has no methods. -/
def confStr (v : Option Str) : Except PyExc Str := v.elim (.error .attributeError) .ok

/-- The file handler of a logger, `hgaa/log.py:79-87`: the path and whether the file is emptied. -/
def logFileHandler (U : Uni) (logfile clean : Option Str) : Except PyExc (Option (Str × Bool)) :=
  match logfile with
  | none => .ok none
  | some f =>
    if U.upper f ≠ "NONE".toList ∧ U.upper f ≠ "FALSE".toList then do
      let clean ← confStr clean
      return some (f, decide (U.upper clean = "TRUE".toList))
    else .ok none

/-- `make_logger`, `hgaa/log.py:39-94`, with a parent logger given. `logDir` is `LOG_DIR`. -/
def makeLogger (U : Uni) (c : Config) (logDir : Str) (name : Str) (service : Bool) : Except PyExc LogSetup := do
  let name := U.upper name
  let logfile ← getConf U c "LOG_FILE".toList service name
  let loglevelstr ← getConf U c "LOG_LEVEL".toList service name
  let levelStr ← confStr loglevelstr
  let loglevel := strToLogLevel U levelStr
  let _ ← getConf U c "LOG_FORMAT".toList service name
  let logname ← getConf U c "LOG_NAME".toList service name
  let _ ← getConf U c "LOG_DATE_FORMAT".toList service name
  let logstdout ← getConf U c "LOG_STDOUT".toList service name
  let clean ← getConf U c "CLEAN_LOG_ON_START".toList service name
  let logfile : Option Str := logfile.map (fun f =>
    if U.lower f ≠ "none".toList ∧ U.lower f ≠ "false".toList ∧ f ≠ [] then logDir ++ f else f)
  let logname ← logname.elim (.error .typeError) .ok
  let file ← logFileHandler U logfile clean
  let out ← confStr logstdout
  return ⟨logname, loglevel, file, decide (U.upper out = "TRUE".toList)⟩

/-- The services the application is made of, `hgaa/handler.py:39-47`: the enabled ones of the list. -/
def enabledServices (U : Uni) (c : Config) : List Str → Except PyExc (List Str)
  | [] => .ok []
  | s :: ss => do
    let v ← getConf U c "SERVICE_ENABLED".toList true s
    let e ← confStr v
    let rest ← enabledServices U c ss
    return if U.upper e = "TRUE".toList then s :: rest else rest

end Verif
