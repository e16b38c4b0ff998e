import Verif.Model.Logging
import Verif.Model.AAuth
/-!
# Model of the start of the server, `hgaa/handler.py`

The module as a program: the records it makes and what it asks of Ladon and `wsgiref`, in order. Effects made before an exception stay.
What Ladon and `wsgiref` do is not modelled; exceptions of theirs are inputs. Importing `hgaa.log`, which comes first, is `importLog`.
-/

namespace Verif

/-- Calls of functions of Ladon and `wsgiref`. -/
inductive LadonCall where
  | setLogfile (file : Option Str)
  | setLoglevel (level : Nat)
  | setBackupCount (n : Nat)
  | setMaxsize (n : Nat)
  | application (modules : List Str) (dir : Str)
  | makeServer (host : Str) (port : Int)
  | serveForever
deriving DecidableEq, Repr

/-- What the module depends on. -/
structure HandlerEnv where
  logging : LogEnv
  /-- `dirname(abspath(__file__))` -/
  scriptDir : Str
  /-- the exception of `LadonWSGIApplication`, if it fails; it imports the services -/
  applicationFault : List Str → Option PyExc
  /-- the exception of `make_server`, if it fails -/
  serverFault : Str → Int → Option PyExc

structure HandlerSt where
  log : LogSt
  calls : List LadonCall := []

abbrev HandlerM (α : Type) := EStateM PyExc HandlerSt α

/-- `LADON_LOG.info(msg)` and `LADON_LOG.debug(msg)` -/
def HandlerEnv.say (H : HandlerEnv) (level : Nat) (msg : Str) : HandlerM Unit := fun s =>
  .ok () { s with log := s.log.log H.logging "ladonlogger".toList level msg }

/-- A call that may fail. -/
def ladonCall (call : LadonCall) (fault : Option PyExc) : HandlerM Unit := fun s =>
  match fault with
  | none => .ok () { s with calls := s.calls ++ [call] }
  | some e => .error e { s with calls := s.calls ++ [call] }

/-- A value or an exception. -/
def handlerLift {α : Type} (x : Except PyExc α) : HandlerM α := fun s =>
  match x with
  | .ok a => .ok a s
  | .error e => .error e s

/-- `logging.getLevelName(level)` for the levels of `logging`, else as CPython has it. -/
def levelName (level : Nat) : Str :=
  if level = 50 then "CRITICAL".toList
  else if level = 40 then "ERROR".toList
  else if level = 30 then "WARNING".toList
  else if level = 20 then "INFO".toList
  else if level = 10 then "DEBUG".toList
  else if level = 0 then "NOTSET".toList
  else "Level ".toList ++ decimal level

/-- `ServiceList`, `hgaa/services/__init__.py:1`. -/
def serviceList : List (Str × Str) :=
  [("aauth".toList, "AttributeAuthority".toList), ("pauth".toList, "PolicyAuthority".toList)]

/-- `os.path.join` for a second part that does not begin with a slash. -/
def posixJoin (a b : Str) : Str := if a = [] ∨ a.getLast? = some '/' then a ++ b else a ++ '/' :: b

/-- The loop over the services, `hgaa/handler.py:39-47`, with the modules found so far. -/
def findServices (U : Uni) (H : HandlerEnv) (c : Config) : List (Str × Str) → List Str → HandlerM (List Str)
  | [], modules => pure modules
  | (s, cl) :: rest, modules => do
    H.say 10 ("Found service module ".toList ++ s ++ ['.'])
    let enabled ← handlerLift (getConf U c "SERVICE_ENABLED".toList true s)
    let enabled ← handlerLift (confStr enabled)
    if U.upper enabled = "TRUE".toList then do
      H.say 10 ("Adding service module ".toList ++ s ++ " with class ".toList ++ cl ++ ['.'])
      findServices U H c rest (modules ++ [s])
    else do
      H.say 10 (s ++ " is not enabled.".toList)
      findServices U H c rest modules

/-- Importing the module, `hgaa/handler.py:12-56`. -/
def handlerImport (U : Uni) (H : HandlerEnv) (c : Config) : HandlerM Unit := do
  H.say 20 "Setting up Ladon logging.".toList
  ladonCall (.setLogfile none) none
  let level ← handlerLift (getConf U c "LOG_LEVEL".toList true "LADON".toList)
  let level ← handlerLift (confStr level)
  let level := strToLogLevel U level
  H.say 10 ("Setting Ladon log level to ".toList ++ levelName level ++ ['.'])
  match ladonLevel level with
  | some n => ladonCall (.setLoglevel n) none
  | none => pure ()
  ladonCall (.setBackupCount 50) none
  ladonCall (.setMaxsize 50000) none
  H.say 10 ("Script dir is ".toList ++ H.scriptDir)
  H.say 20 "Finding and adding service modules.".toList
  let modules ← findServices U H c serviceList []
  H.say 20 "Making Ladon WSGI Application.".toList
  ladonCall (.application modules (posixJoin H.scriptDir "services".toList)) (H.applicationFault modules)

/-- Running the module, `hgaa/handler.py:12-67`; `serve_forever` is taken to return. -/
def handlerMain (U : Uni) (H : HandlerEnv) (c : Config) : HandlerM Unit := do
  handlerImport U H c
  let port ← handlerLift (getConf U c "SERVICE_PORT".toList true "LADON".toList)
  let port ← handlerLift (port.elim (.error .typeError) .ok)
  let port ← handlerLift (pyIntBase U 10 port)
  let host ← handlerLift (getConf U c "SERVICE_HOST".toList true "LADON".toList)
  let host ← handlerLift (confStr host)
  let hostPrint := hostOrLocal U host
  H.say 20 ("Making WSGI simple server on port ".toList ++ decimal port ++ " at http://".toList ++ hostPrint ++ [':'] ++ decimal port)
  ladonCall (.makeServer host port) (H.serverFault host port)
  H.say 20 "Starting WSGI simple server.".toList
  ladonCall .serveForever none

end Verif
