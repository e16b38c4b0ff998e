import Verif.Model.Handler
import Verif.Props.Config
/-!
# What the start of the server is configured to do
-/

namespace Verif.Spec
open Verif Verif.Props

/-- Texts of `LOG_LEVEL` in upper case, with Ladon's number and the name in the records. -/
def levelTable : List (List String × Nat × String) :=
  [(["ALL", "DEBUG"], 6, "DEBUG"), (["WARN", "WARNING"], 5, "WARNING"), (["INFO", "INFORMATION"], 4, "INFO"), (["ERROR"], 3, "ERROR"),
   (["CRITICAL"], 1, "CRITICAL")]

/-- The number and the name for a text of `LOG_LEVEL`. -/
def levelMeaning (U : Uni) (text : Str) : Nat × String :=
  ((levelTable.find? fun r => r.1.any fun w => U.upper text = w.toList).map (·.2)).getD (0, "NOTSET")

/-- The settings used, as texts. -/
structure StartSettings where
  level : Str
  aauth : Str
  pauth : Str
  port : Str
  host : Str

structure StartSettings.Of (U : Uni) (c : Config) (v : StartSettings) : Prop where
  level : Setting U c "LOG_LEVEL".toList true "LADON".toList (some v.level)
  aauth : Setting U c "SERVICE_ENABLED".toList true "aauth".toList (some v.aauth)
  pauth : Setting U c "SERVICE_ENABLED".toList true "pauth".toList (some v.pauth)
  port : Setting U c "SERVICE_PORT".toList true "LADON".toList (some v.port)
  host : Setting U c "SERVICE_HOST".toList true "LADON".toList (some v.host)

/-- A service is switched on by `true` in any case. -/
def SwitchedOn (U : Uni) (text : Str) : Prop := U.upper text = "TRUE".toList

instance (U : Uni) (text : Str) : Decidable (SwitchedOn U text) := inferInstanceAs (Decidable (_ = _))

/-- The modules of the enabled services. -/
def StartSettings.modules (U : Uni) (v : StartSettings) : List Str :=
  (if SwitchedOn U v.aauth then ["aauth".toList] else []) ++ (if SwitchedOn U v.pauth then ["pauth".toList] else [])

/-- The records about a service. -/
def serviceRecords (on : Prop) [Decidable on] (module cls : String) : List (Nat × Str) :=
  [(10, ("Found service module " ++ module ++ ".").toList),
   (10, (if on then "Adding service module " ++ module ++ " with class " ++ cls ++ "." else module ++ " is not enabled.").toList)]

/-- The records made by the import. -/
def StartSettings.importRecords (U : Uni) (v : StartSettings) (dir : Str) : List (Nat × Str) :=
  [(20, "Setting up Ladon logging.".toList), (10, ("Setting Ladon log level to " ++ (levelMeaning U v.level).2 ++ ".").toList),
   (10, "Script dir is ".toList ++ dir), (20, "Finding and adding service modules.".toList)] ++
  serviceRecords (SwitchedOn U v.aauth) "aauth" "AttributeAuthority" ++ serviceRecords (SwitchedOn U v.pauth) "pauth" "PolicyAuthority" ++
  [(20, "Making Ladon WSGI Application.".toList)]

/-- What is asked of Ladon. -/
def StartSettings.importCalls (U : Uni) (v : StartSettings) (services : Str) : List LadonCall :=
  [.setLogfile none, .setLoglevel (levelMeaning U v.level).1, .setBackupCount 50, .setMaxsize 50000, .application (v.modules U) services]

/-- The name of the host in records and URLs. -/
def shownHost (U : Uni) (host : Str) : Str := if host.all U.isSpace then "localhost".toList else host

/-- The record about the server. -/
def serverRecord (U : Uni) (host : Str) (port : Int) : Nat × Str :=
  (20, "Making WSGI simple server on port ".toList ++ decimal port ++ " at http://".toList ++ shownHost U host ++ ":".toList ++ decimal port)

/-- The state after further records and calls. -/
def HandlerSt.after (H : HandlerEnv) (s : HandlerSt) (rs : List (Nat × Str)) (cs : List LadonCall) : HandlerSt :=
  ⟨rs.foldl (fun l r => l.log H.logging "ladonlogger".toList r.1 r.2) s.log, s.calls ++ cs⟩

end Verif.Spec
