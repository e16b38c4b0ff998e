import Verif.Model.ToolsLog
import Verif.Spec.Integer

/-!
# What the tools say
-/

namespace Verif.Spec

/-- The lines printed for a command line that is refused. -/
inductive UsageLines (U : Uni) : List Str → List Str → Prop
  | empty : UsageLines U [] ["Need at least one command argument. Valid commands are: build, genkey.".toList]
  | build (cmd : Str) : U.lower cmd = "build".toList →
      UsageLines U [cmd] ["Need at least one service name or just \"all\"".toList]
  | genkey (cmd : Str) (args : List Str) : U.lower cmd = "genkey".toList → args.length ≠ 1 →
      UsageLines U (cmd :: args) ["Need second argument listing key type to generate. Valid types are: aauth.".toList]
  | kind (cmd kind : Str) : U.lower cmd = "genkey".toList → U.lower kind ≠ "aauth".toList →
      UsageLines U [cmd, kind] ["Unknown key type: ".toList ++ U.lower kind]
  | populate (cmd : Str) (args : List Str) : U.lower cmd ∈ ["populate".toList, "pop".toList] → args.length ≠ 1 →
      UsageLines U (cmd :: args) ["Need second argument listing service to populate. Valid types are: all, aauth or pauth".toList]
  /-- also services are called key types -/
  | name (cmd name : Str) : U.lower cmd ∈ ["populate".toList, "pop".toList] →
      U.lower name ∉ ["all".toList, "aauth".toList, "pauth".toList] →
      UsageLines U [cmd, name] ["Unknown key type: ".toList ++ U.lower name]
  | password (cmd : Str) (args : List Str) : U.lower cmd ∈ ["password".toList, "pass".toList] → args.length ≠ 2 →
      UsageLines U (cmd :: args)
        ["Need second and third argument listing service to make password for and password plaintext.".toList]
  | genatts (cmd : Str) (args : List Str) : U.lower cmd = "genatts".toList → args.length ≠ 1 →
      UsageLines U (cmd :: args) ["Need second argument giving number of attributes to generate.".toList]
  /-- a text that is no integer: nothing is printed -/
  | number (cmd text : Str) : U.lower cmd = "genatts".toList → (∀ n, ¬ IntText U 10 text n) → UsageLines U [cmd, text] []

/-- What can be read on the terminal and in the log. -/
def ShownOut : ToolOut → Prop
  | .print _ => True
  | .record _ _ => True
  | _ => False

instance : DecidablePred ShownOut := fun o => by cases o <;> unfold ShownOut <;> infer_instance

/-- What is printed. -/
def printed (l : List ToolOut) : List Str := l.filterMap (fun | .print t => some t | _ => none)

/-- The records of the log. -/
def recorded (l : List ToolOut) : List (Nat × Str) := l.filterMap (fun | .record n t => some (n, t) | _ => none)

/-- The tables created. -/
def created (l : List ToolOut) : List (Engine × Str) := l.filterMap (fun | .tables e s => some (e, s) | _ => none)

/-- Records as output. -/
def asRecords (l : List (Nat × Str)) : List ToolOut := l.map (fun r => .record r.1 r.2)

/-- The records of a wipe: of a service that is not known, of a wipe that fails at a table or, if there is no table of that
number, at the commit, and of one that succeeds. -/
def wipeRecords (db name : Str) (known : Bool) (tables : List Str) (failed : Option Nat) : List (Nat × Str) :=
  (20, "Wiping rows from tables in ".toList ++ db) ::
  if known then
    match failed with
    | none => tables.map (fun t => (10, "Wiping table ".toList ++ t ++ ".".toList)) ++
        [(10, "Committing wipe for ".toList ++ db ++ ".".toList), (20, "Wipe complete.".toList)]
    | some k => (tables.map (fun t => (10, "Wiping table ".toList ++ t ++ ".".toList)) ++
        [(10, "Committing wipe for ".toList ++ db ++ ".".toList)]).take (k + 1)
  else [(40, "HGAA name, ".toList ++ name ++ ", does not have known database linked to it.".toList)]

/-- The number of the table a wipe fails at, or a greater one for the commit. -/
def wipeStop (faults : ToolFaults) (engine : Option Engine) : Option Nat :=
  match engine, faults.wipe with
  | none, _ => some 0
  | some _, none => none
  | some _, some _ => some faults.wipeAt

/-- The wipe of a known service succeeds. -/
def Wiped : Option (Bool × List Str × Option Nat) → Prop
  | none => True
  | some (known, _, stop) => known = true ∧ stop = none

instance : DecidablePred Wiped := fun w => by
  rcases w with _ | ⟨_, _, _⟩ <;> unfold Wiped <;> infer_instance

/-- The records of `populate_db` after the engine has been made: `wipe` tells whether the service is known, its tables, and where
the wipe fails, and `added` whether all succeeds. -/
def populateRecords (db name : Str) (wipe : Option (Bool × List Str × Option Nat)) (added : Bool) : List (Nat × Str) :=
  (20, "Starting population of tables for database ".toList ++ db) ::
  ((match wipe with
    | none => []
    | some (known, tables, stop) => wipeRecords db name known tables stop) ++
  if Wiped wipe then
    (20, "Adding all model instances to ".toList ++ db ++ " database.".toList) ::
    if added then [(20, "Population of ".toList ++ db ++ " complete.".toList)] else []
  else [])

/-- The options that are secret, as they are in configuration files. -/
def secretOptions : List Str := ["key_pass".toList, "pass_pepper".toList, "db_pass".toList]

end Verif.Spec
