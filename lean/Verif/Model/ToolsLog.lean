import Verif.Model.AAuthLog
import Verif.Model.Tools

/-!
# Model of what the tools print, record and write, `hgaa/tools.py` and `populate_db` of `hgaa/database.py`

`Verif/Model/Tools.lean` and `Verif/Model/Database.lean` have the effects of the tools on databases. Here the same functions are
given with all they put out: lines printed, records of the log (level and message), files truncated and written, and tables
created.

Simplifications: the logger that makes a record is not told (`SERVICE_TOOLS_LOG` or a child of it, or of `SERVICE_LOG` for engines
of sessions); RSA, files and bcrypt are inputs (`ToolWorld`), with a random salt being part of the function that hashes; each
object of the sample data is stored for the first time, because a process runs one command; as in `Verif/Model/Tools.lean`, the
rows deleted by a wipe are gone only if the commit succeeds, and `create_all` and `dispose` succeed.
-/

namespace Verif

/-- What a tool puts out. -/
inductive ToolOut where
  /-- `print(text)` -/
  | print (text : Str)
  /-- `LOG.debug` (10), `LOG.info` (20) and `LOG.error` (40) -/
  | record (level : Nat) (msg : Str)
  /-- `open(file, "wb")` -/
  | truncate (file : Str)
  /-- `file_out.write(data)` -/
  | write (file : Str) (data : Bytes)
  /-- `base.metadata.create_all(engine)` -/
  | tables (engine : Engine) (service : Str)
deriving DecidableEq, Repr

/-- A program of a tool: what it puts out, the databases afterwards, and its result; output and effects before an exception
stay. -/
def ToolM (R α : Type) := Stores R → List ToolOut × Stores R × Except PyExc α

namespace ToolM

variable {R α β : Type}

/-- Nothing but a value. -/
protected def pure (a : α) : ToolM R α := fun st => ([], st, .ok a)

/-- One program after another. -/
protected def bind (x : ToolM R α) (f : α → ToolM R β) : ToolM R β := fun st =>
  match (x st).2.2 with
  | .error e => ((x st).1, (x st).2.1, .error e)
  | .ok a => ((x st).1 ++ (f a (x st).2.1).1, (f a (x st).2.1).2)

instance : Monad (ToolM R) where
  pure := ToolM.pure
  bind := ToolM.bind

/-- One piece of output. -/
def put (o : ToolOut) : ToolM R Unit := fun st => ([o], st, .ok ())

/-- `LOG.info(msg)` and the like. -/
def say (level : Nat) (msg : Str) : ToolM R Unit := put (.record level msg)

/-- A value or an exception. -/
def lift (x : Except PyExc α) : ToolM R α := fun st => ([], st, x)

/-- An effect on the databases. -/
def act (f : Stores R → Stores R × Except PyExc α) : ToolM R α := fun st => ([], f st)

end ToolM

open ToolM

/-- `get_engine`, `hgaa/database.py:53-84`, as `Verif/Model/AAuthLog.lean` has it. -/
def engineTool (U : Uni) (c : Config) (create : Str → Except PyExc Unit) {R : Type} (name : Str) : ToolM R (Option Engine) := fun st =>
  match getEngineLog U c create st.engines name [] with
  | .ok (es, e) t => (t.map (fun r => .record r.1 r.2), { st with engines := es }, .ok e)
  | .error x t => (t.map (fun r => .record r.1 r.2), st, .error x)

/-! ### `populate_db` -/

/-- The names of the tables of a service in the order of `reversed(base.metadata.sorted_tables)`, `hgaa/database.py:33`,
`hgaa/schema/aauth.py:10-34`, `hgaa/schema/pauth.py:10-74`: `sorted_tables` has a table behind those it refers to, and orders by
name otherwise. -/
def wipedTables (base : Str) : List Str :=
  if base = "aauth".toList then ["aauth_attribute_assignments".toList, "aauth_users".toList, "aauth_attributes".toList]
  else ["pauth_attribute_certificate_assignments".toList, "pauth_sessions".toList, "pauth_policies".toList,
    "pauth_attributes".toList, "pauth_attribute_certificates".toList, "pauth_attribute_authorities".toList]

/-- What the database reports, and the number of the table at which it reports a failing wipe; the failure is that of the commit
if there is no such table. -/
structure ToolFaults extends DbFaults where
  wipeAt : Nat := 0

/-- The loop over the tables, `hgaa/database.py:33-35`. -/
def deleteTool {R : Type} (faults : DbFaults) (engine : Option Engine) : Nat → List Str → ToolM R Unit
  | _, [] => pure ()
  | k, t :: ts => do
    say 10 ("Wiping table ".toList ++ t ++ ".".toList)
    match engine, faults.wipe, k with
    | none, _, _ => lift (.error faults.unbound)
    | some _, some x, 0 => lift (.error x)
    | some _, _, k => deleteTool faults engine (k - 1) ts

/-- `hgaa/database.py:25-38`. -/
def wipeTool (U : Uni) {R : Type} (T : Tables R) (faults : ToolFaults) (engine : Option Engine) (dbname : Option Str) (name : Str) :
    ToolM R Unit := do
  say 20 ("Wiping rows from tables in ".toList ++ formatOpt dbname)
  if U.lower name ∈ serviceBases then
    deleteTool faults.toDbFaults engine faults.wipeAt (wipedTables (U.lower name))
    say 10 ("Committing wipe for ".toList ++ formatOpt dbname ++ ".".toList)
    act (fun st => wipeTables U T faults.toDbFaults engine st name)
    say 20 "Wipe complete.".toList
  else
    say 40 ("HGAA name, ".toList ++ name ++ ", does not have known database linked to it.".toList)
    lift (.error (.exception ("ERROR: HGAA name, " ++ String.ofList name ++ ", does not have known database linked to it.")))

/-- `populate_db`, `hgaa/database.py:11-44`. -/
def populateTool (U : Uni) {R : Type} (T : Tables R) (c : Config) (create : Str → Except PyExc Unit) (faults : ToolFaults)
    (name : Str) (new : List R) (wipeFirst useTest : Bool) : ToolM R Unit := do
  let _ ← lift (getConf U c "LOG_NAME".toList true (sectionName name useTest))
  let dbname ← lift (getConf U c "DB_NAME".toList true (sectionName name useTest))
  let engine ← engineTool U c create (sectionName name useTest)
  say 20 ("Starting population of tables for database ".toList ++ formatOpt dbname)
  if wipeFirst then wipeTool U T faults engine dbname name else pure ()
  say 20 ("Adding all model instances to ".toList ++ formatOpt dbname ++ " database.".toList)
  act (fun st => insertRows T faults.toDbFaults engine st new)
  say 20 ("Population of ".toList ++ formatOpt dbname ++ " complete.".toList)

/-! ### `hgaa/tools.py` -/

/-- The loop of `build_database`, `hgaa/tools.py:21-35`. -/
def buildLoop (U : Uni) (c : Config) (create : Str → Except PyExc Unit) {R : Type} : List Str → ToolM R Unit
  | [] => pure ()
  | s :: ss =>
    if s ∈ serviceBases then do
      match ← engineTool U c create s with
      | some e =>
        say 10 ("Creating all tables for service ".toList ++ s)
        put (.tables e s)
        say 10 ("Finished creating tables for service ".toList ++ s)
        buildLoop U c create ss
      | none =>
        say 40 ("Could not make engine for ".toList ++ s)
        lift (.error (.exception ("Could not make engine for " ++ String.ofList s)))
    else do
      say 40 ("No service with name ".toList ++ s)
      lift (.error (.exception ("No service with name " ++ String.ofList s)))

/-- `build_database`, `hgaa/tools.py:18-36`. -/
def buildTool (U : Uni) (c : Config) (create : Str → Except PyExc Unit) {R : Type} (services : List Str) : ToolM R Unit := do
  say 20 ("Building databases for services ".toList ++ commaJoin services)
  buildLoop U c create services
  say 20 "Finished building databases.".toList

/-- RSA and files: what generating a key does, the key encrypted with a passphrase, and what opening and writing a file do. -/
structure KeyTool where
  generate : Except PyExc Unit
  exportKey : Option Str → Except PyExc Bytes
  openFile : Str → Except PyExc Unit
  writeFile : Str → Except PyExc Unit

/-- `gen_aauth_key`, `hgaa/tools.py:39-48`; `open(None)` raises a `TypeError`. -/
def genKeyTool {R : Type} (K : KeyTool) (file pass : Option Str) : ToolM R Unit := do
  say 20 "Generating new private/public key pair for AAUTH service.".toList
  lift K.generate
  say 20 "Encrypting new private/public key pair.".toList
  let data ← lift (K.exportKey pass)
  match file with
  | none => lift (.error .typeError)
  | some f =>
    lift (K.openFile f)
    put (.truncate f)
    say 20 ("Saving new private/public key pair to ".toList ++ f)
    lift (K.writeFile f)
    put (.write f data)
    say 20 "Finished generating key pair.".toList

/-- `gen_atts`, `hgaa/tools.py:51-64`. -/
def genAttsTool (U : Uni) (c : Config) (create : Str → Except PyExc Unit) {R : Type} (T : Tables R) (row : AARow → R)
    (faults : DbFaults) (numAtts : Int) : ToolM R Unit := do
  say 20 ("Generating ".toList ++ decimal numAtts ++ " attributes.".toList)
  let engine ← engineTool U c create "AAUTH".toList
  say 20 "Adding attributes to AAUTH database.".toList
  act (fun st => insertRows T faults engine st (((List.range numAtts.toNat).flatMap genAttRows).map row))
  say 20 "Population of attributes complete.".toList

/-- All a run of the program depends on besides the configuration, the command line and the databases. -/
structure ToolWorld (R : Type) where
  T : Tables R
  /-- a row of the attribute authority as a row -/
  row : AARow → R
  /-- the rows of `DB_TEST_SET` for a service -/
  samples : Str → List R
  create : Str → Except PyExc Unit
  faults : Str → ToolFaults
  key : KeyTool
  /-- `bcrypt.hashpw(text, bcrypt.gensalt())` -/
  hash : Bytes → Except PyExc Bytes

/-- A line is printed, and an exception raised. -/
def refuseTool {R : Type} (line : Str) (e : PyExc) : ToolM R Unit := do
  put (.print line)
  lift (.error e)

/-- `populate_db` for a service and its sample data, `hgaa/tools.py:105-114`. -/
def popTool (U : Uni) (c : Config) {R : Type} (W : ToolWorld R) (name : Str) : ToolM R Unit :=
  populateTool U W.T c W.create (W.faults name) name (W.samples name) true false

/-- `hgaa/tools.py:78-131`: what follows the first test, for the command in lower case. -/
def commandTool (U : Uni) (c : Config) {R : Type} (W : ToolWorld R) (command : Str) (args : List Str) : ToolM R Unit :=
  if command = "build".toList then
    match args with
    | [] => refuseTool "Need at least one service name or just \"all\"".toList (.exception "Need at least one service name.")
    | services => buildTool U c W.create (if services = ["all".toList] then serviceBases else services.map U.lower)
  else if command = "genkey".toList then
    match args with
    | [kind] =>
      if U.lower kind = "aauth".toList then do
        let file ← lift (getConf U c "KEY_FILE".toList true "AAUTH".toList)
        let pass ← lift (getConf U c "KEY_PASS".toList true "AAUTH".toList)
        genKeyTool W.key file pass
      else refuseTool ("Unknown key type: ".toList ++ U.lower kind) (.exception "Unknown key type.")
    | _ => refuseTool "Need second argument listing key type to generate. Valid types are: aauth.".toList
        (.exception "Need a key type.")
  else if command = "populate".toList ∨ command = "pop".toList then
    match args with
    | [name] =>
      if U.lower name = "all".toList then do
        popTool U c W "AAUTH".toList
        popTool U c W "PAUTH".toList
      else if U.lower name = "aauth".toList then popTool U c W "AAUTH".toList
      else if U.lower name = "pauth".toList then popTool U c W "PAUTH".toList
      else refuseTool ("Unknown key type: ".toList ++ U.lower name) (.exception "Unknown key type.")
    | _ => refuseTool "Need second argument listing service to populate. Valid types are: all, aauth or pauth".toList
        (.exception "Need a service name.")
  else if command = "password".toList ∨ command = "pass".toList then
    match args with
    | [service, password] => do
      let pepper ← lift (getConf U c "PASS_PEPPER".toList true (U.upper service))
      let hash ← lift (W.hash (utf8 (password ++ formatOpt pepper)))
      let hash ← lift (utf8Decode hash)
      put (.print ("Password: ".toList ++ password ++ "\nHash: ".toList ++ hash))
    | _ => refuseTool "Need second and third argument listing service to make password for and password plaintext.".toList
        (.exception "Need a service name.")
  else if command = "genatts".toList then
    match args with
    | [n] => do
      let n ← lift (pyIntBase U 10 n)
      genAttsTool U c W.create W.T W.row (W.faults "AAUTH".toList).toDbFaults n
    | _ => refuseTool "Need second argument giving number of attributes to generate.".toList
        (.exception "Need number of attributes.")
  else pure ()

/-- The program, `hgaa/tools.py:73-131`, for the arguments after its name. -/
def toolMain (U : Uni) (c : Config) {R : Type} (W : ToolWorld R) : List Str → ToolM R Unit
  | [] => refuseTool "Need at least one command argument. Valid commands are: build, genkey.".toList
      (.exception "Need at least one command argument.")
  | command :: args => commandTool U c W (U.lower command) args

end Verif
