import Verif.Model.AAuth
import Verif.Model.Database
import Verif.Model.PAuth

/-!
# Model of filling databases and of the command line, `populate_db` of `hgaa/database.py` and `hgaa/tools.py`

A database is a list of rows of any type; `Tables` tells which rows belong to which service and what their primary keys are.
Reasons for a statement or a commit to fail other than a primary key in use are inputs (`DbFaults`). A commit that fails changes
nothing; what then happens to the objects of the session, which is left open, is not modelled. Objects of SQLAlchemy have an
identity, because adding an object that was stored before inserts no row. Logging is not modelled: `LOG_NAME` has a built-in
value, so that the names of the loggers are texts. RSA and bcrypt are left to the caller.
-/

namespace Verif

/-- Where the rows of an engine are: memory databases belong to the engine, others to the connection string. -/
def Engine.place (e : Engine) : Str × Option Nat :=
  (e.connect, if e.connect = "sqlite://".toList then some e.id else none)

/-- A schema: the service whose `declarative_base` a row belongs to, and its table and primary key. -/
structure Tables (R : Type) where
  base : R → Str
  Key : Type
  dec : DecidableEq Key
  key : R → Key

/-- The engines of a process, the contents of all databases, and the objects that have been stored. -/
structure Stores (R : Type) where
  engines : Engines
  rows : Str × Option Nat → List R
  saved : List Nat

/-- What the database reports for the statements that delete rows and for the commit of new rows, and the exception of a
session without engine. -/
structure DbFaults where
  wipe : Option PyExc := none
  add : Option PyExc := none
  unbound : PyExc := .exception "UnboundExecutionError"

/-- The objects `add_all` makes pending: neither stored before nor earlier in the list. -/
def pendingRows {R : Type} (saved : List Nat) : List (Nat × R) → List (Nat × R)
  | [] => []
  | (i, r) :: l => if i ∈ saved then pendingRows saved l else (i, r) :: pendingRows (i :: saved) l

/-- `add_all` and `commit` for new objects, `hgaa/database.py:41-42`, `hgaa/tools.py:61-62`. -/
def insertRows {R : Type} (T : Tables R) (faults : DbFaults) (engine : Option Engine) (st : Stores R) (new : List R) :
    Stores R × Except PyExc Unit :=
  match engine with
  | none => (st, if new.isEmpty then .ok () else .error faults.unbound)
  | some e =>
    match faults.add with
    | some x => (st, .error x)
    | none =>
      let _ := T.dec
      if newKeys ((st.rows e.place).map T.key) (new.map T.key) then
        ({ st with rows := fun p => if p = e.place then st.rows p ++ new else st.rows p }, .ok ())
      else (st, .error .integrityError)

/-- Wiping the tables of a service, `hgaa/database.py:25-38`. -/
def wipeTables (U : Uni) {R : Type} (T : Tables R) (faults : DbFaults) (engine : Option Engine) (st : Stores R) (name : Str) :
    Stores R × Except PyExc Unit :=
  if U.lower name ∈ serviceBases then
    match engine with
    | none => (st, .error faults.unbound)
    | some e =>
      match faults.wipe with
      | some x => (st, .error x)
      | none =>
        ({ st with rows := fun p => if p = e.place then (st.rows p).filter (fun r => T.base r ≠ U.lower name) else st.rows p },
          .ok ())
  else (st, .error (.exception ("ERROR: HGAA name, " ++ String.ofList name ++ ", does not have known database linked to it.")))

/-- The name of the configuration section and of the engine, `hgaa/database.py:12-20`. -/
def sectionName (name : Str) (useTest : Bool) : Str := if useTest then name ++ "_TEST".toList else name

/-- `populate_db` for rows not stored before, `hgaa/database.py:11-44`. -/
def populateRows (U : Uni) {R : Type} (T : Tables R) (c : Config) (create : Str → Except PyExc Unit) (faults : DbFaults)
    (st : Stores R) (name : Str) (new : List R) (wipeFirst useTest : Bool) : Stores R × Except PyExc Unit :=
  match getSession U c create st.engines (sectionName name useTest) with
  | (es, .error e) => ({ st with engines := es }, .error e)
  | (es, .ok engine) =>
    let st := { st with engines := es }
    let wiped := if wipeFirst then wipeTables U T faults engine st name else (st, .ok ())
    match wiped with
    | (st, .error e) => (st, .error e)
    | (st, .ok ()) => insertRows T faults engine st new

/-- `populate_db`, `hgaa/database.py:11-44`: the state afterwards, also if it raises. The instances are objects with their
rows. -/
def populateDb (U : Uni) {R : Type} (T : Tables R) (c : Config) (create : Str → Except PyExc Unit) (faults : DbFaults)
    (st : Stores R) (name : Str) (instances : List (Nat × R)) (wipeFirst useTest : Bool) : Stores R × Except PyExc Unit :=
  let new := pendingRows st.saved instances
  match populateRows U T c create faults st name (new.map Prod.snd) wipeFirst useTest with
  | (st', .ok ()) => ({ st' with saved := new.map Prod.fst ++ st'.saved }, .ok ())
  | (st', .error e) => (st', .error e)

/-! ### `gen_atts` and `pop_and_gen` -/

/-- A row of the attribute authority, `hgaa/schema/aauth.py`. -/
inductive AARow where
  | user (u : DbUser)
  | attribute (t : DbAttribute)
  | assignment (a : DbAssignment)
deriving DecidableEq, Repr

/-- The primary key of a row. -/
def AARow.key (collate : Str → Str) : AARow → Int ⊕ Str ⊕ Int × Str
  | .user u => .inl u.id
  | .attribute t => .inr (.inl (collate t.id))
  | .assignment a => .inr (.inr (a.userId, collate a.attId))

/-- The schema of the attribute authority. -/
def aaTables (collate : Str → Str) : Tables AARow := ⟨fun _ => "aauth".toList, _, inferInstance, AARow.key collate⟩

/-- The rows as the tables `Model/AAuth.lean` reads. -/
def aaTablesOf (l : List AARow) : AAuthDb where
  users := l.filterMap (fun | .user u => some u | _ => none)
  attributes := l.filterMap (fun | .attribute t => some t | _ => none)
  assignments := l.filterMap (fun | .assignment a => some a | _ => none)

/-- The two objects made in each round of `gen_atts`, `hgaa/tools.py:57-58`. -/
def genAttRows (i : Nat) : List AARow :=
  [.attribute ⟨"/attribute/user/a".toList ++ decimal i, 'a' :: decimal i, .int⟩,
    .assignment ⟨1, "/attribute/user/a".toList ++ decimal i, some (decimal i)⟩]

/-- `gen_atts`, `hgaa/tools.py:51-64`. -/
def genAtts (U : Uni) (collate : Str → Str) (c : Config) (create : Str → Except PyExc Unit) (faults : DbFaults)
    (st : Stores AARow) (numAtts : Int) : Stores AARow × Except PyExc Unit :=
  match getSession U c create st.engines "AAUTH".toList with
  | (es, .error e) => ({ st with engines := es }, .error e)
  | (es, .ok engine) =>
    insertRows (aaTables collate) faults engine { st with engines := es } ((List.range numAtts.toNat).flatMap genAttRows)

/-- The user of `pop_and_gen`, `hgaa/tools.py:68`. -/
def demoUser : DbUser := ⟨1, "dan".toList, "$2b$12$QN689kLXzZ.wCmCr8ykOr.lPSoepRtvBZdPHioZYtPTQ9K6ZkWvWq".toList⟩

/-- `pop_and_gen`, `hgaa/tools.py:67-70`. -/
def popAndGen (U : Uni) (collate : Str → Str) (c : Config) (create : Str → Except PyExc Unit) (faults faults' : DbFaults)
    (st : Stores AARow) (numAtts : Int) : Stores AARow × Except PyExc Unit :=
  match populateRows U (aaTables collate) c create faults st "AAUTH".toList [.user demoUser] true false with
  | (st, .error e) => (st, .error e)
  | (st, .ok ()) => genAtts U collate c create faults' st numAtts

/-! ### The command line -/

/-- What a command does after its arguments have been understood. -/
inductive ToolAction where
  | build (services : List Str)
  | genkey (file pass : Option Str)
  | populate (names : List Str)
  /-- the text that is hashed -/
  | password (text : Str)
  | genatts (n : Int)
  | nothing
deriving DecidableEq, Repr

/-- `hgaa/tools.py:79-87`. -/
def buildCommand (U : Uni) : List Str → Except PyExc ToolAction
  | [] => .error (.exception "Need at least one service name.")
  | services => .ok (.build (if services = ["all".toList] then serviceBases else services.map U.lower))

/-- `hgaa/tools.py:89-98`. -/
def genkeyCommand (U : Uni) (c : Config) : List Str → Except PyExc ToolAction
  | [kind] =>
    if U.lower kind = "aauth".toList then do
      let file ← getConf U c "KEY_FILE".toList true "AAUTH".toList
      let pass ← getConf U c "KEY_PASS".toList true "AAUTH".toList
      return .genkey file pass
    else .error (.exception "Unknown key type.")
  | _ => .error (.exception "Need a key type.")

/-- `hgaa/tools.py:100-117`. -/
def populateCommand (U : Uni) : List Str → Except PyExc ToolAction
  | [name] =>
    if U.lower name = "all".toList then .ok (.populate ["AAUTH".toList, "PAUTH".toList])
    else if U.lower name = "aauth".toList then .ok (.populate ["AAUTH".toList])
    else if U.lower name = "pauth".toList then .ok (.populate ["PAUTH".toList])
    else .error (.exception "Unknown key type.")
  | _ => .error (.exception "Need a service name.")

/-- `hgaa/tools.py:119-125`: what is hashed is the password and the pepper of the service. -/
def passwordCommand (U : Uni) (c : Config) : List Str → Except PyExc ToolAction
  | [service, password] => do
    let pepper ← getConf U c "PASS_PEPPER".toList true (U.upper service)
    return .password (password ++ formatOpt pepper)
  | _ => .error (.exception "Need a service name.")

/-- `hgaa/tools.py:127-131`. -/
def genattsCommand (U : Uni) : List Str → Except PyExc ToolAction
  | [n] => do
    let n ← pyIntBase U 10 n
    return .genatts n
  | _ => .error (.exception "Need number of attributes.")

/-- The command line, `hgaa/tools.py:73-131`, for the arguments after the name of the program; other commands do nothing. -/
def toolCommand (U : Uni) (c : Config) : List Str → Except PyExc ToolAction
  | [] => .error (.exception "Need at least one command argument.")
  | command :: args =>
    let command := U.lower command
    if command = "build".toList then buildCommand U args
    else if command = "genkey".toList then genkeyCommand U c args
    else if command = "populate".toList ∨ command = "pop".toList then populateCommand U args
    else if command = "password".toList ∨ command = "pass".toList then passwordCommand U c args
    else if command = "genatts".toList then genattsCommand U args
    else .ok .nothing

end Verif
