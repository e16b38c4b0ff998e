import Verif.Model.Config

/-!
# Model of the engine cache, `hgaa/database.py` and `build_database` of `hgaa/tools.py`

An engine is the connection string it was created with and a number telling it from all other engines of the process.
`sqlalchemy.create_engine` is a parameter: it may refuse a connection string.
-/

namespace Verif

/-- An engine of SQLAlchemy, as an object with an identity. -/
structure Engine where
  id : Nat
  connect : Str
deriving DecidableEq, Repr

/-- `ACTIVE_ENGINES`, `hgaa/database.py:8`, and the number of engines created so far. -/
structure Engines where
  active : Dict Engine := []
  created : Nat := 0
deriving DecidableEq, Repr

/-- `'%s' % v` and `'{}'.format(v)` of a string or `None`. -/
def formatOpt (v : Option Str) : Str := v.getD "None".toList

/-- The connection string for a database type, `hgaa/database.py:69-79`; `none` for an unsupported type. -/
def connectString (dbtype : Str) (user password host port dbname : Option Str) : Option Str :=
  if dbtype = "MYSQL".toList then
    some ("mysql+mysqlconnector://".toList ++ formatOpt user ++ [':'] ++ formatOpt password ++ ['@'] ++ formatOpt host ++
      [':'] ++ formatOpt port ++ ['/'] ++ formatOpt dbname)
  else if dbtype = "SQLITE".toList then some ("sqlite:///".toList ++ formatOpt dbname ++ ".db".toList)
  else if dbtype = "MEMORY".toList then some "sqlite://".toList
  else none

/-- `get_engine`, `hgaa/database.py:53-84`. `create` is what `create_engine` does with a connection string. -/
def getEngine (U : Uni) (c : Config) (create : Str → Except PyExc Unit) (st : Engines) (name : Str) :
    Engines × Except PyExc (Option Engine) :=
  match st.active.get name with
  | some e => (st, .ok (some e))
  | none =>
    let run : Except PyExc (Option Str) := do
      let dbname ← getConf U c "DB_NAME".toList true name
      let dbuser ← getConf U c "DB_USER".toList true name
      let dbpass ← getConf U c "DB_PASS".toList true name
      let dbport ← getConf U c "DB_PORT".toList true name
      let dbhost ← getConf U c "DB_HOST".toList true name
      let dbtype ← getConf U c "DB_TYPE".toList true name
      let _ ← getConf U c "LOG_NAME".toList true name
      match dbtype with
      | none => throw .attributeError
      | some t =>
        match connectString (U.upper t) dbuser dbpass dbhost dbport dbname with
        | none => return none
        | some s =>
          create s
          return some s
    match run with
    | .error e => (st, .error e)
    | .ok none => (st, .ok none)
    | .ok (some s) =>
      let e : Engine := ⟨st.created, s⟩
      (⟨st.active.put name e, st.created + 1⟩, .ok (some e))

/-- `get_session`, `hgaa/database.py:47-50`: a new session factory each time, bound to the engine of that name. -/
def getSession (U : Uni) (c : Config) (create : Str → Except PyExc Unit) (st : Engines) (name : Str) :
    Engines × Except PyExc (Option Engine) :=
  getEngine U c create st name

/-- The keys of `ServiceBases`, `hgaa/schema/__init__.py:4-7`. -/
def serviceBases : List Str := ["aauth".toList, "pauth".toList]

/-- The databases tables were created in: the engine and the name of the service. -/
abbrev Built := List (Engine × Str)

/-- `build_database`, `hgaa/tools.py:18-36`: the engines afterwards, the tables created, and the exception if one is
raised. `create_all` and `dispose` are assumed to succeed. -/
def buildDatabase (U : Uni) (c : Config) (create : Str → Except PyExc Unit) :
    Engines → List Str → Engines × Built × Option PyExc
  | st, [] => (st, [], none)
  | st, s :: ss =>
    if s ∈ serviceBases then
      match getEngine U c create st s with
      | (st', .error e) => (st', [], some e)
      | (st', .ok none) => (st', [], some (.exception ("Could not make engine for " ++ String.ofList s)))
      | (st', .ok (some e)) =>
        let (st'', built, exc) := buildDatabase U c create st' ss
        (st'', (e, s) :: built, exc)
    else (st, [], some (.exception ("No service with name " ++ String.ofList s)))

end Verif
