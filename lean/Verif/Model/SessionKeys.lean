import Verif.Model.Concurrent

/-!
# The foreign keys of the policy authority, and tables filled anew while it serves

An assignment refers to a certificate and a session (`hgaa/schema/pauth.py:66-67`). `Model/PAuth.lean` leaves these keys out, as
SQLite does unless told otherwise. Here the database checks them if the argument `fk` is true, as MySQL does. The check comes with
the commit: rows of the same commit count as stored, since SQLAlchemy inserts them in the order of the references.

The tools may fill the tables of the policy authority while it serves (`populate_db`, `hgaa/database.py:11-44`). They commit
twice: all rows are deleted, then authorities and policies are added. Both are further steps among those of
`Model/Concurrent.lean`; a failing one changes nothing, so that it is a step that is not made. The table `pauth_attributes`, which
nothing reads and nothing refers to, is left out, and so are rows of the other tables given to `populate_db`.
-/

namespace Verif

/-- The certificate of an assignment is stored, `hgaa/schema/pauth.py:66`. -/
def PAuthDb.hasCert (collate : Str → Str) (db : PAuthDb) (a : ACARow) : Bool :=
  db.certs.any (fun c => decide (collate c.serial = collate a.acSerial))

/-- The session of an assignment is stored, `hgaa/schema/pauth.py:67`. -/
def PAuthDb.hasSession (collate : Str → Str) (db : PAuthDb) (a : ACARow) : Bool :=
  db.sessions.any (fun s => decide (collate s.id = collate a.sessionId))

/-- `PAuthDb.commit`, `hgaa/services/pauth.py:294-295`, by a database that checks foreign keys if `fk` is true. -/
def PAuthDb.commitChecked (fk : Bool) (collate : Str → Str) (db : PAuthDb) (fault : Option PyExc) (certs : List ACRow)
    (assignments : List ACARow) (session : Str → SessionRow) (serviceUid : Option Str) : Except PyExc PAuthDb := do
  let db ← db.commit collate fault certs assignments session serviceUid
  if fk && !assignments.all (fun a => db.hasCert collate a && db.hasSession collate a) then .error .integrityError else .ok db

/-- `StartCall.finish`, `hgaa/services/pauth.py:279-301`, with that commit. -/
def StartCall.finishChecked (fk : Bool) (collate : Str → Str) (q : StartCall) (current : PAuthDb) (session : Str)
    (acc : StartAcc) : Except PyExc (PAuthDb × SessionReturn) := do
  let till := if acc.minValid < q.env.now + 86400 then acc.minValid else q.env.now + 86400
  if acc.processed.length < 1 then
    .error (clientFaultLogged q.exports "Need at least one valid attribute certificate in your certificate set.")
  else do
    let addr ← remoteAddr q.exports
    let db ← current.commitChecked fk collate q.env.commitFault acc.certs acc.assignments
      (fun uid => ⟨session, acc.maxStart, acc.minValid, q.env.now, addr, uid, till⟩) q.serviceUid
    return (db, ⟨q.env.random, q.env.now, till⟩)

/-- `start_session` alone, `hgaa/services/pauth.py:215-301`, with that commit. -/
def StartCall.alone (fk : Bool) (X : Crypto) (collate : Str → Str) (q : StartCall) (db : PAuthDb) :
    PAuthDb × Except PyExc SessionReturn :=
  let r := if q.raws.length < 1 then
      .error (clientFaultLogged q.exports "Need attribute certificate set to start session.")
    else do
      let session ← intToB64 q.env.random
      let acc ← startLoop X collate db q.exports session q.env.clock 0 {} q.raws
      q.finishChecked fk collate db session acc
  match r with
  | .ok (db, r) => (db, .ok r)
  | .error e => (db, .error e)

/-- `StartCall.step` with that commit. -/
def StartCall.stepChecked (fk : Bool) (X : Crypto) (collate : Str → Str) (q : StartCall) (seen current : PAuthDb) :
    Job → Option PAuthDb × Job
  | .reading _ session _ acc [] =>
    match q.finishChecked fk collate current session acc with
    | .error e => (none, .done (.error e))
    | .ok (db, r) => (some db, .done (.ok r))
  | job => q.step X collate seen current job

/-- The tables of the policy authority but `pauth_attributes`, `hgaa/schema/pauth.py`. -/
inductive PATable where
  | authorities
  | policies
  | certs
  | assignments
  | sessions
deriving DecidableEq, Repr

/-- The database without the rows of a table. -/
def PAuthDb.without (db : PAuthDb) : PATable → PAuthDb
  | .authorities => { db with authorities := [] }
  | .policies => { db with policies := [] }
  | .certs => { db with certs := [] }
  | .assignments => { db with assignments := [] }
  | .sessions => { db with sessions := [] }

/-- `table.delete()`, `hgaa/database.py:35`: refused by a database that checks foreign keys if it takes a row away an assignment
refers to. -/
def PAuthDb.delete (fk : Bool) (collate : Str → Str) (db : PAuthDb) (t : PATable) : Except PyExc PAuthDb :=
  let kept := db.without t
  if fk && kept.assignments.any (fun a => (db.hasCert collate a && !kept.hasCert collate a) ||
      (db.hasSession collate a && !kept.hasSession collate a)) then .error .integrityError
  else .ok kept

/-- Deleting the rows of one table after the other in one transaction, `hgaa/database.py:33-37`. -/
def PAuthDb.deleteAll (fk : Bool) (collate : Str → Str) : List PATable → PAuthDb → Except PyExc PAuthDb
  | [], db => .ok db
  | t :: ts, db => do
    let db ← db.delete fk collate t
    deleteAll fk collate ts db

/-- `reversed(base.metadata.sorted_tables)`, `hgaa/database.py:33`: `sorted_tables` has a table behind those it refers to, and
orders by name otherwise. -/
def paWipeOrder : List PATable := [.assignments, .sessions, .policies, .certs, .authorities]

/-- `session.add_all(instances); session.commit()` for authorities and policies, `hgaa/database.py:41-42`. -/
def PAuthDb.fill (collate : Str → Str) (db : PAuthDb) (authorities : List PAAuthority) (policies : List PAPolicy) :
    Except PyExc PAuthDb :=
  if newKeys (db.authorities.map (fun r => collate r.uid)) (authorities.map (fun r => collate r.uid)) &&
      newKeys (db.policies.map (fun r => collate r.uid)) (policies.map (fun r => collate r.uid)) then
    .ok { db with authorities := db.authorities ++ authorities, policies := db.policies ++ policies }
  else .error .integrityError

/-- What happens next. -/
inductive PoolEvent where
  /-- call `j` makes a step; a query in it sees the state `v` commits ago -/
  | call (j v : Nat)
  /-- the tables are wiped -/
  | wipe
  /-- rows are added -/
  | fill (authorities : List PAAuthority) (policies : List PAPolicy)

/-- A commit that may fail. -/
def Pool.tool (p : Pool) : Except PyExc PAuthDb → Pool
  | .ok db => ⟨db, p.current :: p.older, p.jobs⟩
  | .error _ => p

/-- The calls and the tables after an event. -/
def Pool.event (fk : Bool) (X : Crypto) (collate : Str → Str) (p : Pool) : PoolEvent → Pool
  | .call j v =>
    match p.jobs[j]? with
    | none => p
    | some (q, job) =>
      match q.stepChecked fk X collate ((p.current :: p.older).getD v p.current) p.current job with
      | (none, job) => { p with jobs := p.jobs.set j (q, job) }
      | (some db, job) => ⟨db, p.current :: p.older, p.jobs.set j (q, job)⟩
  | .wipe => p.tool (p.current.deleteAll fk collate paWipeOrder)
  | .fill authorities policies => p.tool (p.current.fill collate authorities policies)

/-- Any order of events. -/
def Pool.events (fk : Bool) (X : Crypto) (collate : Str → Str) (p : Pool) (es : List PoolEvent) : Pool :=
  es.foldl (Pool.event fk X collate) p

end Verif
