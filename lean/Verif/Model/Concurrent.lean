import Verif.Model.PAuth

/-!
# Requests to the policy authority at the same time

`hgaa/handler.py` makes a WSGI application, which a server may call from several threads or processes at a time. Each call of
`start_session` (`hgaa/services/pauth.py:215-301`) opens a session of its own and only meets the others in the database. Its
steps are the query of the authorities, one round of the loop for each certificate, which contains one query, and the commit.
Steps of different calls can come in any order. A query sees any state that was committed before it, which includes what the
isolation levels of databases allow; a commit is atomic, checks the keys against the state it finds, and may fail for any
other reason (`PAEnv.commitFault`), such as a deadlock.
-/

namespace Verif

/-- A call of `start_session`. -/
structure StartCall where
  env : PAEnv
  serviceUid : Option Str
  set : Option (List RawCert)
  exports : Dict Str

/-- The certificates of a call. -/
def StartCall.raws (q : StartCall) : List RawCert := q.set.getD []

/-- How far a call is. -/
inductive Job where
  /-- nothing done yet -/
  | fresh
  /-- the authorities are read; the id of the session, the position, the variables and the rest of the loop -/
  | reading (authorities : List PAAuthority) (session : Str) (i : Nat) (acc : StartAcc) (rest : List RawCert)
  /-- the call has returned or raised -/
  | done (r : Except PyExc SessionReturn)

/-- The start, `hgaa/services/pauth.py:218-241`. -/
def StartCall.begin (q : StartCall) (seen : PAuthDb) : Job :=
  if q.raws.length < 1 then
    .done (.error (clientFaultLogged q.exports "Need attribute certificate set to start session."))
  else match intToB64 q.env.random with
    | .error e => .done (.error e)
    | .ok session => .reading seen.authorities session 0 {} q.raws

/-- The end, `hgaa/services/pauth.py:279-301`: the new state if the commit succeeds. -/
def StartCall.finish (collate : Str → Str) (q : StartCall) (current : PAuthDb) (session : Str) (acc : StartAcc) :
    Except PyExc (PAuthDb × SessionReturn) := do
  let till := if acc.minValid < q.env.now + 86400 then acc.minValid else q.env.now + 86400
  if acc.processed.length < 1 then
    .error (clientFaultLogged q.exports "Need at least one valid attribute certificate in your certificate set.")
  else do
    let addr ← remoteAddr q.exports
    let db ← current.commit collate q.env.commitFault acc.certs acc.assignments
      (fun uid => ⟨session, acc.maxStart, acc.minValid, q.env.now, addr, uid, till⟩) q.serviceUid
    return (db, ⟨q.env.random, q.env.now, till⟩)

/-- One step of a call: a query sees `seen`, a commit finds `current`. The new state, if there is one, and how far the call
is then. -/
def StartCall.step (X : Crypto) (collate : Str → Str) (q : StartCall) (seen current : PAuthDb) : Job → Option PAuthDb × Job
  | .fresh => (none, q.begin seen)
  | .reading authorities session i acc (raw :: rest) =>
    match startStep X collate { seen with authorities := authorities } q.exports session (q.env.clock i) acc raw with
    | .error e => (none, .done (.error e))
    | .ok acc => (none, .reading authorities session (i + 1) acc rest)
  | .reading _ session _ acc [] =>
    match q.finish collate current session acc with
    | .error e => (none, .done (.error e))
    | .ok (db, r) => (some db, .done (.ok r))
  | .done r => (none, .done r)

/-- The committed states, the newest apart, and the calls. -/
structure Pool where
  current : PAuthDb
  older : List PAuthDb
  jobs : List (StartCall × Job)

/-- Calls that have all been made and not begun. -/
def Pool.make (db : PAuthDb) (qs : List StartCall) : Pool := ⟨db, [], qs.map (fun q => (q, .fresh))⟩

/-- Call `j` makes a step; a query in it sees the state `v` commits ago, or the newest if there were not so many. -/
def Pool.step (X : Crypto) (collate : Str → Str) (p : Pool) (j v : Nat) : Pool :=
  match p.jobs[j]? with
  | none => p
  | some (q, job) =>
    match q.step X collate ((p.current :: p.older).getD v p.current) p.current job with
    | (none, job) => { p with jobs := p.jobs.set j (q, job) }
    | (some db, job) => ⟨db, p.current :: p.older, p.jobs.set j (q, job)⟩

/-- Any order of steps. -/
def Pool.run (X : Crypto) (collate : Str → Str) (p : Pool) (schedule : List (Nat × Nat)) : Pool :=
  schedule.foldl (fun p s => p.step X collate s.1 s.2) p

end Verif
