import Verif.Model.AAuth

/-!
# Requests for certificates at the same time

Like those of the policy authority (`Verif/Model/Concurrent.lean`), calls of `attribute_request`
(`hgaa/services/aauth.py:429-534`) may run in several threads or processes. The session of the database is the call's own
(`hgaa/services/aauth.py:434`, `hgaa/database.py:47-50`) and the object of the authority is only read. What calls share is the
database, which somebody else may change between the two queries of a call, and the directory of the certificates, where a
call writes a file and reads it back. A file is truncated when it is opened for writing; its bytes are then written, and
later read, in pieces of any sizes. Every step may fail, as when the disk is full or the connection is lost.

The size of the file, which is only asked for the log (`hgaa/services/aauth.py:423`), is taken together with opening the file
for reading. Nobody deletes files.
-/

namespace Verif

/-- A call of `attribute_request`. -/
structure IssueCall where
  env : RequestEnv
  cred : Credentials
  key : PublicKeyArg
  req : AttributeListArg
  exports : Dict Str

/-- `attribute_request` up to the check of the password, `hgaa/services/aauth.py:429-447` and `:527-534`: the name given and
the row of the user. -/
def Authority.login {X : Crypto} (U : Uni) (B : Bcrypt) (collate : Str → Str) (a : Authority X) (db : AAuthDb)
    (q : IssueCall) : Except PyExc (Str × DbUser) := do
  let _ ← remoteAddr q.exports
  if q.cred.type = 0 then do
    let username ← q.cred.username.elim (.error .attributeError) .ok
    match db.findUser collate (U.lower username) with
    | none => .error (.clientFault "Invalid credentials.".toList)
    | some user => do
      let given := utf8 (showOpt q.cred.password ++ showOpt a.pepper)
      let _ ← debugHash B q.env.debug given (utf8 user.password)
      let good ← B.checkpw given (utf8 user.password)
      if good then return (username, user) else .error (.clientFault "Invalid credentials.".toList)
  else .error (.clientFault "Unsupported credential type.".toList)

/-- The query of the attributes, the selection and the certificate, `hgaa/services/aauth.py:452-516` and `:358-411`. -/
def Authority.certify {X : Crypto} (U : Uni) (collate : Str → Str) (a : Authority X) (db : AAuthDb) (q : IssueCall)
    (who : Str × DbUser) : Except PyExc Bytes := do
  let sel ← selectAtts (db.userAttributes collate who.2.id) q.req
  let c ← a.makeCert U q.env q.cred.type who.1 q.key sel q.exports
  a.exportCert c

/-- How a call ends: with a response, with an exception of the code, or because a step failed. -/
inductive IssueEnd where
  | answer (r : ACResponse)
  | raised (e : PyExc)
  | fault
deriving DecidableEq

/-- How far a call is. -/
inductive IssueJob where
  /-- nothing done yet -/
  | fresh
  /-- the password was right -/
  | known (who : Str × DbUser)
  /-- the certificate is signed and encoded, `hgaa/services/aauth.py:411` -/
  | made (cert : Bytes)
  /-- the file is open for writing and that many bytes are written, `hgaa/services/aauth.py:419-420` -/
  | writing (cert : Bytes) (pos : Nat)
  /-- the file is closed, `hgaa/services/aauth.py:421` -/
  | stored
  /-- the file is open for reading, `hgaa/services/aauth.py:520-521`, and these bytes are read -/
  | reading (got : Bytes)
  | done (r : IssueEnd)
deriving DecidableEq

/-- Bytes written at a position of a file; a gap is filled with zeros. -/
def putAt (old : Bytes) (pos : Nat) (new : Bytes) : Bytes :=
  old.take pos ++ List.replicate (pos - old.length) 0 ++ new ++ old.drop (pos + new.length)

/-- What happens in a step: nothing goes wrong, a query sees this state and up to that many bytes and one more are moved; or
the step fails. -/
inductive IssueTurn where
  | go (seen : AAuthDb) (size : Nat)
  | fail

/-- One step of a call that has file `file` (`none` if there is none) under the name of its certificate: the new file, if it
changes, and how far the call is then. -/
def IssueCall.step {X : Crypto} (U : Uni) (B : Bcrypt) (collate : Str → Str) (a : Authority X) (q : IssueCall)
    (file : Option Bytes) : IssueTurn → IssueJob → Option Bytes × IssueJob
  | _, .done r => (none, .done r)
  | .fail, _ => (none, .done .fault)
  | .go seen _, .fresh =>
    match a.login U B collate seen q with
    | .error e => (none, .done (.raised e))
    | .ok who => (none, .known who)
  | .go seen _, .known who =>
    match a.certify U collate seen q who with
    | .error e => (none, .done (.raised e))
    | .ok cert => (none, .made cert)
  | .go _ _, .made cert => (some [], .writing cert 0)
  | .go _ size, .writing cert pos =>
    if pos < cert.length then
      let piece := (cert.drop pos).take (size + 1)
      (some (putAt (file.getD []) pos piece), .writing cert (pos + piece.length))
    else (none, .stored)
  | .go _ _, .stored =>
    match file with
    | none => (none, .done .fault)
    | some _ => (none, .reading [])
  | .go _ size, .reading got =>
    let piece := ((file.getD []).drop got.length).take (size + 1)
    if piece = [] then (none, .done (.answer ⟨1, ExportFormat.bytes.value, got⟩)) else (none, .reading (got ++ piece))

/-- The directory and the calls. -/
structure IssuePool where
  files : Files
  jobs : List (IssueCall × IssueJob)

/-- Calls that have all been made and not begun. -/
def IssuePool.make (files : Files) (qs : List IssueCall) : IssuePool := ⟨files, qs.map (fun q => (q, .fresh))⟩

/-- Call `j` makes a step. -/
def IssuePool.step {X : Crypto} (U : Uni) (B : Bcrypt) (collate : Str → Str) (acDir : Str) (a : Authority X) (p : IssuePool)
    (j : Nat) (t : IssueTurn) : IssuePool :=
  match p.jobs[j]? with
  | none => p
  | some (q, job) =>
    let name := acFileName acDir q.env.random
    match q.step U B collate a (p.files name) t job with
    | (none, job) => { p with jobs := p.jobs.set j (q, job) }
    | (some b, job) => ⟨fun n => if n = name then some b else p.files n, p.jobs.set j (q, job)⟩

/-- Any order of steps. -/
def IssuePool.run {X : Crypto} (U : Uni) (B : Bcrypt) (collate : Str → Str) (acDir : Str) (a : Authority X) (p : IssuePool)
    (schedule : List (Nat × IssueTurn)) : IssuePool :=
  schedule.foldl (fun p s => p.step U B collate acDir a s.1 s.2) p

end Verif
