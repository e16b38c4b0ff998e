import Verif.Model.Clients
import Verif.Model.AAuthLog

/-!
# Model of what the clients record and send

`Verif/Model/Clients.lean` leaves the log out. Here the same methods are given with their records and the requests they
make, in order. The names and levels of records are those of `AttributeAuthorityClient.LOG` and `PolicyAuthorityClient.LOG`.
-/

namespace Verif

/-- What a client puts out: a record of the log, or a request to the service its `JSONWSPClient` was made for. -/
inductive ClientOut where
  | record (level : Nat) (msg : Str)
  | send (endpoint : Option Str)
deriving DecidableEq, Repr

/-- A method of a client: what it puts out, the client afterwards, and the outcome. -/
def ClientM (S α : Type) := S → List ClientOut × S × Except PyExc α

namespace ClientM

variable {S α β : Type}

protected def pure (x : α) : ClientM S α := fun a => ([], a, .ok x)

protected def bind (m : ClientM S α) (f : α → ClientM S β) : ClientM S β := fun a =>
  match m a with
  | (o, a, .ok x) =>
    let r := f x a
    (o ++ r.1, r.2)
  | (o, a, .error e) => (o, a, .error e)

instance : Monad (ClientM S) where
  pure := ClientM.pure
  bind := ClientM.bind

/-- `LOG.info(msg)` (level 20) and `LOG.error(msg)` (level 40) -/
def say (level : Nat) (msg : Str) : ClientM S Unit := fun a => ([.record level msg], a, .ok ())

/-- A value or an exception. -/
def lift (x : Except PyExc α) : ClientM S α := fun a => ([], a, x)

/-- The client. -/
def self : ClientM S S := fun a => ([], a, .ok a)

/-- Assigning fields. -/
def assign (f : S → S) : ClientM S Unit := fun a => ([], f a, .ok ())

/-- `self.cli.method(...)` -/
def call (endpoint : Option Str) (answer : Except PyExc α) : ClientM S α := fun a => ([.send endpoint], a, answer)

end ClientM

open ClientM

/-- The message for a client that is made, `hgaa/clients/aauth.py:28`, `hgaa/clients/pauth.py:16`. -/
def connectMsg (desc : Option Str) : Str := "Setting up JSONWSP client for service ".toList ++ showOpt desc

/-- The message for a type that is not supported, `hgaa/clients/aauth.py:31`, `hgaa/clients/pauth.py:19`. -/
def unsupportedMsg (clientType : Option Str) : Str := showOpt clientType ++ " client type is not yet supported.".toList

/-- Making `self.cli` with the records, `hgaa/clients/aauth.py:27-32`, `hgaa/clients/pauth.py:15-20`. -/
def makeCliLog {S : Type} (connect : Connect) (clientType desc : Option Str) : ClientM S (Option Str) :=
  if clientType = some "JSONWSP".toList then do
    say 20 (connectMsg desc)
    lift (connect desc)
    return desc
  else do
    say 40 (unsupportedMsg clientType)
    lift (.error (.exception (String.ofList (showOpt clientType) ++ " client type is not yet supported.")))

/-- `'Calling … method for service %s'`, `hgaa/clients/aauth.py:51` and `:84`, `hgaa/clients/pauth.py:39`, `:50` and `:62`. -/
def callingMsg (method : String) (desc : Option Str) : Str :=
  "Calling ".toList ++ method.toList ++ " method for service ".toList ++ showOpt desc

/-- `__init__` with its records, `hgaa/clients/aauth.py:13-32`. -/
def AClient.initLog (U : Uni) (K : Type) (c : Config) (connect : Connect) (credentials : Option ClientCredentials) :
    ClientM Unit (AClient K) := do
  let clientType ← lift (getConf U c "CLIENT_TYPE".toList false "AAUTH".toList)
  let desc ← lift (getConf U c "SERVICE_DESCRIPTION".toList false "AAUTH".toList)
  let size ← lift (getConf U c "KEY_SIZE".toList false "AAUTH".toList)
  let keySize ← lift (parseSize U size)
  let cred ← lift (clientCredentials U c credentials)
  let cli ← makeCliLog connect clientType desc
  return ⟨clientType, desc, keySize, none, cred, cli⟩

/-- `update_service` with its records, `hgaa/clients/aauth.py:34-48`. -/
def AClient.updateLog {K : Type} (connect : Connect) (url clientType : Option Str) : ClientM (AClient K) Unit := do
  say 20 "Updating service for change of url and/or client type.".toList
  assign (fun a => { a with serviceDesc := url.or a.serviceDesc })
  assign (fun a => { a with clientType := clientType.or a.clientType })
  let a ← self
  let cli ← makeCliLog connect a.clientType a.serviceDesc
  assign (fun a => { a with cli := cli })

/-- `info` with its record, `hgaa/clients/aauth.py:50-59`. -/
def AClient.infoLog {K ρ : Type} (reply : Option Str → Except PyExc (Response ρ)) : ClientM (AClient K) ρ := do
  let a ← self
  say 20 (callingMsg "info" a.serviceDesc)
  let r ← call a.cli (reply a.cli)
  lift (plainResult r)

/-- What is done with a response, `hgaa/clients/aauth.py:89-99`. -/
def AClient.takeLog {K ρ : Type} (k : K) (r : Response ρ) : ClientM (AClient K) ρ :=
  if r.status ≠ 200 then lift (.error (.exception "Bad status in response."))
  else match r.fault with
    | some (.error e) => lift (.error e)
    | some (.ok text) => lift (.error (.exception text))
    | none => do
      assign (fun a => { a with lastKey := some k })
      lift (r.result.elim (.error .keyError) .ok)

/-- `attribute_request` with its records, `hgaa/clients/aauth.py:61-99`. The public key is shown as a `bytes` object. -/
def AClient.requestLog {ρ : Type} (G : Keys) (generate : Except PyExc G.Key) (reply : SentRequest → Except PyExc (Response ρ))
    (names ids : Option (List (Option Str))) (key : Option G.Key) : ClientM (AClient G.Key) ρ := do
  let a ← self
  let (k, size) ← (match key with
    | none => do
      say 20 ("Generating session key of size ".toList ++ decimal a.keySize ++ " for attribute request with ".toList ++
        showOpt a.serviceDesc)
      let k ← lift generate
      return (k, a.keySize)
    | some k => return (k, G.bits k) : ClientM (AClient G.Key) (G.Key × Int))
  say 20 ("Public session key is ".toList ++ bytesRepr (utf8 (G.pem k)))
  say 20 (callingMsg "attribute_request" a.serviceDesc)
  let r ← call a.cli (reply ⟨a.cli, a.credentials, G.pem k, "RSA".toList, size, names, ids⟩)
  AClient.takeLog k r

/-- `__init__` with its records, `hgaa/clients/pauth.py:10-20`. -/
def PClient.initLog (U : Uni) (c : Config) (connect : Connect) (serviceUid : Option Str) : ClientM Unit PClient := do
  let clientType ← lift (getConf U c "CLIENT_TYPE".toList false "PAUTH".toList)
  let desc ← lift (getConf U c "SERVICE_DESCRIPTION".toList false "PAUTH".toList)
  let cli ← makeCliLog connect clientType desc
  return ⟨serviceUid, clientType, desc, cli⟩

/-- `update_service` with its records, `hgaa/clients/pauth.py:22-36`. -/
def PClient.updateLog (connect : Connect) (url clientType : Option Str) : ClientM PClient Unit := do
  say 20 "Updating service for change of url and/or client type.".toList
  assign (fun a => { a with serviceDesc := url.or a.serviceDesc })
  assign (fun a => { a with clientType := clientType.or a.clientType })
  let a ← self
  let cli ← makeCliLog connect a.clientType a.serviceDesc
  assign (fun a => { a with cli := cli })

/-- `info` and `trusted_attribute_authorities` with their records, `hgaa/clients/pauth.py:38-59`. -/
def PClient.askLog {ρ : Type} (method : String) (reply : Option Str → Except PyExc (Response ρ)) : ClientM PClient ρ := do
  let a ← self
  say 20 (callingMsg method a.serviceDesc)
  let r ← call a.cli (reply a.cli)
  lift (plainResult r)

/-- `start_session` with its record, `hgaa/clients/pauth.py:61-69`. -/
def PClient.startLog {ρ γ : Type} (reply : Option Str → Option Str → γ → Except PyExc (Response ρ)) (certs : γ) :
    ClientM PClient (Response ρ) := do
  let a ← self
  say 20 (callingMsg "start_session" a.serviceDesc)
  call a.cli (reply a.cli a.serviceUid certs)

end Verif
