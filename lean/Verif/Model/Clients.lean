import Verif.Model.AAuth

/-!
# Model of the clients, `hgaa/clients/aauth.py` and `hgaa/clients/pauth.py`

The `JSONWSPClient` of Ladon is known by the description it was made from; what a service replies, that making a client or
a request fails, and generated keys are inputs of every call. Logging is in `Verif/Model/ClientsLog.lean`.
-/

namespace Verif

/-- A response: its status, the text made from its `fault`, if there is one, and its `result`. Making the text fails for
faults without `string` or `detail`. -/
structure Response (ρ : Type) where
  status : Int
  fault : Option (Except PyExc String)
  result : Option ρ

/-- What is passed to `JSONWSPClient(...)`: the description, and whether making the client fails. -/
abbrev Connect := Option Str → Except PyExc Unit

/-- Making `self.cli`, `hgaa/clients/aauth.py:27-32`, `hgaa/clients/pauth.py:15-20`. -/
def makeCli (connect : Connect) (clientType desc : Option Str) : Except PyExc (Option Str) :=
  if clientType = some "JSONWSP".toList then do
    connect desc
    return desc
  else .error (.exception (String.ofList (showOpt clientType) ++ " client type is not yet supported."))

/-- `response.response_dict['result']` after the check of the status, `hgaa/clients/aauth.py:56-59`. -/
def plainResult {ρ : Type} (r : Response ρ) : Except PyExc ρ :=
  if r.status ≠ 200 then .error (.exception "Bad status in response.")
  else match r.result with
    | some x => .ok x
    | none => .error .keyError

/-! ### `AttributeAuthorityClient` -/

/-- The credentials sent. -/
structure ClientCredentials where
  type : Option Str
  username : Option Str
  password : Option Str
deriving DecidableEq, Repr

/-- The fields of `AttributeAuthorityClient`; `cli` is the description its `JSONWSPClient` was made from. -/
structure AClient (K : Type) where
  clientType : Option Str
  serviceDesc : Option Str
  keySize : Int
  lastKey : Option K
  credentials : ClientCredentials
  cli : Option Str
deriving DecidableEq, Repr

/-- RSA keys: `key.publickey().exportKey()` and `key.size_in_bits()`. -/
structure Keys where
  Key : Type
  pem : Key → Str
  bits : Key → Int

/-- A request as it is sent. -/
structure SentRequest where
  endpoint : Option Str
  credentials : ClientCredentials
  publicKey : Str
  cipher : Str
  keySize : Int
  names : Option (List (Option Str))
  ids : Option (List (Option Str))
deriving DecidableEq, Repr

/-- `int(get_conf('KEY_SIZE', …))`, `hgaa/clients/aauth.py:17`: TypeError for `int(None)`. -/
def parseSize (U : Uni) (size : Option Str) : Except PyExc Int := size.elim (.error .typeError) (pyIntBase U 10)

/-- `self.credentials`, `hgaa/clients/aauth.py:20-25`. -/
def clientCredentials (U : Uni) (c : Config) (credentials : Option ClientCredentials) : Except PyExc ClientCredentials :=
  match credentials with
  | some x => .ok x
  | none => do
    let type ← getConf U c "CRED_TYPE".toList false "AAUTH".toList
    let username ← getConf U c "CRED_USER".toList false "AAUTH".toList
    let password ← getConf U c "CRED_PASS".toList false "AAUTH".toList
    return ⟨type, username, password⟩

/-- `__init__`, `hgaa/clients/aauth.py:13-32`. -/
def AClient.init (U : Uni) (K : Type) (c : Config) (connect : Connect) (credentials : Option ClientCredentials) :
    Except PyExc (AClient K) := do
  let clientType ← getConf U c "CLIENT_TYPE".toList false "AAUTH".toList
  let desc ← getConf U c "SERVICE_DESCRIPTION".toList false "AAUTH".toList
  let size ← getConf U c "KEY_SIZE".toList false "AAUTH".toList
  let keySize ← parseSize U size
  let cred ← clientCredentials U c credentials
  let cli ← makeCli connect clientType desc
  return ⟨clientType, desc, keySize, none, cred, cli⟩

/-- `update_service`, `hgaa/clients/aauth.py:34-48`: the client afterwards, also if it raises. -/
def AClient.updateService {K : Type} (a : AClient K) (connect : Connect) (url clientType : Option Str) :
    AClient K × Except PyExc Unit :=
  let a := { a with
    serviceDesc := url.or a.serviceDesc
    clientType := clientType.or a.clientType }
  match makeCli connect a.clientType a.serviceDesc with
  | .ok cli => ({ a with cli := cli }, .ok ())
  | .error e => (a, .error e)

/-- The key of a request and the size that is sent for it, `hgaa/clients/aauth.py:62-68`; `generate` is
`RSA.generate(self.key_size)`. -/
def AClient.chooseKey (G : Keys) (a : AClient G.Key) (generate : Except PyExc G.Key) (key : Option G.Key) :
    Except PyExc (G.Key × Int) :=
  match key with
  | none => generate.map (fun k => (k, a.keySize))
  | some k => .ok (k, G.bits k)

/-- What is done with the answer, `hgaa/clients/aauth.py:89-99`: the client afterwards and the outcome. -/
def AClient.receive {K ρ : Type} (a : AClient K) (k : K) (answer : Except PyExc (Response ρ)) : AClient K × Except PyExc ρ :=
  match answer with
  | .error e => (a, .error e)
  | .ok r =>
    if r.status ≠ 200 then (a, .error (.exception "Bad status in response."))
    else match r.fault with
      | some (.error e) => (a, .error e)
      | some (.ok text) => (a, .error (.exception text))
      | none => ({ a with lastKey := some k }, r.result.elim (.error .keyError) .ok)

/-- `attribute_request`, `hgaa/clients/aauth.py:61-99`: the client afterwards, what was sent, and the outcome. `reply` is
what the service answers to the request. -/
def AClient.request {ρ : Type} (G : Keys) (a : AClient G.Key) (generate : Except PyExc G.Key)
    (reply : SentRequest → Except PyExc (Response ρ)) (names ids : Option (List (Option Str))) (key : Option G.Key) :
    AClient G.Key × Option SentRequest × Except PyExc ρ :=
  match a.chooseKey G generate key with
  | .error e => (a, none, .error e)
  | .ok (k, size) =>
    let sent : SentRequest := ⟨a.cli, a.credentials, G.pem k, "RSA".toList, size, names, ids⟩
    let r := a.receive k (reply sent)
    (r.1, some sent, r.2)

/-- `info`, `hgaa/clients/aauth.py:50-59`. -/
def AClient.info {K ρ : Type} (a : AClient K) (reply : Option Str → Except PyExc (Response ρ)) : Except PyExc ρ := do
  let r ← reply a.cli
  plainResult r

/-! ### `PolicyAuthorityClient` -/

/-- The fields of `PolicyAuthorityClient`. -/
structure PClient where
  serviceUid : Option Str
  clientType : Option Str
  serviceDesc : Option Str
  cli : Option Str
deriving DecidableEq, Repr

/-- `__init__`, `hgaa/clients/pauth.py:10-20`. -/
def PClient.init (U : Uni) (c : Config) (connect : Connect) (serviceUid : Option Str) : Except PyExc PClient := do
  let clientType ← getConf U c "CLIENT_TYPE".toList false "PAUTH".toList
  let desc ← getConf U c "SERVICE_DESCRIPTION".toList false "PAUTH".toList
  let cli ← makeCli connect clientType desc
  return ⟨serviceUid, clientType, desc, cli⟩

/-- `update_service`, `hgaa/clients/pauth.py:22-36`. -/
def PClient.updateService (a : PClient) (connect : Connect) (url clientType : Option Str) : PClient × Except PyExc Unit :=
  let a := { a with
    serviceDesc := url.or a.serviceDesc
    clientType := clientType.or a.clientType }
  match makeCli connect a.clientType a.serviceDesc with
  | .ok cli => ({ a with cli := cli }, .ok ())
  | .error e => (a, .error e)

/-- `info` and `trusted_attribute_authorities`, `hgaa/clients/pauth.py:38-59`; `reply` answers the method in question. -/
def PClient.ask {ρ : Type} (a : PClient) (reply : Option Str → Except PyExc (Response ρ)) : Except PyExc ρ := do
  let r ← reply a.cli
  plainResult r

/-- `start_session`, `hgaa/clients/pauth.py:61-69`: the response, whatever it is. -/
def PClient.startSession {ρ γ : Type} (a : PClient) (reply : Option Str → Option Str → γ → Except PyExc (Response ρ))
    (certs : γ) : Except PyExc (Response ρ) := reply a.cli a.serviceUid certs

end Verif
