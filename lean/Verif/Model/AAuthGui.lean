import Verif.Model.Clients

/-!
# Model of the attribute authority demo, `AAuthDemoFrame` of `hgaa/clients/demos/aauth.py`

The state of the frame is its client, the key, what is in the entries and lists, the last certificate, and what the labels
and texts show. The list boxes give back the texts put into them. The combo box of authentication types has one line, whose
number is sent as the text `0`. What is typed into the text of the key is never read and not modelled; nor are layout, the
scroll bars, and the times and keys of `pprint` in the text of a result. The tree of a certificate is that of
`CertTree`; here only its failing is modelled. `RSA.generate`, making of clients and the answers of services are inputs.
-/

namespace Verif

/-- ValueError and its subclasses. -/
def PyExc.isValueError : PyExc → Bool
  | .valueError | .unicodeError => true
  | _ => false

/-- What the text of the certificate shows: nothing, bytes as hexadecimal digits, or an export. -/
inductive CertView where
  | empty
  | hex (b : Bytes)
  | data (d : ACData)
deriving DecidableEq, Repr

/-- What the text of the result shows. -/
inductive ResultView where
  | empty
  | info (text : Str)
  | error (e : PyExc)
  | attachment (b : Bytes)
deriving DecidableEq, Repr

/-- The fields of the frame, `hgaa/clients/demos/aauth.py:19-28`, and the contents of its widgets, `:31-194`. -/
structure AAuthGui (G : Keys) where
  client : AClient G.Key
  defaultDesc : Str
  key : Option G.Key
  keyShown : Option G.Key
  desc : Str
  username : Str
  password : Str
  nameEntry : Str
  idEntry : Str
  names : List Str
  ids : List Str
  raw : Option Bytes
  ac : Option AttCert
  verified : Option Bool
  view : CertView
  result : ResultView

/-- What one request depends on: the key generated for it, if one is, and the answer; reading the attachment of an answer
may fail. -/
structure Attempt (G : Keys) where
  generate : Except PyExc G.Key
  reply : SentRequest → Except PyExc (Response (Except PyExc Bytes))

/-- How a command ends: it returns, an exception leaves it, or it has not ended. -/
inductive CommandEnd where
  | done
  | raised (e : PyExc)
  | waiting
deriving DecidableEq, Repr

namespace AAuthGui

variable {G : Keys}

/-- `__init__` for a client whose description is a text, `hgaa/clients/demos/aauth.py:19-194`; the user entries hold `dan` and
`admin`, `:68-69`. -/
def new (client : AClient G.Key) (desc : Str) (key : Option G.Key) : AAuthGui G :=
  { client := client, defaultDesc := desc, key := key, keyShown := key, desc := desc, username := "dan".toList
    password := "admin".toList, nameEntry := [], idEntry := [], names := [], ids := [], raw := none, ac := none
    verified := none, view := .empty, result := .empty }

/-- `_command_generate`, `hgaa/clients/demos/aauth.py:296-299`. -/
def generate (g : AAuthGui G) : Except PyExc G.Key → AAuthGui G × CommandEnd
  | .ok k => ({ g with key := some k, keyShown := some k }, .done)
  | .error e => (g, .raised e)

/-- The list after `Add`, `hgaa/clients/demos/aauth.py:306-307`, `:316-317`. -/
def addTo (U : Uni) (l : List Str) (s : Str) : List Str := if pyStrip U s ≠ [] ∧ s ∉ l then l ++ [s] else l

/-- `_command_add_name`, `hgaa/clients/demos/aauth.py:304-308`. -/
def addName (U : Uni) (g : AAuthGui G) : AAuthGui G := { g with names := addTo U g.names g.nameEntry, nameEntry := [] }

/-- `_command_add_id`, `hgaa/clients/demos/aauth.py:314-318`. -/
def addId (U : Uni) (g : AAuthGui G) : AAuthGui G := { g with ids := addTo U g.ids g.idEntry, idEntry := [] }

/-- `_command_del_name`, `hgaa/clients/demos/aauth.py:310-312`; without a selection the list box raises TclError. -/
def delName (g : AAuthGui G) : Option Nat → AAuthGui G × CommandEnd
  | some i => ({ g with names := g.names.eraseIdx i }, .done)
  | none => (g, .raised (.exception "bad listbox index"))

/-- `_command_del_id`, `hgaa/clients/demos/aauth.py:320-322`. -/
def delId (g : AAuthGui G) : Option Nat → AAuthGui G × CommandEnd
  | some i => ({ g with ids := g.ids.eraseIdx i }, .done)
  | none => (g, .raised (.exception "bad listbox index"))

/-- The start of both requests, `hgaa/clients/demos/aauth.py:325-326`, `:338-339`. -/
def update (g : AAuthGui G) (connect : Connect) : AAuthGui G × Except PyExc Unit :=
  if g.client.serviceDesc ≠ some g.desc then
    let r := g.client.updateService connect (some g.desc) none
    ({ g with client := r.1 }, r.2)
  else (g, .ok ())

/-- `_command_info`, `hgaa/clients/demos/aauth.py:324-335`; the answer comes as the text that is shown of it. -/
def info (g : AAuthGui G) (connect : Connect) (reply : Option Str → Except PyExc (Response Str)) : AAuthGui G × CommandEnd :=
  match g.update connect with
  | (g, .error e) => (g, .raised e)
  | (g, .ok _) =>
    match g.client.info reply with
    | .ok t => ({ g with result := .info t }, .done)
    | .error e => ({ g with result := .error e }, .done)

/-- The loop that reads the attachment, `hgaa/clients/demos/aauth.py:358-368`: the client afterwards, the requests sent, and
the attachment or exception; `none` if the attempts given are not enough. -/
def fetch (names ids : Option (List (Option Str))) (key : Option G.Key) :
    AClient G.Key → Except PyExc Bytes → List (Attempt G) → AClient G.Key × List SentRequest × Option (Except PyExc Bytes)
  | a, .ok b, _ => (a, [], some (.ok b))
  | a, .error e, ts =>
    if e.isValueError then
      match ts with
      | [] => (a, [], none)
      | t :: ts =>
        match a.request G t.generate t.reply names ids key with
        | (a, s, .error e) => (a, s.toList, some (.error e))
        | (a, s, .ok r) =>
          let x := fetch names ids key a r ts
          (x.1, s.toList ++ x.2.1, x.2.2)
    else (a, [], some (.error e))

/-- `_build_ac_tree`, `hgaa/clients/demos/aauth.py:196-294`: TypeError for a signature without value, `:292`. Certificates
received have an issuer and attributes, and their times have dates: see `certTree` and `received_tree`. -/
def treeError (c : AttCert) : Option PyExc :=
  match c.signature with
  | some ⟨_, none⟩ => some .typeError
  | _ => none

/-- What is done with an attachment, `hgaa/clients/demos/aauth.py:371-393`. -/
def receive (X : Crypto) (g : AAuthGui G) (b : Bytes) : AAuthGui G × CommandEnd :=
  match g.client.lastKey with
  | none => ({ g with key := none, keyShown := none }, .raised .attributeError)
  | some k =>
    let g := { g with key := some k, keyShown := some k, raw := some b }
    match AttCert.decode X b false with
    | .error e => (g, .raised e)
    | .ok (c, _) =>
      ({ g with ac := some c, result := .attachment b, view := .hex b },
        match treeError c with | some e => .raised e | none => .done)

/-- `_command_ac`, `hgaa/clients/demos/aauth.py:337-393`: the frame afterwards, the requests sent, and how the command ends. -/
def request (X : Crypto) (g : AAuthGui G) (connect : Connect) (first : Attempt G) (more : List (Attempt G)) :
    AAuthGui G × List SentRequest × CommandEnd :=
  match g.update connect with
  | (g, .error e) => (g, [], .raised e)
  | (g, .ok _) =>
    let names := some (g.names.map some)
    let ids := some (g.ids.map some)
    let client := { g.client with credentials := ⟨some "0".toList, some g.username, some g.password⟩ }
    match client.request G first.generate first.reply names ids g.key with
    | (client, s, .error e) => ({ g with client := client, result := .error e }, s.toList, .done)
    | (client, s, .ok r) =>
      match fetch names ids g.key client r more with
      | (client, sent, none) => ({ g with client := client }, s.toList ++ sent, .waiting)
      | (client, sent, some (.error e)) => ({ g with client := client }, s.toList ++ sent, .raised e)
      | (client, sent, some (.ok b)) =>
        let x := receive X { g with client := client } b
        (x.1, s.toList ++ sent, x.2)

/-- `_command_reset`, `hgaa/clients/demos/aauth.py:400-411`. -/
def reset (g : AAuthGui G) : AAuthGui G :=
  { g with idEntry := [], nameEntry := [], ids := [], names := [], keyShown := none, key := none, username := []
           password := [], desc := g.defaultDesc }

/-- `_command_view_bytes`, `hgaa/clients/demos/aauth.py:419-426`. -/
def viewBytes (g : AAuthGui G) : AAuthGui G :=
  match g.raw with
  | some b => { g with view := .hex b }
  | none => g

/-- `_command_view_text` and `_command_view_base64`, `hgaa/clients/demos/aauth.py:428-441`: `None` has no `export_ac`. -/
def viewAs (X : Crypto) (g : AAuthGui G) (format : ExportFormat) : AAuthGui G × CommandEnd :=
  match g.ac with
  | none => (g, .raised .attributeError)
  | some c =>
    match c.exportAC X .no format with
    | .ok (d, _) => ({ g with view := .data d }, .done)
    | .error e => (g, .raised e)

/-- `_command_verify`, `hgaa/clients/demos/aauth.py:443-447`. -/
def verify (X : Crypto) (g : AAuthGui G) : AAuthGui G × CommandEnd :=
  match g.ac with
  | none => (g, .raised .attributeError)
  | some c =>
    match c.verifySignature X with
    | .ok v => ({ g with verified := some v }, .done)
    | .error e => (g, .raised e)

/-! ### The event loop -/

/-- What the user can do; `Import Key` is disabled and does nothing, `hgaa/clients/demos/aauth.py:88-90`, `:301-302`. -/
inductive Event (G : Keys) where
  | setDesc (s : Str)
  | setUser (s : Str)
  | setPassword (s : Str)
  | setName (s : Str)
  | setId (s : Str)
  | generate (k : Except PyExc G.Key)
  | addName | addId
  | delName (selection : Option Nat)
  | delId (selection : Option Nat)
  | info (connect : Connect) (reply : Option Str → Except PyExc (Response Str))
  | request (connect : Connect) (first : Attempt G) (more : List (Attempt G))
  | clearResult | reset | clearCert | viewBytes | viewText | viewBase64 | verify

/-- One event: the frame afterwards, the attribute requests sent, and how the command ends. `clearResult` is
`_command_clear`, `hgaa/clients/demos/aauth.py:395-398`, `clearCert` `_command_clear_ac`, `:413-417`. -/
def step (U : Uni) (X : Crypto) (g : AAuthGui G) : Event G → AAuthGui G × List SentRequest × CommandEnd
  | .setDesc s => ({ g with desc := s }, [], .done)
  | .setUser s => ({ g with username := s }, [], .done)
  | .setPassword s => ({ g with password := s }, [], .done)
  | .setName s => ({ g with nameEntry := s }, [], .done)
  | .setId s => ({ g with idEntry := s }, [], .done)
  | .generate k => ((g.generate k).1, [], (g.generate k).2)
  | .addName => (g.addName U, [], .done)
  | .addId => (g.addId U, [], .done)
  | .delName i => ((g.delName i).1, [], (g.delName i).2)
  | .delId i => ((g.delId i).1, [], (g.delId i).2)
  | .info connect reply => ((g.info connect reply).1, [], (g.info connect reply).2)
  | .request connect first more => g.request X connect first more
  | .clearResult => ({ g with result := .empty }, [], .done)
  | .reset => (g.reset, [], .done)
  | .clearCert => ({ g with verified := none, view := .empty }, [], .done)
  | .viewBytes => (g.viewBytes, [], .done)
  | .viewText => ((g.viewAs X .text).1, [], (g.viewAs X .text).2)
  | .viewBase64 => ((g.viewAs X .base64full).1, [], (g.viewAs X .base64full).2)
  | .verify => ((g.verify X).1, [], (g.verify X).2)

/-- The frame after a list of events; exceptions end a command, not the program, and a command that has not ended lets no
other start. -/
def run (U : Uni) (X : Crypto) (g : AAuthGui G) : List (Event G) → AAuthGui G
  | [] => g
  | e :: es =>
    match g.step U X e with
    | (g, _, .waiting) => g
    | (g, _, _) => run U X g es

end AAuthGui

end Verif
