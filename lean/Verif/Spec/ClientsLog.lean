import Verif.Model.ClientsLog

/-!
# What the clients are meant to record and to send
-/

namespace Verif.Spec

/-- How a missing setting is shown. -/
def orNone (v : Option Str) : Str := v.getD "None".toList

/-- The record of connecting to a service. -/
def connecting (clientType desc : Option Str) : ClientOut :=
  if clientType = some "JSONWSP".toList then .record 20 ("Setting up JSONWSP client for service ".toList ++ orNone desc)
  else .record 40 (orNone clientType ++ " client type is not yet supported.".toList)

/-- The record before a request. -/
def announce (method : String) (desc : Option Str) : ClientOut :=
  .record 20 ("Calling ".toList ++ method.toList ++ " method for service ".toList ++ orNone desc)

/-- A call of a method of `AttributeAuthorityClient`, with what the world does. -/
inductive ACall (G : Keys) (ρ : Type) where
  | info (reply : Option Str → Except PyExc (Response ρ))
  | request (generate : Except PyExc G.Key) (reply : SentRequest → Except PyExc (Response ρ))
      (names ids : Option (List (Option Str))) (key : Option G.Key)
  | update (connect : Connect) (url clientType : Option Str)

/-- A call of a method of `PolicyAuthorityClient`. -/
inductive PCall (ρ γ : Type) where
  | info (reply : Option Str → Except PyExc (Response ρ))
  | trusted (reply : Option Str → Except PyExc (Response ρ))
  | start (reply : Option Str → Option Str → γ → Except PyExc (Response ρ)) (certs : γ)
  | update (connect : Connect) (url clientType : Option Str)

/-- What is put out depends on these fields of a client only: not on the credentials and the last key. -/
structure ClientView where
  clientType : Option Str
  desc : Option Str
  size : Int
  cli : Option Str
deriving DecidableEq

/-- The fields after `update_service`. -/
def ClientView.updated (s : ClientView) (connect : Connect) (url clientType : Option Str) : ClientView :=
  { s with
    desc := url.or s.desc
    clientType := clientType.or s.clientType
    cli := if clientType.or s.clientType = some "JSONWSP".toList ∧ (connect (url.or s.desc)).isOk then url.or s.desc else s.cli }

/-- The output of `update_service`. -/
def updateOut (s : ClientView) (url clientType : Option Str) : List ClientOut :=
  [.record 20 "Updating service for change of url and/or client type.".toList,
    connecting (clientType.or s.clientType) (url.or s.desc)]

/-- The key of a request. -/
def keyOf {G : Keys} (generate : Except PyExc G.Key) (key : Option G.Key) : Option G.Key := key.or generate.toOption

/-- The output of a call, and the fields afterwards. Of keys only the public part, of requests only the method is shown. -/
def ACall.out {G : Keys} {ρ : Type} (s : ClientView) : ACall G ρ → List ClientOut × ClientView
  | .info _ => ([announce "info" s.desc, .send s.cli], s)
  | .request generate _ _ _ key =>
    ((if key.isNone then [.record 20 ("Generating session key of size ".toList ++ decimal s.size ++
        " for attribute request with ".toList ++ orNone s.desc)] else []) ++
      (match keyOf generate key with
        | none => []
        | some k => [.record 20 ("Public session key is ".toList ++ bytesRepr (utf8 (G.pem k))),
            announce "attribute_request" s.desc, .send s.cli]), s)
  | .update connect url clientType => (updateOut s url clientType, s.updated connect url clientType)

/-- The same for the other client. -/
def PCall.out {ρ γ : Type} (s : ClientView) : PCall ρ γ → List ClientOut × ClientView
  | .info _ => ([announce "info" s.desc, .send s.cli], s)
  | .trusted _ => ([announce "trusted_attribute_authorities" s.desc, .send s.cli], s)
  | .start _ _ => ([announce "start_session" s.desc, .send s.cli], s)
  | .update connect url clientType => (updateOut s url clientType, s.updated connect url clientType)

/-- The output of a history. -/
def outs {C : Type} (out : ClientView → C → List ClientOut × ClientView) : ClientView → List C → List ClientOut × ClientView
  | s, [] => ([], s)
  | s, c :: cs => ((out s c).1 ++ (outs out (out s c).2 cs).1, (outs out (out s c).2 cs).2)

/-- Every request comes right after a record that names the service it is sent to. -/
def Honest (l : List ClientOut) : Prop := ∀ pre endpoint post, l = pre ++ .send endpoint :: post →
  ∃ pre' method, pre = pre' ++ [announce method endpoint]

/-- A call that does not fail to connect. -/
def ACall.Connects {G : Keys} {ρ : Type} (s : ClientView) : ACall G ρ → Prop
  | .update connect url clientType => clientType.or s.clientType = some "JSONWSP".toList ∧ (connect (url.or s.desc)).isOk
  | _ => True

def PCall.Connects {ρ γ : Type} (s : ClientView) : PCall ρ γ → Prop
  | .update connect url clientType => clientType.or s.clientType = some "JSONWSP".toList ∧ (connect (url.or s.desc)).isOk
  | _ => True

/-- No call of a history fails to connect. -/
def AllConnect {C : Type} (out : ClientView → C → List ClientOut × ClientView) (connects : ClientView → C → Prop) : ClientView → List C → Prop
  | _, [] => True
  | s, c :: cs => connects s c ∧ AllConnect out connects (out s c).2 cs

end Verif.Spec
