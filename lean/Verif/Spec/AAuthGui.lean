import Verif.Model.AAuthGui
import Verif.Spec.Certificate

/-!
# What the attribute authority demo is meant to show

In terms of the contents of the window, the requests sent and their answers only.
-/

namespace Verif.Spec

/-- A list of names or ids in the window: no line is blank, and no two are the same. -/
def CleanList (U : Uni) (l : List Str) : Prop := l.Nodup ∧ ∀ s ∈ l, ∃ c ∈ s, U.isSpace c = false

/-- A request carries what is in the window: the user, the password, all names and all ids, and the key if there is one. -/
def Carries {G : Keys} (g : AAuthGui G) (s : SentRequest) : Prop :=
  s.credentials.username = some g.username ∧ s.credentials.password = some g.password ∧
  s.names = some (g.names.map some) ∧ s.ids = some (g.ids.map some) ∧ s.cipher = "RSA".toList ∧
  ∃ k, s.publicKey = G.pem k ∧ ∀ k', g.key = some k' → k = k'

/-- The service answers the request with an attachment that can be read. -/
def AnsweredWith (reply : SentRequest → Except PyExc (Response (Except PyExc Bytes))) (s : SentRequest) (b : Bytes) : Prop :=
  ∃ r, reply s = .ok r ∧ r.status = 200 ∧ r.fault = none ∧ r.result = some (.ok b)

/-- The service answers every request with an attachment that cannot be read. -/
def Unreadable (reply : SentRequest → Except PyExc (Response (Except PyExc Bytes))) (e : PyExc) : Prop :=
  ∀ s, ∃ r, reply s = .ok r ∧ r.status = 200 ∧ r.fault = none ∧ r.result = some (.error e)

/-- `k` is the key an attempt is made with: the one in the window, or else a new one. -/
def KeyFor {G : Keys} (key : Option G.Key) (t : Attempt G) (k : G.Key) : Prop :=
  key = some k ∨ key = none ∧ t.generate = .ok k

/-- The window shows a new certificate: the bytes, the certificate in them, and the key it was asked for. -/
structure ShowsNew {G : Keys} (g : AAuthGui G) (b : Bytes) (c : AttCert) (k : G.Key) : Prop where
  raw : g.raw = some b
  ac : g.ac = some c
  view : g.view = .hex b
  result : g.result = .attachment b
  key : g.key = some k
  keyShown : g.keyShown = some k

/-- What the label says of the certificate is true of it. -/
def LabelRight {G : Keys} (X : Crypto) (g : AAuthGui G) : Prop :=
  ∀ v, g.verified = some v → ∃ c, g.ac = some c ∧ c.verifySignature X = .ok v

/-- The certificate is the one in the bytes. -/
def SameCert {G : Keys} (g : AAuthGui G) : Prop :=
  (g.raw = none ∧ g.ac = none) ∨ ∃ b c, g.raw = some b ∧ g.ac = some c ∧ CertWire c b

/-- Requests go to the service the client says it is for. -/
def InSync {K : Type} (a : AClient K) : Prop := a.cli = a.serviceDesc

end Verif.Spec
