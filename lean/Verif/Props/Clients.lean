import Verif.Model.Clients
import Verif.Proofs.Integer
import Verif.Props.Config

/-!
# Clients of the services (C58, C88–C91)
-/

namespace Verif.Props

open Proofs Spec

variable {U : Uni} {G : Keys} {ρ : Type}

/-! ### C58: the last key -/

/-- The service accepts a request: it answers with status 200 and no fault. -/
def Accepts (answer : Except PyExc (Response ρ)) : Prop := ∃ r, answer = .ok r ∧ r.status = 200 ∧ r.fault = none

/-- `k` is the key of a request: the one given, or else a new one; `n` is the size that is sent for it. -/
def RequestKey (a : AClient G.Key) (generate : Except PyExc G.Key) (key : Option G.Key) (k : G.Key) (n : Int) : Prop :=
  key = some k ∧ n = G.bits k ∨ key = none ∧ generate = .ok k ∧ n = a.keySize

/-- The request that is sent with a key. -/
def requestWith (a : AClient G.Key) (names ids : Option (List (Option Str))) (k : G.Key) (n : Int) : SentRequest :=
  { endpoint := a.cli
    credentials := a.credentials
    publicKey := G.pem k
    cipher := "RSA".toList
    keySize := n
    names := names
    ids := ids }

variable {a : AClient G.Key} {generate : Except PyExc G.Key} {reply : SentRequest → Except PyExc (Response ρ)}
  {names ids : Option (List (Option Str))} {key : Option G.Key}

theorem chooseKey_ok {k : G.Key} {n : Int} : a.chooseKey G generate key = .ok (k, n) ↔ RequestKey a generate key k n := by
  unfold AClient.chooseKey RequestKey
  cases key with
  | some k' =>
    simp only [Except.ok.injEq, Prod.mk.injEq, Option.some.injEq, reduceCtorEq, false_and, or_false]
    constructor
    · rintro ⟨rfl, rfl⟩; exact ⟨rfl, rfl⟩
    · rintro ⟨rfl, rfl⟩; exact ⟨rfl, rfl⟩
  | none =>
    cases generate with
    | error e => simp [Except.map]
    | ok k' =>
      simp only [Except.map, Except.ok.injEq, Prod.mk.injEq, reduceCtorEq, false_and, false_or, true_and]
      constructor
      · rintro ⟨rfl, rfl⟩; exact ⟨rfl, rfl⟩
      · rintro ⟨rfl, rfl⟩; exact ⟨rfl, rfl⟩

/-- What is done with an answer. -/
theorem receive_iff (k : G.Key) (answer : Except PyExc (Response ρ)) :
    (Accepts answer → (a.receive k answer).1 = { a with lastKey := some k }) ∧
    (¬ Accepts answer → (a.receive k answer).1 = a) ∧
    ∀ x, (a.receive k answer).2 = .ok x ↔ ∃ r, answer = .ok r ∧ r.status = 200 ∧ r.fault = none ∧ r.result = some x := by
  unfold AClient.receive Accepts
  cases answer with
  | error e => simp
  | ok r =>
    by_cases hs : r.status = 200
    · cases hf : r.fault with
      | some f => cases f <;> simp [hs, hf]
      | none => cases hr : r.result <;> simp [hs, hf, hr]
    · simp [hs]

/-- The errors of a request: failures of the transport, a bad status before a fault, the text of a fault, and the missing
result. -/
theorem receive_error (k : G.Key) (answer : Except PyExc (Response ρ)) (e : PyExc) :
    (a.receive k answer).2 = .error e ↔ answer = .error e ∨ ∃ r, answer = .ok r ∧
      (r.status ≠ 200 ∧ e = .exception "Bad status in response." ∨
       r.status = 200 ∧ (r.fault = some (.error e) ∨ (∃ t, r.fault = some (.ok t) ∧ e = .exception t) ∨
         r.fault = none ∧ r.result = none ∧ e = .keyError)) := by
  unfold AClient.receive
  cases answer with
  | error e' => simp
  | ok r =>
    obtain ⟨status, fault, result⟩ := r
    by_cases hs : status = 200
    · subst hs
      cases fault with
      | none => cases result <;> simp [eq_comm]
      | some f => cases f <;> simp [eq_comm]
    · simp [hs, eq_comm]


/-- A request is sent with its key, or none can be made. -/
theorem request_split : (∃ e, generate = .error e ∧ key = none ∧
      a.request G generate reply names ids key = (a, none, .error e)) ∨
    ∃ k n, RequestKey a generate key k n ∧ a.request G generate reply names ids key =
      ((a.receive k (reply (requestWith a names ids k n))).1, some (requestWith a names ids k n),
        (a.receive k (reply (requestWith a names ids k n))).2) := by
  cases hc : a.chooseKey G generate key with
  | error e =>
    refine .inl ⟨e, ?_⟩
    unfold AClient.request
    rw [hc]
    unfold AClient.chooseKey at hc
    cases key with
    | some k => cases hc
    | none =>
      cases generate with
      | ok k => cases hc
      | error e' => cases hc; exact ⟨rfl, rfl, rfl⟩
  | ok kn =>
    obtain ⟨k, n⟩ := kn
    refine .inr ⟨k, n, chooseKey_ok.mp hc, ?_⟩
    unfold AClient.request
    rw [hc]
    rfl

/-- **C58**: `last_key` changes exactly if the request is accepted: the service answers with status 200 and no fault. It is
then the key whose public part was sent. Nothing else of the client ever changes. -/
theorem lastKey_iff (a' : AClient G.Key) (s : Option SentRequest) (o : Except PyExc ρ)
    (h : a.request G generate reply names ids key = (a', s, o)) :
    (∃ k n r, RequestKey a generate key k n ∧ s = some (requestWith a names ids k n) ∧
      reply (requestWith a names ids k n) = .ok r ∧ r.status = 200 ∧ r.fault = none ∧ a' = { a with lastKey := some k }) ∨
    ((∀ s', s = some s' → ¬ Accepts (reply s')) ∧ a' = a ∧ ∀ x, o ≠ .ok x) := by
  rcases request_split (a := a) (generate := generate) (reply := reply) (names := names) (ids := ids) (key := key) with
    ⟨e, _, _, he⟩ | ⟨k, n, hk, he⟩
  · rw [h] at he
    cases he
    exact .inr ⟨fun _ h => (by cases h), rfl, fun _ h => (by cases h)⟩
  · rw [h] at he
    obtain ⟨h1, h2, h3⟩ := receive_iff (a := a) k (reply (requestWith a names ids k n))
    cases he
    by_cases hacc : Accepts (reply (requestWith a names ids k n))
    · have hacc' := hacc
      obtain ⟨r, hr, hs, hf⟩ := hacc'
      exact .inl ⟨k, n, r, hk, rfl, hr, hs, hf, h1 hacc⟩
    · refine .inr ⟨fun s' hs => by cases hs; exact hacc, h2 hacc, fun x hx => ?_⟩
      obtain ⟨r, hr, hs, hf, _⟩ := (h3 x).mp hx
      exact hacc ⟨r, hr, hs, hf⟩

/-- **C58**: after a request that returns, `last_key` is the key whose public part was sent, and what is returned is the
result in the answer. -/
theorem lastKey_success (a' : AClient G.Key) (s : Option SentRequest) (x : ρ)
    (h : a.request G generate reply names ids key = (a', s, .ok x)) :
    ∃ k n r, RequestKey a generate key k n ∧ s = some (requestWith a names ids k n) ∧ a'.lastKey = some k ∧
      reply (requestWith a names ids k n) = .ok r ∧ r.result = some x := by
  rcases request_split (a := a) (generate := generate) (reply := reply) (names := names) (ids := ids) (key := key) with
    ⟨e, _, _, he⟩ | ⟨k, n, hk, he⟩
  · rw [h] at he
    cases he
  · rw [h] at he
    obtain ⟨h1, _, h3⟩ := receive_iff (a := a) k (reply (requestWith a names ids k n))
    injection he with e1 e2
    injection e2 with e2 e3
    obtain ⟨r, hr, hs, hf, hx⟩ := (h3 x).mp e3.symm
    exact ⟨k, n, r, hk, e2, by rw [e1, h1 ⟨r, hr, hs, hf⟩], hr, hx⟩

/-- Answers as the protocol has them: a result or a fault. -/
def WellFormed (reply : SentRequest → Except PyExc (Response ρ)) : Prop :=
  ∀ s r, reply s = .ok r → r.fault = none → r.result ≠ none

/-- **C58**, for services whose answers hold a result or a fault: `last_key` changes only if `attribute_request` returns.
What is missing is answers with neither, see `lastKey_without_result`. -/
theorem lastKey_partial (hw : WellFormed reply) (a' : AClient G.Key) (s : Option SentRequest) (o : Except PyExc ρ)
    (h : a.request G generate reply names ids key = (a', s, o)) (hne : a'.lastKey ≠ a.lastKey) :
    ∃ k n x, a'.lastKey = some k ∧ s = some (requestWith a names ids k n) ∧ o = .ok x := by
  rcases request_split (a := a) (generate := generate) (reply := reply) (names := names) (ids := ids) (key := key) with
    ⟨e, _, _, he⟩ | ⟨k, n, _, he⟩
  · rw [h] at he
    cases he
    exact absurd rfl hne
  · rw [h] at he
    obtain ⟨h1, h2, h3⟩ := receive_iff (a := a) k (reply (requestWith a names ids k n))
    injection he with e1 e2
    injection e2 with e2 e3
    by_cases hacc : Accepts (reply (requestWith a names ids k n))
    · have hacc' := hacc
      obtain ⟨r, hr, hs, hf⟩ := hacc'
      obtain ⟨x, hx⟩ := Option.ne_none_iff_exists'.mp (hw _ r hr hf)
      exact ⟨k, n, x, by rw [e1, h1 hacc], e2, by rw [e3]; exact (h3 x).mpr ⟨r, hr, hs, hf, hx⟩⟩
    · rw [e1, h2 hacc] at hne
      exact absurd rfl hne

/-- C58 is false for an answer that holds neither a result nor a fault: the request raises KeyError, but its key is kept as
the last key. -/
theorem lastKey_without_result (k : G.Key) :
    a.request (ρ := ρ) G generate (fun _ => .ok ⟨200, none, none⟩) names ids (some k) =
      ({ a with lastKey := some k }, some (requestWith a names ids k (G.bits k)), .error .keyError) := rfl

/-! ### Histories -/

/-- A call of `update_service` or `attribute_request` with everything it depends on. -/
inductive ClientCall (G : Keys) (ρ : Type) where
  | update (connect : Connect) (url clientType : Option Str)
  | request (generate : Except PyExc G.Key) (reply : SentRequest → Except PyExc (Response ρ))
      (names ids : Option (List (Option Str))) (key : Option G.Key)

/-- The client after a call. -/
def afterClientCall (a : AClient G.Key) : ClientCall G ρ → AClient G.Key
  | .update connect url clientType => (a.updateService connect url clientType).1
  | .request generate reply names ids key => (a.request G generate reply names ids key).1

/-- The client after calls. -/
def afterClientCalls (a : AClient G.Key) : List (ClientCall G ρ) → AClient G.Key
  | [] => a
  | c :: cs => afterClientCalls (afterClientCall a c) cs

/-- A call is a request with the key `k`, which the service accepts. -/
def AcceptedWith (a : AClient G.Key) (c : ClientCall G ρ) (k : G.Key) : Prop :=
  ∃ generate reply names ids key n, c = .request generate reply names ids key ∧ RequestKey a generate key k n ∧
    Accepts (reply (requestWith a names ids k n))

theorem requestKey_unique {k k' : G.Key} {n n' : Int} (h : RequestKey a generate key k n) (h' : RequestKey a generate key k' n') :
    k = k' ∧ n = n' := by
  have := (chooseKey_ok.mpr h).symm.trans (chooseKey_ok.mpr h')
  cases this
  exact ⟨rfl, rfl⟩

/-- One call. -/
theorem call_lastKey (a : AClient G.Key) (c : ClientCall G ρ) :
    (∃ k, AcceptedWith a c k ∧ (afterClientCall a c).lastKey = some k) ∨
    ((∀ k, ¬ AcceptedWith a c k) ∧ (afterClientCall a c).lastKey = a.lastKey) := by
  cases c with
  | update connect url clientType =>
    refine .inr ⟨?_, ?_⟩
    · rintro k ⟨_, _, _, _, _, _, h, _⟩
      cases h
    · unfold afterClientCall AClient.updateService
      dsimp only
      split <;> rfl
  | request generate reply names ids key =>
    generalize hreq : a.request G generate reply names ids key = q
    obtain ⟨a', s, o⟩ := q
    have hafter : afterClientCall a (.request generate reply names ids key) = a' := by
      show (a.request G generate reply names ids key).1 = _
      rw [hreq]
    rw [hafter]
    rcases lastKey_iff a' s o hreq with
      ⟨k, n, r, h1, _, h3, h4, h5, h6⟩ | ⟨h1, h2, _⟩
    · refine .inl ⟨k, ⟨generate, reply, names, ids, key, n, rfl, h1, r, h3, h4, h5⟩, ?_⟩
      rw [h6]
    · refine .inr ⟨?_, ?_⟩
      · rintro k ⟨_, _, _, _, _, n, h, hk, hacc⟩
        cases h
        rcases request_split (a := a) (generate := generate) (reply := reply) (names := names) (ids := ids) (key := key) with
          ⟨e, he, hn, _⟩ | ⟨k', n', hk', he⟩
        · subst hn
          rcases hk with ⟨h, _⟩ | ⟨_, h, _⟩
          · cases h
          · rw [he] at h; cases h
        · obtain ⟨rfl, rfl⟩ := requestKey_unique hk hk'
          rw [hreq] at he
          exact h1 _ (congrArg (fun q => q.2.1) he) hacc
      · rw [h2]

/-- **C58**: after any calls, `last_key` is the key of the last request that was accepted; without one it is what it was. -/
theorem history_lastKey (a : AClient G.Key) (cs : List (ClientCall G ρ)) :
    (∃ before c after k, cs = before ++ c :: after ∧ AcceptedWith (afterClientCalls a before) c k ∧
      (∀ mid d rest, after = mid ++ d :: rest → ∀ k', ¬ AcceptedWith (afterClientCalls a (before ++ c :: mid)) d k') ∧
      (afterClientCalls a cs).lastKey = some k) ∨
    ((∀ before c after, cs = before ++ c :: after → ∀ k, ¬ AcceptedWith (afterClientCalls a before) c k) ∧
      (afterClientCalls a cs).lastKey = a.lastKey) := by
  induction cs generalizing a with
  | nil =>
    refine .inr ⟨fun before c after h => ?_, rfl⟩
    cases before <;> cases h
  | cons c cs ih =>
    rcases ih (afterClientCall a c) with ⟨before, d, after, k, rfl, h1, h2, h3⟩ | ⟨h1, h2⟩
    · exact .inl ⟨c :: before, d, after, k, rfl, h1, h2, h3⟩
    · rcases call_lastKey a c with ⟨k, h3, h4⟩ | ⟨h3, h4⟩
      · exact .inl ⟨[], c, cs, k, rfl, h3, fun mid d rest h => h1 mid d rest h, h2.trans h4⟩
      · refine .inr ⟨?_, h2.trans h4⟩
        intro before d after h
        cases before with
        | nil => cases h; exact h3
        | cons x before =>
          rw [List.cons_append] at h
          injection h with hx hr
          subst hx
          exact h1 before d after hr

/-! ### C88: where requests are sent -/

/-- **C88**: `update_service` succeeds exactly if the client type is JSONWSP and a client can be made. Requests then go
to the new address. If it fails, requests still go to the old address. -/
theorem update_iff (connect : Connect) (url clientType : Option Str) (a' : AClient G.Key) (o : Except PyExc Unit)
    (h : a.updateService connect url clientType = (a', o)) :
    a'.serviceDesc = url.or a.serviceDesc ∧ a'.clientType = clientType.or a.clientType ∧
    a'.credentials = a.credentials ∧ a'.lastKey = a.lastKey ∧ a'.keySize = a.keySize ∧
    ((o = .ok () ∧ a'.cli = a'.serviceDesc ∧ a'.clientType = some "JSONWSP".toList ∧ connect a'.serviceDesc = .ok ()) ∨
     (∃ e, o = .error e ∧ a'.cli = a.cli ∧
       ((a'.clientType ≠ some "JSONWSP".toList) ∨ connect a'.serviceDesc = .error e))) := by
  unfold AClient.updateService makeCli at h
  dsimp only at h
  by_cases ht : clientType.or a.clientType = some "JSONWSP".toList
  · rw [if_pos ht] at h
    cases hc : connect (url.or a.serviceDesc) with
    | error e =>
      rw [hc] at h
      cases h
      exact ⟨rfl, rfl, rfl, rfl, rfl, .inr ⟨e, rfl, rfl, .inr hc⟩⟩
    | ok u =>
      rw [hc] at h
      cases h
      exact ⟨rfl, rfl, rfl, rfl, rfl, .inl ⟨rfl, rfl, ht, hc⟩⟩
  · rw [if_neg ht] at h
    cases h
    exact ⟨rfl, rfl, rfl, rfl, rfl, .inr ⟨_, rfl, rfl, .inl ht⟩⟩

/-- The address a call makes the client use, if it does: it is an `update_service` that succeeds. -/
def SwitchesTo (a : AClient G.Key) (c : ClientCall G ρ) (d : Option Str) : Prop :=
  ∃ connect url clientType, c = .update connect url clientType ∧
    clientType.or a.clientType = some "JSONWSP".toList ∧ connect (url.or a.serviceDesc) = .ok () ∧ d = url.or a.serviceDesc

theorem call_cli (a : AClient G.Key) (c : ClientCall G ρ) :
    (afterClientCall a c).credentials = a.credentials ∧
    ((∃ d, SwitchesTo a c d ∧ (afterClientCall a c).cli = d) ∨
     ((∀ d, ¬ SwitchesTo a c d) ∧ (afterClientCall a c).cli = a.cli)) := by
  cases c with
  | update connect url clientType =>
    obtain ⟨h1, h2, h3, _, _, h4⟩ := update_iff (a := a) connect url clientType _ _ rfl
    refine ⟨h3, ?_⟩
    rcases h4 with ⟨_, h5, h6, h7⟩ | ⟨e, _, h5, h6⟩
    · exact .inl ⟨_, ⟨connect, url, clientType, rfl, h2.symm.trans h6, by rw [← h1]; exact h7, rfl⟩, h5.trans h1⟩
    · refine .inr ⟨?_, h5⟩
      rintro d ⟨_, _, _, he, h7, h8, _⟩
      cases he
      rcases h6 with h6 | h6
      · exact h6 (h2.trans h7)
      · rw [h1, h8] at h6
        cases h6
  | request generate reply names ids key =>
    have : ∀ d, ¬ SwitchesTo a (.request generate reply names ids key) d := by
      rintro d ⟨_, _, _, he, _⟩
      cases he
    generalize hreq : a.request G generate reply names ids key = q
    obtain ⟨a', s, o⟩ := q
    have hafter : afterClientCall a (.request generate reply names ids key) = a' := by
      show (a.request G generate reply names ids key).1 = _
      rw [hreq]
    rw [hafter]
    rcases lastKey_iff a' s o hreq with
      ⟨k, n, r, _, _, _, _, _, h6⟩ | ⟨_, h2, _⟩
    · rw [h6]
      exact ⟨rfl, .inr ⟨this, rfl⟩⟩
    · rw [h2]
      exact ⟨rfl, .inr ⟨this, rfl⟩⟩

/-- **C88**: after any calls, requests are sent with the credentials the client was made with, to the address of the last
`update_service` that succeeded; without one to the address the client was made for. -/
theorem history_cli (a : AClient G.Key) (cs : List (ClientCall G ρ)) :
    (afterClientCalls a cs).credentials = a.credentials ∧
    ((∃ before c after d, cs = before ++ c :: after ∧ SwitchesTo (afterClientCalls a before) c d ∧
      (∀ mid c' rest, after = mid ++ c' :: rest → ∀ d', ¬ SwitchesTo (afterClientCalls a (before ++ c :: mid)) c' d') ∧
      (afterClientCalls a cs).cli = d) ∨
    ((∀ before c after, cs = before ++ c :: after → ∀ d, ¬ SwitchesTo (afterClientCalls a before) c d) ∧
      (afterClientCalls a cs).cli = a.cli)) := by
  induction cs generalizing a with
  | nil =>
    refine ⟨rfl, .inr ⟨fun before c after h => ?_, rfl⟩⟩
    cases before <;> cases h
  | cons c cs ih =>
    obtain ⟨h0, hs⟩ := ih (afterClientCall a c)
    obtain ⟨h0', hs'⟩ := call_cli a c
    refine ⟨h0.trans h0', ?_⟩
    rcases hs with ⟨before, d, after, k, rfl, h1, h2, h3⟩ | ⟨h1, h2⟩
    · exact .inl ⟨c :: before, d, after, k, rfl, h1, h2, h3⟩
    · rcases hs' with ⟨k, h3, h4⟩ | ⟨h3, h4⟩
      · exact .inl ⟨[], c, cs, k, rfl, h3, fun mid d rest h => h1 mid d rest h, h2.trans h4⟩
      · refine .inr ⟨?_, h2.trans h4⟩
        intro before d after h
        cases before with
        | nil => cases h; exact h3
        | cons x before =>
          rw [List.cons_append] at h
          injection h with hx hr
          subst hx
          exact h1 before d after hr

/-- **C88**: after an `update_service` that failed, `service_desc` may be another address than the one requests, with the
credentials in them, are sent to. -/
theorem update_failed (connect : Connect) (url : Str) (t : Str) (ht : t ≠ "JSONWSP".toList) (k : G.Key) :
    let a' := (a.updateService connect (some url) (some t)).1
    a'.serviceDesc = some url ∧
    (a'.request G generate reply names ids (some k)).2.1 = some (requestWith a names ids k (G.bits k)) := by
  have : makeCli connect (some t) (some url) = .error (.exception (String.ofList t ++ " client type is not yet supported.")) := by
    unfold makeCli
    rw [if_neg (fun h => ht (Option.some.inj h))]
    rfl
  unfold AClient.updateService
  simp only [Option.some_or]
  rw [this]
  exact ⟨rfl, rfl⟩

/-! ### C89: keys that are sent -/

/-- **C89**: the size sent is that of the key, if `RSA.generate(n)` makes keys of `n` bits. -/
theorem sent_size (hg : ∀ k, generate = .ok k → G.bits k = a.keySize) (s : SentRequest)
    (h : (a.request G generate reply names ids key).2.1 = some s) :
    ∃ k, s.publicKey = G.pem k ∧ s.keySize = G.bits k ∧ s.cipher = "RSA".toList ∧ s.endpoint = a.cli ∧
      s.credentials = a.credentials ∧ s.names = names ∧ s.ids = ids ∧ ∀ k', key = some k' → k = k' := by
  rcases request_split (a := a) (generate := generate) (reply := reply) (names := names) (ids := ids) (key := key) with
    ⟨e, _, _, he⟩ | ⟨k, n, hk, he⟩
  · rw [he] at h; cases h
  · rw [he] at h
    cases h
    refine ⟨k, rfl, ?_, rfl, rfl, rfl, rfl, rfl, ?_⟩
    · rcases hk with ⟨_, h⟩ | ⟨_, h1, h2⟩
      · exact h
      · exact h2.trans (hg k h1).symm
    · intro k' hk'
      rcases hk with ⟨h, _⟩ | ⟨h, _⟩
      · exact Option.some.inj (h.symm.trans hk')
      · rw [h] at hk'; cases hk'

/-! ### C90: making clients -/

/-- The value of a client's option, as configured. -/
abbrev ClientConfigured (U : Uni) (c : Config) (name sect : String) (v : Option Str) : Prop :=
  Setting U c name.toList false sect.toList v

theorem makeCli_ok {connect : Connect} {clientType desc d : Option Str} : makeCli connect clientType desc = .ok d ↔
    clientType = some "JSONWSP".toList ∧ connect desc = .ok () ∧ d = desc := by
  unfold makeCli
  by_cases ht : clientType = some "JSONWSP".toList
  · rw [if_pos ht]
    cases hc : connect desc with
    | error e => exact ⟨fun h => (by cases h), fun ⟨_, h, _⟩ => (by cases h)⟩
    | ok u => exact ⟨fun h => (by cases h; exact ⟨ht, rfl, rfl⟩), fun ⟨_, _, h⟩ => (by rw [h]; rfl)⟩
  · rw [if_neg ht]
    exact ⟨fun h => (by cases h), fun ⟨h, _⟩ => absurd h ht⟩

/-- Other client types are refused before the service is contacted. -/
theorem makeCli_error {connect : Connect} {clientType desc : Option Str} {e : PyExc} :
    makeCli connect clientType desc = .error e ↔
      clientType = some "JSONWSP".toList ∧ connect desc = .error e ∨
      (∃ t, clientType = some t ∧ t ≠ "JSONWSP".toList ∧
        e = .exception (String.ofList t ++ " client type is not yet supported.")) ∨
      clientType = none ∧ e = .exception "None client type is not yet supported." := by
  unfold makeCli
  by_cases ht : clientType = some "JSONWSP".toList
  · rw [if_pos ht]
    subst ht
    cases hc : connect desc <;> simp [bind, Except.bind, pure, Except.pure]
  · rw [if_neg ht]
    cases clientType with
    | none =>
      have : String.ofList (showOpt none) ++ " client type is not yet supported." = "None client type is not yet supported." := by
        decide
      rw [this]
      simp [eq_comm]
    | some t =>
      have ht' : t ≠ ['J', 'S', 'O', 'N', 'W', 'S', 'P'] := fun h => ht (congrArg some h)
      simp [ht', showOpt, eq_comm]

/-- **C90**: a client of the attribute authority is made exactly if the client type is JSONWSP, `KEY_SIZE` is configured, as
it is not by default, and a number, and the service can be reached. -/
theorem client_init_iff (hU : U.Lawful) (c : Config) (hs : c.client.sections.get defaultSect = none) (connect : Connect)
    (cred : Option ClientCredentials) (a : AClient G.Key) : AClient.init U G.Key c connect cred = .ok a ↔
      ∃ size, ClientConfigured U c "CLIENT_TYPE" "AAUTH" (some "JSONWSP".toList) ∧
        ClientConfigured U c "SERVICE_DESCRIPTION" "AAUTH" a.serviceDesc ∧
        ClientConfigured U c "KEY_SIZE" "AAUTH" (some size) ∧ IntText U 10 size a.keySize ∧
        (cred = some a.credentials ∨ cred = none ∧
          ClientConfigured U c "CRED_TYPE" "AAUTH" a.credentials.type ∧
          ClientConfigured U c "CRED_USER" "AAUTH" a.credentials.username ∧
          ClientConfigured U c "CRED_PASS" "AAUTH" a.credentials.password) ∧
        connect a.serviceDesc = .ok () ∧ a.clientType = some "JSONWSP".toList ∧ a.cli = a.serviceDesc ∧
        a.lastKey = none := by
  have key : ∀ (n s : String) (v : Option Str), n.toList.all isAscii = true →
      (getConf U c n.toList false s.toList = .ok v ↔ ClientConfigured U c n s v) :=
    fun n s v h => getConf_ascii hU c n.toList false s.toList hs h v
  unfold AClient.init
  simp only [except_bind_ok, except_pure_ok, makeCli_ok, ← pyIntBase_iff hU]
  constructor
  · rintro ⟨t, h1, d, h2, size, h3, n, h4, cr, h5, _, ⟨rfl, h6, rfl⟩, rfl⟩
    cases size with
    | none => cases h4
    | some size =>
      refine ⟨size, (key _ _ _ (by decide)).mp h1, (key _ _ _ (by decide)).mp h2, (key _ _ _ (by decide)).mp h3, h4, ?_, h6,
        rfl, rfl, rfl⟩
      cases cred with
      | some x => rw [Except.ok.inj h5]; exact .inl rfl
      | none =>
        simp only [clientCredentials, except_bind_ok, except_pure_ok] at h5
        obtain ⟨ty, h7, u, h8, p, h9, rfl⟩ := h5
        exact .inr ⟨rfl, (key _ _ _ (by decide)).mp h7, (key _ _ _ (by decide)).mp h8, (key _ _ _ (by decide)).mp h9⟩
  · rintro ⟨size, h1, h2, h3, h4, h5, h6, h7, h8, h9⟩
    refine ⟨_, (key _ _ _ (by decide)).mpr h1, _, (key _ _ _ (by decide)).mpr h2, _, (key _ _ _ (by decide)).mpr h3,
      a.keySize, h4, a.credentials, ?_, _, ⟨rfl, h6, rfl⟩, ?_⟩
    · rcases h5 with rfl | ⟨rfl, h10, h11, h12⟩
      · rfl
      · simp only [clientCredentials, except_bind_ok, except_pure_ok]
        exact ⟨_, (key _ _ _ (by decide)).mpr h10, _, (key _ _ _ (by decide)).mpr h11, _, (key _ _ _ (by decide)).mpr h12, rfl⟩
    · cases a
      dsimp only at h7 h8 h9 ⊢
      rw [h7, h8, h9]

/-- **C90**: without `KEY_SIZE` no client of the attribute authority can be made: TypeError. -/
theorem client_without_size (hU : U.Lawful) (c : Config) (hs : c.client.sections.get defaultSect = none) (connect : Connect)
    (cred : Option ClientCredentials) (h : ClientConfigured U c "KEY_SIZE" "AAUTH" none) :
    AClient.init U G.Key c connect cred = .error .typeError := by
  obtain ⟨_, t, ht⟩ := getConf_terminates hU c 0 "CLIENT_TYPE".toList false "AAUTH".toList
  obtain ⟨_, d, hd⟩ := getConf_terminates hU c 0 "SERVICE_DESCRIPTION".toList false "AAUTH".toList
  unfold AClient.init
  rw [ht]
  simp only [Bind.bind, Except.bind]
  rw [hd]
  dsimp only
  rw [(getConf_ascii hU c "KEY_SIZE".toList false "AAUTH".toList hs (by decide) none).mpr h]
  rfl

/-- **C90**: the same for clients of the policy authority, which need no key. -/
theorem pclient_init_iff (hU : U.Lawful) (c : Config) (hs : c.client.sections.get defaultSect = none) (connect : Connect)
    (uid : Option Str) (a : PClient) : PClient.init U c connect uid = .ok a ↔
      ClientConfigured U c "CLIENT_TYPE" "PAUTH" (some "JSONWSP".toList) ∧
      ClientConfigured U c "SERVICE_DESCRIPTION" "PAUTH" a.serviceDesc ∧ connect a.serviceDesc = .ok () ∧
      a.serviceUid = uid ∧ a.clientType = some "JSONWSP".toList ∧ a.cli = a.serviceDesc := by
  have key : ∀ (n s : String) (v : Option Str), n.toList.all isAscii = true →
      (getConf U c n.toList false s.toList = .ok v ↔ ClientConfigured U c n s v) :=
    fun n s v h => getConf_ascii hU c n.toList false s.toList hs h v
  unfold PClient.init
  simp only [except_bind_ok, except_pure_ok, makeCli_ok]
  constructor
  · rintro ⟨t, h1, d, h2, _, ⟨rfl, h6, rfl⟩, rfl⟩
    exact ⟨(key _ _ _ (by decide)).mp h1, (key _ _ _ (by decide)).mp h2, h6, rfl, rfl, rfl⟩
  · rintro ⟨h1, h2, h3, h4, h5, h6⟩
    refine ⟨_, (key _ _ _ (by decide)).mpr h1, _, (key _ _ _ (by decide)).mpr h2, _, ⟨rfl, h3, rfl⟩, ?_⟩
    cases a
    dsimp only at h4 h5 h6 ⊢
    rw [h4, h5, h6]

/-! ### C91: answers of the other methods -/

/-- **C91**: `info` and `trusted_attribute_authorities` return exactly the result of an answer with status 200. -/
theorem ask_iff (p : PClient) (reply : Option Str → Except PyExc (Response ρ)) (x : ρ) :
    (p.ask reply = .ok x ↔ ∃ r, reply p.cli = .ok r ∧ r.status = 200 ∧ r.result = some x) ∧
    (a.info reply = .ok x ↔ ∃ r, reply a.cli = .ok r ∧ r.status = 200 ∧ r.result = some x) := by
  have : ∀ r : Response ρ, plainResult r = .ok x ↔ r.status = 200 ∧ r.result = some x := by
    intro r
    unfold plainResult
    by_cases hs : r.status = 200
    · cases hr : r.result <;> simp [hs]
    · simp [hs]
  unfold PClient.ask AClient.info
  simp only [except_bind_ok, this, and_self]

/-- **C91**: their errors. -/
theorem ask_error (p : PClient) (reply : Option Str → Except PyExc (Response ρ)) (e : PyExc) :
    let Fails := fun (answer : Except PyExc (Response ρ)) => answer = .error e ∨ ∃ r, answer = .ok r ∧
      (r.status ≠ 200 ∧ e = .exception "Bad status in response." ∨ r.status = 200 ∧ r.result = none ∧ e = .keyError)
    (p.ask reply = .error e ↔ Fails (reply p.cli)) ∧ (a.info reply = .error e ↔ Fails (reply a.cli)) := by
  intro Fails
  have : ∀ answer : Except PyExc (Response ρ), (answer >>= plainResult) = .error e ↔ Fails answer := by
    intro answer
    cases answer with
    | error e' => simp [Fails, bind, Except.bind]
    | ok r =>
      have : (Except.ok r >>= plainResult : Except PyExc ρ) = plainResult r := rfl
      rw [this]
      unfold plainResult
      by_cases hs : r.status = 200
      · cases hr : r.result <;> simp [Fails, hs, hr, eq_comm]
      · simp [Fails, hs, eq_comm]
  exact ⟨this _, this _⟩

/-- **C91**: these methods report a fault as a KeyError: its text is lost. -/
theorem ask_fault (p : PClient) (reply : Option Str → Except PyExc (Response ρ)) (r : Response ρ) (h : reply p.cli = .ok r)
    (hs : r.status = 200) (hr : r.result = none) : p.ask reply = .error .keyError := by
  unfold PClient.ask plainResult
  rw [h]
  change (if r.status ≠ 200 then _ else _) = _
  rw [if_neg (not_not_intro hs), hr]

/-- **C91**: the policy authority's `update_service` is that of the attribute authority. -/
theorem pclient_update (p : PClient) (connect : Connect) (url clientType : Option Str) (p' : PClient) (o : Except PyExc Unit)
    (h : p.updateService connect url clientType = (p', o)) :
    p'.serviceDesc = url.or p.serviceDesc ∧ p'.clientType = clientType.or p.clientType ∧ p'.serviceUid = p.serviceUid ∧
    ((o = .ok () ∧ p'.cli = p'.serviceDesc ∧ p'.clientType = some "JSONWSP".toList ∧ connect p'.serviceDesc = .ok ()) ∨
     (∃ e, o = .error e ∧ p'.cli = p.cli ∧
       ((p'.clientType ≠ some "JSONWSP".toList) ∨ connect p'.serviceDesc = .error e))) := by
  unfold PClient.updateService makeCli at h
  dsimp only at h
  by_cases ht : clientType.or p.clientType = some "JSONWSP".toList
  · rw [if_pos ht] at h
    cases hc : connect (url.or p.serviceDesc) with
    | error e =>
      rw [hc] at h
      cases h
      exact ⟨rfl, rfl, rfl, .inr ⟨e, rfl, rfl, .inr hc⟩⟩
    | ok u =>
      rw [hc] at h
      cases h
      exact ⟨rfl, rfl, rfl, .inl ⟨rfl, rfl, ht, hc⟩⟩
  · rw [if_neg ht] at h
    cases h
    exact ⟨rfl, rfl, rfl, .inr ⟨_, rfl, rfl, .inl ht⟩⟩

/-- **C91**: `start_session` sends the uid of the client, and returns every answer, also one that refuses the session. -/
theorem start_answer {γ : Type} (p : PClient) (reply : Option Str → Option Str → γ → Except PyExc (Response ρ)) (certs : γ)
    (r : Response ρ) : p.startSession reply certs = .ok r ↔ reply p.cli p.serviceUid certs = .ok r := Iff.rfl

/-! ### Examples -/

/-- Keys that are numbers. -/
abbrev sampleKeys : Keys := ⟨Nat, fun n => Nat.toDigits 10 n, fun _ => 2048⟩

def sampleClientConfig : Config where
  client :=
    { sections := [("AAUTH".toList, [("client_type".toList, "JSONWSP".toList), ("key_size".toList, "2048".toList),
                    ("service_description".toList, "http://a".toList), ("cred_user".toList, "Dan".toList)]),
                   ("PAUTH".toList, [("client_type".toList, "JSONWSP".toList)])] }

def sampleClient : AClient Nat :=
  ⟨some "JSONWSP".toList, some "http://a".toList, 2048, none, ⟨none, some "Dan".toList, none⟩, some "http://a".toList⟩

example : AClient.init asciiUni Nat sampleClientConfig (fun _ => .ok ()) none = .ok sampleClient := by decide
example : AClient.init asciiUni Nat {} (fun _ => .ok ()) none = .error .typeError := by decide
example : PClient.init asciiUni sampleClientConfig (fun _ => .ok ()) none =
    .ok ⟨none, some "JSONWSP".toList, none, none⟩ := by decide

/-- A request that is accepted, one that is refused, an update that fails and another request. -/
def sampleCalls : List (ClientCall sampleKeys Nat) :=
  [.request (.ok 5) (fun _ => .ok ⟨200, none, some 1⟩) none none none,
   .request (.ok 6) (fun _ => .ok ⟨200, some (.ok "no"), none⟩) none none none,
   .update (fun _ => .ok ()) (some "http://b".toList) (some "SOAP".toList),
   .request (.ok 7) (fun _ => .ok ⟨500, none, some 1⟩) none none (some (8 : Nat))]

example : afterClientCalls (G := sampleKeys) sampleClient sampleCalls =
    { sampleClient with
      lastKey := some 5
      serviceDesc := some "http://b".toList
      clientType := some "SOAP".toList } := rfl

example : AcceptedWith (G := sampleKeys) sampleClient (sampleCalls[0]) (5 : Nat) :=
  ⟨.ok 5, _, none, none, none, 2048, rfl, .inr ⟨rfl, rfl, rfl⟩, _, rfl, rfl, rfl⟩

example : WellFormed (ρ := Nat) (fun _ => .ok ⟨200, none, some 1⟩) := by
  intro s r h _ hn
  cases h
  cases hn

end Verif.Props
