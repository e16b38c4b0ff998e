import Verif.Spec.ClientsLog
import Verif.Props.Clients

/-!
# What the clients record (C152)
-/

namespace Verif.Props

open Verif.Spec Proofs ClientM

variable {U : Uni} {G : Keys} {ρ γ : Type}

/-- What is shown of a client. -/
def AClient.shown {K : Type} (a : AClient K) : ClientView := ⟨a.clientType, a.serviceDesc, a.keySize, a.cli⟩

/-- What is shown of a client. -/
def PClient.shown (a : PClient) : ClientView := ⟨a.clientType, a.serviceDesc, 0, a.cli⟩

/-- Running a call: what is put out, and the client afterwards, also if it raises. -/
def ACall.run (a : AClient G.Key) : ACall G ρ → List ClientOut × AClient G.Key
  | .info reply => let r := AClient.infoLog reply a; (r.1, r.2.1)
  | .request generate reply names ids key => let r := AClient.requestLog G generate reply names ids key a; (r.1, r.2.1)
  | .update connect url clientType => let r := AClient.updateLog connect url clientType a; (r.1, r.2.1)

def PCall.run (a : PClient) : PCall ρ γ → List ClientOut × PClient
  | .info reply => let r := PClient.askLog "info" reply a; (r.1, r.2.1)
  | .trusted reply => let r := PClient.askLog "trusted_attribute_authorities" reply a; (r.1, r.2.1)
  | .start reply certs => let r := PClient.startLog reply certs a; (r.1, r.2.1)
  | .update connect url clientType => let r := PClient.updateLog connect url clientType a; (r.1, r.2.1)

/-- Running a history. -/
def runCalls {S C : Type} (run : S → C → List ClientOut × S) : S → List C → List ClientOut × S
  | a, [] => ([], a)
  | a, c :: cs => ((run a c).1 ++ (runCalls run (run a c).2 cs).1, (runCalls run (run a c).2 cs).2)

/-! ### Making clients -/

theorem client_bind_ok {S α β : Type} {m : ClientM S α} {f : α → ClientM S β} {a a' : S} {o : List ClientOut} {x : α}
    (h : m a = (o, a', .ok x)) : (m >>= f) a = (o ++ (f x a').1, (f x a').2) := by
  show ClientM.bind m f a = _
  unfold ClientM.bind
  rw [h]

theorem client_bind_error {S α β : Type} {m : ClientM S α} {f : α → ClientM S β} {a a' : S} {o : List ClientOut} {e : PyExc}
    (h : m a = (o, a', .error e)) : (m >>= f) a = (o, a', .error e) := by
  show ClientM.bind m f a = _
  unfold ClientM.bind
  rw [h]

theorem client_say {S β : Type} (l : Nat) (msg : Str) (f : Unit → ClientM S β) (a : S) :
    (say l msg >>= f) a = (.record l msg :: (f () a).1, (f () a).2) := client_bind_ok (o := [.record l msg]) rfl

theorem client_self {S β : Type} (f : S → ClientM S β) (a : S) : (self >>= f) a = f a a := client_bind_ok (o := []) rfl

theorem client_assign {S β : Type} (g : S → S) (f : Unit → ClientM S β) (a : S) : (assign g >>= f) a = f () (g a) :=
  client_bind_ok (o := []) rfl

theorem client_lift {S α β : Type} (x : Except PyExc α) (f : α → ClientM S β) (s : S) :
    (lift x >>= f) s = match x with | .ok a => f a s | .error e => ([], s, .error e) := by
  cases x with
  | ok a => exact client_bind_ok (o := []) rfl
  | error e => exact client_bind_error rfl

theorem client_call {S α β : Type} (endpoint : Option Str) (x : Except PyExc α) (f : α → ClientM S β) (s : S) :
    (call endpoint x >>= f) s =
      match x with
      | .ok a => (.send endpoint :: (f a s).1, (f a s).2)
      | .error e => ([.send endpoint], s, .error e) := by
  cases x with
  | ok a => exact client_bind_ok (o := [.send endpoint]) rfl
  | error e => exact client_bind_error rfl

theorem connectMsg_eq (desc : Option Str) :
    ClientOut.record 20 (connectMsg desc) = .record 20 ("Setting up JSONWSP client for service ".toList ++ orNone desc) := rfl

theorem unsupportedMsg_eq (t : Option Str) :
    ClientOut.record 40 (unsupportedMsg t) = .record 40 (orNone t ++ " client type is not yet supported.".toList) := rfl

theorem makeCliLog_run {S : Type} (connect : Connect) (clientType desc : Option Str) (s : S) :
    makeCliLog connect clientType desc s = ([connecting clientType desc], s, makeCli connect clientType desc) := by
  unfold makeCliLog makeCli connecting
  split
  · rw [client_say, client_lift, connectMsg_eq]
    cases connect desc <;> rfl
  · rw [client_say, unsupportedMsg_eq]
    rfl

theorem init_tail {α : Type} (connect : Connect) (t d : Option Str) (f : Option Str → α) :
    (makeCliLog connect t d >>= fun cli => pure (f cli) : ClientM Unit α) () =
      ([connecting t d], (), (makeCli connect t d).map f) := by
  cases h : makeCli connect t d with
  | ok cli =>
    rw [client_bind_ok (o := [connecting t d]) (x := cli) (a' := ()) (by rw [makeCliLog_run, h])]
    rfl
  | error e =>
    rw [client_bind_error (o := [connecting t d]) (e := e) (a' := ()) (by rw [makeCliLog_run, h])]
    rfl

/-- **C152**: making a client records exactly the attempt to connect, if the size of keys can be read, and nothing else; the
outcome is that without records (C90). -/
theorem aclient_init (hU : U.Lawful) (c : Config) (connect : Connect) (cred : Option ClientCredentials) {K : Type} :
    (AClient.initLog U K c connect cred ()).2.2 = AClient.init U K c connect cred ∧
    ∃ clientType desc size, getConf U c "CLIENT_TYPE".toList false "AAUTH".toList = .ok clientType ∧
      getConf U c "SERVICE_DESCRIPTION".toList false "AAUTH".toList = .ok desc ∧
      getConf U c "KEY_SIZE".toList false "AAUTH".toList = .ok size ∧
      (AClient.initLog U K c connect cred ()).1 = if (parseSize U size).isOk then [connecting clientType desc] else [] := by
  have tot := fun (n : Str) => (getConf_terminates hU c 0 n false "AAUTH".toList).2
  obtain ⟨t, et⟩ := tot "CLIENT_TYPE".toList
  obtain ⟨d, ed⟩ := tot "SERVICE_DESCRIPTION".toList
  obtain ⟨z, ez⟩ := tot "KEY_SIZE".toList
  have hc : ∃ x, clientCredentials U c cred = .ok x := by
    unfold clientCredentials
    cases cred with
    | some x => exact ⟨x, rfl⟩
    | none =>
      obtain ⟨x, ex⟩ := tot "CRED_TYPE".toList
      obtain ⟨y, ey⟩ := tot "CRED_USER".toList
      obtain ⟨w, ew⟩ := tot "CRED_PASS".toList
      rw [ex, ey, ew]
      exact ⟨_, rfl⟩
  obtain ⟨x, ex⟩ := hc
  unfold AClient.initLog AClient.init
  rw [et, ed, ez, ex]
  simp only [client_lift]
  simp only [bind, Except.bind]
  cases hp : parseSize U z with
  | error e => exact ⟨rfl, t, d, z, rfl, rfl, rfl, by rw [hp]; rfl⟩
  | ok n =>
    have h := init_tail connect t d (fun cli => (⟨t, d, n, none, x, cli⟩ : AClient K))
    simp only [bind] at h
    refine ⟨?_, t, d, z, rfl, rfl, rfl, ?_⟩
    · dsimp only
      rw [h]
      cases makeCli connect t d <;> rfl
    · dsimp only
      rw [h, hp]
      rfl

theorem pclient_init (hU : U.Lawful) (c : Config) (connect : Connect) (uid : Option Str) :
    (PClient.initLog U c connect uid ()).2.2 = PClient.init U c connect uid ∧
    ∃ clientType desc, getConf U c "CLIENT_TYPE".toList false "PAUTH".toList = .ok clientType ∧
      getConf U c "SERVICE_DESCRIPTION".toList false "PAUTH".toList = .ok desc ∧
      (PClient.initLog U c connect uid ()).1 = [connecting clientType desc] := by
  have tot := fun (n : Str) => (getConf_terminates hU c 0 n false "PAUTH".toList).2
  obtain ⟨t, et⟩ := tot "CLIENT_TYPE".toList
  obtain ⟨d, ed⟩ := tot "SERVICE_DESCRIPTION".toList
  unfold PClient.initLog PClient.init
  rw [et, ed]
  simp only [client_lift]
  rw [init_tail connect t d (fun cli => (⟨uid, t, d, cli⟩ : PClient))]
  refine ⟨?_, t, d, rfl, rfl, rfl⟩
  simp only [bind, Except.bind]
  cases makeCli connect t d <;> rfl

/-! ### Single calls -/

theorem makeCli_cases (connect : Connect) (t d : Option Str) :
    (t = some "JSONWSP".toList ∧ (connect d).isOk ∧ makeCli connect t d = .ok d) ∨
    (¬ (t = some "JSONWSP".toList ∧ (connect d).isOk) ∧ ∃ e, makeCli connect t d = .error e) := by
  unfold makeCli
  split
  · rename_i h
    cases hc : connect d with
    | ok u => exact .inl ⟨h, rfl, rfl⟩
    | error e => exact .inr ⟨fun h => (by cases h.2), e, rfl⟩
  · rename_i h
    exact .inr ⟨fun g => h g.1, _, rfl⟩

theorem update_tail {S : Type} (connect : Connect) (t d : Option Str) (set : Option Str → S → S) (a : S) :
    (makeCliLog connect t d >>= fun cli => assign (set cli) : ClientM S Unit) a =
      ([connecting t d], match makeCli connect t d with
        | .ok cli => (set cli a, .ok ())
        | .error e => (a, .error e)) := by
  cases h : makeCli connect t d with
  | ok cli =>
    rw [client_bind_ok (o := [connecting t d]) (x := cli) (a' := a) (by rw [makeCliLog_run, h])]
    rfl
  | error e =>
    rw [client_bind_error (o := [connecting t d]) (e := e) (a' := a) (by rw [makeCliLog_run, h])]

/-- **C152**: `update_service`. -/
theorem aclient_update {K : Type} (a : AClient K) (connect : Connect) (url t : Option Str) :
    AClient.updateLog connect url t a = (updateOut (AClient.shown a) url t, a.updateService connect url t) ∧
    AClient.shown (a.updateService connect url t).1 = (AClient.shown a).updated connect url t := by
  constructor
  · unfold AClient.updateLog AClient.updateService updateOut
    rw [client_say, client_assign, client_assign, client_self,
      update_tail connect _ _ (fun cli (a : AClient K) => { a with cli := cli })]
    dsimp only [AClient.shown]
    cases makeCli connect (t.or a.clientType) (url.or a.serviceDesc) <;> rfl
  · unfold AClient.updateService ClientView.updated AClient.shown
    dsimp only
    rcases makeCli_cases connect (t.or a.clientType) (url.or a.serviceDesc) with ⟨h1, h2, h3⟩ | ⟨h1, e, h3⟩
    · rw [h3, if_pos ⟨h1, h2⟩]
    · rw [h3, if_neg h1]

theorem pclient_updates (a : PClient) (connect : Connect) (url t : Option Str) :
    PClient.updateLog connect url t a = (updateOut (PClient.shown a) url t, a.updateService connect url t) ∧
    PClient.shown (a.updateService connect url t).1 = (PClient.shown a).updated connect url t := by
  constructor
  · unfold PClient.updateLog PClient.updateService updateOut
    rw [client_say, client_assign, client_assign, client_self,
      update_tail connect _ _ (fun cli (a : PClient) => { a with cli := cli })]
    dsimp only [PClient.shown]
    cases makeCli connect (t.or a.clientType) (url.or a.serviceDesc) <;> rfl
  · unfold PClient.updateService ClientView.updated PClient.shown
    dsimp only
    rcases makeCli_cases connect (t.or a.clientType) (url.or a.serviceDesc) with ⟨h1, h2, h3⟩ | ⟨h1, e, h3⟩
    · rw [h3, if_pos ⟨h1, h2⟩]
    · rw [h3, if_neg h1]

theorem callingMsg_eq (method : String) (desc : Option Str) :
    ClientOut.record 20 (callingMsg method desc) = announce method desc := rfl

/-- **C152**: `info`. -/
theorem aclient_info {K : Type} (a : AClient K) (reply : Option Str → Except PyExc (Response ρ)) :
    AClient.infoLog reply a = ([announce "info" a.serviceDesc, .send a.cli], a, a.info reply) := by
  unfold AClient.infoLog AClient.info
  rw [client_self, client_say, client_call, callingMsg_eq]
  cases reply a.cli <;> rfl

theorem pclient_ask (a : PClient) (method : String) (reply : Option Str → Except PyExc (Response ρ)) :
    PClient.askLog method reply a = ([announce method a.serviceDesc, .send a.cli], a, a.ask reply) := by
  unfold PClient.askLog PClient.ask
  rw [client_self, client_say, client_call, callingMsg_eq]
  cases reply a.cli <;> rfl

theorem pclient_start (a : PClient) (reply : Option Str → Option Str → γ → Except PyExc (Response ρ)) (certs : γ) :
    PClient.startLog reply certs a = ([announce "start_session" a.serviceDesc, .send a.cli], a, a.startSession reply certs) := by
  unfold PClient.startLog PClient.startSession
  rw [client_self, client_say, callingMsg_eq]
  rfl

theorem request_tail (a : AClient G.Key) (k : G.Key) (answer : Except PyExc (Response ρ)) :
    (call a.cli answer >>= fun r => AClient.takeLog k r : ClientM (AClient G.Key) ρ) a = ([.send a.cli], a.receive k answer) := by
  rw [client_call]
  unfold AClient.receive AClient.takeLog
  cases answer with
  | error e => rfl
  | ok r =>
    dsimp only
    by_cases hs : r.status = 200
    · rw [if_neg (by simp [hs]), if_neg (by simp [hs])]
      cases r.fault with
      | some f => cases f <;> rfl
      | none => rfl
    · rw [if_pos hs, if_pos hs]
      rfl

/-- **C152**: `attribute_request`: the client and the outcome are those without records (C58, C88, C89). -/
theorem aclient_request (a : AClient G.Key) (generate : Except PyExc G.Key) (reply : SentRequest → Except PyExc (Response ρ))
    (names ids : Option (List (Option Str))) (key : Option G.Key) :
    AClient.requestLog G generate reply names ids key a =
      ((ACall.out (AClient.shown a) (.request generate reply names ids key)).1, (a.request G generate reply names ids key).1,
        (a.request G generate reply names ids key).2.2) := by
  unfold AClient.requestLog
  rw [client_self]
  cases key with
  | none =>
    cases generate with
    | error e =>
      rw [client_bind_error (o := [.record 20 ("Generating session key of size ".toList ++ decimal a.keySize ++
        " for attribute request with ".toList ++ showOpt a.serviceDesc)]) (a' := a) (e := e) rfl]
      rfl
    | ok k =>
      rw [client_bind_ok (o := [.record 20 ("Generating session key of size ".toList ++ decimal a.keySize ++
        " for attribute request with ".toList ++ showOpt a.serviceDesc)]) (a' := a) (x := (k, a.keySize)) rfl]
      dsimp only
      rw [client_say, client_say, request_tail, callingMsg_eq]
      rfl
  | some k =>
    rw [client_bind_ok (o := []) (a' := a) (x := (k, G.bits k)) rfl]
    dsimp only
    rw [client_say, client_say, request_tail, callingMsg_eq]
    rfl

/-! ### Histories -/

theorem acall_out (a : AClient G.Key) (q : ACall G ρ) :
    (ACall.run a q).1 = (q.out (AClient.shown a)).1 ∧ AClient.shown (ACall.run a q).2 = (q.out (AClient.shown a)).2 := by
  cases q with
  | info reply =>
    simp only [ACall.run, aclient_info]
    exact ⟨rfl, rfl⟩
  | request generate reply names ids key =>
    unfold ACall.run
    dsimp only
    rw [aclient_request]
    refine ⟨rfl, ?_⟩
    show AClient.shown (a.request G generate reply names ids key).1 = AClient.shown a
    unfold AClient.request
    cases a.chooseKey G generate key with
    | error e => rfl
    | ok x =>
      dsimp only
      unfold AClient.receive
      cases reply ⟨a.cli, a.credentials, G.pem x.1, "RSA".toList, x.2, names, ids⟩ with
      | error e => rfl
      | ok r =>
        dsimp only
        split
        · rfl
        · cases r.fault with
          | some f => cases f <;> rfl
          | none => rfl
  | update connect url t =>
    simp only [ACall.run, (aclient_update a connect url t).1]
    exact ⟨rfl, (aclient_update a connect url t).2⟩

theorem pcall_out (a : PClient) (q : PCall ρ γ) :
    (PCall.run a q).1 = (q.out (PClient.shown a)).1 ∧ PClient.shown (PCall.run a q).2 = (q.out (PClient.shown a)).2 := by
  cases q with
  | info reply =>
    simp only [PCall.run, pclient_ask]
    exact ⟨rfl, rfl⟩
  | trusted reply =>
    simp only [PCall.run, pclient_ask]
    exact ⟨rfl, rfl⟩
  | start reply certs =>
    simp only [PCall.run, pclient_start]
    exact ⟨rfl, rfl⟩
  | update connect url t =>
    simp only [PCall.run, (pclient_updates a connect url t).1]
    exact ⟨rfl, (pclient_updates a connect url t).2⟩

theorem calls_out {S C : Type} {run : S → C → List ClientOut × S} {out : ClientView → C → List ClientOut × ClientView} {view : S → ClientView}
    (h : ∀ a q, (run a q).1 = (out (view a) q).1 ∧ view (run a q).2 = (out (view a) q).2) :
    ∀ (qs : List C) (a : S), (runCalls run a qs).1 = (outs out (view a) qs).1 ∧
      view (runCalls run a qs).2 = (outs out (view a) qs).2 := by
  intro qs
  induction qs with
  | nil => intro a; exact ⟨rfl, rfl⟩
  | cons q qs ih =>
    intro a
    unfold runCalls outs
    dsimp only
    rw [(h a q).1, (ih _).1, (ih _).2, (h a q).2]
    exact ⟨rfl, rfl⟩

/-- **C152**: the records and requests of any history of calls depend on the type, the description and the key size of the client
and on what `update_service` is given only, and on the public keys: not on credentials, answers, attributes asked for and
private keys. -/
theorem aclient_out (a : AClient G.Key) (qs : List (ACall G ρ)) :
    (runCalls ACall.run a qs).1 = (outs ACall.out (AClient.shown a) qs).1 := (calls_out acall_out qs a).1

/-- **C152**: the same for the client of policy authorities: certificates and the uid of the service are not recorded. -/
theorem pclient_out (a : PClient) (qs : List (PCall ρ γ)) :
    (runCalls PCall.run a qs).1 = (outs PCall.out (PClient.shown a) qs).1 := (calls_out pcall_out qs a).1

/-- **C152**: two users of the same service leave the same log. -/
theorem credentials_unrecorded (a : AClient G.Key) (cred : ClientCredentials) (last : Option G.Key) (qs : List (ACall G ρ)) :
    (runCalls ACall.run { a with credentials := cred, lastKey := last } qs).1 = (runCalls ACall.run a qs).1 := by
  rw [aclient_out, aclient_out]
  rfl

/-! ### Which service is named -/

theorem honest_nil : Honest [] := fun pre endpoint post h => by cases pre <;> cases h

theorem honest_append {l l' : List ClientOut} (h : Honest l) (h' : Honest l') : Honest (l ++ l') := by
  intro pre endpoint post e
  rcases List.append_eq_append_iff.1 e with ⟨m, rfl, e'⟩ | ⟨m, rfl, e'⟩
  · obtain ⟨pre', method, rfl⟩ := h' m endpoint post e'
    exact ⟨l ++ pre', method, by rw [List.append_assoc]⟩
  · cases m with
    | nil =>
      obtain ⟨pre', method, e''⟩ := h' [] endpoint post e'.symm
      cases pre' <;> cases e''
    | cons x m =>
      obtain ⟨rfl, e'⟩ := List.cons.inj e'
      exact h pre endpoint m rfl

theorem honest_records {l : List ClientOut} (h : ∀ o ∈ l, ∀ endpoint, o ≠ .send endpoint) : Honest l := fun pre endpoint post e =>
  absurd rfl (h (.send endpoint) (by rw [e]; simp) endpoint)

theorem honest_call (method : String) (desc : Option Str) : Honest [announce method desc, .send desc] := by
  intro pre endpoint post e
  cases pre with
  | nil => cases e
  | cons x pre =>
    obtain ⟨rfl, e⟩ := List.cons.inj e
    cases pre with
    | nil =>
      cases e
      exact ⟨[], method, rfl⟩
    | cons y pre => cases pre <;> cases e

theorem honest_update (s : ClientView) (url t : Option Str) : Honest (updateOut s url t) := by
  refine honest_records (fun o ho endpoint => ?_)
  unfold updateOut connecting at ho
  rcases List.mem_cons.1 ho with rfl | ho
  · exact fun h => (by cases h)
  · rw [List.mem_singleton.1 ho]
    split <;> exact fun h => (by cases h)

theorem calls_honest {C : Type} {out : ClientView → C → List ClientOut × ClientView} {connects : ClientView → C → Prop}
    (h : ∀ s q, s.desc = s.cli → connects s q → Honest (out s q).1 ∧ (out s q).2.desc = (out s q).2.cli) :
    ∀ (qs : List C) (s : ClientView), s.desc = s.cli → AllConnect out connects s qs → Honest (outs out s qs).1 := by
  intro qs
  induction qs with
  | nil => intro s _ _; exact honest_nil
  | cons q qs ih =>
    intro s hs hc
    obtain ⟨h1, h2⟩ := h s q hs hc.1
    exact honest_append h1 (ih _ h2 hc.2)

theorem update_honest (s : ClientView) (connect : Connect) (url t : Option Str)
    (h : t.or s.clientType = some "JSONWSP".toList ∧ (connect (url.or s.desc)).isOk) :
    (s.updated connect url t).desc = (s.updated connect url t).cli := by
  unfold ClientView.updated
  rw [if_pos h]

/-- **C152**: as long as no call of `update_service` fails every request is sent to the service named in the record before it. -/
theorem aclient_honest (a : AClient G.Key) (qs : List (ACall G ρ)) (h : a.serviceDesc = a.cli)
    (hc : AllConnect ACall.out ACall.Connects (AClient.shown a) qs) : Honest (runCalls ACall.run a qs).1 := by
  rw [aclient_out]
  refine calls_honest (fun s q hs hq => ?_) qs _ h hc
  cases q with
  | info reply =>
    refine ⟨?_, hs⟩
    unfold ACall.out
    rw [← hs]
    exact honest_call _ _
  | request generate reply names ids key =>
    refine ⟨?_, hs⟩
    unfold ACall.out
    rw [← hs]
    refine honest_append (honest_records (fun o ho endpoint => ?_)) ?_
    · split at ho
      · rw [List.mem_singleton.1 ho]
        exact fun h => (by cases h)
      · cases ho
    · split
      · exact honest_nil
      · exact honest_append (l := [_]) (honest_records (fun o ho endpoint => by
          rw [List.mem_singleton.1 ho]
          exact fun h => (by cases h))) (honest_call _ _)
  | update connect url t => exact ⟨honest_update s url t, update_honest s connect url t hq⟩

theorem pclient_honest (a : PClient) (qs : List (PCall ρ γ)) (h : a.serviceDesc = a.cli)
    (hc : AllConnect PCall.out PCall.Connects (PClient.shown a) qs) : Honest (runCalls PCall.run a qs).1 := by
  rw [pclient_out]
  refine calls_honest (fun s q hs hq => ?_) qs _ h hc
  cases q with
  | update connect url t => exact ⟨honest_update s url t, update_honest s connect url t hq⟩
  | _ =>
    refine ⟨?_, hs⟩
    unfold PCall.out
    rw [← hs]
    exact honest_call _ _

/-- A new client names the service it is connected to. -/
theorem new_honest {K : Type} {c : Config} {connect : Connect} {cred : Option ClientCredentials} {a : AClient K}
    (h : AClient.init U K c connect cred = .ok a) : a.serviceDesc = a.cli := by
  unfold AClient.init at h
  simp only [except_bind_ok] at h
  obtain ⟨t, _, d, _, z, _, n, _, x, _, cli, hcli, h⟩ := h
  cases h
  rcases makeCli_cases connect t d with ⟨_, _, e⟩ | ⟨_, _, e⟩
  · rw [e] at hcli
    exact Except.ok.inj hcli
  · rw [e] at hcli
    cases hcli

/-- **C152**: after a failed `update_service` the log names the new service while requests, with the credentials in them, go to
the old one. -/
theorem misnamed (a : AClient G.Key) (connect : Connect) (url : Option Str) (e : PyExc) (reply : Option Str → Except PyExc (Response ρ))
    (h : connect (url.or a.serviceDesc) = .error e) :
    ∃ r, (runCalls ACall.run a [.update connect url none, .info reply]).1 =
      [.record 20 "Updating service for change of url and/or client type.".toList, r,
        announce "info" (url.or a.serviceDesc), .send a.cli] := by
  rw [aclient_out]
  refine ⟨connecting a.clientType (url.or a.serviceDesc), ?_⟩
  have hcli : ((AClient.shown a).updated connect url none).cli = a.cli := by
    unfold ClientView.updated AClient.shown
    rw [if_neg (fun g => by rw [show connect (url.or a.serviceDesc) = _ from h] at g; cases g.2)]
  show updateOut _ _ _ ++ ([announce "info" _, .send ((AClient.shown a).updated connect url none).cli] ++ []) = _
  rw [hcli]
  rfl

/-! ### Examples -/

/-- Keys that are their public text, of 8 bits per character. -/
def textKeys : Keys := ⟨Str, id, fun k => 8 * k.length⟩

/-- A client of the service `old`. -/
def oldClient : AClient textKeys.Key :=
  ⟨some "JSONWSP".toList, some "old".toList, 2048, none, ⟨some "0".toList, some "ann".toList, some "secret".toList⟩, some "old".toList⟩

/-- A request with a new key, then one with that key; a service that is not there, and a request. -/
example : (runCalls (ACall.run (G := textKeys) (ρ := Unit)) oldClient
      [.request (.ok "PEM\n".toList) (fun _ => .ok ⟨200, none, some ()⟩) none none none,
        .request (.error .valueError) (fun _ => .ok ⟨500, none, none⟩) none none (some "PEM\n".toList),
        .update (fun _ => .error .keyError) (some "new".toList) none, .info (fun _ => .ok ⟨200, none, some ()⟩)]).1 =
    [.record 20 "Generating session key of size 2048 for attribute request with old".toList,
      .record 20 "Public session key is b'PEM\\n'".toList, .record 20 "Calling attribute_request method for service old".toList,
      .send (some "old".toList), .record 20 "Public session key is b'PEM\\n'".toList,
      .record 20 "Calling attribute_request method for service old".toList, .send (some "old".toList),
      .record 20 "Updating service for change of url and/or client type.".toList,
      .record 20 "Setting up JSONWSP client for service new".toList, .record 20 "Calling info method for service new".toList,
      .send (some "old".toList)] := by decide +kernel

/-- That log is not honest, and it is if the service can be reached. -/
example : Honest (runCalls (ACall.run (G := textKeys) (ρ := Unit)) oldClient
    [.update (fun _ => .ok ()) (some "new".toList) none, .info (fun _ => .ok ⟨200, none, some ()⟩)]).1 :=
  aclient_honest _ _ rfl ⟨⟨rfl, rfl⟩, trivial, trivial⟩

example : ¬ Honest (runCalls (ACall.run (G := textKeys) (ρ := Unit)) oldClient
    [.update (fun _ => .error .keyError) (some "new".toList) none, .info (fun _ => .ok ⟨200, none, some ()⟩)]).1 := by
  obtain ⟨r, h⟩ := misnamed (ρ := Unit) oldClient (fun _ => .error .keyError) (some "new".toList) .keyError
    (fun _ => .ok ⟨200, none, some ()⟩) rfl
  rw [h]
  intro hh
  obtain ⟨pre', method, e⟩ := hh [_, r, announce "info" (some "new".toList)] (some "old".toList) [] rfl
  have e := congrArg List.getLast? e
  simp only [List.getLast?_append, List.getLast?_singleton] at e
  have e : announce "info" (some "new".toList) = announce method (some "old".toList) := by simpa using e
  unfold announce at e
  have e := congrArg List.reverse (ClientOut.record.inj e).2
  simp only [List.reverse_append, orNone, Option.getD_some] at e
  exact absurd (List.cons.inj e).1 (by decide)

end Verif.Props
