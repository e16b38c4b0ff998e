import Verif.Spec.AAuthGui
import Verif.Props.EndToEnd

/-!
# The attribute authority demo (C101–C103)
-/

namespace Verif.Props

open Proofs Spec

variable {U : Uni} {X : Crypto} {G : Keys}

/-! ### C101: requests -/

/-- The client of a window after `update`, and whether it could be made. -/
theorem update_effect (g : AAuthGui G) (connect : Connect) :
    ∃ a o, g.update connect = ({ g with client := a }, o) ∧ a.credentials = g.client.credentials ∧
      a.lastKey = g.client.lastKey ∧ a.keySize = g.client.keySize ∧ a.clientType = g.client.clientType ∧
      a.serviceDesc = some g.desc ∧
      ((g.client.serviceDesc = some g.desc ∧ a = g.client ∧ o = .ok ()) ∨
       (g.client.serviceDesc ≠ some g.desc ∧
        ((o = .ok () ∧ a.cli = some g.desc ∧ g.client.clientType = some "JSONWSP".toList ∧ connect (some g.desc) = .ok ()) ∨
         (∃ e, o = .error e ∧ a.cli = g.client.cli ∧
          (g.client.clientType ≠ some "JSONWSP".toList ∨ connect (some g.desc) = .error e))))) := by
  unfold AAuthGui.update
  by_cases hd : g.client.serviceDesc = some g.desc
  · rw [if_neg (fun h => h hd)]
    exact ⟨g.client, .ok (), rfl, rfl, rfl, rfl, rfl, hd, .inl ⟨hd, rfl, rfl⟩⟩
  · rw [if_pos hd]
    obtain ⟨h1, h2, h3, h4, h5, h6⟩ := update_iff (a := g.client) connect (some g.desc) none _ _ rfl
    have h1' : (g.client.updateService connect (some g.desc) none).1.serviceDesc = some g.desc := h1
    have h2' : (g.client.updateService connect (some g.desc) none).1.clientType = g.client.clientType := h2
    refine ⟨_, _, rfl, h3, h4, h5, h2', h1', .inr ⟨hd, ?_⟩⟩
    rcases h6 with ⟨ho, hc, ht, hk⟩ | ⟨e, ho, hc, hk⟩
    · exact .inl ⟨ho, hc.trans h1', h2' ▸ ht, h1' ▸ hk⟩
    · exact .inr ⟨e, ho, hc, h1' ▸ h2' ▸ hk⟩

/-- A single request: what is kept, what is sent, and what it means that it returns. -/
theorem one_request {a a' : AClient G.Key} {t : Attempt G} {names ids : Option (List (Option Str))} {key : Option G.Key}
    {s : Option SentRequest} {o : Except PyExc (Except PyExc Bytes)}
    (h : a.request G t.generate t.reply names ids key = (a', s, o)) :
    (∃ l, a' = { a with lastKey := l }) ∧
    (∀ s', s = some s' → s'.endpoint = a.cli ∧ s'.credentials = a.credentials ∧ s'.names = names ∧ s'.ids = ids ∧
      s'.cipher = "RSA".toList ∧
      ∃ k, s'.publicKey = G.pem k ∧ ∀ k', key = some k' → k = k') ∧
    ∀ x, o = .ok x → ∃ s' k r, s = some s' ∧ a'.lastKey = some k ∧ s'.publicKey = G.pem k ∧ t.reply s' = .ok r ∧
      r.status = 200 ∧ r.fault = none ∧ r.result = some x := by
  rcases request_split (a := a) (generate := t.generate) (reply := t.reply) (names := names) (ids := ids) (key := key) with
    ⟨e, _, _, he⟩ | ⟨k, n, hk, he⟩
  · rw [h] at he
    cases he
    exact ⟨⟨a.lastKey, rfl⟩, fun _ h => (by cases h), fun _ h => (by cases h)⟩
  · rw [h] at he
    obtain ⟨h1, h2, h3⟩ := receive_iff (a := a) k (t.reply (requestWith a names ids k n))
    cases he
    refine ⟨?_, ?_, ?_⟩
    · by_cases hacc : Accepts (t.reply (requestWith a names ids k n))
      · exact ⟨some k, h1 hacc⟩
      · exact ⟨a.lastKey, h2 hacc⟩
    · intro s' hs
      cases hs
      refine ⟨rfl, rfl, rfl, rfl, rfl, k, rfl, fun k' hk' => ?_⟩
      rcases hk with ⟨h, _⟩ | ⟨h, _⟩
      · exact Option.some.inj (h.symm.trans hk')
      · rw [h] at hk'; cases hk'
    · intro x hx
      obtain ⟨r, hr, hs, hf, hres⟩ := (h3 x).mp hx
      exact ⟨_, k, r, rfl, by rw [h1 ⟨r, hr, hs, hf⟩], rfl, hr, hs, hf, hres⟩

/-- The loop: what is kept, what is sent, and where the attachment comes from. -/
theorem fetch_effect {names ids : Option (List (Option Str))} {key : Option G.Key} (ts : List (Attempt G)) :
    ∀ (a : AClient G.Key) (r : Except PyExc Bytes) (a' : AClient G.Key) (sent : List SentRequest)
      (o : Option (Except PyExc Bytes)), AAuthGui.fetch names ids key a r ts = (a', sent, o) →
    (∃ l, a' = { a with lastKey := l }) ∧
    (∀ s ∈ sent, s.endpoint = a.cli ∧ s.credentials = a.credentials ∧ s.names = names ∧ s.ids = ids ∧ s.cipher = "RSA".toList ∧
      ∃ k, s.publicKey = G.pem k ∧ ∀ k', key = some k' → k = k') ∧
    ∀ b, o = some (.ok b) → (r = .ok b ∧ sent = [] ∧ a' = a) ∨
      ∃ t ∈ ts, ∃ s k, sent.getLast? = some s ∧ a'.lastKey = some k ∧ s.publicKey = G.pem k ∧ AnsweredWith t.reply s b := by
  induction ts with
  | nil =>
    intro a r a' sent o h
    cases r with
    | ok b =>
      rw [AAuthGui.fetch] at h
      cases h
      exact ⟨⟨_, rfl⟩, fun _ h => (by cases h), fun b' hb => .inl (by cases hb; exact ⟨rfl, rfl, rfl⟩)⟩
    | error e =>
      rw [AAuthGui.fetch] at h
      split at h <;> cases h <;> exact ⟨⟨_, rfl⟩, fun _ h => (by cases h), fun b' hb => (by cases hb)⟩
  | cons t ts ih =>
    intro a r a' sent o h
    cases r with
    | ok b =>
      rw [AAuthGui.fetch] at h
      cases h
      exact ⟨⟨_, rfl⟩, fun _ h => (by cases h), fun b' hb => .inl (by cases hb; exact ⟨rfl, rfl, rfl⟩)⟩
    | error e =>
      rw [AAuthGui.fetch] at h
      split at h
      · dsimp only at h
        generalize hq : a.request G t.generate t.reply names ids key = q at h
        obtain ⟨a1, s1, o1⟩ := q
        obtain ⟨⟨l, h1⟩, h2, h3⟩ := one_request hq
        cases o1 with
        | error e' =>
          cases h
          refine ⟨⟨l, h1⟩, fun s hs => h2 s (Option.mem_toList.mp hs), fun b' hb => (by cases hb)⟩
        | ok x =>
          dsimp only at h
          generalize hf : AAuthGui.fetch names ids key a1 x ts = f at h
          obtain ⟨a2, s2, o2⟩ := f
          obtain ⟨⟨l', i1⟩, i2, i3⟩ := ih a1 x a2 s2 o2 hf
          cases h
          refine ⟨⟨l', by rw [i1, h1]⟩, ?_, ?_⟩
          · intro s hs
            rcases List.mem_append.mp hs with hs | hs
            · exact h2 s (Option.mem_toList.mp hs)
            · have := i2 s hs
              rw [h1] at this
              exact this
          · intro b hb
            obtain ⟨s', k, rr, hs', hk, hp, hr, hst, hfa, hres⟩ := h3 x rfl
            rcases i3 b hb with ⟨rfl, rfl, rfl⟩ | ⟨t', ht', s', k', j1, j2, j3, j4⟩
            · refine .inr ⟨t, List.mem_cons_self, s', k, ?_, hk, hp, rr, hr, hst, hfa, hres⟩
              rw [hs']
              rfl
            · refine .inr ⟨t', List.mem_cons_of_mem _ ht', s', k', ?_, j2, j3, j4⟩
              rw [List.getLast?_append, j1]
              rfl
      · cases h
        exact ⟨⟨_, rfl⟩, fun _ h => (by cases h), fun b' hb => (by cases hb)⟩

/-- What is done with an attachment. -/
theorem receive_attachment (g : AAuthGui G) (b : Bytes) (k : G.Key) (h : g.client.lastKey = some k) :
    (∃ e, AttCert.decode X b false = .error e ∧
      g.receive X b = ({ g with key := some k, keyShown := some k, raw := some b }, .raised e)) ∨
    ∃ c r, AttCert.decode X b false = .ok (c, r) ∧ (g.receive X b).1 = { g with
      key := some k, keyShown := some k, raw := some b, ac := some c, result := .attachment b, view := .hex b } ∧
      ((g.receive X b).2 = .done ∨ (∃ algo, c.signature = some ⟨algo, none⟩) ∧ (g.receive X b).2 = .raised .typeError) := by
  unfold AAuthGui.receive
  rw [h]
  dsimp only
  cases hd : AttCert.decode X b false with
  | error e => exact .inl ⟨e, rfl, rfl⟩
  | ok cr =>
    obtain ⟨c, r⟩ := cr
    refine .inr ⟨c, r, rfl, rfl, ?_⟩
    dsimp only
    unfold AAuthGui.treeError
    split
    · rename_i e he
      split at he
      · rename_i algo hc
        cases he
        exact .inr ⟨⟨algo, hc⟩, rfl⟩
      · cases he
    · exact .inl rfl

/-- Where requests of a window go. -/
def Destination (g : AAuthGui G) : Option Str := if g.client.serviceDesc = some g.desc then g.client.cli else some g.desc

/-- The effect of asking for a certificate. -/
theorem request_effect (g g' : AAuthGui G) (connect : Connect) (first : Attempt G) (more : List (Attempt G))
    (sent : List SentRequest) (o : CommandEnd) (h : g.request X connect first more = (g', sent, o)) :
    g'.client.serviceDesc = some g.desc ∧ g'.client.clientType = g.client.clientType ∧
    (g'.client.cli = Destination g ∨ g'.client.cli = g.client.cli ∧ sent = [] ∧ (∃ e, o = .raised e) ∧
      (g.client.clientType ≠ some "JSONWSP".toList ∨ ∃ e, connect (some g.desc) = .error e)) ∧
    (∀ s ∈ sent, s.endpoint = Destination g ∧ Carries g s) ∧
    ((∃ client result, g' = { g with client := client, result := result } ∧ (result = g.result ∨ ∃ e, result = .error e)) ∨
     ∃ t ∈ first :: more, ∃ s b k, sent.getLast? = some s ∧ AnsweredWith t.reply s b ∧ s.publicKey = G.pem k ∧
       ((∃ e client, AttCert.decode X b false = .error e ∧ o = .raised e ∧
          g' = { g with client := client, key := some k, keyShown := some k, raw := some b }) ∨
        ∃ c r client, AttCert.decode X b false = .ok (c, r) ∧
          (o = .done ∨ o = .raised .typeError ∧ ∃ algo, c.signature = some ⟨algo, none⟩) ∧ g' = { g with
            client := client, key := some k, keyShown := some k, raw := some b, ac := some c, result := .attachment b
            view := .hex b })) := by
  obtain ⟨a, u, hu, hcr, hlk, hks, hct, hsd, hcli⟩ := update_effect g connect
  unfold AAuthGui.request at h
  rw [hu] at h
  cases u with
  | error e =>
    cases h
    refine ⟨hsd, hct, .inr ?_, fun _ h => (by cases h), .inl ⟨_, _, rfl, .inl rfl⟩⟩
    rcases hcli with ⟨_, _, h⟩ | ⟨_, ⟨h, _⟩ | ⟨e', _, h1, h2⟩⟩
    · cases h
    · cases h
    · refine ⟨h1, rfl, ⟨e, rfl⟩, ?_⟩
      rcases h2 with h2 | h2
      · exact .inl h2
      · exact .inr ⟨_, h2⟩
  | ok u =>
    have hdest : a.cli = Destination g := by
      unfold Destination
      rcases hcli with ⟨h1, h2, _⟩ | ⟨h1, ⟨_, h2, _⟩ | ⟨_, h2, _⟩⟩
      · rw [if_pos h1, h2]
      · rw [if_neg h1, h2]
      · cases h2
    dsimp only at h
    generalize hq : ({ a with credentials := ⟨some "0".toList, some g.username, some g.password⟩ } : AClient G.Key).request G
      first.generate first.reply (some (g.names.map some)) (some (g.ids.map some)) g.key = q at h
    obtain ⟨a1, s1, o1⟩ := q
    obtain ⟨⟨l, h1⟩, h2, h3⟩ := one_request hq
    have hfirst : ∀ s ∈ s1.toList, s.endpoint = Destination g ∧ Carries g s := by
      intro s hs
      obtain ⟨e1, e2, e3, e4, e6, e5⟩ := h2 s (Option.mem_toList.mp hs)
      exact ⟨e1.trans hdest, by rw [e2], by rw [e2], e3, e4, e6, e5⟩
    cases o1 with
    | error e =>
      cases h
      subst h1
      exact ⟨hsd, hct, .inl hdest, hfirst, .inl ⟨_, _, rfl, .inr ⟨e, rfl⟩⟩⟩
    | ok x =>
      dsimp only at h
      generalize hf : AAuthGui.fetch (some (g.names.map some)) (some (g.ids.map some)) g.key a1 x more = f at h
      obtain ⟨a2, s2, o2⟩ := f
      obtain ⟨⟨l', i1⟩, i2, i3⟩ := fetch_effect more a1 x a2 s2 o2 hf
      have hall : ∀ s ∈ s1.toList ++ s2, s.endpoint = Destination g ∧ Carries g s := by
        intro s hs
        rcases List.mem_append.mp hs with hs | hs
        · exact hfirst s hs
        · obtain ⟨e1, e2, e3, e4, e6, e5⟩ := i2 s hs
          rw [h1] at e1 e2
          exact ⟨e1.trans hdest, by rw [e2], by rw [e2], e3, e4, e6, e5⟩
      have hk1 : a2.serviceDesc = some g.desc := by rw [i1, h1]; exact hsd
      have hk2 : a2.clientType = g.client.clientType := by rw [i1, h1]; exact hct
      have hk3 : a2.cli = Destination g := by rw [i1, h1]; exact hdest
      cases o2 with
      | none =>
        cases h
        exact ⟨hk1, hk2, .inl hk3, hall, .inl ⟨_, _, rfl, .inl rfl⟩⟩
      | some y =>
        cases y with
        | error e =>
          cases h
          exact ⟨hk1, hk2, .inl hk3, hall, .inl ⟨_, _, rfl, .inl rfl⟩⟩
        | ok b =>
          dsimp only at h
          have hsrc : ∃ t ∈ first :: more, ∃ s k, (s1.toList ++ s2).getLast? = some s ∧ a2.lastKey = some k ∧
              s.publicKey = G.pem k ∧ AnsweredWith t.reply s b := by
            rcases i3 b rfl with ⟨rfl, rfl, rfl⟩ | ⟨t, ht, s, k, j1, j2, j3, j4⟩
            · obtain ⟨s', k, rr, hs', hk, hp, hr, hst, hfa, hres⟩ := h3 _ rfl
              exact ⟨first, List.mem_cons_self, s', k, by rw [hs']; rfl, hk, hp, rr, hr, hst, hfa, hres⟩
            · exact ⟨t, List.mem_cons_of_mem _ ht, s, k, by rw [List.getLast?_append, j1]; rfl, j2, j3, j4⟩
          obtain ⟨t, ht, s, k, j1, j2, j3, j4⟩ := hsrc
          rcases receive_attachment (X := X) { g with client := a2 } b k j2 with
            ⟨e, hd, hr⟩ | ⟨c, r, hd, hr, ho⟩
          · rw [hr] at h
            cases h
            exact ⟨hk1, hk2, .inl hk3, hall, .inr ⟨t, ht, s, b, k, j1, j4, j3, .inl ⟨e, a2, hd, rfl, rfl⟩⟩⟩
          · cases h
            rw [hr]
            refine ⟨hk1, hk2, .inl hk3, hall, .inr ⟨t, ht, s, b, k, j1, j4, j3, .inr ⟨c, r, a2, hd, ?_, rfl⟩⟩⟩
            rcases ho with ho | ⟨ho, ho'⟩
            · exact .inl ho
            · exact .inr ⟨ho', ho⟩

/-- **C101**: every request carries what is in the window when the button is pressed, and goes to one place. -/
theorem step_sent (g : AAuthGui G) (e : AAuthGui.Event G) (s : SentRequest) (h : s ∈ (g.step U X e).2.1) :
    s.endpoint = Destination g ∧ Carries g s := by
  cases e with
  | request connect first more => exact (request_effect g (g.request X connect first more).1 connect first more _ _ rfl).2.2.2.1 s h
  | _ => cases h

/-- The services an event may connect to can be reached. -/
def Reachable : AAuthGui.Event G → Prop
  | .info connect _ => ∀ d, connect d = .ok ()
  | .request connect _ _ => ∀ d, connect d = .ok ()
  | _ => True

theorem inSync_destination {g : AAuthGui G} (h : InSync g.client) : Destination g = some g.desc := by
  unfold Destination
  split
  · rename_i hd
    exact h.trans hd
  · rfl

theorem info_client (g : AAuthGui G) (connect : Connect) (reply : Option Str → Except PyExc (Response Str)) :
    ∃ result, (g.info connect reply).1 = { (g.update connect).1 with result := result } := by
  unfold AAuthGui.info
  generalize g.update connect = u
  obtain ⟨g1, o⟩ := u
  cases o with
  | error e => exact ⟨g1.result, rfl⟩
  | ok u =>
    dsimp only
    split
    · exact ⟨_, rfl⟩
    · exact ⟨_, rfl⟩

/-- The client after an event is in step with its description, if it was and services can be reached. -/
theorem step_inSync (g : AAuthGui G) (e : AAuthGui.Event G) (ht : g.client.clientType = some "JSONWSP".toList)
    (hs : InSync g.client) (hr : Reachable e) :
    (g.step U X e).1.client.clientType = some "JSONWSP".toList ∧ InSync (g.step U X e).1.client := by
  have keep : ∀ g' : AAuthGui G, g'.client = g.client →
      g'.client.clientType = some "JSONWSP".toList ∧ InSync g'.client := by
    intro g' h
    rw [h]
    exact ⟨ht, hs⟩
  cases e with
  | request connect first more =>
    obtain ⟨h1, h2, h3, _⟩ := request_effect g (g.request X connect first more).1 connect first more _ _ rfl
    refine ⟨h2.trans ht, ?_⟩
    show (g.request X connect first more).1.client.cli = (g.request X connect first more).1.client.serviceDesc
    rw [h1]
    rcases h3 with h3 | ⟨_, _, _, h3 | ⟨e, h3⟩⟩
    · exact h3.trans (inSync_destination hs)
    · exact absurd ht h3
    · rw [hr] at h3; cases h3
  | info connect reply =>
    obtain ⟨result, hi⟩ := info_client g connect reply
    obtain ⟨a, o, hu, _, _, _, hct, hsd, hc⟩ := update_effect g connect
    show (g.info connect reply).1.client.clientType = _ ∧ InSync (g.info connect reply).1.client
    rw [hi, hu]
    refine ⟨hct.trans ht, ?_⟩
    show a.cli = a.serviceDesc
    rcases hc with ⟨_, rfl, _⟩ | ⟨_, ⟨_, h, _⟩ | ⟨e, _, _, h | h⟩⟩
    · exact hs
    · exact h.trans hsd.symm
    · exact absurd ht h
    · rw [hr] at h; cases h
  | generate k => cases k <;> exact keep _ rfl
  | delName i => cases i <;> exact keep _ rfl
  | delId i => cases i <;> exact keep _ rfl
  | viewBytes =>
    refine keep _ ?_
    show g.viewBytes.client = _
    unfold AAuthGui.viewBytes
    split <;> rfl
  | viewText =>
    refine keep _ ?_
    show (g.viewAs X .text).1.client = _
    unfold AAuthGui.viewAs
    split
    · rfl
    · split <;> rfl
  | viewBase64 =>
    refine keep _ ?_
    show (g.viewAs X .base64full).1.client = _
    unfold AAuthGui.viewAs
    split
    · rfl
    · split <;> rfl
  | verify =>
    refine keep _ ?_
    show (g.verify X).1.client = _
    unfold AAuthGui.verify
    split
    · rfl
    · split <;> rfl
  | _ => exact keep _ rfl

theorem run_induction {P : AAuthGui G → Prop} {Q : AAuthGui.Event G → Prop}
    (hstep : ∀ g e, Q e → P g → P (g.step U X e).1) (g : AAuthGui G) (es : List (AAuthGui.Event G)) (hes : ∀ e ∈ es, Q e)
    (hg : P g) : P (g.run U X es) := by
  induction es generalizing g with
  | nil => exact hg
  | cons e es ih =>
    have h1 := hstep g e (hes e List.mem_cons_self) hg
    rw [AAuthGui.run]
    split
    · rename_i g1 _ hq
      rw [hq] at h1
      exact h1
    · rename_i g1 _ _ _ hq
      rw [hq] at h1
      exact ih g1 (fun e he => hes e (List.mem_cons_of_mem _ he)) h1

/-- **C101**: as long as services can be reached, requests go to the address in the window, in every history. -/
theorem requests_shown (g : AAuthGui G) (ht : g.client.clientType = some "JSONWSP".toList) (hs : InSync g.client)
    (es : List (AAuthGui.Event G)) (hr : ∀ e ∈ es, Reachable e) (e : AAuthGui.Event G) (s : SentRequest)
    (h : s ∈ ((g.run U X es).step U X e).2.1) : s.endpoint = some (g.run U X es).desc := by
  have := run_induction (U := U) (X := X) (P := fun g => g.client.clientType = some "JSONWSP".toList ∧ InSync g.client)
    (Q := Reachable) (fun g e hr hp => step_inSync g e hp.1 hp.2 hr) g es hr ⟨ht, hs⟩
  rw [(step_sent _ e s h).1]
  exact inSync_destination this.2

/-- A request is sent if there is a key for it. -/
theorem request_sends (g : AAuthGui G) (connect : Connect) (first : Attempt G) (more : List (Attempt G))
    (hd : g.client.serviceDesc = some g.desc) (hk : (∃ k, g.key = some k) ∨ ∃ k, first.generate = .ok k) :
    ∃ s, s ∈ (g.request X connect first more).2.1 := by
  have hu : g.update connect = (g, .ok ()) := by
    unfold AAuthGui.update
    rw [if_neg (fun h => h hd)]
  unfold AAuthGui.request
  rw [hu]
  dsimp only
  rcases request_split (a := { g.client with credentials := ⟨some "0".toList, some g.username, some g.password⟩ })
      (generate := first.generate) (reply := first.reply) (names := some (g.names.map some)) (ids := some (g.ids.map some))
      (key := g.key) with ⟨e, h1, h2, _⟩ | ⟨k, n, _, he⟩
  · rcases hk with ⟨k, hk⟩ | ⟨k, hk⟩
    · rw [hk] at h2; cases h2
    · rw [hk] at h1; cases h1
  · generalize hq : ({ g.client with credentials := ⟨some "0".toList, some g.username, some g.password⟩ } :
      AClient G.Key).request G first.generate first.reply (some (g.names.map some)) (some (g.ids.map some)) g.key = q
    rw [hq] at he
    obtain ⟨a1, s1, o1⟩ := q
    have hs1 := (Prod.mk.inj (Prod.mk.inj he).2).1
    subst hs1
    cases o1 with
    | error e => exact ⟨_, List.mem_cons_self⟩
    | ok x =>
      dsimp only
      split <;> exact ⟨_, List.mem_cons_self⟩

/-- **C101**: after a service could not be reached, pressing the button again sends name and password to the service used
before, while the window shows the other address. -/
theorem requests_elsewhere (g : AAuthGui G) (connect : Connect) (first : Attempt G) (more : List (Attempt G)) (e : PyExc)
    (hs : InSync g.client) (hd : g.client.serviceDesc ≠ some g.desc) (ht : g.client.clientType = some "JSONWSP".toList)
    (hf : connect (some g.desc) = .error e) :
    ∃ g', g.request X connect first more = (g', [], .raised e) ∧ g'.desc = g.desc ∧
      ∀ connect' first' more', ((∃ k, g.key = some k) ∨ ∃ k, first'.generate = .ok k) →
        ∃ s, s ∈ (g'.request X connect' first' more').2.1 ∧ s.endpoint = g.client.serviceDesc ∧ s.endpoint ≠ some g'.desc ∧
          s.credentials.username = some g.username ∧ s.credentials.password = some g.password := by
  obtain ⟨a, o, hu, _, _, _, hct, hsd, hc⟩ := update_effect g connect
  rcases hc with ⟨h, _⟩ | ⟨_, ⟨_, _, _, h⟩ | ⟨e', rfl, hcli, h | h⟩⟩
  · exact absurd h hd
  · rw [h] at hf; cases hf
  · exact absurd ht h
  · rw [hf] at h
    cases h
    refine ⟨{ g with client := a }, ?_, rfl, ?_⟩
    · unfold AAuthGui.request
      rw [hu]
    · intro connect' first' more' hk
      obtain ⟨s, hmem⟩ := request_sends (X := X) { g with client := a } connect' first' more' hsd hk
      obtain ⟨h1, h2, h3, _⟩ := (request_effect { g with client := a } (({ g with client := a } : AAuthGui G).request X connect' first' more').1 connect' first'
        more' _ _ rfl).2.2.2.1 s hmem
      have hdest : s.endpoint = g.client.serviceDesc := by
        rw [h1]
        unfold Destination
        rw [if_pos hsd]
        exact hcli.trans hs
      exact ⟨s, hmem, hdest, by rw [hdest]; exact hd, h2, h3⟩

/-! ### C102: lists and keys -/

/-- **C102**: `Add` appends a line that is not blank and not in the list yet, and does nothing else. -/
theorem add_iff (l l' : List Str) (s : Str) : AAuthGui.addTo U l s = l' ↔
    (((∃ c ∈ s, U.isSpace c = false) ∧ s ∉ l) ∧ l' = l ++ [s]) ∨
    (((∀ c ∈ s, U.isSpace c = true) ∨ s ∈ l) ∧ l' = l) := by
  have hb : pyStrip U s ≠ [] ↔ ∃ c ∈ s, U.isSpace c = false := by
    rw [Ne, pyStrip_nil, List.all_eq_true]
    constructor
    · intro h
      by_contra hn
      exact h (fun c hc => by
        by_contra hc'
        exact hn ⟨c, hc, Bool.eq_false_iff.mpr hc'⟩)
    · rintro ⟨c, hc, h⟩ ha
      rw [ha c hc] at h
      cases h
  unfold AAuthGui.addTo
  by_cases h : (∃ c ∈ s, U.isSpace c = false) ∧ s ∉ l
  · rw [if_pos ⟨hb.mpr h.1, h.2⟩]
    constructor
    · exact fun e => .inl ⟨h, e.symm⟩
    · rintro (⟨_, rfl⟩ | ⟨ha | hm, _⟩)
      · rfl
      · obtain ⟨⟨c, hc, h⟩, _⟩ := h
        rw [ha c hc] at h
        cases h
      · exact absurd hm h.2
  · rw [if_neg (fun h' => h ⟨hb.mp h'.1, h'.2⟩)]
    constructor
    · intro e
      refine .inr ⟨?_, e.symm⟩
      by_cases hm : s ∈ l
      · exact .inr hm
      · refine .inl (fun c hc => ?_)
        by_contra hc'
        exact h ⟨⟨c, hc, Bool.eq_false_iff.mpr hc'⟩, hm⟩
    · rintro (⟨hc, _⟩ | ⟨_, rfl⟩)
      · exact absurd hc h
      · rfl

theorem addTo_clean {l : List Str} (s : Str) (h : CleanList U l) : CleanList U (AAuthGui.addTo U l s) := by
  rcases (add_iff l _ s).mp rfl with ⟨⟨hc, hm⟩, he⟩ | ⟨_, he⟩
  · rw [he]
    refine ⟨?_, ?_⟩
    · rw [List.nodup_append]
      refine ⟨h.1, List.nodup_singleton s, ?_⟩
      rintro x hx y hy rfl
      exact hm (List.mem_singleton.mp hy ▸ hx)
    · intro x hx
      rcases List.mem_append.mp hx with hx | hx
      · exact h.2 x hx
      · rw [List.mem_singleton.mp hx]
        exact hc
  · rw [he]
    exact h

theorem erase_clean {l : List Str} (i : Nat) (h : CleanList U l) : CleanList U (l.eraseIdx i) :=
  ⟨h.1.sublist (List.eraseIdx_sublist l i), fun s hs => h.2 s (List.mem_of_mem_eraseIdx hs)⟩

/-- What an event does to the lists. -/
theorem step_lists (g : AAuthGui G) (e : AAuthGui.Event G) (h : CleanList U g.names ∧ CleanList U g.ids) :
    CleanList U (g.step U X e).1.names ∧ CleanList U (g.step U X e).1.ids := by
  have keep : ∀ g' : AAuthGui G, g'.names = g.names ∧ g'.ids = g.ids → CleanList U g'.names ∧ CleanList U g'.ids := by
    rintro g' ⟨h1, h2⟩
    rw [h1, h2]
    exact h
  cases e with
  | addName => exact ⟨addTo_clean _ h.1, h.2⟩
  | addId => exact ⟨h.1, addTo_clean _ h.2⟩
  | delName i =>
    cases i with
    | none => exact h
    | some i => exact ⟨erase_clean i h.1, h.2⟩
  | delId i =>
    cases i with
    | none => exact h
    | some i => exact ⟨h.1, erase_clean i h.2⟩
  | reset => exact ⟨⟨List.nodup_nil, fun _ h => (by cases h)⟩, ⟨List.nodup_nil, fun _ h => (by cases h)⟩⟩
  | request connect first more =>
    obtain ⟨_, _, _, _, hk⟩ := request_effect g (g.request X connect first more).1 connect first more _ _ rfl
    refine keep _ ?_
    show (g.request X connect first more).1.names = _ ∧ (g.request X connect first more).1.ids = _
    rcases hk with ⟨_, _, hk, _⟩ | ⟨_, _, _, _, _, _, _, _, ⟨_, _, _, _, hk⟩ | ⟨_, _, _, _, _, hk⟩⟩ <;> rw [hk] <;> exact ⟨rfl, rfl⟩
  | info connect reply =>
    obtain ⟨result, hi⟩ := info_client g connect reply
    obtain ⟨a, o, hu, _⟩ := update_effect g connect
    refine keep _ ?_
    show (g.info connect reply).1.names = _ ∧ (g.info connect reply).1.ids = _
    rw [hi, hu]
    exact ⟨rfl, rfl⟩
  | generate k => cases k <;> exact h
  | viewBytes =>
    refine keep _ ?_
    show g.viewBytes.names = _ ∧ g.viewBytes.ids = _
    unfold AAuthGui.viewBytes
    split <;> exact ⟨rfl, rfl⟩
  | viewText =>
    refine keep _ ?_
    show (g.viewAs X .text).1.names = _ ∧ (g.viewAs X .text).1.ids = _
    unfold AAuthGui.viewAs
    split
    · exact ⟨rfl, rfl⟩
    · split <;> exact ⟨rfl, rfl⟩
  | viewBase64 =>
    refine keep _ ?_
    show (g.viewAs X .base64full).1.names = _ ∧ (g.viewAs X .base64full).1.ids = _
    unfold AAuthGui.viewAs
    split
    · exact ⟨rfl, rfl⟩
    · split <;> exact ⟨rfl, rfl⟩
  | verify =>
    refine keep _ ?_
    show (g.verify X).1.names = _ ∧ (g.verify X).1.ids = _
    unfold AAuthGui.verify
    split
    · exact ⟨rfl, rfl⟩
    · split <;> exact ⟨rfl, rfl⟩
  | _ => exact h

/-- **C102**: in every history the lists hold no blank lines and no line twice, so that requests ask for nothing twice. -/
theorem run_lists (client : AClient G.Key) (desc : Str) (key : Option G.Key) (es : List (AAuthGui.Event G)) :
    CleanList U ((AAuthGui.new client desc key).run U X es).names ∧
    CleanList U ((AAuthGui.new client desc key).run U X es).ids :=
  run_induction (U := U) (X := X) (P := fun g => CleanList U g.names ∧ CleanList U g.ids) (Q := fun _ => True)
    (fun g e _ h => step_lists g e h) _ es (fun _ _ => trivial)
    ⟨⟨List.nodup_nil, fun _ h => (by cases h)⟩, ⟨List.nodup_nil, fun _ h => (by cases h)⟩⟩

/-- **C102**: after a request that shows a new certificate, the key in the window is the one whose public part was sent in
the last request, the one that was answered with this certificate. If there was a key before, it is still the same. -/
theorem shown_key (g g' : AAuthGui G) (connect : Connect) (first : Attempt G) (more : List (Attempt G))
    (sent : List SentRequest) (o : CommandEnd) (h : g.request X connect first more = (g', sent, o)) (hn : g'.ac ≠ g.ac) :
    ∃ b c k, ShowsNew g' b c k ∧ CertWire c b ∧ (∀ k', g.key = some k' → G.pem k = G.pem k') ∧
      ∃ t ∈ first :: more, ∃ s, sent.getLast? = some s ∧ s.publicKey = G.pem k ∧ AnsweredWith t.reply s b := by
  obtain ⟨_, _, _, hs, hk⟩ := request_effect g g' connect first more sent o h
  rcases hk with ⟨_, _, hk, _⟩ | ⟨t, ht, s, b, k, hl, ha, hp, ⟨_, _, _, _, hk⟩ | ⟨c, r, a, hd, ho, hk⟩⟩
  · exact absurd (by rw [hk]) hn
  · exact absurd (by rw [hk]) hn
  · obtain ⟨_, _, _, _, _, _, k1, hp1, hk1⟩ := hs s (List.mem_of_getLast? hl)
    refine ⟨b, c, k, ?_, (decode_accepts.mp hd).2.1, ?_, t, ht, s, hl, hp, ha⟩
    · rw [hk]
      exact ⟨rfl, rfl, rfl, rfl, rfl, rfl⟩
    · intro k' hk'
      rw [← hp, hp1, hk1 k' hk']

/-! ### C103: the certificate and the label -/

/-- **C103**: `Verify` makes the label say whether the signature of the certificate verifies, and changes nothing else.
Without a certificate it raises AttributeError. -/
theorem verify_click (g g' : AAuthGui G) (o : CommandEnd) (h : g.verify X = (g', o)) :
    (∃ c v, g.ac = some c ∧ c.verifySignature X = .ok v ∧ g' = { g with verified := some v } ∧ o = .done) ∨
    (g' = g ∧ (g.ac = none ∧ o = .raised .attributeError ∨
      ∃ c e, g.ac = some c ∧ c.verifySignature X = .error e ∧ o = .raised e)) := by
  unfold AAuthGui.verify at h
  cases hc : g.ac with
  | none =>
    rw [hc] at h
    cases h
    exact .inr ⟨rfl, .inl ⟨rfl, rfl⟩⟩
  | some c =>
    rw [hc] at h
    dsimp only at h
    cases hv : c.verifySignature X with
    | ok v =>
      rw [hv] at h
      cases h
      exact .inl ⟨c, v, rfl, hv, rfl, rfl⟩
    | error e =>
      rw [hv] at h
      cases h
      exact .inr ⟨rfl, .inr ⟨c, e, rfl, hv, rfl⟩⟩

/-- An event asks for a certificate. -/
def Asks : AAuthGui.Event G → Prop
  | .request _ _ _ => True
  | _ => False

/-- Only requests change the certificate and its bytes. -/
theorem step_cert (g : AAuthGui G) (e : AAuthGui.Event G) (he : ¬ Asks e) :
    (g.step U X e).1.raw = g.raw ∧ (g.step U X e).1.ac = g.ac := by
  cases e with
  | request connect first more => exact absurd trivial he
  | info connect reply =>
    obtain ⟨result, hi⟩ := info_client g connect reply
    obtain ⟨a, o, hu, _⟩ := update_effect g connect
    show (g.info connect reply).1.raw = _ ∧ (g.info connect reply).1.ac = _
    rw [hi, hu]
    exact ⟨rfl, rfl⟩
  | generate k => cases k <;> exact ⟨rfl, rfl⟩
  | delName i => cases i <;> exact ⟨rfl, rfl⟩
  | delId i => cases i <;> exact ⟨rfl, rfl⟩
  | viewBytes =>
    show g.viewBytes.raw = _ ∧ g.viewBytes.ac = _
    unfold AAuthGui.viewBytes
    split <;> exact ⟨rfl, rfl⟩
  | viewText =>
    show (g.viewAs X .text).1.raw = _ ∧ (g.viewAs X .text).1.ac = _
    unfold AAuthGui.viewAs
    split
    · exact ⟨rfl, rfl⟩
    · split <;> exact ⟨rfl, rfl⟩
  | viewBase64 =>
    show (g.viewAs X .base64full).1.raw = _ ∧ (g.viewAs X .base64full).1.ac = _
    unfold AAuthGui.viewAs
    split
    · exact ⟨rfl, rfl⟩
    · split <;> exact ⟨rfl, rfl⟩
  | verify =>
    show (g.verify X).1.raw = _ ∧ (g.verify X).1.ac = _
    unfold AAuthGui.verify
    split
    · exact ⟨rfl, rfl⟩
    · split <;> exact ⟨rfl, rfl⟩
  | _ => exact ⟨rfl, rfl⟩

/-- Only `Verify` and `Clear` change the label; requests do not. -/
theorem step_label (g : AAuthGui G) (e : AAuthGui.Event G) :
    (g.step U X e).1.verified = g.verified ∨ (e = .clearCert ∧ (g.step U X e).1.verified = none) ∨
    (e = .verify ∧ ∃ c v, g.ac = some c ∧ c.verifySignature X = .ok v ∧ (g.step U X e).1.verified = some v) := by
  cases e with
  | request connect first more =>
    refine .inl ?_
    obtain ⟨_, _, _, _, hk⟩ := request_effect g (g.request X connect first more).1 connect first more _ _ rfl
    show (g.request X connect first more).1.verified = _
    rcases hk with ⟨_, _, hk, _⟩ | ⟨_, _, _, _, _, _, _, _, ⟨_, _, _, _, hk⟩ | ⟨_, _, _, _, _, hk⟩⟩ <;> rw [hk]
  | info connect reply =>
    obtain ⟨result, hi⟩ := info_client g connect reply
    obtain ⟨a, o, hu, _⟩ := update_effect g connect
    refine .inl ?_
    show (g.info connect reply).1.verified = _
    rw [hi, hu]
  | generate k => cases k <;> exact .inl rfl
  | delName i => cases i <;> exact .inl rfl
  | delId i => cases i <;> exact .inl rfl
  | viewBytes =>
    refine .inl ?_
    show g.viewBytes.verified = _
    unfold AAuthGui.viewBytes
    split <;> rfl
  | viewText =>
    refine .inl ?_
    show (g.viewAs X .text).1.verified = _
    unfold AAuthGui.viewAs
    split
    · rfl
    · split <;> rfl
  | viewBase64 =>
    refine .inl ?_
    show (g.viewAs X .base64full).1.verified = _
    unfold AAuthGui.viewAs
    split
    · rfl
    · split <;> rfl
  | verify =>
    rcases verify_click g (g.verify X).1 _ rfl with ⟨c, v, h1, h2, h3, _⟩ | ⟨h, _⟩
    · refine .inr (.inr ⟨rfl, c, v, h1, h2, ?_⟩)
      show (g.verify X).1.verified = _
      rw [h3]
    · refine .inl ?_
      show (g.verify X).1.verified = _
      rw [h]
  | clearCert => exact .inr (.inl ⟨rfl, rfl⟩)
  | _ => exact .inl rfl

/-- **C103**: what the label says stays true of the certificate as long as no other one is shown. -/
theorem label_right_partial (g : AAuthGui G) (e : AAuthGui.Event G) (h : LabelRight X g) (hk : (g.step U X e).1.ac = g.ac) :
    LabelRight X (g.step U X e).1 := by
  intro v hv
  rw [hk]
  rcases step_label (U := U) (X := X) g e with h1 | ⟨_, h1⟩ | ⟨_, c, w, h1, h2, h3⟩
  · exact h v (h1 ▸ hv)
  · rw [h1] at hv; cases hv
  · rw [h3] at hv
    cases hv
    exact ⟨c, h1, h2⟩

/-- **C103**: after `Clear` and any events the label is right, if no request follows the last use of `Verify`; in
particular right after `Verify`. -/
theorem label_right_run_partial (g : AAuthGui G) (es : List (AAuthGui.Event G)) (he : ∀ e ∈ es, ¬ Asks e) :
    LabelRight X ((g.step U X .clearCert).1.run U X es) :=
  run_induction (U := U) (X := X) (P := LabelRight X) (Q := fun e => ¬ Asks e)
    (fun g e hq hp => label_right_partial g e hp (step_cert g e hq).2) _ es he (fun v hv => (by cases hv))

/-- **C103**: a request that brings another certificate leaves the label as it is, whatever the signature of the new
certificate is. -/
theorem label_stale (g g' : AAuthGui G) (connect : Connect) (first : Attempt G) (more : List (Attempt G))
    (sent : List SentRequest) (o : CommandEnd) (h : g.request X connect first more = (g', sent, o)) :
    g'.verified = g.verified := by
  obtain ⟨_, _, _, _, hk⟩ := request_effect g g' connect first more sent o h
  rcases hk with ⟨_, _, hk, _⟩ | ⟨_, _, _, _, _, _, _, _, ⟨_, _, _, _, hk⟩ | ⟨_, _, _, _, _, hk⟩⟩ <;> rw [hk]

/-- **C103**: the certificate is the one in the bytes as long as all attachments are certificates. -/
theorem sameCert_step (g : AAuthGui G) (e : AAuthGui.Event G) (h : SameCert g)
    (hd : ∀ connect first more, e = .request connect first more → ∀ t ∈ first :: more, ∀ s b, AnsweredWith t.reply s b →
      ∃ c, CertWire c b) :
    SameCert (g.step U X e).1 := by
  by_cases he : Asks e
  · cases e with
    | request connect first more =>
      obtain ⟨_, _, _, _, hk⟩ := request_effect g (g.request X connect first more).1 connect first more _ _ rfl
      show SameCert (g.request X connect first more).1
      rcases hk with ⟨_, _, hk, _⟩ | ⟨t, ht, s, b, k, hl, ha, hp, ⟨e, _, hdec, _, hk⟩ | ⟨c, r, a, hdec, ho, hk⟩⟩
      · rw [hk]; exact h
      · obtain ⟨c, hc⟩ := hd connect first more rfl t ht s b ha
        have : AttCert.decode X b false = .ok (c, []) := decode_accepts.mpr ⟨rfl, hc, fun h => (by cases h)⟩
        rw [this] at hdec
        cases hdec
      · rw [hk]; exact .inr ⟨b, c, rfl, rfl, (decode_accepts.mp hdec).2.1⟩
    | _ => exact absurd he (fun h => h)
  · obtain ⟨h1, h2⟩ := step_cert (U := U) (X := X) g e he
    unfold SameCert
    rw [h1, h2]
    exact h

/-- **C103**: an attachment that is no certificate leaves the window with the new bytes and the new key, but with the old
certificate, which is the one that is then verified and exported. -/
theorem undecodable (g g' : AAuthGui G) (connect : Connect) (first : Attempt G) (more : List (Attempt G))
    (sent : List SentRequest) (o : CommandEnd) (h : g.request X connect first more = (g', sent, o)) (b : Bytes)
    (hb : g'.raw = some b) (hc : ∀ c, ¬ CertWire c b) :
    g'.ac = g.ac ∧ g'.view = g.view ∧ g'.verified = g.verified ∧ (g'.verify X).2 = (g.verify X).2 ∧
    (g'.verify X).1.verified = (g.verify X).1.verified ∧ (g'.viewBytes).view = .hex b := by
  have hview : g'.viewBytes.view = .hex b := by
    unfold AAuthGui.viewBytes
    rw [hb]
  obtain ⟨_, _, _, _, hk⟩ := request_effect g g' connect first more sent o h
  have key : g'.ac = g.ac ∧ g'.view = g.view ∧ g'.verified = g.verified := by
    rcases hk with ⟨_, _, hk, _⟩ | ⟨t, ht, s, b', k, hl, ha, hp, ⟨e, _, hdec, _, hk⟩ | ⟨c, r, a, hdec, ho, hk⟩⟩
    · rw [hk]; exact ⟨rfl, rfl, rfl⟩
    · rw [hk]; exact ⟨rfl, rfl, rfl⟩
    · rw [hk] at hb
      cases hb
      exact absurd (decode_accepts.mp hdec).2.1 (hc c)
  obtain ⟨h1, h2, h3⟩ := key
  refine ⟨h1, h2, h3, ?_, ?_, hview⟩
  · unfold AAuthGui.verify
    rw [h1]
    cases g.ac with
    | none => rfl
    | some c => dsimp only; cases c.verifySignature X <;> rfl
  · unfold AAuthGui.verify
    rw [h1]
    cases g.ac with
    | none => exact h3
    | some c =>
      dsimp only
      cases c.verifySignature X with
      | ok v => rfl
      | error e => exact h3

/-- A request that is answered returns the answer and keeps the key. -/
theorem request_returns {a : AClient G.Key} {t : Attempt G} {names ids : Option (List (Option Str))} {key : Option G.Key}
    {k : G.Key} (hk : KeyFor key t k) {x : Except PyExc Bytes}
    (hr : ∀ s, ∃ r, t.reply s = .ok r ∧ r.status = 200 ∧ r.fault = none ∧ r.result = some x) :
    ∃ s, a.request G t.generate t.reply names ids key = ({ a with lastKey := some k }, some s, .ok x) := by
  rcases request_split (a := a) (generate := t.generate) (reply := t.reply) (names := names) (ids := ids) (key := key) with
    ⟨e, h1, h2, _⟩ | ⟨k', n, hk', he⟩
  · rcases hk with h | ⟨_, h⟩
    · rw [h2] at h; cases h
    · rw [h1] at h; cases h
  · have hkk : k' = k := by
      rcases hk with h | ⟨h, h'⟩ <;> rcases hk' with ⟨i, _⟩ | ⟨i, i', _⟩
      · exact Option.some.inj (i.symm.trans h)
      · rw [h] at i; cases i
      · rw [h] at i; cases i
      · rw [h'] at i'; cases i'; rfl
    subst hkk
    obtain ⟨r, hr1, hr2, hr3, hr4⟩ := hr (requestWith a names ids k' n)
    obtain ⟨h1, _, h3⟩ := receive_iff (a := a) k' (t.reply (requestWith a names ids k' n))
    refine ⟨requestWith a names ids k' n, ?_⟩
    rw [he, h1 ⟨r, hr1, hr2, hr3⟩, (h3 x).mpr ⟨r, hr1, hr2, hr3, hr4⟩]

/-- An attempt with an attachment that makes the window try again. -/
def Fruitless (key : Option G.Key) (t : Attempt G) : Prop :=
  (∃ k, KeyFor key t k) ∧ ∃ e, (e = .valueError ∨ e = .unicodeError) ∧ Unreadable t.reply e

theorem fetch_retries {names ids : Option (List (Option Str))} {key : Option G.Key} {last : Attempt G} {k : G.Key} {b : Bytes}
    (hk : KeyFor key last k) (hb : ∀ s, AnsweredWith last.reply s b) (pre rest : List (Attempt G))
    (hpre : ∀ t ∈ pre, Fruitless key t) : ∀ (a : AClient G.Key) (e : PyExc), (e = .valueError ∨ e = .unicodeError) →
    ∃ sent, sent.length = pre.length + 1 ∧ AAuthGui.fetch names ids key a (.error e) (pre ++ last :: rest) =
      ({ a with lastKey := some k }, sent, some (.ok b)) := by
  have hv : ∀ e : PyExc, e = .valueError ∨ e = .unicodeError → e.isValueError = true := by
    rintro e (rfl | rfl) <;> rfl
  induction pre with
  | nil =>
    intro a e he
    obtain ⟨s, hs⟩ := request_returns (a := a) (names := names) (ids := ids) hk hb
    refine ⟨[s], rfl, ?_⟩
    rw [List.nil_append, AAuthGui.fetch, if_pos (hv e he)]
    dsimp only
    rw [hs]
    dsimp only
    cases rest <;> rw [AAuthGui.fetch] <;> rfl
  | cons t pre ih =>
    intro a e he
    obtain ⟨⟨k', hk'⟩, e', he', hu⟩ := hpre t List.mem_cons_self
    obtain ⟨s, hs⟩ := request_returns (a := a) (names := names) (ids := ids) hk' hu
    obtain ⟨sent, hl, hf⟩ := ih (fun t ht => hpre t (List.mem_cons_of_mem _ ht)) { a with lastKey := some k' } e' he'
    refine ⟨s :: sent, by rw [List.length_cons, List.length_cons, hl], ?_⟩
    rw [List.cons_append, AAuthGui.fetch, if_pos (hv e he)]
    dsimp only
    rw [hs]
    dsimp only
    rw [hf]
    rfl

/-- **C102**: a request that is answered with a certificate shows it, with the key of this request; attachments that cannot be
read are asked for again, as often as it takes. The label stays as it is. -/
theorem request_answered (g : AAuthGui G) (connect : Connect) (pre rest : List (Attempt G)) (last : Attempt G)
    (first : Attempt G) (more : List (Attempt G)) (hl : first :: more = pre ++ last :: rest)
    (hd : g.client.serviceDesc = some g.desc ∨ connect (some g.desc) = .ok () ∧ g.client.clientType = some "JSONWSP".toList)
    {k : G.Key} (hk : KeyFor g.key last k) {b : Bytes} (hb : ∀ s, AnsweredWith last.reply s b)
    (hpre : ∀ t ∈ pre, Fruitless g.key t) {c : AttCert} (hc : CertWire c b)
    (hs : ∀ algo, c.signature ≠ some ⟨algo, none⟩) :
    ∃ g' sent, g.request X connect first more = (g', sent, .done) ∧ sent.length = pre.length + 1 ∧ ShowsNew g' b c k ∧
      g'.verified = g.verified := by
  obtain ⟨a, o, hu, _, _, _, _, hsd, hcli⟩ := update_effect g connect
  have ho : o = .ok () := by
    rcases hcli with ⟨_, _, h⟩ | ⟨hn, ⟨h, _⟩ | ⟨e, _, _, h⟩⟩
    · exact h
    · exact h
    · rcases hd with hd | ⟨h1, h2⟩
      · exact absurd hd hn
      · rcases h with h | h
        · exact absurd h2 h
        · rw [h1] at h; cases h
  subst ho
  have hdec : AttCert.decode X b false = .ok (c, []) := decode_accepts.mpr ⟨rfl, hc, fun h => (by cases h)⟩
  have htree : AAuthGui.treeError c = none := by
    unfold AAuthGui.treeError
    split
    · rename_i algo h
      exact absurd h (hs algo)
    · rfl
  have hrec : ∀ g1 : AAuthGui G, g1.client.lastKey = some k → (g1.receive X b).2 = .done ∧ ShowsNew (g1.receive X b).1 b c k ∧
      (g1.receive X b).1.verified = g1.verified := by
    intro g1 h1
    unfold AAuthGui.receive
    rw [h1]
    dsimp only
    rw [hdec]
    dsimp only
    rw [htree]
    exact ⟨rfl, ⟨rfl, rfl, rfl, rfl, rfl, rfl⟩, rfl⟩
  unfold AAuthGui.request
  rw [hu]
  dsimp only
  cases pre with
  | nil =>
    rw [List.nil_append] at hl
    cases hl
    obtain ⟨s, hreq⟩ := request_returns
      (a := { a with credentials := ⟨some "0".toList, some g.username, some g.password⟩ }) (names := some (g.names.map some))
      (ids := some (g.ids.map some)) hk hb
    rw [hreq]
    dsimp only
    have hf : ∀ a : AClient G.Key, AAuthGui.fetch (some (g.names.map some)) (some (g.ids.map some)) g.key a (.ok b) rest =
        (a, [], some (.ok b)) := by
      intro a
      cases rest <;> rw [AAuthGui.fetch]
    rw [hf]
    dsimp only
    obtain ⟨h1, h2, h3⟩ := hrec { g with client := { a with
      credentials := ⟨some "0".toList, some g.username, some g.password⟩, lastKey := some k } } rfl
    exact ⟨_, _, by rw [h1], rfl, h2, h3⟩
  | cons t pre =>
    rw [List.cons_append] at hl
    cases hl
    obtain ⟨⟨k', hk'⟩, e', he', hun⟩ := hpre first List.mem_cons_self
    obtain ⟨s, hreq⟩ := request_returns
      (a := { a with credentials := ⟨some "0".toList, some g.username, some g.password⟩ }) (names := some (g.names.map some))
      (ids := some (g.ids.map some)) hk' hun
    rw [hreq]
    dsimp only
    obtain ⟨sent, hlen, hf⟩ := fetch_retries (names := some (g.names.map some)) (ids := some (g.ids.map some)) hk hb pre rest
      (fun t ht => hpre t (List.mem_cons_of_mem _ ht))
      { a with credentials := ⟨some "0".toList, some g.username, some g.password⟩, lastKey := some k' } e' he'
    rw [hf]
    dsimp only
    obtain ⟨h1, h2, h3⟩ := hrec { g with client := { a with
      credentials := ⟨some "0".toList, some g.username, some g.password⟩, lastKey := some k } } rfl
    refine ⟨_, _, by rw [h1], ?_, h2, h3⟩
    show (s :: sent).length = _
    rw [List.length_cons, List.length_cons, hlen]

/-- Other failures to read an attachment end the command and change nothing but the client. -/
theorem request_not_retried (g : AAuthGui G) (connect : Connect) (first : Attempt G) (more : List (Attempt G))
    (hd : g.client.serviceDesc = some g.desc) {k : G.Key} (hk : KeyFor g.key first k) {e : PyExc}
    (he : e ≠ .valueError ∧ e ≠ .unicodeError) (hb : Unreadable first.reply e) :
    ∃ client s, g.request X connect first more = ({ g with client := client }, [s], .raised e) := by
  have hv : e.isValueError = false := by
    cases e <;> first | rfl | exact absurd rfl he.1 | exact absurd rfl he.2
  have hu : g.update connect = (g, .ok ()) := by
    unfold AAuthGui.update
    rw [if_neg (fun h => h hd)]
  obtain ⟨s, hreq⟩ := request_returns
    (a := { g.client with credentials := ⟨some "0".toList, some g.username, some g.password⟩ })
    (names := some (g.names.map some)) (ids := some (g.ids.map some)) hk hb
  have hf : ∀ a : AClient G.Key, AAuthGui.fetch (some (g.names.map some)) (some (g.ids.map some)) g.key a (.error e) more =
      (a, [], some (.error e)) := by
    intro a
    cases more <;> rw [AAuthGui.fetch, hv] <;> rfl
  unfold AAuthGui.request
  rw [hu]
  dsimp only
  rw [hreq]
  dsimp only
  rw [hf]
  exact ⟨_, s, rfl⟩

/-- **C103**: `View as Bytes` shows the bytes received; the other views show what the certificate exports to, of which
`View as Base64` can be imported again. Without a certificate they raise AttributeError. -/
theorem views (g : AAuthGui G) :
    (∀ b, g.raw = some b → g.viewBytes = { g with view := .hex b }) ∧ (g.raw = none → g.viewBytes = g) ∧
    (g.ac = none → ∀ f, g.viewAs X f = (g, .raised .attributeError)) ∧
    (∀ c f d c', g.ac = some c → c.exportAC X .no f = .ok (d, c') → g.viewAs X f = ({ g with view := .data d }, .done)) ∧
    (∀ c f e, g.ac = some c → c.exportAC X .no f = .error e → g.viewAs X f = (g, .raised e)) := by
  refine ⟨?_, ?_, ?_, ?_, ?_⟩
  · intro b h
    unfold AAuthGui.viewBytes
    rw [h]
  · intro h
    unfold AAuthGui.viewBytes
    rw [h]
  · intro h f
    unfold AAuthGui.viewAs
    rw [h]
  · intro c f d c' h hd
    unfold AAuthGui.viewAs
    rw [h]
    dsimp only
    rw [hd]
  · intro c f e h hd
    unfold AAuthGui.viewAs
    rw [h]
    dsimp only
    rw [hd]

theorem view_imports (g : AAuthGui G) {c c' : AttCert} {b : Bytes} (hc : g.ac = some c) (hb : c.encode X .no = .ok (b, c'))
    (ha : ∀ t ∈ texts c, Ascii t) (hs : ∀ s, c.signature = some s → AsciiOpt s.algo) :
    ∃ d, (g.step U X .viewBase64).1.view = .data d ∧ AttCert.importAC X d .base64full false = .ok (content c, d) := by
  have hd := round_trip hb ha hs
  refine ⟨_, ?_, (import_formats X false b c.info.version).2.2.mpr hd⟩
  show (g.viewAs X .base64full).1.view = _
  rw [(views (X := X) g).2.2.2.1 c .base64full _ _ hc (export_formats hb).2.2]

/-- **C103**: so a window that says `Verified: TRUE` goes on to say so of a certificate without signature, which any service
can send. -/
theorem label_forged (g : AAuthGui G) (connect : Connect) (first : Attempt G) (more : List (Attempt G))
    (hv : g.verified = some true) (hd : g.client.serviceDesc = some g.desc) {k : G.Key} (hk : KeyFor g.key first k)
    {c c' : AttCert} {b : Bytes} (he : c.encode X .no = .ok (b, c')) (hs : c.signature = none)
    (ha : ∀ t ∈ texts c, Ascii t) (hb : ∀ s, AnsweredWith first.reply s b) :
    ∃ g' sent, g.request X connect first more = (g', sent, .done) ∧ g'.ac = some (content c) ∧ g'.verified = some true ∧
      (content c).verifySignature X = .ok false := by
  have hsig : (content c).signature = none := by
    show cleanSignature c.signature = none
    rw [hs]
    rfl
  have hdec : AttCert.decode X b false = .ok (content c, []) :=
    round_trip he ha (fun g hg => by rw [hs] at hg; cases hg)
  obtain ⟨g', sent, h1, _, h2, h3⟩ := request_answered (X := X) g connect [] more first first more rfl (.inl hd) hk hb
    (fun _ h => (by cases h)) (decode_accepts.mp hdec).2.1 (fun algo h => by rw [hsig] at h; cases h)
  exact ⟨g', sent, h1, h2.ac, h3.trans hv, unsigned_fails X hsig⟩

/-- The attribute authority as the window sees it: its attachments can be read. -/
def windowReply (B : Bcrypt) (collate : Str → Str) (a : Authority X) (db : AAuthDb) (env : RequestEnv)
    (convert : ClientCredentials → Credentials) (exports : Dict Str) (text : PyExc → Except PyExc String) (s : SentRequest) :
    Except PyExc (Response (Except PyExc Bytes)) :=
  (serviceReply U B collate a db env convert exports text s).map (fun r => ⟨r.status, r.fault, r.result.map .ok⟩)

/-- **C103**: with the attribute authority a request shows a certificate that is made for the key in the window, and `Verify`
then says that it verifies; or it shows none, and everything but the text of the result stays. -/
theorem issued_shown (hU : U.Lawful) (hX : X.Lawful) {B : Bcrypt} {collate : Str → Str} {a : Authority X} {db : AAuthDb}
    {env : RequestEnv} {convert : ClientCredentials → Credentials} {exports : Dict Str}
    {text : PyExc → Except PyExc String} (g g' : AAuthGui G) (connect : Connect) (first : Attempt G)
    (more : List (Attempt G)) (sent : List SentRequest) (o : CommandEnd)
    (ha : ∀ cred key, cred.username = some g.username → key.cipher = "RSA".toList →
      AsciiInputs a db env (convert cred) key exports)
    (hr : ∀ t ∈ first :: more, t.reply = windowReply (U := U) B collate a db env convert exports text)
    (h : g.request X connect first more = (g', sent, o)) :
    (g'.raw = g.raw ∧ g'.ac = g.ac ∧ g'.key = g.key ∧ g'.keyShown = g.keyShown ∧ g'.view = g.view) ∨
    ∃ b c k, ShowsNew g' b c k ∧ o = .done ∧ c.holder.pubKey = utf8 (G.pem k) ∧
      (g'.verify X).1.verified = some true := by
  obtain ⟨_, _, _, hs, hk⟩ := request_effect g g' connect first more sent o h
  have hissued : ∀ t ∈ first :: more, ∀ s ∈ sent, ∀ b, AnsweredWith t.reply s b →
      ∃ c sig, AttCert.decode X b true = .ok (c, []) ∧ c.holder.pubKey = utf8 s.publicKey ∧
        c.signature = some ⟨some aauthSigAlgo, some sig⟩ := by
    rintro t ht s hs' b ⟨r, h1, h2, h3, h4⟩
    rw [hr t ht] at h1
    unfold windowReply serviceReply at h1
    split at h1
    · rename_i b' hissue
      cases h1
      cases h4
      obtain ⟨username, user, sel, uri, rows, body, sig, _, _, _, _, _, _, _, _, hd⟩ :=
        issued_certificate hU hX (ha _ _ (hs s hs').2.1 (hs s hs').2.2.2.2.2.1) hissue
      exact ⟨_, sig, hd, rfl, rfl⟩
    · cases h1
      cases h3
  rcases hk with ⟨_, _, hk, _⟩ | ⟨t, ht, s, b, k, hl, hans, hp, hk⟩
  · rw [hk]; exact .inl ⟨rfl, rfl, rfl, rfl, rfl⟩
  · obtain ⟨c, sig, hd, hpub, hsig⟩ := hissued t ht s (List.mem_of_getLast? hl) b hans
    have hw := decode_accepts.mp hd
    have hd' : AttCert.decode X b false = .ok (c, []) := decode_accepts.mpr ⟨rfl, hw.2.1, fun h => (by cases h)⟩
    rcases hk with ⟨e, _, hdec, _⟩ | ⟨c', r, cl, hdec, ho, hk⟩
    · rw [hd'] at hdec; cases hdec
    · rw [hd'] at hdec
      cases hdec
      refine .inr ⟨b, c, k, by rw [hk]; exact ⟨rfl, rfl, rfl, rfl, rfl, rfl⟩, ?_, hpub.trans (by rw [hp]), ?_⟩
      · rcases ho with ho | ⟨_, algo, ho⟩
        · exact ho
        · rw [hsig] at ho; cases ho
      · have hac : g'.ac = some c := by rw [hk]
        unfold AAuthGui.verify
        rw [hac]
        dsimp only
        rw [hw.2.2 rfl]

/-! ### The other commands -/

/-- **C102**: the key that is shown is always the key that requests are made with. -/
theorem key_shown (client : AClient G.Key) (desc : Str) (key : Option G.Key) (es : List (AAuthGui.Event G)) :
    ((AAuthGui.new client desc key).run U X es).keyShown = ((AAuthGui.new client desc key).run U X es).key := by
  refine run_induction (U := U) (X := X) (P := fun g => g.keyShown = g.key) (Q := fun _ => True) ?_ _ es
    (fun _ _ => trivial) rfl
  intro g e _ h
  cases e with
  | request connect first more =>
    obtain ⟨_, _, _, _, hk⟩ := request_effect g (g.request X connect first more).1 connect first more _ _ rfl
    show (g.request X connect first more).1.keyShown = (g.request X connect first more).1.key
    rcases hk with ⟨_, _, hk, _⟩ | ⟨_, _, _, _, _, _, _, _, ⟨_, _, _, _, hk⟩ | ⟨_, _, _, _, _, hk⟩⟩
    · rw [hk]; exact h
    · rw [hk]
    · rw [hk]
  | info connect reply =>
    obtain ⟨result, hi⟩ := info_client g connect reply
    obtain ⟨a, o, hu, _⟩ := update_effect g connect
    show (g.info connect reply).1.keyShown = (g.info connect reply).1.key
    rw [hi, hu]
    exact h
  | generate k =>
    cases k with
    | error e => exact h
    | ok k => rfl
  | delName i => cases i <;> exact h
  | delId i => cases i <;> exact h
  | viewBytes =>
    show g.viewBytes.keyShown = g.viewBytes.key
    unfold AAuthGui.viewBytes
    split <;> exact h
  | viewText =>
    show (g.viewAs X .text).1.keyShown = (g.viewAs X .text).1.key
    unfold AAuthGui.viewAs
    split
    · exact h
    · split <;> exact h
  | viewBase64 =>
    show (g.viewAs X .base64full).1.keyShown = (g.viewAs X .base64full).1.key
    unfold AAuthGui.viewAs
    split
    · exact h
    · split <;> exact h
  | verify =>
    show (g.verify X).1.keyShown = (g.verify X).1.key
    unfold AAuthGui.verify
    split
    · exact h
    · split <;> exact h
  | reset => rfl
  | _ => exact h

/-- **C101**: what is typed is what the window holds afterwards, and nothing is sent. -/
theorem typed (g : AAuthGui G) (s : Str) :
    g.step U X (.setDesc s) = ({ g with desc := s }, [], .done) ∧
    g.step U X (.setUser s) = ({ g with username := s }, [], .done) ∧
    g.step U X (.setPassword s) = ({ g with password := s }, [], .done) ∧
    g.step U X (.setName s) = ({ g with nameEntry := s }, [], .done) ∧
    g.step U X (.setId s) = ({ g with idEntry := s }, [], .done) := ⟨rfl, rfl, rfl, rfl, rfl⟩

/-- **C102**: `Add` empties the entry and touches one list only. -/
theorem added (g : AAuthGui G) :
    (∃ l, g.step U X .addName = ({ g with names := l, nameEntry := [] }, [], .done) ∧
      l = AAuthGui.addTo U g.names g.nameEntry) ∧
    (∃ l, g.step U X .addId = ({ g with ids := l, idEntry := [] }, [], .done) ∧ l = AAuthGui.addTo U g.ids g.idEntry) :=
  ⟨⟨_, rfl, rfl⟩, ⟨_, rfl, rfl⟩⟩

/-- **C102**: `Delete` removes the line selected; without a selection it changes nothing and raises. -/
theorem deleted (g : AAuthGui G) (pre post : List Str) (s : Str) :
    (g.names = pre ++ s :: post →
      g.step U X (.delName (some pre.length)) = ({ g with names := pre ++ post }, [], .done)) ∧
    (g.ids = pre ++ s :: post → g.step U X (.delId (some pre.length)) = ({ g with ids := pre ++ post }, [], .done)) ∧
    (∃ e, g.step U X (.delName none) = (g, [], .raised e)) ∧ ∃ e, g.step U X (.delId none) = (g, [], .raised e) := by
  have he : (pre ++ s :: post).eraseIdx pre.length = pre ++ post := by
    rw [List.eraseIdx_append_of_length_le (Nat.le_refl _), Nat.sub_self]
    rfl
  refine ⟨fun h => ?_, fun h => ?_, ⟨_, rfl⟩, ⟨_, rfl⟩⟩
  · show ({ g with names := g.names.eraseIdx pre.length }, ([] : List SentRequest), CommandEnd.done) = _
    rw [h, he]
  · show ({ g with ids := g.ids.eraseIdx pre.length }, ([] : List SentRequest), CommandEnd.done) = _
    rw [h, he]

/-- **C102**: `Generate Key` shows a new key, and `Reset`, `Clear` and the `Clear` of the certificate change nothing else
than they should: in particular `Reset` keeps the certificate and the client. -/
theorem cleared (g : AAuthGui G) :
    (∀ k, g.step U X (.generate (.ok k)) = ({ g with key := some k, keyShown := some k }, [], .done)) ∧
    (∀ e, g.step U X (.generate (.error e)) = (g, [], .raised e)) ∧
    g.step U X .clearResult = ({ g with result := .empty }, [], .done) ∧
    g.step U X .clearCert = ({ g with verified := none, view := .empty }, [], .done) ∧
    g.step U X .reset = ({ AAuthGui.new g.client g.defaultDesc none with
      username := [], password := [], raw := g.raw, ac := g.ac, verified := g.verified, view := g.view, result := g.result },
      [], .done) :=
  ⟨fun _ => rfl, fun _ => rfl, rfl, rfl, rfl⟩

/-- **C101**: `Info` asks the service requests go to, shows its answer or what went wrong, and changes nothing but the
client. -/
theorem info_shown (g : AAuthGui G) (connect : Connect) (reply : Option Str → Except PyExc (Response Str))
    (hd : g.client.serviceDesc = some g.desc ∨ connect (some g.desc) = .ok () ∧ g.client.clientType = some "JSONWSP".toList) :
    (∀ r t, reply (Destination g) = .ok r → r.status = 200 → r.result = some t →
      ∃ client, g.step U X (.info connect reply) = ({ g with client := client, result := .info t }, [], .done)) ∧
    (∀ e, reply (Destination g) = .error e →
      ∃ client, g.step U X (.info connect reply) = ({ g with client := client, result := .error e }, [], .done)) ∧
    (∀ r, reply (Destination g) = .ok r → r.status = 200 → r.result = none →
      ∃ client, g.step U X (.info connect reply) = ({ g with client := client, result := .error .keyError }, [], .done)) := by
  obtain ⟨a, o, hu, _, _, _, _, _, hc⟩ := update_effect g connect
  have ho : o = .ok () ∧ a.cli = Destination g := by
    unfold Destination
    rcases hc with ⟨h1, h2, h3⟩ | ⟨h1, ⟨h2, h3, _⟩ | ⟨e, h2, _, h4⟩⟩
    · exact ⟨h3, by rw [if_pos h1, h2]⟩
    · exact ⟨h2, by rw [if_neg h1, h3]⟩
    · rcases hd with hd | ⟨hd, ht⟩
      · exact absurd hd h1
      · rcases h4 with h4 | h4
        · exact absurd ht h4
        · rw [hd] at h4; cases h4
  have hok : ∀ t, a.info reply = .ok t →
      g.step U X (.info connect reply) = ({ g with client := a, result := .info t }, [], .done) := by
    intro t h
    show ((g.info connect reply).1, ([] : List SentRequest), (g.info connect reply).2) = _
    unfold AAuthGui.info
    rw [hu, ho.1]
    dsimp only
    rw [h]
  have herr : ∀ e, a.info reply = .error e →
      g.step U X (.info connect reply) = ({ g with client := a, result := .error e }, [], .done) := by
    intro t h
    show ((g.info connect reply).1, ([] : List SentRequest), (g.info connect reply).2) = _
    unfold AAuthGui.info
    rw [hu, ho.1]
    dsimp only
    rw [h]
  refine ⟨fun r t hr hs ht => ⟨a, hok t ?_⟩, fun e hr => ⟨a, herr e ?_⟩, fun r hr hs ht => ⟨a, herr _ ?_⟩⟩
  · unfold AClient.info
    rw [ho.2, hr]
    show plainResult r = _
    unfold plainResult
    rw [if_neg (fun h => h hs), ht]
  · unfold AClient.info
    rw [ho.2, hr]
    rfl
  · unfold AClient.info
    rw [ho.2, hr]
    show plainResult r = _
    unfold plainResult
    rw [if_neg (fun h => h hs), ht]

/-- **C101**: if the service cannot be reached, `Info` and `Request` raise, and all that changes is that the client holds the
new description. -/
theorem unreachable_raises (g : AAuthGui G) (connect : Connect) (reply : Option Str → Except PyExc (Response Str))
    (first : Attempt G) (more : List (Attempt G)) (e : PyExc) (hd : g.client.serviceDesc ≠ some g.desc)
    (ht : g.client.clientType = some "JSONWSP".toList) (hf : connect (some g.desc) = .error e) :
    ∃ client, client.cli = g.client.cli ∧ client.serviceDesc = some g.desc ∧
      g.step U X (.info connect reply) = ({ g with client := client }, [], .raised e) ∧
      g.step U X (.request connect first more) = ({ g with client := client }, [], .raised e) := by
  obtain ⟨a, o, hu, _, _, _, _, hsd, hc⟩ := update_effect g connect
  rcases hc with ⟨h1, _⟩ | ⟨_, ⟨_, _, _, h⟩ | ⟨e', h2, h3, h4 | h4⟩⟩
  · exact absurd h1 hd
  · rw [hf] at h; cases h
  · exact absurd ht h4
  · rw [hf] at h4
    cases h4
    refine ⟨a, h3, hsd, ?_, ?_⟩
    · show ((g.info connect reply).1, ([] : List SentRequest), (g.info connect reply).2) = _
      unfold AAuthGui.info
      rw [hu, h2]
    · show g.request X connect first more = _
      unfold AAuthGui.request
      rw [hu, h2]

/-- **C102**: while a request waits for a readable attachment no other command runs. -/
theorem run_waits (g : AAuthGui G) (e : AAuthGui.Event G) (es : List (AAuthGui.Event G)) :
    ((g.step U X e).2.2 = .waiting → g.run U X (e :: es) = (g.step U X e).1) ∧
    ((g.step U X e).2.2 ≠ .waiting → g.run U X (e :: es) = (g.step U X e).1.run U X es) := by
  constructor
  · intro h
    unfold AAuthGui.run
    generalize g.step U X e = x at h
    obtain ⟨g', s, o⟩ := x
    cases h
    rfl
  · intro h
    conv_lhs => unfold AAuthGui.run
    generalize g.step U X e = x at h
    obtain ⟨g', s, o⟩ := x
    cases o with
    | waiting => exact absurd rfl h
    | done => rfl
    | raised e => rfl

/-- **C103**: the views and `Verify` are those of `views` and `verify_click`. -/
theorem view_events (g : AAuthGui G) :
    g.step U X .viewBytes = (g.viewBytes, [], .done) ∧
    g.step U X .viewText = ((g.viewAs X .text).1, [], (g.viewAs X .text).2) ∧
    g.step U X .viewBase64 = ((g.viewAs X .base64full).1, [], (g.viewAs X .base64full).2) ∧
    g.step U X .verify = ((g.verify X).1, [], (g.verify X).2) := ⟨rfl, rfl, rfl, rfl⟩

/-- **C101**: a new window shows the description of its client, a user and a password, and is empty otherwise. -/
theorem new_window (client : AClient G.Key) (desc : Str) (key : Option G.Key) :
    let g := AAuthGui.new client desc key
    g.client = client ∧ g.desc = desc ∧ g.defaultDesc = desc ∧ g.key = key ∧ g.keyShown = key ∧ g.username = "dan".toList ∧
    g.password = "admin".toList ∧ g.names = [] ∧ g.ids = [] ∧ g.ac = none ∧ g.raw = none ∧ g.verified = none :=
  ⟨rfl, rfl, rfl, rfl, rfl, rfl, rfl, rfl, rfl, rfl, rfl, rfl⟩

/-! ### Examples -/

/-- The window of a client for `http://a`. -/
def sampleWindow : AAuthGui sampleKeys := AAuthGui.new sampleClient "http://a".toList none

example : InSync sampleWindow.client ∧ sampleWindow.client.clientType = some "JSONWSP".toList ∧ SameCert sampleWindow ∧
    LabelRight toyCrypto sampleWindow :=
  ⟨rfl, rfl, .inl ⟨rfl, rfl⟩, fun _ h => (by cases h)⟩

/-- A service that sends the bytes given, for a new key. -/
def sends (k : Nat) (b : Except PyExc Bytes) : Attempt sampleKeys := ⟨.ok k, fun _ => .ok ⟨200, none, some b⟩⟩

theorem sends_answers (k : Nat) (b : Bytes) (s : SentRequest) : AnsweredWith (sends k (.ok b)).reply s b :=
  ⟨_, rfl, rfl, rfl, rfl⟩

/-- Names are added once, blank ones not at all, and a request carries them. -/
example : (sampleWindow.run asciiUni toyCrypto [.setName "age".toList, .addName, .setName "age".toList, .addName,
      .setName " ".toList, .addName, .setName "role".toList, .addName, .delName (some 0), .setId "/a".toList, .addId,
      .setPassword "x".toList]).names = ["role".toList] ∧
    ((sampleWindow.run asciiUni toyCrypto [.setId "/a".toList, .addId, .setPassword "x".toList]).step asciiUni toyCrypto
      (.request (fun _ => .ok ()) (sends 5 (.ok [])) [])).2.1 =
      [⟨some "http://a".toList, ⟨some "0".toList, some "dan".toList, some "x".toList⟩, "5".toList, "RSA".toList, 2048,
        some [], some [some "/a".toList]⟩] := by
  constructor
  · decide +kernel
  · decide +kernel

/-- The address is changed to one that cannot be reached; the second request sends the password to the first service. -/
example : (((sampleWindow.run asciiUni toyCrypto [.setDesc "http://b".toList, .setPassword "x".toList,
        .request (fun _ => .error (.exception "no route")) (sends 5 (.ok [])) []]).step asciiUni toyCrypto
      (.request (fun _ => .ok ()) (sends 6 (.ok [])) [])).2.1.map
        (fun s => (s.endpoint, s.credentials.password))) = [(some "http://a".toList, some "x".toList)] := by decide +kernel

/-- A certificate that verifies is shown and verified, then one without signature: the label still says that it verifies. -/
example : ∃ b b' c c' g1 g2 g3 s1 s2,
    sampleWindow.request toyCrypto (fun _ => .ok ()) (sends 5 (.error .valueError)) [sends 6 (.ok b)] = (g1, s1, .done) ∧
    ShowsNew g1 b c (6 : Nat) ∧ s1.length = 2 ∧ g1.verify toyCrypto = (g2, .done) ∧ g2.verified = some true ∧
    g2.request toyCrypto (fun _ => .ok ()) (sends 7 (.ok b')) [] = (g3, s2, .done) ∧ g3.ac = some c' ∧
    g3.verified = some true ∧ c'.verifySignature toyCrypto = .ok false := by
  have hascii : ∀ t ∈ texts sampleCert, Ascii t := by unfold Ascii; decide +kernel
  obtain ⟨b', he⟩ : ∃ b, sampleCert.encode toyCrypto .no = .ok (b, sampleCert) := ⟨_, rfl⟩
  obtain ⟨b, c, hsign⟩ : ∃ b c, sampleCert.encode toyCrypto (.yes (some [7, 8]) "A".toList) = .ok (b, c) := by
    have h : (sampleCert.encode toyCrypto (.yes (some [7, 8]) "A".toList)).isOk = true := by decide +kernel
    cases he : sampleCert.encode toyCrypto (.yes (some [7, 8]) "A".toList) with
    | ok p => exact ⟨p.1, p.2, rfl⟩
    | error e => rw [he] at h; cases h
  obtain ⟨_, hdec⟩ := signed_export_imports toyCrypto_lawful hsign rfl rfl rfl hascii (by unfold Ascii; decide) (by decide)
  obtain ⟨_, hw, hv⟩ := decode_accepts.mp hdec
  obtain ⟨algo, sig, _, _, _, _, _, hsig, _⟩ := verify_iff.mp (hv rfl)
  obtain ⟨g1, s1, h1, hl, h2, _⟩ := request_answered (X := toyCrypto) sampleWindow (fun _ => .ok ())
    [sends 5 (.error .valueError)] [] (sends 6 (.ok b)) _ _ rfl (.inl rfl) (k := (6 : Nat)) (.inr ⟨rfl, rfl⟩)
    (sends_answers 6 b) (fun t ht => by
      rw [List.mem_singleton.mp ht]
      exact ⟨⟨(5 : Nat), .inr ⟨rfl, rfl⟩⟩, .valueError, .inl rfl, fun s => ⟨_, rfl, rfl, rfl, rfl⟩⟩) hw
    (fun algo h => by rw [hsig] at h; cases h)
  have hg2 : g1.verify toyCrypto = ({ g1 with verified := some true }, .done) := by
    unfold AAuthGui.verify
    rw [h2.ac]
    dsimp only
    rw [hv rfl]
  have hdesc : g1.client.serviceDesc = some g1.desc := by
    obtain ⟨h, _, _, _, hk⟩ := request_effect sampleWindow g1 (fun _ => .ok ()) _ _ s1 _ h1
    rw [h]
    rcases hk with ⟨_, _, hk, _⟩ | ⟨_, _, _, _, _, _, _, _, ⟨_, _, _, _, hk⟩ | ⟨_, _, _, _, _, hk⟩⟩ <;> rw [hk]
  obtain ⟨g3, s2, h3, h4, h5, h6⟩ := label_forged (X := toyCrypto) { g1 with verified := some true } (fun _ => .ok ())
    (sends 7 (.ok b')) [] rfl hdesc (k := (6 : Nat)) (.inl h2.key) he rfl hascii (sends_answers 7 b')
  exact ⟨b, b', content c, content sampleCert, g1, _, g3, s1, s2, h1, h2, hl, hg2, rfl, h3, h4, h5, h6⟩

/-- The sample authority meets the conditions of `issued_shown` and answers a user of its database. -/
example : (∀ cred key, cred.username = some "ann".toList → key.cipher = "RSA".toList →
      AsciiInputs sampleAuthority sampleDb sampleRequestEnv ((fun c : ClientCredentials => ⟨0, c.username, c.password⟩) cred)
        key (sampleExports "10.0.0.1")) ∧
    ∃ b, AnsweredWith (windowReply (U := asciiUni) plainBcrypt id sampleAuthority sampleDb sampleRequestEnv
      (fun c => ⟨0, c.username, c.password⟩) (sampleExports "10.0.0.1") (fun _ => .ok ""))
      ⟨some "http://a".toList, ⟨some "0".toList, some "ann".toList, some "x".toList⟩, "5".toList, "RSA".toList, 2048,
        some [], some [some "/a/age".toList]⟩ b := by
  constructor
  · intro cred key hu hc
    have h := sample_ascii "10.0.0.1" (by unfold Ascii; decide) "ann" (by unfold Ascii; decide) none
    refine { h with username := fun s hs => ?_, cipher := ?_ }
    · exact h.username s (hu.symm.trans hs)
    · rw [hc]; unfold Ascii; decide
  · obtain ⟨b, hb⟩ := issued_iff.mp (show Issued (sampleAuthority.issue asciiUni plainBcrypt id sampleDb sampleRequestEnv
      ⟨0, some "ann".toList, some "x".toList⟩ ⟨utf8 "5".toList, "RSA".toList, 2048⟩ ⟨some [], some [some "/a/age".toList]⟩
      (sampleExports "10.0.0.1")) = true by decide +kernel)
    refine ⟨b, ⟨200, none, some (.ok b)⟩, ?_, rfl, rfl, rfl⟩
    unfold windowReply serviceReply
    rw [hb]
    rfl

end Verif.Props
