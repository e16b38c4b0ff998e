import Verif.Props.AAuth
import Verif.Props.PAuth
import Verif.Props.Clients

/-!
# From the client to the session (C92, C93)

Certificates of the attribute authority in the hands of the client and of the policy authority.
-/

namespace Verif.Props

open Proofs Spec

variable {U : Uni} {X : Crypto} {B : Bcrypt} {collate collate' : Str → Str} {a : Authority X} {db : AAuthDb} {env : RequestEnv}
  {cred : Credentials} {key : PublicKeyArg} {req : AttributeListArg} {exports exports' : Dict Str} {b : Bytes}
  {pdb pdb' : PAuthDb} {penv : PAEnv} {serviceUid : Option Str} {r : SessionReturn}

/-! ### C92: issued certificates start sessions -/

/-- **C92**: a certificate issued by an authority is accepted by every policy authority that trusts it, at every time after
it was issued and before it expires, in both formats that work. -/
theorem issued_accepted (hU : U.Lawful) (hX : X.Lawful) (ha : AsciiInputs a db env cred key exports)
    (h : a.issue U B collate db env cred key req exports = .ok b) {uri : Str} (huri : a.aUri = some uri)
    (ht : Trusted pdb uri) {now : Int} (hnow : env.now < now ∧ now < env.now + a.expire) :
    ∃ c, AttCert.decode X b true = .ok (c, []) ∧ c.info = ⟨1, env.random, env.now⟩ ∧
      c.revRules.validBefore = env.now + a.expire ∧ c.holder.pubKey = key.publicKey ∧
      Accepted X pdb now ⟨b, 1, 0⟩ c ∧ Accepted X pdb now ⟨b64encode b, 1, 3⟩ c := by
  obtain ⟨username, user, sel, uri', rows, body, sig, _, _, _, _, huri', _, _, _, hd⟩ := issued_certificate hU hX ha h
  rw [huri] at huri'
  cases huri'
  obtain ⟨_, hw, hv⟩ := decode_ok.1 hd
  have hi := (issued_parts (a := a) (env := env) (key := key) uri username (sel.map Prod.snd) [] (fun _ h => (by cases h))).1
  exact ⟨_, hd, rfl, rfl, rfl, ⟨rfl, ⟨b, .inl ⟨rfl, rfl⟩, hw⟩, hv rfl, ⟨_, hi, ht⟩, hnow.1, hnow.2⟩,
    ⟨rfl, ⟨b, .inr ⟨rfl, b64decode_b64encode b⟩, hw⟩, hv rfl, ⟨_, hi, ht⟩, hnow.1, hnow.2⟩⟩

/-- **C92**: and starts a session that ends with the certificate or after a day, if its serial number and the number of the
session are new. -/
theorem issued_session (hU : U.Lawful) (hX : X.Lawful) (ha : AsciiInputs a db env cred key exports)
    (h : a.issue U B collate db env cred key req exports = .ok b) {uri : Str} (huri : a.aUri = some uri)
    (hk : PAKeys collate' pdb) (hr : penv.random < 2 ^ 160) (ht : Trusted pdb uri)
    (hnow : env.now < penv.clock 0 ∧ penv.clock 0 < env.now + a.expire)
    (hnew : ∀ x ∈ pdb.certs, collate' x.serial ≠ collate' (numberText env.random))
    (hfresh : ∀ s ∈ pdb.sessions, collate' s.id ≠ collate' (numberText penv.random))
    (hassign : ∀ x ∈ pdb.assignments, collate' x.sessionId ≠ collate' (numberText penv.random))
    (hfault : penv.commitFault = none) {addr uid : Str} (haddr : exports'.get "REMOTE_ADDR".toList = some addr) {raw : RawCert}
    (hraw : raw = ⟨b, 1, 0⟩ ∨ raw = ⟨b64encode b, 1, 3⟩) :
    ∃ pdb', startSession X collate' pdb penv (some uid) (some [raw]) exports' =
      (pdb', .ok ⟨penv.random, penv.now, min (env.now + a.expire) (penv.now + 86400)⟩) ∧
      ⟨numberText penv.random, env.now, env.now + a.expire, penv.now, addr, uid,
        min (env.now + a.expire) (penv.now + 86400)⟩ ∈ pdb'.sessions ∧
      ⟨numberText env.random, numberText penv.random⟩ ∈ pdb'.assignments ∧
      ∃ row ∈ pdb'.certs, row.serial = numberText env.random ∧ row.certificate = raw.data := by
  obtain ⟨c, hd, hinfo, hbef, _, h1, h2⟩ := issued_accepted (pdb := pdb) hU hX ha h huri ht hnow
  have hacc : Accepted X pdb (penv.clock 0) raw c := by
    rcases hraw with rfl | rfl
    · exact h1
    · exact h2
  have hserial : serialText c = numberText env.random := by
    unfold serialText
    rw [hinfo]
  have hs := start_single (uid := uid) hk hr hacc (fun x hx e => absurd (e.trans (by rw [hserial])) (hnew x hx)) hfresh hassign
    hfault haddr
  rw [hbef] at hs
  refine ⟨_, hs, ?_, ?_, certRow X raw c, ?_, hserial, rfl⟩
  · refine List.mem_append_right _ ?_
    rw [hinfo]
    exact List.mem_singleton_self _
  · refine List.mem_append_right _ ?_
    rw [hserial]
    exact List.mem_singleton_self _
  · refine List.mem_append_right _ ?_
    have hn : isNew collate' pdb c = true := by
      unfold isNew
      rw [List.all_eq_true, hserial]
      exact fun x hx => decide_eq_true (hnew x hx)
    unfold newCerts
    rw [List.filter_cons, if_pos hn]
    exact List.mem_singleton_self _

/-! ### C93: the client's key is the one certified -/

/-- The service as the client sees it: a certificate or a fault. `convert` is what the transport makes of credentials, and
`text` the message made of a fault. -/
def serviceReply (U : Uni) (B : Bcrypt) (collate : Str → Str) (a : Authority X) (db : AAuthDb) (env : RequestEnv)
    (convert : ClientCredentials → Credentials) (exports : Dict Str) (text : PyExc → Except PyExc String) (s : SentRequest) :
    Except PyExc (Response Bytes) :=
  match a.issue U B collate db env (convert s.credentials) ⟨utf8 s.publicKey, s.cipher, s.keySize⟩ ⟨s.names, s.ids⟩ exports with
  | .ok b => .ok ⟨200, none, some b⟩
  | .error e => .ok ⟨200, some (text e), none⟩

theorem serviceReply_wellFormed (convert : ClientCredentials → Credentials) (text : PyExc → Except PyExc String) :
    WellFormed (serviceReply U B collate a db env convert exports text) := by
  intro s r h hf
  unfold serviceReply at h
  split at h
  · cases h; exact fun h => by cases h
  · cases h; cases hf

/-- **C93**: a client that gets a certificate keeps the key whose public part is certified, of which it is told the right
size, and the certificate is issued for the client's credentials. A client that gets none keeps the key it had. -/
theorem client_certified (hU : U.Lawful) (hX : X.Lawful) {G : Keys} {cl cl' : AClient G.Key} {generate : Except PyExc G.Key}
    {convert : ClientCredentials → Credentials} {text : PyExc → Except PyExc String} {names ids : Option (List (Option Str))}
    {mine : Option G.Key} {s : Option SentRequest} {o : Except PyExc Bytes}
    (hgen : ∀ k, generate = .ok k → G.bits k = cl.keySize)
    (ha : ∀ key, key.cipher = "RSA".toList → AsciiInputs a db env (convert cl.credentials) key exports)
    (h : cl.request G generate (serviceReply U B collate a db env convert exports text) names ids mine = (cl', s, o)) :
    ((∃ e, o = .error e) ∧ cl' = cl) ∨
    ∃ b k c username user, o = .ok b ∧ cl' = { cl with lastKey := some k } ∧ (∀ k', mine = some k' → k = k') ∧
      AttCert.decode X b true = .ok (c, []) ∧ c.holder.pubKey = utf8 (G.pem k) ∧
      c.holder.keyAlgo = "RSA[".toList ++ decimal (G.bits k) ++ "]".toList ∧ c.holder.name = cleanOpt (some username) ∧
      (convert cl.credentials).username = some username ∧ UserNamed collate db (U.lower username) user ∧
      B.checkpw (Peppered a (convert cl.credentials)) (utf8 user.password) = .ok true := by
  rcases lastKey_iff cl' s o h with ⟨k, n, r, hk, hs, hr, hst, hf, hcl⟩ | ⟨_, hcl, ho⟩
  · have hbits : n = G.bits k := by
      rcases hk with ⟨_, h⟩ | ⟨_, h1, h2⟩
      · exact h
      · exact h2.trans (hgen k h1).symm
    have hmine : ∀ k', mine = some k' → k = k' := by
      intro k' hk'
      rcases hk with ⟨h, _⟩ | ⟨h, _⟩
      · exact Option.some.inj (h.symm.trans hk')
      · rw [h] at hk'; cases hk'
    have hr0 := hr
    unfold serviceReply at hr
    split at hr
    · rename_i b hissue
      cases hr
      obtain ⟨username, user, sel, uri, rows, body, sig, h1, h2, h3, _, _, _, _, _, hd⟩ :=
        issued_certificate hU hX (ha _ rfl) hissue
      refine .inr ⟨b, k, _, username, user, ?_, hcl, hmine, hd, rfl, ?_, rfl, h1, h2, h3⟩
      · rcases request_split (a := cl) (generate := generate)
            (reply := serviceReply U B collate a db env convert exports text) (names := names) (ids := ids) (key := mine) with
          ⟨e, he, hn, _⟩ | ⟨k', n', hk', he⟩
        · subst hn
          rcases hk with ⟨h, _⟩ | ⟨_, h, _⟩
          · cases h
          · rw [he] at h; cases h
        · obtain ⟨rfl, rfl⟩ := requestKey_unique hk hk'
          rw [(Prod.mk.inj (Prod.mk.inj (h.symm.trans he)).2).2]
          exact ((receive_iff k _).2.2 b).mpr ⟨_, hr0, rfl, rfl, rfl⟩
      · show "RSA".toList ++ "[".toList ++ decimal n ++ "]".toList = _
        rw [hbits]
        rfl
    · cases hr; cases hf
  · refine .inl ⟨?_, hcl⟩
    cases o with
    | error e => exact ⟨e, rfl⟩
    | ok x => exact absurd rfl (ho x)

/-! ### Examples -/

/-- A certificate of the sample authority and a session of the sample policy authority with it. -/
example : ∃ b pdb', sampleIssue (sampleCred "ann" (some "x".toList)) ⟨some [], some []⟩ "10.0.0.1" = .ok b ∧
    startSession toyCrypto id samplePAuthDb ⟨1030, fun _ => 1030, 5, none⟩ (some "s".toList) (some [⟨b64encode b, 1, 3⟩])
      (sampleExports "1.2.3.4") = (pdb', .ok ⟨5, 1030, 1060⟩) := by
  obtain ⟨b, hb⟩ : ∃ b, sampleIssue (sampleCred "ann" (some "x".toList)) ⟨some [], some []⟩ "10.0.0.1" = .ok b :=
    issued_iff.mp (by decide +kernel)
  obtain ⟨pdb', h, _⟩ := issued_session (pdb := samplePAuthDb) (penv := ⟨1030, fun _ => 1030, 5, none⟩) (uid := "s".toList)
    (addr := "1.2.3.4".toList) (exports' := sampleExports "1.2.3.4") asciiUni_lawful toyCrypto_lawful
    (sample_ascii _ (by unfold Ascii; decide) _ (by unfold Ascii; decide) _) hb rfl samplePAuthDb_consistent.keys (by decide)
    ⟨_, List.mem_cons_self, rfl, by decide⟩ (by decide) (fun _ h => (by cases h)) (fun _ h => (by cases h))
    (fun _ h => (by cases h)) rfl rfl (.inr rfl)
  exact ⟨b, pdb', hb, h⟩

end Verif.Props
