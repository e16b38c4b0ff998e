import Verif.Spec.Bearer
import Verif.Props.PAuth

/-!
# What a session does not depend on (C150)

A certificate is a bearer token: `start_session` looks at the number of each certificate and at two of its times. Whoever
holds the certificate, what it grants, how it may be delegated or revoked, and who sends it make no difference to the
session.
-/

namespace Verif.Props

open Verif.Spec Proofs

variable {X : Crypto} {collate : Str → Str} {db db' : PAuthDb} {env : PAEnv} {serviceUid : Option Str}
  {raws raws' : List RawCert} {exports exports' : Dict Str} {cs cs' : List AttCert} {r : SessionReturn}

theorem alike_serial {c c' : AttCert} (h : Alike c c') : serialText c = serialText c' := by
  unfold serialText
  rw [h.1]

theorem alike_map {α : Type} (f : AttCert → α) (hf : ∀ c c', Alike c c' → f c = f c') (h : List.Forall₂ Alike cs cs') :
    cs.map f = cs'.map f := by
  induction h with
  | nil => rfl
  | cons h _ ih => rw [List.map_cons, List.map_cons, hf _ _ h, ih]

theorem alike_new {c c' : AttCert} (h : Alike c c') : isNew collate db c = isNew collate db c' := by
  unfold isNew
  rw [alike_serial h]

theorem alike_newCerts (h : List.Forall₂ Alike cs cs') : ∀ {raws raws' : List RawCert}, raws.length = cs.length →
    raws'.length = cs'.length →
    (newCerts X collate db (raws.zip cs)).map certless = (newCerts X collate db (raws'.zip cs')).map certless := by
  induction h with
  | nil => intro raws raws' _ _; simp [newCerts]
  | @cons c c' cs cs' h _ ih =>
    intro raws raws' h1 h2
    cases raws with
    | nil => cases h1
    | cons raw raws =>
      cases raws' with
      | nil => cases h2
      | cons raw' raws' =>
        have ih := ih (Nat.succ.inj h1) (Nat.succ.inj h2)
        unfold newCerts at ih ⊢
        simp only [List.zip_cons_cons, List.filter_cons, alike_new h (collate := collate) (db := db)]
        have hb : certless (certRow X raw c) = certless (certRow X raw' c') := by
          simp only [certless, certRow, alike_serial h, h.2.2]
        split
        · simp only [List.map_cons, ih, hb]
        · exact ih

theorem accepted_list {raws : List (RawCert × Nat)} (h : List.Forall₂ (fun p c => Accepted X db (env.clock p.2) p.1 c) raws cs)
    (h' : List.Forall₂ (fun p c => Accepted X db (env.clock p.2) p.1 c) raws cs') : cs = cs' := by
  induction h generalizing cs' with
  | nil => cases h'; rfl
  | cons h _ ih =>
    cases h' with
    | cons h' hs' => rw [accepted_unique h h', ih hs']

/-- **C150**: certificates alike in number and times start alike sessions, whoever sends them. -/
theorem bearer (hk : PAKeys collate db) (hr : env.random < 2 ^ 160)
    (h : startSession X collate db env serviceUid (some raws) exports = (db', .ok r))
    (haccs : List.Forall₂ (fun p c => Accepted X db (env.clock p.2) p.1 c) raws.zipIdx cs)
    (hacc : List.Forall₂ (fun p c => Accepted X db (env.clock p.2) p.1 c) raws'.zipIdx cs') (hl : List.Forall₂ Alike cs cs')
    (hsame : List.Forall₂ (fun raw c => ∀ h ∈ db.certs, collate h.serial = collate (serialText c) → h.hash = hashText X raw)
      raws' cs') (haddr : (exports'.get "REMOTE_ADDR".toList).isSome) :
    ∃ db'', startSession X collate db env serviceUid (some raws') exports' = (db'', .ok r) ∧ SameSessions db' db'' := by
  obtain ⟨raws₀, cs₀, he, hne, hs⟩ := (start_iff hk hr _).1 (start_split.1 h)
  obtain rfl := Option.some.inj he
  obtain rfl := accepted_list haccs hs.accepted
  obtain ⟨addr', haddr⟩ := Option.isSome_iff_exists.1 haddr
  have hlen : raws.length = cs.length := by simpa using hs.accepted.length_eq
  have hlen' : raws'.length = cs'.length := by simpa using hacc.length_eq
  have hnum : ∀ {α : Type} (f : Str → α), cs.map (fun c => f (serialText c)) = cs'.map (fun c => f (serialText c)) :=
    fun f => alike_map _ (fun c c' h => by rw [alike_serial h]) hl
  obtain ⟨addr, uid, first, last, ha, hu, hfirst, hlast, rfl, rfl⟩ := hs.result
  have hne' : raws' ≠ [] := by
    rintro rfl
    cases cs' with
    | cons _ _ => cases hlen'
    | nil =>
      cases hl
      exact hne (List.length_eq_zero_iff.1 hlen)
  refine ⟨_, start_split.2 ((start_iff hk hr _).2 ⟨raws', cs', rfl, hne', hacc, hsame, ?_, hs.fresh, ?_, hs.noFault,
    addr', uid, first, last, haddr, hu, ?_, ?_, rfl, rfl⟩), rfl, rfl, ?_, ?_, ?_⟩
  · rw [← hnum]
    exact hs.distinct
  · intro c hc a haa
    have hm : serialText c ∈ cs'.map (fun c => id (serialText c)) := List.mem_map.2 ⟨c, hc, rfl⟩
    rw [← hnum] at hm
    obtain ⟨c₀, hc₀, e⟩ := List.mem_map.1 hm
    have := hs.unassigned c₀ hc₀ a haa
    rwa [show serialText c₀ = serialText c from e] at this
  · rw [← alike_map _ (fun _ _ h => h.2.2) hl]
    exact hfirst
  · rw [← alike_map _ (fun _ _ h => h.2.1) hl]
    exact hlast
  · exact congrArg (db.assignments ++ ·) (hnum (fun t => ACARow.mk t (numberText env.random)))
  · simp [unplaced]
  · simp only [List.map_append]
    rw [alike_newCerts hl hlen hlen']

/-! ### The caller -/

theorem faults_caller (h : (exports.get "REMOTE_ADDR".toList).isSome = (exports'.get "REMOTE_ADDR".toList).isSome) :
    clientFaultLogged exports = clientFaultLogged exports' := by
  funext msg
  unfold clientFaultLogged
  rw [h]

theorem startLoop_caller (h : (exports.get "REMOTE_ADDR".toList).isSome = (exports'.get "REMOTE_ADDR".toList).isSome)
    (session : Str) (clock : Nat → Int) : ∀ (raws : List RawCert) (i : Nat) (acc : StartAcc),
    startLoop X collate db exports session clock i acc raws = startLoop X collate db exports' session clock i acc raws := by
  have hstep : startStep X collate db exports = startStep X collate db exports' := by
    funext session clock acc raw
    unfold startStep newRow checkCert
    rw [faults_caller h]
  intro raws
  induction raws with
  | nil => intro i acc; rfl
  | cons raw raws ih =>
    intro i acc
    simp only [startLoop, hstep, ih]

theorem commit_caller {fault : Option PyExc} {certs : List ACRow} {assignments : List ACARow} {s s' : Str → SessionRow}
    (hs : ∀ uid, unplaced (s uid) = unplaced (s' uid)) :
    (∃ e, db.commit collate fault certs assignments s serviceUid = .error e ∧
      db.commit collate fault certs assignments s' serviceUid = .error e) ∨
    ∃ d d', db.commit collate fault certs assignments s serviceUid = .ok d ∧
      db.commit collate fault certs assignments s' serviceUid = .ok d' ∧ SameSessions d d' ∧ d.certs = d'.certs := by
  unfold PAuthDb.commit
  cases fault with
  | some e => exact .inl ⟨e, rfl, rfl⟩
  | none =>
    cases serviceUid with
    | none => exact .inl ⟨_, rfl, rfl⟩
    | some uid =>
      dsimp only
      have hid : (s uid).id = (s' uid).id := by
        have h := congrArg SessionRow.id (hs uid)
        exact h
      rw [hid]
      split
      · exact .inr ⟨_, _, rfl, rfl, ⟨rfl, rfl, rfl, by simp [hs uid], rfl⟩, rfl⟩
      · exact .inl ⟨_, rfl, rfl⟩

/-- Either both calls raise the same, or both answer the same. -/
theorem startE_caller (set : Option (List RawCert)) (h : (exports.get "REMOTE_ADDR".toList).isSome)
    (h' : (exports'.get "REMOTE_ADDR".toList).isSome) :
    (∃ e, startSessionE X collate db env serviceUid set exports = .error e ∧
      startSessionE X collate db env serviceUid set exports' = .error e) ∨
    ∃ d d' r, startSessionE X collate db env serviceUid set exports = .ok (d, r) ∧
      startSessionE X collate db env serviceUid set exports' = .ok (d', r) ∧ SameSessions d d' ∧ d.certs = d'.certs := by
  have hs : (exports.get "REMOTE_ADDR".toList).isSome = (exports'.get "REMOTE_ADDR".toList).isSome := by rw [h, h']
  obtain ⟨a, ha⟩ := Option.isSome_iff_exists.1 h
  obtain ⟨a', ha'⟩ := Option.isSome_iff_exists.1 h'
  have hra : remoteAddr exports = .ok a := by unfold remoteAddr; rw [ha]; rfl
  have hra' : remoteAddr exports' = .ok a' := by unfold remoteAddr; rw [ha']; rfl
  unfold startSessionE
  simp only [faults_caller hs, startLoop_caller hs, hra, hra']
  split
  · exact .inl ⟨_, rfl, rfl⟩
  · cases intToB64 (env.random : Int) with
    | error e => exact .inl ⟨e, rfl, rfl⟩
    | ok session =>
      dsimp only [bind, Except.bind]
      cases startLoop X collate db exports' session env.clock 0 {} (set.getD []) with
      | error e => exact .inl ⟨e, rfl, rfl⟩
      | ok acc =>
        dsimp only
        split
        · exact .inl ⟨_, rfl, rfl⟩
        · rcases commit_caller (db := db) (collate := collate) (serviceUid := serviceUid) (fault := env.commitFault)
            (certs := acc.certs) (assignments := acc.assignments)
            (s := fun uid => ⟨session, acc.maxStart, acc.minValid, env.now, a, uid,
              if acc.minValid < env.now + 86400 then acc.minValid else env.now + 86400⟩)
            (s' := fun uid => ⟨session, acc.maxStart, acc.minValid, env.now, a', uid,
              if acc.minValid < env.now + 86400 then acc.minValid else env.now + 86400⟩) (fun _ => rfl) with
            ⟨e, h1, h2⟩ | ⟨d, d', h1, h2, h3⟩
          · rw [h1, h2]
            exact .inl ⟨e, rfl, rfl⟩
          · rw [h1, h2]
            exact .inr ⟨d, d', _, rfl, rfl, h3⟩

/-- **C150**: of the caller `start_session` sees only whether the server gave an address: the answers, errors among them,
are the same for all addresses, and so is the database but for the address of the session. -/
theorem any_caller (set : Option (List RawCert)) (h : (exports.get "REMOTE_ADDR".toList).isSome)
    (h' : (exports'.get "REMOTE_ADDR".toList).isSome) :
    (startSession X collate db env serviceUid set exports).2 = (startSession X collate db env serviceUid set exports').2 ∧
    SameSessions (startSession X collate db env serviceUid set exports).1
      (startSession X collate db env serviceUid set exports').1 ∧
    (startSession X collate db env serviceUid set exports).1.certs =
      (startSession X collate db env serviceUid set exports').1.certs := by
  unfold startSession
  rcases startE_caller (X := X) (collate := collate) (db := db) (env := env) (serviceUid := serviceUid) set h h' with
    ⟨e, h1, h2⟩ | ⟨d, d', r, h1, h2, h3⟩
  · rw [h1, h2]
    exact ⟨rfl, ⟨rfl, rfl, rfl, rfl, rfl⟩, rfl⟩
  · rw [h1, h2]
    exact ⟨rfl, h3⟩

/-! ### Certificates of several holders -/

theorem zipIdx_accepted {t : Int} (ht : ∀ i, env.clock i = t) {n : Nat} :
    List.Forall₂ (fun p c => Accepted X db (env.clock p.2) p.1 c) (raws.zipIdx n) cs ↔
      List.Forall₂ (fun raw c => Accepted X db t raw c) raws cs := by
  induction raws generalizing n cs with
  | nil => simp
  | cons raw raws ih =>
    cases cs with
    | nil => simp
    | cons c cs =>
      rw [List.zipIdx_cons, List.forall₂_cons, List.forall₂_cons, ih, ht]

/-- **C150**: what starts two sessions starts one, whatever the holders, if no number occurs in both. -/
theorem pooled (hk : PAKeys collate db) (hr : env.random < 2 ^ 160) {t : Int} (ht : ∀ i, env.clock i = t) {d d' : PAuthDb}
    {r r' : SessionReturn} (h : startSession X collate db env serviceUid (some raws) exports = (d, .ok r))
    (h' : startSession X collate db env serviceUid (some raws') exports = (d', .ok r'))
    (haccs : List.Forall₂ (Accepted X db t) raws cs) (haccs' : List.Forall₂ (Accepted X db t) raws' cs')
    (hd : ∀ c ∈ cs, ∀ c' ∈ cs', collate (serialText c) ≠ collate (serialText c')) :
    ∃ d'', startSession X collate db env serviceUid (some (raws ++ raws')) exports =
      (d'', .ok ⟨env.random, env.now, min r.validTill r'.validTill⟩) := by
  obtain ⟨_, _, he, hne, hs⟩ := (start_iff hk hr _).1 (start_split.1 h)
  obtain rfl := Option.some.inj he
  obtain ⟨_, _, he, hne', hs'⟩ := (start_iff hk hr _).1 (start_split.1 h')
  obtain rfl := Option.some.inj he
  obtain rfl := accepted_list ((zipIdx_accepted ht).2 haccs) hs.accepted
  obtain rfl := accepted_list ((zipIdx_accepted ht).2 haccs') hs'.accepted
  obtain ⟨addr, uid, first, last, ha, hu, hfirst, hlast, rfl, rfl⟩ := hs.result
  obtain ⟨addr', uid', first', last', ha', hu', hfirst', hlast', rfl, rfl⟩ := hs'.result
  refine ⟨_, start_split.2 ((start_iff hk hr _).2 ⟨raws ++ raws', cs ++ cs', rfl, by simp [hne], ?_, ?_, ?_, hs.fresh, ?_,
    hs.noFault, addr, uid, min first first', max last last', ha, hu, ?_, ?_, rfl, ?_⟩)⟩
  · exact (zipIdx_accepted ht).2 (List.rel_append ((zipIdx_accepted ht).1 hs.accepted) ((zipIdx_accepted ht).1 hs'.accepted))
  · exact List.rel_append hs.sameHash hs'.sameHash
  · rw [List.map_append, List.nodup_append]
    refine ⟨hs.distinct, hs'.distinct, fun x hx y hy => ?_⟩
    obtain ⟨c, hc, rfl⟩ := List.mem_map.1 hx
    obtain ⟨c', hc', rfl⟩ := List.mem_map.1 hy
    exact hd c hc c' hc'
  · intro c hc
    rcases List.mem_append.1 hc with hc | hc
    · exact hs.unassigned c hc
    · exact hs'.unassigned c hc
  · rw [List.map_append]
    rw [List.min?_eq_some_iff] at hfirst hfirst' ⊢
    refine ⟨?_, fun b hb => ?_⟩
    · rcases Int.le_total first first' with h | h
      · rw [Int.min_eq_left h]; exact List.mem_append_left _ hfirst.1
      · rw [Int.min_eq_right h]; exact List.mem_append_right _ hfirst'.1
    · rcases List.mem_append.1 hb with hb | hb
      · exact Int.le_trans (Int.min_le_left _ _) (hfirst.2 b hb)
      · exact Int.le_trans (Int.min_le_right _ _) (hfirst'.2 b hb)
  · rw [List.map_append]
    rw [List.max?_eq_some_iff] at hlast hlast' ⊢
    refine ⟨?_, fun b hb => ?_⟩
    · rcases Int.le_total last last' with h | h
      · rw [Int.max_eq_right h]; exact List.mem_append_right _ hlast'.1
      · rw [Int.max_eq_left h]; exact List.mem_append_left _ hlast.1
    · rcases List.mem_append.1 hb with hb | hb
      · exact Int.le_trans (hlast.2 b hb) (Int.le_max_left _ _)
      · exact Int.le_trans (hlast'.2 b hb) (Int.le_max_right _ _)
  · show SessionReturn.mk _ _ (min (min first (env.now + 86400)) (min first' (env.now + 86400))) = _
    congr 1
    omega

/-! ### Examples -/

/-- The certificate of the examples for another holder, with another attribute. -/
def mallorysCert : AttCert :=
  { sampleCert with
    holder := ⟨[6], "RSA".toList, "/aa/mallory".toList, none⟩
    attSet := some [ACAttribute.make "/a/admin".toList .bool (some "True".toList)]
    delRules := none }

/-- Another certificate of that holder. -/
def mallorysSecond : AttCert := { mallorysCert with info := ⟨1, 78, 1100⟩, revRules := ⟨1000, 1900, none, none⟩ }

theorem mallory_accepted {c : AttCert} (hc : c = sampleCert ∨ c = mallorysCert ∨ c = mallorysSecond) : ∃ raw c',
    Accepted toyCrypto samplePAuthDb 1200 raw c' ∧ c'.info = c.info ∧
    c'.revRules.validBefore = c.revRules.validBefore ∧ c'.holder.uid = c.holder.uid := by
  have h : ∃ p, c.encode toyCrypto (.yes (some [7, 8]) "A".toList) = .ok p := by
    rcases hc with rfl | rfl | rfl <;> exact ok_of_isOk (by decide +kernel)
  obtain ⟨⟨b, c'⟩, h⟩ := h
  have hi : c.issuer = sampleCert.issuer := by rcases hc with rfl | rfl | rfl <;> rfl
  have ht : ∀ t ∈ texts c, Ascii t := by rcases hc with rfl | rfl | rfl <;> (unfold Ascii; decide +kernel)
  have hA : Ascii "A".toList := by unfold Ascii; decide
  obtain ⟨_, h4⟩ := forged (db := samplePAuthDb) (now := 1200) toyCrypto_lawful h hi rfl rfl ht hA (by decide)
    ⟨_, List.mem_cons_self, rfl, by decide⟩ (by rcases hc with rfl | rfl | rfl <;> decide)
  obtain ⟨hs, _⟩ := signed_export_imports toyCrypto_lawful h hi rfl rfl ht hA (by decide)
  obtain ⟨body, sig, _, _, rfl⟩ := sign_ok.1 hs
  exact ⟨_, _, h4, rfl, rfl, by rcases hc with rfl | rfl | rfl <;> rfl⟩

/-- The same session for two holders, and one for the certificates of both. -/
example : ∃ raw raw' raw'' c c' c'' d d' d'' r, c.holder.uid = "/aa/bob".toList ∧ c'.holder.uid = "/aa/mallory".toList ∧
    Accepted toyCrypto samplePAuthDb 1200 raw c ∧ Accepted toyCrypto samplePAuthDb 1200 raw' c' ∧
    Accepted toyCrypto samplePAuthDb 1200 raw'' c'' ∧ c''.holder.uid = "/aa/mallory".toList ∧
    startSession toyCrypto id samplePAuthDb ⟨1200, fun _ => 1200, 5, none⟩ (some "s".toList) (some [raw])
      (sampleExports "1.2.3.4") = (d, .ok r) ∧
    startSession toyCrypto id samplePAuthDb ⟨1200, fun _ => 1200, 5, none⟩ (some "s".toList) (some [raw'])
      (sampleExports "6.6.6.6") = (d', .ok r) ∧ SameSessions d d' ∧
    startSession toyCrypto id samplePAuthDb ⟨1200, fun _ => 1200, 5, none⟩ (some "s".toList) (some ([raw] ++ [raw'']))
      (sampleExports "1.2.3.4") = (d'', .ok ⟨5, 1200, 1900⟩) := by
  obtain ⟨raw, c, hacc, hinfo, hb, hu⟩ := mallory_accepted (.inl rfl)
  obtain ⟨raw', c', hacc', hinfo', hb', hu'⟩ := mallory_accepted (.inr (.inl rfl))
  obtain ⟨raw'', c'', hacc'', hinfo'', hb'', hu''⟩ := mallory_accepted (.inr (.inr rfl))
  have single := fun {raw : RawCert} {c : AttCert} (h : Accepted toyCrypto samplePAuthDb 1200 raw c) =>
    start_single (collate := id) (env := ⟨1200, fun _ => 1200, 5, none⟩) (exports := sampleExports "1.2.3.4") (uid := "s".toList)
      (addr := "1.2.3.4".toList) samplePAuthDb_consistent.keys (by decide) h (fun _ h => (by cases h)) (fun _ h => (by cases h))
      (fun _ h => (by cases h)) rfl rfl
  obtain ⟨d', h1, h2⟩ := bearer (exports' := sampleExports "6.6.6.6") samplePAuthDb_consistent.keys (by decide) (single hacc)
    (.cons hacc .nil) (raws' := [raw']) (cs' := [c']) (.cons hacc' .nil)
    (.cons ⟨by rw [hinfo, hinfo']; rfl, by rw [hinfo, hinfo']; rfl, by rw [hb, hb']; rfl⟩ .nil)
    (.cons (fun _ h => (by cases h)) .nil) rfl
  obtain ⟨d'', h3⟩ := pooled samplePAuthDb_consistent.keys (by decide) (t := 1200) (fun _ => rfl) (single hacc) (single hacc'')
    (.cons hacc .nil) (.cons hacc'' .nil) (by
      intro x hx y hy
      rw [List.mem_singleton.1 hx, List.mem_singleton.1 hy]
      unfold serialText
      rw [hinfo, hinfo'']
      decide +kernel)
  refine ⟨raw, raw', raw'', c, c', c'', _, d', d'', _, hu, hu', hacc, hacc', hacc'', hu'', single hacc, h1, h2, ?_⟩
  rw [h3]
  show (d'', Except.ok (SessionReturn.mk 5 1200 (min (min c.revRules.validBefore (1200 + 86400))
    (min c''.revRules.validBefore (1200 + 86400))))) = _
  rw [hb, hb'']
  rfl

end Verif.Props
