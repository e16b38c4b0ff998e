import Verif.Props.Concurrent
import Verif.Spec.SessionKeys

/-!
# Foreign keys of the policy authority, and tables filled anew while it serves (C148)
-/

namespace Verif.Props

open Proofs Spec

variable {X : Crypto} {collate : Str → Str} {fk : Bool}

theorem hasCert_iff {db : PAuthDb} {a : ACARow} :
    db.hasCert collate a = true ↔ ∃ c ∈ db.certs, collate c.serial = collate a.acSerial := by
  unfold PAuthDb.hasCert
  simp only [List.any_eq_true, decide_eq_true_eq]

theorem hasSession_iff {db : PAuthDb} {a : ACARow} :
    db.hasSession collate a = true ↔ ∃ s ∈ db.sessions, collate s.id = collate a.sessionId := by
  unfold PAuthDb.hasSession
  simp only [List.any_eq_true, decide_eq_true_eq]

/-- The two parts of consistency. -/
theorem consistent_iff {db : PAuthDb} : Consistent X collate db ↔ SessionsSound X collate db ∧ CertsStored collate db := by
  constructor
  · intro h
    exact ⟨⟨h.keys, h.hashed, fun a ha => (h.linked a ha).2, h.backed, h.bounded⟩, fun a ha => (h.linked a ha).1⟩
  · rintro ⟨h, h'⟩
    exact ⟨h.keys, h.hashed, fun a ha => ⟨h' a ha, h.started a ha⟩, h.backed, h.bounded⟩

/-! ### One round and the commit -/

/-- The rows a round adds. -/
theorem startStep_links {db : PAuthDb} {exports : Dict Str} {session : Str} {clock : Int} {acc acc' : StartAcc} {raw : RawCert}
    (h : startStep X collate db exports session clock acc raw = .ok acc') :
    ∃ rows serial, acc'.certs = acc.certs ++ rows ∧ acc'.assignments = acc.assignments ++ [⟨serial, session⟩] ∧
      ∃ c ∈ db.certs ++ rows, collate c.serial = collate serial := by
  unfold startStep at h
  simp only [except_bind_ok, except_pure_ok] at h
  obtain ⟨f, _, ⟨c, rest⟩, _, serial, _, rows, hr, h⟩ := h
  cases h
  refine ⟨rows, serial, rfl, rfl, ?_⟩
  unfold newRow at hr
  cases hf : db.findCert collate serial with
  | none =>
    rw [hf] at hr
    cases hr
    exact ⟨_, List.mem_append_right _ (List.mem_singleton.mpr rfl), rfl⟩
  | some row =>
    unfold PAuthDb.findCert at hf
    exact ⟨row, List.mem_append_left _ (List.mem_of_find?_eq_some hf), of_decide_eq_true (List.find?_some hf :)⟩

/-- The assignments of a call are for its session and for certificates stored or to be stored. -/
def AccLinked (collate : Str → Str) (db : PAuthDb) (session : Str) (acc : StartAcc) : Prop :=
  ∀ a ∈ acc.assignments, a.sessionId = session ∧ ∃ c ∈ db.certs ++ acc.certs, collate c.serial = collate a.acSerial

theorem accLinked_none (db : PAuthDb) (session : Str) : AccLinked collate db session {} := fun _ h => (by cases h)

theorem accLinked_mono {db db' : PAuthDb} {session : Str} {acc : StartAcc} (h : AccLinked collate db session acc)
    (hs : ∀ c ∈ db.certs, c ∈ db'.certs) : AccLinked collate db' session acc := by
  intro a ha
  obtain ⟨h1, c, hc, h2⟩ := h a ha
  refine ⟨h1, c, ?_, h2⟩
  rcases List.mem_append.mp hc with hc | hc
  · exact List.mem_append_left _ (hs c hc)
  · exact List.mem_append_right _ hc

theorem accLinked_step {db seen : PAuthDb} (hs : ∀ c ∈ seen.certs, c ∈ db.certs) {exports : Dict Str} {session : Str}
    {clock : Int} {acc acc' : StartAcc} {raw : RawCert} (h : AccLinked collate db session acc)
    (hst : startStep X collate seen exports session clock acc raw = .ok acc') : AccLinked collate db session acc' := by
  obtain ⟨rows, serial, h1, h2, c, hc, h3⟩ := startStep_links hst
  intro a ha
  rw [h2] at ha
  rcases List.mem_append.mp ha with ha | ha
  · obtain ⟨k1, c', hc', k2⟩ := h a ha
    refine ⟨k1, c', ?_, k2⟩
    rw [h1, ← List.append_assoc]
    exact List.mem_append_left _ hc'
  · rw [List.mem_singleton.mp ha]
    refine ⟨rfl, c, ?_, h3⟩
    rw [h1]
    rcases List.mem_append.mp hc with hc | hc
    · exact List.mem_append_left _ (hs c hc)
    · exact List.mem_append_right _ (List.mem_append_right _ hc)

theorem accLinked_loop {db : PAuthDb} {exports : Dict Str} {session : Str} {clock : Nat → Int} {raws : List RawCert} {i : Nat}
    {acc acc' : StartAcc} (h : AccLinked collate db session acc)
    (hl : startLoop X collate db exports session clock i acc raws = .ok acc') : AccLinked collate db session acc' := by
  induction raws generalizing i acc with
  | nil => cases hl; exact h
  | cons raw raws ih =>
    rw [startLoop, except_bind_ok] at hl
    obtain ⟨mid, h1, h2⟩ := hl
    exact ih (accLinked_step (fun _ hc => hc) h h1) h2

/-- What a commit adds, with and without the check. -/
theorem commitChecked_eq {db : PAuthDb} {fault : Option PyExc} {certs : List ACRow} {assignments : List ACARow}
    {session : Str → SessionRow} {serviceUid : Option Str} {sid : Str} (hid : ∀ uid, (session uid).id = sid)
    (hs : ∀ a ∈ assignments, a.sessionId = sid) :
    db.commitChecked fk collate fault certs assignments session serviceUid =
      match db.commit collate fault certs assignments session serviceUid with
      | .error e => .error e
      | .ok db' => if fk = true ∧ ¬ ∀ a ∈ assignments, ∃ c ∈ db.certs ++ certs, collate c.serial = collate a.acSerial then
          .error .integrityError else .ok db' := by
  unfold PAuthDb.commitChecked
  cases hc : db.commit collate fault certs assignments session serviceUid with
  | error e => rfl
  | ok db' =>
    obtain ⟨uid, _, _, _, _, _, hdb⟩ := commit_ok.mp hc
    simp only [bind, Except.bind]
    have key : (assignments.all fun a => db'.hasCert collate a && db'.hasSession collate a) = true ↔
        ∀ a ∈ assignments, ∃ c ∈ db.certs ++ certs, collate c.serial = collate a.acSerial := by
      rw [List.all_eq_true]
      refine forall₂_congr fun a ha => ?_
      rw [Bool.and_eq_true, hasCert_iff, hasSession_iff, hdb]
      refine and_iff_left ⟨session uid, List.mem_append_right _ (List.mem_singleton.mpr rfl), ?_⟩
      rw [hid, hs a ha]
    refine if_congr ?_ rfl rfl
    rw [Bool.and_eq_true, Bool.not_eq_true', ← Bool.not_eq_true, key]

/-- The end of a call whose rows belong to its session. -/
theorem finishChecked_eq {q : StartCall} {current : PAuthDb} {session : Str} {acc : StartAcc}
    (hs : ∀ a ∈ acc.assignments, a.sessionId = session) :
    q.finishChecked fk collate current session acc =
      match q.finish collate current session acc with
      | .error e => .error e
      | .ok r =>
        if fk = true ∧ ¬ ∀ a ∈ acc.assignments, ∃ c ∈ current.certs ++ acc.certs, collate c.serial = collate a.acSerial then
          .error .integrityError else .ok r := by
  unfold StartCall.finishChecked StartCall.finish
  dsimp only
  split
  · rfl
  · cases remoteAddr q.exports with
    | error e => rfl
    | ok addr =>
      simp only [bind, Except.bind]
      rw [commitChecked_eq (sid := session) (fun _ => rfl) hs]
      cases current.commit collate q.env.commitFault acc.certs acc.assignments
        (fun uid => ⟨session, acc.maxStart, acc.minValid, q.env.now, addr, uid,
          if acc.minValid < q.env.now + 86400 then acc.minValid else q.env.now + 86400⟩) q.serviceUid with
      | error e => rfl
      | ok db' =>
        dsimp only
        by_cases hP : fk = true ∧
            ¬ ∀ a ∈ acc.assignments, ∃ c ∈ current.certs ++ acc.certs, collate c.serial = collate a.acSerial
        · simp only [if_pos hP, pure, Except.pure]
        · simp only [if_neg hP, pure, Except.pure]

theorem finish_linked {q : StartCall} {current : PAuthDb} {session : Str} {acc : StartAcc}
    (h : AccLinked collate current session acc) :
    q.finishChecked fk collate current session acc = q.finish collate current session acc := by
  rw [finishChecked_eq fun a ha => (h a ha).1]
  cases q.finish collate current session acc with
  | error e => rfl
  | ok r =>
    dsimp only
    rw [if_neg fun k => k.2 fun a ha => (h a ha).2]

/-- **C148**: foreign keys never refuse a session to a call that is alone, whatever is stored. -/
theorem start_unrefused (q : StartCall) (db : PAuthDb) :
    q.alone fk X collate db = startSession X collate db q.env q.serviceUid q.set q.exports := by
  unfold StartCall.alone startSession
  by_cases hn : q.raws.length < 1
  · have : startSessionE X collate db q.env q.serviceUid q.set q.exports =
        .error (clientFaultLogged q.exports "Need attribute certificate set to start session.") := by
      unfold startSessionE
      exact if_pos hn
    dsimp only
    rw [if_pos hn, this]
  · dsimp only
    rw [if_neg hn]
    have hne : q.raws ≠ [] := fun e => hn (by rw [e]; decide)
    cases hs : intToB64 q.env.random with
    | error e =>
      have : startSessionE X collate db q.env q.serviceUid q.set q.exports = .error e := by
        unfold startSessionE
        dsimp only
        rw [if_neg (show ¬ (q.set.getD []).length < 1 from hn), hs]
        rfl
      rw [this]
      rfl
    | ok session =>
      rw [startSessionE_eq db q hne hs]
      simp only [bind, Except.bind]
      cases hl : startLoop X collate db q.exports session q.env.clock 0 {} q.raws with
      | error e => rfl
      | ok acc =>
        dsimp only
        rw [finish_linked (accLinked_loop (accLinked_none db session) hl)]
        cases q.finish collate db session acc <;> rfl

/-! ### Calls at the same time -/

theorem stepChecked_commit (q : StartCall) (seen current : PAuthDb) (a : List PAAuthority) (session : Str) (i : Nat)
    (acc : StartAcc) : q.stepChecked fk X collate seen current (.reading a session i acc []) =
      match q.finishChecked fk collate current session acc with
      | .error e => (none, .done (.error e))
      | .ok (db, r) => (some db, .done (.ok r)) := rfl

theorem stepChecked_other {q : StartCall} {seen current : PAuthDb} {job : Job}
    (h : ∀ a s i acc, job ≠ .reading a s i acc []) :
    q.stepChecked fk X collate seen current job = q.step X collate seen current job := by
  unfold StartCall.stepChecked
  split
  · exact absurd rfl (h _ _ _ _)
  · rfl

/-- What holds of a call between its steps if rows are only added. -/
def JobLinked (collate : Str → Str) (db : PAuthDb) : Job → Prop
  | .reading _ session _ acc _ => AccLinked collate db session acc
  | _ => True

theorem jobLinked_mono {db db' : PAuthDb} {job : Job} (h : JobLinked collate db job) (hs : ∀ c ∈ db.certs, c ∈ db'.certs) :
    JobLinked collate db' job := by
  cases job with
  | fresh => trivial
  | done r => trivial
  | reading a s i acc rest => exact accLinked_mono h hs

/-- A step with and without the check is the same for such a call, and leads to one. -/
theorem linked_step {q : StartCall} {seen current : PAuthDb} {job job' : Job} {new : Option PAuthDb}
    (hseen : ∀ c ∈ seen.certs, c ∈ current.certs) (h : JobLinked collate current job)
    (hst : q.step X collate seen current job = (new, job')) :
    q.stepChecked fk X collate seen current job = (new, job') ∧ JobLinked collate current job' ∧
    ∀ db, new = some db → ∀ c ∈ current.certs, c ∈ db.certs := by
  cases job with
  | done o =>
    cases hst
    exact ⟨rfl, trivial, fun _ h => (by cases h)⟩
  | fresh =>
    refine ⟨(stepChecked_other fun _ _ _ _ h => (by cases h)).trans hst, ?_⟩
    replace hst : (none, q.begin seen) = (new, job') := hst
    cases hst
    refine ⟨?_, fun _ h => (by cases h)⟩
    unfold StartCall.begin
    split
    · trivial
    · split
      · trivial
      · exact accLinked_none _ _
  | reading a session i acc rest =>
    cases rest with
    | cons raw rest =>
      refine ⟨(stepChecked_other fun _ _ _ _ h => (by cases h)).trans hst, ?_⟩
      rw [step_round] at hst
      cases hs : startStep X collate { seen with authorities := a } q.exports session (q.env.clock i) acc raw with
      | error e =>
        rw [hs] at hst
        cases hst
        exact ⟨trivial, fun _ h => (by cases h)⟩
      | ok acc' =>
        rw [hs] at hst
        cases hst
        exact ⟨accLinked_step (seen := { seen with authorities := a }) hseen h hs, fun _ h => (by cases h)⟩
    | nil =>
      rw [stepChecked_commit, finish_linked h]
      rw [step_commit] at hst
      cases hf : q.finish collate current session acc with
      | error e =>
        rw [hf] at hst
        cases hst
        exact ⟨rfl, trivial, fun _ h => (by cases h)⟩
      | ok x =>
        obtain ⟨db, r⟩ := x
        rw [hf] at hst
        cases hst
        refine ⟨rfl, trivial, fun db' e => ?_⟩
        cases e
        unfold StartCall.finish at hf
        dsimp only at hf
        split at hf
        · cases hf
        · simp only [except_bind_ok, except_pure_ok] at hf
          obtain ⟨addr, _, db', hc, e⟩ := hf
          cases e
          obtain ⟨_, _, _, _, _, _, rfl⟩ := commit_ok.mp hc
          exact fun c hc => List.mem_append_left _ hc

/-- What holds as long as no table is wiped. -/
structure PoolLinked (collate : Str → Str) (p : Pool) : Prop where
  older : ∀ db ∈ p.older, ∀ c ∈ db.certs, c ∈ p.current.certs
  jobs : ∀ x ∈ p.jobs, JobLinked collate p.current x.2

theorem poolLinked_make (db : PAuthDb) (qs : List StartCall) : PoolLinked collate (Pool.make db qs) := by
  refine ⟨fun _ h => (by cases h), fun x hx => ?_⟩
  obtain ⟨q, _, rfl⟩ := List.mem_map.mp hx
  trivial

theorem poolLinked_seen {p : Pool} (h : PoolLinked collate p) (v : Nat) :
    ∀ c ∈ ((p.current :: p.older).getD v p.current).certs, c ∈ p.current.certs := by
  rw [List.getD_eq_getElem?_getD]
  cases hv : (p.current :: p.older)[v]? with
  | none => exact fun _ h => h
  | some db =>
    rcases List.mem_cons.mp (List.mem_of_getElem? hv) with e | hm
    · rw [e]
      exact fun _ h => h
    · exact h.older db hm

theorem poolLinked_call {p : Pool} (h : PoolLinked collate p) (j v : Nat) :
    p.event fk X collate (.call j v) = p.step X collate j v ∧ PoolLinked collate (p.step X collate j v) := by
  unfold Pool.event Pool.step
  dsimp only
  cases hj : p.jobs[j]? with
  | none => exact ⟨rfl, h⟩
  | some x =>
    obtain ⟨q, job⟩ := x
    dsimp only
    rcases hst : q.step X collate ((p.current :: p.older).getD v p.current) p.current job with ⟨new, job'⟩
    obtain ⟨h1, h2, h3⟩ := linked_step (fk := fk) (poolLinked_seen h v) (h.jobs _ (List.mem_of_getElem? hj)) hst
    rw [h1]
    refine ⟨rfl, ?_⟩
    have hset : ∀ x ∈ p.jobs.set j (q, job'), JobLinked collate p.current x.2 := by
      intro x hx
      rcases List.mem_or_eq_of_mem_set hx with hx | rfl
      · exact h.jobs x hx
      · exact h2
    cases new with
    | none => exact ⟨h.older, hset⟩
    | some db =>
      refine ⟨fun d hd c hc => ?_, fun x hx => jobLinked_mono (hset x hx) (h3 db rfl)⟩
      rcases List.mem_cons.mp hd with rfl | hd
      · exact h3 db rfl c hc
      · exact h3 db rfl c (h.older d hd c hc)

theorem fill_eq {db db' : PAuthDb} {authorities : List PAAuthority} {policies : List PAPolicy}
    (h : db.fill collate authorities policies = .ok db') :
    db' = { db with authorities := db.authorities ++ authorities, policies := db.policies ++ policies } ∧
    (authorities.map (fun r => collate r.uid)).Nodup ∧
    ∀ k ∈ authorities.map (fun r => collate r.uid), k ∉ db.authorities.map (fun r => collate r.uid) := by
  unfold PAuthDb.fill at h
  split at h
  · rename_i hk
    cases h
    simp only [newKeys, Bool.and_eq_true, decide_eq_true_eq] at hk
    exact ⟨rfl, hk.1⟩
  · cases h

theorem poolLinked_event {p : Pool} (h : PoolLinked collate p) {e : PoolEvent} (he : e ≠ .wipe) :
    p.event fk X collate e = p.event false X collate e ∧ PoolLinked collate (p.event fk X collate e) := by
  cases e with
  | call j v =>
    obtain ⟨h1, h2⟩ := poolLinked_call (X := X) (fk := fk) h j v
    rw [h1, (poolLinked_call (X := X) (fk := false) h j v).1]
    exact ⟨rfl, h2⟩
  | wipe => exact absurd rfl he
  | fill authorities policies =>
    refine ⟨rfl, ?_⟩
    unfold Pool.event
    dsimp only
    cases hf : p.current.fill collate authorities policies with
    | error e => exact h
    | ok db =>
      obtain ⟨rfl, _⟩ := fill_eq hf
      refine ⟨fun d hd => ?_, fun x hx => jobLinked_mono (h.jobs x hx) fun _ hc => hc⟩
      rcases List.mem_cons.mp hd with rfl | hd
      · exact fun _ hc => hc
      · exact h.older d hd

/-- **C148**: nor do they to calls at the same time, as long as no table is wiped: everything is as without the check. -/
theorem run_unrefused (db : PAuthDb) (qs : List StartCall) {es : List PoolEvent} (h : Unwiped es) :
    (Pool.make db qs).events fk X collate es = (Pool.make db qs).events false X collate es := by
  have key : ∀ es, Unwiped es → ∀ p : Pool, PoolLinked collate p → p.events fk X collate es = p.events false X collate es := by
    intro es
    induction es with
    | nil => exact fun _ _ _ => rfl
    | cons e es ih =>
      intro h p hp
      obtain ⟨h1, h2⟩ := poolLinked_event (X := X) (fk := fk) hp (e := e) (fun k => h (k ▸ List.mem_cons_self))
      show (p.event fk X collate e).events fk X collate es = (p.event false X collate e).events false X collate es
      rw [ih (fun k => h (List.mem_cons_of_mem _ k)) _ h2, h1]
  exact key es h _ (poolLinked_make db qs)

/-- **C148**: and steps of calls only are the runs of C104, with the check and without. -/
theorem run_calls (db : PAuthDb) (qs : List StartCall) (schedule : List (Nat × Nat)) :
    (Pool.make db qs).events fk X collate (schedule.map fun s => .call s.1 s.2) = (Pool.make db qs).run X collate schedule := by
  have key : ∀ p : Pool, PoolLinked collate p →
      p.events fk X collate (schedule.map fun s => .call s.1 s.2) = p.run X collate schedule := by
    induction schedule with
    | nil => exact fun _ _ => rfl
    | cons s schedule ih =>
      intro p hp
      obtain ⟨h1, h2⟩ := poolLinked_call (X := X) (fk := fk) hp s.1 s.2
      show (p.event fk X collate (.call s.1 s.2)).events fk X collate (schedule.map fun s => .call s.1 s.2) =
        (p.step X collate s.1 s.2).run X collate schedule
      rw [h1]
      exact ih _ h2
  exact key _ (poolLinked_make db qs)

/-! ### Deleting -/

theorem delete_free {db : PAuthDb} {t : PATable} (h : db.assignments = [] ∨ t ≠ .certs ∧ t ≠ .sessions) :
    db.delete fk collate t = .ok (db.without t) := by
  unfold PAuthDb.delete
  dsimp only
  rw [if_neg]
  intro hc
  rw [Bool.and_eq_true] at hc
  obtain ⟨a, ha, hc⟩ := List.any_eq_true.mp hc.2
  cases t with
  | assignments => cases ha
  | authorities => simp [PAuthDb.without, PAuthDb.hasCert, PAuthDb.hasSession] at hc
  | policies => simp [PAuthDb.without, PAuthDb.hasCert, PAuthDb.hasSession] at hc
  | certs =>
    rcases h with h | h
    · rw [show (db.without .certs).assignments = db.assignments from rfl, h] at ha
      cases ha
    · exact h.1 rfl
  | sessions =>
    rcases h with h | h
    · rw [show (db.without .sessions).assignments = db.assignments from rfl, h] at ha
      cases ha
    · exact h.2 rfl

theorem deleteAll_free {db : PAuthDb} (h : db.assignments = []) (order : List PATable) :
    db.deleteAll fk collate order = .ok (order.foldl PAuthDb.without db) := by
  induction order generalizing db with
  | nil => rfl
  | cons t ts ih =>
    unfold PAuthDb.deleteAll
    rw [delete_free (.inl h)]
    exact ih (by cases t <;> first | exact h | rfl)

/-- **C148**: deleting the assignments before the certificates and the sessions is never refused. -/
theorem delete_in_order {order : List PATable} (h : ChildrenFirst order) (db : PAuthDb) :
    db.deleteAll fk collate order = .ok (order.foldl PAuthDb.without db) := by
  obtain ⟨before, after, rfl, h1, h2⟩ := h
  induction before generalizing db with
  | nil =>
    show (db.delete fk collate .assignments).bind _ = _
    rw [delete_free (.inr ⟨by decide, by decide⟩)]
    exact deleteAll_free rfl after
  | cons t ts ih =>
    show (db.delete fk collate t).bind _ = _
    rw [delete_free (.inr ⟨fun e => h1 (e ▸ List.mem_cons_self), fun e => h2 (e ▸ List.mem_cons_self)⟩)]
    exact ih _ (fun k => h1 (List.mem_cons_of_mem _ k)) (fun k => h2 (List.mem_cons_of_mem _ k))

/-- **C148**: the order used is such an order, so that wiping empties the tables, with the check and without. -/
theorem wipe_empties (db : PAuthDb) : ChildrenFirst paWipeOrder ∧ db.deleteAll fk collate paWipeOrder = .ok noRows := by
  have h : ChildrenFirst paWipeOrder := ⟨[], _, rfl, (by decide), (by decide)⟩
  exact ⟨h, delete_in_order h db⟩

/-- **C148**: a database that checks refuses to delete certificates or sessions first as soon as an assignment has both. -/
theorem delete_parents_refused {db : PAuthDb} {t : PATable} (ht : t = .certs ∨ t = .sessions) (ts : List PATable)
    {a : ACARow} (ha : a ∈ db.assignments) (hc : ∃ c ∈ db.certs, collate c.serial = collate a.acSerial)
    (hs : ∃ s ∈ db.sessions, collate s.id = collate a.sessionId) :
    db.deleteAll true collate (t :: ts) = .error .integrityError := by
  show (db.delete true collate t).bind _ = _
  have : db.delete true collate t = .error .integrityError := by
    unfold PAuthDb.delete
    dsimp only
    rw [if_pos]
    rw [Bool.true_and]
    refine List.any_eq_true.mpr ⟨a, by rcases ht with rfl | rfl <;> exact ha, ?_⟩
    rw [hasCert_iff.mpr hc, hasSession_iff.mpr hs]
    rcases ht with rfl | rfl
    · rfl
    · have : PAuthDb.hasSession collate (db.without .sessions) a = false := rfl
      rw [this]
      exact Bool.or_true _
  rw [this]
  rfl

/-! ### What holds whatever happens -/

/-- What holds of a call between its steps in any case. -/
def JobSound (X : Crypto) (collate : Str → Str) : Job → Prop
  | .reading authorities session _ acc _ =>
    (authorities.map (fun r => collate r.uid)).Nodup ∧ (∀ a ∈ acc.assignments, a.sessionId = session) ∧
    (∀ row ∈ acc.certs, row.hash = b64 (X.sha256 (if row.format = 0 then [] else row.certificate))) ∧
    (acc.processed ≠ [] → acc.assignments ≠ [])
  | _ => True

theorem noRows_sound : SessionsSound X collate noRows ∧ CertsStored collate noRows :=
  ⟨⟨⟨.nil, .nil, .nil, .nil⟩, fun _ h => (by cases h), fun _ h => (by cases h), fun _ h => (by cases h),
    fun _ h => (by cases h)⟩, fun _ h => (by cases h)⟩

theorem fill_sound {db db' : PAuthDb} {authorities : List PAAuthority} {policies : List PAPolicy}
    (h : db.fill collate authorities policies = .ok db') (hs : SessionsSound X collate db) : SessionsSound X collate db' := by
  obtain ⟨rfl, h1, h2⟩ := fill_eq h
  refine ⟨⟨nodup_map_append hs.keys.authorities h1 ?_, hs.keys.certs, hs.keys.assignments, hs.keys.sessions⟩, hs.hashed,
    hs.started, hs.backed, hs.bounded⟩
  intro y hy x hx e
  exact h2 _ (List.mem_map_of_mem hy) (e ▸ List.mem_map_of_mem (f := fun r : PAAuthority => collate r.uid) hx)

theorem finishChecked_sound {q : StartCall} {current db : PAuthDb} {session : Str} {authorities : List PAAuthority} {i : Nat}
    {acc : StartAcc} {rest : List RawCert} {r : SessionReturn} (hj : JobSound X collate (.reading authorities session i acc rest))
    (hf : q.finishChecked fk collate current session acc = .ok (db, r)) (hs : SessionsSound X collate current) :
    SessionsSound X collate db ∧ (fk = true → CertsStored collate current → CertsStored collate db) := by
  obtain ⟨_, j2, j3, j4⟩ := hj
  rw [finishChecked_eq j2] at hf
  cases hq : q.finish collate current session acc with
  | error e =>
    rw [hq] at hf
    cases hf
  | ok x =>
    rw [hq] at hf
    dsimp only at hf
    split at hf
    · cases hf
    · rename_i hlink
      cases hf
      unfold StartCall.finish at hq
      dsimp only at hq
      split at hq
      · cases hq
      · rename_i hne
        simp only [except_bind_ok, except_pure_ok] at hq
        obtain ⟨addr, _, db', hc, e⟩ := hq
        cases e
        obtain ⟨uid, _, _, ⟨c1, c2⟩, ⟨a1, a2⟩, s1, rfl⟩ := commit_ok.mp hc
        have hass : acc.assignments ≠ [] := j4 fun e => hne (by rw [e]; decide)
        refine ⟨⟨⟨hs.keys.authorities, nodup_map_append hs.keys.certs c1 ?_, nodup_map_append hs.keys.assignments a1 ?_,
          nodup_map_append hs.keys.sessions (by simp) ?_⟩, ?_, ?_, ?_, ?_⟩, ?_⟩
        · intro y hy x hx e
          exact c2 _ (List.mem_map_of_mem hy) (e ▸ List.mem_map_of_mem (f := fun r : ACRow => collate r.serial) hx)
        · intro y hy x hx e
          exact a2 _ (List.mem_map_of_mem hy)
            (e ▸ List.mem_map_of_mem (f := fun r : ACARow => (collate r.acSerial, collate r.sessionId)) hx)
        · intro y hy x hx
          rw [List.mem_singleton.mp hy]
          exact s1 x hx
        · intro row hrow
          rcases List.mem_append.mp hrow with hrow | hrow
          · exact hs.hashed row hrow
          · exact j3 row hrow
        · intro a ha
          rcases List.mem_append.mp ha with ha | ha
          · obtain ⟨s, h1, h2⟩ := hs.started a ha
            exact ⟨s, List.mem_append_left _ h1, h2⟩
          · exact ⟨_, List.mem_append_right _ (List.mem_singleton.mpr rfl), congrArg collate (j2 a ha).symm⟩
        · intro s hs'
          rcases List.mem_append.mp hs' with hs' | hs'
          · obtain ⟨a, h1, h2⟩ := hs.backed s hs'
            exact ⟨a, List.mem_append_left _ h1, h2⟩
          · rw [List.mem_singleton.mp hs']
            obtain ⟨a, ha⟩ := List.exists_mem_of_ne_nil _ hass
            exact ⟨a, List.mem_append_right _ ha, congrArg collate (j2 a ha)⟩
        · intro s hs'
          rcases List.mem_append.mp hs' with hs' | hs'
          · exact hs.bounded s hs'
          · rw [List.mem_singleton.mp hs']
            show (if acc.minValid < q.env.now + 86400 then acc.minValid else q.env.now + 86400) = _
            dsimp only
            split <;> omega
        · intro hfk hold a ha
          rcases List.mem_append.mp ha with ha | ha
          · obtain ⟨c, h1, h2⟩ := hold a ha
            exact ⟨c, List.mem_append_left _ h1, h2⟩
          · exact Classical.not_not.mp (fun k => hlink ⟨hfk, fun all => k (all a ha)⟩)

/-- A step keeps what holds in any case. -/
theorem sound_step {q : StartCall} {seen current : PAuthDb} {job job' : Job} {new : Option PAuthDb}
    (hseen : SessionsSound X collate seen) (hcur : SessionsSound X collate current) (hj : JobSound X collate job)
    (h : q.stepChecked fk X collate seen current job = (new, job')) :
    JobSound X collate job' ∧ ∀ db, new = some db →
      SessionsSound X collate db ∧ (fk = true → CertsStored collate current → CertsStored collate db) := by
  cases job with
  | done o =>
    cases h
    exact ⟨trivial, fun _ h => (by cases h)⟩
  | fresh =>
    replace h : (none, q.begin seen) = (new, job') := h
    cases h
    refine ⟨?_, fun _ h => (by cases h)⟩
    unfold StartCall.begin
    split
    · trivial
    · split
      · trivial
      · exact ⟨hseen.keys.authorities, fun _ h => (by cases h), fun _ h => (by cases h), fun h => absurd rfl h⟩
  | reading authorities session i acc rest =>
    cases rest with
    | cons raw rest =>
      rw [stepChecked_other fun _ _ _ _ h => (by cases h), step_round] at h
      cases hst : startStep X collate { seen with authorities := authorities } q.exports session (q.env.clock i) acc raw with
      | error e =>
        rw [hst] at h
        cases h
        exact ⟨trivial, fun _ h => (by cases h)⟩
      | ok acc' =>
        rw [hst] at h
        cases h
        obtain ⟨j1, j2, j3, _⟩ := hj
        have hk : PAKeys collate { seen with authorities := authorities } :=
          ⟨j1, hseen.keys.certs, hseen.keys.assignments, hseen.keys.sessions⟩
        obtain ⟨c, _, rfl⟩ := (startStep_ok hk).mp hst
        refine ⟨⟨j1, ?_, ?_, fun _ h => ?_⟩, fun _ h => (by cases h)⟩
        · intro a ha
          rcases List.mem_append.mp ha with ha | ha
          · exact j2 a ha
          · rw [List.mem_singleton.mp ha]
        · intro row hrow
          rcases List.mem_append.mp hrow with hrow | hrow
          · exact j3 row hrow
          · split at hrow
            · rw [List.mem_singleton.mp hrow]
              rfl
            · cases hrow
        · exact absurd (congrArg List.length h) (by simp [stepAcc])
    | nil =>
      rw [stepChecked_commit] at h
      cases hf : q.finishChecked fk collate current session acc with
      | error e =>
        rw [hf] at h
        cases h
        exact ⟨trivial, fun _ h => (by cases h)⟩
      | ok x =>
        obtain ⟨db, r⟩ := x
        rw [hf] at h
        cases h
        refine ⟨trivial, fun db' e => ?_⟩
        cases e
        exact finishChecked_sound hj hf hcur

/-- What holds of all calls and all states at any time. -/
structure PoolSound (fk : Bool) (X : Crypto) (collate : Str → Str) (p : Pool) : Prop where
  current : SessionsSound X collate p.current ∧ (fk = true → CertsStored collate p.current)
  older : ∀ db ∈ p.older, SessionsSound X collate db ∧ (fk = true → CertsStored collate db)
  jobs : ∀ x ∈ p.jobs, JobSound X collate x.2

theorem poolSound_event {p : Pool} (h : PoolSound fk X collate p) (e : PoolEvent) : PoolSound fk X collate (p.event fk X collate e) := by
  have hall : ∀ db ∈ p.current :: p.older, SessionsSound X collate db ∧ (fk = true → CertsStored collate db) := by
    intro db hdb
    rcases List.mem_cons.mp hdb with rfl | hdb
    · exact h.current
    · exact h.older db hdb
  have htool : ∀ o, (∀ db, o = .ok db → SessionsSound X collate db ∧ (fk = true → CertsStored collate db)) →
      PoolSound fk X collate (p.tool o) := by
    intro o ho
    cases o with
    | error e => exact h
    | ok db => exact ⟨ho db rfl, hall, h.jobs⟩
  cases e with
  | wipe =>
    refine htool _ fun db e => ?_
    rw [(wipe_empties p.current).2] at e
    cases e
    exact ⟨noRows_sound.1, fun _ => (noRows_sound (X := X)).2⟩
  | fill authorities policies =>
    refine htool _ fun db e => ⟨fill_sound e h.current.1, fun hf => ?_⟩
    obtain ⟨rfl, _⟩ := fill_eq e
    exact h.current.2 hf
  | call j v =>
    unfold Pool.event
    dsimp only
    cases hj : p.jobs[j]? with
    | none => exact h
    | some x =>
      obtain ⟨q, job⟩ := x
      dsimp only
      rcases hst : q.stepChecked fk X collate ((p.current :: p.older).getD v p.current) p.current job with ⟨new, job'⟩
      have hseen : SessionsSound X collate ((p.current :: p.older).getD v p.current) := by
        rw [List.getD_eq_getElem?_getD]
        cases hv : (p.current :: p.older)[v]? with
        | none => exact h.current.1
        | some db => exact (hall db (List.mem_of_getElem? hv)).1
      obtain ⟨h1, h2⟩ := sound_step hseen h.current.1 (h.jobs _ (List.mem_of_getElem? hj)) hst
      have hset : ∀ x ∈ p.jobs.set j (q, job'), JobSound X collate x.2 := by
        intro x hx
        rcases List.mem_or_eq_of_mem_set hx with hx | rfl
        · exact h.jobs x hx
        · exact h1
      cases new with
      | none => exact ⟨h.current, h.older, hset⟩
      | some db => exact ⟨⟨(h2 db rfl).1, fun hf => (h2 db rfl).2 hf (h.current.2 hf)⟩, hall, hset⟩

theorem poolSound_events {p : Pool} (h : PoolSound fk X collate p) (es : List PoolEvent) :
    PoolSound fk X collate (p.events fk X collate es) := by
  induction es generalizing p with
  | nil => exact h
  | cons e es ih => exact ih (poolSound_event h e)

/-- **C148**: whatever calls and tools do at the same time, keys stay unique, hashes right, and every session has an assignment
and ends with its certificates or after a day. -/
theorem traffic_sound {db : PAuthDb} (h : SessionsSound X collate db) (qs : List StartCall) (es : List PoolEvent) :
    SessionsSound X collate ((Pool.make db qs).events false X collate es).current := by
  refine (poolSound_events (fk := false) ⟨⟨h, fun h => (by cases h)⟩, fun _ h => (by cases h), fun x hx => ?_⟩ es).current.1
  obtain ⟨q, _, rfl⟩ := List.mem_map.mp hx
  trivial

/-- **C148**: on a database that checks foreign keys the tables stay consistent. -/
theorem traffic_consistent {db : PAuthDb} (h : Consistent X collate db) (qs : List StartCall) (es : List PoolEvent) :
    Consistent X collate ((Pool.make db qs).events true X collate es).current := by
  obtain ⟨h1, h2⟩ := consistent_iff.mp h
  have := (poolSound_events (fk := true) (p := Pool.make db qs) ⟨⟨h1, fun _ => h2⟩, fun _ h => (by cases h), fun x hx => by
    obtain ⟨q, _, rfl⟩ := List.mem_map.mp hx
    trivial⟩ es).current
  exact consistent_iff.mpr ⟨this.1, this.2 rfl⟩

/-- **C148**: without the check they do as long as no table is wiped. -/
theorem unwiped_consistent {db : PAuthDb} (h : Consistent X collate db) (qs : List StartCall) {es : List PoolEvent}
    (hes : Unwiped es) : Consistent X collate ((Pool.make db qs).events false X collate es).current := by
  rw [← run_unrefused (fk := true) db qs hes]
  exact traffic_consistent h qs es

/-! ### A wipe between the steps of a call -/

theorem event_call {p : Pool} {j v : Nat} {q : StartCall} {job job' : Job} {new : Option PAuthDb}
    (hj : p.jobs[j]? = some (q, job))
    (h : q.stepChecked fk X collate ((p.current :: p.older).getD v p.current) p.current job = (new, job')) :
    p.event fk X collate (.call j v) =
      ⟨new.getD p.current, new.elim p.older (fun _ => p.current :: p.older), p.jobs.set j (q, job')⟩ := by
  unfold Pool.event
  dsimp only
  rw [hj]
  dsimp only
  rw [h]
  cases new <;> rfl

/-- A call with a single certificate that is taken, up to its commit. -/
theorem single_rounds {db : PAuthDb} (hk : PAKeys collate db) {q : StartCall} {raw : RawCert} {c : AttCert}
    (hset : q.set = some [raw]) (hr : q.env.random < 2 ^ 160) (hacc : Accepted X db (q.env.clock 0) raw c)
    (hsame : ∀ h ∈ db.certs, collate h.serial = collate (serialText c) → h.hash = hashText X raw) :
    ∃ acc, acc.certs = newCerts X collate db [(raw, c)] ∧ acc.assignments = [⟨serialText c, numberText q.env.random⟩] ∧
      acc.processed ≠ [] ∧
      (∀ current, q.step X collate db current .fresh = (none, .reading db.authorities (numberText q.env.random) 0 {} [raw])) ∧
      ∀ current, q.step X collate db current (.reading db.authorities (numberText q.env.random) 0 {} [raw]) =
        (none, .reading db.authorities (numberText q.env.random) 1 acc []) := by
  have hraws : q.raws = [raw] := by unfold StartCall.raws; rw [hset]; rfl
  have hstep := (startStep_ok (X := X) (exports := q.exports) (session := numberText q.env.random) (acc := {}) hk).mpr
    ⟨c, ⟨hacc, hsame⟩, rfl⟩
  obtain ⟨hc, ha, _, _, hp⟩ := steps_fields (X := X) (collate := collate) (db := db) (numberText q.env.random) [(raw, c)] {}
  refine ⟨_, hc, ha, hp (by simp), fun current => ?_, fun current => ?_⟩
  · show (none, q.begin db) = _
    unfold StartCall.begin
    rw [hraws, if_neg (show ¬ [raw].length < 1 from Nat.lt_irrefl 1), intToB64_ok (by omega) (by omega)]
  · rw [step_round]
    replace hstep : startStep X collate { db with authorities := db.authorities } q.exports _ (q.env.clock 0) _ raw = _ := hstep
    rw [hstep]
    rfl

/-- The commit of such a call after a wipe, without the check. -/
theorem finish_wiped {q : StartCall} {session : Str} {acc : StartAcc} {addr uid : Str}
    (hc : (acc.certs.map (fun r => collate r.serial)).Nodup)
    (ha : (acc.assignments.map (fun r => (collate r.acSerial, collate r.sessionId))).Nodup) (hp : acc.processed ≠ [])
    (hf : q.env.commitFault = none) (hx : q.exports.get "REMOTE_ADDR".toList = some addr) (hu : q.serviceUid = some uid) :
    ∃ s r, q.finish collate noRows session acc = .ok (⟨[], [], acc.certs, acc.assignments, [s]⟩, r) ∧ s.id = session ∧
      r.sessionId = q.env.random := by
  unfold StartCall.finish
  dsimp only
  rw [if_neg (fun h => hp (List.length_eq_zero_iff.mp (Nat.lt_one_iff.mp h)))]
  have : remoteAddr q.exports = .ok addr := by unfold remoteAddr; rw [hx]; rfl
  rw [this]
  simp only [bind, Except.bind]
  rw [commit_ok.mpr ⟨uid, hf, hu, ⟨hc, fun _ _ h => (by cases h)⟩, ⟨ha, fun _ _ h => (by cases h)⟩, fun _ h => (by cases h), rfl⟩]
  exact ⟨_, _, rfl, rfl, rfl⟩

/-- The steps of such a call with a wipe before its commit. -/
theorem wipe_run {db : PAuthDb} {q : StartCall} {raw : RawCert} {session : Str} {acc : StartAcc}
    (h1 : ∀ current, q.step X collate db current .fresh = (none, .reading db.authorities session 0 {} [raw]))
    (h2 : ∀ current, q.step X collate db current (.reading db.authorities session 0 {} [raw]) =
      (none, .reading db.authorities session 1 acc [])) {new : Option PAuthDb} {job : Job}
    (h3 : q.stepChecked fk X collate noRows noRows (.reading db.authorities session 1 acc []) = (new, job)) :
    (Pool.make db [q]).events fk X collate [.call 0 0, .call 0 0, .wipe, .call 0 0] =
      ⟨new.getD noRows, new.elim [db] (fun _ => [noRows, db]), [(q, job)]⟩ := by
  show ((((Pool.mk db [] [(q, .fresh)]).event fk X collate (.call 0 0)).event fk X collate (.call 0 0)).event fk X collate
    .wipe).event fk X collate (.call 0 0) = _
  have e1 : (Pool.mk db [] [(q, .fresh)]).event fk X collate (.call 0 0) =
      ⟨db, [], [(q, .reading db.authorities session 0 {} [raw])]⟩ := by
    rw [event_call (p := Pool.mk db [] [(q, .fresh)]) (j := 0) (v := 0) (q := q) (job := .fresh) rfl (h1 db)]
    rfl
  have e2 : (Pool.mk db [] [(q, .reading db.authorities session 0 {} [raw])]).event fk X collate (.call 0 0) =
      ⟨db, [], [(q, .reading db.authorities session 1 acc [])]⟩ := by
    rw [event_call (p := Pool.mk db [] [(q, .reading db.authorities session 0 {} [raw])]) (j := 0) (v := 0)
      (q := q) (job := .reading db.authorities session 0 {} [raw]) rfl (h2 db)]
    rfl
  have e3 : (Pool.mk db [] [(q, .reading db.authorities session 1 acc [])]).event fk X collate .wipe =
      ⟨noRows, [db], [(q, .reading db.authorities session 1 acc [])]⟩ := by
    show Pool.tool _ (db.deleteAll fk collate paWipeOrder) = _
    rw [(wipe_empties db).2]
    rfl
  rw [e1, e2, e3, event_call (p := Pool.mk noRows [db] [(q, .reading db.authorities session 1 acc [])]) (j := 0) (v := 0) (q := q)
    (job := .reading db.authorities session 1 acc []) rfl h3]
  rfl

/-- **C148**: a call that has found its certificate stored is granted a session after the tables are wiped; the session stays
without its certificate. A database that checks foreign keys refuses it and stays empty. -/
theorem wiped_orphan {db : PAuthDb} (hk : PAKeys collate db) {q : StartCall} {raw : RawCert} {c : AttCert} {addr uid : Str}
    (hset : q.set = some [raw]) (hr : q.env.random < 2 ^ 160) (hacc : Accepted X db (q.env.clock 0) raw c)
    {row : ACRow} (hrow : row ∈ db.certs) (hser : collate row.serial = collate (serialText c)) (hhash : row.hash = hashText X raw)
    (hf : q.env.commitFault = none) (hx : q.exports.get "REMOTE_ADDR".toList = some addr) (hu : q.serviceUid = some uid) :
    (∃ s r, s.id = numberText q.env.random ∧ r.sessionId = q.env.random ∧
      (Pool.make db [q]).events false X collate [.call 0 0, .call 0 0, .wipe, .call 0 0] =
        ⟨⟨[], [], [], [⟨serialText c, numberText q.env.random⟩], [s]⟩, [noRows, db], [(q, .done (.ok r))]⟩) ∧
    (Pool.make db [q]).events true X collate [.call 0 0, .call 0 0, .wipe, .call 0 0] =
      ⟨noRows, [db], [(q, .done (.error .integrityError))]⟩ := by
  obtain ⟨acc, hc, ha, hp, h1, h2⟩ := single_rounds hk hset hr hacc (fun h hh e => by
    rw [inj_of_nodup_map hk.certs hh hrow (e.trans hser.symm)]
    exact hhash)
  have hnil : acc.certs = [] := by
    rw [hc]
    have : isNew collate db c = false := by
      unfold isNew
      refine List.all_eq_false.mpr ⟨row, hrow, ?_⟩
      simpa using hser
    simp [newCerts, this]
  obtain ⟨s, r, hfin, hs, hrid⟩ := finish_wiped (collate := collate) (session := numberText q.env.random) (acc := acc)
    (by rw [hnil]; exact .nil) (by rw [ha]; simp) hp hf hx hu
  have hsid : ∀ a ∈ acc.assignments, a.sessionId = numberText q.env.random := by
    intro a hm
    rw [ha] at hm
    rw [List.mem_singleton.mp hm]
  refine ⟨⟨s, r, hs, hrid, ?_⟩, ?_⟩
  · rw [wipe_run h1 h2 (new := some ⟨[], [], [], [⟨serialText c, numberText q.env.random⟩], [s]⟩) (job := .done (.ok r))]
    · rfl
    · rw [stepChecked_commit, finishChecked_eq hsid, hfin]
      dsimp only
      rw [if_neg (fun h => (by cases h.1))]
      dsimp only
      rw [hnil, ha]
  · rw [wipe_run h1 h2 (new := none) (job := .done (.error .integrityError))]
    · rfl
    · rw [stepChecked_commit, finishChecked_eq hsid, hfin]
      dsimp only
      rw [if_pos]
      refine ⟨rfl, fun h => ?_⟩
      obtain ⟨x, hx, _⟩ := h _ (by rw [ha]; exact List.mem_singleton.mpr rfl)
      rw [hnil] at hx
      cases hx

/-- **C148**: a call with a new certificate is granted a session after the tables are wiped, by either database, although its
authority is not known any more. -/
theorem wiped_trust {db : PAuthDb} (hk : PAKeys collate db) {q : StartCall} {raw : RawCert} {c : AttCert} {addr uid : Str}
    (hset : q.set = some [raw]) (hr : q.env.random < 2 ^ 160) (hacc : Accepted X db (q.env.clock 0) raw c)
    (hn : Unstored collate db (certRow X raw c)) (hf : q.env.commitFault = none)
    (hx : q.exports.get "REMOTE_ADDR".toList = some addr) (hu : q.serviceUid = some uid) :
    (∃ s r, s.id = numberText q.env.random ∧ r.sessionId = q.env.random ∧
      (Pool.make db [q]).events fk X collate [.call 0 0, .call 0 0, .wipe, .call 0 0] =
        ⟨⟨[], [], [certRow X raw c], [⟨serialText c, numberText q.env.random⟩], [s]⟩, [noRows, db], [(q, .done (.ok r))]⟩) ∧
    (∀ now raw c, ¬ Accepted X noRows now raw c) ∧ ∀ env serviceUid set exports r,
      env.random < 2 ^ 160 → (startSession X collate noRows env serviceUid set exports).2 ≠ .ok r := by
  have hno : ∀ now raw c, ¬ Accepted X noRows now raw c := by
    intro now raw c h
    obtain ⟨_, _, a, ha, _⟩ := h.trusted
    cases ha
  refine ⟨?_, hno, ?_⟩
  · obtain ⟨acc, hc, ha, hp, h1, h2⟩ := single_rounds hk hset hr hacc (fun h hh e => absurd e (hn h hh))
    have hone : acc.certs = [certRow X raw c] := by
      rw [hc]
      have : isNew collate db c = true := List.all_eq_true.mpr (fun r hr => decide_eq_true (hn r hr))
      simp [newCerts, this]
    obtain ⟨s, r, hfin, hs, hrid⟩ := finish_wiped (collate := collate) (session := numberText q.env.random) (acc := acc)
      (by rw [hone]; simp) (by rw [ha]; simp) hp hf hx hu
    refine ⟨s, r, hs, hrid, ?_⟩
    rw [wipe_run h1 h2 (new := some ⟨[], [], [certRow X raw c], [⟨serialText c, numberText q.env.random⟩], [s]⟩)
      (job := .done (.ok r))]
    · rfl
    · rw [stepChecked_commit, finish_linked, hfin]
      · dsimp only
        rw [hone, ha]
      · intro a hm
        rw [ha] at hm
        rw [List.mem_singleton.mp hm]
        exact ⟨rfl, certRow X raw c, by rw [hone]; exact List.mem_append_right _ (List.mem_singleton.mpr rfl), rfl⟩
  · intro env serviceUid set exports r hr h
    obtain ⟨raws, cs, _, hne, hst⟩ := (start_iff (db' := (startSession X collate noRows env serviceUid set exports).1)
      (noRows_sound (X := X)).1.keys hr _).mp (start_split.mp (Prod.ext rfl h))
    cases raws with
    | nil => exact hne rfl
    | cons raw raws =>
      cases hst.accepted with
      | cons h _ => exact hno _ _ _ h

/-! ### Examples -/

/-- The certificate of the examples is stored, sent again, and the tables are wiped before the commit: a session without its
certificate, which a database that checks foreign keys refuses. -/
example : ∃ raw row s r, ∃ q : StartCall, q.set = some [raw] ∧ row.serial = numberText 77 ∧
    (Pool.make { samplePAuthDb with certs := [row] } [q]).events false toyCrypto id [.call 0 0, .call 0 0, .wipe, .call 0 0] =
      ⟨⟨[], [], [], [⟨numberText 77, numberText 5⟩], [s]⟩, [noRows, { samplePAuthDb with certs := [row] }],
        [(q, .done (.ok r))]⟩ ∧
    (Pool.make { samplePAuthDb with certs := [row] } [q]).events true toyCrypto id [.call 0 0, .call 0 0, .wipe, .call 0 0] =
      ⟨noRows, [{ samplePAuthDb with certs := [row] }], [(q, .done (.error .integrityError))]⟩ := by
  obtain ⟨b, c', h, _, hacc, hs⟩ := sample_forged (.inl rfl)
  have hser : serialText (content c') = numberText 77 := by
    show numberText c'.info.serial = _
    rw [hs.1]
    rfl
  have hk : PAKeys id { samplePAuthDb with certs := [certRow toyCrypto ⟨b64encode b, 1, 3⟩ (content c')] } :=
    ⟨samplePAuthDb_consistent.keys.authorities, List.nodup_singleton _, samplePAuthDb_consistent.keys.assignments,
      samplePAuthDb_consistent.keys.sessions⟩
  obtain ⟨⟨s, r, _, _, h1⟩, h2⟩ := wiped_orphan hk
    (q := ⟨samplePAEnv 5, some "s".toList, some [⟨b64encode b, 1, 3⟩], sampleExports "1.2.3.4"⟩)
    (addr := "1.2.3.4".toList) rfl (show 5 < 2 ^ 160 by decide)
    ⟨hacc.version, hacc.sent, hacc.verified, hacc.trusted, hacc.started, hacc.unexpired⟩ (List.mem_singleton.mpr rfl) rfl rfl rfl
    rfl rfl
  refine ⟨_, _, s, r, _, rfl, hser, ?_, h2⟩
  rw [hser] at h1
  exact h1

/-- Rows that can be deleted in the order used, not in another. -/
example :
    let db : PAuthDb := ⟨[], [], [⟨"n".toList, [], 0, 1, 5, "h".toList⟩], [⟨"n".toList, "s".toList⟩],
      [⟨"s".toList, 1, 5, 2, "1.2.3.4".toList, "u".toList, 5⟩]⟩
    db.deleteAll true id paWipeOrder = .ok noRows ∧
    db.deleteAll true id [.sessions, .assignments, .policies, .certs, .authorities] = .error .integrityError ∧
    db.deleteAll false id [.sessions, .assignments, .policies, .certs, .authorities] = .ok noRows :=
  ⟨rfl, rfl, rfl⟩

end Verif.Props
