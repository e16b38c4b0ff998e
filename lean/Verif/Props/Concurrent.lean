import Verif.Spec.Concurrent
import Verif.Props.PAuth

/-!
# Requests to the policy authority at the same time (C104, C105)
-/

namespace Verif.Props

open Proofs Spec

variable {X : Crypto} {collate : Str → Str}

/-! ### What a later state changes for a step -/

theorem findCert_later {a b : PAuthDb} (h : DbExtends a b) {serial : Str} {row : ACRow}
    (hf : a.findCert collate serial = some row) : b.findCert collate serial = some row := by
  obtain ⟨t, ht⟩ := h.certs
  unfold PAuthDb.findCert at hf ⊢
  rw [← ht, List.find?_append, hf]
  rfl

theorem newRow_later {a b : PAuthDb} (h : DbExtends a b) {exports : Dict Str} {row : ACRow} {rows : List ACRow}
    (hf : newRow collate a exports row = .ok rows) (hn : ∀ r ∈ rows, Unstored collate b r) :
    newRow collate b exports row = .ok rows := by
  unfold newRow at hf ⊢
  cases ha : a.findCert collate row.serial with
  | some r => rw [ha] at hf; rw [findCert_later h ha]; exact hf
  | none =>
    rw [ha] at hf
    cases hf
    have : b.findCert collate row.serial = none := by
      unfold PAuthDb.findCert
      rw [List.find?_eq_none]
      intro r hr
      rw [decide_eq_true_iff]
      exact hn row List.mem_cons_self r hr
    rw [this]

theorem newRow_refused {a b : PAuthDb} (h : DbExtends a b) {exports : Dict Str} {row : ACRow} {e : PyExc}
    (hf : newRow collate a exports row = .error e) : newRow collate b exports row = .error e := by
  unfold newRow at hf ⊢
  cases ha : a.findCert collate row.serial with
  | some r => rw [ha] at hf; rw [findCert_later h ha]; exact hf
  | none => rw [ha] at hf; cases hf

/-- The rows a round adds are kept. -/
theorem startStep_certs {db : PAuthDb} {exports : Dict Str} {session : Str} {clock : Int} {acc acc' : StartAcc} {raw : RawCert}
    (h : startStep X collate db exports session clock acc raw = .ok acc') : ∃ rows, acc'.certs = acc.certs ++ rows := by
  unfold startStep at h
  simp only [except_bind_ok, except_pure_ok] at h
  obtain ⟨f, _, ⟨c, rest⟩, _, s, _, rows, _, h⟩ := h
  cases h
  exact ⟨rows, rfl⟩

theorem startStep_later {a b : PAuthDb} (h : DbExtends a b) {exports : Dict Str} {session : Str} {clock : Int}
    {acc acc' : StartAcc} {raw : RawCert} (hs : startStep X collate a exports session clock acc raw = .ok acc')
    (hn : ∀ r ∈ acc'.certs, Unstored collate b r) : startStep X collate b exports session clock acc raw = .ok acc' := by
  have hd : b.authorityDict = a.authorityDict := by unfold PAuthDb.authorityDict; rw [h.authorities]
  unfold startStep at hs ⊢
  simp only [except_bind_ok, except_pure_ok] at hs ⊢
  obtain ⟨f, hf, ⟨c, rest⟩, hc, s, hs', rows, hr, h'⟩ := hs
  refine ⟨f, hf, ⟨c, rest⟩, hd ▸ hc, s, hs', rows, newRow_later h hr ?_, h'⟩
  intro r hr
  refine hn r ?_
  rw [← h']
  exact List.mem_append_right _ hr

/-- A round that refuses a certificate refuses it later as well, whatever came before. -/
theorem startStep_refused {a b : PAuthDb} (h : DbExtends a b) {exports : Dict Str} {session : Str} {clock : Int}
    {acc acc' : StartAcc} {raw : RawCert} {e : PyExc}
    (hs : startStep X collate a exports session clock acc raw = .error e) :
    startStep X collate b exports session clock acc' raw = .error e := by
  have hd : b.authorityDict = a.authorityDict := by unfold PAuthDb.authorityDict; rw [h.authorities]
  unfold startStep at hs ⊢
  cases hf : ExportFormat.ofValue raw.format with
  | error e' => rw [hf] at hs; exact hs
  | ok f =>
    rw [hf] at hs
    rw [bind_ok_eq _ rfl] at hs ⊢
    rw [hd]
    cases hc : checkCert X a.authorityDict exports clock (.bytearray raw.data) raw.version f with
    | error e' => rw [hc] at hs; exact hs
    | ok p =>
      obtain ⟨c, rest⟩ := p
      rw [hc] at hs
      rw [bind_ok_eq _ rfl] at hs ⊢
      dsimp only at hs ⊢
      cases hi : intToB64 c.info.serial with
      | error e' => rw [hi] at hs; exact hs
      | ok serial =>
        rw [hi] at hs
        rw [bind_ok_eq _ rfl] at hs ⊢
        generalize hrow : (⟨serial, raw.data, f.value, raw.version, c.revRules.validBefore, b64Text (X.sha256 rest.rest)⟩ :
          ACRow) = row at hs ⊢
        cases hn : newRow collate a exports row with
        | error e' =>
          rw [hn] at hs
          rw [newRow_refused h hn]
          exact hs
        | ok rows => rw [hn] at hs; cases hs

/-- A loop that ends had no round that refused. -/
theorem startLoop_round {db : PAuthDb} {exports : Dict Str} {session : Str} {clock : Nat → Int} {pre post : List RawCert}
    {raw : RawCert} {i : Nat} {acc acc' : StartAcc}
    (h : startLoop X collate db exports session clock i acc (pre ++ raw :: post) = .ok acc') :
    ∃ a a', startStep X collate db exports session (clock (i + pre.length)) a raw = .ok a' := by
  induction pre generalizing i acc with
  | nil =>
    rw [List.nil_append, startLoop, except_bind_ok] at h
    obtain ⟨a, h1, _⟩ := h
    exact ⟨acc, a, h1⟩
  | cons r pre ih =>
    rw [List.cons_append, startLoop, except_bind_ok] at h
    obtain ⟨a, _, h2⟩ := h
    obtain ⟨x, y, h⟩ := ih h2
    refine ⟨x, y, ?_⟩
    rw [List.length_cons, show i + (pre.length + 1) = i + 1 + pre.length by omega]
    exact h

/-- `start_session` in terms of the loop and the end. -/
theorem startSessionE_eq (db : PAuthDb) (q : StartCall) {session : Str} (hne : q.raws ≠ [])
    (hs : intToB64 q.env.random = .ok session) :
    startSessionE X collate db q.env q.serviceUid q.set q.exports =
      (startLoop X collate db q.exports session q.env.clock 0 {} q.raws).bind (q.finish collate db session) := by
  unfold startSessionE
  rw [if_neg (show ¬ (q.set.getD []).length < 1 from fun h => hne (List.length_eq_zero_iff.mp (Nat.lt_one_iff.mp h))), hs]
  rfl

theorem step_round (q : StartCall) (seen current : PAuthDb) (a : List PAAuthority) (session : Str) (i : Nat) (acc : StartAcc)
    (raw : RawCert) (rest : List RawCert) : q.step X collate seen current (.reading a session i acc (raw :: rest)) =
      match startStep X collate { seen with authorities := a } q.exports session (q.env.clock i) acc raw with
      | .error e => (none, .done (.error e))
      | .ok acc => (none, .reading a session (i + 1) acc rest) := rfl

theorem step_commit (q : StartCall) (seen current : PAuthDb) (a : List PAAuthority) (session : Str) (i : Nat) (acc : StartAcc) :
    q.step X collate seen current (.reading a session i acc []) =
      match q.finish collate current session acc with
      | .error e => (none, .done (.error e))
      | .ok (db, r) => (some db, .done (.ok r)) := rfl

/-! ### The invariant -/

/-- What holds of a call that has begun: making its rounds again in a later state gives the same, as long as no certificate
it wants to store has been stored. -/
def Replays (X : Crypto) (collate : Str → Str) (current : PAuthDb) (q : StartCall) : Job → Prop
  | .reading authorities session i acc rest =>
    authorities = current.authorities ∧ q.raws ≠ [] ∧ intToB64 q.env.random = .ok session ∧
    (∃ pre, q.raws = pre ++ rest ∧ pre.length = i) ∧
    ∀ db, DbExtends current db → (∀ r ∈ acc.certs, Unstored collate db r) →
      startLoop X collate db q.exports session q.env.clock 0 {} q.raws =
        startLoop X collate db q.exports session q.env.clock i acc rest
  | _ => True

theorem Replays.later {a b : PAuthDb} (h : DbExtends a b) {q : StartCall} {job : Job} (hr : Replays X collate a q job) :
    Replays X collate b q job := by
  cases job with
  | fresh => trivial
  | done r => trivial
  | reading authorities session i acc rest =>
    obtain ⟨h1, h2, h3, h4, h5⟩ := hr
    exact ⟨h1.trans h.authorities.symm, h2, h3, h4, fun db hd => h5 db (h.trans hd)⟩

/-- The states a query may see are earlier than the newest. -/
def Earlier (p : Pool) : Prop := ∀ db ∈ p.older, DbExtends db p.current

theorem seen_earlier {p : Pool} (h : Earlier p) (v : Nat) : DbExtends ((p.current :: p.older).getD v p.current) p.current := by
  rw [List.getD_eq_getElem?_getD]
  cases hv : (p.current :: p.older)[v]? with
  | none => exact .refl _
  | some db =>
    rcases List.mem_cons.mp (List.mem_of_getElem? hv) with e | hm
    · show DbExtends db _
      rw [e]
      exact .refl _
    · exact h db hm

/-- A step of a call keeps what holds of it, and a commit is what the call would do alone in the state it finds. -/
theorem call_step {q : StartCall} {seen current : PAuthDb} (hseen : DbExtends seen current) {job job' : Job}
    {new : Option PAuthDb} (hr : Replays X collate current q job)
    (h : q.step X collate seen current job = (new, job')) :
    (new = none → Replays X collate current q job') ∧
    (∀ db, new = some db → ∃ r, job' = .done (.ok r) ∧ (∀ o, job ≠ .done o) ∧
      startSession X collate current q.env q.serviceUid q.set q.exports = (db, .ok r)) ∧
    (∀ r, job' = .done (.ok r) → new = none → job = .done (.ok r)) := by
  cases job with
  | done o =>
    cases h
    exact ⟨fun _ => trivial, fun _ h => (by cases h), fun _ h _ => h⟩
  | fresh =>
    replace h : (none, q.begin seen) = (new, job') := h
    unfold StartCall.begin at h
    split at h
    · cases h
      exact ⟨fun _ => trivial, fun _ h => (by cases h), fun _ h => (by cases h)⟩
    · rename_i hne
      cases hs : intToB64 q.env.random with
      | error e =>
        rw [hs] at h
        cases h
        exact ⟨fun _ => trivial, fun _ h => (by cases h), fun _ h => (by cases h)⟩
      | ok session =>
        rw [hs] at h
        cases h
        refine ⟨fun _ => ⟨hseen.authorities.symm, ?_, hs, ⟨[], rfl, rfl⟩, fun _ _ _ => rfl⟩, fun _ h => (by cases h),
          fun _ h => (by cases h)⟩
        intro e
        rw [e] at hne
        exact hne (by decide)
  | reading authorities session i acc rest =>
    obtain ⟨ha, hne, hs, ⟨pre, hpre, hi⟩, hl⟩ := hr
    cases rest with
    | cons raw rest =>
      rw [step_round] at h
      have hx : DbExtends { seen with authorities := authorities } current :=
        ⟨ha.symm, hseen.policies, hseen.certs, hseen.assignments, hseen.sessions⟩
      cases hst : startStep X collate { seen with authorities := authorities } q.exports session (q.env.clock i) acc raw with
      | error e =>
        rw [hst] at h
        cases h
        exact ⟨fun _ => trivial, fun _ h => (by cases h), fun _ h => (by cases h)⟩
      | ok acc' =>
        rw [hst] at h
        cases h
        refine ⟨fun _ => ⟨ha, hne, hs, ⟨pre ++ [raw], by rw [hpre, List.append_assoc]; rfl, by
          rw [List.length_append, hi]; rfl⟩, ?_⟩, fun _ h => (by cases h), fun _ h => (by cases h)⟩
        intro db hd hn
        obtain ⟨rows, hrows⟩ := startStep_certs hst
        rw [hl db hd (fun r hr => hn r (by rw [hrows]; exact List.mem_append_left _ hr)), startLoop,
          startStep_later (hx.trans hd) hst hn]
        rfl
    | nil =>
      rw [step_commit] at h
      cases hf : q.finish collate current session acc with
      | error e =>
        rw [hf] at h
        cases h
        exact ⟨fun _ => trivial, fun _ h => (by cases h), fun _ h => (by cases h)⟩
      | ok x =>
        obtain ⟨db, r⟩ := x
        rw [hf] at h
        cases h
        refine ⟨fun h => (by cases h), ?_, fun _ _ h => (by cases h)⟩
        intro db' e
        cases e
        refine ⟨r, rfl, fun _ h => (by cases h), ?_⟩
        have hfree : ∀ row ∈ acc.certs, Unstored collate current row := by
          unfold StartCall.finish at hf
          dsimp only at hf
          split at hf
          · cases hf
          · simp only [except_bind_ok, except_pure_ok] at hf
            obtain ⟨addr, _, db', hc, _⟩ := hf
            obtain ⟨_, _, _, ⟨_, hk⟩, _⟩ := commit_ok.mp hc
            intro row hrow r hr e
            exact hk _ (List.mem_map_of_mem hrow) (e ▸ List.mem_map_of_mem (f := fun r : ACRow => collate r.serial) hr)
        refine start_split.mpr ?_
        rw [startSessionE_eq current q hne hs, hl current (.refl _) hfree, startLoop]
        exact hf

theorem granted_set {jobs : List (StartCall × Job)} {j : Nat} {q : StartCall} {job : Job} (hj : jobs[j]? = some (q, job)) :
    (∀ job', (∀ r, job ≠ .done (.ok r)) → (∀ r, job' ≠ .done (.ok r)) →
      grantedCalls (jobs.set j (q, job')) = grantedCalls jobs) ∧
    (∀ r, (∀ r, job ≠ .done (.ok r)) →
      (grantedCalls (jobs.set j (q, .done (.ok r)))).Perm (grantedCalls jobs ++ [(q, r)])) := by
  have hskip : ∀ (q : StartCall) (job : Job) (l : List (StartCall × Job)), (∀ r, job ≠ .done (.ok r)) →
      grantedCalls ((q, job) :: l) = grantedCalls l := by
    intro q job l h
    cases job with
    | fresh => rfl
    | reading => rfl
    | done o =>
      cases o with
      | error e => rfl
      | ok r => exact absurd rfl (h r)
  induction jobs generalizing j with
  | nil => cases hj
  | cons x jobs ih =>
    cases j with
    | zero =>
      rw [List.getElem?_cons_zero] at hj
      cases hj
      refine ⟨fun job' h h' => ?_, fun r h => ?_⟩
      · rw [List.set_cons_zero, hskip _ _ _ h, hskip _ _ _ h']
      · rw [List.set_cons_zero, hskip _ _ _ h]
        show ((q, r) :: grantedCalls jobs).Perm _
        exact (List.perm_append_singleton (q, r) (grantedCalls jobs)).symm
    | succ j =>
      rw [List.getElem?_cons_succ] at hj
      obtain ⟨h1, h2⟩ := ih hj
      obtain ⟨q', job''⟩ := x
      by_cases hg : ∃ r, job'' = .done (.ok r)
      · obtain ⟨r', rfl⟩ := hg
        refine ⟨fun job' h h' => ?_, fun r h => ?_⟩
        · rw [List.set_cons_succ]
          show (q', r') :: grantedCalls _ = (q', r') :: grantedCalls _
          rw [h1 job' h h']
        · rw [List.set_cons_succ]
          show ((q', r') :: grantedCalls _).Perm ((q', r') :: (grantedCalls _ ++ _))
          exact (h2 r h).cons _
      · have hg' : ∀ r, job'' ≠ .done (.ok r) := fun r e => hg ⟨r, e⟩
        refine ⟨fun job' h h' => ?_, fun r h => ?_⟩
        · rw [List.set_cons_succ, hskip _ _ _ hg', hskip _ _ _ hg', h1 job' h h']
        · rw [List.set_cons_succ, hskip _ _ _ hg', hskip _ _ _ hg']
          exact h2 r h

/-- What holds after any steps. -/
structure Linear (X : Crypto) (collate : Str → Str) (db : PAuthDb) (p : Pool) : Prop where
  earlier : Earlier p
  replays : ∀ x ∈ p.jobs, Replays X collate p.current x.1 x.2
  order : ∃ l, OneByOne X collate db l p.current ∧ (grantedCalls p.jobs).Perm l

/-- A granted call only adds rows. -/
theorem start_extends {db db' : PAuthDb} {q : StartCall} {r : SessionReturn}
    (h : startSession X collate db q.env q.serviceUid q.set q.exports = (db', .ok r)) : DbExtends db db' := by
  have hE := start_split.mp h
  unfold startSessionE at hE
  dsimp only at hE
  split at hE
  · cases hE
  · simp only [except_bind_ok] at hE
    obtain ⟨s, _, acc, _, hE⟩ := hE
    split at hE
    · cases hE
    · simp only [except_bind_ok, except_pure_ok] at hE
      obtain ⟨addr, _, d, hc, he⟩ := hE
      cases he
      obtain ⟨uid, _, _, _, _, _, rfl⟩ := commit_ok.mp hc
      exact ⟨rfl, rfl, List.prefix_append _ _, List.prefix_append _ _, List.prefix_append _ _⟩

theorem step_linear {db : PAuthDb} {p : Pool} (h : Linear X collate db p) (j v : Nat) :
    Linear X collate db (p.step X collate j v) := by
  unfold Pool.step
  cases hj : p.jobs[j]? with
  | none => exact h
  | some x =>
    obtain ⟨q, job⟩ := x
    dsimp only
    have hr := h.replays _ (List.mem_of_getElem? hj)
    cases hst : q.step X collate ((p.current :: p.older).getD v p.current) p.current job with
    | mk new job' =>
      obtain ⟨h1, h2, h3⟩ := call_step (seen_earlier h.earlier v) hr hst
      cases new with
      | none =>
        dsimp only
        refine ⟨h.earlier, ?_, ?_⟩
        · intro x hx
          rcases List.mem_or_eq_of_mem_set hx with hx | rfl
          · exact h.replays x hx
          · exact h1 rfl
        · by_cases hd : ∃ r, job = .done (.ok r)
          · obtain ⟨r, rfl⟩ := hd
            cases hst
            have : p.jobs.set j (q, .done (.ok r)) = p.jobs := by
              obtain ⟨hlt, he⟩ := List.getElem?_eq_some_iff.mp hj
              rw [← he, List.set_getElem_self]
            dsimp only
            rw [this]
            exact h.order
          · have hd' : ∀ r, job ≠ .done (.ok r) := fun r e => hd ⟨r, e⟩
            dsimp only
            rw [(granted_set hj).1 job' hd' (fun r e => hd' r (h3 r e rfl))]
            exact h.order
      | some d =>
        dsimp only
        obtain ⟨r, rfl, hn, hs⟩ := h2 d rfl
        have hx := start_extends hs
        refine ⟨?_, ?_, ?_⟩
        · intro x hx'
          rcases List.mem_cons.mp hx' with rfl | hx'
          · exact hx
          · exact (h.earlier x hx').trans hx
        · intro x hx'
          rcases List.mem_or_eq_of_mem_set hx' with hx' | rfl
          · exact (h.replays x hx').later hx
          · trivial
        · obtain ⟨l, hl, hp⟩ := h.order
          refine ⟨l ++ [(q, r)], hl.next hs, ?_⟩
          exact ((granted_set hj).2 r (fun r' => hn _)).trans (hp.append_right _)

theorem run_linear {db : PAuthDb} {p : Pool} (h : Linear X collate db p) (schedule : List (Nat × Nat)) :
    Linear X collate db (p.run X collate schedule) := by
  unfold Pool.run
  induction schedule generalizing p with
  | nil => exact h
  | cons s schedule ih => exact ih (step_linear h s.1 s.2)

theorem grantedCalls_fresh (qs : List StartCall) : grantedCalls (qs.map (fun q => (q, Job.fresh))) = [] := by
  induction qs with
  | nil => rfl
  | cons q qs ih => exact ih

theorem make_linear (db : PAuthDb) (qs : List StartCall) : Linear X collate db (Pool.make db qs) := by
  refine ⟨fun _ h => (by cases h), ?_, [], .none, ?_⟩
  · intro x hx
    obtain ⟨q, _, rfl⟩ := List.mem_map.mp hx
    trivial
  · rw [show grantedCalls (Pool.make db qs).jobs = [] from grantedCalls_fresh qs]

/-- **C104**: whatever the order of the steps of calls made at the same time, and whatever earlier states their queries see,
the state of the database and the answers of the calls that are granted are those of these calls made one after another. -/
theorem concurrent_serial (db : PAuthDb) (qs : List StartCall) (schedule : List (Nat × Nat)) :
    ∃ l, OneByOne X collate db l ((Pool.make db qs).run X collate schedule).current ∧
      (grantedCalls ((Pool.make db qs).run X collate schedule).jobs).Perm l :=
  (run_linear (make_linear db qs) schedule).order

/-- **C104**: so the tables stay consistent and rows are only added, as for calls one after another (C84). -/
theorem concurrent_consistent {db : PAuthDb} (h : Consistent X collate db) (qs : List StartCall) (schedule : List (Nat × Nat)) :
    Consistent X collate ((Pool.make db qs).run X collate schedule).current ∧
    DbExtends db ((Pool.make db qs).run X collate schedule).current := by
  have key : ∀ l db', OneByOne X collate db l db' → Consistent X collate db' ∧ DbExtends db db' := by
    intro l db' hl
    induction hl with
    | none => exact ⟨h, .refl _⟩
    | @next l mid db' q r _ hg ih =>
      refine ⟨?_, ih.2.trans (start_extends hg)⟩
      have hE := start_split.mp hg
      have hr : q.env.random < 2 ^ 160 := by
        by_contra hr
        unfold startSessionE at hE
        dsimp only at hE
        split at hE
        · cases hE
        · simp only [except_bind_ok] at hE
          obtain ⟨s, hs, _⟩ := hE
          have := (intToB64_inv hs).2.1
          omega
      obtain ⟨raws, cs, _, hne, hs⟩ := (start_iff ih.1.keys hr _).mp hE
      exact started_consistent ih.1 hs hne
  obtain ⟨l, hl, _⟩ := concurrent_serial (X := X) (collate := collate) db qs schedule
  exact key l _ hl

/-- **C104**: every call ends after at most as many of its own steps as it has certificates and two more, whatever the others
do. -/
theorem call_ends (q : StartCall) (states : List (PAuthDb × PAuthDb)) (h : q.raws.length + 2 ≤ states.length) :
    ∃ o, states.foldl (fun job s => (q.step X collate s.1 s.2 job).2) .fresh = .done o := by
  have stay : ∀ (states : List (PAuthDb × PAuthDb)) o,
      states.foldl (fun job s => (q.step X collate s.1 s.2 job).2) (.done o) = .done o := by
    intro states o
    induction states with
    | nil => rfl
    | cons s states ih => exact ih
  have read : ∀ (rest : List RawCert) (states : List (PAuthDb × PAuthDb)) a session i acc, rest.length + 1 ≤ states.length →
      ∃ o, states.foldl (fun job s => (q.step X collate s.1 s.2 job).2) (.reading a session i acc rest) = .done o := by
    intro rest
    induction rest with
    | nil =>
      intro states a session i acc h
      cases states with
      | nil => cases h
      | cons s states =>
        rw [List.foldl_cons, step_commit]
        cases hf : q.finish collate s.2 session acc with
        | error e => exact ⟨_, stay _ _⟩
        | ok x => exact ⟨_, stay _ _⟩
    | cons raw rest ih =>
      intro states a session i acc h
      cases states with
      | nil => cases h
      | cons s states =>
        rw [List.foldl_cons]
        rw [List.length_cons, List.length_cons] at h
        rw [step_round]
        cases hs : startStep X collate { s.1 with authorities := a } q.exports session (q.env.clock i) acc raw with
        | error e => exact ⟨_, stay _ _⟩
        | ok acc => exact ih states _ _ _ _ (by omega)
  cases states with
  | nil => cases h
  | cons s states =>
    rw [List.foldl_cons]
    rw [List.length_cons] at h
    show ∃ o, states.foldl _ (q.begin s.1) = .done o
    unfold StartCall.begin
    split
    · exact ⟨_, stay _ _⟩
    · split
      · exact ⟨_, stay _ _⟩
      · exact read _ _ _ _ _ _ (by omega)

/-! ### C105: what concurrency changes -/

/-- **C105**: a call that is refused before its commit would be refused alone as well, in the state at that time and in every
later one. -/
theorem refused_alone {q : StartCall} {seen current later : PAuthDb} (hseen : DbExtends seen current)
    (hlater : DbExtends current later) {job : Job} (hr : Replays X collate current q job) (hd : ∀ o, job ≠ .done o)
    (hc : ∀ a s i acc, job ≠ .reading a s i acc []) {e : PyExc} {new : Option PAuthDb}
    (h : q.step X collate seen current job = (new, .done (.error e))) :
    ∃ e', startSession X collate later q.env q.serviceUid q.set q.exports = (later, .error e') := by
  have alone : (∀ x, startSessionE X collate later q.env q.serviceUid q.set q.exports ≠ .ok x) →
      ∃ e', startSession X collate later q.env q.serviceUid q.set q.exports = (later, .error e') := by
    intro hn
    cases hE : startSessionE X collate later q.env q.serviceUid q.set q.exports with
    | error e => exact ⟨e, start_error hE⟩
    | ok x => exact absurd hE (hn x)
  cases job with
  | done o => exact absurd rfl (hd o)
  | fresh =>
    replace h : (none, q.begin seen) = (new, .done (.error e)) := h
    unfold StartCall.begin at h
    split at h
    · rename_i hl
      refine ⟨_, start_error (e := clientFaultLogged q.exports "Need attribute certificate set to start session.") ?_⟩
      unfold startSessionE
      exact if_pos hl
    · rename_i hl
      refine alone (fun x hx => ?_)
      unfold startSessionE at hx
      replace hx := (if_neg (show ¬ (q.set.getD []).length < 1 from hl)).symm.trans hx
      cases hs : intToB64 q.env.random with
      | error e => rw [hs] at hx; cases hx
      | ok session => rw [hs] at h; cases h
  | reading a session i acc rest =>
    cases rest with
    | nil => exact absurd rfl (hc _ _ _ _)
    | cons raw rest =>
      obtain ⟨ha, hne, hs, ⟨pre, hpre, hi⟩, _⟩ := hr
      have hx : DbExtends { seen with authorities := a } later :=
        DbExtends.trans (b := current) ⟨ha.symm, hseen.policies, hseen.certs, hseen.assignments, hseen.sessions⟩ hlater
      rw [step_round] at h
      cases hst : startStep X collate { seen with authorities := a } q.exports session (q.env.clock i) acc raw with
      | ok acc' => rw [hst] at h; cases h
      | error e' =>
        refine alone (fun x hx' => ?_)
        rw [startSessionE_eq later q hne hs] at hx'
        cases hl : startLoop X collate later q.exports session q.env.clock 0 {} q.raws with
        | error e => rw [hl] at hx'; cases hx'
        | ok acc' =>
          rw [hpre] at hl
          obtain ⟨x, y, hy⟩ := startLoop_round hl
          rw [Nat.zero_add, hi, startStep_refused hx hst] at hy
          cases hy

/-- **C105**: at its commit a call ends as it would alone in the state it finds, unless a certificate it did not find before has
been stored since. -/
theorem commit_alone {q : StartCall} {seen current : PAuthDb} {a : List PAAuthority} {session : Str} {i : Nat} {acc : StartAcc}
    (hr : Replays X collate current q (.reading a session i acc []))
    (hn : ∀ row ∈ acc.certs, Unstored collate current row) :
    (∃ db r, q.step X collate seen current (.reading a session i acc []) = (some db, .done (.ok r)) ∧
      startSession X collate current q.env q.serviceUid q.set q.exports = (db, .ok r)) ∨
    ∃ e, q.step X collate seen current (.reading a session i acc []) = (none, .done (.error e)) ∧
      startSession X collate current q.env q.serviceUid q.set q.exports = (current, .error e) := by
  obtain ⟨_, hne, hs, _, hl⟩ := hr
  have hE := startSessionE_eq (X := X) (collate := collate) current q hne hs
  rw [hl current (.refl _) hn, startLoop] at hE
  replace hE : startSessionE X collate current q.env q.serviceUid q.set q.exports = q.finish collate current session acc := hE
  cases hf : q.finish collate current session acc with
  | error e =>
    refine .inr ⟨e, ?_, start_error (hE.trans hf)⟩
    rw [step_commit, hf]
  | ok x =>
    obtain ⟨db, r⟩ := x
    refine .inl ⟨db, r, ?_, start_split.mpr (hE.trans hf)⟩
    rw [step_commit, hf]

/-- **C105**: if one has been stored since, the call raises and stores nothing; IntegrityError, if nothing else is wrong. -/
theorem commit_lost {q : StartCall} {seen current : PAuthDb} {a : List PAAuthority} {session : Str} {i : Nat} {acc : StartAcc}
    {row : ACRow} (hrow : row ∈ acc.certs) (hn : ¬ Unstored collate current row) :
    ∃ e, q.step X collate seen current (.reading a session i acc []) = (none, .done (.error e)) ∧
      (acc.processed ≠ [] → (∃ addr, q.exports.get "REMOTE_ADDR".toList = some addr) → q.env.commitFault = none →
        e = .integrityError) := by
  rw [step_commit]
  cases hf : q.finish collate current session acc with
  | error e =>
    refine ⟨e, rfl, ?_⟩
    rintro hp ⟨addr, ha⟩ hc
    unfold StartCall.finish at hf
    dsimp only at hf
    rw [if_neg (fun h => hp (List.length_eq_zero_iff.mp (Nat.lt_one_iff.mp h)))] at hf
    have hr : remoteAddr q.exports = .ok addr := by unfold remoteAddr; rw [ha]; rfl
    rw [hr, bind_ok_eq _ rfl] at hf
    unfold PAuthDb.commit at hf
    rw [hc] at hf
    cases hu : q.serviceUid with
    | none => rw [hu] at hf; cases hf; rfl
    | some uid =>
      rw [hu] at hf
      dsimp only at hf
      split at hf
      · cases hf
      · cases hf; rfl
  | ok x =>
    exfalso
    unfold StartCall.finish at hf
    dsimp only at hf
    split at hf
    · cases hf
    · simp only [except_bind_ok, except_pure_ok] at hf
      obtain ⟨addr, _, db', hc, _⟩ := hf
      obtain ⟨_, _, _, ⟨_, hk⟩, _⟩ := commit_ok.mp hc
      refine hn (fun r hr e => ?_)
      exact hk _ (List.mem_map_of_mem hrow) (e ▸ List.mem_map_of_mem (f := fun r : ACRow => collate r.serial) hr)

/-- One step of a pool. -/
theorem pool_step {p : Pool} {j v : Nat} {q : StartCall} {job job' : Job} {new : Option PAuthDb} (hj : p.jobs[j]? = some (q, job))
    (h : q.step X collate ((p.current :: p.older).getD v p.current) p.current job = (new, job')) :
    p.step X collate j v =
      ⟨new.getD p.current, new.elim p.older (fun _ => p.current :: p.older), p.jobs.set j (q, job')⟩ := by
  unfold Pool.step
  rw [hj]
  dsimp only
  rw [h]
  cases new <;> rfl

/-- **C105**: how the step that ends a call compares with the call alone, in the state before the step. If it is granted, the
answer and the new state are the same. If it is refused, it would be refused alone, or a certificate it wanted to store has
been stored by another call since it was looked up. -/
theorem ended_alone (db : PAuthDb) (qs : List StartCall) (schedule : List (Nat × Nat)) (p : Pool)
    (hp : p = (Pool.make db qs).run X collate schedule) (j v : Nat) (q : StartCall) (job : Job) (hj : p.jobs[j]? = some (q, job))
    (hd : ∀ o, job ≠ .done o) (o : Except PyExc SessionReturn)
    (ho : (p.step X collate j v).jobs[j]? = some (q, .done o)) :
    (∀ r, o = .ok r → startSession X collate p.current q.env q.serviceUid q.set q.exports =
      ((p.step X collate j v).current, .ok r)) ∧
    ∀ e, o = .error e → (p.step X collate j v).current = p.current ∧
      ((∃ e', startSession X collate p.current q.env q.serviceUid q.set q.exports = (p.current, .error e')) ∨
       ∃ a session i acc, job = .reading a session i acc [] ∧ ∃ row ∈ acc.certs, ∃ stored ∈ p.current.certs,
        collate stored.serial = collate row.serial) := by
  have hl : Linear X collate db p := hp ▸ run_linear (make_linear db qs) schedule
  have hr := hl.replays _ (List.mem_of_getElem? hj)
  have hseen := seen_earlier hl.earlier v
  cases hst : q.step X collate ((p.current :: p.older).getD v p.current) p.current job with
  | mk new job' =>
    obtain ⟨h1, h2, h3⟩ := call_step hseen hr hst
    rw [pool_step hj hst] at ho ⊢
    have hlt := (List.getElem?_eq_some_iff.mp hj).1
    rw [List.getElem?_set_self hlt] at ho
    cases ho
    constructor
    · rintro r rfl
      cases new with
      | none => exact absurd (h3 r rfl rfl) (hd _)
      | some d =>
        obtain ⟨r', he, _, hs⟩ := h2 d rfl
        cases he
        exact hs
    · rintro e rfl
      have hnew : new = none := by
        cases new with
        | none => rfl
        | some d => obtain ⟨r', he, _⟩ := h2 d rfl; cases he
      subst hnew
      refine ⟨rfl, ?_⟩
      by_cases hc : ∃ a s i acc, job = .reading a s i acc []
      · obtain ⟨a, s, i, acc, rfl⟩ := hc
        by_cases hn : ∀ row ∈ acc.certs, Unstored collate p.current row
        · rcases commit_alone (seen := (p.current :: p.older).getD v p.current) hr hn with ⟨d, r, h, _⟩ | ⟨e', h, h'⟩
          · rw [hst] at h; cases h
          · exact .inl ⟨e', h'⟩
        · refine .inr ⟨a, s, i, acc, rfl, ?_⟩
          by_contra hno
          refine hn (fun row hrow stored hs e => hno ⟨row, hrow, stored, hs, e⟩)
      · exact .inl (refused_alone hseen (.refl _) hr hd (fun a s i acc e => hc ⟨a, s, i, acc, e⟩) hst)

/-- A call with a single certificate that is accepted and not stored, up to its commit. -/
theorem single_steps {db : PAuthDb} (hk : PAKeys collate db) {q : StartCall} {raw : RawCert} {c : AttCert}
    (hset : q.set = some [raw]) (hr : q.env.random < 2 ^ 160) (hacc : Accepted X db (q.env.clock 0) raw c)
    (hn : Unstored collate db (certRow X raw c)) :
    ∃ acc, acc.certs = [certRow X raw c] ∧ acc.processed ≠ [] ∧
      (∀ current, q.step X collate db current .fresh = (none, .reading db.authorities (numberText q.env.random) 0 {} [raw])) ∧
      ∀ current, q.step X collate db current (.reading db.authorities (numberText q.env.random) 0 {} [raw]) =
        (none, .reading db.authorities (numberText q.env.random) 1 acc []) := by
  have hraws : q.raws = [raw] := by unfold StartCall.raws; rw [hset]; rfl
  have hstep := (startStep_ok (X := X) (exports := q.exports) (session := numberText q.env.random) (acc := {}) hk).mpr
    ⟨c, ⟨hacc, fun h hh e => absurd e (hn h hh)⟩, rfl⟩
  obtain ⟨hc, _, _, _, hp⟩ := steps_fields (X := X) (collate := collate) (db := db) (numberText q.env.random) [(raw, c)] {}
  refine ⟨_, ?_, hp (by simp), fun current => ?_, fun current => ?_⟩
  · rw [hc]
    have : isNew collate db c = true := List.all_eq_true.mpr (fun r hr => decide_eq_true (hn r hr))
    simp [newCerts, this]
  · show (none, q.begin db) = _
    unfold StartCall.begin
    rw [hraws, if_neg (show ¬ [raw].length < 1 from Nat.lt_irrefl 1), intToB64_ok (by omega) (by omega)]
  · rw [step_round]
    replace hstep : startStep X collate { db with authorities := db.authorities } q.exports _ (q.env.clock 0) _ raw = _ := hstep
    rw [hstep]
    rfl

/-- **C105** does not hold without this exception: of two calls with the same new certificate at the same time the second
raises IntegrityError, although each would be granted alone, also one after the other. -/
theorem race {db : PAuthDb} (hk : PAKeys collate db) {q1 q2 : StartCall} {raw : RawCert} {c : AttCert} {addr1 addr2 : Str}
    {uid1 uid2 : Str} (hset1 : q1.set = some [raw]) (hset2 : q2.set = some [raw]) (hr1 : q1.env.random < 2 ^ 160)
    (hr2 : q2.env.random < 2 ^ 160) (hacc1 : Accepted X db (q1.env.clock 0) raw c)
    (hacc2 : Accepted X db (q2.env.clock 0) raw c) (hn : Unstored collate db (certRow X raw c))
    (hs1 : ∀ s ∈ db.sessions, collate s.id ≠ collate (numberText q1.env.random))
    (hs2 : ∀ s ∈ db.sessions, collate s.id ≠ collate (numberText q2.env.random))
    (hs : collate (numberText q1.env.random) ≠ collate (numberText q2.env.random))
    (ha1 : ∀ a ∈ db.assignments, collate a.sessionId ≠ collate (numberText q1.env.random))
    (ha2 : ∀ a ∈ db.assignments, collate a.sessionId ≠ collate (numberText q2.env.random))
    (hf1 : q1.env.commitFault = none) (hf2 : q2.env.commitFault = none)
    (hx1 : q1.exports.get "REMOTE_ADDR".toList = some addr1) (hx2 : q2.exports.get "REMOTE_ADDR".toList = some addr2)
    (hu1 : q1.serviceUid = some uid1) (hu2 : q2.serviceUid = some uid2) :
    ∃ db1 db2 r1 r2, startSession X collate db q1.env q1.serviceUid q1.set q1.exports = (db1, .ok r1) ∧
      startSession X collate db1 q2.env q2.serviceUid q2.set q2.exports = (db2, .ok r2) ∧
      (Pool.make db [q1, q2]).run X collate [(0, 0), (1, 0), (0, 0), (1, 0), (0, 0), (1, 0)] =
        ⟨db1, [db], [(q1, .done (.ok r1)), (q2, .done (.error .integrityError))]⟩ := by
  have h1 := start_single (uid := uid1) hk hr1 hacc1 (fun h hh e => absurd e (hn h hh)) hs1 ha1 hf1 hx1
  rw [← hset1, ← hu1] at h1
  generalize hdb1 : ({ db with
          certs := db.certs ++ newCerts X collate db [(raw, c)]
          assignments := db.assignments ++ [⟨serialText c, numberText q1.env.random⟩]
          sessions := db.sessions ++ [⟨numberText q1.env.random, c.info.issued, c.revRules.validBefore, q1.env.now, addr1, uid1,
            min c.revRules.validBefore (q1.env.now + 86400)⟩] } : PAuthDb) = db1 at h1
  generalize (⟨q1.env.random, q1.env.now, min c.revRules.validBefore (q1.env.now + 86400)⟩ : SessionReturn) = r1 at h1
  have hnew : newCerts X collate db [(raw, c)] = [certRow X raw c] := by
    have : isNew collate db c = true := List.all_eq_true.mpr (fun r hr => decide_eq_true (hn r hr))
    simp [newCerts, this]
  have hc1 : db1.certs = db.certs ++ [certRow X raw c] := by rw [← hdb1, ← hnew]
  have hk1 : PAKeys collate db1 := by
    obtain ⟨raws, cs, _, hne, hst⟩ := (start_iff hk hr1 _).mp (start_split.mp h1)
    refine ⟨by rw [← hdb1]; exact hk.authorities, ?_, ?_, ?_⟩
    · rw [hc1]
      refine nodup_map_append hk.certs (by simp) ?_
      intro y hy x hx
      rw [List.mem_singleton.mp hy]
      exact hn x hx
    · rw [← hdb1]
      refine nodup_map_append hk.assignments (by simp) ?_
      intro y hy x hx e
      rw [List.mem_singleton.mp hy] at e
      exact ha1 x hx (congrArg Prod.snd e)
    · rw [← hdb1]
      refine nodup_map_append hk.sessions (by simp) ?_
      intro y hy x hx
      rw [List.mem_singleton.mp hy]
      exact hs1 x hx
  have hacc2' : Accepted X db1 (q2.env.clock 0) raw c :=
    ⟨hacc2.version, hacc2.sent, hacc2.verified, by rw [← hdb1]; exact hacc2.trusted, hacc2.started, hacc2.unexpired⟩
  have h2 := start_single (uid := uid2) hk1 hr2 hacc2' (by
      intro h hh e
      rw [hc1] at hh
      rcases List.mem_append.mp hh with hh | hh
      · exact absurd e (hn h hh)
      · rw [List.mem_singleton.mp hh]; rfl) (by
      intro s hs'
      rw [← hdb1] at hs'
      rcases List.mem_append.mp hs' with hs' | hs'
      · exact hs2 s hs'
      · rw [List.mem_singleton.mp hs']; exact hs) (by
      intro a ha
      rw [← hdb1] at ha
      rcases List.mem_append.mp ha with ha | ha
      · exact ha2 a ha
      · rw [List.mem_singleton.mp ha]; exact hs) hf2 hx2
  rw [← hset2, ← hu2] at h2
  refine ⟨db1, _, r1, _, h1, h2, ?_⟩
  obtain ⟨acc1, hcerts1, _, hb1, hm1⟩ := single_steps hk hset1 hr1 hacc1 hn
  obtain ⟨acc2, hcerts2, hp2, hb2, hm2⟩ := single_steps hk hset2 hr2 hacc2 hn
  have hfree : ∀ row ∈ acc1.certs, Unstored collate db row := by
    intro row hrow
    rw [hcerts1] at hrow
    rw [List.mem_singleton.mp hrow]
    exact hn
  have hrep : Replays X collate db q1 (.reading db.authorities (numberText q1.env.random) 1 acc1 []) :=
    (call_step (.refl db) ((call_step (job := .fresh) (.refl db) trivial (hb1 db)).1 rfl) (hm1 db)).1 rfl
  have hcommit : q1.step X collate db db (.reading db.authorities (numberText q1.env.random) 1 acc1 []) =
      (some db1, .done (.ok r1)) := by
    rcases commit_alone (seen := db) hrep hfree with ⟨d, r, h, h'⟩ | ⟨e, _, h'⟩
    · rw [h1] at h'
      cases h'
      exact h
    · rw [h1] at h'; cases h'
  obtain ⟨e, hlost, he⟩ := commit_lost (X := X) (collate := collate) (q := q2) (seen := db1) (current := db1) (a := db.authorities)
    (session := numberText q2.env.random) (i := 1) (acc := acc2) (row := certRow X raw c) (by rw [hcerts2]; exact List.mem_cons_self)
    (fun h => h (certRow X raw c) (by rw [hc1]; exact List.mem_append_right _ List.mem_cons_self) rfl)
  rw [he hp2 ⟨_, hx2⟩ hf2] at hlost
  generalize hj1 : Job.reading db.authorities (numberText q1.env.random) 0 {} [raw] = b1 at hb1 hm1
  generalize hj2 : Job.reading db.authorities (numberText q2.env.random) 0 {} [raw] = b2 at hb2 hm2
  generalize hj3 : Job.reading db.authorities (numberText q1.env.random) 1 acc1 [] = c1 at hm1 hcommit
  generalize hj4 : Job.reading db.authorities (numberText q2.env.random) 1 acc2 [] = c2 at hm2 hlost
  have e1 : (Pool.mk db [] [(q1, .fresh), (q2, .fresh)]).step X collate 0 0 =
      ⟨db, [], [(q1, b1), (q2, .fresh)]⟩ := by
    rw [pool_step (p := Pool.mk db [] [(q1, .fresh), (q2, .fresh)]) (j := 0) (v := 0) (q := q1) (job := .fresh) rfl (hb1 db)]
    rfl
  have e2 : (Pool.mk db [] [(q1, b1), (q2, .fresh)]).step X collate 1 0 =
      ⟨db, [], [(q1, b1), (q2, b2)]⟩ := by
    rw [pool_step (p := Pool.mk db [] [(q1, b1), (q2, .fresh)]) (j := 1) (v := 0) (q := q2) (job := .fresh) rfl (hb2 db)]
    rfl
  have e3 : (Pool.mk db [] [(q1, b1), (q2, b2)]).step X collate 0 0 =
      ⟨db, [], [(q1, c1), (q2, b2)]⟩ := by
    rw [pool_step (p := Pool.mk db [] [(q1, b1), (q2, b2)]) (j := 0) (v := 0) (q := q1) (job := b1) rfl (hm1 db)]
    rfl
  have e4 : (Pool.mk db [] [(q1, c1), (q2, b2)]).step X collate 1 0 =
      ⟨db, [], [(q1, c1), (q2, c2)]⟩ := by
    rw [pool_step (p := Pool.mk db [] [(q1, c1), (q2, b2)]) (j := 1) (v := 0) (q := q2) (job := b2) rfl (hm2 db)]
    rfl
  have e5 : (Pool.mk db [] [(q1, c1), (q2, c2)]).step X collate 0 0 =
      ⟨db1, [db], [(q1, .done (.ok r1)), (q2, c2)]⟩ := by
    rw [pool_step (p := Pool.mk db [] [(q1, c1), (q2, c2)]) (j := 0) (v := 0) (q := q1) (job := c1) rfl hcommit]
    rfl
  have e6 : (Pool.mk db1 [db] [(q1, .done (.ok r1)), (q2, c2)]).step X collate 1 0 =
      ⟨db1, [db], [(q1, .done (.ok r1)), (q2, .done (.error .integrityError))]⟩ := by
    rw [pool_step (p := Pool.mk db1 [db] [(q1, .done (.ok r1)), (q2, c2)]) (j := 1) (v := 0) (q := q2) (job := c2) rfl hlost]
    rfl
  show ((((((Pool.mk db [] [(q1, .fresh), (q2, .fresh)]).step X collate 0 0).step X collate 1 0).step X collate 0 0).step X
    collate 1 0).step X collate 0 0).step X collate 1 0 = _
  rw [e1, e2, e3, e4, e5, e6]

/-! ### Examples -/

/-- The certificate of the examples sent twice at the same time: one session, and IntegrityError. -/
example : ∃ raw db1 r, (Pool.make samplePAuthDb
      [⟨samplePAEnv 5, some "s".toList, some [raw], sampleExports "1.2.3.4"⟩,
       ⟨samplePAEnv 6, some "s".toList, some [raw], sampleExports "1.2.3.4"⟩]).run toyCrypto id
        [(0, 0), (1, 0), (0, 0), (1, 0), (0, 0), (1, 0)] =
    ⟨db1, [samplePAuthDb], [(⟨samplePAEnv 5, some "s".toList, some [raw], sampleExports "1.2.3.4"⟩, .done (.ok r)),
      (⟨samplePAEnv 6, some "s".toList, some [raw], sampleExports "1.2.3.4"⟩, .done (.error .integrityError))]⟩ := by
  obtain ⟨b, c', h, _, hacc, hs⟩ := sample_forged (.inl rfl)
  have hn : numberText 5 ≠ numberText 6 := fun h => absurd (numberText_inj (by decide) (by decide) h) (by decide)
  obtain ⟨db1, db2, r1, r2, _, _, h⟩ := race (collate := id) samplePAuthDb_consistent.keys
    (q1 := ⟨samplePAEnv 5, some "s".toList, some [⟨b64encode b, 1, 3⟩], sampleExports "1.2.3.4"⟩)
    (q2 := ⟨samplePAEnv 6, some "s".toList, some [⟨b64encode b, 1, 3⟩], sampleExports "1.2.3.4"⟩)
    (addr1 := "1.2.3.4".toList) (addr2 := "1.2.3.4".toList) rfl rfl
    (show 5 < 2 ^ 160 by decide) (show 6 < 2 ^ 160 by decide) hacc hacc (fun _ h => (by cases h))
    (fun _ h => (by cases h)) (fun _ h => (by cases h)) hn (fun _ h => (by cases h)) (fun _ h => (by cases h)) rfl rfl rfl rfl
    rfl rfl
  exact ⟨_, db1, r1, h⟩

end Verif.Props
