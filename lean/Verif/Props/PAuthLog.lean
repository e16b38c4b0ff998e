import Verif.Model.PAuthLog
import Verif.Props.AAuthLog
import Verif.Props.PAuth
import Verif.Spec.PAuthLog
import Verif.Tests.Basic

/-!
# What the policy authority writes to the log (C123)
-/

namespace Verif.Props

open Verif.Spec Proofs

variable {X : Crypto} {collate : Str → Str} {db : PAuthDb} {env : PAEnv} {serviceUid : Option Str} {exports : Dict Str}

/-! ### Computations that record their faults -/

/-- What a check ends with and the records it makes: none if it passes; one for the fault `R` relates to it. `O` are the
exceptions nothing is recorded for. -/
inductive CheckTrail {α : Type} (exports : Dict Str) (R : Str → String → Str → Prop) (O : PyExc → Prop) : Except PyExc α → Trail → Prop
  | ok (a : α) : CheckTrail exports R O (.ok a) []
  | fault {addr : Str} {msg : String} {record : Str} (ha : exports.get "REMOTE_ADDR".toList = some addr) (h : R addr msg record) :
      CheckTrail exports R O (.error (.clientFault msg.toList)) [(40, record)]
  | unknown (ha : exports.get "REMOTE_ADDR".toList = none) : CheckTrail exports R O (.error .keyError) []
  | other {e : PyExc} (h : O e) : CheckTrail exports R O (.error e) []

/-- `m` ends as `x` does, with records that `CheckTrail` allows. -/
def Checks {α : Type} (exports : Dict Str) (R : Str → String → Str → Prop) (O : PyExc → Prop) (m : AuditM α) (x : Except PyExc α) :
    Prop := ∃ y, (∀ t, m t = auditEnd x (t ++ y)) ∧ CheckTrail exports R O x y

variable {R : Str → String → Str → Prop} {O : PyExc → Prop}

theorem checks_pure {α : Type} (a : α) : Checks exports R O (pure a : AuditM α) (.ok a) :=
  ⟨[], fun t => by rw [List.append_nil]; rfl, .ok a⟩

theorem checks_lift {α : Type} (x : Except PyExc α) (h : ∀ e, x = .error e → O e) : Checks exports R O (auditLift x) x := by
  refine ⟨[], fun t => by rw [List.append_nil, audit_lift], ?_⟩
  cases x with
  | ok a => exact .ok a
  | error e => exact .other (h e rfl)

theorem checks_refuse {α : Type} {record : Str → Str} {msg : String} (h : ∀ addr, R addr msg (record addr)) :
    Checks exports R O (refuse exports record msg : AuditM α) (.error (clientFaultLogged exports msg)) := by
  unfold refuse clientFaultLogged
  cases ha : exports.get "REMOTE_ADDR".toList with
  | none =>
    refine ⟨[], fun t => ?_, .unknown ha⟩
    rw [audit_bind_lift, remoteAddr, ha, List.append_nil]
    rfl
  | some addr =>
    refine ⟨[(40, record addr)], fun t => ?_, .fault ha (h addr)⟩
    rw [audit_bind_lift, remoteAddr, ha]
    rfl

theorem checks_bind {α β : Type} {m : AuditM α} {x : Except PyExc α} {f : α → AuditM β} {g : α → Except PyExc β}
    (hm : Checks exports R O m x) (hf : ∀ a, x = .ok a → Checks exports R O (f a) (g a)) :
    Checks exports R O (m >>= f) (x >>= g) := by
  obtain ⟨y, h1, h2⟩ := hm
  cases x with
  | ok a =>
    cases h2
    obtain ⟨z, h3, h4⟩ := hf a rfl
    refine ⟨z, fun t => ?_, h4⟩
    rw [audit_bind_end f (h1 t), List.append_nil]
    exact h3 t
  | error e =>
    refine ⟨y, fun t => ?_, ?_⟩
    · rw [audit_bind_end f (h1 t)]; rfl
    · cases h2 with
      | fault ha h => exact .fault ha h
      | unknown ha => exact .unknown ha
      | other h => exact .other h

theorem checks_mono {α : Type} {R' : Str → String → Str → Prop} {O' : PyExc → Prop} {m : AuditM α} {x : Except PyExc α}
    (h : Checks exports R O m x) (hR : ∀ a m r, R a m r → R' a m r) (hO : ∀ e, O e → O' e) : Checks exports R' O' m x := by
  obtain ⟨y, h1, h2⟩ := h
  refine ⟨y, h1, ?_⟩
  cases h2 with
  | ok a => exact .ok a
  | fault ha h => exact .fault ha (hR _ _ _ h)
  | unknown ha => exact .unknown ha
  | other h => exact .other (hO _ h)

/-! ### `start_session` -/

theorem checkCert_checks {clock : Nat → Int} {raws : List RawCert} {authorities : Dict PAAuthority} {now version : Int} {data : Bytes}
    {f : ExportFormat} :
    Checks exports (StartRecord X collate db clock raws) (· = .valueError)
      (checkCertLog X authorities exports now (.bytearray data) version f)
      (checkCert X authorities exports now (.bytearray data) version f) := by
  unfold checkCertLog checkCert
  split
  · exact checks_refuse fun _ => .version
  split
  · exact checks_refuse fun _ => .format
  cases himp : AttCert.importAC X (.bytearray data) f true with
  | error e => exact checks_refuse fun _ => .unverified
  | ok p =>
    obtain ⟨cert, rest⟩ := p
    have hv : cert.verifySignature X = .ok true := by
      rcases import_bytearray.mp himp with ⟨_, h, _⟩ | ⟨_, _, _, h, _⟩ <;> exact (decode_ok.1 h).2.2 rfl
    obtain ⟨_, _, i, _, _, _, _, _, hi, _⟩ := verify_iff.mp hv
    dsimp only
    rw [hi]
    dsimp only
    cases authorities.get i.uid with
    | none => exact checks_refuse fun _ => .untrusted
    | some a =>
      dsimp only
      split
      · exact checks_refuse fun _ => .untrusted
      split
      · exact checks_pure _
      · exact checks_refuse fun _ => .expired

theorem startStep_checks (hk : PAKeys collate db) {clock : Nat → Int} {raws : List RawCert} {session : Str} {i : Nat} {acc : StartAcc}
    {raw : RawCert} (hraw : raw ∈ raws) :
    Checks exports (StartRecord X collate db clock raws) (· = .valueError)
      (startStepLog X collate db exports session (clock i) acc raw) (startStep X collate db exports session (clock i) acc raw) := by
  unfold startStepLog startStep
  refine checks_bind (checks_lift _ fun e he => ?_) fun f hf => ?_
  · unfold ExportFormat.ofValue at he
    repeat' split at he
    all_goals cases he
    rfl
  refine checks_bind checkCert_checks fun p hp => ?_
  obtain ⟨c, rest⟩ := p
  have hf' := exportFormat_values.mp hf
  obtain ⟨hacc, rfl⟩ := (checkCert_ok hk hf').mp hp
  have fits := (verified_fits hacc.verified).serial
  dsimp only
  refine checks_bind (checks_lift _ fun e he => ?_) fun serial hs => ?_
  · rw [intToB64_ok fits.1 fits.2] at he
    cases he
  rw [intToB64_ok fits.1 fits.2] at hs
  cases hs
  refine checks_bind ?_ fun rows _ => checks_pure _
  unfold newRowLog newRow
  cases hfc : db.findCert collate (numberText c.info.serial) with
  | none => exact checks_pure _
  | some h =>
    dsimp only
    by_cases hne : h.hash ≠ b64Text (X.sha256 (ACData.rest (.bytearray (if raw.format = 0 then [] else raw.data))))
    · rw [if_pos hne, if_pos hne]
      refine checks_refuse fun addr => ?_
      unfold PAuthDb.findCert at hfc
      exact .reused hraw hacc (List.mem_of_find?_eq_some hfc) (by have := List.find?_some hfc; exact of_decide_eq_true this) hne
    · rw [if_neg hne, if_neg hne]
      exact checks_pure _

theorem startLoop_checks (hk : PAKeys collate db) {clock : Nat → Int} {all raws : List RawCert} {session : Str} {i : Nat}
    {acc : StartAcc} (hraws : ∀ raw ∈ raws, raw ∈ all) :
    Checks exports (StartRecord X collate db clock all) (· = .valueError)
      (startLoopLog X collate db exports session clock i acc raws) (startLoop X collate db exports session clock i acc raws) := by
  induction raws generalizing i acc with
  | nil => exact checks_pure _
  | cons raw raws ih =>
    rw [startLoopLog, startLoop]
    exact checks_bind (startStep_checks hk (hraws raw List.mem_cons_self)) fun _ _ =>
      ih fun r h => hraws r (List.mem_cons_of_mem _ h)

/-- What `start_session` ends with and the records it makes. -/
inductive StartTrail (X : Crypto) (collate : Str → Str) (db : PAuthDb) (env : PAEnv) (serviceUid : Option Str) (raws : List RawCert)
    (exports : Dict Str) : Except PyExc (PAuthDb × SessionReturn) → Trail → Prop
  /-- the session is stored -/
  | started {addr : Str} {p : PAuthDb × SessionReturn} (ha : exports.get "REMOTE_ADDR".toList = some addr) :
      StartTrail X collate db env serviceUid raws exports (.ok p) [(20, startedRecord addr)]
  /-- every check passes, but the commit fails -/
  | uncommitted {addr : Str} {e : PyExc} (ha : exports.get "REMOTE_ADDR".toList = some addr) (hn : raws ≠ [])
      (hc : ∃ cs, List.Forall₂ (fun p c => Accepted X db (env.clock p.2) p.1 c) raws.zipIdx cs)
      (he : e = .integrityError ∨ env.commitFault = some e) :
      StartTrail X collate db env serviceUid raws exports (.error e) [(20, startedRecord addr)]
  /-- the client is told a fault -/
  | fault {addr : Str} {msg : String} {record : Str} (ha : exports.get "REMOTE_ADDR".toList = some addr)
      (h : StartRecord X collate db env.clock raws addr msg record) :
      StartTrail X collate db env serviceUid raws exports (.error (.clientFault msg.toList)) [(40, record)]
  /-- there is no address -/
  | unknown (ha : exports.get "REMOTE_ADDR".toList = none) :
      StartTrail X collate db env serviceUid raws exports (.error .keyError) []
  /-- the number of a format is unknown -/
  | format {raw : RawCert} (hr : raw ∈ raws) (hf : ∀ f : ExportFormat, raw.format ≠ f.value) :
      StartTrail X collate db env serviceUid raws exports (.error .valueError) []

theorem startTrail_error {raws : List RawCert} {α : Type} {e : PyExc} {y : Trail}
    (h : CheckTrail (α := α) exports (StartRecord X collate db env.clock raws)
      (fun e => e = .valueError ∧ ∃ raw ∈ raws, ∀ f : ExportFormat, raw.format ≠ f.value) (.error e) y) :
    StartTrail X collate db env serviceUid raws exports (.error e) y := by
  cases h with
  | fault ha h => exact .fault ha h
  | unknown ha => exact .unknown ha
  | other h =>
    obtain ⟨rfl, raw, h1, h2⟩ := h
    exact .format h1 h2

theorem loop_processed (hk : PAKeys collate db) {raws : List RawCert} {session : Str} {clock : Nat → Int} {acc : StartAcc}
    (hne : raws ≠ []) (h : startLoop X collate db exports session clock 0 {} raws = .ok acc) : ¬ acc.processed.length < 1 := by
  obtain ⟨cs, hcs, rfl⟩ := (startLoop_ok hk _ _ _ _).mp h
  have hlen := zipIdx_forall₂ 0 hcs
  have hz : raws.zip cs ≠ [] := by
    cases raws with
    | nil => exact absurd rfl hne
    | cons raw raws =>
      cases cs with
      | nil => cases hlen
      | cons c cs => simp
  exact Nat.not_lt.mpr (List.length_pos_iff.mpr
    ((steps_fields (X := X) (collate := collate) (db := db) session (raws.zip cs) {}).2.2.2.2 hz))

/-- **C123**: `start_session` ends as without records, and the records it makes are exactly those of `StartTrail`. -/
theorem start_trail (hk : PAKeys collate db) (hr : env.random < 2 ^ 160) (set : Option (List RawCert)) : ∃ y,
    (∀ t, startSessionLog X collate db env serviceUid set exports t =
      auditEnd (startSessionE X collate db env serviceUid set exports) (t ++ y)) ∧
    StartTrail X collate db env serviceUid (set.getD []) exports (startSessionE X collate db env serviceUid set exports) y := by
  unfold startSessionLog startSessionE
  generalize set.getD [] = raws
  dsimp only
  split
  · obtain ⟨y, h1, h2⟩ := checks_refuse (α := PAuthDb × SessionReturn) (exports := exports)
      (R := StartRecord X collate db env.clock raws)
      (O := fun e => e = .valueError ∧ ∃ raw ∈ raws, ∀ f : ExportFormat, raw.format ≠ f.value)
      (record := faultRecord "No att cert set in start_session request") (msg := "Need attribute certificate set to start session.")
      fun _ => .none
    exact ⟨y, h1, startTrail_error h2⟩
  rename_i hlen
  have hne : raws ≠ [] := fun h => hlen (by rw [h]; decide)
  have hsid := intToB64_ok (n := (env.random : Int)) (Int.natCast_nonneg _) (by exact_mod_cast hr)
  obtain ⟨y, h1, h2⟩ := startLoop_checks (X := X) (exports := exports) (session := numberText env.random) (i := 0) (acc := {}) hk
    (clock := env.clock) (fun raw (h : raw ∈ raws) => h)
  simp only [hsid]
  cases hl : startLoop X collate db exports (numberText env.random) env.clock 0 {} raws with
  | error e =>
    rw [hl] at h1 h2
    refine ⟨y, fun t => ?_, ?_⟩
    · rw [audit_bind_lift]
      dsimp only
      rw [audit_bind_end _ (h1 t), bind_ok_eq _ rfl, hl]
      rfl
    · rw [bind_ok_eq _ rfl, hl]
      refine startTrail_error (α := StartAcc) ?_
      cases h2 with
      | fault ha h => exact .fault ha h
      | unknown ha => exact .unknown ha
      | other h =>
        subst h
        rcases startLoop_error hl with ⟨msg, h⟩ | h
        · unfold clientFaultLogged at h
          split at h <;> cases h
        · exact .other h
  | ok acc =>
    rw [hl] at h1 h2
    cases h2
    obtain ⟨cs, hcs, hacc⟩ := (startLoop_ok hk _ _ _ _).mp hl
    have hproc := loop_processed hk hne hl
    rw [bind_ok_eq _ rfl, bind_ok_eq _ hl, if_neg hproc]
    cases ha : exports.get "REMOTE_ADDR".toList with
    | none =>
      have hra : remoteAddr exports = .error .keyError := by rw [remoteAddr, ha]; rfl
      refine ⟨[], fun t => ?_, ?_⟩
      · rw [audit_bind_lift]
        dsimp only
        rw [audit_bind_end _ (h1 t)]
        dsimp only
        rw [if_neg hproc, audit_bind_lift, hra, List.append_nil]
        rfl
      · rw [hra]
        exact .unknown ha
    | some addr =>
      have hra : remoteAddr exports = .ok addr := by rw [remoteAddr, ha]; rfl
      refine ⟨[(20, startedRecord addr)], fun t => ?_, ?_⟩
      · rw [audit_bind_lift]
        dsimp only
        rw [audit_bind_end _ (h1 t)]
        dsimp only
        rw [if_neg hproc, audit_bind_lift, hra, List.append_nil]
        dsimp only
        rw [audit_bind_note, audit_bind_lift, bind_ok_eq _ rfl]
        cases PAuthDb.commit collate db env.commitFault acc.certs acc.assignments
          (fun uid => ⟨numberText env.random, acc.maxStart, acc.minValid, env.now, addr, uid,
            if acc.minValid < env.now + 86400 then acc.minValid else env.now + 86400⟩) serviceUid <;> rfl
      · rw [bind_ok_eq _ hra]
        cases hcm : PAuthDb.commit collate db env.commitFault acc.certs acc.assignments
          (fun uid => ⟨numberText env.random, acc.maxStart, acc.minValid, env.now, addr, uid,
            if acc.minValid < env.now + 86400 then acc.minValid else env.now + 86400⟩) serviceUid with
        | ok d => exact .started ha
        | error e =>
          refine .uncommitted ha hne ⟨cs, hcs.imp fun _ _ h => h.1⟩ ?_
          unfold PAuthDb.commit at hcm
          cases hf : env.commitFault with
          | some e' => rw [hf] at hcm; cases hcm; exact .inr rfl
          | none =>
            rw [hf] at hcm
            cases serviceUid with
            | none => cases hcm; exact .inl rfl
            | some uid =>
              dsimp only at hcm
              split at hcm
              · cases hcm
              · cases hcm; exact .inl rfl

/-- The records of a call of `start_session`. -/
def startRecords (X : Crypto) (collate : Str → Str) (db : PAuthDb) (env : PAEnv) (serviceUid : Option Str)
    (set : Option (List RawCert)) (exports : Dict Str) : Trail :=
  auditTrail (startSessionLog X collate db env serviceUid set exports [])

/-- **C123**: the records of `start_session` are those of `StartTrail`. -/
theorem start_records (hk : PAKeys collate db) (hr : env.random < 2 ^ 160) (set : Option (List RawCert)) :
    StartTrail X collate db env serviceUid (set.getD []) exports (startSessionE X collate db env serviceUid set exports)
      (startRecords X collate db env serviceUid set exports) := by
  obtain ⟨y, h1, h2⟩ := start_trail (X := X) (serviceUid := serviceUid) (exports := exports) hk hr set
  rw [startRecords, h1, auditTrail_end, List.nil_append]
  exact h2

/-- **C123**: the result is that of `startSessionE`, and records made before stay as they are. -/
theorem start_result (hk : PAKeys collate db) (hr : env.random < 2 ^ 160) (set : Option (List RawCert)) (t : Trail) :
    startSessionLog X collate db env serviceUid set exports t =
      auditEnd (startSessionE X collate db env serviceUid set exports)
        (t ++ startRecords X collate db env serviceUid set exports) := by
  obtain ⟨y, h1, h2⟩ := start_trail (X := X) (serviceUid := serviceUid) (exports := exports) hk hr set
  rw [startRecords, h1, h1, auditTrail_end, List.nil_append]

/-- **C123**: a call leaves a record exactly if the address of the client is known and the numbers of the formats are, up to the
first certificate that is refused; and it never leaves two. -/
theorem start_one_record (hk : PAKeys collate db) (hr : env.random < 2 ^ 160) (set : Option (List RawCert))
    (ha : (exports.get "REMOTE_ADDR".toList).isSome) (hf : ∀ raw ∈ set.getD [], ∃ f : ExportFormat, raw.format = f.value) :
    ∃ l m, startRecords X collate db env serviceUid set exports = [(l, m)] := by
  have h := start_records (X := X) (serviceUid := serviceUid) (exports := exports) hk hr set
  generalize startSessionE X collate db env serviceUid set exports = x at h
  generalize startRecords X collate db env serviceUid set exports = y at h
  cases h with
  | started => exact ⟨_, _, rfl⟩
  | uncommitted => exact ⟨_, _, rfl⟩
  | fault => exact ⟨_, _, rfl⟩
  | unknown h => rw [h] at ha; cases ha
  | format hr hn =>
    obtain ⟨f, h⟩ := hf _ hr
    exact absurd h (hn f)

/-- **C123**: a session that is stored is recorded. -/
theorem session_recorded (hk : PAKeys collate db) (hr : env.random < 2 ^ 160) {set : Option (List RawCert)} {db' : PAuthDb}
    {r : SessionReturn} (h : startSession X collate db env serviceUid set exports = (db', .ok r)) :
    ∃ addr, exports.get "REMOTE_ADDR".toList = some addr ∧
      startRecords X collate db env serviceUid set exports = [(20, startedRecord addr)] := by
  have ht := start_records (X := X) (serviceUid := serviceUid) (exports := exports) hk hr set
  rw [start_split.mp h] at ht
  generalize startRecords X collate db env serviceUid set exports = y at ht
  cases ht with
  | started ha => exact ⟨_, ha, rfl⟩

/-! ### What the log does not tell -/

theorem audit_bind {α β : Type} (m : AuditM α) (f : α → AuditM β) (t : Trail) :
    (m >>= f) t = match m t with | .ok a u => f a u | .error e u => .error e u := by
  show EStateM.bind m f t = _
  unfold EStateM.bind
  cases m t <;> rfl

theorem trail_lift_pure {α β : Type} (c : Except PyExc α) (f : α → β) (u : Trail) :
    auditTrail ((auditLift c >>= fun a => (pure (f a) : AuditM β)) u) = u := by
  cases c <;> rfl

theorem step_course {s s' : Str} {now : Int} {acc acc' : StartAcc} {raw : RawCert} (t : Trail) :
    (∃ a a' u, startStepLog X collate db exports s now acc raw t = .ok a u ∧
      startStepLog X collate db exports s' now acc' raw t = .ok a' u) ∨
    ∃ e u, startStepLog X collate db exports s now acc raw t = .error e u ∧
      startStepLog X collate db exports s' now acc' raw t = .error e u := by
  unfold startStepLog
  rw [audit_bind_lift, audit_bind_lift]
  cases ExportFormat.ofValue raw.format with
  | error e => exact .inr ⟨_, _, rfl, rfl⟩
  | ok f =>
    dsimp only
    generalize checkCertLog X db.authorityDict exports now (.bytearray raw.data) raw.version f = m
    rw [audit_bind, audit_bind]
    cases m t with
    | error e u => exact .inr ⟨_, _, rfl, rfl⟩
    | ok p u =>
      obtain ⟨c, rest⟩ := p
      dsimp only
      rw [audit_bind_lift, audit_bind_lift]
      cases intToB64 c.info.serial with
      | error e => exact .inr ⟨_, _, rfl, rfl⟩
      | ok serial =>
        dsimp only
        generalize newRowLog collate db exports _ = m
        rw [audit_bind, audit_bind]
        cases m u with
        | error e u => exact .inr ⟨_, _, rfl, rfl⟩
        | ok rows u => exact .inl ⟨_, _, _, rfl, rfl⟩

theorem loop_course {s s' : Str} {clock : Nat → Int} {raws : List RawCert} {i : Nat} {acc acc' : StartAcc} (t : Trail) :
    (∃ a a' u, startLoopLog X collate db exports s clock i acc raws t = .ok a u ∧
      startLoopLog X collate db exports s' clock i acc' raws t = .ok a' u) ∨
    ∃ e u, startLoopLog X collate db exports s clock i acc raws t = .error e u ∧
      startLoopLog X collate db exports s' clock i acc' raws t = .error e u := by
  induction raws generalizing i acc acc' t with
  | nil => exact .inl ⟨_, _, _, rfl, rfl⟩
  | cons raw raws ih =>
    rw [startLoopLog, startLoopLog, audit_bind, audit_bind]
    rcases step_course (X := X) (collate := collate) (db := db) (exports := exports) (s := s) (s' := s') (now := clock i)
      (acc := acc) (acc' := acc') (raw := raw) t with ⟨a, a', u, h, h'⟩ | ⟨e, u, h, h'⟩
    · rw [h, h']
      exact ih u
    · rw [h, h']
      exact .inr ⟨_, _, rfl, rfl⟩

/-- **C123**: the records tell neither the id of the session nor its times, nor for which service it is, nor whether it was stored:
they depend on the tables, the certificates, the clock when these are checked and the address only. -/
theorem start_secret (hk : PAKeys collate db) {env' : PAEnv} {serviceUid' : Option Str} (hr : env.random < 2 ^ 160)
    (hr' : env'.random < 2 ^ 160) (hc : env.clock = env'.clock) (set : Option (List RawCert)) :
    startRecords X collate db env serviceUid set exports = startRecords X collate db env' serviceUid' set exports := by
  have loop_ok : ∀ {s acc u} {raws : List RawCert}, startLoopLog X collate db exports s env'.clock 0 {} raws [] = .ok acc u →
      startLoop X collate db exports s env'.clock 0 {} raws = .ok acc := by
    intro s acc u raws h
    obtain ⟨y, h1, _⟩ := startLoop_checks (X := X) (exports := exports) (session := s) (i := 0) (acc := {}) hk
      (clock := env'.clock) (fun raw (h : raw ∈ raws) => h)
    rw [h1] at h
    cases hx : startLoop X collate db exports s env'.clock 0 {} raws with
    | ok a => rw [hx] at h; cases h; rfl
    | error e => rw [hx] at h; cases h
  have sid := intToB64_ok (n := (env.random : Int)) (Int.natCast_nonneg _) (by exact_mod_cast hr)
  have sid' := intToB64_ok (n := (env'.random : Int)) (Int.natCast_nonneg _) (by exact_mod_cast hr')
  unfold startRecords startSessionLog
  generalize set.getD [] = raws
  by_cases hlen : raws.length < 1
  · simp only [if_pos hlen]
  simp only [if_neg hlen]
  have hne : raws ≠ [] := fun h => hlen (by rw [h]; decide)
  simp only [sid, sid', hc]
  rw [audit_bind_lift, audit_bind_lift]
  dsimp only
  rw [audit_bind, audit_bind]
  rcases loop_course (X := X) (collate := collate) (db := db) (exports := exports) (s := numberText env.random)
    (s' := numberText env'.random) (clock := env'.clock) (raws := raws) (i := 0) (acc := {}) (acc' := {}) [] with
    ⟨a, a', u, h, h'⟩ | ⟨e, u, h, h'⟩
  · have hp := loop_processed hk hne (loop_ok h)
    have hp' := loop_processed hk hne (loop_ok h')
    rw [h, h']
    dsimp only
    rw [if_neg hp, if_neg hp', audit_bind_lift, audit_bind_lift]
    cases remoteAddr exports with
    | error e => rfl
    | ok addr =>
      dsimp only
      rw [audit_bind_note, audit_bind_note]
      rw [trail_lift_pure, trail_lift_pure]
  · rw [h, h']

/-- **C123**: what is recorded as a new session need not be one: the record is made before the commit. Whatever makes the commit
fail, the tables stay as they are and the record is the same as for a session that is stored. -/
theorem record_without_session (hk : PAKeys collate db) (hr : env.random < 2 ^ 160) {set : Option (List RawCert)} {db' : PAuthDb}
    {r : SessionReturn} (h : startSession X collate db env serviceUid set exports = (db', .ok r)) (e : PyExc) :
    startSession X collate db { env with commitFault := some e } serviceUid set exports = (db, .error e) ∧
    startRecords X collate db { env with commitFault := some e } serviceUid set exports =
      startRecords X collate db env serviceUid set exports := by
  refine ⟨start_error ?_, start_secret hk (env := { env with commitFault := some e }) hr hr rfl set⟩
  have h := start_split.mp h
  unfold startSessionE at h ⊢
  dsimp only at h ⊢
  split at h
  · cases h
  rename_i hlen
  rw [if_neg hlen]
  obtain ⟨s, hs, h⟩ := except_bind_ok.mp h
  obtain ⟨acc, hl, h⟩ := except_bind_ok.mp h
  rw [bind_ok_eq _ hs, bind_ok_eq _ hl]
  split at h
  · cases h
  rename_i hp
  rw [if_neg hp]
  obtain ⟨addr, ha, h⟩ := except_bind_ok.mp h
  rw [bind_ok_eq _ ha]
  rfl

/-! ### Histories -/

/-- The records of calls, one after another. -/
def historyRecords (X : Crypto) (collate : Str → Str) : PAuthDb → List StartCall → Trail
  | _, [] => []
  | db, q :: qs => startRecords X collate db q.env q.serviceUid q.set q.exports ++
      historyRecords X collate (afterStart X collate db q) qs

/-- The number of calls whose commit fails though every check passes: those that raise and leave a record of level INFO. -/
def lostSessions (X : Crypto) (collate : Str → Str) : PAuthDb → List StartCall → Nat
  | _, [] => 0
  | db, q :: qs =>
    (if (startSession X collate db q.env q.serviceUid q.set q.exports).2.isOk = false ∧
        (startRecords X collate db q.env q.serviceUid q.set q.exports).any (fun r => decide (r.1 = 20)) then 1 else 0) +
      lostSessions X collate (afterStart X collate db q) qs

/-- **C123**: over any number of calls, the records of new sessions are as many as the sessions stored and those lost when the
commit failed. -/
theorem history_records {qs : List StartCall} (hr : ∀ q ∈ qs, q.env.random < 2 ^ 160) (h : Consistent X collate db) :
    ((historyRecords X collate db qs).filter (fun r => decide (r.1 = 20))).length + db.sessions.length =
      (afterStarts X collate db qs).sessions.length + lostSessions X collate db qs := by
  induction qs generalizing db with
  | nil => simp [historyRecords, lostSessions, afterStarts]
  | cons q qs ih =>
    have hq := hr q List.mem_cons_self
    have hc : Consistent X collate (afterStart X collate db q) :=
      (history_consistent (qs := [q]) (fun q' h' => by rw [List.mem_singleton] at h'; rw [h']; exact hq) h).1
    have ih := ih (fun q' hq' => hr q' (List.mem_cons_of_mem _ hq')) hc
    have ht := start_records (X := X) (serviceUid := q.serviceUid) (exports := q.exports) h.keys hq q.set
    rw [historyRecords, lostSessions, List.filter_append, List.length_append]
    rw [show afterStarts X collate db (q :: qs) = afterStarts X collate (afterStart X collate db q) qs from rfl]
    have one : ((startRecords X collate db q.env q.serviceUid q.set q.exports).filter (fun r => decide (r.1 = 20))).length +
        db.sessions.length = (afterStart X collate db q).sessions.length +
        (if (startSession X collate db q.env q.serviceUid q.set q.exports).2.isOk = false ∧
          (startRecords X collate db q.env q.serviceUid q.set q.exports).any (fun r => decide (r.1 = 20)) then 1 else 0) := by
      unfold afterStart
      cases hE : startSessionE X collate db q.env q.serviceUid q.set q.exports with
      | ok p =>
        obtain ⟨d, r⟩ := p
        rw [hE] at ht
        rw [start_split.mpr hE]
        obtain ⟨raws, cs, _, hne, hs⟩ := (start_iff h.keys hq _).mp hE
        obtain ⟨addr, uid, first, last, _, _, _, _, rfl, rfl⟩ := hs.result
        generalize startRecords X collate db q.env q.serviceUid q.set q.exports = y at ht
        cases ht with
        | started => simp [Except.isOk, Except.toBool]; omega
      | error e =>
        rw [hE] at ht
        rw [start_error hE]
        generalize startRecords X collate db q.env q.serviceUid q.set q.exports = y at ht
        cases ht with
        | uncommitted => simp [Except.isOk, Except.toBool]; omega
        | fault => simp
        | unknown => simp
        | format => simp
    omega

/-! ### `evaluate` -/

/-- The texts of what is wrong with the policy sent, given the text `describe` of an exception. -/
def PolicyErrors (U : Uni) (h : Heap) (q k : Nat) (describe : PyExc → String) (pair : PolicyArg) (err : String) : Prop :=
  ∃ text e, pair.policyString = some (some text) ∧ err = describe e ∧
    (checkText U h q k (some 0) text = .error e ∨ ∃ w, checkText U h q k (some 0) text = .ok (w, .error e))

/-- **C123**: `evaluate` ends as without records; an AttributeError, and a KeyError for a missing address, leave none, and every
fault leaves the one that goes with it. -/
theorem evaluate_trail (U : Uni) (h : Heap) (q k : Nat) (describe : PyExc → String) (idMatches : Str → Int → Bool) (sessionId : Int)
    (pair : PolicyArg) :
    Checks exports (EvaluateRecord (PolicyErrors U h q k describe pair)) (· = .attributeError)
      (evaluateRequestLog U h q k describe collate idMatches db sessionId pair exports)
      (evaluateRequest U h q k describe collate idMatches db sessionId pair exports) := by
  have attr : ∀ {α : Type} (x : Option α) (e : PyExc), getAttr x = .error e → e = .attributeError := by
    intro α x e hx
    cases x with
    | none => cases hx; rfl
    | some a => cases hx
  unfold evaluateRequestLog evaluateRequest
  refine checks_bind ?_ fun text ht => checks_bind ?_ fun _ _ => checks_bind ?_ fun _ _ => ?_
  · unfold policyTextLog policyText
    refine checks_bind (checks_lift _ fun e he => attr _ e he) fun uid _ => ?_
    cases uid with
    | some uid =>
      dsimp only
      split
      · exact checks_lift _ fun e he => by cases he; rfl
      · exact checks_refuse fun _ => .uid
    | none =>
      refine checks_bind (checks_lift _ fun e he => attr _ e he) fun text _ => ?_
      cases text with
      | none => exact checks_refuse fun _ => .nothing
      | some text => exact checks_pure _
  · have hs : pair.policyString = some (some text) := by
      unfold policyText at ht
      obtain ⟨uid, _, ht⟩ := except_bind_ok.mp ht
      cases uid with
      | some uid =>
        dsimp only at ht
        split at ht <;> cases ht
      | none =>
        obtain ⟨t, h1, h2⟩ := except_bind_ok.mp ht
        cases t with
        | none => cases h2
        | some t =>
          cases h2
          cases hp : pair.policyString with
          | none => rw [hp] at h1; cases h1
          | some x => rw [hp] at h1; cases h1; rfl
    unfold policyCheckLog policyCheck
    cases hc : checkText U h q k (some 0) text with
    | error e => exact checks_refuse fun addr => .invalid ⟨text, e, hs, rfl, .inl hc⟩
    | ok p =>
      obtain ⟨w, x⟩ := p
      cases x with
      | ok v => exact checks_pure _
      | error e => exact checks_refuse fun addr => .invalid ⟨text, e, hs, rfl, .inr ⟨w, hc⟩⟩
  · unfold objectAttCheckLog objectAttCheck
    split
    · exact checks_refuse fun _ => .attribute
    · exact checks_pure _
  · cases db.sessions.find? (fun s => idMatches s.id sessionId) with
    | none => exact checks_refuse fun _ => .session
    | some s => exact checks_lift _ fun e he => by cases he; rfl

/-! ### `info`, `trusted_attribute_authorities` and `__init__` -/

/-- **C123**: a request for information leaves one record with the address. -/
theorem pauth_info_trail (p : PAService) (t : Trail) : p.infoLog exports t = auditEnd (p.info exports)
    (t ++ ((exports.get "REMOTE_ADDR".toList).elim [] fun addr =>
      [(20, "Info request on PolicyAuthority from ".toList ++ addr ++ ['.'])])) := by
  unfold PAService.infoLog PAService.info remoteAddr
  cases exports.get "REMOTE_ADDR".toList with
  | none => exact congrArg _ (List.append_nil t).symm
  | some addr => rfl

/-- **C123**: a request for the trusted authorities leaves one record with the address. -/
theorem trusted_trail (t : Trail) : trustedAuthoritiesLog db exports t = auditEnd (trustedAuthorities db exports)
    (t ++ ((exports.get "REMOTE_ADDR".toList).elim [] fun addr =>
      [(20, "Trusted attribute authorities request on PolicyAuthority from ".toList ++ addr ++ ['.'])])) := by
  unfold trustedAuthoritiesLog trustedAuthorities remoteAddr
  cases exports.get "REMOTE_ADDR".toList with
  | none => exact congrArg _ (List.append_nil t).symm
  | some addr => rfl

/-- **C123**: what setting up the service records: its name, uid and URL, if nothing is missing. -/
theorem pauth_init_trail (U : Uni) (c : Config) (t : Trail) : PAService.initLog U c t = auditEnd (PAService.init U c)
    (t ++ match PAService.init U c with
      | .error _ => []
      | .ok p => [(10, "Setup PolicyAuthority with following attributes: name: ".toList ++ showOpt p.name ++ ", uid: ".toList ++
          showOpt p.uid ++ ", pa_ver: 1, ac_ver: 1, pl_ver: 1, url: ".toList ++ p.url),
        (10, "Setting up database session for PolicyAuthority".toList)]) := by
  unfold PAService.initLog PAService.init
  rw [audit_bind_lift]
  cases getConf U c "PAUTH_NAME".toList true "PAUTH".toList with
  | error e => exact congrArg _ (List.append_nil t).symm
  | ok name =>
    rw [bind_ok_eq _ rfl]
    dsimp only
    rw [audit_bind_lift]
    cases getConf U c "PAUTH_UID".toList true "PAUTH".toList with
    | error e => exact congrArg _ (List.append_nil t).symm
    | ok uid =>
      rw [bind_ok_eq _ rfl]
      dsimp only
      rw [audit_bind_lift]
      cases getConf U c "SERVICE_HOST".toList true "LADON".toList with
      | error e => exact congrArg _ (List.append_nil t).symm
      | ok host =>
        rw [bind_ok_eq _ rfl]
        dsimp only
        rw [audit_bind_lift]
        cases getConf U c "SERVICE_PORT".toList true "LADON".toList with
        | error e => exact congrArg _ (List.append_nil t).symm
        | ok port =>
          rw [bind_ok_eq _ rfl]
          dsimp only
          rw [audit_bind_lift]
          cases serviceUrl U host port "/PolicyAuthority/jsonwsp/".toList with
          | error e => exact congrArg _ (List.append_nil t).symm
          | ok url =>
            rw [bind_ok_eq _ rfl]
            dsimp only
            rw [audit_bind_note, audit_bind_note, List.append_assoc]
            rfl

/-! ### Examples -/

/-- A session of the examples, and the same request when the commit fails: the same record, with and without a session. -/
example : ∃ raw db' r,
    startSession toyCrypto id samplePAuthDb (samplePAEnv 5) (some "s".toList) (some [raw]) (sampleExports "1.2.3.4") =
      (db', .ok r) ∧
    startSession toyCrypto id samplePAuthDb { samplePAEnv 5 with commitFault := some (.exception "gone") } (some "s".toList) (some [raw])
      (sampleExports "1.2.3.4") = (samplePAuthDb, .error (.exception "gone")) ∧
    startRecords toyCrypto id samplePAuthDb (samplePAEnv 5) (some "s".toList) (some [raw]) (sampleExports "1.2.3.4") =
      [(20, startedRecord "1.2.3.4".toList)] ∧
    startRecords toyCrypto id samplePAuthDb { samplePAEnv 5 with commitFault := some (.exception "gone") } (some "s".toList) (some [raw])
      (sampleExports "1.2.3.4") = [(20, startedRecord "1.2.3.4".toList)] := by
  obtain ⟨b, c', h, _, hacc, hs⟩ := sample_forged (.inl rfl)
  have hst := start_single (uid := "s".toList) (addr := "1.2.3.4".toList) (exports := sampleExports "1.2.3.4")
    samplePAuthDb_consistent.keys (env := samplePAEnv 5) (by decide) hacc
    (fun _ h => (by cases h)) (fun _ h => (by cases h)) (fun _ h => (by cases h)) rfl rfl
  obtain ⟨h1, h2⟩ := record_without_session samplePAuthDb_consistent.keys (by decide) hst (.exception "gone")
  obtain ⟨addr, ha, h3⟩ := session_recorded samplePAuthDb_consistent.keys (by decide) hst
  cases ha
  exact ⟨_, _, _, hst, h1, h3, h2.trans h3⟩

/-- A request without certificates. -/
example : startRecords toyCrypto id samplePAuthDb (samplePAEnv 5) (some "s".toList) (some []) (sampleExports "1.2.3.4") =
    [(40, "ClientFault: No att cert set in start_session request from 1.2.3.4".toList)] := by decide +kernel

/-- An unknown number of a format leaves no record, and neither does a fault without an address. -/
example : startRecords toyCrypto id samplePAuthDb (samplePAEnv 5) (some "s".toList) (some [⟨[], 1, 9⟩]) (sampleExports "1.2.3.4") =
    [] ∧ startRecords toyCrypto id samplePAuthDb (samplePAEnv 5) (some "s".toList) none [] = [] := by decide +kernel

/-- A policy uid that is not stored. -/
example : auditTrail (evaluateRequestLog asciiUni Tests.noHeap 0 0 (fun _ => "") id (fun _ _ => false) samplePAuthDb 5
    ⟨some (some "p".toList), none, none⟩ (sampleExports "1.2.3.4") []) =
    [(40, "ClientFault: Unknown policy uid in evaluate request from 1.2.3.4".toList)] := by decide +kernel

end Verif.Props
