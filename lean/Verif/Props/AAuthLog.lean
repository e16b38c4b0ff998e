import Verif.Model.AAuthLog
import Verif.Props.AAuth
import Verif.Props.LoggingUse

/-!
# What the attribute authority and `get_engine` write to the log (C113, C114)

The records are those of `Verif/Model/AAuthLog.lean`; `request_result` and `engine_result` say that the results are those of the
functions without records, so that the theorems about these hold here as well.
-/

namespace Verif.Props

open Verif.Spec Proofs

/-- What a computation ends with. -/
def auditResult {α : Type} : EStateM.Result PyExc Trail α → Except PyExc α
  | .ok a _ => .ok a
  | .error e _ => .error e

/-- The records there are at the end. -/
def auditTrail {α : Type} : EStateM.Result PyExc Trail α → Trail
  | .ok _ t => t
  | .error _ t => t

/-- The end of a computation, given its result and the records. -/
def auditEnd {α : Type} (x : Except PyExc α) (t : Trail) : EStateM.Result PyExc Trail α :=
  match x with
  | .ok a => .ok a t
  | .error e => .error e t

theorem audit_lift {α : Type} (x : Except PyExc α) (t : Trail) : auditLift x t = auditEnd x t := by cases x <;> rfl

theorem audit_bind_lift {α β : Type} (x : Except PyExc α) (f : α → AuditM β) (t : Trail) :
    (auditLift x >>= f) t = match x with | .ok a => f a t | .error e => .error e t := by cases x <;> rfl

theorem audit_bind_note {β : Type} (l : Nat) (m : Str) (f : Unit → AuditM β) (t : Trail) :
    (note l m >>= f) t = f () (t ++ [(l, m)]) := rfl

theorem audit_bind_end {α β : Type} {m : AuditM α} {x : Except PyExc α} {t t' : Trail} (f : α → AuditM β)
    (h : m t = auditEnd x t') : (m >>= f) t = match (generalizing := false) x with | .ok a => f a t' | .error e => .error e t' := by
  cases x with
  | ok a =>
    have h : m t = .ok a t' := h
    show EStateM.bind m f t = _
    simp only [EStateM.bind, h]
  | error e =>
    have h : m t = .error e t' := h
    show EStateM.bind m f t = _
    simp only [EStateM.bind, h]

theorem auditResult_end {α : Type} (x : Except PyExc α) (t : Trail) : auditResult (auditEnd x t) = x := by cases x <;> rfl
theorem auditTrail_end {α : Type} (x : Except PyExc α) (t : Trail) : auditTrail (auditEnd x t) = t := by cases x <;> rfl

/-! ### The choice of attributes -/

theorem selectIdsLog_end (u : Str) (byId : Dict UserAtt) (sel : Dict UserAtt) (ids : List (Option Str)) :
    ∃ x : Trail, (∀ t, selectIdsLog u byId sel ids t = auditEnd (selectIds byId sel ids) (t ++ x)) ∧
      ((∃ d, selectIds byId sel ids = .ok d) ∧ x = [] ∨
        ∃ i ∈ ids, i.bind byId.get = none ∧ selectIds byId sel ids = .error (.clientFault
          ("Invalid attribute id: You have not been assigned the attribute ".toList ++ showOpt i ++ ['.'])) ∧
          x = [(20, noIdMsg u i)]) := by
  induction ids generalizing sel with
  | nil => exact ⟨[], fun t => by rw [List.append_nil]; rfl, .inl ⟨⟨sel, rfl⟩, rfl⟩⟩
  | cons i ids ih =>
    cases hi : i.bind byId.get with
    | none =>
      refine ⟨[(20, noIdMsg u i)], fun t => ?_, .inr ⟨i, List.mem_cons_self, hi, ?_, rfl⟩⟩
      · simp only [selectIdsLog, selectIds, hi]; rfl
      · simp only [selectIds, hi]
    | some y =>
      obtain ⟨x, h1, h2⟩ := ih (sel.put y.att.id y)
      refine ⟨x, fun t => ?_, ?_⟩
      · simp only [selectIdsLog, selectIds, hi]; exact h1 t
      · simp only [selectIds, hi]
        rcases h2 with h2 | ⟨j, hj, h2⟩
        · exact .inl h2
        · exact .inr ⟨j, List.mem_cons_of_mem _ hj, h2⟩

theorem selectNamesLog_end (u : Str) (byName : Dict UserAtt) (sel : Dict UserAtt) (names : List (Option Str)) :
    ∃ x : Trail, (∀ t, selectNamesLog u byName sel names t = auditEnd (selectNames byName sel names) (t ++ x)) ∧
      ((∃ d, selectNames byName sel names = .ok d) ∧ x = [] ∨
        ∃ n ∈ names, n.bind byName.get = none ∧ selectNames byName sel names = .error (.clientFault
          ("Invalid attribute id: You have not been assigned an attribute with the name ".toList ++ showOpt n ++ ['.'])) ∧
          x = [(20, noNameMsg u n)]) := by
  induction names generalizing sel with
  | nil => exact ⟨[], fun t => by rw [List.append_nil]; rfl, .inl ⟨⟨sel, rfl⟩, rfl⟩⟩
  | cons i names ih =>
    cases hi : i.bind byName.get with
    | none =>
      refine ⟨[(20, noNameMsg u i)], fun t => ?_, .inr ⟨i, List.mem_cons_self, hi, ?_, rfl⟩⟩
      · simp only [selectNamesLog, selectNames, hi]; rfl
      · simp only [selectNames, hi]
    | some y =>
      obtain ⟨x, h1, h2⟩ := ih (if (sel.get y.att.id).isSome then sel else sel.put y.att.id y)
      refine ⟨x, fun t => ?_, ?_⟩
      · simp only [selectNamesLog, selectNames, hi]; exact h1 t
      · simp only [selectNames, hi]
        rcases h2 with h2 | ⟨j, hj, h2⟩
        · exact .inl h2
        · exact .inr ⟨j, List.mem_cons_of_mem _ hj, h2⟩

/-- The records made while attributes are chosen: none if a list is missing, otherwise what was requested and, if something is not
assigned, what that is. -/
inductive ChoiceTrail (u : Str) (req : AttributeListArg) : Except PyExc (Dict UserAtt) → Trail → Prop
  | missing (h : req.ids = none ∨ req.names = none) : ChoiceTrail u req (.error .typeError) []
  | all (sel : Dict UserAtt) (ids names : List (Option Str)) (hi : req.ids = .some ids) (hn : req.names = .some names)
      (hi' : wanted ids = []) (hn' : wanted names = []) : ChoiceTrail u req (.ok sel) [(10, u ++ " has requested all attributes.".toList)]
  | some (sel : Dict UserAtt) (ids names : List (Option Str)) (hi : req.ids = .some ids) (hn : req.names = .some names)
      (h : wanted ids ≠ [] ∨ wanted names ≠ []) : ChoiceTrail u req (.ok sel) [(10, u ++ " has requested a subset or their attributes.".toList)]
  | noId (ids : List (Option Str)) (h : req.ids = .some ids) (i : Option Str) (hi : i ∈ ids) :
      ChoiceTrail u req (.error (.clientFault
        ("Invalid attribute id: You have not been assigned the attribute ".toList ++ showOpt i ++ ['.'])))
        [(10, u ++ " has requested a subset or their attributes.".toList), (20, noIdMsg u i)]
  | noName (names : List (Option Str)) (h : req.names = .some names) (n : Option Str) (hn : n ∈ names) :
      ChoiceTrail u req (.error (.clientFault
        ("Invalid attribute id: You have not been assigned an attribute with the name ".toList ++ showOpt n ++ ['.'])))
        [(10, u ++ " has requested a subset or their attributes.".toList), (20, noNameMsg u n)]

theorem mem_dropWildcards {i : Option Str} {l : List (Option Str)} (h : i ∈ dropWildcards l) : i ∈ l := by
  rw [dropWildcards, whileRemove_eq, whileRemove_eq, whileRemove_eq] at h
  exact List.mem_of_mem_filter (List.mem_of_mem_filter (List.mem_of_mem_filter h))

theorem selectAttsLog_end (u : Str) (atts : List UserAtt) (req : AttributeListArg) :
    ∃ x : Trail, (∀ t, selectAttsLog u atts req t = auditEnd (selectAtts atts req) (t ++ x)) ∧
      ChoiceTrail u req (selectAtts atts req) x := by
  obtain ⟨rnames, rids⟩ := req
  cases rids with
  | none => exact ⟨[], fun t => by rw [List.append_nil]; rfl, .missing (.inl rfl)⟩
  | some ids =>
    cases rnames with
    | none => exact ⟨[], fun t => by rw [List.append_nil]; rfl, .missing (.inr rfl)⟩
    | some names =>
      by_cases h0 : (dropWildcards ids).length + (dropWildcards names).length = 0
      · have e : selectAtts atts ⟨some names, some ids⟩ = .ok (atts.foldl (fun d x => d.put x.att.id x) []) := by
          show (if (dropWildcards ids).length + (dropWildcards names).length = 0 then _ else _) = _
          exact if_pos h0
        refine ⟨[(10, u ++ " has requested all attributes.".toList)], fun t => ?_, ?_⟩
        rotate_left
        · rw [e]
          rw [dropWildcards_eq, dropWildcards_eq, List.length_map, List.length_map] at h0
          exact .all _ ids names rfl rfl (List.length_eq_zero_iff.mp (by omega)) (List.length_eq_zero_iff.mp (by omega))
        · rw [e]
          show (if (dropWildcards ids).length + (dropWildcards names).length = 0 then _ else _ : AuditM _) t = _
          rw [if_pos h0]
          rfl
      · have e : selectAtts atts ⟨some names, some ids⟩ =
            (selectIds (atts.foldl (fun d x => d.put x.att.id x) []) [] (dropWildcards ids) >>= fun sel =>
              selectNames (atts.foldl (fun d x => d.put x.att.name x) []) sel (dropWildcards names)) := by
          show (if (dropWildcards ids).length + (dropWildcards names).length = 0 then _ else _) = _
          exact if_neg h0
        have el : ∀ t, selectAttsLog u atts ⟨some names, some ids⟩ t =
            (selectIdsLog u (atts.foldl (fun d x => d.put x.att.id x) []) [] (dropWildcards ids) >>= fun sel =>
              selectNamesLog u (atts.foldl (fun d x => d.put x.att.name x) []) sel (dropWildcards names))
              (t ++ [(10, u ++ " has requested a subset or their attributes.".toList)]) := by
          intro t
          show (if (dropWildcards ids).length + (dropWildcards names).length = 0 then _ else _ : AuditM _) t = _
          rw [if_neg h0]
          rfl
        obtain ⟨x, h1, h2⟩ := selectIdsLog_end u (atts.foldl (fun d x => d.put x.att.id x) []) [] (dropWildcards ids)
        rcases h2 with ⟨⟨d, hd⟩, rfl⟩ | ⟨i, hi, _, hd, rfl⟩
        · obtain ⟨y, g1, g2⟩ := selectNamesLog_end u (atts.foldl (fun d x => d.put x.att.name x) []) d (dropWildcards names)
          have e' : selectAtts atts ⟨some names, some ids⟩ =
              selectNames (atts.foldl (fun d x => d.put x.att.name x) []) d (dropWildcards names) := by rw [e, hd]; rfl
          refine ⟨(10, u ++ " has requested a subset or their attributes.".toList) :: y, fun t => ?_, ?_⟩
          · rw [el, audit_bind_end _ (h1 _), hd, e', List.append_nil]
            dsimp only
            rw [g1, List.append_assoc]
            rfl
          · rw [e']
            rcases g2 with ⟨⟨d', hd'⟩, rfl⟩ | ⟨n, hn, _, hd', rfl⟩
            · rw [hd']
              refine .some _ ids names rfl rfl ?_
              rw [dropWildcards_eq, dropWildcards_eq, List.length_map, List.length_map] at h0
              by_cases hw : wanted ids = []
              · refine .inr (fun hw' => h0 ?_)
                rw [hw, hw']
                rfl
              · exact .inl hw
            · rw [hd']; exact .noName names rfl n (mem_dropWildcards hn)
        · have e' : selectAtts atts ⟨some names, some ids⟩ = .error (.clientFault
              ("Invalid attribute id: You have not been assigned the attribute ".toList ++ showOpt i ++ ['.'])) := by rw [e, hd]; rfl
          refine ⟨[(10, u ++ " has requested a subset or their attributes.".toList), (20, noIdMsg u i)], fun t => ?_, ?_⟩
          rotate_left
          · rw [e']; exact .noId ids rfl i (mem_dropWildcards hi)
          · rw [el, audit_bind_end _ (h1 _), hd, e']
            dsimp only
            rw [List.append_assoc (bs := [_])]
            rfl

/-! ### C114: the records of `attribute_request` -/

/-- What `attribute_request` ends with and the records it makes. `secs` are the durations shown, `finish` says how the certificate of
a selection is made. -/
inductive RequestTrail {X : Crypto} (U : Uni) (B : Bcrypt) (collate : Str → Str) (secs : Nat → Str) (a : Authority X) (db : AAuthDb)
    (env : RequestEnv) (cred : Credentials) (req : AttributeListArg) (exports : Dict Str)
    (finish : Str → Dict UserAtt → Except PyExc Bytes) : Except PyExc Bytes → Trail → Prop
  /-- the server gives no address -/
  | noAddr (h : exports.get "REMOTE_ADDR".toList = none) :
      RequestTrail U B collate secs a db env cred req exports finish (.error .keyError) []
  /-- credentials that are not a user name and a password -/
  | badType (addr : Str) (h : exports.get "REMOTE_ADDR".toList = some addr) (ht : cred.type ≠ 0) :
      RequestTrail U B collate secs a db env cred req exports finish (.error (.clientFault "Unsupported credential type.".toList))
        [(20, requestMsg addr), (10, badTypeMsg cred.type addr)]
  /-- no user name -/
  | noName (addr : Str) (h : exports.get "REMOTE_ADDR".toList = some addr) (ht : cred.type = 0) (hn : cred.username = none) :
      RequestTrail U B collate secs a db env cred req exports finish (.error .attributeError) [(20, requestMsg addr)]
  /-- no such user -/
  | noUser (addr u : Str) (h : exports.get "REMOTE_ADDR".toList = some addr) (ht : cred.type = 0) (hn : cred.username = some u)
      (hu : ∀ user, ¬ UserNamed collate db (U.lower u) user) :
      RequestTrail U B collate secs a db env cred req exports finish (.error (.clientFault "Invalid credentials.".toList))
        [(20, requestMsg addr), (20, noUserMsg u addr)]
  /-- the hash shown for debugging cannot be made -/
  | noHash (addr u : Str) (user : DbUser) (e : PyExc) (h : exports.get "REMOTE_ADDR".toList = some addr) (ht : cred.type = 0)
      (hn : cred.username = some u) (hu : UserNamed collate db (U.lower u) user) (hd : env.debug = true)
      (he : B.hashpw (Peppered a cred) (utf8 user.password) = .error e) :
      RequestTrail U B collate secs a db env cred req exports finish (.error e) [(20, requestMsg addr)]
  /-- the password cannot be checked -/
  | noCheck (addr u : Str) (user : DbUser) (e : PyExc) (shown : Trail) (h : exports.get "REMOTE_ADDR".toList = some addr)
      (ht : cred.type = 0) (hn : cred.username = some u) (hu : UserNamed collate db (U.lower u) user)
      (hs : env.debug = false ∧ shown = [] ∨
        env.debug = true ∧ ∃ k, B.hashpw (Peppered a cred) (utf8 user.password) = .ok k ∧ shown = [(10, hashMsg k)])
      (he : B.checkpw (Peppered a cred) (utf8 user.password) = .error e) :
      RequestTrail U B collate secs a db env cred req exports finish (.error e) ((20, requestMsg addr) :: shown)
  /-- the wrong password -/
  | badPassword (addr u : Str) (user : DbUser) (shown : Trail) (h : exports.get "REMOTE_ADDR".toList = some addr)
      (ht : cred.type = 0) (hn : cred.username = some u) (hu : UserNamed collate db (U.lower u) user)
      (hs : env.debug = false ∧ shown = [] ∨
        env.debug = true ∧ ∃ k, B.hashpw (Peppered a cred) (utf8 user.password) = .ok k ∧ shown = [(10, hashMsg k)])
      (he : B.checkpw (Peppered a cred) (utf8 user.password) = .ok false) :
      RequestTrail U B collate secs a db env cred req exports finish (.error (.clientFault "Invalid credentials.".toList))
        ((20, requestMsg addr) :: shown ++ [(20, badPasswordMsg u addr)])
  /-- the right password, but something is asked for that cannot be had -/
  | noChoice (addr u : Str) (user : DbUser) (shown choice : Trail) (e : PyExc) (h : exports.get "REMOTE_ADDR".toList = some addr)
      (ht : cred.type = 0) (hn : cred.username = some u) (hu : UserNamed collate db (U.lower u) user)
      (hs : env.debug = false ∧ shown = [] ∨
        env.debug = true ∧ ∃ k, B.hashpw (Peppered a cred) (utf8 user.password) = .ok k ∧ shown = [(10, hashMsg k)])
      (he : B.checkpw (Peppered a cred) (utf8 user.password) = .ok true)
      (hsel : selectAtts (db.userAttributes collate user.id) req = .error e) (hc : ChoiceTrail u req (.error e) choice) :
      RequestTrail U B collate secs a db env cred req exports finish (.error e)
        ((20, requestMsg addr) :: shown ++ [(20, loginMsg u addr), (20, timeMsg "Time to login: ".toList (secs 0)),
          (20, timeMsg "Time to get atts: ".toList (secs 1))] ++ choice)
  /-- the right password, but no certificate can be made -/
  | noCert (addr u : Str) (user : DbUser) (shown choice : Trail) (sel : Dict UserAtt) (e : PyExc)
      (h : exports.get "REMOTE_ADDR".toList = some addr)
      (ht : cred.type = 0) (hn : cred.username = some u) (hu : UserNamed collate db (U.lower u) user)
      (hs : env.debug = false ∧ shown = [] ∨
        env.debug = true ∧ ∃ k, B.hashpw (Peppered a cred) (utf8 user.password) = .ok k ∧ shown = [(10, hashMsg k)])
      (he : B.checkpw (Peppered a cred) (utf8 user.password) = .ok true)
      (hsel : selectAtts (db.userAttributes collate user.id) req = .ok sel) (hc : ChoiceTrail u req (.ok sel) choice)
      (hf : finish u sel = .error e) :
      RequestTrail U B collate secs a db env cred req exports finish (.error e)
        ((20, requestMsg addr) :: shown ++ [(20, loginMsg u addr), (20, timeMsg "Time to login: ".toList (secs 0)),
          (20, timeMsg "Time to get atts: ".toList (secs 1))] ++ choice ++
          [(20, activatedMsg u (sel.map Prod.fst)), (20, timeMsg "Time to proccess atts: ".toList (secs 2))])
  /-- a certificate is issued -/
  | issued (addr u : Str) (user : DbUser) (shown choice : Trail) (sel : Dict UserAtt) (b : Bytes)
      (h : exports.get "REMOTE_ADDR".toList = some addr)
      (ht : cred.type = 0) (hn : cred.username = some u) (hu : UserNamed collate db (U.lower u) user)
      (hs : env.debug = false ∧ shown = [] ∨
        env.debug = true ∧ ∃ k, B.hashpw (Peppered a cred) (utf8 user.password) = .ok k ∧ shown = [(10, hashMsg k)])
      (he : B.checkpw (Peppered a cred) (utf8 user.password) = .ok true)
      (hsel : selectAtts (db.userAttributes collate user.id) req = .ok sel) (hc : ChoiceTrail u req (.ok sel) choice)
      (hf : finish u sel = .ok b) :
      RequestTrail U B collate secs a db env cred req exports finish (.ok b)
        ((20, requestMsg addr) :: shown ++ [(20, loginMsg u addr), (20, timeMsg "Time to login: ".toList (secs 0)),
          (20, timeMsg "Time to get atts: ".toList (secs 1))] ++ choice ++
          [(20, activatedMsg u (sel.map Prod.fst)), (20, timeMsg "Time to proccess atts: ".toList (secs 2)),
           (20, timeMsg "AC generation time: ".toList (secs 3)),
           (20, "AC Byte Encoded Size: ".toList ++ decimal b.length ++ " bytes.".toList),
           (20, timeMsg "Time make AC: ".toList (secs 4)), (20, timeMsg "Time to add attachment: ".toList (secs 5))])

variable {U : Uni} {X : Crypto} {B : Bcrypt} {collate : Str → Str} {secs : Nat → Str} {a : Authority X} {db : AAuthDb} {env : RequestEnv}
  {cred : Credentials} {key : PublicKeyArg} {req : AttributeListArg} {exports : Dict Str}

/-- How `attribute_request` makes the certificate. -/
def finishRequest {X : Crypto} (U : Uni) (a : Authority X) (env : RequestEnv) (cred : Credentials) (key : PublicKeyArg) (exports : Dict Str)
    (u : Str) (sel : Dict UserAtt) : Except PyExc Bytes :=
  a.makeCert U env cred.type u key sel exports >>= a.exportCert

/-- **C114**: `attribute_request` ends as without records, and the records it makes are exactly those of `RequestTrail`. -/
theorem request_trail (t : Trail) : ∃ x,
    a.requestLog U B collate secs db env cred key req exports t =
      auditEnd (a.issue U B collate db env cred key req exports) (t ++ x) ∧
    RequestTrail U B collate secs a db env cred req exports (finishRequest U a env cred key exports)
      (a.issue U B collate db env cred key req exports) x := by
  unfold Authority.requestLog
  rw [audit_bind_lift]
  cases haddr : exports.get "REMOTE_ADDR".toList with
  | none =>
    have hi : a.issue U B collate db env cred key req exports = .error .keyError := by
      unfold Authority.issue remoteAddr
      rw [haddr]
      rfl
    refine ⟨[], ?_, ?_⟩
    · rw [hi, remoteAddr, haddr, List.append_nil]; rfl
    · rw [hi]; exact .noAddr haddr
  | some addr =>
    have h1 : remoteAddr exports = .ok addr := by rw [remoteAddr, haddr]; rfl
    rw [h1]
    dsimp only
    rw [audit_bind_note]
    by_cases ht : cred.type = 0
    · rw [if_pos ht, audit_bind_lift]
      cases hun : cred.username with
      | none =>
        have hi : a.issue U B collate db env cred key req exports = .error .attributeError := by
          unfold Authority.issue
          rw [bind_ok_eq _ h1]
          dsimp only
          rw [if_pos ht, hun]
          rfl
        exact ⟨[(20, requestMsg addr)], by rw [hi]; rfl, by rw [hi]; exact .noName addr haddr ht hun⟩
      | some u =>
        have h2 : cred.username.elim (.error .attributeError) Except.ok = (.ok u : Except PyExc Str) := by rw [hun]; rfl
        have hi0 : a.issue U B collate db env cred key req exports =
            match db.findUser collate (U.lower u) with
            | none => .error (.clientFault "Invalid credentials.".toList)
            | some user =>
              debugHash B env.debug (Peppered a cred) (utf8 user.password) >>= fun _ =>
              B.checkpw (Peppered a cred) (utf8 user.password) >>= fun good =>
              if good then
                selectAtts (db.userAttributes collate user.id) req >>= finishRequest U a env cred key exports u
              else .error (.clientFault "Invalid credentials.".toList) := by
          unfold Authority.issue
          rw [bind_ok_eq _ h1]
          dsimp only
          rw [if_pos ht, bind_ok_eq _ h2]
          rfl
        dsimp only [Option.elim]
        cases hf : db.findUser collate (U.lower u) with
        | none =>
          rw [hf] at hi0
          refine ⟨[(20, requestMsg addr), (20, noUserMsg u addr)], ?_, ?_⟩
          · rw [hi0]
            show EStateM.Result.error _ _ = EStateM.Result.error _ _
            simp
          · rw [hi0]
            exact .noUser addr u haddr ht hun (fun user hu => by rw [findUser_iff.mpr hu] at hf; cases hf)
        | some user =>
          rw [hf] at hi0
          dsimp only at hi0 ⊢
          have hu := findUser_iff.mp hf
          have main : ∀ (t' shown : Trail), t' = t ++ (20, requestMsg addr) :: shown →
              (env.debug = false ∧ shown = [] ∨
                env.debug = true ∧ ∃ k, B.hashpw (Peppered a cred) (utf8 user.password) = .ok k ∧ shown = [(10, hashMsg k)]) →
              a.issue U B collate db env cred key req exports =
                (B.checkpw (Peppered a cred) (utf8 user.password) >>= fun good =>
                if good then
                  selectAtts (db.userAttributes collate user.id) req >>= finishRequest U a env cred key exports u
                else .error (.clientFault "Invalid credentials.".toList)) →
              ∃ x, (auditLift (B.checkpw (Peppered a cred) (utf8 user.password)) >>= fun good =>
                if good then do
                  note 20 (loginMsg u addr)
                  note 20 (timeMsg "Time to login: ".toList (secs 0))
                  note 20 (timeMsg "Time to get atts: ".toList (secs 1))
                  let sel ← selectAttsLog u (db.userAttributes collate user.id) req
                  note 20 (activatedMsg u (sel.map Prod.fst))
                  note 20 (timeMsg "Time to proccess atts: ".toList (secs 2))
                  let c ← auditLift (a.makeCert U env cred.type u key sel exports)
                  let b ← auditLift (a.exportCert c)
                  note 20 (timeMsg "AC generation time: ".toList (secs 3))
                  note 20 ("AC Byte Encoded Size: ".toList ++ decimal b.length ++ " bytes.".toList)
                  note 20 (timeMsg "Time make AC: ".toList (secs 4))
                  note 20 (timeMsg "Time to add attachment: ".toList (secs 5))
                  return b
                else do
                  note 20 (badPasswordMsg u addr)
                  auditLift (.error (.clientFault "Invalid credentials.".toList)) : AuditM Bytes) t' =
                auditEnd (a.issue U B collate db env cred key req exports) (t ++ x) ∧
              RequestTrail U B collate secs a db env cred req exports (finishRequest U a env cred key exports)
                (a.issue U B collate db env cred key req exports) x := by
            intro t' shown ht' hs hi
            rw [audit_bind_lift]
            cases hc : B.checkpw (Peppered a cred) (utf8 user.password) with
            | error e =>
              rw [hc] at hi
              have hi : a.issue U B collate db env cred key req exports = .error e := hi
              exact ⟨(20, requestMsg addr) :: shown, by rw [hi, ht']; rfl, by rw [hi]; exact .noCheck addr u user e shown haddr ht hun hu hs hc⟩
            | ok good =>
              rw [hc] at hi
              cases good with
              | false =>
                have hi : a.issue U B collate db env cred key req exports = .error (.clientFault "Invalid credentials.".toList) := hi
                refine ⟨(20, requestMsg addr) :: shown ++ [(20, badPasswordMsg u addr)], ?_, ?_⟩
                · rw [hi, ht', ← List.append_assoc]; rfl
                · rw [hi]; exact .badPassword addr u user shown haddr ht hun hu hs hc
              | true =>
                have hi : a.issue U B collate db env cred key req exports =
                  (selectAtts (db.userAttributes collate user.id) req >>= finishRequest U a env cred key exports u) := hi
                dsimp only
                rw [if_pos rfl, audit_bind_note, audit_bind_note, audit_bind_note]
                obtain ⟨x, hx, hch⟩ := selectAttsLog_end u (db.userAttributes collate user.id) req
                rw [audit_bind_end _ (hx _)]
                cases hsel : selectAtts (db.userAttributes collate user.id) req with
                | error e =>
                  rw [hsel] at hi hch
                  have hi : a.issue U B collate db env cred key req exports = .error e := hi
                  refine ⟨_, ?_, by rw [hi]; exact .noChoice addr u user shown x e haddr ht hun hu hs hc hsel hch⟩
                  rw [hi, ht']
                  show EStateM.Result.error _ _ = EStateM.Result.error _ _
                  simp
                | ok sel =>
                  rw [hsel] at hi hch
                  have hi : a.issue U B collate db env cred key req exports = finishRequest U a env cred key exports u sel := hi
                  dsimp only
                  rw [audit_bind_note, audit_bind_note, audit_bind_lift]
                  have hfin : finishRequest U a env cred key exports u sel =
                    (a.makeCert U env cred.type u key sel exports >>= a.exportCert) := rfl
                  cases hm : a.makeCert U env cred.type u key sel exports with
                  | error e =>
                    rw [hm] at hfin
                    have hfin : finishRequest U a env cred key exports u sel = .error e := hfin
                    rw [hfin] at hi
                    refine ⟨_, ?_, by rw [hi]; exact .noCert addr u user shown x sel e haddr ht hun hu hs hc hsel hch hfin⟩
                    rw [hi, ht']
                    show EStateM.Result.error _ _ = EStateM.Result.error _ _
                    simp
                  | ok c =>
                    rw [hm] at hfin
                    have hfin : finishRequest U a env cred key exports u sel = a.exportCert c := hfin
                    dsimp only
                    rw [audit_bind_lift]
                    cases he : a.exportCert c with
                    | error e =>
                      rw [he] at hfin
                      rw [hfin] at hi
                      refine ⟨_, ?_, by rw [hi]; exact .noCert addr u user shown x sel e haddr ht hun hu hs hc hsel hch hfin⟩
                      rw [hi, ht']
                      show EStateM.Result.error _ _ = EStateM.Result.error _ _
                      simp
                    | ok b =>
                      rw [he] at hfin
                      rw [hfin] at hi
                      refine ⟨_, ?_, by rw [hi]; exact .issued addr u user shown x sel b haddr ht hun hu hs hc hsel hch hfin⟩
                      rw [hi, ht']
                      dsimp only
                      rw [audit_bind_note, audit_bind_note, audit_bind_note, audit_bind_note]
                      show EStateM.Result.ok _ _ = EStateM.Result.ok _ _
                      simp
          by_cases hd : env.debug = true
          · rw [if_pos hd]
            cases hk : B.hashpw (Peppered a cred) (utf8 user.password) with
            | error e =>
              have hi : a.issue U B collate db env cred key req exports = .error e := by
                rw [hi0, debugHash, if_pos hd, hk]; rfl
              refine ⟨[(20, requestMsg addr)], ?_, by rw [hi]; exact .noHash addr u user e haddr ht hun hu hd hk⟩
              rw [hi, show B.hashpw (utf8 (showOpt cred.password ++ showOpt a.pepper)) (utf8 user.password) = .error e from hk]
              rfl
            | ok k =>
              obtain ⟨x, hx1, hx2⟩ := main (t ++ [(20, requestMsg addr)] ++ [(10, hashMsg k)]) [(10, hashMsg k)] (by simp)
                (.inr ⟨hd, k, hk, rfl⟩) (by rw [hi0, debugHash, if_pos hd, hk]; rfl)
              refine ⟨x, ?_, hx2⟩
              rw [← hx1, show B.hashpw (utf8 (showOpt cred.password ++ showOpt a.pepper)) (utf8 user.password) = .ok k from hk]
              rfl
          · rw [if_neg hd]
            obtain ⟨x, hx1, hx2⟩ := main (t ++ [(20, requestMsg addr)]) [] (by simp)
                (.inl ⟨by simpa using hd, rfl⟩) (by rw [hi0, debugHash, if_neg hd]; rfl)
            exact ⟨x, by rw [← hx1]; rfl, hx2⟩
    · rw [if_neg ht]
      have hi := credential_type (U := U) (B := B) (collate := collate) (a := a) (db := db) (env := env) (key := key) (req := req) haddr ht
      refine ⟨[(20, requestMsg addr), (10, badTypeMsg cred.type addr)], ?_, by rw [hi]; exact .badType addr haddr ht⟩
      rw [hi]
      show EStateM.Result.error _ _ = EStateM.Result.error _ _
      simp

/-- A computation whose result and records do not depend on the records made before. -/
def Shifts {α : Type} (m : AuditM α) : Prop := ∀ t, m t = auditEnd (auditResult (m [])) (t ++ auditTrail (m []))

theorem shifts_lift {α : Type} (x : Except PyExc α) : Shifts (auditLift x) := by
  intro t
  cases x <;> simp [auditLift, auditEnd, auditResult, auditTrail]

theorem shifts_pure {α : Type} (x : α) : Shifts (pure x : AuditM α) := shifts_lift (.ok x)

theorem shifts_note (l : Nat) (m : Str) : Shifts (note l m) := fun _ => rfl

theorem shifts_bind {α β : Type} {m : AuditM α} {f : α → AuditM β} (hm : Shifts m) (hf : ∀ x, Shifts (f x)) : Shifts (m >>= f) := by
  intro t
  rw [audit_bind_end f (hm t), audit_bind_end f (hm [])]
  cases auditResult (m []) with
  | error e => simp [auditEnd, auditResult, auditTrail]
  | ok x =>
    dsimp only
    rw [List.nil_append, hf x (t ++ auditTrail (m [])), hf x (auditTrail (m [])), auditResult_end, auditTrail_end, List.append_assoc]

theorem shifts_of_end {α : Type} {m : AuditM α} {r : Except PyExc α} {x : Trail} (h : ∀ t, m t = auditEnd r (t ++ x)) : Shifts m := by
  intro t
  rw [h t, h [], auditResult_end, auditTrail_end, List.nil_append]

theorem shifts_request : Shifts (a.requestLog U B collate secs db env cred key req exports) := by
  unfold Authority.requestLog
  refine shifts_bind (shifts_lift _) fun addr => shifts_bind (shifts_note _ _) fun _ => ?_
  split
  · refine shifts_bind (shifts_lift _) fun u => ?_
    split
    · exact shifts_bind (shifts_note _ _) fun _ => shifts_lift _
    · rename_i user _
      have h : Shifts (auditLift (B.checkpw (utf8 (showOpt cred.password ++ showOpt a.pepper)) (utf8 user.password)) >>= fun good =>
          if good then do
            note 20 (loginMsg u addr)
            note 20 (timeMsg "Time to login: ".toList (secs 0))
            note 20 (timeMsg "Time to get atts: ".toList (secs 1))
            let sel ← selectAttsLog u (db.userAttributes collate user.id) req
            note 20 (activatedMsg u (sel.map Prod.fst))
            note 20 (timeMsg "Time to proccess atts: ".toList (secs 2))
            let c ← auditLift (a.makeCert U env cred.type u key sel exports)
            let b ← auditLift (a.exportCert c)
            note 20 (timeMsg "AC generation time: ".toList (secs 3))
            note 20 ("AC Byte Encoded Size: ".toList ++ decimal b.length ++ " bytes.".toList)
            note 20 (timeMsg "Time make AC: ".toList (secs 4))
            note 20 (timeMsg "Time to add attachment: ".toList (secs 5))
            return b
          else do
            note 20 (badPasswordMsg u addr)
            auditLift (.error (.clientFault "Invalid credentials.".toList)) : AuditM Bytes) := by
        refine shifts_bind (shifts_lift _) fun good => ?_
        split
        · refine shifts_bind (shifts_note _ _) fun _ => shifts_bind (shifts_note _ _) fun _ => shifts_bind (shifts_note _ _) fun _ => shifts_bind ?_ fun sel => ?_
          · obtain ⟨x, hx, _⟩ := selectAttsLog_end u (db.userAttributes collate user.id) req
            exact shifts_of_end hx
          · exact shifts_bind (shifts_note _ _) fun _ => shifts_bind (shifts_note _ _) fun _ => shifts_bind (shifts_lift _) fun _ => shifts_bind (shifts_lift _) fun _ =>
              shifts_bind (shifts_note _ _) fun _ => shifts_bind (shifts_note _ _) fun _ => shifts_bind (shifts_note _ _) fun _ => shifts_bind (shifts_note _ _) fun _ => shifts_pure _
        · exact shifts_bind (shifts_note _ _) fun _ => shifts_lift _
      dsimp only
      split
      · exact shifts_bind (shifts_lift _) fun _ => shifts_bind (shifts_note _ _) fun _ => h
      · exact h
  · exact shifts_bind (shifts_note _ _) fun _ => shifts_lift _

/-- The records a request makes. -/
def requestRecords {X : Crypto} (U : Uni) (B : Bcrypt) (collate : Str → Str) (secs : Nat → Str) (a : Authority X) (db : AAuthDb)
    (env : RequestEnv) (cred : Credentials) (key : PublicKeyArg) (req : AttributeListArg) (exports : Dict Str) : Trail :=
  auditTrail (a.requestLog U B collate secs db env cred key req exports [])

/-- The records are exactly those of `RequestTrail`. -/
theorem request_records : RequestTrail U B collate secs a db env cred req exports (finishRequest U a env cred key exports)
    (a.issue U B collate db env cred key req exports) (requestRecords U B collate secs a db env cred key req exports) := by
  obtain ⟨y, g1, g2⟩ := request_trail (U := U) (B := B) (collate := collate) (secs := secs) (a := a) (db := db) (env := env) (cred := cred)
    (key := key) (req := req) (exports := exports) []
  rw [requestRecords, g1, auditTrail_end, List.nil_append]
  exact g2

/-- **C114**: the result is that of `issue`, and records made before stay as they are. -/
theorem request_result (t : Trail) : a.requestLog U B collate secs db env cred key req exports t =
    auditEnd (a.issue U B collate db env cred key req exports) (t ++ requestRecords U B collate secs a db env cred key req exports) := by
  obtain ⟨y, g1, _⟩ := request_trail (U := U) (B := B) (collate := collate) (secs := secs) (a := a) (db := db) (env := env) (cred := cred)
    (key := key) (req := req) (exports := exports) []
  rw [shifts_request t, requestRecords, g1, auditResult_end]

/-- The user a request names and the address it comes from; the password is checked, with the given answer. -/
structure Checked {X : Crypto} (U : Uni) (B : Bcrypt) (collate : Str → Str) (a : Authority X) (db : AAuthDb) (env : RequestEnv)
    (cred : Credentials) (exports : Dict Str) (good : Bool) (addr u : Str) (user : DbUser) : Prop where
  addr : exports.get "REMOTE_ADDR".toList = some addr
  type : cred.type = 0
  name : cred.username = some u
  named : UserNamed collate db (U.lower u) user
  hash : env.debug = true → ∃ k, B.hashpw (Peppered a cred) (utf8 user.password) = .ok k
  answer : B.checkpw (Peppered a cred) (utf8 user.password) = .ok good

theorem shown_hash {env : RequestEnv} {p h : Bytes} {shown : Trail}
    (hs : env.debug = false ∧ shown = [] ∨ env.debug = true ∧ ∃ k, B.hashpw p h = .ok k ∧ shown = [(10, hashMsg k)]) :
    (env.debug = true → ∃ k, B.hashpw p h = .ok k) ∧ ∀ r ∈ shown, r.1 = 10 := by
  rcases hs with ⟨h1, rfl⟩ | ⟨h1, k, hk, rfl⟩
  · exact ⟨fun h => (Bool.false_ne_true (h1.symm.trans h)).elim, fun r hr => by cases hr⟩
  · exact ⟨fun _ => ⟨k, hk⟩, fun r hr => by rw [List.mem_singleton.mp hr]⟩

theorem userNamed_unique {n : Str} {u v : DbUser} (hu : UserNamed collate db n u) (hv : UserNamed collate db n v) : u = v := by
  have := findUser_iff.mpr hu
  rw [findUser_iff.mpr hv] at this
  exact (Option.some.inj this).symm

/-- **C114**: what is recorded if the password is right, up to the login. -/
theorem login_record {addr u : Str} {user : DbUser} (hc : Checked U B collate a db env cred exports true addr u user) :
    ∃ shown rest, requestRecords U B collate secs a db env cred key req exports =
      (20, requestMsg addr) :: shown ++ (20, loginMsg u addr) :: rest ∧
      (env.debug = false ∧ shown = [] ∨
        env.debug = true ∧ ∃ k, B.hashpw (Peppered a cred) (utf8 user.password) = .ok k ∧ shown = [(10, hashMsg k)]) := by
  have hr := request_records (U := U) (B := B) (collate := collate) (secs := secs) (a := a) (db := db) (env := env) (cred := cred)
    (key := key) (req := req) (exports := exports)
  generalize a.issue U B collate db env cred key req exports = r at hr
  generalize requestRecords U B collate secs a db env cred key req exports = x at hr
  obtain ⟨c1, c2, c3, c4, c5, c6⟩ := hc
  cases hr with
  | noAddr h => rw [h] at c1; cases c1
  | badType _ _ ht => exact absurd c2 ht
  | noName _ _ _ hn => rw [hn] at c3; cases c3
  | noUser addr' u' h ht hn hu =>
    obtain rfl := Option.some.inj (hn.symm.trans c3)
    exact absurd c4 (hu _)
  | noHash addr' u' user' e h ht hn hu hd he =>
    obtain rfl := Option.some.inj (hn.symm.trans c3)
    obtain rfl := userNamed_unique hu c4
    obtain ⟨k, hk⟩ := c5 hd
    rw [hk] at he
    cases he
  | noCheck addr' u' user' e shown h ht hn hu hs he =>
    obtain rfl := Option.some.inj (hn.symm.trans c3)
    obtain rfl := userNamed_unique hu c4
    rw [c6] at he
    cases he
  | badPassword addr' u' user' shown h ht hn hu hs he =>
    obtain rfl := Option.some.inj (hn.symm.trans c3)
    obtain rfl := userNamed_unique hu c4
    rw [c6] at he
    cases he
  | noChoice addr' u' user' shown choice e h ht hn hu hs he hsel hch =>
    obtain rfl := Option.some.inj (hn.symm.trans c3)
    obtain rfl := userNamed_unique hu c4
    obtain rfl := Option.some.inj (h.symm.trans c1)
    exact ⟨shown, _, by simp only [List.cons_append, List.append_assoc]; rfl, hs⟩
  | noCert addr' u' user' shown choice sel e h ht hn hu hs he hsel hch =>
    obtain rfl := Option.some.inj (hn.symm.trans c3)
    obtain rfl := userNamed_unique hu c4
    obtain rfl := Option.some.inj (h.symm.trans c1)
    exact ⟨shown, _, by simp only [List.cons_append, List.append_assoc]; rfl, hs⟩
  | issued addr' u' user' shown choice sel b h ht hn hu hs he hsel hch =>
    obtain rfl := Option.some.inj (hn.symm.trans c3)
    obtain rfl := userNamed_unique hu c4
    obtain rfl := Option.some.inj (h.symm.trans c1)
    exact ⟨shown, _, by simp only [List.cons_append, List.append_assoc]; rfl, hs⟩

/-- **C114**: a login is recorded exactly if the password was found to be right, with the name given and the address. -/
theorem login_recorded :
    (∃ m, (20, m) ∈ requestRecords U B collate secs a db env cred key req exports ∧ "Successful login by ".toList <+: m) ↔
      ∃ addr u user, Checked U B collate a db env cred exports true addr u user := by
  have hA : ∀ x : Str, ¬ "Successful login by ".toList <+: 'A' :: x := fun x h => by
    have := List.head_eq_of_cons_eq h.choose_spec; revert this; decide
  have hC : ∀ x : Str, ¬ "Successful login by ".toList <+: 'C' :: x := fun x h => by
    have := List.head_eq_of_cons_eq h.choose_spec; revert this; decide
  have hreq : ∀ addr, ¬ "Successful login by ".toList <+: requestMsg addr := fun addr => hA _
  constructor
  · rintro ⟨m, hm, hp⟩
    have hr := request_records (U := U) (B := B) (collate := collate) (secs := secs) (a := a) (db := db) (env := env) (cred := cred)
      (key := key) (req := req) (exports := exports)
    generalize a.issue U B collate db env cred key req exports = r at hr
    generalize requestRecords U B collate secs a db env cred key req exports = x at hr hm
    cases hr with
    | noAddr h => cases hm
    | badType addr h ht =>
      simp only [List.mem_cons, Prod.mk.injEq, true_and, List.not_mem_nil, or_false, Nat.reduceEqDiff, false_and] at hm
      exact absurd (hm ▸ hp) (hreq _)
    | noName addr h ht hn =>
      simp only [List.mem_cons, Prod.mk.injEq, true_and, List.not_mem_nil, or_false] at hm
      exact absurd (hm ▸ hp) (hreq _)
    | noUser addr u h ht hn hu =>
      simp only [List.mem_cons, Prod.mk.injEq, true_and, List.not_mem_nil, or_false] at hm
      rcases hm with hm | hm
      · exact absurd (hm ▸ hp) (hreq _)
      · exact absurd (hm ▸ hp) (hC _)
    | noHash addr u user e h ht hn hu hd he =>
      simp only [List.mem_cons, Prod.mk.injEq, true_and, List.not_mem_nil, or_false] at hm
      exact absurd (hm ▸ hp) (hreq _)
    | noCheck addr u user e shown h ht hn hu hs he =>
      simp only [List.mem_cons, Prod.mk.injEq, true_and] at hm
      rcases hm with hm | hm
      · exact absurd (hm ▸ hp) (hreq _)
      · exact absurd ((shown_hash hs).2 _ hm) (fun h => by cases h)
    | badPassword addr u user shown h ht hn hu hs he =>
      simp only [List.mem_cons, List.mem_append, Prod.mk.injEq, true_and, List.not_mem_nil, or_false] at hm
      rcases hm with (hm | hm) | hm
      · exact absurd (hm ▸ hp) (hreq _)
      · exact absurd ((shown_hash hs).2 _ hm) (fun h => by cases h)
      · exact absurd (hm ▸ hp) (hC _)
    | noChoice addr u user shown choice e h ht hn hu hs he => exact ⟨addr, u, user, h, ht, hn, hu, (shown_hash hs).1, he⟩
    | noCert addr u user shown choice sel e h ht hn hu hs he => exact ⟨addr, u, user, h, ht, hn, hu, (shown_hash hs).1, he⟩
    | issued addr u user shown choice sel b h ht hn hu hs he => exact ⟨addr, u, user, h, ht, hn, hu, (shown_hash hs).1, he⟩
  · rintro ⟨addr, u, user, hc⟩
    obtain ⟨shown, rest, hx, _⟩ := login_record (secs := secs) (key := key) (req := req) hc
    refine ⟨loginMsg u addr, by rw [hx]; exact List.mem_append_right _ List.mem_cons_self, ⟨u ++ " from ".toList ++ addr ++ ['.'], ?_⟩⟩
    unfold loginMsg
    rw [List.append_assoc, List.append_assoc, List.append_assoc, List.append_assoc, List.append_assoc]

/-- **C114**: a request that is refused for its user name is recorded with the name and the address, and nothing after it. -/
theorem unknown_recorded {addr u : Str} (haddr : exports.get "REMOTE_ADDR".toList = some addr) (ht : cred.type = 0)
    (hun : cred.username = some u) (h : ∀ user, ¬ UserNamed collate db (U.lower u) user) :
    a.issue U B collate db env cred key req exports = .error (.clientFault "Invalid credentials.".toList) ∧
    requestRecords U B collate secs a db env cred key req exports = [(20, requestMsg addr), (20, noUserMsg u addr)] := by
  refine ⟨invalid_credentials haddr ht hun (.inl h), ?_⟩
  have hr := request_records (U := U) (B := B) (collate := collate) (secs := secs) (a := a) (db := db) (env := env) (cred := cred)
    (key := key) (req := req) (exports := exports)
  generalize a.issue U B collate db env cred key req exports = r at hr
  generalize requestRecords U B collate secs a db env cred key req exports = x at hr
  cases hr with
  | noAddr h' => rw [h'] at haddr; cases haddr
  | badType _ _ ht' => exact absurd ht ht'
  | noName _ _ _ hn => rw [hn] at hun; cases hun
  | noUser addr' u' h' ht' hn hu =>
    obtain rfl := Option.some.inj (hn.symm.trans hun)
    obtain rfl := Option.some.inj (h'.symm.trans haddr)
    rfl
  | noHash addr' u' user' e h' ht' hn hu =>
    obtain rfl := Option.some.inj (hn.symm.trans hun)
    exact absurd hu (h _)
  | noCheck addr' u' user' e shown h' ht' hn hu =>
    obtain rfl := Option.some.inj (hn.symm.trans hun)
    exact absurd hu (h _)
  | badPassword addr' u' user' shown h' ht' hn hu =>
    obtain rfl := Option.some.inj (hn.symm.trans hun)
    exact absurd hu (h _)
  | noChoice addr' u' user' shown choice e h' ht' hn hu =>
    obtain rfl := Option.some.inj (hn.symm.trans hun)
    exact absurd hu (h _)
  | noCert addr' u' user' shown choice sel e h' ht' hn hu =>
    obtain rfl := Option.some.inj (hn.symm.trans hun)
    exact absurd hu (h _)
  | issued addr' u' user' shown choice sel b h' ht' hn hu =>
    obtain rfl := Option.some.inj (hn.symm.trans hun)
    exact absurd hu (h _)

/-- **C114**: a request that is refused for its password is recorded with the name and the address, and nothing after it. -/
theorem refused_recorded {addr u : Str} {user : DbUser} (hc : Checked U B collate a db env cred exports false addr u user) :
    a.issue U B collate db env cred key req exports = .error (.clientFault "Invalid credentials.".toList) ∧
    ∃ shown, requestRecords U B collate secs a db env cred key req exports =
      (20, requestMsg addr) :: shown ++ [(20, badPasswordMsg u addr)] ∧
      (env.debug = false ∧ shown = [] ∨
        env.debug = true ∧ ∃ k, B.hashpw (Peppered a cred) (utf8 user.password) = .ok k ∧ shown = [(10, hashMsg k)]) := by
  obtain ⟨c1, c2, c3, c4, c5, c6⟩ := hc
  refine ⟨invalid_credentials c1 c2 c3 (.inr ⟨user, c4, c6, c5⟩), ?_⟩
  have hr := request_records (U := U) (B := B) (collate := collate) (secs := secs) (a := a) (db := db) (env := env) (cred := cred)
    (key := key) (req := req) (exports := exports)
  generalize a.issue U B collate db env cred key req exports = r at hr
  generalize requestRecords U B collate secs a db env cred key req exports = x at hr
  cases hr with
  | noAddr h => rw [h] at c1; cases c1
  | badType _ _ ht => exact absurd c2 ht
  | noName _ _ _ hn => rw [hn] at c3; cases c3
  | noUser addr' u' h ht hn hu =>
    obtain rfl := Option.some.inj (hn.symm.trans c3)
    exact absurd c4 (hu _)
  | noHash addr' u' user' e h ht hn hu hd he =>
    obtain rfl := Option.some.inj (hn.symm.trans c3)
    obtain rfl := userNamed_unique hu c4
    obtain ⟨k, hk⟩ := c5 hd
    rw [hk] at he
    cases he
  | noCheck addr' u' user' e shown h ht hn hu hs he =>
    obtain rfl := Option.some.inj (hn.symm.trans c3)
    obtain rfl := userNamed_unique hu c4
    rw [c6] at he
    cases he
  | badPassword addr' u' user' shown h ht hn hu hs he =>
    obtain rfl := Option.some.inj (hn.symm.trans c3)
    obtain rfl := userNamed_unique hu c4
    obtain rfl := Option.some.inj (h.symm.trans c1)
    exact ⟨shown, rfl, hs⟩
  | noChoice addr' u' user' shown choice e h ht hn hu hs he =>
    obtain rfl := Option.some.inj (hn.symm.trans c3)
    obtain rfl := userNamed_unique hu c4
    rw [c6] at he
    cases he
  | noCert addr' u' user' shown choice sel e h ht hn hu hs he =>
    obtain rfl := Option.some.inj (hn.symm.trans c3)
    obtain rfl := userNamed_unique hu c4
    rw [c6] at he
    cases he
  | issued addr' u' user' shown choice sel b h ht hn hu hs he =>
    obtain rfl := Option.some.inj (hn.symm.trans c3)
    obtain rfl := userNamed_unique hu c4
    rw [c6] at he
    cases he

/-- **C114**: no certificate without a record: if one is issued, the login and, after it, the ids of exactly the user's attributes put
into the certificate are recorded. -/
theorem issued_recorded {b : Bytes} (h : a.issue U B collate db env cred key req exports = .ok b) :
    ∃ addr u user sel before between after, Checked U B collate a db env cred exports true addr u user ∧
      selectAtts (db.userAttributes collate user.id) req = .ok sel ∧
      requestRecords U B collate secs a db env cred key req exports =
        before ++ (20, loginMsg u addr) :: between ++ (20, activatedMsg u (sel.map Prod.fst)) :: after := by
  have hr := request_records (U := U) (B := B) (collate := collate) (secs := secs) (a := a) (db := db) (env := env) (cred := cred)
    (key := key) (req := req) (exports := exports)
  rw [h] at hr
  generalize requestRecords U B collate secs a db env cred key req exports = x at hr
  generalize finishRequest U a env cred key exports = f at hr
  cases hr with
  | issued addr u user shown choice sel b h ht hn hu hs he hsel hch =>
    refine ⟨addr, u, user, sel, (20, requestMsg addr) :: shown,
      (20, timeMsg "Time to login: ".toList (secs 0)) :: (20, timeMsg "Time to get atts: ".toList (secs 1)) :: choice,
      [(20, timeMsg "Time to proccess atts: ".toList (secs 2)), (20, timeMsg "AC generation time: ".toList (secs 3)),
        (20, "AC Byte Encoded Size: ".toList ++ decimal b.length ++ " bytes.".toList),
        (20, timeMsg "Time make AC: ".toList (secs 4)), (20, timeMsg "Time to add attachment: ".toList (secs 5))],
      ⟨h, ht, hn, hu, (shown_hash hs).1, he⟩, hsel, ?_⟩
    simp only [List.cons_append, List.append_assoc, List.nil_append]

/-! ### Secrets -/

/-- A database in which the stored hashes are others. -/
def AAuthDb.withHashes (db : AAuthDb) (f : DbUser → Str) : AAuthDb :=
  { db with users := db.users.map (fun u => { u with password := f u }) }

theorem withHashes_find (f : DbUser → Str) (n : Str) :
    (AAuthDb.withHashes db f).findUser collate n = (db.findUser collate n).map (fun u => { u with password := f u }) := by
  unfold AAuthDb.findUser AAuthDb.withHashes
  dsimp only
  induction db.users with
  | nil => rfl
  | cons u l ih =>
    by_cases hu : collate u.username = collate n
    · rw [List.map_cons, List.find?_cons_of_pos (by simpa using hu), List.find?_cons_of_pos (by simpa using hu)]
      rfl
    · rw [List.map_cons, List.find?_cons_of_neg (by simpa using hu), List.find?_cons_of_neg (by simpa using hu)]
      exact ih

/-- **C114**: if the log does not take records of level DEBUG, then nothing of the password, of the pepper and of the stored hash gets
into the records and the answer but whether the password is right. -/
theorem secrets_kept (f : DbUser → Str) (p q : Option Str) (hd : env.debug = false)
    (h : ∀ u user, cred.username = some u → UserNamed collate db (U.lower u) user →
      B.checkpw (Peppered a cred) (utf8 user.password) =
        B.checkpw (Peppered { a with pepper := q } { cred with password := p }) (utf8 (f user))) :
    a.requestLog U B collate secs db env cred key req exports =
      ({ a with pepper := q } : Authority X).requestLog U B collate secs (AAuthDb.withHashes db f) env { cred with password := p } key req exports := by
  unfold Authority.requestLog
  refine congrArg _ (funext fun addr => congrArg _ (funext fun _ => ?_))
  dsimp only
  by_cases ht : cred.type = 0
  · rw [if_pos ht, if_pos ht]
    cases hn : cred.username with
    | none => rfl
    | some u =>
      have hm : ∀ sel, ({ a with pepper := q } : Authority X).makeCert U env cred.type u key sel exports =
        a.makeCert U env cred.type u key sel exports := fun _ => rfl
      have he : ({ a with pepper := q } : Authority X).exportCert = a.exportCert := rfl
      funext t
      rw [audit_bind_lift, audit_bind_lift]
      dsimp only [Option.elim]
      rw [withHashes_find]
      cases hf : db.findUser collate (U.lower u) with
      | none => rfl
      | some user =>
        dsimp only [Option.map]
        rw [hd, if_neg (by decide), if_neg (by decide)]
        have hx := h u user hn (findUser_iff.mp hf)
        unfold Peppered at hx
        dsimp only at hx
        rw [show B.checkpw (utf8 (showOpt cred.password ++ showOpt a.pepper)) (utf8 user.password) =
          B.checkpw (utf8 (showOpt p ++ showOpt q)) (utf8 (f user)) from hx]
        rfl
  · rw [if_neg ht, if_neg ht]

end Verif.Props
