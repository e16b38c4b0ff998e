import Verif.Model.ConcurrentIssue
import Verif.Props.AAuth
import Mathlib.Data.List.Induction

/-!
# C131, C132: requests for certificates at the same time
-/

namespace Verif.Props

open Verif

variable {X : Crypto} {U : Uni} {B : Bcrypt} {collate : Str → Str} {dir : Str} {a : Authority X}

/-- The bytes of the certificate of a call whose first query sees one state of the database and whose second another. -/
def issueSeen (U : Uni) (B : Bcrypt) (collate : Str → Str) (a : Authority X) (q : IssueCall) (db₁ db₂ : AAuthDb) :
    Except PyExc Bytes :=
  (a.login U B collate db₁ q).bind (a.certify U collate db₂ q)

/-- If the database does not change in between, that is `attribute_request` as modelled before. -/
theorem issueSeen_same (q : IssueCall) (db : AAuthDb) :
    issueSeen U B collate a q db db = a.issue U B collate db q.env q.cred q.key q.req q.exports := by
  unfold issueSeen Authority.login Authority.issue Authority.certify
  cases remoteAddr q.exports with
  | error e => rfl
  | ok addr =>
    show Except.bind (if q.cred.type = 0 then _ else _) _ = if q.cred.type = 0 then _ else _
    by_cases ht : q.cred.type = 0
    · rw [if_pos ht, if_pos ht]
      cases q.cred.username with
      | none => rfl
      | some username =>
        show Except.bind (match db.findUser collate (U.lower username) with | none => _ | some user => _) _ =
          match db.findUser collate (U.lower username) with | none => _ | some user => _
        cases db.findUser collate (U.lower username) with
        | none => rfl
        | some user =>
          dsimp only
          cases debugHash B q.env.debug (utf8 (showOpt q.cred.password ++ showOpt a.pepper)) (utf8 user.password) with
          | error e => rfl
          | ok _ =>
            cases B.checkpw (utf8 (showOpt q.cred.password ++ showOpt a.pepper)) (utf8 user.password) with
            | error e => rfl
            | ok good =>
              cases good
              · rfl
              · rfl
    · rw [if_neg ht, if_neg ht]
      rfl

/-! ### A call among others is a call alone -/

/-- A step of a call that is alone: the file under the name of its certificate, and how far it is. -/
def aloneStep (U : Uni) (B : Bcrypt) (collate : Str → Str) (a : Authority X) (q : IssueCall) (x : Option Bytes × IssueJob)
    (t : IssueTurn) : Option Bytes × IssueJob :=
  ((q.step U B collate a x.1 t x.2).1.or x.1, (q.step U B collate a x.1 t x.2).2)

/-- A call that is alone from its start. -/
def alone (U : Uni) (B : Bcrypt) (collate : Str → Str) (a : Authority X) (q : IssueCall) (file : Option Bytes)
    (ts : List IssueTurn) : Option Bytes × IssueJob :=
  ts.foldl (aloneStep U B collate a q) (file, .fresh)

/-- The steps of call `j`. -/
def turnsOf (j : Nat) (schedule : List (Nat × IssueTurn)) : List IssueTurn :=
  schedule.filterMap (fun s => if s.1 = j then some s.2 else none)

/-- A step of a call with that serial number or of another. -/
theorem pool_step_calls (p : IssuePool) (i : Nat) (t : IssueTurn) :
    (p.step U B collate dir a i t).jobs.map (·.1) = p.jobs.map (·.1) := by
  unfold IssuePool.step
  cases h : p.jobs[i]? with
  | none => rfl
  | some x =>
    obtain ⟨q, job⟩ := x
    have : ∀ job', (p.jobs.set i (q, job')).map (·.1) = p.jobs.map (·.1) := by
      intro job'
      rw [List.map_set]
      apply List.ext_getElem?
      intro k
      rw [List.getElem?_set]
      split
      · rename_i hk
        subst hk
        rw [List.getElem?_map, h]
        split
        · rfl
        · rename_i hn
          rw [List.getElem?_eq_some_iff] at h
          obtain ⟨hl, _⟩ := h
          exact absurd (by simpa using hl) hn
      · rfl
    dsimp only
    cases q.step U B collate a (p.files (acFileName dir q.env.random)) t job with
    | mk o job' => cases o <;> exact this job'

theorem pool_step_view {p : IssuePool} {j : Nat} {q : IssueCall} {job : IssueJob} (hj : p.jobs[j]? = some (q, job)) (i : Nat)
    (t : IssueTurn)
    (hs : ∀ i' q' job', p.jobs[i']? = some (q', job') → i' ≠ j → q'.env.random ≠ q.env.random) :
    (p.step U B collate dir a i t).jobs[j]? =
        some (q, if i = j then (aloneStep U B collate a q (p.files (acFileName dir q.env.random), job) t).2 else job) ∧
      (p.step U B collate dir a i t).files (acFileName dir q.env.random) =
        if i = j then (aloneStep U B collate a q (p.files (acFileName dir q.env.random), job) t).1
        else p.files (acFileName dir q.env.random) := by
  have hl : j < p.jobs.length := (List.getElem?_eq_some_iff.mp hj).1
  by_cases hij : i = j
  · subst hij
    rw [if_pos rfl, if_pos rfl]
    unfold IssuePool.step aloneStep
    rw [hj]
    dsimp only
    cases q.step U B collate a (p.files (acFileName dir q.env.random)) t job with
    | mk o job' =>
      cases o with
      | none => exact ⟨by simp [hl], rfl⟩
      | some b => exact ⟨by simp [hl], by simp⟩
  · rw [if_neg hij, if_neg hij]
    unfold IssuePool.step
    cases hi : p.jobs[i]? with
    | none => exact ⟨hj, rfl⟩
    | some x =>
      obtain ⟨q', job'⟩ := x
      have hn : acFileName dir q.env.random ≠ acFileName dir q'.env.random := fun e =>
        hs i q' job' hi hij (file_names dir _ _ e).symm
      dsimp only
      cases q'.step U B collate a (p.files (acFileName dir q'.env.random)) t job' with
      | mk o job'' =>
        cases o with
        | none => exact ⟨by rw [List.getElem?_set_ne hij]; exact hj, rfl⟩
        | some b => exact ⟨by rw [List.getElem?_set_ne hij]; exact hj, by simp [hn]⟩

theorem pool_run_view {q : IssueCall} {j : Nat} (schedule : List (Nat × IssueTurn)) {p : IssuePool} {job : IssueJob}
    (hj : p.jobs[j]? = some (q, job))
    (hs : ∀ i' q', (p.jobs.map (·.1))[i']? = some q' → i' ≠ j → q'.env.random ≠ q.env.random) :
    (p.run U B collate dir a schedule).jobs[j]? =
        some (q, ((turnsOf j schedule).foldl (aloneStep U B collate a q) (p.files (acFileName dir q.env.random), job)).2) ∧
      (p.run U B collate dir a schedule).files (acFileName dir q.env.random) =
        ((turnsOf j schedule).foldl (aloneStep U B collate a q) (p.files (acFileName dir q.env.random), job)).1 := by
  induction schedule generalizing p job with
  | nil => exact ⟨hj, rfl⟩
  | cons s rest ih =>
    have hv := pool_step_view (U := U) (B := B) (collate := collate) (dir := dir) (a := a) hj s.1 s.2
      (fun i' q' job' h hne => hs i' q' (by rw [List.getElem?_map, h]; rfl) hne)
    have h := ih hv.1 (by rw [pool_step_calls]; exact hs)
    rw [hv.2] at h
    show (IssuePool.run U B collate dir a (p.step U B collate dir a s.1 s.2) rest).jobs[j]? = _ ∧
      (IssuePool.run U B collate dir a (p.step U B collate dir a s.1 s.2) rest).files _ = _
    rw [h.1, h.2]
    by_cases hij : s.1 = j
    · have : turnsOf j (s :: rest) = s.2 :: turnsOf j rest := by
        unfold turnsOf; rw [List.filterMap_cons, if_pos hij]
      rw [this, if_pos hij, if_pos hij, List.foldl_cons]
      exact ⟨rfl, rfl⟩
    · have : turnsOf j (s :: rest) = turnsOf j rest := by
        unfold turnsOf; rw [List.filterMap_cons, if_neg hij]
      rw [this, if_neg hij, if_neg hij]
      exact ⟨rfl, rfl⟩

/-- **C131**: as long as the random serial numbers differ, no call notices the others: in any interleaving a call is as far
after its steps as if it were alone, and its file has the content it would have. -/
theorem calls_apart (files : Files) (qs : List IssueCall) {j : Nat} {q : IssueCall} (hj : qs[j]? = some q)
    (hs : ∀ i q', qs[i]? = some q' → i ≠ j → q'.env.random ≠ q.env.random) (schedule : List (Nat × IssueTurn)) :
    ((IssuePool.make files qs).run U B collate dir a schedule).jobs[j]? =
        some (q, (alone U B collate a q (files (acFileName dir q.env.random)) (turnsOf j schedule)).2) ∧
      ((IssuePool.make files qs).run U B collate dir a schedule).files (acFileName dir q.env.random) =
        (alone U B collate a q (files (acFileName dir q.env.random)) (turnsOf j schedule)).1 := by
  refine pool_run_view schedule (p := IssuePool.make files qs) ?_ ?_
  · unfold IssuePool.make
    rw [List.getElem?_map, hj]
    rfl
  · intro i q' h
    unfold IssuePool.make at h
    rw [List.map_map, List.getElem?_map] at h
    refine hs i q' ?_
    cases hi : qs[i]? with
    | none => rw [hi] at h; cases h
    | some x => rw [hi] at h; cases h; rfl

/-- **C131**: files that are not named after the serial number of a call are left as they are. -/
theorem other_files (files : Files) (qs : List IssueCall) (schedule : List (Nat × IssueTurn)) (n : Str)
    (hn : ∀ q ∈ qs, n ≠ acFileName dir q.env.random) :
    ((IssuePool.make files qs).run U B collate dir a schedule).files n = files n := by
  suffices h : ∀ (schedule : List (Nat × IssueTurn)) (p : IssuePool),
      (∀ q ∈ p.jobs.map (·.1), n ≠ acFileName dir q.env.random) → (p.run U B collate dir a schedule).files n = p.files n by
    refine h schedule (IssuePool.make files qs) ?_
    unfold IssuePool.make
    rw [List.map_map]
    intro q hq
    obtain ⟨x, hx, rfl⟩ := List.mem_map.mp hq
    exact hn x hx
  intro schedule
  induction schedule with
  | nil => intro p _; rfl
  | cons s rest ih =>
    intro p hp
    show (IssuePool.run U B collate dir a (p.step U B collate dir a s.1 s.2) rest).files n = p.files n
    rw [ih _ (by rw [pool_step_calls]; exact hp)]
    unfold IssuePool.step
    cases hi : p.jobs[s.1]? with
    | none => rfl
    | some x =>
      obtain ⟨q, job⟩ := x
      have hne := hp q (List.mem_map.mpr ⟨(q, job), List.mem_of_getElem? hi, rfl⟩)
      dsimp only
      cases q.step U B collate a (p.files (acFileName dir q.env.random)) s.2 job with
      | mk o job' =>
        cases o with
        | none => rfl
        | some b => simp [hne]

/-! ### A call alone -/

/-- A call whose certificate is made. -/
def Halfway (c : Bytes) (f : Option Bytes) : IssueJob → Prop
  | .made c' => c' = c
  | .writing c' pos => c' = c ∧ pos ≤ c.length ∧ f = some (c.take pos)
  | .stored => f = some c
  | .reading got => f = some c ∧ got <+: c
  | .done r => f = some c ∧ r = .answer ⟨1, 0, c⟩
  | _ => False

/-- The steps it needs at most. -/
def stepsLeft (c : Bytes) : IssueJob → Nat
  | .made _ => 2 * c.length + 4
  | .writing _ pos => (c.length - pos) + c.length + 3
  | .stored => c.length + 2
  | .reading got => (c.length - got.length) + 1
  | _ => 0

theorem putAt_end (c : Bytes) (pos n : Nat) (h : pos ≤ c.length) :
    putAt (c.take pos) pos ((c.drop pos).take n) = c.take (pos + ((c.drop pos).take n).length) := by
  unfold putAt
  have h1 : (c.take pos).length = pos := by rw [List.length_take]; omega
  rw [List.take_of_length_le (l := c.take pos) (by omega), h1, Nat.sub_self, List.replicate_zero, List.append_nil,
    List.drop_of_length_le (l := c.take pos) (by omega), List.append_nil, List.take_add]
  congr 1
  rw [List.length_take, List.take_eq_take_iff]
  simp

theorem halfway_step {q : IssueCall} {c : Bytes} {f : Option Bytes} {job : IssueJob} (h : Halfway c f job) (db : AAuthDb) (n : Nat) :
    Halfway c (aloneStep U B collate a q (f, job) (.go db n)).1 (aloneStep U B collate a q (f, job) (.go db n)).2 ∧
      stepsLeft c (aloneStep U B collate a q (f, job) (.go db n)).2 ≤ stepsLeft c job - 1 := by
  cases job with
  | fresh => exact h.elim
  | known who => exact h.elim
  | made c' =>
    cases h
    refine ⟨⟨rfl, Nat.zero_le _, rfl⟩, ?_⟩
    show c.length - 0 + c.length + 3 ≤ 2 * c.length + 4 - 1
    omega
  | writing c' pos =>
    obtain ⟨rfl, hp, rfl⟩ := h
    unfold aloneStep IssueCall.step
    dsimp only
    by_cases hl : pos < c'.length
    · rw [if_pos hl]
      have h1 : 0 < ((c'.drop pos).take (n + 1)).length := by rw [List.length_take, List.length_drop]; omega
      have h2 : ((c'.drop pos).take (n + 1)).length ≤ c'.length - pos := by rw [List.length_take, List.length_drop]; omega
      refine ⟨⟨rfl, by omega, ?_⟩, ?_⟩
      · exact congrArg some (putAt_end c' pos (n + 1) hp)
      · show c'.length - (pos + ((c'.drop pos).take (n + 1)).length) + c'.length + 3 ≤ c'.length - pos + c'.length + 3 - 1
        omega
    · rw [if_neg hl]
      refine ⟨?_, ?_⟩
      · show some (c'.take pos) = some c'
        rw [List.take_of_length_le (by omega)]
      · show c'.length + 2 ≤ c'.length - pos + c'.length + 3 - 1
        omega
  | stored =>
    cases h
    refine ⟨⟨rfl, List.nil_prefix⟩, ?_⟩
    show c.length - 0 + 1 ≤ c.length + 2 - 1
    omega
  | reading got =>
    obtain ⟨rfl, t, rfl⟩ := h
    unfold aloneStep IssueCall.step
    dsimp only
    rw [show (((some (got ++ t) : Option Bytes)).getD []).drop got.length = t by simp]
    by_cases ht : t.take (n + 1) = []
    · rw [if_pos ht]
      have : t = [] := by cases t with | nil => rfl | cons x t => cases ht
      subst this
      rw [List.append_nil]
      exact ⟨⟨rfl, rfl⟩, Nat.zero_le _⟩
    · rw [if_neg ht]
      refine ⟨⟨rfl, ⟨t.drop (n + 1), by rw [List.append_assoc, List.take_append_drop]⟩⟩, ?_⟩
      have h1 : 0 < (t.take (n + 1)).length := List.length_pos_iff.mpr ht
      show (got ++ t).length - (got ++ t.take (n + 1)).length + 1 ≤ (got ++ t).length - got.length + 1 - 1
      rw [List.length_append, List.length_append]
      have h2 : (t.take (n + 1)).length ≤ t.length := by rw [List.length_take]; omega
      omega
  | done r => exact ⟨h, Nat.zero_le _⟩

theorem aloneStep_done (q : IssueCall) (f : Option Bytes) (r : IssueEnd) (t : IssueTurn) :
    aloneStep U B collate a q (f, .done r) t = (f, .done r) := by
  cases t <;> rfl

theorem aloneStep_fail (q : IssueCall) (f : Option Bytes) (job : IssueJob) :
    ∃ r, aloneStep U B collate a q (f, job) .fail = (f, .done r) ∧ (job = .done r ∨ r = .fault) := by
  cases job with
  | done r => exact ⟨r, rfl, .inl rfl⟩
  | _ => exact ⟨.fault, rfl, .inr rfl⟩

/-- What is known of a call that is alone after some steps. -/
def AloneSpec (U : Uni) (B : Bcrypt) (collate : Str → Str) (a : Authority X) (q : IssueCall) (file : Option Bytes)
    (ts : List IssueTurn) (x : Option Bytes × IssueJob) : Prop :=
  (x.2 = .fresh ∧ x.1 = file ∧ ts = []) ∨
  (∃ db n who, x.2 = .known who ∧ x.1 = file ∧ ts = [.go db n] ∧ a.login U B collate db q = .ok who) ∨
  (∃ db₁ n₁ db₂ n₂ rest c, ts = .go db₁ n₁ :: .go db₂ n₂ :: rest ∧ issueSeen U B collate a q db₁ db₂ = .ok c ∧
    Halfway c x.1 x.2 ∧ (rest = [] → x.1 = file)) ∨
  (∃ e db₁ n₁ rest, x.2 = .done (.raised e) ∧ x.1 = file ∧ ts = .go db₁ n₁ :: rest ∧
    (a.login U B collate db₁ q = .error e ∨
      ∃ db₂ n₂ rest', rest = .go db₂ n₂ :: rest' ∧ (∃ who, a.login U B collate db₁ q = .ok who) ∧
        issueSeen U B collate a q db₁ db₂ = .error e)) ∨
  (x.2 = .done .fault ∧ .fail ∈ ts)

theorem alone_append (q : IssueCall) (file : Option Bytes) (ts : List IssueTurn) (t : IssueTurn) :
    alone U B collate a q file (ts ++ [t]) = aloneStep U B collate a q (alone U B collate a q file ts) t := by
  unfold alone
  rw [List.foldl_append]
  rfl

theorem alone_spec (q : IssueCall) (file : Option Bytes) (ts : List IssueTurn) :
    AloneSpec U B collate a q file ts (alone U B collate a q file ts) := by
  induction ts using List.reverseRecOn with
  | nil => exact .inl ⟨rfl, rfl, rfl⟩
  | append_singleton ts t ih =>
    rw [alone_append]
    generalize alone U B collate a q file ts = x at ih
    obtain ⟨f, job⟩ := x
    rcases ih with ⟨h1, h2, h3⟩ | ⟨db, n, who, h1, h2, h3, h4⟩ | ⟨db₁, n₁, db₂, n₂, rest, c, h1, h2, h3, h4⟩ |
      ⟨e, db₁, n₁, rest, h1, h2, h3, h4⟩ | ⟨h1, h2⟩
    · dsimp only at h1 h2
      subst h1 h2 h3
      cases t with
      | fail => exact .inr (.inr (.inr (.inr ⟨rfl, List.mem_cons_self⟩)))
      | go db n =>
        cases hl : a.login U B collate db q with
        | error e =>
          have : aloneStep U B collate a q (f, .fresh) (.go db n) = (f, .done (.raised e)) := by
            unfold aloneStep IssueCall.step; dsimp only; rw [hl]; rfl
          rw [this]
          exact .inr (.inr (.inr (.inl ⟨e, db, n, [], rfl, rfl, rfl, .inl hl⟩)))
        | ok who =>
          have : aloneStep U B collate a q (f, .fresh) (.go db n) = (f, .known who) := by
            unfold aloneStep IssueCall.step; dsimp only; rw [hl]; rfl
          rw [this]
          exact .inr (.inl ⟨db, n, who, rfl, rfl, rfl, hl⟩)
    · dsimp only at h1 h2
      subst h1 h2 h3
      cases t with
      | fail => exact .inr (.inr (.inr (.inr ⟨rfl, List.mem_append_right _ List.mem_cons_self⟩)))
      | go db' n' =>
        have hi : issueSeen U B collate a q db db' = a.certify U collate db' q who := by
          unfold issueSeen; rw [h4]; rfl
        cases hc : a.certify U collate db' q who with
        | error e =>
          have : aloneStep U B collate a q (f, .known who) (.go db' n') = (f, .done (.raised e)) := by
            unfold aloneStep IssueCall.step; dsimp only; rw [hc]; rfl
          rw [this]
          exact .inr (.inr (.inr (.inl ⟨e, db, n, [.go db' n'], rfl, rfl, rfl,
            .inr ⟨db', n', [], rfl, ⟨who, h4⟩, hi.trans hc⟩⟩)))
        | ok c =>
          have : aloneStep U B collate a q (f, .known who) (.go db' n') = (f, .made c) := by
            unfold aloneStep IssueCall.step; dsimp only; rw [hc]; rfl
          rw [this]
          exact .inr (.inr (.inl ⟨db, n, db', n', [], c, rfl, hi.trans hc, rfl, fun _ => rfl⟩))
    · subst h1
      cases t with
      | fail =>
        obtain ⟨r, hr, hor⟩ := aloneStep_fail (U := U) (B := B) (collate := collate) (a := a) q f job
        rw [hr]
        rcases hor with rfl | rfl
        · refine .inr (.inr (.inl ⟨db₁, n₁, db₂, n₂, rest ++ [.fail], c, rfl, h2, h3, fun h => ?_⟩))
          exact absurd h (by simp)
        · exact .inr (.inr (.inr (.inr ⟨rfl, List.mem_append_right _ List.mem_cons_self⟩)))
      | go db n =>
        refine .inr (.inr (.inl ⟨db₁, n₁, db₂, n₂, rest ++ [.go db n], c, rfl, h2, (halfway_step h3 db n).1, fun h => ?_⟩))
        exact absurd h (by simp)
    · dsimp only at h1 h2
      subst h1 h2 h3
      rw [aloneStep_done]
      refine .inr (.inr (.inr (.inl ⟨e, db₁, n₁, rest ++ [t], rfl, rfl, rfl, ?_⟩)))
      rcases h4 with h4 | ⟨db₂, n₂, rest', rfl, hw, h4⟩
      · exact .inl h4
      · exact .inr ⟨db₂, n₂, rest' ++ [t], rfl, hw, h4⟩
    · dsimp only at h1
      subst h1
      rw [aloneStep_done]
      exact .inr (.inr (.inr (.inr ⟨rfl, List.mem_append_left _ h2⟩)))

/-- **C131**: the response of a call is its own certificate: the one for the user whose password was right in the state its
first query saw, with the attributes its second query saw; and that is what the file contains then. -/
theorem answer_own (files : Files) (qs : List IssueCall) {j : Nat} {q : IssueCall} (hj : qs[j]? = some q)
    (hs : ∀ i q', qs[i]? = some q' → i ≠ j → q'.env.random ≠ q.env.random) (schedule : List (Nat × IssueTurn)) {r : ACResponse}
    (hr : ((IssuePool.make files qs).run U B collate dir a schedule).jobs[j]? = some (q, .done (.answer r))) :
    ∃ db₁ n₁ db₂ n₂ rest, turnsOf j schedule = .go db₁ n₁ :: .go db₂ n₂ :: rest ∧
      issueSeen U B collate a q db₁ db₂ = .ok r.data ∧ r.version = 1 ∧ r.format = 0 ∧
      ((IssuePool.make files qs).run U B collate dir a schedule).files (acFileName dir q.env.random) = some r.data := by
  obtain ⟨h1, h2⟩ := calls_apart (U := U) (B := B) (collate := collate) (dir := dir) (a := a) files qs hj hs schedule
  rw [h1] at hr
  rw [h2]
  have hsp := alone_spec (U := U) (B := B) (collate := collate) (a := a) q (files (acFileName dir q.env.random))
    (turnsOf j schedule)
  generalize alone U B collate a q (files (acFileName dir q.env.random)) (turnsOf j schedule) = x at hr hsp
  obtain ⟨f, job⟩ := x
  injection hr with hr
  injection hr with _ hr
  dsimp only at hr
  subst hr
  rcases hsp with ⟨h, _⟩ | ⟨_, _, _, h, _⟩ | ⟨db₁, n₁, db₂, n₂, rest, c, h1, h2, ⟨h3, h4⟩, _⟩ | ⟨_, _, _, _, h, _⟩ | ⟨h, _⟩
  · cases h
  · cases h
  · cases h4
    exact ⟨db₁, n₁, db₂, n₂, rest, h1, h2, rfl, rfl, h3⟩
  · cases h
  · cases h

/-- **C131**: if the database does not change meanwhile, that is the response `attribute_request` gives alone. -/
theorem answer_alone (files : Files) (qs : List IssueCall) {j : Nat} {q : IssueCall} (hj : qs[j]? = some q)
    (hs : ∀ i q', qs[i]? = some q' → i ≠ j → q'.env.random ≠ q.env.random) (schedule : List (Nat × IssueTurn)) (db : AAuthDb)
    (hdb : ∀ s ∈ schedule, ∀ db' n, s.2 = .go db' n → db' = db) {r : ACResponse}
    (hr : ((IssuePool.make files qs).run U B collate dir a schedule).jobs[j]? = some (q, .done (.answer r))) (files' : Files) :
    (a.attributeRequest U B collate dir db files' q.env q.cred q.key q.req q.exports).2 = .ok r := by
  obtain ⟨db₁, n₁, db₂, n₂, rest, h1, h2, h3, h4, _⟩ := answer_own files qs hj hs schedule hr
  have hm : ∀ db' n, IssueTurn.go db' n ∈ turnsOf j schedule → db' = db := by
    intro db' n h
    obtain ⟨s, hm, he⟩ := List.mem_filterMap.mp h
    by_cases hi : s.1 = j
    · rw [if_pos hi] at he
      exact hdb s hm db' n (Option.some.inj he)
    · rw [if_neg hi] at he
      cases he
  rw [hm db₁ n₁ (by rw [h1]; exact List.mem_cons_self),
    hm db₂ n₂ (by rw [h1]; exact List.mem_cons_of_mem _ List.mem_cons_self), issueSeen_same] at h2
  unfold Authority.attributeRequest
  rw [h2]
  obtain ⟨v, f, d⟩ := r
  dsimp only at h3 h4 ⊢
  subst h3 h4
  simp
  rfl

/-- **C131**: a call that raises does so for reasons of its own, and leaves the file under the name it drew alone. -/
theorem raised_own (files : Files) (qs : List IssueCall) {j : Nat} {q : IssueCall} (hj : qs[j]? = some q)
    (hs : ∀ i q', qs[i]? = some q' → i ≠ j → q'.env.random ≠ q.env.random) (schedule : List (Nat × IssueTurn)) {e : PyExc}
    (hr : ((IssuePool.make files qs).run U B collate dir a schedule).jobs[j]? = some (q, .done (.raised e))) :
    (∃ db₁ n₁ rest, turnsOf j schedule = .go db₁ n₁ :: rest ∧
      (a.login U B collate db₁ q = .error e ∨
        ∃ db₂ n₂ rest', rest = .go db₂ n₂ :: rest' ∧ (∃ who, a.login U B collate db₁ q = .ok who) ∧
          issueSeen U B collate a q db₁ db₂ = .error e)) ∧
      ((IssuePool.make files qs).run U B collate dir a schedule).files (acFileName dir q.env.random) =
        files (acFileName dir q.env.random) := by
  obtain ⟨h1, h2⟩ := calls_apart (U := U) (B := B) (collate := collate) (dir := dir) (a := a) files qs hj hs schedule
  rw [h1] at hr
  rw [h2]
  have hsp := alone_spec (U := U) (B := B) (collate := collate) (a := a) q (files (acFileName dir q.env.random))
    (turnsOf j schedule)
  generalize alone U B collate a q (files (acFileName dir q.env.random)) (turnsOf j schedule) = x at hr hsp
  obtain ⟨f, job⟩ := x
  injection hr with hr
  injection hr with _ hr
  dsimp only at hr
  subst hr
  rcases hsp with ⟨h, _⟩ | ⟨_, _, _, h, _⟩ | ⟨_, _, _, _, _, _, _, _, ⟨_, h⟩, _⟩ | ⟨e', db₁, n₁, rest, h1, h2, h3, h4⟩ | ⟨h, _⟩
  · cases h
  · cases h
  · cases h
  · cases h1
    exact ⟨⟨db₁, n₁, rest, h3, h4⟩, h2⟩
  · cases h

/-- **C131**: a call is only given up if a step of its own failed. -/
theorem fault_own (files : Files) (qs : List IssueCall) {j : Nat} {q : IssueCall} (hj : qs[j]? = some q)
    (hs : ∀ i q', qs[i]? = some q' → i ≠ j → q'.env.random ≠ q.env.random) (schedule : List (Nat × IssueTurn))
    (hr : ((IssuePool.make files qs).run U B collate dir a schedule).jobs[j]? = some (q, .done .fault)) :
    (j, IssueTurn.fail) ∈ schedule := by
  obtain ⟨h1, _⟩ := calls_apart (U := U) (B := B) (collate := collate) (dir := dir) (a := a) files qs hj hs schedule
  rw [h1] at hr
  have hsp := alone_spec (U := U) (B := B) (collate := collate) (a := a) q (files (acFileName dir q.env.random))
    (turnsOf j schedule)
  generalize alone U B collate a q (files (acFileName dir q.env.random)) (turnsOf j schedule) = x at hr hsp
  obtain ⟨f, job⟩ := x
  injection hr with hr
  injection hr with _ hr
  dsimp only at hr
  subst hr
  rcases hsp with ⟨h, _⟩ | ⟨_, _, _, h, _⟩ | ⟨_, _, _, _, _, _, _, _, ⟨_, h⟩, _⟩ | ⟨_, _, _, _, h, _⟩ | ⟨_, h⟩
  · cases h
  · cases h
  · cases h
  · cases h
  · unfold turnsOf at h
    obtain ⟨s, hm, he⟩ := List.mem_filterMap.mp h
    obtain ⟨i, t⟩ := s
    by_cases hi : i = j
    · rw [if_pos hi] at he
      cases he
      exact hi ▸ hm
    · rw [if_neg hi] at he
      cases he

theorem halfway_ends {q : IssueCall} {c : Bytes} (ts : List IssueTurn) (hgo : .fail ∉ ts) :
    ∀ {f : Option Bytes} {job : IssueJob}, Halfway c f job → stepsLeft c job ≤ ts.length →
      ts.foldl (aloneStep U B collate a q) (f, job) = (some c, .done (.answer ⟨1, 0, c⟩)) := by
  induction ts with
  | nil =>
    intro f job h hl
    cases job with
    | done r => obtain ⟨rfl, rfl⟩ := h; rfl
    | fresh => exact h.elim
    | known who => exact h.elim
    | _ => unfold stepsLeft at hl; simp at hl
  | cons t ts ih =>
    intro f job h hl
    cases t with
    | fail => exact absurd List.mem_cons_self hgo
    | go db n =>
      obtain ⟨h1, h2⟩ := halfway_step (U := U) (B := B) (collate := collate) (a := a) (q := q) h db n
      rw [List.foldl_cons]
      rw [List.length_cons] at hl
      exact ih (fun hm => hgo (List.mem_cons_of_mem _ hm)) h1 (Nat.le_trans h2 (by omega))

/-- **C131**: a call whose steps do not fail ends, after at most six steps and two for each byte of its certificate. -/
theorem issue_ends (files : Files) (qs : List IssueCall) {j : Nat} {q : IssueCall} (hj : qs[j]? = some q)
    (hs : ∀ i q', qs[i]? = some q' → i ≠ j → q'.env.random ≠ q.env.random) (schedule : List (Nat × IssueTurn))
    {db₁ db₂ : AAuthDb} {n₁ n₂ : Nat} {rest : List IssueTurn} {c : Bytes}
    (ht : turnsOf j schedule = .go db₁ n₁ :: .go db₂ n₂ :: rest) (hf : .fail ∉ rest)
    (hc : issueSeen U B collate a q db₁ db₂ = .ok c) (hlen : 2 * c.length + 4 ≤ rest.length) :
    ((IssuePool.make files qs).run U B collate dir a schedule).jobs[j]? = some (q, .done (.answer ⟨1, 0, c⟩)) := by
  rw [(calls_apart (U := U) (B := B) (collate := collate) (dir := dir) (a := a) files qs hj hs schedule).1, ht]
  unfold issueSeen at hc
  cases hl : a.login U B collate db₁ q with
  | error e => rw [hl] at hc; cases hc
  | ok who =>
    rw [hl] at hc
    have h1 : ∀ f, aloneStep U B collate a q (f, .fresh) (.go db₁ n₁) = (f, .known who) := by
      intro f; unfold aloneStep IssueCall.step; dsimp only; rw [hl]; rfl
    have h2 : ∀ f, aloneStep U B collate a q (f, .known who) (.go db₂ n₂) = (f, .made c) := by
      intro f
      have : a.certify U collate db₂ q who = .ok c := hc
      unfold aloneStep IssueCall.step; dsimp only; rw [this]; rfl
    unfold alone
    rw [List.foldl_cons, List.foldl_cons, h1, h2, halfway_ends rest hf (job := .made c) rfl hlen]

/-! ### The same serial number twice -/

/-- The steps of a call up to the file. -/
def toFile (j : Nat) (db : AAuthDb) : List (Nat × IssueTurn) := [(j, .go db 0), (j, .go db 0), (j, .go db 0)]

/-- Everything is written at once, and the file closed. -/
def fill (j : Nat) (db : AAuthDb) (c : Bytes) : List (Nat × IssueTurn) := [(j, .go db c.length), (j, .go db 0)]

/-- Everything is read at once. -/
def readBack (j : Nat) (db : AAuthDb) (c : Bytes) : List (Nat × IssueTurn) :=
  [(j, .go db 0), (j, .go db c.length), (j, .go db 0)]

section Twice

variable {q₁ q₂ : IssueCall} {db : AAuthDb} {c₁ c₂ : Bytes}

theorem run_append (p : IssuePool) (s t : List (Nat × IssueTurn)) :
    p.run U B collate dir a (s ++ t) = (p.run U B collate dir a s).run U B collate dir a t := by
  unfold IssuePool.run
  rw [List.foldl_append]

/-- Two calls, how far they are, and the file of the first. -/
def Two (dir : Str) (q₁ q₂ : IssueCall) (p : IssuePool) (f : Option Bytes) (x y : IssueJob) : Prop :=
  p.jobs = [(q₁, x), (q₂, y)] ∧ p.files (acFileName dir q₁.env.random) = f

theorem two_left {p : IssuePool} {f : Option Bytes} {x y : IssueJob} (h : Two dir q₁ q₂ p f x y) (t : IssueTurn) :
    Two dir q₁ q₂ (p.step U B collate dir a 0 t) (aloneStep U B collate a q₁ (f, x) t).1
      (aloneStep U B collate a q₁ (f, x) t).2 y := by
  obtain ⟨h1, rfl⟩ := h
  unfold IssuePool.step aloneStep
  rw [h1]
  dsimp only [List.getElem?_cons_zero]
  cases q₁.step U B collate a (p.files (acFileName dir q₁.env.random)) t x with
  | mk o job => cases o <;> exact ⟨rfl, by simp⟩

theorem two_right (he : q₁.env.random = q₂.env.random) {p : IssuePool} {f : Option Bytes} {x y : IssueJob}
    (h : Two dir q₁ q₂ p f x y) (t : IssueTurn) :
    Two dir q₁ q₂ (p.step U B collate dir a 1 t) (aloneStep U B collate a q₂ (f, y) t).1 x
      (aloneStep U B collate a q₂ (f, y) t).2 := by
  obtain ⟨h1, rfl⟩ := h
  unfold IssuePool.step aloneStep
  rw [h1, he]
  dsimp only [List.getElem?_cons_zero, List.getElem?_cons_succ]
  cases q₂.step U B collate a (p.files (acFileName dir q₂.env.random)) t y with
  | mk o job => cases o <;> exact ⟨rfl, by simp [he]⟩

theorem alone_toFile {q : IssueCall} {c : Bytes} (h : issueSeen U B collate a q db db = .ok c) (f : Option Bytes) :
    [IssueTurn.go db 0, .go db 0, .go db 0].foldl (aloneStep U B collate a q) (f, .fresh) = (some [], .writing c 0) := by
  unfold issueSeen at h
  cases hl : a.login U B collate db q with
  | error e => rw [hl] at h; cases h
  | ok who =>
    rw [hl] at h
    have h1 : aloneStep U B collate a q (f, .fresh) (.go db 0) = (f, .known who) := by
      unfold aloneStep IssueCall.step; dsimp only; rw [hl]; rfl
    have h2 : aloneStep U B collate a q (f, .known who) (.go db 0) = (f, .made c) := by
      have : a.certify U collate db q who = .ok c := h
      unfold aloneStep IssueCall.step; dsimp only; rw [this]; rfl
    rw [List.foldl_cons, List.foldl_cons, h1, h2]
    rfl

theorem alone_fill {q : IssueCall} {c : Bytes} (hc : c ≠ []) (f : Bytes) :
    [IssueTurn.go db c.length, .go db 0].foldl (aloneStep U B collate a q) (some f, .writing c 0) =
      (some (c ++ f.drop c.length), .stored) := by
  have h1 : aloneStep U B collate a q (some f, .writing c 0) (.go db c.length) =
      (some (c ++ f.drop c.length), .writing c c.length) := by
    unfold aloneStep IssueCall.step
    dsimp only
    rw [if_pos (List.length_pos_iff.mpr hc), List.drop_zero, List.take_of_length_le (Nat.le_succ _)]
    unfold putAt
    simp
  rw [List.foldl_cons, h1]
  unfold List.foldl aloneStep IssueCall.step
  dsimp only
  rw [if_neg (Nat.lt_irrefl _)]
  rfl

theorem alone_readBack {q : IssueCall} {f : Bytes} (hf : f ≠ []) :
    [IssueTurn.go db 0, .go db f.length, .go db 0].foldl (aloneStep U B collate a q) (some f, .stored) =
      (some f, .done (.answer ⟨1, 0, f⟩)) := by
  have h1 : aloneStep U B collate a q (some f, .reading []) (.go db f.length) = (some f, .reading f) := by
    unfold aloneStep IssueCall.step
    dsimp only
    rw [Option.getD_some, List.length_nil, List.drop_zero, List.take_of_length_le (Nat.le_succ _), if_neg hf]
    rfl
  rw [List.foldl_cons, List.foldl_cons]
  rw [show aloneStep U B collate a q (some f, .stored) (.go db 0) = (some f, .reading []) from rfl, h1]
  unfold List.foldl aloneStep IssueCall.step
  dsimp only
  rw [Option.getD_some, List.drop_length, List.take_nil, if_pos rfl]
  rfl

theorem two_lefts {y : IssueJob} (ts : List IssueTurn) : ∀ {p : IssuePool} {f : Option Bytes} {x : IssueJob},
    Two dir q₁ q₂ p f x y → Two dir q₁ q₂ (p.run U B collate dir a (ts.map (fun t => (0, t))))
      (ts.foldl (aloneStep U B collate a q₁) (f, x)).1 (ts.foldl (aloneStep U B collate a q₁) (f, x)).2 y := by
  induction ts with
  | nil => exact fun h => h
  | cons t ts ih => exact fun h => ih (two_left h t)

theorem two_rights (he : q₁.env.random = q₂.env.random) {x : IssueJob} (ts : List IssueTurn) :
    ∀ {p : IssuePool} {f : Option Bytes} {y : IssueJob}, Two dir q₁ q₂ p f x y →
      Two dir q₁ q₂ (p.run U B collate dir a (ts.map (fun t => (1, t))))
        (ts.foldl (aloneStep U B collate a q₂) (f, y)).1 x (ts.foldl (aloneStep U B collate a q₂) (f, y)).2 := by
  induction ts with
  | nil => exact fun h => h
  | cons t ts ih => exact fun h => ih (two_right he h t)

/-- **C132**: if two calls draw the same serial number, whoever they are for, one can be answered with the certificate of the
other. -/
theorem serial_swapped (files : Files) (he : q₁.env.random = q₂.env.random)
    (h₁ : issueSeen U B collate a q₁ db db = .ok c₁) (h₂ : issueSeen U B collate a q₂ db db = .ok c₂)
    (n₁ : c₁ ≠ []) (n₂ : c₂ ≠ []) :
    ∃ schedule, ((IssuePool.make files [q₁, q₂]).run U B collate dir a schedule).jobs =
        [(q₁, .done (.answer ⟨1, 0, c₂⟩)), (q₂, .done (.answer ⟨1, 0, c₂⟩))] ∧
      ∀ s ∈ schedule, ∃ n, s.2 = IssueTurn.go db n := by
  refine ⟨toFile 0 db ++ fill 0 db c₁ ++ toFile 1 db ++ fill 1 db c₂ ++ readBack 0 db c₂ ++ readBack 1 db c₂, ?_, ?_⟩
  · have s0 : Two dir q₁ q₂ (IssuePool.make files [q₁, q₂]) (files (acFileName dir q₁.env.random)) .fresh .fresh := ⟨rfl, rfl⟩
    have s1 := two_lefts (U := U) (B := B) (collate := collate) (a := a) [.go db 0, .go db 0, .go db 0] s0
    rw [alone_toFile h₁] at s1
    have s2 := two_lefts (U := U) (B := B) (collate := collate) (a := a) [.go db c₁.length, .go db 0] s1
    rw [alone_fill n₁] at s2
    have s3 := two_rights (U := U) (B := B) (collate := collate) (a := a) he [.go db 0, .go db 0, .go db 0] s2
    rw [alone_toFile h₂] at s3
    have s4 := two_rights (U := U) (B := B) (collate := collate) (a := a) he [.go db c₂.length, .go db 0] s3
    rw [alone_fill n₂, List.drop_nil, List.append_nil] at s4
    have s5 := two_lefts (U := U) (B := B) (collate := collate) (a := a) [.go db 0, .go db c₂.length, .go db 0] s4
    rw [alone_readBack n₂] at s5
    have s6 := two_rights (U := U) (B := B) (collate := collate) (a := a) he [.go db 0, .go db c₂.length, .go db 0] s5
    rw [alone_readBack n₂] at s6
    rw [run_append, run_append, run_append, run_append, run_append]
    exact s6.1
  · intro s hs
    simp only [toFile, fill, readBack, List.mem_append, List.mem_cons, List.not_mem_nil, or_false] at hs
    rcases hs with ((((h | h) | h) | h) | h) | h
    all_goals rcases h with rfl | rfl | rfl <;> exact ⟨_, rfl⟩

/-- **C132**: or both are answered with bytes that are neither certificate. -/
theorem serial_mixed (files : Files) (he : q₁.env.random = q₂.env.random)
    (h₁ : issueSeen U B collate a q₁ db db = .ok c₁) (h₂ : issueSeen U B collate a q₂ db db = .ok c₂)
    (n₁ : c₁ ≠ []) (n₂ : c₂ ≠ []) :
    ∃ schedule, ((IssuePool.make files [q₁, q₂]).run U B collate dir a schedule).jobs =
        [(q₁, .done (.answer ⟨1, 0, c₂ ++ c₁.drop c₂.length⟩)), (q₂, .done (.answer ⟨1, 0, c₂ ++ c₁.drop c₂.length⟩))] ∧
      ∀ s ∈ schedule, ∃ n, s.2 = IssueTurn.go db n := by
  have n₃ : c₂ ++ c₁.drop c₂.length ≠ [] := fun h => n₂ (List.append_eq_nil_iff.mp h).1
  refine ⟨toFile 0 db ++ toFile 1 db ++ fill 0 db c₁ ++ fill 1 db c₂ ++ readBack 0 db (c₂ ++ c₁.drop c₂.length) ++
    readBack 1 db (c₂ ++ c₁.drop c₂.length), ?_, ?_⟩
  · have s0 : Two dir q₁ q₂ (IssuePool.make files [q₁, q₂]) (files (acFileName dir q₁.env.random)) .fresh .fresh := ⟨rfl, rfl⟩
    have s1 := two_lefts (U := U) (B := B) (collate := collate) (a := a) [.go db 0, .go db 0, .go db 0] s0
    rw [alone_toFile h₁] at s1
    have s2 := two_rights (U := U) (B := B) (collate := collate) (a := a) he [.go db 0, .go db 0, .go db 0] s1
    rw [alone_toFile h₂] at s2
    have s3 := two_lefts (U := U) (B := B) (collate := collate) (a := a) [.go db c₁.length, .go db 0] s2
    rw [alone_fill n₁, List.drop_nil, List.append_nil] at s3
    have s4 := two_rights (U := U) (B := B) (collate := collate) (a := a) he [.go db c₂.length, .go db 0] s3
    rw [alone_fill n₂] at s4
    have s5 := two_lefts (U := U) (B := B) (collate := collate) (a := a)
      [.go db 0, .go db (c₂ ++ c₁.drop c₂.length).length, .go db 0] s4
    rw [alone_readBack n₃] at s5
    have s6 := two_rights (U := U) (B := B) (collate := collate) (a := a) he
      [.go db 0, .go db (c₂ ++ c₁.drop c₂.length).length, .go db 0] s5
    rw [alone_readBack n₃] at s6
    rw [run_append, run_append, run_append, run_append, run_append]
    exact s6.1
  · intro s hs
    simp only [toFile, fill, readBack, List.mem_append, List.mem_cons, List.not_mem_nil, or_false] at hs
    rcases hs with ((((h | h) | h) | h) | h) | h
    all_goals rcases h with rfl | rfl | rfl <;> exact ⟨_, rfl⟩

end Twice

/-! ### Examples -/

/-- Two users ask at the same time. -/
def sampleCall (random : Nat) (name : String) (password : Option Str) : IssueCall :=
  ⟨{ sampleRequestEnv with random := random }, sampleCred name password, sampleKey, ⟨some [], some []⟩, sampleExports "10.0.0.1"⟩

/-- The certificate of a sample call, the database not changing. -/
def sampleSeen (q : IssueCall) : Except PyExc Bytes := issueSeen asciiUni plainBcrypt id sampleAuthority q sampleDb sampleDb

/-- There is a certificate, it is not empty, and it is not the other one. -/
def apart (r s : Except PyExc Bytes) : Bool :=
  match r, s with
  | .ok b, .ok c => b ≠ [] && c ≠ [] && b ≠ c && c ++ b.drop c.length ≠ b && c ++ b.drop c.length ≠ c
  | _, _ => false

/-- Ann has two attributes and Bob one, so with the same serial number Ann can get Bob's certificate or something else. -/
example : ∃ b c, sampleSeen (sampleCall 77 "ann" (some "x".toList)) = .ok b ∧ sampleSeen (sampleCall 77 "bob" none) = .ok c ∧
    b ≠ [] ∧ c ≠ [] ∧ b ≠ c ∧ c ++ b.drop c.length ≠ b ∧ c ++ b.drop c.length ≠ c := by
  have h : apart (sampleSeen (sampleCall 77 "ann" (some "x".toList))) (sampleSeen (sampleCall 77 "bob" none)) = true := by
    decide +kernel
  revert h
  unfold apart
  split
  · rename_i b c h1 h2
    intro h
    simp only [Bool.and_eq_true, decide_eq_true_eq] at h
    exact ⟨b, c, h1, h2, h.1.1.1.1, h.1.1.1.2, h.1.1.2, h.1.2, h.2⟩
  · intro h; cases h

/-- Calls with serial numbers of their own. -/
example : ∀ i q', [sampleCall 77 "ann" (some "x".toList), sampleCall 78 "bob" none][i]? = some q' → i ≠ 0 →
    q'.env.random ≠ (sampleCall 77 "ann" (some "x".toList)).env.random := by
  intro i q' h hi
  match i, h with
  | 0, _ => exact absurd rfl hi
  | 1, h => cases h; decide
  | n + 2, h => cases h

/-- Ann asks among others: the password is changed while the request is served, then no step of the file system fails. -/
example : ∃ c, issueSeen asciiUni plainBcrypt id sampleAuthority (sampleCall 77 "ann" (some "x".toList)) sampleDb
    { sampleDb with users := [] } = .ok c := issued_iff.mp (by decide +kernel)

/-- A wrong password is a reason of one's own. -/
example : (sampleAuthority.login asciiUni plainBcrypt id sampleDb (sampleCall 78 "ann" none)) =
    .error (.clientFault "Invalid credentials.".toList) := by decide +kernel

end Verif.Props
