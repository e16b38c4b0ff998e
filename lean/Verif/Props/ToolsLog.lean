import Verif.Props.AAuthLogFiles
import Verif.Props.Commands
import Verif.Spec.ToolsLog

/-!
# What the tools print and record (C149)
-/

namespace Verif.Props

open Verif.Spec Proofs ToolM

section run

variable {R α β : Type}

theorem tool_pure (a : α) (st : Stores R) : (pure a : ToolM R α) st = ([], st, .ok a) := rfl

theorem tool_bind (x : ToolM R α) (f : α → ToolM R β) (st : Stores R) : (x >>= f) st =
    match (x st).2.2 with
    | .error e => ((x st).1, (x st).2.1, .error e)
    | .ok a => ((x st).1 ++ (f a (x st).2.1).1, (f a (x st).2.1).2) := rfl

theorem tool_bind_ok {x : ToolM R α} {f : α → ToolM R β} {st st' : Stores R} {o : List ToolOut} {a : α} (h : x st = (o, st', .ok a)) :
    (x >>= f) st = (o ++ (f a st').1, (f a st').2) := by
  rw [tool_bind, h]

theorem tool_bind_error {x : ToolM R α} {f : α → ToolM R β} {st st' : Stores R} {o : List ToolOut} {e : PyExc}
    (h : x st = (o, st', .error e)) : (x >>= f) st = (o, st', .error e) := by
  rw [tool_bind, h]

theorem tool_say (n : Nat) (m : Str) (f : Unit → ToolM R β) (st : Stores R) :
    (say n m >>= f) st = (.record n m :: (f () st).1, (f () st).2) := rfl

theorem tool_put (o : ToolOut) (f : Unit → ToolM R β) (st : Stores R) : (put o >>= f) st = (o :: (f () st).1, (f () st).2) := rfl

theorem tool_lift (a : α) (f : α → ToolM R β) (st : Stores R) : (lift (.ok a) >>= f) st = f a st := rfl

theorem tool_lift_error (e : PyExc) (f : α → ToolM R β) (st : Stores R) : (lift (.error e) >>= f) st = ([], st, .error e) := rfl

theorem tool_act (g : Stores R → Stores R × Except PyExc α) (f : α → ToolM R β) (st : Stores R) : (act g >>= f) st =
    match (g st).2 with
    | .error e => ([], (g st).1, .error e)
    | .ok a => ((f a (g st).1).1, (f a (g st).1).2) := rfl

theorem tool_act_say (g : Stores R → Stores R × Except PyExc Unit) (m : Str) (st : Stores R) :
    (act g >>= fun _ => say 20 m) st = (asRecords (if (g st).2.isOk then [(20, m)] else []), g st) := by
  rw [tool_act]
  generalize g st = r
  rcases r with ⟨s, _ | _⟩ <;> rfl

end run

variable {U : Uni} {c : Config} {create : Str → Except PyExc Unit} {R : Type} {T : Tables R}

/-- `get_engine` with what it puts out. -/
theorem engineTool_run (hU : U.Lawful) (hs : c.service.sections.get defaultSect = none) (st : Stores R) (name : Str) :
    ∃ x, EngineTrail U c st.engines name x ∧ engineTool U c create name st =
      (asRecords x, { st with engines := (getEngine U c create st.engines name).1 }, (getEngine U c create st.engines name).2) := by
  obtain ⟨x, hx, hrun⟩ := engine_records hU c create st.engines name hs
  refine ⟨x, hx, ?_⟩
  unfold engineTool
  rw [hrun, engineEnd, List.nil_append]
  rcases getEngine_cases (U := U) c create st.engines name with ⟨e, _, hg⟩ | ⟨_, e, hg⟩ | ⟨_, hg⟩ | ⟨_, s, hg⟩ <;>
    rw [hg] <;> rfl

/-! ### `populate_db` -/

theorem deleteTool_unbound (faults : DbFaults) (k : Nat) (t : Str) (ts : List Str) (st : Stores R) :
    deleteTool faults none k (t :: ts) st =
      ([.record 10 ("Wiping table ".toList ++ t ++ ".".toList)], st, .error faults.unbound) := by
  simp only [deleteTool, tool_say]
  rfl

theorem deleteTool_ok (faults : DbFaults) (e : Engine) (hf : faults.wipe = none) (ts : List Str) (k : Nat) (st : Stores R) :
    deleteTool faults (some e) k ts st =
      (ts.map (fun t => .record 10 ("Wiping table ".toList ++ t ++ ".".toList)), st, .ok ()) := by
  induction ts generalizing k with
  | nil => rfl
  | cons t ts ih =>
    simp only [deleteTool, tool_say, hf, ih]
    rfl

theorem deleteTool_fault (faults : DbFaults) (e : Engine) {x : PyExc} (hf : faults.wipe = some x) (ts : List Str) (k : Nat)
    (st : Stores R) : deleteTool faults (some e) k ts st =
      ((ts.map (fun t => .record 10 ("Wiping table ".toList ++ t ++ ".".toList))).take (k + 1), st,
        if k < ts.length then .error x else .ok ()) := by
  induction ts generalizing k with
  | nil => rfl
  | cons t ts ih =>
    cases k with
    | zero =>
      simp only [deleteTool, tool_say, hf]
      rfl
    | succ k =>
      simp only [deleteTool, tool_say, hf, ih, Nat.add_sub_cancel, List.length_cons, Nat.add_lt_add_iff_right]
      rfl

theorem wipedTables_ne (b : Str) : ∃ t ts, wipedTables b = t :: ts := by
  unfold wipedTables
  split
  · exact ⟨_, _, rfl⟩
  · exact ⟨_, _, rfl⟩

/-- What a wipe puts out and does. -/
theorem wipeTool_run (faults : ToolFaults) (engine : Option Engine) (db : Option Str) (name : Str) (st : Stores R) :
    wipeTool U T faults engine db name st =
      (asRecords (wipeRecords (formatOpt db) name (decide (U.lower name ∈ serviceBases)) (wipedTables (U.lower name))
        (wipeStop faults engine)), wipeTables U T faults.toDbFaults engine st name) := by
  unfold wipeTool wipeRecords
  rw [tool_say]
  by_cases hk : U.lower name ∈ serviceBases
  · rw [if_pos hk, if_pos (decide_eq_true hk)]
    cases engine with
    | none =>
      obtain ⟨t, ts, ht⟩ := wipedTables_ne (U.lower name)
      rw [ht, tool_bind_error (deleteTool_unbound _ _ _ _ _)]
      unfold wipeTables wipeStop
      rw [if_pos hk]
      rfl
    | some e =>
      cases hf : faults.wipe with
      | none =>
        rw [tool_bind_ok (deleteTool_ok _ _ hf _ _ _), tool_say, tool_act]
        unfold wipeTables wipeStop
        rw [if_pos hk]
        simp only [hf, asRecords, List.map_cons, List.map_append, List.map_map]
        rfl
      | some x =>
        have hw : wipeTables U T faults.toDbFaults (some e) st name = (st, .error x) := by
          unfold wipeTables
          rw [if_pos hk]
          simp only [hf]
        have hstop : wipeStop faults (some e) = some faults.wipeAt := by
          unfold wipeStop
          simp only [hf]
        rw [hw, hstop]
        have hd := deleteTool_fault (R := R) faults.toDbFaults e hf (wipedTables (U.lower name)) faults.wipeAt st
        by_cases hlt : faults.wipeAt < (wipedTables (U.lower name)).length
        · rw [if_pos hlt] at hd
          rw [tool_bind_error hd]
          dsimp only
          rw [List.take_append_of_le_length (by rw [List.length_map]; exact hlt)]
          simp only [asRecords, List.map_cons, List.map_take, List.map_map]
          rfl
        · rw [if_neg hlt] at hd
          rw [tool_bind_ok hd, tool_say, tool_act, hw]
          dsimp only
          rw [List.take_of_length_le (by simp; omega), List.take_of_length_le (by simp; omega)]
          simp only [asRecords, List.map_cons, List.map_append, List.map_map]
          rfl
  · rw [if_neg hk, if_neg (by simpa using hk), tool_say]
    unfold wipeTables
    rw [if_neg hk]
    rfl

theorem wiped_iff (faults : ToolFaults) (engine : Option Engine) (st : Stores R) (name : Str) :
    (wipeTables U T faults.toDbFaults engine st name).2 = .ok () ↔
      Wiped (some (decide (U.lower name ∈ serviceBases), wipedTables (U.lower name), wipeStop faults engine)) := by
  unfold wipeTables Wiped wipeStop
  by_cases hk : U.lower name ∈ serviceBases
  · rw [if_pos hk]
    simp only [decide_eq_true hk, true_and]
    cases engine with
    | none => simp
    | some e => cases hf : faults.wipe <;> simp
  · rw [if_neg hk]
    simp [hk]

/-- **C149**: `populate_db` does what it does without records, and makes exactly these records. -/
theorem populate_output (hU : U.Lawful) (hs : c.service.sections.get defaultSect = none) (faults : ToolFaults) (st : Stores R)
    (name : Str) (new : List R) (wipeFirst useTest : Bool) :
    (populateTool U T c create faults name new wipeFirst useTest st).2 =
      populateRows U T c create faults.toDbFaults st name new wipeFirst useTest ∧
    ∃ x db, EngineTrail U c st.engines (sectionName name useTest) x ∧
      Setting U c "DB_NAME".toList true (sectionName name useTest) db ∧
      (populateTool U T c create faults name new wipeFirst useTest st).1 = asRecords (x ++
        match (getSession U c create st.engines (sectionName name useTest)).2 with
        | .error _ => []
        | .ok engine => populateRecords (db.getD "None".toList) name
            (if wipeFirst then some (decide (U.lower name ∈ serviceBases), wipedTables (U.lower name), wipeStop faults engine) else none)
            (populateRows U T c create faults.toDbFaults st name new wipeFirst useTest).2.isOk) := by
  obtain ⟨v, hv⟩ := (getConf_terminates hU c 0 "LOG_NAME".toList true (sectionName name useTest)).2
  obtain ⟨db, hdb⟩ := (getConf_terminates hU c 0 "DB_NAME".toList true (sectionName name useTest)).2
  obtain ⟨x, hx, hrun⟩ := engineTool_run (create := create) hU hs st (sectionName name useTest)
  have hdb' := (getConf_ascii hU c "DB_NAME".toList true (sectionName name useTest) hs (by decide) db).mp hdb
  suffices h : (populateTool U T c create faults name new wipeFirst useTest st).2 =
      populateRows U T c create faults.toDbFaults st name new wipeFirst useTest ∧
      (populateTool U T c create faults name new wipeFirst useTest st).1 = asRecords (x ++
        match (getSession U c create st.engines (sectionName name useTest)).2 with
        | .error _ => []
        | .ok engine => populateRecords (db.getD "None".toList) name
            (if wipeFirst then some (decide (U.lower name ∈ serviceBases), wipedTables (U.lower name), wipeStop faults engine) else none)
            (populateRows U T c create faults.toDbFaults st name new wipeFirst useTest).2.isOk) from
    ⟨h.1, x, db, hx, hdb', h.2⟩
  have happ : ∀ a b, asRecords (a ++ b) = asRecords a ++ asRecords b := fun a b => List.map_append
  unfold populateTool populateRows getSession
  rw [hv, tool_lift, hdb, tool_lift]
  cases hg : getEngine U c create st.engines (sectionName name useTest) with
  | mk es res =>
  rw [hg] at hrun
  cases res with
  | error e =>
    rw [tool_bind_error hrun]
    exact ⟨rfl, by rw [List.append_nil]⟩
  | ok engine =>
    rw [tool_bind_ok hrun, tool_say, happ]
    dsimp only
    have hdone : ∀ st' : Stores R, (say 20 ("Adding all model instances to ".toList ++ formatOpt db ++ " database.".toList) >>= fun _ =>
        act (fun st => insertRows T faults.toDbFaults engine st new) >>= fun _ =>
        say 20 ("Population of ".toList ++ formatOpt db ++ " complete.".toList)) st' =
        (asRecords ((20, "Adding all model instances to ".toList ++ formatOpt db ++ " database.".toList) ::
          if (insertRows T faults.toDbFaults engine st' new).2.isOk then
            [(20, "Population of ".toList ++ formatOpt db ++ " complete.".toList)] else []),
          insertRows T faults.toDbFaults engine st' new) := by
      intro st'
      rw [tool_say, tool_act]
      rcases insertRows T faults.toDbFaults engine st' new with ⟨s, _ | _⟩ <;> rfl
    cases wipeFirst with
    | false =>
      rw [if_neg (by decide), hdone]
      exact ⟨rfl, rfl⟩
    | true =>
      rw [if_pos rfl]
      have hw := wipeTool_run (U := U) (T := T) faults engine db name { st with engines := es }
      cases hr : wipeTables U T faults.toDbFaults engine { st with engines := es } name with
      | mk st' r =>
      rw [hr] at hw
      cases r with
      | error e =>
        rw [tool_bind_error hw]
        have hnot := (wiped_iff (U := U) (T := T) faults engine { st with engines := es } name).not.mp (by rw [hr]; rintro ⟨⟩)
        refine ⟨by rw [if_pos rfl], ?_⟩
        rw [if_pos rfl]
        unfold populateRecords
        rw [if_neg hnot, List.append_nil]
        rfl
      | ok u =>
        rw [tool_bind_ok hw, hdone]
        have hyes := (wiped_iff (U := U) (T := T) faults engine { st with engines := es } name).mp (by rw [hr])
        refine ⟨by rw [if_pos rfl], ?_⟩
        rw [if_pos rfl, if_pos rfl]
        unfold populateRecords
        rw [if_pos hyes]
        dsimp only
        exact congrArg (asRecords x ++ ·) (congrArg (List.cons _) (happ _ _).symm)

theorem recorded_asRecords (l : List (Nat × Str)) : recorded (asRecords l) = l := by
  unfold recorded asRecords
  rw [List.filterMap_map]
  exact List.filterMap_some

theorem printed_asRecords (l : List (Nat × Str)) : printed (asRecords l) = [] := by
  unfold printed asRecords
  rw [List.filterMap_map]
  exact List.filterMap_none l

theorem other_record {n m : Nat} {a b : Str} (h : a.head? ≠ b.head?) : (n, a) ≠ (m, b) := fun e => h (by rw [(Prod.mk.inj e).2])

theorem engineTrail_other {es : Engines} {name : Str} {x : Trail} (hx : EngineTrail U c es name x) {m : Str}
    (hm : m.head? ≠ some 'C') : (20, m) ∉ x := by
  cases hx with
  | cached e h => exact List.not_mem_nil
  | unsupported t h ht hs =>
    simp only [List.mem_cons, List.not_mem_nil, or_false, not_or]
    exact ⟨other_record hm, fun h => by cases (Prod.mk.inj h).1⟩
  | new t user pass host port db s h ht hu hp hh ho hd hs =>
    simp only [List.mem_cons, List.not_mem_nil, or_false, not_or]
    exact ⟨other_record hm, fun h => by cases (Prod.mk.inj h).1⟩

theorem wipeRecords_other {db name : Str} {known : Bool} {tables : List Str} {stop : Option Nat} {m : Str} (hm : m.head? ≠ some 'W') :
    (20, m) ∉ wipeRecords db name known tables stop := by
  have hall : (20, m) ∉ tables.map (fun t => (10, "Wiping table ".toList ++ t ++ ".".toList)) ++
      [(10, "Committing wipe for ".toList ++ db ++ ".".toList)] := by
    simp only [List.mem_append, List.mem_map, List.mem_cons, List.not_mem_nil, or_false, not_or, not_exists, not_and]
    exact ⟨fun _ _ h => (by cases (Prod.mk.inj h).1), fun h => by cases (Prod.mk.inj h).1⟩
  unfold wipeRecords
  rw [List.mem_cons, not_or]
  refine ⟨other_record hm, ?_⟩
  cases known with
  | false =>
    simp only [Bool.false_eq_true, if_false, List.mem_cons, List.not_mem_nil, or_false]
    exact fun h => by cases (Prod.mk.inj h).1
  | true =>
    rw [if_pos rfl]
    cases stop with
    | some k => exact fun h => hall (List.mem_of_mem_take h)
    | none =>
      intro h
      rw [show ∀ a b : Nat × Str, [a, b] = [a] ++ [b] from fun _ _ => rfl, ← List.append_assoc, List.mem_append] at h
      rcases h with h | h
      · exact hall h
      · exact other_record hm (List.mem_singleton.mp h)

theorem insert_wiped {faults : DbFaults} {st : Stores R} {name : Str} {new : List R} {useTest : Bool} {es : Engines}
    {engine : Option Engine} (hes : getSession U c create st.engines (sectionName name useTest) = (es, .ok engine))
    (h : (populateRows U T c create faults st name new true useTest).2 = .ok ()) :
    (wipeTables U T faults engine { st with engines := es } name).2 = .ok () := by
  unfold populateRows at h
  rw [hes] at h
  dsimp only at h
  rw [if_pos rfl] at h
  cases hw : wipeTables U T faults engine { st with engines := es } name with
  | mk s r =>
    rw [hw] at h
    cases r with
    | error e => cases h
    | ok u => rfl

/-- **C149**: the record that a population is complete is made exactly if it is. -/
theorem populate_done (hU : U.Lawful) (hs : c.service.sections.get defaultSect = none) (faults : ToolFaults) (st : Stores R)
    (name : Str) (new : List R) (wipeFirst useTest : Bool) {db : Option Str}
    (hdb : Setting U c "DB_NAME".toList true (sectionName name useTest) db) :
    (20, "Population of ".toList ++ db.getD "None".toList ++ " complete.".toList) ∈
      recorded (populateTool U T c create faults name new wipeFirst useTest st).1 ↔
    (populateRows U T c create faults.toDbFaults st name new wipeFirst useTest).2 = .ok () := by
  obtain ⟨-, x, db', hx, hdb', hout⟩ := populate_output (T := T) (create := create) hU hs faults st name new wipeFirst useTest
  have hdbe : db' = db := by
    have h1 := (getConf_ascii hU c "DB_NAME".toList true (sectionName name useTest) hs (by decide) _).mpr hdb
    have h2 := (getConf_ascii hU c "DB_NAME".toList true (sectionName name useTest) hs (by decide) _).mpr hdb'
    rw [h1] at h2
    exact (Except.ok.inj h2).symm
  subst hdbe
  rw [hout, recorded_asRecords, List.mem_append]
  have hP : ∀ s : Str, ("Population of ".toList ++ s ++ " complete.".toList).head? = some 'P' := fun _ => rfl
  have hxn := engineTrail_other hx (m := "Population of ".toList ++ db'.getD "None".toList ++ " complete.".toList)
    (by rw [hP]; decide)
  cases hg : getSession U c create st.engines (sectionName name useTest) with
  | mk es res =>
  cases res with
  | error e =>
    have : (populateRows U T c create faults.toDbFaults st name new wipeFirst useTest).2 = .error e := by
      unfold populateRows
      rw [hg]
    rw [this]
    simp only [List.not_mem_nil, or_false, reduceCtorEq, iff_false]
    exact hxn
  | ok engine =>
    dsimp only
    unfold populateRecords
    rw [List.mem_cons, List.mem_append]
    have hstart : (20, "Population of ".toList ++ db'.getD "None".toList ++ " complete.".toList) ≠
        (20, "Starting population of tables for database ".toList ++ db'.getD "None".toList) :=
      other_record (by rw [hP]; show some 'P' ≠ some 'S'; decide)
    have hadd : (20, "Population of ".toList ++ db'.getD "None".toList ++ " complete.".toList) ≠
        (20, "Adding all model instances to ".toList ++ db'.getD "None".toList ++ " database.".toList) :=
      other_record (by rw [hP]; show some 'P' ≠ some 'A'; decide)
    have hwipe : ∀ w : Option (Bool × List Str × Option Nat),
        (20, "Population of ".toList ++ db'.getD "None".toList ++ " complete.".toList) ∉
        (match w with
          | none => ([] : List (Nat × Str))
          | some (known, tables, stop) => wipeRecords (db'.getD "None".toList) name known tables stop) := by
      intro w
      rcases w with _ | ⟨k, t, s⟩
      · exact List.not_mem_nil
      · exact wipeRecords_other (by rw [hP]; decide)
    have hok : ∀ r : Except PyExc Unit, r.isOk = true ↔ r = .ok () := by
      intro r
      rcases r with _ | ⟨⟩ <;> simp [Except.isOk, Except.toBool]
    constructor
    · rintro (h | h | h | h)
      · exact absurd h hxn
      · exact absurd h hstart
      · exact absurd h (hwipe _)
      · generalize (if wipeFirst = true then
          some (decide (U.lower name ∈ serviceBases), wipedTables (U.lower name), wipeStop faults engine) else none) = w at h
        split at h
        · rw [List.mem_cons] at h
          rcases h with h | h
          · exact absurd h hadd
          · split at h
            · exact (hok _).mp ‹_›
            · cases h
        · cases h
    · intro h
      refine .inr (.inr (.inr ?_))
      rw [(hok _).mpr h, if_pos, if_pos rfl]
      · exact List.mem_cons_of_mem _ (List.mem_singleton_self _)
      · cases wipeFirst with
        | false => trivial
        | true =>
          rw [if_pos rfl]
          exact (wiped_iff (T := T) faults engine _ name).mp (insert_wiped hg h)

/-! ### `build_database`, `gen_aauth_key` and `gen_atts` -/

theorem engine_tables (x : Trail) : created (asRecords x) = [] := by
  unfold created asRecords
  rw [List.filterMap_map]
  exact List.filterMap_none x

/-- The loop of `build_database` with its output. -/
theorem buildLoop_run (hU : U.Lawful) (hs : c.service.sections.get defaultSect = none) (services : List Str) (st : Stores R) :
    created (buildLoop U c create services st).1 = (buildDatabase U c create st.engines services).2.1 ∧
    (buildLoop U c create services st).2 = ({ st with engines := (buildDatabase U c create st.engines services).1 },
      match (buildDatabase U c create st.engines services).2.2 with
      | none => .ok ()
      | some e => .error e) ∧
    printed (buildLoop U c create services st).1 = [] ∧
    (20, "Finished building databases.".toList) ∉ recorded (buildLoop U c create services st).1 := by
  induction services generalizing st with
  | nil => exact ⟨rfl, rfl, rfl, List.not_mem_nil⟩
  | cons s ss ih =>
    unfold buildLoop buildDatabase
    by_cases hk : s ∈ serviceBases
    · rw [if_pos hk, if_pos hk]
      obtain ⟨x, hx, hrun⟩ := engineTool_run (create := create) hU hs st s
      have hxn := engineTrail_other hx (m := "Finished building databases.".toList) (by decide)
      cases hg : getEngine U c create st.engines s with
      | mk es res =>
      rw [hg] at hrun
      rcases res with e | _ | e
      · rw [tool_bind_error hrun]
        refine ⟨engine_tables x, rfl, printed_asRecords x, ?_⟩
        dsimp only
        rw [recorded_asRecords]
        exact hxn
      · rw [tool_bind_ok hrun]
        dsimp only
        rw [tool_say]
        unfold created printed recorded at *
        simp only [List.filterMap_append]
        refine ⟨?_, rfl, ?_, ?_⟩
        · exact (congrArg (· ++ _) (engine_tables x)).trans rfl
        · exact (congrArg (· ++ _) (printed_asRecords x)).trans rfl
        · rw [List.mem_append]
          rintro (h | h)
          · exact hxn ((recorded_asRecords x) ▸ h)
          · cases (Prod.mk.inj (List.mem_singleton.mp h)).1
      · rw [tool_bind_ok hrun]
        dsimp only
        rw [tool_say, tool_put, tool_say]
        obtain ⟨h1, h2, h3, h4⟩ := ih { st with engines := es }
        unfold created printed recorded at *
        simp only [List.filterMap_append]
        refine ⟨?_, h2, ?_, ?_⟩
        · exact (congrArg (· ++ _) (engine_tables x)).trans (congrArg (List.cons (e, s)) h1)
        · exact (congrArg (· ++ _) (printed_asRecords x)).trans h3
        · rw [List.mem_append]
          rintro (h | h)
          · exact hxn ((recorded_asRecords x) ▸ h)
          · simp only [List.filterMap_cons, List.mem_cons] at h
            rcases h with h | h | h
            · cases (Prod.mk.inj h).1
            · cases (Prod.mk.inj h).1
            · exact h4 h
    · rw [if_neg hk, if_neg hk]
      refine ⟨rfl, rfl, rfl, ?_⟩
      intro h
      cases (Prod.mk.inj (List.mem_singleton.mp h)).1

/-- **C149**: `build_database` does what it does without records and prints nothing; the record that it has finished is made exactly
if it succeeds, and is then the last. -/
theorem build_output (hU : U.Lawful) (hs : c.service.sections.get defaultSect = none) (services : List Str) (st : Stores R) :
    created (buildTool U c create services st).1 = (buildDatabase U c create st.engines services).2.1 ∧
    (buildTool U c create services st).2.1 = { st with engines := (buildDatabase U c create st.engines services).1 } ∧
    (∀ e, (buildTool U c create services st).2.2 = .error e ↔ (buildDatabase U c create st.engines services).2.2 = some e) ∧
    printed (buildTool U c create services st).1 = [] ∧
    (recorded (buildTool U c create services st).1).head? =
      some (20, "Building databases for services ".toList ++ commaJoin services) ∧
    ((20, "Finished building databases.".toList) ∈ recorded (buildTool U c create services st).1 ↔
      (buildTool U c create services st).2.2 = .ok ()) ∧
    ((buildTool U c create services st).2.2 = .ok () →
      (recorded (buildTool U c create services st).1).getLast? = some (20, "Finished building databases.".toList)) := by
  obtain ⟨h1, h2, h3, h4⟩ := buildLoop_run (create := create) hU hs services st
  have hne : (20, "Finished building databases.".toList) ≠
      (20, "Building databases for services ".toList ++ commaJoin services) :=
    other_record (by show some 'F' ≠ some 'B'; decide)
  unfold buildTool
  rw [tool_say]
  cases hb : (buildDatabase U c create st.engines services).2.2 with
  | some e =>
    rw [hb] at h2
    rw [tool_bind_error (Prod.ext rfl h2)]
    refine ⟨h1, rfl, fun e' => ?_, h3, rfl, ?_, fun h => (by cases h)⟩
    · exact ⟨fun h => congrArg some (Except.error.inj h), fun h => congrArg Except.error (Option.some.inj h)⟩
    · simp only [reduceCtorEq, iff_false]
      intro h
      rcases List.mem_cons.mp h with h | h
      · exact hne h
      · exact h4 h
  | none =>
    rw [hb] at h2
    rw [tool_bind_ok (Prod.ext rfl h2)]
    unfold created printed recorded at *
    simp only [List.filterMap_append, List.filterMap_cons]
    refine ⟨?_, rfl, fun e' => ⟨fun h => (by cases h), fun h => (by cases h)⟩, ?_, rfl, ?_, fun _ => ?_⟩
    · rw [h1]
      exact List.append_nil _
    · rw [h3]
      rfl
    · refine ⟨fun _ => rfl, fun _ => List.mem_cons_of_mem _ (List.mem_append_right _ ?_)⟩
      exact List.mem_singleton_self _
    · rw [← List.cons_append]
      exact List.getLast?_append_of_ne_nil _ (by rintro ⟨⟩)

/-- All a new key needs succeeds. -/
def KeyMade (K : KeyTool) (pass : Option Str) (f : Str) (data : Bytes) : Prop :=
  K.generate = .ok () ∧ K.exportKey pass = .ok data ∧ K.openFile f = .ok () ∧ K.writeFile f = .ok ()

/-- **C149**: a new key is made exactly if all succeeds; then exactly this is put out. -/
theorem genkey_output (K : KeyTool) (file pass : Option Str) (st : Stores R) :
    (genKeyTool K file pass st).2.1 = st ∧
    ((genKeyTool K file pass st).2.2 = .ok () ↔ ∃ f data, file = some f ∧ KeyMade K pass f data) ∧
    ∀ f data, file = some f → KeyMade K pass f data → (genKeyTool K file pass st).1 =
      [.record 20 "Generating new private/public key pair for AAUTH service.".toList,
        .record 20 "Encrypting new private/public key pair.".toList, .truncate f,
        .record 20 ("Saving new private/public key pair to ".toList ++ f), .write f data,
        .record 20 "Finished generating key pair.".toList] := by
  unfold genKeyTool KeyMade
  rw [tool_say]
  cases hg : K.generate with
  | error e => exact ⟨rfl, ⟨fun h => (by cases h), fun ⟨_, _, _, h, _⟩ => (by cases h)⟩, fun _ _ _ h => by cases h.1⟩
  | ok u =>
    rw [tool_lift, tool_say]
    cases hx : K.exportKey pass with
    | error e => exact ⟨rfl, ⟨fun h => (by cases h), fun ⟨_, _, _, _, h, _⟩ => (by cases h)⟩, fun _ _ _ h => by cases h.2.1⟩
    | ok data =>
      rw [tool_lift]
      cases file with
      | none => exact ⟨rfl, ⟨fun h => (by cases h), fun ⟨_, _, h, _⟩ => (by cases h)⟩, fun _ _ h => (by cases h)⟩
      | some f =>
        dsimp only
        cases ho : K.openFile f with
        | error e =>
          refine ⟨rfl, ⟨fun h => (by cases h), ?_⟩, ?_⟩
          · rintro ⟨f', d, hf, -, -, h, -⟩
            cases hf
            rw [ho] at h
            cases h
          · rintro f' d hf ⟨-, -, h, -⟩
            cases hf
            rw [ho] at h
            cases h
        | ok u =>
          rw [tool_lift, tool_put, tool_say]
          cases hw : K.writeFile f with
          | error e =>
            refine ⟨rfl, ⟨fun h => (by cases h), ?_⟩, ?_⟩
            · rintro ⟨f', d, hf, -, -, -, h⟩
              cases hf
              rw [hw] at h
              cases h
            · rintro f' d hf ⟨-, -, -, h⟩
              cases hf
              rw [hw] at h
              cases h
          | ok u =>
            rw [tool_lift, tool_put]
            refine ⟨rfl, ⟨fun _ => ⟨f, data, rfl, rfl, rfl, ho, hw⟩, fun _ => rfl⟩, ?_⟩
            rintro f' d hf ⟨-, h, -⟩
            cases hf
            cases h
            rfl

/-- **C149**: the file of the old key is emptied exactly if a key could be made and encrypted, and the file be opened; so it is lost
if writing the new key fails. -/
theorem genkey_truncates (K : KeyTool) (file pass : Option Str) (st : Stores R) (f : Str) :
    .truncate f ∈ (genKeyTool K file pass st).1 ↔
      file = some f ∧ K.generate = .ok () ∧ (∃ data, K.exportKey pass = .ok data) ∧ K.openFile f = .ok () := by
  unfold genKeyTool
  rw [tool_say]
  cases hg : K.generate with
  | error e => simp [tool_lift_error]
  | ok u =>
    rw [tool_lift, tool_say]
    cases hx : K.exportKey pass with
    | error e => simp [tool_lift_error]
    | ok data =>
      rw [tool_lift]
      cases file with
      | none => simp [lift]
      | some g =>
        dsimp only
        cases ho : K.openFile g with
        | error e =>
          simp only [tool_lift_error, List.mem_cons, reduceCtorEq, List.not_mem_nil, or_false, Option.some.injEq, false_iff]
          rintro ⟨rfl, -, -, h⟩
          rw [ho] at h
          cases h
        | ok u =>
          rw [tool_lift, tool_put, tool_say]
          cases hw : K.writeFile g with
          | error e =>
            simp only [tool_lift_error, List.mem_cons, reduceCtorEq, List.not_mem_nil, or_false, false_or, ToolOut.truncate.injEq,
              Option.some.injEq, true_and]
            constructor
            · rintro rfl
              exact ⟨rfl, ⟨_, rfl⟩, ho⟩
            · exact fun h => h.1.symm
          | ok u =>
            rw [tool_lift, tool_put]
            simp only [say, put, List.mem_cons, reduceCtorEq, List.not_mem_nil, or_false, false_or, ToolOut.truncate.injEq,
              Option.some.injEq, true_and]
            constructor
            · rintro rfl
              exact ⟨rfl, ⟨_, rfl⟩, ho⟩
            · exact fun h => h.1.symm

/-- **C149**: `gen_atts` does what it does without records, and makes exactly these records. -/
theorem genatts_output (hU : U.Lawful) (hs : c.service.sections.get defaultSect = none) (collate : Str → Str) (faults : DbFaults)
    (n : Int) (st : Stores AARow) :
    (genAttsTool U c create (aaTables collate) id faults n st).2 = genAtts U collate c create faults st n ∧
    ∃ x, EngineTrail U c st.engines "AAUTH".toList x ∧
      (genAttsTool U c create (aaTables collate) id faults n st).1 =
      asRecords ((20, "Generating ".toList ++ decimal n ++ " attributes.".toList) :: (x ++
        match (getSession U c create st.engines "AAUTH".toList).2 with
        | .error _ => []
        | .ok _ => (20, "Adding attributes to AAUTH database.".toList) ::
            if (genAtts U collate c create faults st n).2.isOk then [(20, "Population of attributes complete.".toList)] else [])) := by
  obtain ⟨x, hx, hrun⟩ := engineTool_run (create := create) hU hs st "AAUTH".toList
  suffices h : (genAttsTool U c create (aaTables collate) id faults n st).2 = genAtts U collate c create faults st n ∧
      (genAttsTool U c create (aaTables collate) id faults n st).1 =
      asRecords ((20, "Generating ".toList ++ decimal n ++ " attributes.".toList) :: (x ++
        match (getSession U c create st.engines "AAUTH".toList).2 with
        | .error _ => []
        | .ok _ => (20, "Adding attributes to AAUTH database.".toList) ::
            if (genAtts U collate c create faults st n).2.isOk then [(20, "Population of attributes complete.".toList)] else []))
      from ⟨h.1, x, hx, h.2⟩
  unfold genAttsTool genAtts getSession
  rw [tool_say]
  cases hg : getEngine U c create st.engines "AAUTH".toList with
  | mk es res =>
  rw [hg] at hrun
  cases res with
  | error e =>
    rw [tool_bind_error hrun]
    refine ⟨rfl, ?_⟩
    dsimp only
    rw [List.append_nil]
    rfl
  | ok engine =>
    rw [tool_bind_ok hrun, tool_say, tool_act_say, List.map_id]
    refine ⟨rfl, ?_⟩
    dsimp only
    unfold asRecords
    rw [List.map_cons, List.map_append]
    rfl

/-! ### The command line -/

variable (W : ToolWorld R)

/-- What an action puts out and does, for the last argument of the command line. -/
def actionTool (U : Uni) (c : Config) (W : ToolWorld R) (args : List Str) : ToolAction → Stores R → List ToolOut × Stores R × Except PyExc Unit
  | .build services, st => buildTool U c W.create services st
  | .genkey file pass, st => genKeyTool W.key file pass st
  | .populate names, st => names.foldr (fun n rest => popTool U c W n >>= fun _ => rest) (pure ()) st
  | .password text, st =>
    match (W.hash (utf8 text)).bind utf8Decode with
    | .ok h => ([.print ("Password: ".toList ++ args.getLastD [] ++ "\nHash: ".toList ++ h)], st, .ok ())
    | .error e => ([], st, .error e)
  | .genatts n, st => genAttsTool U c W.create W.T W.row (W.faults "AAUTH".toList).toDbFaults n st
  | .nothing, st => ([], st, .ok ())

theorem tool_bind_unit (x : ToolM R Unit) (st : Stores R) : (x >>= fun _ => pure ()) st = x st := by
  rw [tool_bind]
  rcases h : x st with ⟨o, s, _ | _⟩
  · rfl
  · simp only [tool_pure, List.append_nil]

/-- **C149**: a command line that is refused makes no record and changes nothing; it prints one line, or none if a number is
expected and another text is found. A command line that is accepted does what `toolCommand` says. -/
theorem main_output (hU : U.Lawful) (args : List Str) (st : Stores R) :
    match toolCommand U c args with
    | .error x => ∃ l, UsageLines U args l ∧ toolMain U c W args st = (l.map .print, st, .error x)
    | .ok act => toolMain U c W args st = actionTool U c W args act st := by
  have conf : ∀ n sect : Str, ∃ v, getConf U c n true sect = .ok v := fun n sect => (getConf_terminates hU c 0 n true sect).2
  cases args with
  | nil => exact ⟨_, .empty, rfl⟩
  | cons cmd args =>
    unfold toolCommand toolMain commandTool
    dsimp only
    by_cases h1 : U.lower cmd = "build".toList
    · rw [if_pos h1, if_pos h1]
      cases args with
      | nil => exact ⟨_, .build cmd h1, rfl⟩
      | cons s services => rfl
    rw [if_neg h1, if_neg h1]
    by_cases h2 : U.lower cmd = "genkey".toList
    · rw [if_pos h2, if_pos h2]
      match args with
      | [] => exact ⟨_, .genkey cmd [] h2 (by decide), rfl⟩
      | _ :: _ :: _ => exact ⟨_, .genkey cmd _ h2 (by simp), rfl⟩
      | [kind] =>
        unfold genkeyCommand
        dsimp only
        by_cases h : U.lower kind = "aauth".toList
        · rw [if_pos h, if_pos h]
          obtain ⟨f, hf⟩ := conf "KEY_FILE".toList "AAUTH".toList
          obtain ⟨p, hp⟩ := conf "KEY_PASS".toList "AAUTH".toList
          rw [hf, hp, tool_lift, tool_lift]
          rfl
        · rw [if_neg h, if_neg h]
          exact ⟨_, .kind cmd kind h2 h, rfl⟩
    rw [if_neg h2, if_neg h2]
    by_cases h3 : U.lower cmd = "populate".toList ∨ U.lower cmd = "pop".toList
    · rw [if_pos h3, if_pos h3]
      have h3' : U.lower cmd ∈ ["populate".toList, "pop".toList] := by simpa using h3
      match args with
      | [] => exact ⟨_, .populate cmd [] h3' (by decide), rfl⟩
      | _ :: _ :: _ => exact ⟨_, .populate cmd _ h3' (by simp), rfl⟩
      | [name] =>
        unfold populateCommand
        dsimp only
        by_cases ha : U.lower name = "all".toList
        · rw [if_pos ha, if_pos ha]
          dsimp only [actionTool, List.foldr]
          rw [tool_bind, tool_bind]
          simp only [tool_bind_unit]
        rw [if_neg ha, if_neg ha]
        by_cases hb : U.lower name = "aauth".toList
        · rw [if_pos hb, if_pos hb]
          exact (tool_bind_unit _ _).symm
        rw [if_neg hb, if_neg hb]
        by_cases hc : U.lower name = "pauth".toList
        · rw [if_pos hc, if_pos hc]
          exact (tool_bind_unit _ _).symm
        rw [if_neg hc, if_neg hc]
        exact ⟨_, .name cmd name h3' (by simp only [List.mem_cons, List.not_mem_nil, or_false, not_or]; exact ⟨ha, hb, hc⟩), rfl⟩
    rw [if_neg h3, if_neg h3]
    by_cases h4 : U.lower cmd = "password".toList ∨ U.lower cmd = "pass".toList
    · rw [if_pos h4, if_pos h4]
      have h4' : U.lower cmd ∈ ["password".toList, "pass".toList] := by simpa using h4
      match args with
      | [] => exact ⟨_, .password cmd [] h4' (by decide), rfl⟩
      | [_] => exact ⟨_, .password cmd _ h4' (by simp), rfl⟩
      | _ :: _ :: _ :: _ => exact ⟨_, .password cmd _ h4' (by simp), rfl⟩
      | [service, password] =>
        unfold passwordCommand
        dsimp only
        obtain ⟨p, hp⟩ := conf "PASS_PEPPER".toList (U.upper service)
        rw [hp, tool_lift]
        show _ = actionTool U c W [cmd, service, password] (.password (password ++ formatOpt p)) st
        unfold actionTool
        dsimp only
        cases hh : W.hash (utf8 (password ++ formatOpt p)) with
        | error e => rfl
        | ok h =>
          rw [tool_lift, show (Except.ok h : Except PyExc Bytes).bind utf8Decode = utf8Decode h from rfl]
          cases hd : utf8Decode h <;> rfl
    rw [if_neg h4, if_neg h4]
    by_cases h5 : U.lower cmd = "genatts".toList
    · rw [if_pos h5, if_pos h5]
      match args with
      | [] => exact ⟨_, .genatts cmd [] h5 (by decide), rfl⟩
      | _ :: _ :: _ => exact ⟨_, .genatts cmd _ h5 (by simp), rfl⟩
      | [text] =>
        unfold genattsCommand
        dsimp only
        cases hp : pyIntBase U 10 text with
        | error e =>
          exact ⟨[], .number cmd text h5 (fun n hn => by rw [(pyIntBase_iff hU).mpr hn] at hp; cases hp), rfl⟩
        | ok n => rfl
    · rw [if_neg h5, if_neg h5]
      rfl

theorem printed_append (a b : List ToolOut) : printed (a ++ b) = printed a ++ printed b := List.filterMap_append

theorem popTool_printed (hU : U.Lawful) (hs : c.service.sections.get defaultSect = none) (name : Str) (st : Stores R) :
    printed (popTool U c W name st).1 = [] := by
  obtain ⟨-, x, db, -, -, h⟩ := populate_output (T := W.T) (create := W.create) hU hs (W.faults name) st name (W.samples name) true false
  unfold popTool
  rw [h]
  exact printed_asRecords _

theorem genKeyTool_printed (K : KeyTool) (file pass : Option Str) (st : Stores R) : printed (genKeyTool K file pass st).1 = [] := by
  unfold genKeyTool
  rw [tool_say]
  cases hg : K.generate with
  | error e => rfl
  | ok u =>
    rw [tool_lift, tool_say]
    cases hx : K.exportKey pass with
    | error e => rfl
    | ok data =>
      rw [tool_lift]
      cases file with
      | none => rfl
      | some f =>
        dsimp only
        cases ho : K.openFile f with
        | error e => rfl
        | ok u =>
          rw [tool_lift, tool_put, tool_say]
          cases hw : K.writeFile f <;> rfl

theorem genAttsTool_printed (hU : U.Lawful) (hs : c.service.sections.get defaultSect = none) (faults : DbFaults) (row : AARow → R)
    (n : Int) (st : Stores R) : printed (genAttsTool U c create T row faults n st).1 = [] := by
  obtain ⟨x, hx, hrun⟩ := engineTool_run (create := create) hU hs st "AAUTH".toList
  unfold genAttsTool
  rw [tool_say]
  cases hg : getEngine U c create st.engines "AAUTH".toList with
  | mk es res =>
  rw [hg] at hrun
  cases res with
  | error e =>
    rw [tool_bind_error hrun]
    exact printed_asRecords x
  | ok engine =>
    rw [tool_bind_ok hrun, tool_say, tool_act]
    refine (printed_append (asRecords x) _).trans ?_
    rw [printed_asRecords]
    generalize insertRows T faults engine _ _ = r
    rcases r with ⟨s, _ | _⟩ <;> rfl

/-- **C149**: a command line that is accepted prints nothing, except the plaintext and the hash of a password. -/
theorem accepted_prints (hU : U.Lawful) (hs : c.service.sections.get defaultSect = none) {args : List Str} {act : ToolAction}
    (h : Runs U c args act) (st : Stores R) :
    (∀ t, act ≠ .password t) → printed (toolMain U c W args st).1 = [] := by
  intro hne
  have hm := main_output (c := c) W hU args st
  rw [(tool_iff hU hs args act).mpr h] at hm
  dsimp only at hm
  rw [hm]
  cases act with
  | build services => exact (build_output hU hs services st).2.2.2.1
  | genkey file pass => exact genKeyTool_printed _ _ _ _
  | populate names =>
    clear hm h hne
    unfold actionTool
    dsimp only
    induction names generalizing st with
    | nil => rfl
    | cons n ns ih =>
      rw [List.foldr_cons, tool_bind]
      have hp := popTool_printed W hU hs n st
      cases hr : (popTool U c W n st).2.2 with
      | error e => exact hp
      | ok u =>
        dsimp only
        rw [printed_append, hp]
        exact ih _
  | password t => exact absurd rfl (hne t)
  | genatts n => exact genAttsTool_printed hU hs _ _ _ _
  | nothing => rfl

/-! ### Secrets -/

/-- All settings but some are the same. -/
def SameSettings (U : Uni) (but : List Str) (c c' : Config) : Prop :=
  ∀ n, U.lower (U.upper n) ∉ but → ∀ sect v, Setting U c n true sect v ↔ Setting U c' n true sect v

variable {c' : Config}

theorem same_conf (hU : U.Lawful) (hs : c.service.sections.get defaultSect = none) (hs' : c'.service.sections.get defaultSect = none)
    {but : List Str} (h : SameSettings U but c c') {n : Str} (hn : (n.map asciiUpper).map asciiLower ∉ but)
    (ha : n.all isAscii = true ∧ (n.map asciiUpper).all isAscii = true) (sect : Str) :
    getConf U c n true sect = getConf U c' n true sect := by
  have hn' : U.lower (U.upper n) ∉ but := by
    rw [hU.upper_ascii _ ha.1, hU.lower_ascii _ ha.2]
    exact hn
  obtain ⟨v, hv⟩ := (getConf_terminates hU c 0 n true sect).2
  rw [hv]
  exact ((getConf_ascii hU c' n true sect hs' ha.1 v).mpr
    ((h n hn' sect v).mp ((getConf_ascii hU c n true sect hs ha.1 v).mp hv))).symm

/-- Files that differ in some options only. -/
theorem same_files {but : List Str} (hd : ∀ k ∉ but, c.service.defaults.get k = c'.service.defaults.get k)
    (hsec : ∀ k ∉ but, ∀ s, (c.service.sections.get s).bind (·.get k) = (c'.service.sections.get s).bind (·.get k)) :
    SameSettings U but c c' := by
  intro n hn sect v
  have key : ∀ c : Config, Setting U c n true sect v ↔
      (∃ x, (c.service.sections.get (U.upper sect)).bind (·.get (U.lower (U.upper n))) = some x ∧ v = some x) ∨
      ((c.service.sections.get (U.upper sect)).bind (·.get (U.lower (U.upper n))) = none ∧
        ∃ x, c.service.defaults.get (U.lower (U.upper n)) = some x ∧ v = some x) ∨
      ((c.service.sections.get (U.upper sect)).bind (·.get (U.lower (U.upper n))) = none ∧
        c.service.defaults.get (U.lower (U.upper n)) = none ∧ Builtin true (U.upper n) v) := by
    intro c
    unfold Setting
    simp only [if_true]
    cases c.service.sections.get (U.upper sect) with
    | none => simp
    | some d => simp
  rw [key, key, hd _ hn, hsec _ hn]

/-- No database of the configuration is of the type whose connection string has a password. -/
def NoMysql (U : Uni) (c : Config) : Prop := ∀ sect t, Setting U c "DB_TYPE".toList true sect (some t) → U.upper t ≠ "MYSQL".toList

theorem engineLog_same (hU : U.Lawful) (hs : c.service.sections.get defaultSect = none)
    (hs' : c'.service.sections.get defaultSect = none) (h : SameSettings U secretOptions c c') (hm : NoMysql U c) (name : Str)
    (es : Engines) : getEngineLog U c create es name = getEngineLog U c' create es name := by
  have conf : ∀ n : Str, (n.map asciiUpper).map asciiLower ∉ secretOptions →
      n.all isAscii = true ∧ (n.map asciiUpper).all isAscii = true → getConf U c n true name = getConf U c' n true name :=
    fun n hn ha => same_conf hU hs hs' h hn ha name
  unfold getEngineLog
  cases es.active.get name with
  | some e => rfl
  | none =>
    dsimp only
    obtain ⟨t, ht⟩ := getConf_dbType hU c name hs
    obtain ⟨p, hp⟩ := (getConf_terminates hU c 0 "DB_PASS".toList true name).2
    obtain ⟨p', hp'⟩ := (getConf_terminates hU c' 0 "DB_PASS".toList true name).2
    have hne := hm name t ((getConf_ascii hU c "DB_TYPE".toList true name hs (by decide) _).mp ht)
    rw [← conf "DB_NAME".toList (by decide) (by decide), ← conf "DB_USER".toList (by decide) (by decide),
      ← conf "DB_PORT".toList (by decide) (by decide), ← conf "DB_HOST".toList (by decide) (by decide),
      ← conf "DB_TYPE".toList (by decide) (by decide), ← conf "LOG_NAME".toList (by decide) (by decide), hp, hp', ht]
    have hcs : ∀ a b d e, connectString (U.upper t) a p b d e = connectString (U.upper t) a p' b d e := by
      intro a b d e
      unfold connectString
      rw [if_neg hne, if_neg hne]
    obtain ⟨dbname, hd⟩ := (getConf_terminates hU c 0 "DB_NAME".toList true name).2
    obtain ⟨user, hu⟩ := (getConf_terminates hU c 0 "DB_USER".toList true name).2
    obtain ⟨port, ho⟩ := (getConf_terminates hU c 0 "DB_PORT".toList true name).2
    obtain ⟨host, hh⟩ := (getConf_terminates hU c 0 "DB_HOST".toList true name).2
    obtain ⟨l, hl⟩ := (getConf_terminates hU c 0 "LOG_NAME".toList true name).2
    have hb : ∀ {α β : Type} (a : α) (f : α → AuditM β), (auditLift (.ok a) >>= f) = f a := fun _ _ => rfl
    rw [hd, hu, ho, hh, hl]
    simp only [hb, hcs]

theorem engineTool_same (hU : U.Lawful) (hs : c.service.sections.get defaultSect = none)
    (hs' : c'.service.sections.get defaultSect = none) (h : SameSettings U secretOptions c c') (hm : NoMysql U c) (name : Str) :
    (engineTool U c create name : ToolM R (Option Engine)) = engineTool U c' create name := by
  unfold engineTool
  funext st
  rw [engineLog_same hU hs hs' h hm]

theorem build_same (heng : ∀ name, (engineTool U c create name : ToolM R (Option Engine)) = engineTool U c' create name)
    (services : List Str) : (buildTool U c create services : ToolM R Unit) = buildTool U c' create services := by
  have hloop : (buildLoop U c create services : ToolM R Unit) = buildLoop U c' create services := by
    induction services with
    | nil => rfl
    | cons s ss ih => simp only [buildLoop, heng, ih]
  unfold buildTool
  rw [hloop]

theorem populate_same (hU : U.Lawful) (hs : c.service.sections.get defaultSect = none)
    (hs' : c'.service.sections.get defaultSect = none) (h : SameSettings U secretOptions c c') (hm : NoMysql U c)
    (faults : ToolFaults) (name : Str) (new : List R) (wipeFirst useTest : Bool) :
    populateTool U T c create faults name new wipeFirst useTest = populateTool U T c' create faults name new wipeFirst useTest := by
  unfold populateTool
  rw [engineTool_same hU hs hs' h hm, same_conf hU hs hs' h (n := "LOG_NAME".toList) (by decide) (by decide),
    same_conf hU hs hs' h (n := "DB_NAME".toList) (by decide) (by decide)]

theorem genkey_same (K : KeyTool) (file p p' : Option Str) (hx : (K.exportKey p).map (fun _ => ()) = (K.exportKey p').map (fun _ => ()))
    (st : Stores R) : ((genKeyTool K file p st).1.filter (fun o => decide (ShownOut o)), (genKeyTool K file p st).2) =
      ((genKeyTool K file p' st).1.filter (fun o => decide (ShownOut o)), (genKeyTool K file p' st).2) := by
  unfold genKeyTool
  rw [tool_say, tool_say]
  cases hg : K.generate with
  | error e => rfl
  | ok u =>
    rw [tool_lift, tool_lift, tool_say, tool_say]
    cases h1 : K.exportKey p with
    | error e =>
      cases h2 : K.exportKey p' with
      | error e' =>
        rw [h1, h2] at hx
        cases hx
        rfl
      | ok d =>
        rw [h1, h2] at hx
        cases hx
    | ok d =>
      cases h2 : K.exportKey p' with
      | error e' =>
        rw [h1, h2] at hx
        cases hx
      | ok d' =>
        rw [tool_lift, tool_lift]
        cases file with
        | none => rfl
        | some f =>
          dsimp only
          cases ho : K.openFile f with
          | error e => rfl
          | ok u =>
            rw [tool_lift, tool_lift, tool_put, tool_put, tool_say, tool_say]
            cases hw : K.writeFile f <;> rfl

/-- **C149**: what is printed and recorded, the databases and how the program ends are the same for any passphrase of the key, any
pepper and any password of the database: unless the connection string has the password, encrypting the key ends otherwise, or the
hash that is printed differs. -/
theorem secrets_unsaid (hU : U.Lawful) (hs : c.service.sections.get defaultSect = none)
    (hs' : c'.service.sections.get defaultSect = none) (h : SameSettings U secretOptions c c') (hm : NoMysql U c)
    (hkey : ∀ p p', Setting U c "KEY_PASS".toList true "AAUTH".toList p → Setting U c' "KEY_PASS".toList true "AAUTH".toList p' →
      (W.key.exportKey p).map (fun _ => ()) = (W.key.exportKey p').map (fun _ => ()))
    (hhash : ∀ service t p p', Setting U c "PASS_PEPPER".toList true service p → Setting U c' "PASS_PEPPER".toList true service p' →
      W.hash (utf8 (t ++ p.getD "None".toList)) = W.hash (utf8 (t ++ p'.getD "None".toList)))
    (args : List Str) (st : Stores R) :
    (toolMain U c W args st).1.filter (fun o => decide (ShownOut o)) = (toolMain U c' W args st).1.filter (fun o => decide (ShownOut o)) ∧
    (toolMain U c W args st).2 = (toolMain U c' W args st).2 := by
  have heng : ∀ name, (engineTool U c W.create name : ToolM R (Option Engine)) = engineTool U c' W.create name :=
    engineTool_same hU hs hs' h hm
  have hpop : ∀ name, popTool U c W name = popTool U c' W name := fun name => populate_same hU hs hs' h hm _ _ _ _ _
  cases args with
  | nil => exact ⟨rfl, rfl⟩
  | cons cmd args =>
    unfold toolMain commandTool
    dsimp only
    by_cases h1 : U.lower cmd = "build".toList
    · rw [if_pos h1, if_pos h1]
      cases args with
      | nil => exact ⟨rfl, rfl⟩
      | cons s services =>
        dsimp only
        rw [build_same heng]
        exact ⟨rfl, rfl⟩
    rw [if_neg h1, if_neg h1]
    by_cases h2 : U.lower cmd = "genkey".toList
    · rw [if_pos h2, if_pos h2]
      match args with
      | [] => exact ⟨rfl, rfl⟩
      | _ :: _ :: _ => exact ⟨rfl, rfl⟩
      | [kind] =>
        dsimp only
        by_cases ha : U.lower kind = "aauth".toList
        · rw [if_pos ha, if_pos ha, ← same_conf hU hs hs' h (n := "KEY_FILE".toList) (by decide) (by decide)]
          obtain ⟨f, hf⟩ := (getConf_terminates hU c 0 "KEY_FILE".toList true "AAUTH".toList).2
          obtain ⟨p, hp⟩ := (getConf_terminates hU c 0 "KEY_PASS".toList true "AAUTH".toList).2
          obtain ⟨p', hp'⟩ := (getConf_terminates hU c' 0 "KEY_PASS".toList true "AAUTH".toList).2
          rw [hf, hp, hp', tool_lift, tool_lift, tool_lift, tool_lift]
          have := genkey_same W.key f p p' (hkey p p' ((getConf_ascii hU c _ true _ hs (by decide) _).mp hp)
            ((getConf_ascii hU c' _ true _ hs' (by decide) _).mp hp')) st
          exact ⟨(Prod.mk.inj this).1, (Prod.mk.inj this).2⟩
        · rw [if_neg ha, if_neg ha]
          exact ⟨rfl, rfl⟩
    rw [if_neg h2, if_neg h2]
    by_cases h3 : U.lower cmd = "populate".toList ∨ U.lower cmd = "pop".toList
    · rw [if_pos h3, if_pos h3]
      match args with
      | [] => exact ⟨rfl, rfl⟩
      | _ :: _ :: _ => exact ⟨rfl, rfl⟩
      | [name] =>
        dsimp only
        simp only [hpop]
        exact ⟨trivial, trivial⟩
    rw [if_neg h3, if_neg h3]
    by_cases h4 : U.lower cmd = "password".toList ∨ U.lower cmd = "pass".toList
    · rw [if_pos h4, if_pos h4]
      match args with
      | [] => exact ⟨rfl, rfl⟩
      | [_] => exact ⟨rfl, rfl⟩
      | _ :: _ :: _ :: _ => exact ⟨rfl, rfl⟩
      | [service, password] =>
        dsimp only
        obtain ⟨p, hp⟩ := (getConf_terminates hU c 0 "PASS_PEPPER".toList true (U.upper service)).2
        obtain ⟨p', hp'⟩ := (getConf_terminates hU c' 0 "PASS_PEPPER".toList true (U.upper service)).2
        rw [hp, hp', tool_lift, tool_lift]
        have := hhash (U.upper service) password p p' ((getConf_ascii hU c _ true _ hs (by decide) _).mp hp)
          ((getConf_ascii hU c' _ true _ hs' (by decide) _).mp hp')
        unfold formatOpt
        rw [this]
        exact ⟨rfl, rfl⟩
    rw [if_neg h4, if_neg h4]
    by_cases h5 : U.lower cmd = "genatts".toList
    · rw [if_pos h5, if_pos h5]
      match args with
      | [] => exact ⟨rfl, rfl⟩
      | _ :: _ :: _ => exact ⟨rfl, rfl⟩
      | [text] =>
        dsimp only
        unfold genAttsTool
        rw [heng]
        exact ⟨rfl, rfl⟩
    · rw [if_neg h5, if_neg h5]
      exact ⟨rfl, rfl⟩

/-! ### Examples -/

/-- Keys are encrypted for any passphrase, and the file can be written. -/
def sampleKeyTool : KeyTool := ⟨.ok (), fun p => .ok (utf8 (p.getD [])), fun _ => .ok (), fun _ => .ok ()⟩

/-- A world where all succeeds, unless the wipe fails. -/
def toolWorld (faults : ToolFaults) : ToolWorld AARow where
  T := aaTables id
  row := id
  samples := fun _ => [.user demoUser]
  create := anyDriver
  faults := fun _ => faults
  key := sampleKeyTool
  hash := fun _ => .ok [36]

/-- What a command line puts out, and its result. -/
def toolSays (faults : ToolFaults) (args : List String) : List ToolOut × Except PyExc Unit :=
  let r := toolMain asciiUni sampleConfig (toolWorld faults) (args.map String.toList) sampleUsers
  (r.1, r.2.2)

example : toolSays {} [] = ([.print "Need at least one command argument. Valid commands are: build, genkey.".toList],
    .error (.exception "Need at least one command argument.")) := by decide +kernel
example : toolSays {} ["pop", "Oauth"] = ([.print "Unknown key type: oauth".toList], .error (.exception "Unknown key type.")) := by
  decide +kernel
example : toolSays {} ["genatts", "x"] = ([], .error .valueError) := by decide +kernel
example : toolSays {} ["password", "aauth", "a"] = ([.print "Password: a\nHash: $".toList], .ok ()) := by decide +kernel
example : (toolSays {} ["build", "aauth", "x"]).1 = [.record 20 "Building databases for services aauth, x".toList,
    .record 20 "Creating sqlite database engine for aauth".toList, .record 10 "Connection string: sqlite:///aauth.db".toList,
    .record 10 "Creating all tables for service aauth".toList, .tables ⟨0, "sqlite:///aauth.db".toList⟩ "aauth".toList,
    .record 10 "Finished creating tables for service aauth".toList, .record 40 "No service with name x".toList] := by decide +kernel
/-- a wipe that fails at the second table -/
example : (toolSays { wipe := some (.exception "locked"), wipeAt := 1 } ["pop", "aauth"]) =
    ([.record 20 "Creating sqlite database engine for AAUTH".toList, .record 10 "Connection string: sqlite:///aauth.db".toList,
      .record 20 "Starting population of tables for database aauth".toList, .record 20 "Wiping rows from tables in aauth".toList,
      .record 10 "Wiping table aauth_attribute_assignments.".toList, .record 10 "Wiping table aauth_users.".toList],
      .error (.exception "locked")) := by decide +kernel
/-- and one that succeeds -/
example : (toolSays {} ["pop", "aauth"]).1.drop 6 =
    [.record 10 "Wiping table aauth_attributes.".toList, .record 10 "Committing wipe for aauth.".toList,
      .record 20 "Wipe complete.".toList, .record 20 "Adding all model instances to aauth database.".toList,
      .record 20 "Population of aauth complete.".toList] := by decide +kernel
example : (toolSays {} ["genkey", "aauth"]).2 = .error .typeError := by decide +kernel

/-- A configuration with another pepper. -/
def otherPepper : Config :=
  { sampleConfig with service := { sampleConfig.service with
      defaults := sampleConfig.service.defaults.put "pass_pepper".toList "salt".toList } }

theorem otherPepper_same : SameSettings asciiUni secretOptions sampleConfig otherPepper := by
  refine same_files (fun k hk => ?_) (fun k hk s => rfl)
  have hne : "pass_pepper".toList ≠ k := fun h => hk (by rw [← h]; decide)
  unfold otherPepper
  rw [dict_get_put, if_neg hne]

theorem sample_noMysql : NoMysql asciiUni sampleConfig := by
  have hk : asciiUni.lower (asciiUni.upper "DB_TYPE".toList) = "db_type".toList := by decide
  have hsec : ∀ p ∈ sampleConfig.service.sections, p.2.get "db_type".toList = none := by decide
  intro sect t h
  unfold Setting at h
  simp only [if_true, hk] at h
  rcases h with ⟨d, x, hd, hx, -⟩ | ⟨-, x, hx, hv⟩ | ⟨-, hx, -⟩
  · rw [hsec _ (dict_mem_of_get hd)] at hx
    cases hx
  · cases hv
    rw [show sampleConfig.service.defaults.get "db_type".toList = some "sqlite".toList by decide] at hx
    cases hx
    decide
  · rw [show sampleConfig.service.defaults.get "db_type".toList = some "sqlite".toList by decide] at hx
    cases hx

example : getConf asciiUni otherPepper "PASS_PEPPER".toList true "AAUTH".toList = .ok (some "salt".toList) := by decide
/-- all hypotheses hold together -/
example (args : List Str) (st : Stores AARow) : (toolMain asciiUni sampleConfig (toolWorld {}) args st).2 =
    (toolMain asciiUni otherPepper (toolWorld {}) args st).2 :=
  (secrets_unsaid (toolWorld {}) asciiUni_lawful (by decide) (by decide) otherPepper_same sample_noMysql (fun _ _ _ _ => rfl)
    (fun _ _ _ _ _ _ => rfl) args st).2

end Verif.Props
