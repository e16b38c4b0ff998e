import Verif.Props.Commands
import Verif.Props.SampleData
import Verif.Spec.ForeignKeys

/-!
# Foreign keys of the attribute authority (C144)
-/

namespace Verif.Props

open Proofs Spec

variable {U : Uni} {c : Config} {create : Str → Except PyExc Unit} {faults faults' : DbFaults} {collate : Str → Str}
  {st : Stores AARow} {es : Engines} {e : Engine}

theorem refersInto_iff {rows : List AARow} {r : AARow} :
    r.refersInto collate rows = true ↔ LinkedIn collate [r] rows := by
  unfold LinkedIn
  cases r with
  | user u => simp [AARow.refersInto]
  | «attribute» t => simp [AARow.refersInto]
  | assignment a =>
    simp only [AARow.refersInto, Bool.and_eq_true, List.any_eq_true, List.mem_singleton, AARow.assignment.injEq, forall_eq]
    refine and_congr ⟨?_, ?_⟩ ⟨?_, ?_⟩
    · rintro ⟨r, hr, h⟩
      cases r with
      | user u => exact ⟨u, hr, of_decide_eq_true h⟩
      | «attribute» t => cases h
      | assignment a => cases h
    · rintro ⟨u, hu, h⟩
      exact ⟨_, hu, decide_eq_true h⟩
    · rintro ⟨r, hr, h⟩
      cases r with
      | user u => cases h
      | «attribute» t => exact ⟨t, hr, of_decide_eq_true h⟩
      | assignment a => cases h
    · rintro ⟨u, hu, h⟩
      exact ⟨_, hu, decide_eq_true h⟩

theorem linkedIn_iff {rows all : List AARow} :
    rows.all (AARow.refersInto collate all) = true ↔ LinkedIn collate rows all := by
  rw [List.all_eq_true]
  constructor
  · intro h a ha
    exact refersInto_iff.mp (h _ ha) a (List.mem_singleton.mpr rfl)
  · intro h r hr
    refine refersInto_iff.mpr fun a ha => ?_
    rw [List.mem_singleton] at ha
    exact h a (ha ▸ hr)

theorem linkedIn_mono {rows all all' : List AARow} (h : LinkedIn collate rows all) (hs : ∀ r ∈ all, r ∈ all') :
    LinkedIn collate rows all' := by
  intro a ha
  obtain ⟨⟨u, hu, h1⟩, t, ht, h2⟩ := h a ha
  exact ⟨⟨u, hs _ hu, h1⟩, t, hs _ ht, h2⟩

/-- Adding rows keeps the references if the new rows have theirs. -/
theorem linked_append {old new : List AARow} (h : Linked collate old) :
    Linked collate (old ++ new) ↔ LinkedIn collate new (old ++ new) := by
  constructor
  · exact fun k a ha => k a (List.mem_append_right _ ha)
  · intro k a ha
    rcases List.mem_append.mp ha with ha | ha
    · exact linkedIn_mono h (fun _ hr => List.mem_append_left _ hr) a ha
    · exact k a ha

/-- The generated rows have their references exactly if there are none or the first user is stored. -/
theorem genRows_linked {old : List AARow} {n : Nat} :
    LinkedIn collate (genRows n) (old ++ genRows n) ↔ (n = 0 ∨ HasUser old 1) := by
  constructor
  · intro h
    by_cases hn : n = 0
    · exact .inl hn
    · obtain ⟨⟨u, hu, h1⟩, _⟩ := h (genAssignment 0) (mem_genRows.mpr ⟨0, by omega, .inr rfl⟩)
      rcases List.mem_append.mp hu with hu | hu
      · exact .inr ⟨u, hu, h1⟩
      · obtain ⟨i, _, h | h⟩ := mem_genRows.mp hu <;> cases h
  · intro h a ha
    obtain ⟨i, hi, h' | h'⟩ := mem_genRows.mp ha
    · cases h'
    · cases h'
      rcases h with h | ⟨u, hu, h1⟩
      · omega
      · exact ⟨⟨u, List.mem_append_left _ hu, h1⟩, genAttribute i,
          List.mem_append_right _ (mem_genRows.mpr ⟨i, hi, .inl rfl⟩), rfl⟩

/-! ### Inserting -/

/-- The check changes nothing for rows that have their references. -/
theorem insertChecked_same {engine : Option Engine} {new : List AARow}
    (h : ∀ e, engine = some e → faults.add = none → LinkedIn collate new (st.rows e.place ++ new)) :
    insertChecked collate faults engine st new = insertRows (aaTables collate) faults engine st new := by
  unfold insertChecked
  cases engine with
  | none => rfl
  | some e =>
    dsimp only
    rw [if_neg]
    intro hc
    rw [Bool.and_eq_true, Option.isNone_iff_eq_none, Bool.not_eq_true'] at hc
    rw [linkedIn_iff.mpr (h e rfl hc.1)] at hc
    exact absurd hc.2 (by decide)

/-- Rows without their references are refused and nothing is stored. -/
theorem insertChecked_refused {new : List AARow} (ha : faults.add = none) (h : ¬ LinkedIn collate new (st.rows e.place ++ new)) :
    insertChecked collate faults (some e) st new = (st, .error .integrityError) := by
  unfold insertChecked
  dsimp only
  rw [if_pos]
  rw [ha]
  exact (Bool.and_eq_true _ _).mpr ⟨rfl, by rw [Bool.not_eq_true', ← Bool.not_eq_true]; exact fun k => h (linkedIn_iff.mp k)⟩

/-- **C144**: on a database that checks foreign keys `gen_atts` does what it does on any other if the first user is stored or no
attributes are asked for. -/
theorem genatts_linked {n : Int}
    (h : ∀ e, (getSession U c create st.engines "AAUTH".toList).2 = .ok (some e) → n ≤ 0 ∨ HasUser (st.rows e.place) 1) :
    genAttsChecked U collate c create faults st n = genAtts U collate c create faults st n := by
  unfold genAttsChecked genAtts
  rcases hg : getSession U c create st.engines "AAUTH".toList with ⟨es, x | engine⟩
  · rfl
  · rw [hg] at h
    refine insertChecked_same fun e hee _ => ?_
    refine genRows_linked.mpr ?_
    rcases h e (by rw [hee]) with h | h
    · exact .inl (Int.toNat_eq_zero.mpr h)
    · exact .inr h

/-- **C144**: otherwise it raises an `IntegrityError` and stores nothing. -/
theorem genatts_unlinked (hes : getSession U c create st.engines "AAUTH".toList = (es, .ok (some e))) (ha : faults.add = none)
    {n : Int} (hn : 0 < n) (hu : ¬ HasUser (st.rows e.place) 1) :
    genAttsChecked U collate c create faults st n = ({ st with engines := es }, .error .integrityError) := by
  unfold genAttsChecked
  rw [hes]
  dsimp only
  refine insertChecked_refused ha fun h => ?_
  rcases genRows_linked.mp h with h | h
  · omega
  · exact hu h

/-! ### Deleting -/

theorem filter_nil_links {rows : List AARow} (h : ∀ a, AARow.assignment a ∉ rows) (t : AATable) :
    deleteTable collate t rows = .ok (rows.filter (fun r => decide (r.table ≠ t))) := by
  unfold deleteTable
  dsimp only
  rw [if_neg]
  intro hc
  obtain ⟨r, hr, h2⟩ := List.any_eq_true.mp hc
  rw [Bool.and_eq_true, Bool.not_eq_true'] at h2
  cases r with
  | assignment a => exact h a (List.mem_of_mem_filter hr)
  | user u => exact absurd h2.2 (by simp [AARow.refersInto])
  | «attribute» t => exact absurd h2.2 (by simp [AARow.refersInto])

/-- The rows of tables that are not deleted. -/
def outside (order : List AATable) (rows : List AARow) : List AARow := rows.filter (fun r => decide (r.table ∉ order))

theorem deleteTables_free {order : List AATable} {rows : List AARow} (h : ∀ a, AARow.assignment a ∉ rows) :
    deleteTables collate order rows = .ok (outside order rows) := by
  induction order generalizing rows with
  | nil =>
    unfold deleteTables outside
    simp
  | cons t ts ih =>
    unfold deleteTables
    rw [filter_nil_links h]
    simp only [bind, Except.bind]
    rw [ih (fun a ha => h a (List.mem_of_mem_filter ha))]
    unfold outside
    rw [List.filter_filter]
    congr 1
    refine List.filter_congr fun r _ => ?_
    by_cases h1 : r.table = t <;> by_cases h2 : r.table ∈ ts <;> simp [h1, h2]

/-- **C144**: deleting the assignments first is never refused, whatever is stored. -/
theorem delete_children_first (ts : List AATable) (rows : List AARow) :
    deleteTables collate (.assignments :: ts) rows = .ok (outside (.assignments :: ts) rows) := by
  unfold deleteTables
  have h : deleteTable collate .assignments rows = .ok (rows.filter (fun r => decide (r.table ≠ .assignments))) := by
    unfold deleteTable
    dsimp only
    rw [if_neg]
    intro hc
    obtain ⟨r, hr, h2⟩ := List.any_eq_true.mp hc
    have h3 := of_decide_eq_true (List.mem_filter.mp hr).2
    rw [Bool.and_eq_true, Bool.not_eq_true'] at h2
    cases r with
    | assignment a => exact h3 rfl
    | user u => exact absurd h2.2 (by simp [AARow.refersInto])
    | «attribute» t => exact absurd h2.2 (by simp [AARow.refersInto])
  rw [h]
  simp only [bind, Except.bind]
  have h' : ∀ a, AARow.assignment a ∉ rows.filter (fun r => decide (r.table ≠ .assignments)) :=
    fun a ha => (of_decide_eq_true (List.mem_filter.mp ha).2 : AARow.table (.assignment a) ≠ .assignments) rfl
  rw [deleteTables_free h']
  unfold outside
  rw [List.filter_filter]
  congr 1
  refine List.filter_congr fun r _ => ?_
  by_cases h1 : r.table = .assignments <;> by_cases h2 : r.table ∈ ts <;> simp [h1, h2]

/-- **C144**: any other order is refused as soon as one assignment is stored. -/
theorem delete_parents_first {t : AATable} (ht : t ≠ .assignments) (ts : List AATable) {rows : List AARow}
    (h : Linked collate rows) {a : DbAssignment} (ha : .assignment a ∈ rows) :
    deleteTables collate (t :: ts) rows = .error .integrityError := by
  unfold deleteTables deleteTable
  dsimp only
  rw [if_pos]
  · rfl
  · refine List.any_eq_true.mpr ⟨_, List.mem_filter.mpr ⟨ha, decide_eq_true (fun h => ht h.symm)⟩, ?_⟩
    rw [Bool.and_eq_true, Bool.not_eq_true', ← Bool.not_eq_true]
    refine ⟨refersInto_iff.mpr fun b hb => ?_, fun k => ?_⟩
    · rw [List.mem_singleton] at hb
      cases hb
      exact h a ha
    · obtain ⟨⟨u, hu, _⟩, s, hs, _⟩ := refersInto_iff.mp k a (List.mem_singleton.mpr rfl)
      cases t with
      | users => exact of_decide_eq_true (List.mem_filter.mp hu).2 rfl
      | attributes => exact of_decide_eq_true (List.mem_filter.mp hs).2 rfl
      | assignments => exact ht rfl

/-- **C144**: wiping does the same on a database that checks foreign keys. -/
theorem wipe_linked {engine : Option Engine} {name : Str} :
    wipeChecked U collate faults engine st name = wipeTables U (aaTables collate) faults engine st name := by
  unfold wipeChecked
  cases engine with
  | none => rfl
  | some e =>
    dsimp only
    split
    · rename_i h
      rw [wipeOrder, delete_children_first]
      unfold wipeTables
      rw [if_pos (by rw [h.1]; decide), h.2]
      dsimp only
      have h1 : ∀ rows : List AARow, outside [.assignments, .users, .attributes] rows = [] := by
        intro rows
        unfold outside
        refine List.filter_eq_nil_iff.mpr fun r _ => ?_
        cases r <;> simp [AARow.table]
      have h2 : ∀ rows : List AARow, rows.filter (fun r => decide ((aaTables collate).base r ≠ U.lower name)) = [] := by
        intro rows
        refine List.filter_eq_nil_iff.mpr fun r _ k => of_decide_eq_true k ?_
        rw [h.1]
        rfl
      rw [h1]
      simp only [h2]
    · rfl

/-! ### Filling -/

/-- **C144**: filling does the same if the new rows have their references among themselves. -/
theorem populate_linked {name : Str} {new : List AARow} {wipe useTest : Bool} (h : LinkedIn collate new new) :
    populateChecked U collate c create faults st name new wipe useTest =
      populateRows U (aaTables collate) c create faults st name new wipe useTest := by
  unfold populateChecked populateRows
  rcases getSession U c create st.engines (sectionName name useTest) with ⟨es, x | engine⟩
  · rfl
  · dsimp only
    rw [wipe_linked]
    generalize (if wipe = true then wipeTables U (aaTables collate) faults engine { st with engines := es } name
      else ({ st with engines := es }, .ok ())) = w
    rcases w with ⟨st', x | ⟨⟩⟩
    · rfl
    · exact insertChecked_same fun _ _ _ => linkedIn_mono h fun _ hr => List.mem_append_right _ hr

/-- The sample data has its references, however texts are compared. -/
theorem sample_linked : Linked collate aauthSample := by
  have h : Linked id aauthSample := linkedIn_iff.mp (by decide +kernel)
  intro a ha
  obtain ⟨hu, t, ht, h2⟩ := h a ha
  exact ⟨hu, t, ht, congrArg collate h2⟩

theorem demoUser_linked {all : List AARow} : LinkedIn collate [.user demoUser] all := by
  intro a ha
  cases List.mem_singleton.mp ha

theorem getSession_again (hes : getSession U c create st.engines "AAUTH".toList = (es, .ok (some e))) :
    getSession U c create es "AAUTH".toList = (es, .ok (some e)) := by
  have := getEngine_caches (U := U) c create st.engines "AAUTH".toList e (by unfold getSession at hes; rw [hes])
  unfold getSession at hes ⊢
  rw [hes] at this
  dsimp only at this
  unfold getEngine
  rw [this]

/-- **C144**: the command that fills the database with the sample data is never refused for a foreign key. -/
theorem sample_unrefused {name : Str} {wipe useTest : Bool} :
    populateChecked U collate c create faults st name aauthSample wipe useTest =
      populateRows U (aaTables collate) c create faults st name aauthSample wipe useTest :=
  populate_linked sample_linked

/-- The user is in the database after a successful first step of `pop_and_gen`. -/
theorem popped_user {st' : Stores AARow}
    (h : populateRows U (aaTables collate) c create faults st "AAUTH".toList [.user demoUser] true false = (st', .ok ())) :
    ∃ e, getSession U c create st'.engines "AAUTH".toList = (st'.engines, .ok (some e)) ∧
      (getSession U c create st.engines "AAUTH".toList).2 = .ok (some e) ∧ .user demoUser ∈ st'.rows e.place := by
  generalize hs : getSession U c create st.engines "AAUTH".toList = s at h
  obtain ⟨es, o⟩ := s
  have hs' : getSession U c create st.engines (sectionName "AAUTH".toList false) = (es, o) := hs
  cases o with
  | error x =>
    unfold populateRows at h
    rw [hs'] at h
    cases h
  | ok engine =>
    cases engine with
    | none =>
      unfold populateRows at h
      rw [hs'] at h
      dsimp only at h
      rw [if_pos rfl] at h
      unfold wipeTables at h
      split at h
      · rename_i hw
        split at hw <;> cases hw <;> cases h
      · rename_i hw
        split at hw <;> cases hw
    | some e =>
      have hs'' : getSession U c create st.engines (dbSection "AAUTH".toList false) = (es, .ok (some e)) := hs
      obtain ⟨h1, _, _, h4, h5, h6⟩ := populate_rows (T := aaTables collate) (faults := faults) hs'' _ h
      dsimp only at h1 h4 h5 h6
      by_cases hb : U.lower "AAUTH".toList ∈ serviceBases
      · cases hw : faults.wipe with
        | some x => cases (h5 x rfl hb hw).2
        | none =>
          obtain ⟨k1, k2, k3⟩ := h6 (fun _ => ⟨hb, hw⟩)
          cases ha : faults.add with
          | some x => cases (k1 x ha).2
          | none =>
            by_cases hn : NewRows (aaTables collate)
                (keptRows (aaTables collate) (U.lower "AAUTH".toList) true (st.rows e.place)) [.user demoUser]
            · refine ⟨e, ?_, rfl, ?_⟩
              · rw [h1]
                exact getSession_again hs
              · rw [(k3 ha hn).1]
                exact List.mem_append_right _ (List.mem_singleton.mpr rfl)
            · cases (k2 ha hn).2
      · cases (h4 rfl hb).2

/-- **C144**: nor is `pop_and_gen`, because it stores the user its attributes are assigned to first. -/
theorem popAndGen_linked {n : Int} :
    popAndGenChecked U collate c create faults faults' st n = popAndGen U collate c create faults faults' st n := by
  unfold popAndGenChecked popAndGen
  rw [populate_linked demoUser_linked]
  rcases h : populateRows U (aaTables collate) c create faults st "AAUTH".toList [.user demoUser] true false with ⟨st', x | ⟨⟩⟩
  · rfl
  · obtain ⟨e, h1, _, h3⟩ := popped_user h
    refine genatts_linked fun e' he' => .inr ?_
    rw [h1] at he'
    cases he'
    exact ⟨_, h3, rfl⟩

/-! ### Keeping the references -/

/-- The wipe leaves all rows or none. -/
theorem wiped_rows {engine : Option Engine} {name : Str} (p : Str × Option Nat) :
    (wipeTables U (aaTables collate) faults engine st name).1.rows p = st.rows p ∨
    (wipeTables U (aaTables collate) faults engine st name).1.rows p = [] := by
  unfold wipeTables
  split
  · cases engine with
    | none => exact .inl rfl
    | some e =>
      cases faults.wipe with
      | some x => exact .inl rfl
      | none =>
        dsimp only
        by_cases hp : p = e.place
        · rw [if_pos hp]
          by_cases hl : "aauth".toList = U.lower name
          · right
            exact List.filter_eq_nil_iff.mpr fun r _ k => of_decide_eq_true k hl
          · left
            exact List.filter_eq_self.mpr fun r _ => decide_eq_true hl
        · rw [if_neg hp]
          exact .inl rfl
  · exact .inl rfl

theorem linked_nil : Linked collate [] := fun _ h => (by cases h)

theorem insertChecked_keeps {engine : Option Engine} {new : List AARow} (h : ∀ p, Linked collate (st.rows p))
    (p : Str × Option Nat) : Linked collate ((insertChecked collate faults engine st new).1.rows p) := by
  cases engine with
  | none => exact h p
  | some e =>
    by_cases hl : faults.add = none ∧ ¬ LinkedIn collate new (st.rows e.place ++ new)
    · rw [insertChecked_refused hl.1 hl.2]
      exact h p
    · rw [insertChecked_same (fun e' he ha => by
        cases he
        exact Classical.not_not.mp fun k => hl ⟨ha, k⟩)]
      obtain ⟨i1, i2, i3⟩ := insertRows_spec (T := aaTables collate) (faults := faults) (e := e) (st := st) (new := new)
      cases ha : faults.add with
      | some x =>
        rw [i1 x ha]
        exact h p
      | none =>
        by_cases hn : NewRows (aaTables collate) (st.rows e.place) new
        · obtain ⟨_, _, _, k4, k5⟩ := i3 ha hn
          by_cases hp : p = e.place
          · rw [hp, k4]
            exact (linked_append (h _)).mpr (Classical.not_not.mp fun k => hl ⟨ha, k⟩)
          · rw [k5 p hp]
            exact h p
        · rw [i2 ha hn]
          exact h p

theorem populateChecked_keeps {name : Str} {new : List AARow} {wipe useTest : Bool} (h : ∀ p, Linked collate (st.rows p))
    (p : Str × Option Nat) :
    Linked collate ((populateChecked U collate c create faults st name new wipe useTest).1.rows p) := by
  unfold populateChecked
  rcases getSession U c create st.engines (sectionName name useTest) with ⟨es, x | engine⟩
  · exact h p
  · dsimp only
    rw [wipe_linked]
    have hw : ∀ p, Linked collate ((if wipe = true then
        wipeTables U (aaTables collate) faults engine { st with engines := es } name
        else ({ st with engines := es }, .ok ())).1.rows p) := by
      intro p
      split
      · rcases wiped_rows (U := U) (collate := collate) (faults := faults) (engine := engine)
          (st := { st with engines := es }) (name := name) p with hr | hr
        · rw [hr]
          exact h p
        · rw [hr]
          exact linked_nil
      · exact h p
    generalize (if wipe = true then wipeTables U (aaTables collate) faults engine { st with engines := es } name
      else ({ st with engines := es }, .ok ())) = w at hw ⊢
    rcases w with ⟨st', x | ⟨⟩⟩
    · exact hw p
    · exact insertChecked_keeps hw p

theorem genAttsChecked_keeps {n : Int} (h : ∀ p, Linked collate (st.rows p)) (p : Str × Option Nat) :
    Linked collate ((genAttsChecked U collate c create faults st n).1.rows p) := by
  unfold genAttsChecked
  rcases getSession U c create st.engines "AAUTH".toList with ⟨es, x | engine⟩
  · exact h p
  · exact insertChecked_keeps (st := { st with engines := es }) h p

/-- What a tool does to a database that checks foreign keys, and what the database reports meanwhile. -/
def toolStep (U : Uni) (collate : Str → Str) (c : Config) (create : Str → Except PyExc Unit) (st : Stores AARow) :
    ToolUse × DbFaults × DbFaults → Stores AARow
  | (.sample, faults, _) => (populateChecked U collate c create faults st "AAUTH".toList aauthSample true false).1
  | (.generate n, faults, _) => (genAttsChecked U collate c create faults st n).1
  | (.popGenerate n, faults, faults') => (popAndGenChecked U collate c create faults faults' st n).1

/-- **C144**: whatever tools are used and whichever of them fail, no assignment of a database that checks foreign keys loses its
user or attribute. -/
theorem tools_linked (uses : List (ToolUse × DbFaults × DbFaults)) (h : ∀ p, Linked collate (st.rows p))
    (p : Str × Option Nat) : Linked collate ((uses.foldl (toolStep U collate c create) st).rows p) := by
  induction uses generalizing st with
  | nil => exact h p
  | cons u us ih =>
    refine ih fun p => ?_
    obtain ⟨u, f, f'⟩ := u
    cases u with
    | sample => exact populateChecked_keeps h p
    | generate n => exact genAttsChecked_keeps h p
    | popGenerate n =>
      unfold toolStep
      dsimp only
      unfold popAndGenChecked
      have hk := populateChecked_keeps (U := U) (c := c) (create := create) (faults := f) (name := "AAUTH".toList)
        (new := [.user demoUser]) (wipe := true) (useTest := false) h
      generalize populateChecked U collate c create f st "AAUTH".toList [.user demoUser] true false = w at hk ⊢
      rcases w with ⟨st', x | ⟨⟩⟩
      · exact hk p
      · exact genAttsChecked_keeps hk p

/-- **C144**: a database that does not check them keeps its references in `gen_atts` exactly if nothing is stored or the first
user is there. -/
theorem genatts_keeps (hes : getSession U c create st.engines "AAUTH".toList = (es, .ok (some e))) (ha : faults.add = none)
    (n : Int) (hinj : ∀ i j, i < n.toNat → j < n.toNat → collate (genId i) = collate (genId j) → i = j)
    (h : Linked collate (st.rows e.place)) :
    Linked collate ((genAtts U collate c create faults st n).1.rows e.place) ↔
      (n ≤ 0 ∨ HasUser (st.rows e.place) 1 ∨ ¬ GenFree collate (st.rows e.place) n.toNat) := by
  obtain ⟨_, _, h3, h4⟩ := genAtts_rows hes ha n hinj _ rfl
  by_cases hg : GenFree collate (st.rows e.place) n.toNat
  · rw [(h3 hg).2, linked_append h, genRows_linked, Int.toNat_eq_zero]
    simp only [hg, not_true_eq_false, or_false]
  · rw [(h4 hg).2]
    exact ⟨fun _ => .inr (.inr hg), fun _ => h⟩

/-- **C144**: without the check, `gen_atts` on a database without the first user succeeds. Nobody can ask for the attributes
then, but whoever gets the number 1 later has all of them. -/
theorem genatts_orphans (hes : getSession U c create st.engines "AAUTH".toList = (es, .ok (some e))) (ha : faults.add = none)
    (n : Int) (hinj : ∀ i j, i < n.toNat → j < n.toNat → collate (genId i) = collate (genId j) → i = j)
    (hu : ¬ HasUser (st.rows e.place) 1) (hg : GenFree collate (st.rows e.place) n.toNat)
    (r : Stores AARow × Except PyExc Unit) (hr : genAtts U collate c create faults st n = r) :
    r.2 = .ok () ∧ (∀ name v, UserNamed collate (aaTablesOf (r.1.rows e.place)) name v → v.id ≠ 1) ∧
    ∀ u : DbUser, u.id = 1 → ∀ faults : DbFaults, faults.add = none → ∀ q,
      insertRows (aaTables collate) faults (some e) r.1 [.user u] = q →
      q.2 = .ok () ∧ ∀ i < n.toNat, ⟨genAttribute i, some (decimal i)⟩ ∈ (aaTablesOf (q.1.rows e.place)).userAttributes collate u.id := by
  obtain ⟨_, _, h3, _⟩ := genAtts_rows hes ha n hinj r hr
  obtain ⟨h4, h5⟩ := h3 hg
  have hno : ¬ HasUser (r.1.rows e.place) 1 := by
    rw [h5]
    rintro ⟨u, hm, h1⟩
    rcases List.mem_append.mp hm with hm | hm
    · exact hu ⟨u, hm, h1⟩
    · obtain ⟨i, _, h | h⟩ := mem_genRows.mp hm <;> cases h
  refine ⟨h4, fun name v hv hid => ?_, fun u hid f hf q hq => ?_⟩
  · obtain ⟨b, a, hv, _⟩ := hv
    have hm : v ∈ (aaTablesOf (r.1.rows e.place)).users := by
      rw [hv]
      exact List.mem_append_right _ (List.mem_cons_self ..)
    obtain ⟨x, hx, hxv⟩ := List.mem_filterMap.mp hm
    cases x with
    | user w =>
      cases hxv
      exact hno ⟨_, hx, hid⟩
    | «attribute» t => cases hxv
    | assignment a => cases hxv
  · subst hq
    obtain ⟨_, _, i3⟩ := insertRows_spec (T := aaTables collate) (faults := f) (e := e) (st := r.1) (new := [.user u])
    obtain ⟨k1, _, _, k4, _⟩ := i3 hf ⟨List.nodup_singleton _, fun x hx y hy he => by
      rw [List.mem_singleton] at hx
      subst hx
      cases y with
      | user v =>
        have he : Sum.inl u.id = (Sum.inl v.id : Int ⊕ Str ⊕ Int × Str) := he
        exact hno ⟨v, hy, by rw [← Sum.inl.inj he, hid]⟩
      | «attribute» t => cases he
      | assignment a => cases he⟩
    refine ⟨k1, fun i hi => (userAttributes_mem ..).mpr ?_⟩
    rw [k4, h5]
    refine ⟨?_, genAssignment i, ?_, hid.symm, rfl, rfl⟩
    · exact List.mem_filterMap.mpr ⟨.attribute (genAttribute i),
        List.mem_append_left _ (List.mem_append_right _ (mem_genRows.mpr ⟨i, hi, .inl rfl⟩)), rfl⟩
    · exact List.mem_filterMap.mpr ⟨.assignment (genAssignment i),
        List.mem_append_left _ (List.mem_append_right _ (mem_genRows.mpr ⟨i, hi, .inr rfl⟩)), rfl⟩

/-! ### What assignments show -/

theorem filter_key_unique {α : Type} {κ : α → Str} {l : List α} (h : (l.map κ).Nodup) (k : Str) :
    (∃ t ∈ l, κ t = k ∧ l.filter (fun t => decide (κ t = k)) = [t]) ∨
    ((¬ ∃ t ∈ l, κ t = k) ∧ l.filter (fun t => decide (κ t = k)) = []) := by
  induction l with
  | nil => exact .inr ⟨fun ⟨_, h, _⟩ => (by cases h), rfl⟩
  | cons x l ih =>
    rw [List.map_cons, List.nodup_cons] at h
    by_cases hx : κ x = k
    · left
      refine ⟨x, List.mem_cons_self .., hx, ?_⟩
      rw [List.filter_cons_of_pos (by simpa using hx)]
      congr 1
      refine List.filter_eq_nil_iff.mpr fun t ht k' => h.1 ?_
      rw [hx, ← of_decide_eq_true k']
      exact List.mem_map_of_mem ht
    · rw [List.filter_cons_of_neg (by simpa using hx)]
      rcases ih h.2 with ⟨t, ht, h1, h2⟩ | ⟨h1, h2⟩
      · exact .inl ⟨t, List.mem_cons_of_mem _ ht, h1, h2⟩
      · right
        refine ⟨?_, h2⟩
        rintro ⟨t, ht, h3⟩
        rcases List.mem_cons.mp ht with rfl | ht
        · exact hx h3
        · exact h1 ⟨t, ht, h3⟩

/-- **C144**: the authority reads one attribute for each assignment of a user whose attribute is stored, in their order, and
none for the others. -/
theorem visible_assignments {db : AAuthDb} (h : PrimaryKeys collate db) (n : Int) :
    (db.userAttributes collate n).map (fun x => (collate x.att.id, x.value)) =
      (db.assignments.filter (fun a => decide (a.userId = n ∧ ∃ t ∈ db.attributes, collate t.id = collate a.attId))).map
        (fun a => (collate a.attId, a.value)) := by
  unfold AAuthDb.userAttributes
  generalize db.assignments = l
  induction l with
  | nil => rfl
  | cons a l ih =>
    by_cases hn : a.userId = n
    · rw [List.filter_cons_of_pos (by simpa using hn), List.flatMap_cons, List.map_append, ih]
      rcases filter_key_unique h.attributes (collate a.attId) with ⟨t, ht, h1, h2⟩ | ⟨h1, h2⟩
      · rw [h2, List.filter_cons_of_pos (by simpa using ⟨hn, t, ht, h1⟩)]
        simp [h1]
      · rw [h2, List.filter_cons_of_neg (by simpa [hn] using h1)]
        rfl
    · rw [List.filter_cons_of_neg (by simpa using hn), List.filter_cons_of_neg (by simp [hn])]
      exact ih

/-- **C144**: if the references hold, every assignment of a user is read, exactly once. -/
theorem all_visible {rows : List AARow} (h : Linked collate rows) (hp : PrimaryKeys collate (aaTablesOf rows)) (n : Int) :
    ((aaTablesOf rows).userAttributes collate n).map (fun x => (collate x.att.id, x.value)) =
      ((aaTablesOf rows).assignments.filter (fun a => decide (a.userId = n))).map (fun a => (collate a.attId, a.value)) := by
  rw [visible_assignments hp]
  congr 1
  refine List.filter_congr fun a ha => ?_
  obtain ⟨x, hx, hxa⟩ := List.mem_filterMap.mp ha
  have hm : .assignment a ∈ rows := by
    cases x with
    | user w => cases hxa
    | «attribute» t => cases hxa
    | assignment b =>
      cases hxa
      exact hx
  obtain ⟨_, t, ht, h2⟩ := h a hm
  have : ∃ t ∈ (aaTablesOf rows).attributes, collate t.id = collate a.attId :=
    ⟨t, List.mem_filterMap.mpr ⟨_, ht, rfl⟩, h2⟩
  simp only [this, and_true]

/-! ### Examples -/

/-- The sample data after it was stored can be wiped in the order used, not in the opposite one. -/
example : deleteTables id wipeOrder aauthSample = .ok [] ∧
    deleteTables id [.users, .attributes, .assignments] aauthSample = .error .integrityError := by
  decide +kernel

/-- Two attributes are generated without the first user: refused by one database, stored by the other. -/
example :
    let old : List AARow := [.user ⟨2, txt!"jess", txt!"h"⟩]
    ¬ HasUser old 1 ∧ GenFree id old 2 ∧ Linked id old ∧ ¬ Linked id (old ++ genRows 2) := by
  refine ⟨?_, ?_, ?_, ?_⟩
  · rintro ⟨u, hu, h⟩
    cases List.mem_singleton.mp hu
    exact absurd h (by decide)
  · intro i _
    exact ⟨fun t ht => (by cases List.mem_singleton.mp ht), fun t ht => (by cases List.mem_singleton.mp ht)⟩
  · intro a ha
    cases List.mem_singleton.mp ha
  · intro h
    have := linkedIn_iff.mpr h
    exact absurd this (by decide +kernel)

/-- Whoever is stored with the number 1 afterwards has them. -/
example : ((aaTablesOf ([.user ⟨2, txt!"jess", txt!"h"⟩] ++ genRows 2 ++ [.user ⟨1, txt!"mallory", txt!"h"⟩])).userAttributes
    id 1).map (fun x => x.att.name) = [txt!"a0", txt!"a1"] := by
  decide +kernel

end Verif.Props
