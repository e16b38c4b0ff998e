import Verif.Props.AAuth
import Verif.Spec.Tools

/-!
# Filling databases and the command line (C94–C98)
-/

namespace Verif.Props

open Proofs Spec

variable {U : Uni} {R : Type} {T : Tables R} {c : Config} {create : Str → Except PyExc Unit} {faults : DbFaults}
  {st : Stores R} {name : Str} {new : List R} {wipeFirst useTest : Bool} {es : Engines} {e : Engine}

/-! ### C94: `populate_db` -/

/-- What adding rows does. -/
theorem insertRows_spec :
    (∀ x, faults.add = some x → insertRows T faults (some e) st new = (st, .error x)) ∧
    (faults.add = none → ¬ NewRows T (st.rows e.place) new → insertRows T faults (some e) st new = (st, .error .integrityError)) ∧
    (faults.add = none → NewRows T (st.rows e.place) new →
      (insertRows T faults (some e) st new).2 = .ok () ∧
      (insertRows T faults (some e) st new).1.engines = st.engines ∧
      (insertRows T faults (some e) st new).1.saved = st.saved ∧
      (insertRows T faults (some e) st new).1.rows e.place = st.rows e.place ++ new ∧
      ∀ p, p ≠ e.place → (insertRows T faults (some e) st new).1.rows p = st.rows p) := by
  let _ := T.dec
  have hn : @newKeys _ T.dec ((st.rows e.place).map T.key) (new.map T.key) = true ↔ NewRows T (st.rows e.place) new := by
    unfold newKeys NewRows
    rw [decide_eq_true_iff]
    refine and_congr Iff.rfl ⟨fun h r hr s hs he => ?_, fun h k hk hk' => ?_⟩
    · exact h _ (List.mem_map_of_mem hr) (List.mem_map.mpr ⟨s, hs, he.symm⟩)
    · obtain ⟨r, hr, rfl⟩ := List.mem_map.mp hk
      obtain ⟨s, hs, he⟩ := List.mem_map.mp hk'
      exact h r hr s hs he.symm
  refine ⟨fun x hx => ?_, fun hf hfit => ?_, fun hf hfit => ?_⟩
  · unfold insertRows
    rw [hx]
  · unfold insertRows
    rw [hf]
    dsimp only
    rw [if_neg (fun h => hfit (hn.mp h))]
  · unfold insertRows
    rw [hf]
    dsimp only
    rw [if_pos (hn.mpr hfit)]
    refine ⟨rfl, rfl, rfl, if_pos rfl, fun p hp => if_neg hp⟩

theorem sectionName_eq : sectionName name useTest = dbSection name useTest := by
  cases useTest <;> rfl

/-- **C94**: what `populate_db` does to the database of its engine and to all others, for every outcome. -/
theorem populate_rows (hes : getSession U c create st.engines (dbSection name useTest) = (es, .ok (some e)))
    (r : Stores R × Except PyExc Unit) (hr : populateRows U T c create faults st name new wipeFirst useTest = r) :
    r.1.engines = es ∧ r.1.saved = st.saved ∧ (∀ p, p ≠ e.place → r.1.rows p = st.rows p) ∧
    (wipeFirst = true → U.lower name ∉ serviceBases → r.1.rows = st.rows ∧ r.2 = .error (.exception
      ("ERROR: HGAA name, " ++ String.ofList name ++ ", does not have known database linked to it."))) ∧
    (∀ x, wipeFirst = true → U.lower name ∈ serviceBases → faults.wipe = some x → r.1.rows = st.rows ∧ r.2 = .error x) ∧
    ((wipeFirst = true → U.lower name ∈ serviceBases ∧ faults.wipe = none) →
      let kept := keptRows T (U.lower name) wipeFirst (st.rows e.place)
      (∀ x, faults.add = some x → r.1.rows e.place = kept ∧ r.2 = .error x) ∧
      (faults.add = none → ¬ NewRows T kept new → r.1.rows e.place = kept ∧ r.2 = .error .integrityError) ∧
      (faults.add = none → NewRows T kept new → r.1.rows e.place = kept ++ new ∧ r.2 = .ok ())) := by
  subst hr
  unfold populateRows
  rw [sectionName_eq, hes]
  dsimp only
  have insert : ∀ (st' : Stores R) (kept : List R), st'.rows e.place = kept → st'.engines = es → st'.saved = st.saved →
      (∀ p, p ≠ e.place → st'.rows p = st.rows p) →
      let r := insertRows T faults (some e) st' new
      r.1.engines = es ∧ r.1.saved = st.saved ∧ (∀ p, p ≠ e.place → r.1.rows p = st.rows p) ∧
      (∀ x, faults.add = some x → r.1.rows e.place = kept ∧ r.2 = .error x) ∧
      (faults.add = none → ¬ NewRows T (kept) new → r.1.rows e.place = kept ∧ r.2 = .error .integrityError) ∧
      (faults.add = none → NewRows T (kept) new → r.1.rows e.place = kept ++ new ∧ r.2 = .ok ()) := by
    intro st' kept hk h1 h2 h3 r
    subst hk
    obtain ⟨i1, i2, i3⟩ := insertRows_spec (T := T) (faults := faults) (e := e) (st := st') (new := new)
    cases hf : faults.add with
    | some x =>
      have : r = (st', .error x) := i1 x hf
      rw [this]
      refine ⟨h1, h2, h3, fun y hy => ?_, fun h => (by cases h), fun h => (by cases h)⟩
      cases hy
      exact ⟨rfl, rfl⟩
    | none =>
      by_cases hfit : NewRows T (st'.rows e.place) new
      · obtain ⟨k1, k2, k3, k4, k5⟩ := i3 hf hfit
        exact ⟨k2.trans h1, k3.trans h2, fun p hp => (k5 p hp).trans (h3 p hp), fun _ h => (by cases h),
          fun _ h => absurd hfit h, fun _ _ => ⟨k4, k1⟩⟩
      · have : r = (st', .error .integrityError) := i2 hf hfit
        rw [this]
        exact ⟨h1, h2, h3, fun _ h => (by cases h), fun _ _ => ⟨rfl, rfl⟩, fun _ h => absurd h hfit⟩
  cases wipeFirst with
  | false =>
    rw [if_neg Bool.false_ne_true]
    dsimp only
    obtain ⟨i1, i2, i3, i4, i5, i6⟩ := insert { st with engines := es } _ rfl rfl rfl (fun _ _ => rfl)
    exact ⟨i1, i2, i3, fun h => (by cases h), fun _ h => (by cases h), fun _ => ⟨i4, i5, i6⟩⟩
  | true =>
    rw [if_pos rfl]
    unfold wipeTables
    by_cases hb : U.lower name ∈ serviceBases
    · rw [if_pos hb]
      dsimp only
      cases hf : faults.wipe with
      | some x =>
        dsimp only
        refine ⟨rfl, rfl, fun _ _ => rfl, fun _ h => absurd hb h, fun y _ _ hy => ?_, fun h => ?_⟩
        · cases hy
          exact ⟨rfl, rfl⟩
        · have := (h rfl).2
          cases this
      | none =>
        dsimp only
        obtain ⟨i1, i2, i3, i4, i5, i6⟩ := insert
          { engines := es
            rows := fun p => if p = e.place then (st.rows p).filter (fun r => T.base r ≠ U.lower name) else st.rows p
            saved := st.saved } (keptRows T (U.lower name) true (st.rows e.place)) (if_pos rfl) rfl rfl (fun p hp => if_neg hp)
        exact ⟨i1, i2, i3, fun _ h => absurd hb h, fun _ _ _ h => (by cases h), fun _ => ⟨i4, i5, i6⟩⟩
    · rw [if_neg hb]
      dsimp only
      exact ⟨rfl, rfl, fun _ _ => rfl, fun _ _ => ⟨rfl, rfl⟩, fun _ _ h => absurd h hb, fun h => absurd (h rfl).1 hb⟩

/-- **C94**: without an engine nothing is stored or deleted; only a call that has nothing to do returns. -/
theorem populate_without_engine {x : Option Engine} (hx : x = none)
    (hes : getSession U c create st.engines (dbSection name useTest) = (es, .ok x))
    (r : Stores R × Except PyExc Unit) (hr : populateRows U T c create faults st name new wipeFirst useTest = r) :
    r.1 = { st with engines := es } ∧ (r.2 = .ok () ↔ wipeFirst = false ∧ new = []) := by
  subst hr hx
  unfold populateRows
  rw [sectionName_eq, hes]
  dsimp only
  cases wipeFirst with
  | false =>
    rw [if_neg Bool.false_ne_true]
    dsimp only [insertRows]
    cases new <;> simp
  | true =>
    rw [if_pos rfl]
    unfold wipeTables
    by_cases hb : U.lower name ∈ serviceBases
    · rw [if_pos hb]
      simp
    · rw [if_neg hb]
      simp

/-- **C94**: if the engine cannot be made, the exception is raised and nothing is stored, deleted or remembered. -/
theorem populate_engine_fails {x : PyExc} {l : List (Nat × R)}
    (hes : getSession U c create st.engines (dbSection name useTest) = (es, .error x)) :
    populateRows U T c create faults st name new wipeFirst useTest = ({ st with engines := es }, .error x) ∧
    populateDb U T c create faults st name l wipeFirst useTest = ({ st with engines := es }, .error x) := by
  have key : ∀ new, populateRows U T c create faults st name new wipeFirst useTest = ({ st with engines := es }, .error x) := by
    intro new
    unfold populateRows
    rw [sectionName_eq, hes]
  refine ⟨key new, ?_⟩
  unfold populateDb
  dsimp only
  rw [key]

/-- **C94**: the wipe is committed before the new rows are added: if adding them fails, the rows of the service are lost. -/
theorem populate_lost (hes : getSession U c create st.engines (dbSection name useTest) = (es, .ok (some e)))
    (hb : U.lower name ∈ serviceBases) (hw : faults.wipe = none) {x : PyExc}
    (hr : (populateRows U T c create faults st name new true useTest).2 = .error x) :
    ∀ r ∈ (populateRows U T c create faults st name new true useTest).1.rows e.place, T.base r ≠ U.lower name := by
  obtain ⟨_, _, _, _, _, h⟩ := populate_rows (T := T) (faults := faults) (new := new) (wipeFirst := true) hes _ rfl
  obtain ⟨h1, h2, h3⟩ := h (fun _ => ⟨hb, hw⟩)
  have : (populateRows U T c create faults st name new true useTest).1.rows e.place =
      keptRows T (U.lower name) true (st.rows e.place) := by
    cases hf : faults.add with
    | some y => exact (h1 y hf).1
    | none =>
      by_cases hfit : NewRows T (keptRows T (U.lower name) true (st.rows e.place)) new
      · rw [(h3 hf hfit).2] at hr; cases hr
      · exact (h2 hf hfit).1
  intro r hr'
  rw [this] at hr'
  exact of_decide_eq_true (List.mem_filter.mp hr').2

/-! ### C95: objects that were stored -/

theorem pendingRows_fresh {saved : List Nat} {l : List (Nat × R)} (h1 : ∀ x ∈ l, x.1 ∉ saved) (h2 : (l.map Prod.fst).Nodup) :
    pendingRows saved l = l := by
  induction l generalizing saved with
  | nil => rfl
  | cons x l ih =>
    obtain ⟨i, r⟩ := x
    rw [pendingRows, if_neg (h1 (i, r) List.mem_cons_self)]
    rw [List.map_cons, List.nodup_cons] at h2
    rw [ih _ h2.2]
    intro y hy hmem
    rcases List.mem_cons.mp hmem with h | h
    · exact h2.1 (List.mem_map.mpr ⟨y, hy, h⟩)
    · exact h1 y (List.mem_cons_of_mem _ hy) h

theorem pendingRows_saved {saved : List Nat} {l : List (Nat × R)} (h : ∀ x ∈ l, x.1 ∈ saved) : pendingRows saved l = [] := by
  induction l with
  | nil => rfl
  | cons x l ih =>
    obtain ⟨i, r⟩ := x
    rw [pendingRows, if_pos (h (i, r) List.mem_cons_self)]
    exact ih (fun y hy => h y (List.mem_cons_of_mem _ hy))

/-- Every object of the list is stored or pending. -/
theorem pendingRows_all {saved : List Nat} {l : List (Nat × R)} :
    ∀ x ∈ l, x.1 ∈ (pendingRows saved l).map Prod.fst ∨ x.1 ∈ saved := by
  induction l generalizing saved with
  | nil => exact fun _ h => (by cases h)
  | cons y l ih =>
    obtain ⟨i, r⟩ := y
    intro x hx
    rw [pendingRows]
    split
    · rename_i hi
      rcases List.mem_cons.mp hx with rfl | hx
      · exact .inr hi
      · exact ih x hx
    · rcases List.mem_cons.mp hx with rfl | hx
      · exact .inl List.mem_cons_self
      · rcases ih (saved := i :: saved) x hx with h | h
        · exact .inl (List.mem_cons_of_mem _ h)
        · rcases List.mem_cons.mp h with h | h
          · exact .inl (h ▸ List.mem_cons_self)
          · exact .inr h

/-- **C95**: the first time, with new objects, exactly their rows are stored, and the objects are remembered. -/
theorem populate_first (hes : getSession U c create st.engines (dbSection name useTest) = (es, .ok (some e)))
    {l : List (Nat × R)} (hl : ∀ x ∈ l, x.1 ∉ st.saved) (hd : (l.map Prod.fst).Nodup) {st' : Stores R}
    (hb : wipeFirst = true → U.lower name ∈ serviceBases ∧ faults.wipe = none) (ha : faults.add = none) :
    populateDb U T c create faults st name l wipeFirst useTest = (st', .ok ()) ↔
      NewRows T (keptRows T (U.lower name) wipeFirst (st.rows e.place)) (l.map Prod.snd) ∧ st'.engines = es ∧
      st'.saved = l.map Prod.fst ++ st.saved ∧ (∀ p, p ≠ e.place → st'.rows p = st.rows p) ∧
      st'.rows e.place = keptRows T (U.lower name) wipeFirst (st.rows e.place) ++ l.map Prod.snd := by
  unfold populateDb
  rw [pendingRows_fresh hl hd]
  dsimp only
  generalize hp : populateRows U T c create faults st name (l.map Prod.snd) wipeFirst useTest = q
  obtain ⟨h1, h2, h3, _, _, h4⟩ := populate_rows (T := T) (faults := faults) (new := l.map Prod.snd) hes q hp
  obtain ⟨_, h5, h6⟩ := h4 hb
  by_cases hfit : NewRows T (keptRows T (U.lower name) wipeFirst (st.rows e.place)) (l.map Prod.snd)
  · obtain ⟨h7, h8⟩ := h6 ha hfit
    obtain ⟨s, o⟩ := q
    dsimp only at h1 h2 h3 h7 h8 ⊢
    subst h8
    constructor
    · intro h
      cases h
      exact ⟨hfit, h1, congrArg _ h2, h3, h7⟩
    · rintro ⟨_, k1, k2, k3, k4⟩
      obtain ⟨se, sr, ss⟩ := st'
      obtain ⟨te, tr, ts⟩ := s
      dsimp only at *
      have : tr = sr := by
        funext p
        by_cases hpp : p = e.place
        · rw [hpp, h7, k4]
        · rw [h3 p hpp, k3 p hpp]
      rw [h1, k1, k2, h2, this]
  · obtain ⟨_, h8⟩ := h5 ha hfit
    obtain ⟨s, o⟩ := q
    dsimp only at h8 ⊢
    subst h8
    exact ⟨fun h => (by cases h), fun h => absurd h.1 hfit⟩

/-- **C95**: filling a database again with the same objects, wiping it first, succeeds and leaves the tables of the service
empty: the objects count as stored, and no row is written. -/
theorem populate_again (hes : getSession U c create st.engines (dbSection name useTest) = (es, .ok (some e)))
    {l : List (Nat × R)} (hl : ∀ x ∈ l, x.1 ∈ st.saved) (hb : U.lower name ∈ serviceBases) (hw : faults.wipe = none)
    (ha : faults.add = none) :
    (populateDb U T c create faults st name l true useTest).2 = .ok () ∧
    ∀ r ∈ (populateDb U T c create faults st name l true useTest).1.rows e.place, T.base r ≠ U.lower name := by
  unfold populateDb
  rw [pendingRows_saved hl]
  dsimp only
  rw [List.map_nil]
  generalize hp : populateRows U T c create faults st name [] true useTest = q
  obtain ⟨h1, h2, h3, _, _, h4⟩ := populate_rows (T := T) (faults := faults) (new := []) hes q hp
  obtain ⟨_, _, h6⟩ := h4 (fun _ => ⟨hb, hw⟩)
  obtain ⟨h7, h8⟩ := h6 ha ⟨List.nodup_nil, fun _ h => (by cases h)⟩
  obtain ⟨s, o⟩ := q
  dsimp only at h7 h8 ⊢
  subst h8
  refine ⟨rfl, fun r hr => ?_⟩
  dsimp only at hr
  rw [h7, List.append_nil] at hr
  exact of_decide_eq_true (List.mem_filter.mp hr).2

theorem populateRows_saved {s : Stores R} {o : Except PyExc Unit}
    (hp : populateRows U T c create faults st name new wipeFirst useTest = (s, o)) : s.saved = st.saved := by
  have key : ∀ (st : Stores R) (engine : Option Engine) (s : Stores R) (o : Except PyExc Unit) (new : List R),
      insertRows T faults engine st new = (s, o) → s.saved = st.saved := by
    intro st engine s o new h
    unfold insertRows at h
    split at h
    · cases h; rfl
    · split at h
      · cases h; rfl
      · dsimp only at h
        split at h <;> cases h <;> rfl
  have key' : ∀ (st : Stores R) (engine : Option Engine) (s : Stores R) (o : Except PyExc Unit),
      wipeTables U T faults engine st name = (s, o) → s.saved = st.saved := by
    intro st engine s o h
    unfold wipeTables at h
    split at h
    · split at h
      · cases h; rfl
      · split at h <;> cases h <;> rfl
    · cases h; rfl
  unfold populateRows at hp
  rw [sectionName_eq] at hp
  rcases hg : getSession U c create st.engines (dbSection name useTest) with ⟨es, x | engine⟩
  · rw [hg] at hp
    cases hp
    rfl
  · rw [hg] at hp
    dsimp only at hp
    cases wipeFirst with
    | false =>
      rw [if_neg Bool.false_ne_true] at hp
      exact key { st with engines := es } _ _ _ _ hp
    | true =>
      rw [if_pos rfl] at hp
      rcases hw : wipeTables U T faults engine { st with engines := es } name with ⟨s', x | _⟩
      · rw [hw] at hp
        cases hp
        exact key' { st with engines := es } _ _ _ hw
      · rw [hw] at hp
        exact (key _ _ _ _ _ hp).trans (key' { st with engines := es } _ _ _ hw)

/-- **C95**: after a call that succeeded all its objects count as stored, so `populate_again` applies to the next call. -/
theorem populate_stored {l : List (Nat × R)} {st' : Stores R}
    (h : populateDb U T c create faults st name l wipeFirst useTest = (st', .ok ())) : ∀ x ∈ l, x.1 ∈ st'.saved := by
  unfold populateDb at h
  dsimp only at h
  rcases hp : populateRows U T c create faults st name ((pendingRows st.saved l).map Prod.snd) wipeFirst useTest with
    ⟨s, x | ⟨⟩⟩
  · rw [hp] at h
    cases h
  · rw [hp] at h
    cases h
    intro x hx
    dsimp only
    rw [populateRows_saved hp]
    exact List.mem_append.mpr (pendingRows_all x hx)

/-- **C95**: after a call that failed no other objects than before count as stored, so it can be tried again. -/
theorem populate_not_stored {l : List (Nat × R)} {st' : Stores R} {x : PyExc}
    (h : populateDb U T c create faults st name l wipeFirst useTest = (st', .error x)) : st'.saved = st.saved := by
  unfold populateDb at h
  dsimp only at h
  rcases hp : populateRows U T c create faults st name ((pendingRows st.saved l).map Prod.snd) wipeFirst useTest with
    ⟨s, x | ⟨⟩⟩
  · rw [hp] at h
    cases h
    exact populateRows_saved hp
  · rw [hp] at h
    cases h

/-! ### C96: which database -/

/-- The options that determine a database. -/
def dbOptions : List Str :=
  ["DB_TYPE", "DB_USER", "DB_PASS", "DB_HOST", "DB_PORT", "DB_NAME"].map String.toList

/-- **C96**: sections with the same settings lead to the same connection string. -/
theorem same_connection (hU : U.Lawful) (hs : c.service.sections.get defaultSect = none) {st st' : Engines} {n n' : Str}
    {e e' : Engine} (hset : ∀ o ∈ dbOptions, ∀ v, Setting U c o true n v ↔ Setting U c o true n' v)
    (hn : st.active.get n = none) (hn' : st'.active.get n' = none)
    (h : (getSession U c create st n).2 = .ok (some e)) (h' : (getSession U c create st' n').2 = .ok (some e')) :
    e.connect = e'.connect := by
  have uniq : ∀ o ∈ dbOptions, ∀ v v', Setting U c o true n v → Setting U c o true n' v' → v = v' := by
    intro o ho v v' hv hv'
    have ha : o.all isAscii = true := (by decide : ∀ o ∈ dbOptions, o.all isAscii = true) o ho
    have h1 := (getConf_ascii hU c o true n hs ha v).mpr hv
    have h2 := (getConf_ascii hU c o true n hs ha v').mpr ((hset o ho v').mpr hv')
    rw [h1] at h2
    exact Except.ok.inj h2
  obtain ⟨t, us, pa, ho, po, db, a1, a2, a3, a4, a5, a6, hm⟩ := engine_new hU c create st n hs hn
  obtain ⟨t', us', pa', ho', po', db', b1, b2, b3, b4, b5, b6, hm'⟩ := engine_new hU c create st' n' hs hn'
  cases uniq _ (by decide) _ _ a1 b1
  cases uniq _ (by decide) _ _ a2 b2
  cases uniq _ (by decide) _ _ a3 b3
  cases uniq _ (by decide) _ _ a4 b4
  cases uniq _ (by decide) _ _ a5 b5
  cases uniq _ (by decide) _ _ a6 b6
  unfold getSession at h h'
  cases hc : connectString (U.upper t) us pa ho po db with
  | none =>
    rw [hc] at hm
    rw [hm.2] at h
    cases h
  | some s =>
    rw [hc] at hm hm'
    dsimp only at hm hm'
    cases hx : create s with
    | error x =>
      rw [hx] at hm
      dsimp only at hm
      rw [hm.2] at h
      cases h
    | ok _ =>
      rw [hx] at hm hm'
      dsimp only at hm hm'
      rw [hm.2] at h
      rw [hm'.2] at h'
      cases h
      cases h'
      rfl

/-- **C73**: the engine tables are created in and the engine of the service are different, but connect to the same database,
unless it is in memory. -/
theorem build_same_database (hU : U.Lawful) (hs : c.service.sections.get defaultSect = none) {st st' : Engines} {n n' : Str}
    {e e' : Engine} (hup : U.upper n = U.upper n') (hn : st.active.get n = none) (hn' : st'.active.get n' = none)
    (h : (getSession U c create st n).2 = .ok (some e)) (h' : (getSession U c create st' n').2 = .ok (some e')) :
    e.connect = e'.connect ∧ (e.connect ≠ "sqlite://".toList → e.place = e'.place) ∧
    (e.connect = "sqlite://".toList → e.id ≠ e'.id → e.place ≠ e'.place) := by
  have hc : e.connect = e'.connect := by
    refine same_connection hU hs (fun o _ v => ?_) hn hn' h h'
    unfold Setting
    rw [hup]
  refine ⟨hc, fun hm => ?_, fun hm hid heq => ?_⟩
  · unfold Engine.place
    rw [← hc, if_neg hm, if_neg hm]
  · unfold Engine.place at heq
    rw [← hc, if_pos hm, if_pos hm] at heq
    exact hid (Option.some.inj (Prod.mk.inj heq).2)

/-- **C96**: if neither the section of a service nor its test section configures a database, `use_test_db` fills, and wipes,
the production database. -/
theorem test_is_production (hU : U.Lawful) (hs : c.service.sections.get defaultSect = none) {st st' : Engines} {n : Str}
    {e e' : Engine}
    (hun : ∀ sect ∈ [n, dbSection n true], ∀ d, c.service.sections.get (U.upper sect) = some d →
      ∀ o ∈ dbOptions, d.get (U.lower (U.upper o)) = none)
    (hn : st.active.get n = none) (hn' : st'.active.get (dbSection n true) = none)
    (h : (getSession U c create st n).2 = .ok (some e))
    (h' : (getSession U c create st' (dbSection n true)).2 = .ok (some e')) : e.connect = e'.connect := by
  refine same_connection hU hs (fun o ho v => ?_) hn hn' h h'
  have h1 : ∀ d, c.service.sections.get (U.upper n) = some d → d.get (U.lower (U.upper o)) = none :=
    fun d hd => hun n List.mem_cons_self d hd o ho
  have h2 : ∀ d, c.service.sections.get (U.upper (dbSection n true)) = some d → d.get (U.lower (U.upper o)) = none :=
    fun d hd => hun _ (List.mem_cons_of_mem _ List.mem_cons_self) d hd o ho
  have key : ∀ sect, (∀ d, c.service.sections.get (U.upper sect) = some d → d.get (U.lower (U.upper o)) = none) →
      (Setting U c o true sect v ↔ (∃ x, c.service.defaults.get (U.lower (U.upper o)) = some x ∧ v = some x) ∨
        c.service.defaults.get (U.lower (U.upper o)) = none ∧ Builtin true (U.upper o) v) := by
    intro sect hd
    unfold Setting
    rw [if_pos rfl]
    constructor
    · rintro (⟨d, x, h1, h2, _⟩ | ⟨_, h⟩ | ⟨_, h⟩)
      · rw [hd d h1] at h2; cases h2
      · exact .inl h
      · exact .inr h
    · rintro (h | h)
      · exact .inr (.inl ⟨hd, h⟩)
      · exact .inr (.inr ⟨hd, h⟩)
  rw [key n h1, key _ h2]

/-- **C96**: what is stored for one service cannot be seen through an engine that leads to another place; so the policy
authority, which reads the database of `AAUTH`, sees nothing of what is filled in for `PAUTH`, unless both are configured alike. -/
theorem populate_elsewhere {l : List (Nat × R)}
    (hes : getSession U c create st.engines (dbSection name useTest) = (es, .ok (some e))) {a : Engine}
    (hne : a.place ≠ e.place) : (populateDb U T c create faults st name l wipeFirst useTest).1.rows a.place = st.rows a.place := by
  unfold populateDb
  dsimp only
  generalize hp : populateRows U T c create faults st name ((pendingRows st.saved l).map Prod.snd) wipeFirst useTest = q
  have h3 := (populate_rows (T := T) (faults := faults) hes q hp).2.2.1 a.place hne
  obtain ⟨s, x | ⟨⟩⟩ := q
  · exact h3
  · exact h3

/-! ### Examples -/

/-- Two services; a row is the service, a table and a key. -/
def sampleTables : Tables (Str × Nat) := ⟨Prod.fst, Nat, inferInstance, Prod.snd⟩

/-- A row of each service in each of two databases. -/
def sampleStores : Stores (Str × Nat) where
  engines := {}
  rows := fun p =>
    if p = ("sqlite:///aauth.db".toList, none) then [("aauth".toList, 1), ("pauth".toList, 2)]
    else if p = ("sqlite:///hgaa.db".toList, none) then [("aauth".toList, 3), ("pauth".toList, 4)] else []
  saved := []

/-- New rows for the attribute authority. -/
def sampleNew : List (Nat × Str × Nat) := [(0, "aauth".toList, 1), (1, "aauth".toList, 7)]

/-- What the attribute authority's database contains after a call. -/
def sampleAfter (r : Stores (Str × Nat) × Except PyExc Unit) : List (Str × Nat) × List (Str × Nat) × Except PyExc Unit :=
  (r.1.rows ("sqlite:///aauth.db".toList, none), r.1.rows ("sqlite:///hgaa.db".toList, none), r.2)

/-- the hypotheses of `populate_rows` and `populate_first` hold -/
example : (getSession asciiUni sampleConfig anyDriver sampleStores.engines "AAUTH".toList).2 =
    .ok (some ⟨0, "sqlite:///aauth.db".toList⟩) := by decide
/-- with and without a wipe; without one the first key is in use -/
example : sampleAfter (populateDb asciiUni sampleTables sampleConfig anyDriver {} sampleStores "AAUTH".toList sampleNew true false) =
    ([("pauth".toList, 2), ("aauth".toList, 1), ("aauth".toList, 7)], [("aauth".toList, 3), ("pauth".toList, 4)], .ok ()) := by
  decide
example : sampleAfter (populateDb asciiUni sampleTables sampleConfig anyDriver {} sampleStores "AAUTH".toList sampleNew false false) =
    ([("aauth".toList, 1), ("pauth".toList, 2)], [("aauth".toList, 3), ("pauth".toList, 4)], .error .integrityError) := by decide
/-- a wipe followed by a failure, and an unknown service -/
example : sampleAfter (populateDb asciiUni sampleTables sampleConfig anyDriver {} sampleStores "AAUTH".toList
      [(0, "aauth".toList, 2)] true false) =
    ([("pauth".toList, 2)], [("aauth".toList, 3), ("pauth".toList, 4)], .error .integrityError) := by decide
example : (sampleAfter (populateDb asciiUni sampleTables sampleConfig anyDriver {} sampleStores "LADON".toList [] true false)).2.2 =
    .error (.exception "ERROR: HGAA name, LADON, does not have known database linked to it.") := by decide
/-- the same objects again -/
example : sampleAfter (populateDb asciiUni sampleTables sampleConfig anyDriver {}
      (populateDb asciiUni sampleTables sampleConfig anyDriver {} sampleStores "AAUTH".toList sampleNew true false).1
      "AAUTH".toList sampleNew true false) =
    ([("pauth".toList, 2)], [("aauth".toList, 3), ("pauth".toList, 4)], .ok ()) := by decide
/-- the rows of the policy authority go elsewhere, and its test database is the same -/
example : sampleAfter (populateDb asciiUni sampleTables sampleConfig anyDriver {} sampleStores "PAUTH".toList
      [(0, "pauth".toList, 9)] true false) =
    ([("aauth".toList, 1), ("pauth".toList, 2)], [("aauth".toList, 3), ("pauth".toList, 9)], .ok ()) := by decide
example : sampleAfter (populateDb asciiUni sampleTables sampleConfig anyDriver {} sampleStores "PAUTH".toList
      [(0, "pauth".toList, 9)] true true) =
    ([("aauth".toList, 1), ("pauth".toList, 2)], [("aauth".toList, 3), ("pauth".toList, 9)], .ok ()) := by decide
example : ∀ sect ∈ ["PAUTH".toList, dbSection "PAUTH".toList true], sampleConfig.service.sections.get (asciiUni.upper sect) = none := by
  decide
/-- the sections used -/
example : dbSection "AAUTH".toList true = "AAUTH_TEST".toList ∧ dbSection "AAUTH".toList false = "AAUTH".toList := by decide
/-- the engine cannot be made -/
example : (getSession asciiUni sampleConfig (fun _ => .error .valueError) sampleStores.engines (dbSection "AAUTH".toList true)).2 =
    .error .valueError := by decide
/-- no engine -/
example : (getSession asciiUni oracleConfig anyDriver {} "AAUTH".toList).2 = .ok none := by decide

end Verif.Props
