import Verif.Props.Tools
import Verif.Proofs.Integer

/-!
# Generated attributes and the command line (C97, C98)
-/

namespace Verif.Props

open Proofs Spec

variable {U : Uni} {c : Config} {create : Str → Except PyExc Unit} {faults faults' : DbFaults} {collate : Str → Str}
  {st : Stores AARow} {es : Engines} {e : Engine}

/-! ### C97: `gen_atts` and `pop_and_gen` -/

/-- The rows of the first attributes. -/
abbrev genRows (n : Nat) : List AARow := (List.range n).flatMap genAttRows

theorem genId_inj {i j : Nat} (h : genId i = genId j) : i = j := by
  unfold genId at h
  have h' := List.append_cancel_left h
  rw [decimal_nat, decimal_nat] at h'
  rw [← Nat.ofDigitChars_ten_toDigits (n := i), h', Nat.ofDigitChars_ten_toDigits]

theorem mem_genRows {n : Nat} {r : AARow} :
    r ∈ genRows n ↔ ∃ i < n, r = .attribute (genAttribute i) ∨ r = .assignment (genAssignment i) := by
  unfold genRows
  rw [List.mem_flatMap]
  refine exists_congr fun i => and_congr List.mem_range ?_
  unfold genAttRows
  rw [List.mem_cons, List.mem_singleton]
  exact Iff.rfl

theorem genRows_keys {n : Nat} (hinj : ∀ i j, i < n → j < n → collate (genId i) = collate (genId j) → i = j) :
    ((genRows n).map (AARow.key collate)).Nodup := by
  unfold genRows
  rw [List.map_flatMap, List.nodup_flatMap]
  refine ⟨fun i _ => ?_, ?_⟩
  · simp [genAttRows, AARow.key]
  · refine (List.pairwise_of_forall_mem_list (l := List.range n) (r := fun i j => i = j ∨ List.Disjoint
        ((genAttRows i).map (AARow.key collate)) ((genAttRows j).map (AARow.key collate))) fun i hi j hj => ?_).and
        (List.nodup_range (n := n)) |>.imp ?_
    · by_cases hij : i = j
      · exact .inl hij
      · right
        have hne : collate (genId i) ≠ collate (genId j) := fun h => hij (hinj i j (List.mem_range.mp hi) (List.mem_range.mp hj) h)
        unfold genId at hne
        simp only [genAttRows, List.map_cons, List.map_nil, AARow.key, List.disjoint_cons_left, List.mem_cons, List.not_mem_nil,
          or_false, List.disjoint_nil_left, and_true, Sum.inr.injEq, Sum.inl.injEq, reduceCtorEq, Prod.mk.injEq, true_and,
          false_or]
        exact ⟨hne, hne⟩
    · rintro i j ⟨h | h, hne⟩
      · exact absurd h hne
      · exact h

/-- None of the generated attributes and assignments exists. -/
def GenFree (collate : Str → Str) (rows : List AARow) (n : Nat) : Prop :=
  ∀ i < n, (∀ t, .attribute t ∈ rows → collate t.id ≠ collate (genId i)) ∧
    ∀ a, .assignment a ∈ rows → a.userId = 1 → collate a.attId ≠ collate (genId i)

/-- **C97**: `gen_atts` adds an attribute and an assignment to the first user for each number below the given one, or changes
nothing and raises an `IntegrityError` if one of them exists; for a negative number it adds nothing. -/
theorem genAtts_rows (hes : getSession U c create st.engines "AAUTH".toList = (es, .ok (some e))) (ha : faults.add = none)
    (n : Int) (hinj : ∀ i j, i < n.toNat → j < n.toNat → collate (genId i) = collate (genId j) → i = j)
    (r : Stores AARow × Except PyExc Unit) (hr : genAtts U collate c create faults st n = r) :
    r.1.engines = es ∧ (∀ p, p ≠ e.place → r.1.rows p = st.rows p) ∧
    (GenFree collate (st.rows e.place) n.toNat → r.2 = .ok () ∧ r.1.rows e.place = st.rows e.place ++ genRows n.toNat) ∧
    (¬ GenFree collate (st.rows e.place) n.toNat → r.2 = .error .integrityError ∧ r.1.rows e.place = st.rows e.place) := by
  subst hr
  unfold genAtts
  rw [hes]
  dsimp only
  obtain ⟨_, i2, i3⟩ := insertRows_spec (T := aaTables collate) (faults := faults) (e := e)
    (st := { st with engines := es }) (new := genRows n.toNat)
  have hfit : NewRows (aaTables collate) (st.rows e.place) (genRows n.toNat) ↔
      GenFree collate (st.rows e.place) n.toNat := by
    unfold NewRows GenFree
    constructor
    · rintro ⟨_, h⟩ i hi
      refine ⟨fun t ht he => ?_, fun a ha hu he => ?_⟩
      · refine h _ (mem_genRows.mpr ⟨i, hi, .inl rfl⟩) _ ht ?_
        exact congrArg (fun x => Sum.inr (Sum.inl x)) he.symm
      · refine h _ (mem_genRows.mpr ⟨i, hi, .inr rfl⟩) _ ha ?_
        exact congrArg (fun x => Sum.inr (Sum.inr x)) (Prod.ext hu.symm he.symm)
    · intro h
      refine ⟨genRows_keys hinj, fun r hr s hs he => ?_⟩
      obtain ⟨i, hi, rfl | rfl⟩ := mem_genRows.mp hr
      · cases s with
        | user u => cases he
        | «attribute» t => exact (h i hi).1 t hs (Sum.inl.inj (Sum.inr.inj he)).symm
        | assignment a => cases Sum.inr.inj he
      · cases s with
        | user u => cases he
        | «attribute» t => cases Sum.inr.inj he
        | assignment a =>
          have := Prod.mk.inj (Sum.inr.inj (Sum.inr.inj he))
          exact (h i hi).2 a hs this.1.symm this.2.symm
  by_cases h : GenFree collate (st.rows e.place) n.toNat
  · obtain ⟨k1, k2, _, k4, k5⟩ := i3 ha (hfit.mpr h)
    exact ⟨k2, k5, fun _ => ⟨k1, k4⟩, fun h' => absurd h h'⟩
  · rw [i2 ha (fun h' => h (hfit.mp h'))]
    exact ⟨rfl, fun _ _ => rfl, fun h' => absurd h' h, fun _ => ⟨rfl, rfl⟩⟩

theorem aaTablesOf_append (l m : List AARow) : aaTablesOf (l ++ m) =
    ⟨(aaTablesOf l).users ++ (aaTablesOf m).users, (aaTablesOf l).attributes ++ (aaTablesOf m).attributes,
      (aaTablesOf l).assignments ++ (aaTablesOf m).assignments⟩ := by
  simp [aaTablesOf]

theorem aaTablesOf_gen (l : List Nat) : aaTablesOf (l.flatMap genAttRows) = ⟨[], l.map genAttribute, l.map genAssignment⟩ := by
  induction l with
  | nil => rfl
  | cons i l ih =>
    rw [List.flatMap_cons, aaTablesOf_append, ih]
    rfl

/-- **C97**: `pop_and_gen` leaves one user, the attributes and their assignments, and nothing else, in the database. -/
theorem popAndGen_rows (hU : U.Lawful) (hes : getSession U c create st.engines "AAUTH".toList = (es, .ok (some e)))
    (hw : faults.wipe = none) (ha : faults.add = none) (ha' : faults'.add = none) (n : Int)
    (hinj : ∀ i j, i < n.toNat → j < n.toNat → collate (genId i) = collate (genId j) → i = j)
    (r : Stores AARow × Except PyExc Unit) (hr : popAndGen U collate c create faults faults' st n = r) :
    r.2 = .ok () ∧ (∀ p, p ≠ e.place → r.1.rows p = st.rows p) ∧
    aaTablesOf (r.1.rows e.place) =
      ⟨[demoUser], (List.range n.toNat).map genAttribute, (List.range n.toNat).map genAssignment⟩ := by
  subst hr
  unfold popAndGen
  generalize hp : populateRows U (aaTables collate) c create faults st "AAUTH".toList [.user demoUser] true false = q
  have hlow : U.lower "AAUTH".toList = "aauth".toList := by
    rw [hU.lower_ascii _ (by decide)]
    decide
  have hes' : getSession U c create st.engines (dbSection "AAUTH".toList false) = (es, .ok (some e)) := hes
  obtain ⟨h1, _, h3, _, _, h4⟩ := populate_rows (T := aaTables collate) (faults := faults) hes' q hp
  obtain ⟨_, _, h6⟩ := h4 (fun _ => ⟨by rw [hlow]; decide, hw⟩)
  have hk : keptRows (aaTables collate) (U.lower "AAUTH".toList) true (st.rows e.place) = [] := by
    unfold keptRows
    rw [if_pos rfl, hlow]
    exact List.filter_eq_nil_iff.mpr (fun r _ h => of_decide_eq_true h rfl)
  rw [hk] at h6
  obtain ⟨h7, h8⟩ := h6 ha ⟨List.nodup_singleton _, fun _ _ _ h => (by cases h)⟩
  obtain ⟨s, o⟩ := q
  dsimp only at h1 h3 h7 h8 ⊢
  subst h8
  dsimp only
  have hcache : getSession U c create s.engines "AAUTH".toList = (es, .ok (some e)) := by
    rw [h1]
    have := getEngine_caches (U := U) c create st.engines "AAUTH".toList e (by unfold getSession at hes; rw [hes])
    unfold getSession at hes ⊢
    rw [hes] at this
    dsimp only at this
    unfold getEngine
    rw [this]
  obtain ⟨_, k2, k3, _⟩ := genAtts_rows hcache ha' n hinj _ rfl
  have k3 := k3 (fun i _ => by
    rw [h7]
    refine ⟨fun t ht => ?_, fun a ht => ?_⟩
    · cases List.mem_singleton.mp ht
    · cases List.mem_singleton.mp ht)
  refine ⟨k3.1, fun p hp => (k2 p hp).trans (h3 p hp), ?_⟩
  rw [k3.2, h7, aaTablesOf_append, aaTablesOf_gen]
  rfl

/-- **C97**: from such a database the authority reads exactly the generated attributes for the user. -/
theorem popAndGen_assigned {db : AAuthDb} {n : Nat}
    (hdb : db = ⟨[demoUser], (List.range n).map genAttribute, (List.range n).map genAssignment⟩)
    (hinj : ∀ i j, i < n → j < n → collate (genId i) = collate (genId j) → i = j) :
    PrimaryKeys collate db ∧ UserNamed collate db "dan".toList demoUser ∧
    (∀ x, Assigned collate db demoUser.id x ↔ ∃ i < n, x = ⟨genAttribute i, some (decimal i)⟩) ∧
    ∀ user, user ≠ demoUser.id → ∀ x, ¬ Assigned collate db user x := by
  subst hdb
  have hnd : ((List.range n).map (fun i => collate (genId i))).Nodup := by
    rw [List.nodup_map_iff_inj_on List.nodup_range]
    exact fun i hi j hj h => hinj i j (List.mem_range.mp hi) (List.mem_range.mp hj) h
  refine ⟨⟨?_, ?_⟩, ?_, fun x => ?_, fun user hu x => ?_⟩
  · rw [List.map_map]
    exact hnd
  · rw [List.map_map]
    have : ((List.range n).map (fun i => (1, collate (genId i)) : Nat → Int × Str)) =
        ((List.range n).map (fun i => collate (genId i))).map (Prod.mk 1) := by rw [List.map_map]; rfl
    exact this ▸ hnd.map (fun _ _ h => (Prod.mk.inj h).2)
  · exact ⟨[], [], rfl, rfl, fun _ h => (by cases h)⟩
  · unfold Assigned
    simp only [List.mem_map, List.mem_range]
    constructor
    · rintro ⟨⟨i, hi, h1⟩, _, ⟨j, hj, rfl⟩, _, h2, h3⟩
      have : j = i := by
        refine hinj j i hj hi ?_
        rw [← h1] at h2
        exact h2
      subst this
      refine ⟨j, hi, ?_⟩
      obtain ⟨xa, xv⟩ := x
      dsimp only at h1 h3
      rw [← h1, ← h3]
      rfl
    · rintro ⟨i, hi, rfl⟩
      exact ⟨⟨i, hi, rfl⟩, _, ⟨i, hi, rfl⟩, rfl, rfl, rfl⟩
  · rintro ⟨_, a, ha, h1, _⟩
    obtain ⟨i, _, rfl⟩ := List.mem_map.mp ha
    exact hu h1.symm

/-- **C97**: a second `gen_atts` fails and changes nothing. -/
theorem genAtts_again (hes : getSession U c create st.engines "AAUTH".toList = (es, .ok (some e))) (ha : faults.add = none)
    {m n : Int} (hm : 0 < m) (hn : 0 < n)
    (hinj : ∀ i j, i < n.toNat → j < n.toNat → collate (genId i) = collate (genId j) → i = j)
    (hrows : ∀ i < m.toNat, AARow.attribute (genAttribute i) ∈ st.rows e.place) :
    (genAtts U collate c create faults st n).2 = .error .integrityError ∧
    (genAtts U collate c create faults st n).1.rows = st.rows := by
  obtain ⟨_, h2, _, h3⟩ := genAtts_rows hes ha n hinj _ rfl
  have h3 := h3 (fun h => (h 0 (by omega)).1 _ (hrows 0 (by omega)) rfl)
  refine ⟨h3.1, funext fun p => ?_⟩
  by_cases hp : p = e.place
  · rw [hp, h3.2]
  · exact h2 p hp

/-! ### C98: the command line -/

/-- The commands that are accepted, and what they do. -/
inductive Runs (U : Uni) (c : Config) : List Str → ToolAction → Prop
  | buildAll (cmd : Str) : U.lower cmd = "build".toList → Runs U c [cmd, "all".toList] (.build ["aauth".toList, "pauth".toList])
  | build (cmd s : Str) (services : List Str) : U.lower cmd = "build".toList → s :: services ≠ ["all".toList] →
      Runs U c (cmd :: s :: services) (.build ((s :: services).map U.lower))
  | genkey (cmd kind : Str) (file pass : Option Str) : U.lower cmd = "genkey".toList → U.lower kind = "aauth".toList →
      Setting U c "KEY_FILE".toList true "AAUTH".toList file → Setting U c "KEY_PASS".toList true "AAUTH".toList pass →
      Runs U c [cmd, kind] (.genkey file pass)
  | populateAll (cmd name : Str) : U.lower cmd ∈ ["populate".toList, "pop".toList] → U.lower name = "all".toList →
      Runs U c [cmd, name] (.populate ["AAUTH".toList, "PAUTH".toList])
  | populateAauth (cmd name : Str) : U.lower cmd ∈ ["populate".toList, "pop".toList] → U.lower name = "aauth".toList →
      Runs U c [cmd, name] (.populate ["AAUTH".toList])
  | populatePauth (cmd name : Str) : U.lower cmd ∈ ["populate".toList, "pop".toList] → U.lower name = "pauth".toList →
      Runs U c [cmd, name] (.populate ["PAUTH".toList])
  | password (cmd service text : Str) (pepper : Option Str) : U.lower cmd ∈ ["password".toList, "pass".toList] →
      Setting U c "PASS_PEPPER".toList true (U.upper service) pepper →
      Runs U c [cmd, service, text] (.password (text ++ pepper.getD "None".toList))
  | genatts (cmd text : Str) (n : Int) : U.lower cmd = "genatts".toList → IntText U 10 text n →
      Runs U c [cmd, text] (.genatts n)
  | nothing (cmd : Str) (args : List Str) : U.lower cmd ∉ toolCommands → Runs U c (cmd :: args) .nothing

/-- The commands that are refused, and the exceptions. -/
inductive Refused (U : Uni) : List Str → PyExc → Prop
  | empty : Refused U [] (.exception "Need at least one command argument.")
  | build (cmd : Str) : U.lower cmd = "build".toList → Refused U [cmd] (.exception "Need at least one service name.")
  | genkey (cmd : Str) (args : List Str) : U.lower cmd = "genkey".toList → args.length ≠ 1 →
      Refused U (cmd :: args) (.exception "Need a key type.")
  | kind (cmd kind : Str) : U.lower cmd = "genkey".toList → U.lower kind ≠ "aauth".toList →
      Refused U [cmd, kind] (.exception "Unknown key type.")
  | populate (cmd : Str) (args : List Str) : U.lower cmd ∈ ["populate".toList, "pop".toList] → args.length ≠ 1 →
      Refused U (cmd :: args) (.exception "Need a service name.")
  | name (cmd name : Str) : U.lower cmd ∈ ["populate".toList, "pop".toList] →
      U.lower name ∉ ["all".toList, "aauth".toList, "pauth".toList] → Refused U [cmd, name] (.exception "Unknown key type.")
  | password (cmd : Str) (args : List Str) : U.lower cmd ∈ ["password".toList, "pass".toList] → args.length ≠ 2 →
      Refused U (cmd :: args) (.exception "Need a service name.")
  | genatts (cmd : Str) (args : List Str) : U.lower cmd = "genatts".toList → args.length ≠ 1 →
      Refused U (cmd :: args) (.exception "Need number of attributes.")
  | number (cmd text : Str) : U.lower cmd = "genatts".toList → (∀ n, ¬ IntText U 10 text n) → Refused U [cmd, text] .valueError

/-- Every command line is accepted or refused. -/
theorem tool_total (hU : U.Lawful) (hs : c.service.sections.get defaultSect = none) (args : List Str) :
    match toolCommand U c args with
    | .ok act => Runs U c args act
    | .error x => Refused U args x := by
  have conf : ∀ (n sect : Str), n.all isAscii = true → ∃ v, getConf U c n true sect = .ok v ∧ Setting U c n true sect v := by
    intro n sect hn
    obtain ⟨v, hv⟩ := (getConf_terminates hU c 0 n true sect).2
    exact ⟨v, hv, (getConf_ascii hU c n true sect hs hn v).mp hv⟩
  cases args with
  | nil => exact .empty
  | cons cmd args =>
    unfold toolCommand
    dsimp only
    by_cases h1 : U.lower cmd = "build".toList
    · rw [if_pos h1]
      cases args with
      | nil => exact .build cmd h1
      | cons s services =>
        unfold buildCommand
        dsimp only
        by_cases h : s :: services = ["all".toList]
        · rw [if_pos h, h]
          exact .buildAll cmd h1
        · rw [if_neg h]
          exact .build cmd s services h1 h
    rw [if_neg h1]
    by_cases h2 : U.lower cmd = "genkey".toList
    · rw [if_pos h2]
      match args with
      | [] => exact .genkey cmd [] h2 (by decide)
      | _ :: _ :: _ => exact .genkey cmd _ h2 (by simp)
      | [kind] =>
        unfold genkeyCommand
        dsimp only
        by_cases h : U.lower kind = "aauth".toList
        · rw [if_pos h]
          obtain ⟨f, hf, hf'⟩ := conf "KEY_FILE".toList "AAUTH".toList (by decide)
          obtain ⟨p, hp, hp'⟩ := conf "KEY_PASS".toList "AAUTH".toList (by decide)
          rw [hf, hp]
          exact .genkey cmd kind f p h2 h hf' hp'
        · rw [if_neg h]
          exact .kind cmd kind h2 h
    rw [if_neg h2]
    by_cases h3 : U.lower cmd = "populate".toList ∨ U.lower cmd = "pop".toList
    · rw [if_pos h3]
      have h3' : U.lower cmd ∈ ["populate".toList, "pop".toList] := by simpa using h3
      match args with
      | [] => exact .populate cmd [] h3' (by decide)
      | _ :: _ :: _ => exact .populate cmd _ h3' (by simp)
      | [name] =>
        unfold populateCommand
        dsimp only
        by_cases a1 : U.lower name = "all".toList
        · rw [if_pos a1]
          exact .populateAll cmd name h3' a1
        rw [if_neg a1]
        by_cases a2 : U.lower name = "aauth".toList
        · rw [if_pos a2]
          exact .populateAauth cmd name h3' a2
        rw [if_neg a2]
        by_cases a3 : U.lower name = "pauth".toList
        · rw [if_pos a3]
          exact .populatePauth cmd name h3' a3
        rw [if_neg a3]
        refine .name cmd name h3' ?_
        rw [List.mem_cons, List.mem_cons, List.mem_singleton]
        rintro (h | h | h)
        · exact a1 h
        · exact a2 h
        · exact a3 h
    rw [if_neg h3]
    by_cases h4 : U.lower cmd = "password".toList ∨ U.lower cmd = "pass".toList
    · rw [if_pos h4]
      have h4' : U.lower cmd ∈ ["password".toList, "pass".toList] := by simpa using h4
      match args with
      | [] => exact .password cmd [] h4' (by decide)
      | [_] => exact .password cmd _ h4' (by simp)
      | _ :: _ :: _ :: _ => exact .password cmd _ h4' (by simp)
      | [service, text] =>
        unfold passwordCommand
        dsimp only
        obtain ⟨p, hp, hp'⟩ := conf "PASS_PEPPER".toList (U.upper service) (by decide)
        rw [hp]
        exact .password cmd service text p h4' hp'
    rw [if_neg h4]
    by_cases h5 : U.lower cmd = "genatts".toList
    · rw [if_pos h5]
      match args with
      | [] => exact .genatts cmd [] h5 (by decide)
      | _ :: _ :: _ => exact .genatts cmd _ h5 (by simp)
      | [text] =>
        unfold genattsCommand
        dsimp only
        cases hn : pyIntBase U 10 text with
        | ok n => exact .genatts cmd text n h5 ((pyIntBase_iff hU).mp hn)
        | error x =>
          cases pyIntBase_error hn
          refine .number cmd text h5 fun n h => ?_
          rw [(pyIntBase_iff hU).mpr h] at hn
          cases hn
    rw [if_neg h5]
    refine .nothing cmd args fun h => ?_
    unfold toolCommands at h
    simp only [List.map_cons, List.map_nil, List.mem_cons, List.not_mem_nil, or_false] at h
    rcases h with h | h | h | h | h | h | h
    · exact h1 h
    · exact h2 h
    · exact h3 (.inl h)
    · exact h3 (.inr h)
    · exact h4 (.inl h)
    · exact h4 (.inr h)
    · exact h5 h

/-- The branches of the command line. -/
theorem toolCommand_eq (cmd : Str) (args : List Str) :
    (U.lower cmd = "build".toList → toolCommand U c (cmd :: args) = buildCommand U args) ∧
    (U.lower cmd = "genkey".toList → toolCommand U c (cmd :: args) = genkeyCommand U c args) ∧
    (U.lower cmd ∈ ["populate".toList, "pop".toList] → toolCommand U c (cmd :: args) = populateCommand U args) ∧
    (U.lower cmd ∈ ["password".toList, "pass".toList] → toolCommand U c (cmd :: args) = passwordCommand U c args) ∧
    (U.lower cmd = "genatts".toList → toolCommand U c (cmd :: args) = genattsCommand U args) ∧
    (U.lower cmd ∉ toolCommands → toolCommand U c (cmd :: args) = .ok .nothing) := by
  unfold toolCommand
  dsimp only
  refine ⟨fun h => ?_, fun h => ?_, fun h => ?_, fun h => ?_, fun h => ?_, fun h => ?_⟩
  · rw [if_pos h]
  · rw [h, if_neg (by decide), if_pos rfl]
  · rw [List.mem_cons, List.mem_singleton] at h
    rw [if_neg, if_neg, if_pos h]
    · rcases h with h | h <;> rw [h] <;> decide
    · rcases h with h | h <;> rw [h] <;> decide
  · rw [List.mem_cons, List.mem_singleton] at h
    rw [if_neg, if_neg, if_neg, if_pos h]
    · rcases h with h | h <;> rw [h] <;> decide
    · rcases h with h | h <;> rw [h] <;> decide
    · rcases h with h | h <;> rw [h] <;> decide
  · rw [h, if_neg (by decide), if_neg (by decide), if_neg (by decide), if_neg (by decide), if_pos rfl]
  · unfold toolCommands at h
    simp only [List.map_cons, List.map_nil, List.mem_cons, List.not_mem_nil, or_false, not_or] at h
    obtain ⟨h1, h2, h3, h4, h5, h6, h7⟩ := h
    rw [if_neg h1, if_neg h2, if_neg (by rintro (h | h) <;> contradiction), if_neg (by rintro (h | h) <;> contradiction),
      if_neg h7]

/-- **C98**: a command line is accepted, and does something, exactly as listed. -/
theorem tool_iff (hU : U.Lawful) (hs : c.service.sections.get defaultSect = none) (args : List Str) (act : ToolAction) :
    toolCommand U c args = .ok act ↔ Runs U c args act := by
  constructor
  · intro h
    have := tool_total hU hs args
    rw [h] at this
    exact this
  · intro h
    have conf : ∀ (n sect : Str) v, n.all isAscii = true → Setting U c n true sect v → getConf U c n true sect = .ok v :=
      fun n sect v hn hv => (getConf_ascii hU c n true sect hs hn v).mpr hv
    cases h with
    | buildAll cmd h => rw [(toolCommand_eq _ _).1 h]; rfl
    | build cmd s services h hne =>
      rw [(toolCommand_eq _ _).1 h]
      unfold buildCommand
      dsimp only
      rw [if_neg hne]
    | genkey cmd kind file pass h hk hf hp =>
      rw [(toolCommand_eq _ _).2.1 h]
      unfold genkeyCommand
      dsimp only
      rw [if_pos hk, conf _ _ _ (by decide) hf, conf _ _ _ (by decide) hp]
      rfl
    | populateAll cmd name h hn =>
      rw [(toolCommand_eq _ _).2.2.1 h]
      unfold populateCommand
      dsimp only
      rw [if_pos hn]
    | populateAauth cmd name h hn =>
      rw [(toolCommand_eq _ _).2.2.1 h]
      unfold populateCommand
      dsimp only
      rw [hn, if_neg (by decide), if_pos rfl]
    | populatePauth cmd name h hn =>
      rw [(toolCommand_eq _ _).2.2.1 h]
      unfold populateCommand
      dsimp only
      rw [hn, if_neg (by decide), if_neg (by decide), if_pos rfl]
    | password cmd service text pepper h hp =>
      rw [(toolCommand_eq _ _).2.2.2.1 h]
      unfold passwordCommand
      dsimp only
      rw [conf _ _ _ (by decide) hp]
      rfl
    | genatts cmd text n h hn =>
      rw [(toolCommand_eq _ _).2.2.2.2.1 h]
      unfold genattsCommand
      dsimp only
      rw [(pyIntBase_iff hU).mpr hn]
      rfl
    | nothing cmd args h => exact (toolCommand_eq _ _).2.2.2.2.2 h

/-- **C98**: a command line is refused exactly as listed, whatever the configuration is. -/
theorem tool_refused (hU : U.Lawful) (hs : c.service.sections.get defaultSect = none) (args : List Str) (x : PyExc) :
    toolCommand U c args = .error x ↔ Refused U args x := by
  constructor
  · intro h
    have := tool_total hU hs args
    rw [h] at this
    exact this
  · intro h
    have not1 : ∀ l : List Str, l.length ≠ 1 → l = [] ∨ ∃ a b t, l = a :: b :: t := by
      intro l hl
      match l, hl with
      | [], _ => exact .inl rfl
      | a :: b :: t, _ => exact .inr ⟨a, b, t, rfl⟩
    cases h with
    | empty => rfl
    | build cmd h => rw [(toolCommand_eq _ _).1 h]; rfl
    | genkey cmd args h hl =>
      rw [(toolCommand_eq _ _).2.1 h]
      rcases not1 args hl with rfl | ⟨a, b, t, rfl⟩ <;> rfl
    | kind cmd kind h hk =>
      rw [(toolCommand_eq _ _).2.1 h]
      unfold genkeyCommand
      dsimp only
      rw [if_neg hk]
    | populate cmd args h hl =>
      rw [(toolCommand_eq _ _).2.2.1 h]
      rcases not1 args hl with rfl | ⟨a, b, t, rfl⟩ <;> rfl
    | name cmd name h hn =>
      rw [List.mem_cons, List.mem_cons, List.mem_singleton, not_or, not_or] at hn
      rw [(toolCommand_eq _ _).2.2.1 h]
      unfold populateCommand
      dsimp only
      rw [if_neg hn.1, if_neg hn.2.1, if_neg hn.2.2]
    | password cmd args h hl =>
      rw [(toolCommand_eq _ _).2.2.2.1 h]
      match args, hl with
      | [], _ => rfl
      | [_], _ => rfl
      | _ :: _ :: _ :: _, _ => rfl
    | genatts cmd args h hl =>
      rw [(toolCommand_eq _ _).2.2.2.2.1 h]
      rcases not1 args hl with rfl | ⟨a, b, t, rfl⟩ <;> rfl
    | number cmd text h hn =>
      rw [(toolCommand_eq _ _).2.2.2.2.1 h]
      unfold genattsCommand
      dsimp only
      cases hp : pyIntBase U 10 text with
      | ok n => exact absurd ((pyIntBase_iff hU).mp hp) (hn n)
      | error e => rw [pyIntBase_error hp]; rfl

variable {X : Crypto} {a : Authority X} {readKey : Option Str → Option Str → Except PyExc (X.PrivKey × Int)}

/-- **C98**: `genkey aauth` writes the file, with the passphrase, that the attribute authority reads. -/
theorem tool_genkey (hU : U.Lawful) (hs : c.service.sections.get defaultSect = none)
    (ha : Authority.init U X c readKey = .ok a) {cmd kind : Str} (h1 : U.lower cmd = "genkey".toList)
    (h2 : U.lower kind = "aauth".toList) :
    ∃ file pass, toolCommand U c [cmd, kind] = .ok (.genkey file pass) ∧ readKey file pass = .ok (a.key, a.keyBits) := by
  obtain ⟨_, _, _, _, file, pass, _, _, _, _, _, _, _, _, hf, hp, hr, _⟩ := (init_iff hU c hs readKey).mp ha
  exact ⟨file, pass, (tool_iff hU hs _ _).mpr (.genkey cmd kind file pass h1 h2 hf hp), hr⟩

/-- **C98**: what `password aauth` hashes is what the attribute authority compares with the stored hash; so a hash of it is
accepted for that password. -/
theorem tool_password (hU : U.Lawful) (hs : c.service.sections.get defaultSect = none)
    (ha : Authority.init U X c readKey = .ok a) {cmd service : Str} {cred : Credentials} {text : Str}
    (hc : cred.password = some text) (h1 : U.lower cmd ∈ ["password".toList, "pass".toList])
    (h2 : service.map asciiUpper = "AAUTH".toList) (h3 : service.all isAscii = true) :
    ∃ t, toolCommand U c [cmd, service, text] = .ok (.password t) ∧ utf8 t = Peppered a cred ∧
    ∀ (B : Bcrypt), (∀ x salt h, B.hashpw x salt = .ok h → B.checkpw x h = .ok true) →
      ∀ salt h, B.hashpw (utf8 t) salt = .ok h → B.checkpw (Peppered a cred) h = .ok true := by
  obtain ⟨_, _, _, _, _, _, _, _, _, _, _, hpep, _⟩ := (init_iff hU c hs readKey).mp ha
  have hup : U.upper service = "AAUTH".toList := (hU.upper_ascii _ (by simpa using h3)).trans h2
  have hpep' : Setting U c "PASS_PEPPER".toList true (U.upper service) a.pepper := by
    rw [hup]
    exact hpep
  have hut : utf8 (text ++ a.pepper.getD "None".toList) = Peppered a cred := by
    unfold Peppered
    rw [hc]
    rfl
  refine ⟨_, (tool_iff hU hs _ _).mpr (.password cmd service text a.pepper h1 hpep'), hut, fun B hB salt h hh => ?_⟩
  rw [← hut]
  exact hB _ _ _ hh

/-! ### Examples -/

/-- A database of the attribute authority with another user. -/
def sampleUsers : Stores AARow where
  engines := {}
  rows := fun _ => [.user ⟨1, "eve".toList, "x".toList⟩, .attribute ⟨"/attribute/user/role".toList, "role".toList, .string⟩]
  saved := []

/-- What the database contains after a call. -/
def usersAfter (r : Stores AARow × Except PyExc Unit) : AAuthDb × Except PyExc Unit :=
  (aaTablesOf (r.1.rows ("sqlite:///aauth.db".toList, none)), r.2)

example : usersAfter (popAndGen asciiUni id sampleConfig anyDriver {} {} sampleUsers 2) =
    (⟨[demoUser], [⟨"/attribute/user/a0".toList, "a0".toList, .int⟩, ⟨"/attribute/user/a1".toList, "a1".toList, .int⟩],
      [⟨1, "/attribute/user/a0".toList, some "0".toList⟩, ⟨1, "/attribute/user/a1".toList, some "1".toList⟩]⟩, .ok ()) := by
  decide +kernel
example : (usersAfter (genAtts asciiUni id sampleConfig anyDriver {}
    (popAndGen asciiUni id sampleConfig anyDriver {} {} sampleUsers 2).1 1)).2 = .error .integrityError := by decide +kernel
/-- the hypothesis about collation, for a database that distinguishes case and for one that does not -/
example (n : Nat) : ∀ i j, i < n → j < n → id (genId i) = id (genId j) → i = j := fun _ _ _ _ h => genId_inj h
example : ∀ i < 12, ∀ j < 12, (genId i).map asciiLower = (genId j).map asciiLower → i = j := by decide +kernel

example : toolCommand asciiUni sampleConfig ["Build".toList, "AAUTH".toList, "x".toList] =
    .ok (.build ["aauth".toList, "x".toList]) := by decide
example : toolCommand asciiUni sampleConfig ["build".toList, "all".toList] = .ok (.build ["aauth".toList, "pauth".toList]) := by decide
/-- `ALL` is taken for a service -/
example : toolCommand asciiUni sampleConfig ["build".toList, "ALL".toList] = .ok (.build ["all".toList]) := by decide
example : toolCommand asciiUni sampleConfig ["PASS".toList, "aauth".toList, "x".toList] = .ok (.password "xpepper".toList) := by decide
example : toolCommand asciiUni sampleConfig ["genatts".toList, " 1_0 ".toList] = .ok (.genatts 10) := by decide
example : toolCommand asciiUni sampleConfig ["genatts".toList, "ten".toList] = .error .valueError := by decide
example : toolCommand asciiUni sampleConfig ["pop".toList, "Pauth".toList] = .ok (.populate ["PAUTH".toList]) := by decide
example : toolCommand asciiUni sampleConfig ["wipe".toList, "x".toList] = .ok .nothing := by decide
example : toolCommand asciiUni sampleServiceConfig ["genkey".toList, "AAuth".toList] =
    .ok (.genkey ((getConf asciiUni sampleServiceConfig "KEY_FILE".toList true "AAUTH".toList).toOption.join)
      ((getConf asciiUni sampleServiceConfig "KEY_PASS".toList true "AAUTH".toList).toOption.join)) := by decide

end Verif.Props
