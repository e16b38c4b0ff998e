import Verif.Model.Database
import Verif.Proofs.Dict
import Mathlib.Data.List.Nodup

/-!
# Configuration lookup and the engine cache (C55, C56)
-/

namespace Verif.Props

open Proofs

variable {U : Uni}

/-! ### C55: `get_conf` -/

/-- The built-in values of the options: for services, and for clients. -/
def builtinTable : List (String × Option String × Option String) :=
  let format := "%(asctime)s: [%(levelname)s: %(name)s] %(message)s"
  let date := "%m/%d/%Y %I:%M:%S %p"
  [("CLEAN_LOG_ON_START", some "True", some "False"),
   ("DB_HOST", some "localhost", none), ("DB_NAME", some "hgaa", none), ("DB_PORT", some "3306", none),
   ("DB_TYPE", some "mysql", none),
   ("LOG_DATE_FORMAT", some date, some date), ("LOG_FILE", some "hgaa_service.log", some "hgaa_client.log"),
   ("LOG_FORMAT", some format, some format), ("LOG_LEVEL", some "ALL", some "ALL"),
   ("LOG_NAME", some "services", some "clients"), ("LOG_STDOUT", some "True", some "True"),
   ("SERVICE_ENABLED", some "True", none), ("SERVICE_HOST", some "", none), ("SERVICE_PORT", some "8888", none),
   ("SQL_LOG_DATE_FORMAT", some date, none), ("SQL_LOG_FILE", some "sql.log", none),
   ("SQL_LOG_FORMAT", some format, none), ("SQL_LOG_LEVEL", some "ALL", none), ("SQL_LOG_STDOUT", some "True", none)]

/-- `v` is the built-in value of an option. -/
def Builtin (service : Bool) (name : Str) (v : Option Str) : Prop :=
  (∃ r ∈ builtinTable, name = r.1.toList ∧ v = (if service then r.2.1 else r.2.2).map String.toList) ∨
  ((∀ r ∈ builtinTable, name ≠ r.1.toList) ∧ v = none)

/-- What the documentation of the configuration promises: the value of the section, else of `DEFAULT`, else the
built-in one. A section is looked up under its upper-cased name, an option under its upper- and then lower-cased
name. -/
def Setting (U : Uni) (c : Config) (name : Str) (service : Bool) (sect : Str) (v : Option Str) : Prop :=
  let ini := if service then c.service else c.client
  let key := U.lower (U.upper name)
  (∃ d x, ini.sections.get (U.upper sect) = some d ∧ d.get key = some x ∧ v = some x) ∨
  ((∀ d, ini.sections.get (U.upper sect) = some d → d.get key = none) ∧ ∃ x, ini.defaults.get key = some x ∧ v = some x) ∨
  ((∀ d, ini.sections.get (U.upper sect) = some d → d.get key = none) ∧ ini.defaults.get key = none ∧
    Builtin service (U.upper name) v)

theorem builtin_iff (service : Bool) (name : Str) (v : Option Str) :
    Builtin service name v ↔ v = ((builtinConfigs service).get name).join := by
  have h1 : ∀ r ∈ builtinTable, ∀ service, ((builtinConfigs service).get r.1.toList).join =
      (if service then r.2.1 else r.2.2).map String.toList := by decide +kernel
  have h2 : ∀ service, ∀ k ∈ (builtinConfigs service).map Prod.fst, (∃ r ∈ builtinTable, k = r.1.toList) ∨
      ((builtinConfigs service).get k).join = none := by decide +kernel
  have h3 : (∀ r ∈ builtinTable, name ≠ r.1.toList) → ((builtinConfigs service).get name).join = none := by
    intro h
    cases hg : (builtinConfigs service).get name with
    | none => rfl
    | some x =>
      rcases h2 service name (List.mem_map.mpr ⟨_, dict_mem_of_get hg, rfl⟩) with ⟨r, hr, he⟩ | h'
      · exact absurd he (h r hr)
      · rw [← hg]; exact h'
  constructor
  · rintro (⟨r, hr, rfl, rfl⟩ | ⟨h, rfl⟩)
    · exact (h1 r hr service).symm
    · exact (h3 h).symm
  · rintro rfl
    by_cases h : ∃ r ∈ builtinTable, name = r.1.toList
    · obtain ⟨r, hr, rfl⟩ := h
      exact .inl ⟨r, hr, rfl, h1 r hr service⟩
    · have h' : ∀ r ∈ builtinTable, name ≠ r.1.toList := fun r hr he => h ⟨r, hr, he⟩
      exact .inr ⟨h', h3 h'⟩

theorem upper_defaultSect (hU : U.Lawful) : U.upper defaultSect = defaultSect := by
  rw [hU.upper_ascii _ (by decide)]
  decide

theorem getConfN_default (hU : U.Lawful) (c : Config) (n : Nat) (name : Str) (service : Bool)
    (hs : (c.ini service).sections.get defaultSect = none) :
    getConfN U c (n + 1) name service defaultSect =
      .ok (((c.ini service).defaults.get (U.lower (U.upper name))).or ((builtinConfigs service).get (U.upper name)).join) := by
  rw [getConfN]
  rw [upper_defaultSect hU, hs]
  simp only [Ini.option, Option.getD_none, dict_get_nil, Option.none_or]
  cases (c.ini service).defaults.get (U.lower (U.upper name)) <;> simp

theorem getConfN_eq (hU : U.Lawful) (c : Config) (n : Nat) (name : Str) (service : Bool) (sect : Str)
    (hs : (c.ini service).sections.get defaultSect = none) (hup : U.upper (U.upper name) = U.upper name) :
    getConfN U c (n + 2) name service sect =
      .ok (((((c.ini service).sections.get (U.upper sect)).getD []).get (U.lower (U.upper name))).or
        (((c.ini service).defaults.get (U.lower (U.upper name))).or ((builtinConfigs service).get (U.upper name)).join)) := by
  rw [getConfN]
  rw [Ini.option]
  cases h1 : (((c.ini service).sections.get (U.upper sect)).getD []).get (U.lower (U.upper name)) with
  | some v => rfl
  | none =>
    cases h2 : (c.ini service).defaults.get (U.lower (U.upper name)) with
    | some v => rfl
    | none =>
      simp only [Option.none_or]
      rw [getConfN_default hU c n _ service hs, hup, h2, Option.none_or, ite_self]

/-- **C55**: precedence of the values, for every name whose upper case is stable, so for every ASCII name. `hs` says
that the parser holds no section called `DEFAULT`, which `ConfigParser` guarantees. -/
theorem getConf_precedence (hU : U.Lawful) (c : Config) (name : Str) (service : Bool) (sect : Str)
    (hs : (c.ini service).sections.get defaultSect = none) (hup : U.upper (U.upper name) = U.upper name)
    (v : Option Str) :
    getConf U c name service sect = .ok v ↔ Setting U c name service sect v := by
  rw [getConf, getConfN_eq hU c 0 name service sect hs hup]
  have hc : (if service = true then c.service else c.client) = c.ini service := rfl
  simp only [Except.ok.injEq, Setting, hc, builtin_iff]
  cases h1 : (c.ini service).sections.get (U.upper sect) with
  | none =>
    cases h2 : (c.ini service).defaults.get (U.lower (U.upper name)) <;> simp [dict_get_nil, eq_comm]
  | some d =>
    cases h3 : d.get (U.lower (U.upper name)) with
    | some x => simp [h3, eq_comm]
    | none => cases h2 : (c.ini service).defaults.get (U.lower (U.upper name)) <;> simp [h3, eq_comm]

theorem asciiUpper_idem (c : Char) (h : isAscii c = true) : asciiUpper (asciiUpper c) = asciiUpper c := by
  have key : ∀ n : Nat, n < 128 → asciiUpper (asciiUpper (Char.ofNat n)) = asciiUpper (Char.ofNat n) := by decide
  have := key c.toNat (of_decide_eq_true h)
  rwa [Char.ofNat_toNat] at this

theorem asciiUpper_ascii (c : Char) (h : isAscii c = true) : isAscii (asciiUpper c) = true := by
  have key : ∀ n : Nat, n < 128 → isAscii (asciiUpper (Char.ofNat n)) = true := by decide
  have := key c.toNat (of_decide_eq_true h)
  rwa [Char.ofNat_toNat] at this

theorem upper_upper_ascii (hU : U.Lawful) (s : Str) (h : s.all isAscii = true) : U.upper (U.upper s) = U.upper s := by
  have h' := List.all_eq_true.mp h
  rw [hU.upper_ascii s h, hU.upper_ascii]
  · rw [List.map_map]
    apply List.map_congr_left
    intro c hc
    exact asciiUpper_idem c (h' c hc)
  · rw [List.all_map, List.all_eq_true]
    intro c hc
    exact asciiUpper_ascii c (h' c hc)

/-- Every ASCII name meets the hypothesis of `getConf_precedence`. -/
theorem getConf_ascii (hU : U.Lawful) (c : Config) (name : Str) (service : Bool) (sect : Str)
    (hs : (c.ini service).sections.get defaultSect = none) (ha : name.all isAscii = true) (v : Option Str) :
    getConf U c name service sect = .ok v ↔ Setting U c name service sect v :=
  getConf_precedence hU c name service sect hs (upper_upper_ascii hU name ha) v

/-- **C55**: `get_conf` calls itself at most once, whatever the configuration and the names are. -/
theorem getConf_terminates (hU : U.Lawful) (c : Config) (n : Nat) (name : Str) (service : Bool) (sect : Str) :
    getConfN U c (n + 2) name service sect = getConf U c name service sect ∧
    ∃ v, getConf U c name service sect = .ok v := by
  have h1 : ∀ k, getConfN U c (k + 1) (U.upper name) service defaultSect =
      .ok (((c.ini service).option U (((c.ini service).sections.get defaultSect).getD []) (U.upper (U.upper name))).or
        ((builtinConfigs service).get (U.upper (U.upper name))).join) := by
    intro k
    rw [getConfN, upper_defaultSect hU]
    cases (c.ini service).option U (((c.ini service).sections.get defaultSect).getD []) (U.upper (U.upper name)) <;> simp
  have h2 : ∀ k, getConfN U c (k + 2) name service sect = getConf U c name service sect := by
    intro k
    rw [getConf, getConfN, h1]
    conv_rhs => rw [getConfN, h1]
  refine ⟨h2 n, ?_⟩
  rw [getConf, getConfN, h1]
  split
  · exact ⟨_, rfl⟩
  · by_cases hd : (if ((c.ini service).sections.get (U.upper sect)).isSome = true then U.upper sect else defaultSect) =
        defaultSect
    · rw [if_pos hd]; exact ⟨_, rfl⟩
    · rw [if_neg hd]; exact ⟨_, rfl⟩

/-- **C55**: the case of the names given to `get_conf` is irrelevant. -/
theorem getConf_case (c : Config) (name name' : Str) (service : Bool) (sect sect' : Str)
    (hn : U.upper name = U.upper name') (hs : U.upper sect = U.upper sect') :
    getConf U c name service sect = getConf U c name' service sect' := by
  unfold getConf
  rw [getConfN, hn, hs]
  conv_rhs => rw [getConfN]

/-- The case of section names in the file is not: a section whose name is not in upper case is never read. -/
theorem getConf_section_unread (hU : U.Lawful) (c : Config) (name sect s : Str) (d : Dict Str)
    (hs : c.service.sections.get defaultSect = none) (hup : U.upper (U.upper name) = U.upper name)
    (hne : s ≠ U.upper sect) (hd : s ≠ defaultSect) :
    getConf U { c with service := { c.service with sections := c.service.sections.put s d } } name true sect =
      getConf U c name true sect := by
  rw [getConf, getConf, getConfN_eq hU _ 0 name true sect _ hup, getConfN_eq hU c 0 name true sect hs hup]
  · simp [Config.ini, dict_get_put, hne]
  · simp [Config.ini, dict_get_put, hd, hs]

/-- A database type and a log name are always configured. -/
theorem getConf_dbType (hU : U.Lawful) (c : Config) (sect : Str)
    (hs : c.service.sections.get defaultSect = none) :
    ∃ t, getConf U c "DB_TYPE".toList true sect = .ok (some t) := by
  have ha : ("DB_TYPE".toList : Str).all isAscii = true := by decide
  have hu : U.upper "DB_TYPE".toList = "DB_TYPE".toList := by
    rw [hU.upper_ascii _ ha]; decide
  rw [getConf, getConfN_eq hU c 0 _ true sect hs (upper_upper_ascii hU _ ha), hu]
  have hb : ((builtinConfigs true).get "DB_TYPE".toList).join = some "mysql".toList := by decide
  rw [hb]
  cases (((c.ini true).sections.get (U.upper sect)).getD []).get (U.lower "DB_TYPE".toList) with
  | some v => exact ⟨_, rfl⟩
  | none =>
    cases (c.ini true).defaults.get (U.lower "DB_TYPE".toList) with
    | some v => exact ⟨_, rfl⟩
    | none => exact ⟨_, rfl⟩

/-- A configuration like the one shipped with the services. -/
def sampleConfig : Config where
  service :=
    { defaults := [("db_type".toList, "sqlite".toList), ("db_name".toList, "hgaa".toList),
                   ("pass_pepper".toList, "pepper".toList)]
      sections := [("AAUTH".toList, [("aauth_id".toList, "localhost".toList), ("db_name".toList, "aauth".toList)]),
                   ("old".toList, [("db_name".toList, "old".toList)])] }

example : sampleConfig.service.sections.get defaultSect = none := by decide
/-- section value -/
example : getConf asciiUni sampleConfig "Db_Name".toList true "aauth".toList = .ok (some "aauth".toList) := by decide
/-- value of `DEFAULT`, for a known and an unknown section -/
example : getConf asciiUni sampleConfig "pass_pepper".toList true "AAUTH".toList = .ok (some "pepper".toList) := by decide
example : getConf asciiUni sampleConfig "DB_NAME".toList true "PAUTH".toList = .ok (some "hgaa".toList) := by decide
/-- built-in value, and none at all -/
example : getConf asciiUni sampleConfig "DB_PORT".toList true "AAUTH".toList = .ok (some "3306".toList) := by decide
example : getConf asciiUni sampleConfig "REV_URI".toList true "AAUTH".toList = .ok none := by decide
/-- built-in values of clients -/
example : getConf asciiUni sampleConfig "clean_log_on_start".toList false "X".toList = .ok (some "False".toList) := by decide
example : Builtin false "DB_PORT".toList none := (builtin_iff _ _ _).mpr (by decide)
/-- the section `old` exists, but is not found -/
example : getConf asciiUni sampleConfig "DB_NAME".toList true "old".toList = .ok (some "hgaa".toList) := by decide

/-! ### C56: the engine cache -/

/-- One call of `get_engine`; configuration and driver may differ from call to call. -/
structure EngineCall where
  config : Config
  create : Str → Except PyExc Unit
  name : Str

/-- The results of a sequence of calls. -/
def engineResults (U : Uni) : Engines → List EngineCall → List (Except PyExc (Option Engine))
  | _, [] => []
  | st, x :: xs =>
    (getEngine U x.config x.create st x.name).2 :: engineResults U (getEngine U x.config x.create st x.name).1 xs

/-- The cache after a sequence of calls. -/
def enginesAfter (U : Uni) (st : Engines) (xs : List EngineCall) : Engines :=
  xs.foldl (fun st x => (getEngine U x.config x.create st x.name).1) st

/-- What one call does: it returns the cached engine; or leaves the cache alone; or adds a new engine. -/
theorem getEngine_cases (c : Config) (create : Str → Except PyExc Unit) (st : Engines) (name : Str) :
    (∃ e, st.active.get name = some e ∧ getEngine U c create st name = (st, .ok (some e))) ∨
    (st.active.get name = none ∧ ∃ e, getEngine U c create st name = (st, .error e)) ∨
    (st.active.get name = none ∧ getEngine U c create st name = (st, .ok none)) ∨
    (st.active.get name = none ∧ ∃ s, getEngine U c create st name =
      (⟨st.active.put name ⟨st.created, s⟩, st.created + 1⟩, .ok (some ⟨st.created, s⟩))) := by
  unfold getEngine
  cases h : st.active.get name with
  | some e => exact .inl ⟨e, rfl, rfl⟩
  | none =>
    right
    dsimp only
    split
    · exact .inl ⟨rfl, _, rfl⟩
    · exact .inr (.inl ⟨rfl, rfl⟩)
    · exact .inr (.inr ⟨rfl, _, rfl⟩)

/-- Engines stay in the cache. -/
theorem getEngine_keeps (c : Config) (create : Str → Except PyExc Unit) (st : Engines) (name n : Str) (e : Engine)
    (h : st.active.get n = some e) : (getEngine U c create st name).1.active.get n = some e := by
  rcases getEngine_cases (U := U) c create st name with ⟨_, _, hg⟩ | ⟨_, _, hg⟩ | ⟨_, hg⟩ | ⟨hn, s, hg⟩
  · rw [hg]; exact h
  · rw [hg]; exact h
  · rw [hg]; exact h
  · rw [hg]
    dsimp only
    rw [dict_get_put]
    have : name ≠ n := by rintro rfl; rw [hn] at h; cases h
    rw [if_neg this, h]

theorem getEngine_caches (c : Config) (create : Str → Except PyExc Unit) (st : Engines) (name : Str) (e : Engine)
    (h : (getEngine U c create st name).2 = .ok (some e)) :
    (getEngine U c create st name).1.active.get name = some e := by
  rcases getEngine_cases (U := U) c create st name with ⟨_, he, hg⟩ | ⟨_, _, hg⟩ | ⟨_, hg⟩ | ⟨_, s, hg⟩
  · rw [hg] at h ⊢; cases h; exact he
  · rw [hg] at h; cases h
  · rw [hg] at h; cases h
  · rw [hg] at h ⊢
    cases h
    dsimp only
    rw [dict_get_put, if_pos rfl]

theorem engineResults_cached (st : Engines) (xs : List EngineCall) (j : Nat) (x : EngineCall) (e : Engine)
    (hx : xs[j]? = some x) (he : st.active.get x.name = some e) : (engineResults U st xs)[j]? = some (.ok (some e)) := by
  induction xs generalizing st j with
  | nil => simp at hx
  | cons y ys ih =>
    cases j with
    | zero =>
      simp only [List.getElem?_cons_zero, Option.some.injEq] at hx
      subst hx
      rw [engineResults, List.getElem?_cons_zero, getEngine, he]
    | succ j =>
      rw [List.getElem?_cons_succ] at hx
      rw [engineResults, List.getElem?_cons_succ]
      exact ih _ j hx (getEngine_keeps _ _ st y.name x.name e he)

/-- **C56**: in every history of calls, once `get_engine` has returned an engine for a name it returns the same engine
for that name, even if the configuration is changed in between. -/
theorem engine_cached (st : Engines) (xs : List EngineCall) (i j : Nat) (x y : EngineCall) (e : Engine)
    (hij : i ≤ j) (hx : xs[i]? = some x) (hy : xs[j]? = some y) (hn : x.name = y.name)
    (hr : (engineResults U st xs)[i]? = some (.ok (some e))) :
    (engineResults U st xs)[j]? = some (.ok (some e)) := by
  induction xs generalizing st i j with
  | nil => simp at hx
  | cons z zs ih =>
    cases i with
    | zero =>
      rw [List.getElem?_cons_zero, Option.some.injEq] at hx
      subst hx
      cases j with
      | zero => exact hr
      | succ j =>
        rw [List.getElem?_cons_succ] at hy
        rw [engineResults, List.getElem?_cons_zero, Option.some.injEq] at hr
        rw [engineResults, List.getElem?_cons_succ]
        apply engineResults_cached _ zs j y e hy
        rw [← hn]
        exact getEngine_caches _ _ st z.name e hr
    | succ i =>
      cases j with
      | zero => omega
      | succ j =>
        rw [List.getElem?_cons_succ] at hx hy
        rw [engineResults, List.getElem?_cons_succ] at hr ⊢
        exact ih _ i j (by omega) hx hy hr

/-- The cache is consistent: names and engines are in one-to-one correspondence and every engine created is in it. -/
structure EnginesOk (st : Engines) : Prop where
  names : (st.active.map Prod.fst).Nodup
  ids : st.active.map (fun p => p.2.id) = List.range st.created

theorem getEngine_ok (c : Config) (create : Str → Except PyExc Unit) (st : Engines) (name : Str) (h : EnginesOk st) :
    EnginesOk (getEngine U c create st name).1 := by
  rcases getEngine_cases (U := U) c create st name with ⟨_, _, hg⟩ | ⟨_, _, hg⟩ | ⟨_, hg⟩ | ⟨hn, s, hg⟩
  · rw [hg]; exact h
  · rw [hg]; exact h
  · rw [hg]; exact h
  · rw [hg]
    refine ⟨dict_put_nodup _ _ _ h.names, ?_⟩
    dsimp only
    rw [dict_put_new _ _ _ (dict_get_none_iff.mp hn), List.map_append, h.ids, List.range_succ]
    rfl

theorem enginesAfter_ok (st : Engines) (xs : List EngineCall) (h : EnginesOk st) : EnginesOk (enginesAfter U st xs) := by
  induction xs generalizing st with
  | nil => exact h
  | cons x xs ih => exact ih _ (getEngine_ok x.config x.create st x.name h)

/-- **C56**: at most one engine per name is ever created, in every history of calls starting with an empty cache: the
engines created are exactly the cached ones and there is one for every name in the cache. -/
theorem engine_count (xs : List EngineCall) :
    (enginesAfter U {} xs).created = (enginesAfter U {} xs).active.length ∧
    ((enginesAfter U {} xs).active.map Prod.fst).Nodup ∧
    ∀ n ∈ (enginesAfter U {} xs).active.map Prod.fst, ∃ x ∈ xs, x.name = n := by
  have hok : EnginesOk (enginesAfter U {} xs) := enginesAfter_ok {} xs ⟨by simp, by simp⟩
  refine ⟨?_, hok.names, ?_⟩
  · have := congrArg List.length hok.ids
    simpa using this.symm
  · have : ∀ (st : Engines), ∀ n ∈ (enginesAfter U st xs).active.map Prod.fst,
        n ∈ st.active.map Prod.fst ∨ ∃ x ∈ xs, x.name = n := by
      induction xs with
      | nil => intro st n hn; exact .inl hn
      | cons x xs ih =>
        intro st n hn
        have hok' : EnginesOk (enginesAfter U {} xs) := enginesAfter_ok {} xs ⟨by simp, by simp⟩
        rcases ih hok' (getEngine U x.config x.create st x.name).1 n hn with h | ⟨y, hy, he⟩
        · rcases getEngine_cases (U := U) x.config x.create st x.name with ⟨_, _, hg⟩ | ⟨_, _, hg⟩ | ⟨_, hg⟩ | ⟨_, s, hg⟩
          · rw [hg] at h; exact .inl h
          · rw [hg] at h; exact .inl h
          · rw [hg] at h; exact .inl h
          · rw [hg] at h
            dsimp only at h
            rw [dict_mem_keys_put] at h
            rcases h with h | h
            · exact .inr ⟨x, List.mem_cons_self, h.symm⟩
            · exact .inl h
        · exact .inr ⟨y, List.mem_cons_of_mem _ hy, he⟩
    intro n hn
    rcases this {} n hn with h | h
    · simp at h
    · exact h

/-- **C56**: different names never share an engine, whatever their configuration; in particular `AAUTH` and `aauth`
have separate engines although `get_conf` gives both the same settings. -/
theorem engine_per_name (st : Engines) (h : EnginesOk st) (n m : Str) (e e' : Engine)
    (hn : st.active.get n = some e) (hm : st.active.get m = some e') (he : e.id = e'.id) : n = m := by
  have hn' := dict_mem_of_get hn
  have hm' := dict_mem_of_get hm
  have hnd : (st.active.map (fun p => p.2.id)).Nodup := by rw [h.ids]; exact List.nodup_range
  have := List.inj_on_of_nodup_map hnd hn' hm' he
  exact congrArg Prod.fst this

/-- **C56**: an unsupported database type is never cached: the call returns `None` and leaves the cache as it is. -/
theorem engine_unsupported (c : Config) (create : Str → Except PyExc Unit) (st : Engines) (name : Str)
    (h : (getEngine U c create st name).2 = .ok none) : (getEngine U c create st name).1 = st := by
  rcases getEngine_cases (U := U) c create st name with ⟨_, _, hg⟩ | ⟨_, _, hg⟩ | ⟨_, hg⟩ | ⟨_, s, hg⟩
  · rw [hg] at h; cases h
  · rw [hg] at h; cases h
  · rw [hg]
  · rw [hg] at h; cases h

/-- The types an engine is made for. -/
def SupportedType (U : Uni) (t : Str) : Prop :=
  U.upper t = "MYSQL".toList ∨ U.upper t = "SQLITE".toList ∨ U.upper t = "MEMORY".toList

theorem connectString_isSome (t : Str) (u p h o d : Option Str) :
    (connectString (U.upper t) u p h o d).isSome = true ↔ SupportedType U t := by
  unfold connectString SupportedType
  by_cases h1 : U.upper t = "MYSQL".toList
  · rw [if_pos h1]; simp [h1]
  · rw [if_neg h1]
    by_cases h2 : U.upper t = "SQLITE".toList
    · rw [if_pos h2]; simp [h2]
    · rw [if_neg h2]
      by_cases h3 : U.upper t = "MEMORY".toList
      · rw [if_pos h3]; simp [h3]
      · rw [if_neg h3]
        constructor
        · intro h'
          cases h'
        · rintro (h' | h' | h') <;> contradiction

/-- **C56**: what a call for a name not in the cache returns, in terms of the configuration alone: `None` exactly for
an unsupported type, else an engine with the connection string of the configured database, unless the driver refuses
it. -/
theorem engine_new (hU : U.Lawful) (c : Config) (create : Str → Except PyExc Unit) (st : Engines) (name : Str)
    (hs : c.service.sections.get defaultSect = none) (hnew : st.active.get name = none) :
    ∃ t user pass host port db,
      Setting U c "DB_TYPE".toList true name (some t) ∧ Setting U c "DB_USER".toList true name user ∧
      Setting U c "DB_PASS".toList true name pass ∧ Setting U c "DB_HOST".toList true name host ∧
      Setting U c "DB_PORT".toList true name port ∧ Setting U c "DB_NAME".toList true name db ∧
      match connectString (U.upper t) user pass host port db with
      | none => ¬ SupportedType U t ∧ getEngine U c create st name = (st, .ok none)
      | some s => SupportedType U t ∧
        match create s with
        | .error x => getEngine U c create st name = (st, .error x)
        | .ok _ => (getEngine U c create st name).2 = .ok (some ⟨st.created, s⟩) := by
  have hget : ∀ n : Str, n.all isAscii = true → ∃ v, getConf U c n true name = .ok v ∧ Setting U c n true name v := by
    intro n hn
    obtain ⟨v, hv⟩ := (getConf_terminates hU c 0 n true name).2
    exact ⟨v, hv, (getConf_ascii hU c n true name hs hn v).mp hv⟩
  obtain ⟨t, ht⟩ := getConf_dbType hU c name hs
  have ht' := (getConf_ascii hU c "DB_TYPE".toList true name hs (by decide) _).mp ht
  obtain ⟨user, hu, hu'⟩ := hget "DB_USER".toList (by decide)
  obtain ⟨pass, hp, hp'⟩ := hget "DB_PASS".toList (by decide)
  obtain ⟨host, hh, hh'⟩ := hget "DB_HOST".toList (by decide)
  obtain ⟨port, ho, ho'⟩ := hget "DB_PORT".toList (by decide)
  obtain ⟨db, hd, hd'⟩ := hget "DB_NAME".toList (by decide)
  obtain ⟨ln, hl, _⟩ := hget "LOG_NAME".toList (by decide)
  refine ⟨t, user, pass, host, port, db, ht', hu', hp', hh', ho', hd', ?_⟩
  have hsup := connectString_isSome (U := U) t user pass host port db
  unfold getEngine
  rw [hnew]
  dsimp only
  rw [ht, hu, hp, hh, ho, hd, hl]
  dsimp only [bind, Except.bind, pure, Except.pure]
  cases hc : connectString (U.upper t) user pass host port db with
  | none =>
    rw [hc] at hsup
    dsimp only
    exact ⟨fun h => by simpa using hsup.mpr h, rfl⟩
  | some s =>
    rw [hc] at hsup
    dsimp only
    refine ⟨hsup.mp rfl, ?_⟩
    cases create s with
    | error x => rfl
    | ok _ => rfl

/-- The driver accepts every connection string. -/
def anyDriver : Str → Except PyExc Unit := fun _ => .ok ()

/-- An unsupported type in the configuration. -/
def oracleConfig : Config where
  service := { defaults := [("db_type".toList, "oracle".toList)] }

/-- `AAUTH` and `aauth` have the same settings, but separate engines; a second call returns the first engine, even
after the configuration has become unusable; and the unsupported type returns `None`. -/
example : engineResults asciiUni {}
    [⟨oracleConfig, anyDriver, "AAUTH".toList⟩, ⟨sampleConfig, anyDriver, "AAUTH".toList⟩,
     ⟨sampleConfig, anyDriver, "aauth".toList⟩, ⟨oracleConfig, anyDriver, "AAUTH".toList⟩] =
    [.ok none, .ok (some ⟨0, "sqlite:///aauth.db".toList⟩), .ok (some ⟨1, "sqlite:///aauth.db".toList⟩),
     .ok (some ⟨0, "sqlite:///aauth.db".toList⟩)] := by decide

/-! ### C73: building the databases -/

/-- The cache only grows while tables are created, and it stays consistent. -/
theorem buildDatabase_cache (c : Config) (create : Str → Except PyExc Unit) (st : Engines) (ss : List Str) :
    (EnginesOk st → EnginesOk (buildDatabase U c create st ss).1) ∧
    (∀ n e, st.active.get n = some e → (buildDatabase U c create st ss).1.active.get n = some e) ∧
    ∀ p ∈ (buildDatabase U c create st ss).2.1, (buildDatabase U c create st ss).1.active.get p.2 = some p.1 ∧
      p.2 ∈ serviceBases := by
  induction ss generalizing st with
  | nil => exact ⟨id, fun _ _ h => h, fun p hp => by cases hp⟩
  | cons s ss ih =>
    rw [buildDatabase]
    by_cases hs : s ∈ serviceBases
    · rw [if_pos hs]
      have hok := getEngine_ok (U := U) c create st s
      have hkeep := getEngine_keeps (U := U) c create st s
      have hcache := getEngine_caches (U := U) c create st s
      rcases hg : getEngine U c create st s with ⟨st', r⟩
      rw [hg] at hok hkeep hcache
      rcases r with x | _ | e
      · exact ⟨hok, hkeep, fun p hp => by cases hp⟩
      · exact ⟨hok, hkeep, fun p hp => by cases hp⟩
      · obtain ⟨i1, i2, i3⟩ := ih st'
        refine ⟨fun h => i1 (hok h), fun n e' h => i2 n e' (hkeep n e' h), ?_⟩
        intro p hp
        rcases List.mem_cons.mp hp with rfl | hp
        · exact ⟨i2 s e (hcache e rfl), hs⟩
        · exact i3 p hp
    · rw [if_neg hs]
      exact ⟨id, fun _ _ h => h, fun p hp => by cases hp⟩

/-- **C73**: `build_database` creates the tables of the listed services in order until the first it cannot serve; it
raises exactly if there is such a service, and what was built before stays. -/
theorem build_prefix (c : Config) (create : Str → Except PyExc Unit) (st : Engines) (ss : List Str) :
    match buildDatabase U c create st ss with
    | (_, built, none) => built.map Prod.snd = ss
    | (st', built, some x) => ∃ s rest, ss = built.map Prod.snd ++ s :: rest ∧
        ((s ∉ serviceBases ∧ x = .exception ("No service with name " ++ String.ofList s)) ∨
         (s ∈ serviceBases ∧ getEngine U c create st' s = (st', .ok none) ∧
           x = .exception ("Could not make engine for " ++ String.ofList s)) ∨
         (s ∈ serviceBases ∧ getEngine U c create st' s = (st', .error x))) := by
  induction ss generalizing st with
  | nil => rfl
  | cons s ss ih =>
    rw [buildDatabase]
    by_cases hs : s ∈ serviceBases
    · rw [if_pos hs]
      rcases getEngine_cases (U := U) c create st s with ⟨e, _, hg⟩ | ⟨_, x, hg⟩ | ⟨_, hg⟩ | ⟨_, t, hg⟩
      · rw [hg]
        dsimp only
        have := ih st
        rcases hb : buildDatabase U c create st ss with ⟨st', built, _ | x⟩
        · rw [hb] at this
          dsimp only at this ⊢
          rw [List.map_cons, this]
        · rw [hb] at this
          dsimp only at this ⊢
          obtain ⟨s', rest, h1, h2⟩ := this
          exact ⟨s', rest, by rw [h1]; rfl, h2⟩
      · rw [hg]
        exact ⟨s, ss, rfl, .inr (.inr ⟨hs, hg⟩)⟩
      · rw [hg]
        exact ⟨s, ss, rfl, .inr (.inl ⟨hs, hg, rfl⟩)⟩
      · rw [hg]
        dsimp only
        have := ih ⟨st.active.put s ⟨st.created, t⟩, st.created + 1⟩
        rcases hb : buildDatabase U c create ⟨st.active.put s ⟨st.created, t⟩, st.created + 1⟩ ss with ⟨st', built, _ | x⟩
        · rw [hb] at this
          dsimp only at this ⊢
          rw [List.map_cons, this]
        · rw [hb] at this
          dsimp only at this ⊢
          obtain ⟨s', rest, h1, h2⟩ := this
          exact ⟨s', rest, by rw [h1]; rfl, h2⟩
    · rw [if_neg hs]
      exact ⟨s, ss, rfl, .inl ⟨hs, rfl⟩⟩

/-- **C73**: `build_database` only accepts lower case names, while the services open their databases as `AAUTH`: in
every history the tables are never created in the engine the services use. With an in-memory database the services find
no tables. -/
theorem build_other_engine (c c' : Config) (create create' : Str → Except PyExc Unit) (st : Engines) (ss : List Str)
    (hst : EnginesOk st) (xs : List EngineCall) (p : Engine × Str) (hp : p ∈ (buildDatabase U c create st ss).2.1)
    (e : Engine)
    (he : (getSession U c' create' (enginesAfter U (buildDatabase U c create st ss).1 xs) "AAUTH".toList).2 = .ok (some e)) :
    e.id ≠ p.1.id := by
  obtain ⟨h1, _, h3⟩ := buildDatabase_cache (U := U) c create st ss
  obtain ⟨h4, h5⟩ := h3 p hp
  have hok := enginesAfter_ok (U := U) _ xs (h1 hst)
  have hkeep : ∀ (xs : List EngineCall) (st : Engines), st.active.get p.2 = some p.1 →
      (enginesAfter U st xs).active.get p.2 = some p.1 := by
    intro xs
    induction xs with
    | nil => intro st h; exact h
    | cons x xs ih => intro st h; exact ih _ (getEngine_keeps _ _ st x.name p.2 p.1 h)
  have hget := hkeep xs _ h4
  unfold getSession at he
  have h6 := getEngine_caches c' create' _ _ e he
  have h7 := getEngine_keeps (U := U) c' create' _ "AAUTH".toList p.2 p.1 hget
  have h8 := getEngine_ok (U := U) c' create' _ "AAUTH".toList hok
  intro heq
  have h9 := engine_per_name _ h8 _ _ _ _ h6 h7 heq
  rw [← h9] at h5
  revert h5
  decide

/-- An in-memory database: the tables of `aauth` are in engine 0, the service uses engine 1. -/
def memoryConfig : Config where
  service := { defaults := [("db_type".toList, "memory".toList)] }

example : buildDatabase asciiUni memoryConfig anyDriver {} ["aauth".toList, "nosuch".toList, "pauth".toList] =
    (⟨[("aauth".toList, ⟨0, "sqlite://".toList⟩)], 1⟩, [(⟨0, "sqlite://".toList⟩, "aauth".toList)],
      some (.exception "No service with name nosuch")) := by decide

example : (getSession asciiUni memoryConfig anyDriver ⟨[("aauth".toList, ⟨0, "sqlite://".toList⟩)], 1⟩ "AAUTH".toList).2 =
    .ok (some ⟨1, "sqlite://".toList⟩) := by decide

end Verif.Props
