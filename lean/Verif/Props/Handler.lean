import Verif.Spec.Handler
import Verif.Props.Logging
import Verif.Props.LoggingUse
import Verif.Props.Shipped
import Verif.Props.LoggingSamples
import Verif.Props.AAuth
import Verif.Props.PAuth
/-!
# C147: the start of the server
-/

namespace Verif.Props
open Verif Verif.Spec Verif.Proofs

variable {U : Uni}

/-- Every configuration gives the settings. -/
theorem startSettings_exist (hU : U.Lawful) {c : Config} (hc : NoDefault c) : ∃ v, StartSettings.Of U c v := by
  have g : ∀ n ∈ ["LOG_LEVEL".toList, "SERVICE_ENABLED".toList, "SERVICE_PORT".toList, "SERVICE_HOST".toList], ∀ sect,
      ∃ v, Setting U c n true sect (some v) := by
    have h : ∀ n ∈ ["LOG_LEVEL".toList, "SERVICE_ENABLED".toList, "SERVICE_PORT".toList, "SERVICE_HOST".toList],
        n.all isAscii = true ∧ n.map asciiUpper = n ∧ ((builtinConfigs true).get n).join ≠ none := by decide +kernel
    exact fun n hn sect => setting_exists hU hc sect (h n hn).1 (builtin_some hU n true (h n hn).1 (h n hn).2.1 (h n hn).2.2)
  obtain ⟨a, ha⟩ := g "LOG_LEVEL".toList (by simp) "LADON".toList
  obtain ⟨b, hb⟩ := g "SERVICE_ENABLED".toList (by simp) "aauth".toList
  obtain ⟨d, hd⟩ := g "SERVICE_ENABLED".toList (by simp) "pauth".toList
  obtain ⟨e, he⟩ := g "SERVICE_PORT".toList (by simp) "LADON".toList
  obtain ⟨f, hf⟩ := g "SERVICE_HOST".toList (by simp) "LADON".toList
  exact ⟨⟨a, b, d, e, f⟩, ha, hb, hd, he, hf⟩

theorem level_meaning (text : Str) : ladonLevel (strToLogLevel U text) = some (levelMeaning U text).1 ∧
    levelName (strToLogLevel U text) = (levelMeaning U text).2.toList := by
  unfold levelMeaning strToLogLevel
  generalize U.upper text = u
  by_cases h : u ∈ ["ALL", "DEBUG", "WARN", "WARNING", "INFO", "INFORMATION", "ERROR", "CRITICAL"].map String.toList
  · simp only [List.map_cons, List.map_nil, List.mem_cons, List.not_mem_nil, or_false] at h
    rcases h with rfl | rfl | rfl | rfl | rfl | rfl | rfl | rfl <;> decide +kernel
  · simp only [List.map_cons, List.map_nil, List.mem_cons, List.not_mem_nil, or_false, not_or] at h
    obtain ⟨h1, h2, h3, h4, h5, h6, h7, h8⟩ := h
    have e : levelTable.find? (fun r => r.1.any fun w => u = w.toList) = none := by
      simp only [levelTable, List.find?_cons, List.any_cons, List.any_nil, h1, h2, h3, h4, h5, h6, h7, h8, decide_false, Bool.or_false,
        List.find?_nil]
    rw [e]
    simp only [h1, h2, h3, h4, h5, h6, h7, h8, or_self, if_false]
    decide

theorem shownHost_eq (host : Str) : hostOrLocal U host = shownHost U host := by
  unfold hostOrLocal shownHost
  simp only [pyStrip_nil]

/-! ### The steps -/

theorem after_after (H : HandlerEnv) (s : HandlerSt) (rs rs' : List (Nat × Str)) (cs cs' : List LadonCall) :
    HandlerSt.after H (HandlerSt.after H s rs cs) rs' cs' = HandlerSt.after H s (rs ++ rs') (cs ++ cs') := by
  unfold HandlerSt.after
  rw [List.foldl_append, List.append_assoc]

theorem after_nil (H : HandlerEnv) (s : HandlerSt) : HandlerSt.after H s [] [] = s := by
  unfold HandlerSt.after
  simp

theorem say_eq (H : HandlerEnv) (level : Nat) (msg : Str) (s : HandlerSt) :
    H.say level msg s = .ok () (HandlerSt.after H s [(level, msg)] []) := by
  simp [HandlerEnv.say, HandlerSt.after]

theorem call_eq (H : HandlerEnv) (call : LadonCall) (fault : Option PyExc) (s : HandlerSt) :
    ladonCall call fault s = match fault with
      | none => .ok () (HandlerSt.after H s [] [call])
      | some e => .error e (HandlerSt.after H s [] [call]) := by
  cases fault <;> rfl

theorem conf_of (hU : U.Lawful) {c : Config} (hc : NoDefault c) {name : Str} {sect : Str} {v : Str} (ha : name.all isAscii = true)
    (h : Setting U c name true sect (some v)) : getConf U c name true sect = .ok (some v) :=
  (getConf_ascii hU c name true sect (hc true) ha (some v)).mpr h

/-- How computations go on. -/
theorem hbind_ok {α β : Type} {m : HandlerM α} {f : α → HandlerM β} {s t : HandlerSt} {a : α} (h : m s = .ok a t) :
    (m >>= f) s = f a t := by
  show EStateM.bind m f s = _
  unfold EStateM.bind
  rw [h]

theorem hbind_error {α β : Type} {m : HandlerM α} {f : α → HandlerM β} {s t : HandlerSt} {e : PyExc} (h : m s = .error e t) :
    (m >>= f) s = .error e t := by
  show EStateM.bind m f s = _
  unfold EStateM.bind
  rw [h]

theorem lift_str (x : Str) (s : HandlerSt) : handlerLift (confStr (some x)) s = .ok x s := rfl

theorem findServices_eq (hU : U.Lawful) {c : Config} (hc : NoDefault c) {v : StartSettings} (hv : v.Of U c) (H : HandlerEnv) (s : HandlerSt) :
    findServices U H c serviceList [] s = .ok (v.modules U) (HandlerSt.after H s
      (serviceRecords (SwitchedOn U v.aauth) "aauth" "AttributeAuthority" ++ serviceRecords (SwitchedOn U v.pauth) "pauth" "PolicyAuthority") []) := by
  have h1 := conf_of hU hc (by decide) hv.aauth
  have h2 := conf_of hU hc (by decide) hv.pauth
  have l1 : ∀ t, handlerLift (getConf U c "SERVICE_ENABLED".toList true "aauth".toList) t = .ok (some v.aauth) t := fun t => by rw [h1]; rfl
  have l2 : ∀ t, handlerLift (getConf U c "SERVICE_ENABLED".toList true "pauth".toList) t = .ok (some v.pauth) t := fun t => by rw [h2]; rfl
  unfold serviceList findServices
  rw [hbind_ok (say_eq ..), hbind_ok (l1 _), hbind_ok (lift_str v.aauth _)]
  unfold StartSettings.modules serviceRecords
  by_cases ha : SwitchedOn U v.aauth
  · rw [if_pos (by exact ha), if_pos ha, if_pos ha, hbind_ok (say_eq ..)]
    unfold findServices
    rw [hbind_ok (say_eq ..), hbind_ok (l2 _), hbind_ok (lift_str v.pauth _)]
    by_cases hp : SwitchedOn U v.pauth
    · rw [if_pos (by exact hp), if_pos hp, if_pos hp, hbind_ok (say_eq ..)]
      simp only [after_after]
      rfl
    · rw [if_neg (by exact hp), if_neg hp, if_neg hp, hbind_ok (say_eq ..)]
      simp only [after_after]
      rfl
  · rw [if_neg (by exact ha), if_neg ha, if_neg ha, hbind_ok (say_eq ..)]
    unfold findServices
    rw [hbind_ok (say_eq ..), hbind_ok (l2 _), hbind_ok (lift_str v.pauth _)]
    by_cases hp : SwitchedOn U v.pauth
    · rw [if_pos (by exact hp), if_pos hp, if_pos hp, hbind_ok (say_eq ..)]
      simp only [after_after]
      rfl
    · rw [if_neg (by exact hp), if_neg hp, if_neg hp, hbind_ok (say_eq ..)]
      simp only [after_after]
      rfl

/-- **C147**: what importing the module does: the records and the calls, and that only the last call can fail. -/
theorem handler_import (hU : U.Lawful) {c : Config} (hc : NoDefault c) {v : StartSettings} (hv : v.Of U c) 
    (H : HandlerEnv) (s : HandlerSt) :
    handlerImport U H c s =
      match H.applicationFault (v.modules U) with
      | none => .ok () (HandlerSt.after H s (v.importRecords U H.scriptDir) (v.importCalls U (posixJoin H.scriptDir "services".toList)))
      | some e => .error e
          (HandlerSt.after H s (v.importRecords U H.scriptDir) (v.importCalls U (posixJoin H.scriptDir "services".toList))) := by
  obtain ⟨e1, e2⟩ := level_meaning (U := U) v.level
  have l1 : ∀ t, handlerLift (getConf U c "LOG_LEVEL".toList true "LADON".toList) t = .ok (some v.level) t := fun t => by
    rw [conf_of hU hc (by decide) hv.level]; rfl
  unfold handlerImport
  rw [hbind_ok (say_eq ..), hbind_ok (call_eq H ..), hbind_ok (l1 _), hbind_ok (lift_str v.level _)]
  dsimp only
  rw [hbind_ok (say_eq ..), e1, e2]
  dsimp only
  rw [hbind_ok (call_eq H ..), hbind_ok (call_eq H ..), hbind_ok (call_eq H ..), hbind_ok (say_eq ..), hbind_ok (say_eq ..),
    hbind_ok (findServices_eq hU hc hv H _), hbind_ok (say_eq ..), call_eq H]
  simp only [after_after]
  unfold StartSettings.importRecords StartSettings.importCalls
  simp only [List.nil_append, List.append_nil, List.cons_append, List.append_assoc, String.toList_append]
  rfl

/-- The state after the import. -/
def importedSt (U : Uni) (H : HandlerEnv) (v : StartSettings) (s : HandlerSt) : HandlerSt :=
  HandlerSt.after H s (v.importRecords U H.scriptDir) (v.importCalls U (posixJoin H.scriptDir "services".toList))

/-- **C147**: what running the module does if a port is configured, -/
theorem handler_main (hU : U.Lawful) {c : Config} (hc : NoDefault c) {v : StartSettings} (hv : v.Of U c) (H : HandlerEnv) (s : HandlerSt)
    (hm : H.applicationFault (v.modules U) = none) {port : Int} (hp : IntText U 10 v.port port) :
    handlerMain U H c s =
      match H.serverFault v.host port with
      | none => .ok () (HandlerSt.after H (importedSt U H v s) [serverRecord U v.host port, (20, "Starting WSGI simple server.".toList)]
          [.makeServer v.host port, .serveForever])
      | some e => .error e (HandlerSt.after H (importedSt U H v s) [serverRecord U v.host port] [.makeServer v.host port]) := by
  have hi := handler_import hU hc hv H s
  rw [hm] at hi
  have l1 : ∀ t, handlerLift (getConf U c "SERVICE_PORT".toList true "LADON".toList) t = .ok (some v.port) t := fun t => by
    rw [conf_of hU hc (by decide) hv.port]; rfl
  have l2 : ∀ t, handlerLift (getConf U c "SERVICE_HOST".toList true "LADON".toList) t = .ok (some v.host) t := fun t => by
    rw [conf_of hU hc (by decide) hv.host]; rfl
  have l3 : ∀ t, handlerLift ((some v.port).elim (.error .typeError) .ok) t = .ok v.port t := fun t => rfl
  have l4 : ∀ t, handlerLift (pyIntBase U 10 v.port) t = .ok port t := fun t => by rw [(pyIntBase_iff hU).mpr hp]; rfl
  unfold handlerMain
  rw [hbind_ok hi, hbind_ok (l1 _), hbind_ok (l3 _), hbind_ok (l4 _), hbind_ok (l2 _), hbind_ok (lift_str _ _),
    hbind_ok (say_eq ..), shownHost_eq]
  cases hf : H.serverFault v.host port with
  | none =>
    rw [hbind_ok (call_eq H ..), hbind_ok (say_eq ..), call_eq H]
    dsimp only
    simp only [after_after, importedSt]
    rfl
  | some e =>
    rw [hbind_error (call_eq H ..)]
    simp only [after_after, importedSt]
    rfl

/-- if the text of the port is no number, -/
theorem handler_noport (hU : U.Lawful) {c : Config} (hc : NoDefault c) {v : StartSettings} (hv : v.Of U c) (H : HandlerEnv) (s : HandlerSt)
    (hm : H.applicationFault (v.modules U) = none) (hp : ∀ port, ¬ IntText U 10 v.port port) :
    handlerMain U H c s = .error .valueError (importedSt U H v s) := by
  have hi := handler_import hU hc hv H s
  rw [hm] at hi
  have l1 : ∀ t, handlerLift (getConf U c "SERVICE_PORT".toList true "LADON".toList) t = .ok (some v.port) t := fun t => by
    rw [conf_of hU hc (by decide) hv.port]; rfl
  have l3 : ∀ t, handlerLift ((some v.port).elim (.error .typeError) .ok) t = .ok v.port t := fun t => rfl
  have l4 : ∀ t, handlerLift (pyIntBase U 10 v.port) t = .error .valueError t := fun t => by
    cases h : pyIntBase U 10 v.port with
    | ok n => exact absurd ((pyIntBase_iff hU).mp h) (hp n)
    | error e => rw [pyIntBase_error h]; rfl
  unfold handlerMain
  rw [hbind_ok hi, hbind_ok (l1 _), hbind_ok (l3 _), hbind_error (l4 _)]
  rfl

/-- and if the application cannot be made. -/
theorem handler_noapp (hU : U.Lawful) {c : Config} (hc : NoDefault c) {v : StartSettings} (hv : v.Of U c) (H : HandlerEnv) (s : HandlerSt)
    {e : PyExc} (hm : H.applicationFault (v.modules U) = some e) :
    handlerMain U H c s = .error e (importedSt U H v s) := by
  have hi := handler_import hU hc hv H s
  rw [hm] at hi
  unfold handlerMain
  rw [hbind_error hi]
  rfl

/-- **C147**: when the server serves. -/
theorem handler_serves (hU : U.Lawful) {c : Config} (hc : NoDefault c) {v : StartSettings} (hv : v.Of U c) (H : HandlerEnv) (s : HandlerSt) :
    (∃ t, handlerMain U H c s = .ok () t) ↔
      H.applicationFault (v.modules U) = none ∧ ∃ port, IntText U 10 v.port port ∧ H.serverFault v.host port = none := by
  cases hm : H.applicationFault (v.modules U) with
  | some e =>
    rw [handler_noapp hU hc hv H s hm]
    exact ⟨fun ⟨t, h⟩ => (by cases h), fun h => (by cases h.1)⟩
  | none =>
    by_cases hp : ∃ port, IntText U 10 v.port port
    · obtain ⟨port, hp⟩ := hp
      rw [handler_main hU hc hv H s hm hp]
      have hu : ∀ q, IntText U 10 v.port q → q = port := fun q hq => by
        have := ((pyIntBase_iff hU).mpr hq).symm.trans ((pyIntBase_iff hU).mpr hp)
        exact Except.ok.inj this
      cases hf : H.serverFault v.host port with
      | none => exact ⟨fun _ => ⟨rfl, port, hp, hf⟩, fun _ => ⟨_, rfl⟩⟩
      | some e =>
        refine ⟨fun ⟨t, h⟩ => (by cases h), fun ⟨_, q, hq, h⟩ => ?_⟩
        cases hu q hq
        rw [hf] at h
        cases h
    · rw [handler_noport hU hc hv H s hm (fun q hq => hp ⟨q, hq⟩)]
      exact ⟨fun ⟨t, h⟩ => (by cases h), fun ⟨_, q, hq, _⟩ => absurd ⟨q, hq⟩ hp⟩

/-- **C147**: the addresses. The server is made for the configured host and the number in the text of the port; the URLs of the two
services have the same host, or `localhost`, and the text itself, and the record has the number. -/
theorem handler_urls (hU : U.Lawful) {X : Crypto} {c : Config} (hc : NoDefault c) {v : StartSettings} (hv : v.Of U c)
    {readKey : Option Str → Option Str → Except PyExc (X.PrivKey × Int)} {a : Authority X} (ha : Authority.init U X c readKey = .ok a)
    {p : PAService} (hp : PAService.init U c = .ok p) :
    a.aauthUrl = "http://".toList ++ shownHost U v.host ++ ":".toList ++ v.port ++ "/AttributeAuthority/jsonwsp/".toList ∧
    p.url = "http://".toList ++ shownHost U v.host ++ ":".toList ++ v.port ++ "/PolicyAuthority/jsonwsp/".toList := by
  have one : ∀ {name : String} {x y : Str}, name.toList.all isAscii = true → Configured U c name "LADON" (some x) →
      Setting U c name.toList true "LADON".toList (some y) → x = y := by
    intro name x y hn hx hy
    have := ((getConf_ascii hU c name.toList true "LADON".toList (hc true) hn _).mpr hx).symm.trans (conf_of hU hc hn hy)
    exact Option.some.inj (Except.ok.inj this)
  have hw : ∀ h : Str, (if pyStrip U h = [] then "localhost".toList else h) = shownHost U h := fun h => shownHost_eq (U := U) h
  obtain ⟨_, host, port, _, _, _, _, _, _, h1, h2, _, _, _, _, _, _, hu, _⟩ := (init_iff hU c (hc true) readKey).mp ha
  obtain ⟨host', port', _, _, g1, g2, gu⟩ := (pauth_init_iff hU c (hc true)).mp hp
  cases one (by decide) h1 hv.host
  cases one (by decide) h2 hv.port
  cases one (by decide) g1 hv.host
  cases one (by decide) g2 hv.port
  rw [hu, gu]
  unfold UrlAt
  rw [hw]
  exact ⟨rfl, rfl⟩

/-- **C147**: as shipped, both services are served at port 8888 of all addresses of the machine. -/
theorem shipped_serves (hU : U.Lawful) (hl : ∀ m, U.intLimit = some m → 4 ≤ m) (H : HandlerEnv) (s : HandlerSt)
    (hm : H.applicationFault ["aauth".toList, "pauth".toList] = none) (hf : H.serverFault [] 8888 = none) :
    ∃ t, handlerMain U H shippedConfig s = .ok () t ∧ t.calls = s.calls ++ [.setLogfile none, .setLoglevel 6, .setBackupCount 50,
      .setMaxsize 50000, .application ["aauth".toList, "pauth".toList] (posixJoin H.scriptDir "services".toList), .makeServer [] 8888,
      .serveForever] := by
  have st : ∀ (name sect : String) (x : Str), name.toList.all isAscii = true → sect.toList.all isAscii = true →
      getConf asciiUni shippedConfig name.toList true sect.toList = .ok (some x) →
      Setting U shippedConfig name.toList true sect.toList (some x) := fun name sect x hn hs h =>
    (getConf_ascii hU shippedConfig name.toList true sect.toList (shipped_noDefault true) hn _).mp (shipped_conf hU name sect true _ hn hs h)
  have hv : StartSettings.Of U shippedConfig ⟨"ALL".toList, "True".toList, "True".toList, "8888".toList, []⟩ :=
    ⟨st "LOG_LEVEL" "LADON" _ (by decide) (by decide) (by decide +kernel), st "SERVICE_ENABLED" "aauth" _ (by decide) (by decide) (by decide +kernel),
      st "SERVICE_ENABLED" "pauth" _ (by decide) (by decide) (by decide +kernel), st "SERVICE_PORT" "LADON" _ (by decide) (by decide) (by decide +kernel),
      st "SERVICE_HOST" "LADON" _ (by decide) (by decide) (by decide +kernel)⟩
  have ht : SwitchedOn U "True".toList := (hU.upper_ascii _ (by decide)).trans (by decide)
  have hmod : StartSettings.modules U ⟨"ALL".toList, "True".toList, "True".toList, "8888".toList, []⟩ = ["aauth".toList, "pauth".toList] := by
    unfold StartSettings.modules
    rw [if_pos ht, if_pos ht]
    rfl
  have hlev : levelMeaning U "ALL".toList = (6, "DEBUG") := by
    unfold levelMeaning
    rw [hU.upper_ascii _ (by decide)]
    decide
  have hp : IntText U 10 "8888".toList 8888 := (pyIntBase_iff hU).mp (int_text hU hl 8888 (by decide))
  have h := handler_main hU shipped_noDefault hv H s (by rw [hmod]; exact hm) hp
  dsimp only at h
  rw [hf] at h
  refine ⟨_, h, ?_⟩
  simp only [importedSt, after_after, HandlerSt.after, StartSettings.importCalls, hmod, hlev, List.append_assoc, List.cons_append, List.nil_append]

/-! ### Examples -/

/-- `SERVICE_PORT=8_888` is served at port 8888, but the URLs say `8_888`. -/
example : IntText asciiUni 10 "8_888".toList 8888 ∧ "8_888".toList ≠ decimal 8888 :=
  ⟨(pyIntBase_iff asciiUni_lawful).mp (by decide), by decide⟩

/-- An environment without faults. -/
def calmEnv : HandlerEnv := ⟨sampleLogEnv, "/h".toList, fun _ => none, fun _ _ => none⟩

example : ∃ t, handlerMain asciiUni calmEnv shippedConfig ⟨{}, []⟩ = .ok () t ∧ t.calls.length = 7 := by
  obtain ⟨t, h1, h2⟩ := shipped_serves asciiUni_lawful (by decide) calmEnv ⟨{}, []⟩ rfl rfl
  exact ⟨t, h1, by rw [h2]; rfl⟩

/-- No server is made for the port `http`. -/
example : (match handlerMain asciiUni calmEnv
      { service := { sections := [("LADON".toList, [("service_port".toList, "http".toList)])] } } ⟨{}, []⟩ with
    | EStateM.Result.error e t => some (e, t.calls.getLast?)
    | EStateM.Result.ok _ _ => none) =
    some (PyExc.valueError, some (LadonCall.application ["aauth".toList, "pauth".toList] "/h/services".toList)) := by decide +kernel

end Verif.Props
