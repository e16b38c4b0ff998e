import Verif.Props.LoggingUse
import Verif.Model.Shipped

/-!
# Cases of C110–C112
-/

namespace Verif.Props

open Proofs

/-- Every file can be opened; a line is the name of the logger and the message; the time is a count. -/
def sampleLogEnv : LogEnv where
  abspath := id
  openFault := fun _ => none
  formatOk := fun _ => true
  render := fun _ _ _ r => some (r.name ++ ": ".toList ++ r.msg)
  now := fun n => List.replicate n '*'

def sampleLogDir : Str := "/l/".toList

theorem sampleLogDir_ok : LogDirOk asciiUni sampleLogDir := by
  constructor
  · intro f
    have e : (asciiUni.upper (sampleLogDir ++ f)).head? = some '/' := rfl
    constructor <;>
    · intro h
      rw [h] at e
      revert e
      decide
  · intro f h
    have e : asciiUni.upper f = (asciiUni.lower f).map asciiUpper := by
      simp only [asciiUni, List.map_map]
      exact List.map_congr_left (fun c _ => (asciiUpper_asciiLower c).symm)
    rcases h with h | h <;> rw [e, h] <;> decide

/-- A process that starts when the log of the services has a line in it. -/
def startSt : LogSt where
  disk := fun p => if p = "/l/hgaa_service.log".toList then some "old\n".toList else none

theorem startSt_fresh : FreshLog startSt := ⟨fun _ _ => rfl, rfl⟩

theorem shipped_noDefault : NoDefault shippedConfig := by
  intro service
  cases service <;> decide +kernel

/-- The settings in the shipped files. -/
def shippedImport : ImportSettings :=
  let format : Str := "%(asctime)s:    [%(levelname)s: %(name)s]    %(message)s".toList
  let date : Str := "%Y-%m-%d %I:%M:%S %p".toList
  let settings := fun (f : String) => (⟨f.toList, "ALL".toList, format, date, "True".toList⟩ : LogSettings)
  { service := settings "hgaa_service.log", client := settings "hgaa_client.log", serviceName := "services".toList,
    clientName := "clients".toList, serviceClean := "True".toList, clientClean := "True".toList, sql := settings "sql.log",
    ladon := settings "ladon.log" }

theorem setting_of {c : Config} (hc : NoDefault c) {name : Str} (ha : name.all isAscii = true) {service : Bool} {sect : Str} {v : Option Str}
    (h : getConf asciiUni c name service sect = .ok v) : Setting asciiUni c name service sect v :=
  (getConf_ascii asciiUni_lawful c name service sect (hc service) ha v).mp h

theorem shippedImport_of : shippedImport.Of asciiUni shippedConfig := by
  constructor
  case service => constructor <;> exact setting_of shipped_noDefault (by decide +kernel) (by decide +kernel)
  case client => constructor <;> exact setting_of shipped_noDefault (by decide +kernel) (by decide +kernel)
  case sql => constructor <;> exact setting_of shipped_noDefault (by decide +kernel) (by decide +kernel)
  case ladon => constructor <;> exact setting_of shipped_noDefault (by decide +kernel) (by decide +kernel)
  all_goals exact setting_of shipped_noDefault (by decide +kernel) (by decide +kernel)

/-- The import, the logger of a service or client, and a record by it. -/
def sampleRun (c : Config) (sect : Str) (service : Bool) : LogM Unit := do
  importLog asciiUni sampleLogEnv c sampleLogDir
  let l ← makeLoggerIO asciiUni sampleLogEnv c sampleLogDir sect service
    (some (if service then "hgaa.services".toList else "hgaa.clients".toList))
  logDo (fun s => s.log sampleLogEnv l 20 "hello".toList)

/-- What is in a file after a run; `none` if it raised. -/
def runFile (r : EStateM.Result PyExc LogSt Unit) (p : String) : Option Str :=
  match r with
  | .ok _ s => s.disk p.toList
  | .error _ _ => none

/-- The import succeeds with the shipped files. -/
theorem shipped_imports : importLog asciiUni sampleLogEnv shippedConfig sampleLogDir startSt =
    .ok () (imported asciiUni sampleLogEnv sampleLogDir shippedImport startSt) :=
  (import_ok asciiUni_lawful shipped_noDefault sampleLogDir_ok sampleLogEnv shippedImport_of _ _).mpr
    ⟨fun _ _ => rfl, fun _ _ => rfl, rfl⟩

/-- A client that starts empties the log of the services. -/
example : runFile (sampleRun shippedConfig "AAUTH".toList false startSt) "/l/hgaa_service.log" =
    some "hgaa.services: hgaa.services log started on \n".toList := by decide +kernel

example (d : Disk) : ∃ t, importLog asciiUni sampleLogEnv shippedConfig sampleLogDir { startSt with disk := d } = .ok () t ∧
    t.disk "/l/hgaa_service.log".toList =
      (imported asciiUni sampleLogEnv sampleLogDir shippedImport startSt).disk "/l/hgaa_service.log".toList :=
  client_wipes_service asciiUni_lawful shipped_noDefault sampleLogDir_ok shippedImport_of shipped_imports (by decide +kernel)
    (.inl (by decide +kernel)) d

/-- The files opened. -/
example : (imported asciiUni sampleLogEnv sampleLogDir shippedImport startSt).opened.map (fun f => (f.path, f.append)) =
    [("/l/hgaa_service.log".toList, false), ("/l/hgaa_client.log".toList, false), ("/l/sql.log".toList, false),
      ("/l/ladon.log".toList, false)] := by
  rw [import_opened asciiUni_lawful shipped_noDefault sampleLogDir_ok shippedImport_of shipped_imports]
  decide +kernel

/-- With `CLEAN_LOG_ON_START=False` the file keeps what is in it. -/
def keepConfig : Config where
  service := { defaults := [("clean_log_on_start".toList, "False".toList)], sections := [("LADON".toList, [("log_file".toList, "ladon.log".toList)])] }

example : runFile (importLog asciiUni sampleLogEnv keepConfig sampleLogDir startSt) "/l/hgaa_service.log" =
    some "old\nhgaa.services: hgaa.services log started on \n".toList := by decide +kernel

example : ∃ text, ((resState (importLog asciiUni sampleLogEnv keepConfig sampleLogDir startSt)).disk "/l/hgaa_service.log".toList).getD [] =
    "old\n".toList ++ text :=
  import_kept asciiUni sampleLogEnv keepConfig sampleLogDir startSt _ (by decide +kernel)

/-- Another file in the directory. -/
example (d : Disk) : (resState (importLog asciiUni sampleLogEnv shippedConfig sampleLogDir { disk := d })).disk "/l/other".toList = d "/l/other".toList :=
  import_untouched asciiUni sampleLogEnv shippedConfig sampleLogDir { disk := d } _ (by
    have h : importLog asciiUni sampleLogEnv shippedConfig sampleLogDir { disk := d } = .ok () _ :=
      (import_ok asciiUni_lawful shipped_noDefault sampleLogDir_ok sampleLogEnv shippedImport_of _ _).mpr
        ⟨fun _ _ => rfl, fun _ _ => rfl, rfl⟩
    have ho := import_opened asciiUni_lawful shipped_noDefault sampleLogDir_ok shippedImport_of h
    rw [h]
    intro f hf e
    have : (f.path, f.append) ∈ (resState (.ok () (imported asciiUni sampleLogEnv sampleLogDir shippedImport { disk := d }))).opened.map
        (fun f => (f.path, f.append)) := List.mem_map_of_mem hf
    unfold resState at this
    rw [ho, e] at this
    have hn : ∀ b, ("/l/other".toList, b) ∉ ((([] : List LogFile).map (fun f => (f.path, f.append))) ++
      (shippedImport.files asciiUni sampleLogDir).map (fun f => (sampleLogEnv.abspath f.1, !f.2))) := by decide +kernel
    exact hn _ this)

/-- Without the directory for log files the import fails. The repository does not have it. -/
example : (match importLog asciiUni { sampleLogEnv with openFault := fun _ => some (.exception "FileNotFoundError") } shippedConfig sampleLogDir
      startSt with
    | .error e s => decide (e = .exception "FileNotFoundError") && decide (s.opened = [])
    | .ok _ _ => false) = true := by decide +kernel

/-- The shipped configuration with `LOG_FILE=None` for Ladon, which gives a file of this name. -/
def noLadonFile : Config where
  service := { shippedConfig.service with sections := [("LADON".toList, [("log_file".toList, "None".toList)])] }
  client := shippedConfig.client

example : runFile (importLog asciiUni sampleLogEnv noLadonFile sampleLogDir startSt) "/l/None" =
    some "ladonlogger: LADON log started on ***\n".toList := by decide +kernel

/-! ### Records of a service -/

theorem shipped_ready : Ready (imported asciiUni sampleLogEnv sampleLogDir shippedImport startSt) shippedImport
    ⟨10, [⟨some 0, some shippedImport.service.format, some shippedImport.service.dateFormat⟩,
      ⟨none, some shippedImport.service.format, some shippedImport.service.dateFormat⟩]⟩
    ⟨10, [⟨some 1, some shippedImport.client.format, some shippedImport.client.dateFormat⟩,
      ⟨none, some shippedImport.client.format, some shippedImport.client.dateFormat⟩]⟩ ⟨30, []⟩ := by
  have h := import_ready (U := asciiUni) (E := sampleLogEnv) (dir := sampleLogDir) (v := shippedImport) (by decide +kernel) startSt_fresh
  have e1 : (⟨strToLogLevel asciiUni shippedImport.service.level, ownHandlers asciiUni shippedImport.service
      (logFileOf asciiUni sampleLogDir shippedImport.service.file) startSt.opened.length⟩ : Logger) =
    ⟨10, [⟨some 0, some shippedImport.service.format, some shippedImport.service.dateFormat⟩,
      ⟨none, some shippedImport.service.format, some shippedImport.service.dateFormat⟩]⟩ := by decide +kernel
  have e2 : (⟨strToLogLevel asciiUni shippedImport.client.level, ownHandlers asciiUni shippedImport.client
      (logFileOf asciiUni sampleLogDir shippedImport.client.file)
      (startSt.opened.length + (logFileOf asciiUni sampleLogDir shippedImport.service.file).toList.length)⟩ : Logger) =
    ⟨10, [⟨some 1, some shippedImport.client.format, some shippedImport.client.dateFormat⟩,
      ⟨none, some shippedImport.client.format, some shippedImport.client.dateFormat⟩]⟩ := by decide +kernel
  rw [e1, e2] at h
  exact h

/-- The four files of the shipped configuration are different. -/
theorem shipped_sound : Sound (imported asciiUni sampleLogEnv sampleLogDir shippedImport startSt) :=
  import_sound _ _ _ _ rfl (by decide +kernel)

/-- The settings of section `AAUTH`. -/
def aauthSettings : LogSettings :=
  { shippedImport.service with file := "None".toList, stdout := "False".toList }

/-- All histories of records, starting from there. -/
example (h : List LogRecord) (p : Str) : ((runLog sampleLogEnv (imported asciiUni sampleLogEnv sampleLogDir shippedImport startSt) h).disk p).getD [] =
    ((imported asciiUni sampleLogEnv sampleLogDir shippedImport startSt).disk p).getD [] ++
      ((h.filter (fun r => (imported asciiUni sampleLogEnv sampleLogDir shippedImport startSt).enabled r.name r.level)).zipIdx
        (imported asciiUni sampleLogEnv sampleLogDir shippedImport startSt).tick).flatMap
        (fun x => fileOut sampleLogEnv (imported asciiUni sampleLogEnv sampleLogDir shippedImport startSt) p x.2 x.1
          ((imported asciiUni sampleLogEnv sampleLogDir shippedImport startSt).handlersFor x.1.name)) :=
  (log_history sampleLogEnv _ shipped_sound h).2 p

/-- A record of the attribute authority is one line in the log of the services, whatever it says. -/
example (clean : Bool) (s : LogSt)
    (hs : s = madeLogger asciiUni sampleLogEnv aauthSettings true "aauth".toList "hgaa.services.aauth".toList clean none
      (imported asciiUni sampleLogEnv sampleLogDir shippedImport startSt)) (level : Nat) (h : 10 ≤ level) (msg : Str) :
    ((s.log sampleLogEnv "hgaa.services.aauth".toList level msg).disk "/l/hgaa_service.log".toList).getD [] =
      (s.disk "/l/hgaa_service.log".toList).getD [] ++ ("hgaa.services.aauth".toList ++ ": ".toList ++ msg ++ ['\n']) := by
  have hnew : (imported asciiUni sampleLogEnv sampleLogDir shippedImport startSt).loggers.get "hgaa.services.aauth".toList = none := by
    decide +kernel
  exact one_line (U := asciiUni) shipped_sound shipped_ready (by decide) (by decide) sampleLogEnv aauthSettings (n := "aauth".toList) (by decide) clean
    (by decide) hnew (k := 0) (by decide +kernel) (.inr rfl) rfl hs level msg h _ rfl

example : runFile (sampleRun shippedConfig "AAUTH".toList true startSt) "/l/hgaa_service.log" = some ("hgaa.services: hgaa.services log started on \n".toList ++
      "hgaa.services: Adding service logger for hgaa.services.aauth\n".toList ++
      "hgaa.services.aauth: hgaa.services.aauth log started on *****\n".toList ++ "hgaa.services.aauth: hello\n".toList) := by
  decide +kernel

/-- The level of `DEFAULT` does not keep the records of a service out of the file of `DEFAULT`. -/
def quietDefault : Config where
  service :=
    { defaults := [("log_level".toList, "ERROR".toList), ("log_stdout".toList, "False".toList)]
      sections := [("AAUTH".toList, [("log_level".toList, "ALL".toList), ("log_file".toList, "None".toList), ("log_name".toList, "aauth".toList)]),
        ("LADON".toList, [("log_file".toList, "ladon.log".toList)])] }

example : runFile (sampleRun quietDefault "AAUTH".toList true startSt) "/l/hgaa_service.log" =
    some "hgaa.services.aauth: hgaa.services.aauth log started on **\nhgaa.services.aauth: hello\n".toList := by decide +kernel

/-- A name that begins with a dot: the record passes the logger of the services by. -/
def dotName : Config where
  service :=
    { defaults := [("log_stdout".toList, "False".toList)]
      sections := [("AAUTH".toList, [("log_file".toList, "None".toList), ("log_name".toList, ".aauth".toList)]),
        ("LADON".toList, [("log_file".toList, "ladon.log".toList)])] }

example : runFile (sampleRun dotName "AAUTH".toList true startSt) "/l/hgaa_service.log" =
    some "hgaa.services: hgaa.services log started on \nhgaa.services: Adding service logger for hgaa.services..aauth\n".toList := by
  decide +kernel

/-! ### Files open twice -/

/-- Without configuration files the logs of the services, of a service and of Ladon are the same file, opened three times: the first
lines of the services, and that of Ladon, are written over, the lines of the service are there twice, and there is a gap. -/
theorem builtin_clobbered : runFile (sampleRun {} "AAUTH".toList true startSt) "/l/hgaa_service.log" =
    some ("hgaa.services.services: hgaa.services.services log started on *****\n".toList ++ "hgaa.services.services: hello\n".toList ++
      List.replicate 11 '\x00' ++ "hgaa.services.services: hgaa.services.services log started on *****\n".toList ++
      "hgaa.services.services: hello\n".toList) := by decide +kernel

/-- So the condition of `import_sound` does not hold there. -/
example : ¬ ((([("/l/hgaa_service.log".toList, true), ("/l/hgaa_client.log".toList, false), ("/l/sql.log".toList, true),
    ("/l/hgaa_service.log".toList, true)] : List (Str × Bool)).map (fun f => sampleLogEnv.abspath f.1)).Nodup) := by decide +kernel

/-- The hypotheses of `overwritten` and `gap_after_wipe`. -/
def twiceOpen : LogSt where
  opened := [⟨"f".toList, false, 0⟩, ⟨"f".toList, false, 0⟩]
  disk := fun p => if p = "f".toList then some [] else none

example : ((twiceOpen.write 0 "first\n".toList).write 1 "second\n".toList).disk "f".toList = some "second\n".toList := by
  rw [show "f".toList = (⟨"f".toList, false, 0⟩ : LogFile).path from rfl,
    overwritten twiceOpen 0 1 ⟨"f".toList, false, 0⟩ ⟨"f".toList, false, 0⟩ (by decide) rfl rfl rfl rfl rfl rfl (by decide) _ _ (by decide)]
  decide

example : (({ twiceOpen with opened := [⟨"f".toList, false, 3⟩] } : LogSt).write 0 "x".toList).disk "f".toList =
    some "\x00\x00\x00x".toList :=
  gap_after_wipe _ 0 ⟨"f".toList, false, 3⟩ rfl rfl rfl _

end Verif.Props
