import Verif.Model.Log
import Verif.Props.Config
import Verif.Proofs.Bytes
import Verif.Proofs.Ascii

/-!
# Loggers and enabled services (C74, C75)
-/

namespace Verif.Props

open Proofs

variable {U : Uni}

/-! ### C74: loggers -/

/-- **C74**: the level depends on the upper-cased text alone, and the level given to Ladon is always defined. -/
theorem log_level_case (s t : Str) (h : U.upper s = U.upper t) : strToLogLevel U s = strToLogLevel U t := by
  unfold strToLogLevel
  rw [h]

/-- The documented names and their levels. -/
def levelNames : List (Str × Nat) :=
  [("ALL".toList, 10), ("DEBUG".toList, 10), ("INFO".toList, 20), ("INFORMATION".toList, 20), ("WARN".toList, 30),
   ("WARNING".toList, 30), ("ERROR".toList, 40), ("CRITICAL".toList, 50)]

/-- **C74**: the names of `levelNames`, in any case, have their level and every other text means no level at all. -/
theorem log_level_iff (s : Str) (n : Nat) :
    strToLogLevel U s = n ↔
      (U.upper s, n) ∈ levelNames ∨ ((∀ m, (U.upper s, m) ∉ levelNames) ∧ n = 0) := by
  unfold strToLogLevel
  generalize U.upper s = t
  by_cases hm : t ∈ levelNames.map Prod.fst
  · simp only [levelNames, List.map_cons, List.map_nil, List.mem_cons, List.not_mem_nil, or_false] at hm
    have key : ∀ p ∈ levelNames, ∀ q ∈ levelNames, p.1 = q.1 → p.2 = q.2 := by decide
    have fin : ∀ (k : Nat), (t, k) ∈ levelNames →
        (k = n ↔ (t, n) ∈ levelNames ∨ ((∀ m, (t, m) ∉ levelNames) ∧ n = 0)) := by
      intro k hk
      constructor
      · rintro rfl; exact .inl hk
      · rintro (h | h)
        · exact key _ hk _ h rfl
        · exact absurd hk (h.1 k)
    rcases hm with rfl | rfl | rfl | rfl | rfl | rfl | rfl | rfl
    · exact fin 10 (by decide)
    · exact fin 10 (by decide)
    · exact fin 20 (by decide)
    · exact fin 20 (by decide)
    · exact fin 30 (by decide)
    · exact fin 30 (by decide)
    · exact fin 40 (by decide)
    · exact fin 50 (by decide)
  · have hn : ∀ m, (t, m) ∉ levelNames := fun m h => hm (List.mem_map.mpr ⟨(t, m), h, rfl⟩)
    have hne : ∀ x ∈ levelNames.map Prod.fst, t ≠ x := fun x hx e => hm (e ▸ hx)
    simp only [levelNames, List.map_cons, List.map_nil, List.forall_mem_cons] at hne
    obtain ⟨h1, h2, h3, h4, h5, h6, h7, h8, _⟩ := hne
    simp only [h1, h2, h3, h4, h5, h6, h7, h8, or_self, if_false, hn, false_or, not_false_eq_true, implies_true, true_and]
    exact eq_comm

/-- **C74**: Ladon's level is set for every text. -/
theorem ladon_level_some (s : Str) : (ladonLevel (strToLogLevel U s)).isSome = true := by
  have h : strToLogLevel U s ∈ [10, 30, 20, 40, 50, 0] := by
    unfold strToLogLevel
    dsimp only
    split
    · simp
    · split
      · simp
      · split
        · simp
        · split
          · simp
          · split <;> simp
  revert h
  generalize strToLogLevel U s = n
  intro h
  simp only [List.mem_cons, List.not_mem_nil, or_false] at h
  rcases h with rfl | rfl | rfl | rfl | rfl | rfl <;> rfl

/-- A level that lets through less detail never gives Ladon a higher level, except that `WARN` gives Ladon more than
`INFO`: the branches of `handler.py` for the two are swapped. -/
theorem ladon_level_swapped :
    ladonLevel (strToLogLevel asciiUni "INFO".toList) = some 4 ∧
    ladonLevel (strToLogLevel asciiUni "WARN".toList) = some 5 ∧
    strToLogLevel asciiUni "INFO".toList < strToLogLevel asciiUni "WARN".toList := by decide

/-- **C74**: when `make_logger` succeeds, the logger has the configured level and its file is `LOG_DIR` followed by the
configured name; `none` and `false` in any case mean no file, and the file is emptied exactly if
`CLEAN_LOG_ON_START` is `true`. An empty name is the exception: it is opened as it is. `hdir` says that `LOG_DIR`
contains a `/`, so that no path spells `NONE`, and `hcase` that what
lower-cases to `none` or `false` also upper-cases to it. -/
theorem logger_setup (hU : U.Lawful) (c : Config) (dir name : Str) (service : Bool) (r : LogSetup)
    (h : makeLogger U c dir name service = .ok r)
    (hdir : ∀ f, U.upper (dir ++ f) ≠ "NONE".toList ∧ U.upper (dir ++ f) ≠ "FALSE".toList)
    (hcase : ∀ f, U.lower f = "none".toList ∨ U.lower f = "false".toList →
      U.upper f = "NONE".toList ∨ U.upper f = "FALSE".toList) :
    ∃ f level clean out,
      getConf U c "LOG_FILE".toList service (U.upper name) = .ok f ∧
      getConf U c "LOG_LEVEL".toList service (U.upper name) = .ok (some level) ∧
      getConf U c "LOG_NAME".toList service (U.upper name) = .ok (some r.name) ∧
      getConf U c "LOG_STDOUT".toList service (U.upper name) = .ok (some out) ∧
      getConf U c "CLEAN_LOG_ON_START".toList service (U.upper name) = .ok clean ∧
      r.level = strToLogLevel U level ∧
      (r.stdout = true ↔ U.upper out = "TRUE".toList) ∧
      match f with
      | none => r.file = none
      | some f =>
        if U.lower f = "none".toList ∨ U.lower f = "false".toList then r.file = none
        else ∃ k, clean = some k ∧
          r.file = some (if f = [] then [] else dir ++ f, decide (U.upper k = "TRUE".toList)) := by
  unfold makeLogger at h
  simp only [except_bind_ok, except_pure_ok] at h
  obtain ⟨f, hf, lv, hlv, level, hlevel, _, _, ln, hln, _, _, so, hso, cl, hcl, nm, hnm, fl, hfl, out, hout, rfl⟩ := h
  have hlv' : lv = some level := by
    cases lv with
    | none => cases hlevel
    | some x => cases hlevel; rfl
  have hln' : ln = some nm := by
    cases ln with
    | none => cases hnm
    | some x => cases hnm; rfl
  have hso' : so = some out := by
    cases so with
    | none => cases hout
    | some x => cases hout; rfl
  subst hlv' hln' hso'
  refine ⟨f, level, cl, out, hf, hlv, hln, hso, hcl, rfl, by simp, ?_⟩
  cases f with
  | none =>
    exact (Except.ok.inj hfl).symm
  | some f =>
    simp only [Option.map_some, logFileHandler] at hfl ⊢
    by_cases hn : U.lower f = "none".toList ∨ U.lower f = "false".toList
    · rw [if_pos hn]
      have h1 : ¬ (U.lower f ≠ "none".toList ∧ U.lower f ≠ "false".toList ∧ f ≠ []) := by
        rintro ⟨a, b, _⟩
        rcases hn with hn | hn <;> contradiction
      rw [if_neg h1] at hfl
      have h2 : ¬ (U.upper f ≠ "NONE".toList ∧ U.upper f ≠ "FALSE".toList) := by
        rintro ⟨a, b⟩
        rcases hcase f hn with hn | hn <;> contradiction
      rw [if_neg h2] at hfl
      exact (Except.ok.inj hfl).symm
    · rw [if_neg hn]
      have hn' := not_or.mp hn
      by_cases he : f = []
      · subst he
        have h1 : ¬ (U.lower [] ≠ "none".toList ∧ U.lower [] ≠ "false".toList ∧ ([] : Str) ≠ []) := fun h => h.2.2 rfl
        have h2 : U.upper [] ≠ "NONE".toList ∧ U.upper [] ≠ "FALSE".toList := by
          rw [hU.upper_ascii [] rfl]; decide
        rw [if_neg h1, if_pos h2] at hfl
        simp only [except_bind_ok, except_pure_ok] at hfl
        obtain ⟨k, hk, rfl⟩ := hfl
        cases cl with
        | none => cases hk
        | some x =>
          cases hk
          exact ⟨_, rfl, by simp⟩
      · have h1 : U.lower f ≠ "none".toList ∧ U.lower f ≠ "false".toList ∧ f ≠ [] := ⟨hn'.1, hn'.2, he⟩
        rw [if_pos h1, if_pos (hdir f)] at hfl
        simp only [except_bind_ok, except_pure_ok] at hfl
        obtain ⟨k, hk, rfl⟩ := hfl
        cases cl with
        | none => cases hk
        | some x =>
          cases hk
          exact ⟨_, rfl, by simp [he]⟩

/-- The hypotheses of `logger_setup` hold of the ASCII tables and a directory ending in a slash. -/
example (f : Str) : asciiUni.upper ("/logs/".toList ++ f) ≠ "NONE".toList ∧
    asciiUni.upper ("/logs/".toList ++ f) ≠ "FALSE".toList := by
  have e : (asciiUni.upper ("/logs/".toList ++ f)).head? = some '/' := rfl
  constructor <;>
  · intro h
    rw [h] at e
    revert e
    decide

example (f : Str) (h : asciiUni.lower f = "none".toList) : asciiUni.upper f = "NONE".toList := by
  have e : asciiUni.upper f = (asciiUni.lower f).map asciiUpper := by
    simp only [asciiUni, List.map_map]
    exact List.map_congr_left (fun c _ => (asciiUpper_asciiLower c).symm)
  rw [e, h]
  decide

/-- The configuration of a service with a log file of its own and of one without. -/
def logConfig : Config where
  service :=
    { defaults := [("log_file".toList, "hgaa.log".toList)]
      sections := [("TOOLS".toList, [("log_file".toList, "None".toList), ("log_level".toList, "Warning".toList)])] }

example : makeLogger asciiUni logConfig "/logs/".toList "aauth".toList true =
    .ok ⟨"services".toList, 10, some ("/logs/hgaa.log".toList, true), true⟩ := by decide
example : makeLogger asciiUni logConfig "/logs/".toList "tools".toList true =
    .ok ⟨"services".toList, 30, none, true⟩ := by decide

/-! ### C75: enabled services -/

/-- **C75**: the application consists of exactly the services for which `SERVICE_ENABLED` is `true` in any case, in the
order of the list. -/
theorem enabled_services (hU : U.Lawful) (c : Config) (hs : c.service.sections.get defaultSect = none) (ss : List Str) :
    ∃ r, enabledServices U c ss = .ok r ∧ r.Sublist ss ∧
      (∀ s ∈ ss, s ∈ r ↔ ∃ v, Setting U c "SERVICE_ENABLED".toList true s (some v) ∧ U.upper v = "TRUE".toList) := by
  have ha : ("SERVICE_ENABLED".toList : Str).all isAscii = true := by decide
  have hu : U.upper "SERVICE_ENABLED".toList = "SERVICE_ENABLED".toList := by
    rw [hU.upper_ascii _ ha]; decide
  have hval : ∀ s, ∃ v, getConf U c "SERVICE_ENABLED".toList true s = .ok (some v) := by
    intro s
    rw [getConf, getConfN_eq hU c 0 _ true s hs (upper_upper_ascii hU _ ha), hu]
    have hb : ((builtinConfigs true).get "SERVICE_ENABLED".toList).join = some "True".toList := by decide
    rw [hb]
    cases (((c.ini true).sections.get (U.upper s)).getD []).get (U.lower "SERVICE_ENABLED".toList) with
    | some v => exact ⟨_, rfl⟩
    | none =>
      cases (c.ini true).defaults.get (U.lower "SERVICE_ENABLED".toList) with
      | some v => exact ⟨_, rfl⟩
      | none => exact ⟨_, rfl⟩
  have hdec : ∀ s, (∃ v, Setting U c "SERVICE_ENABLED".toList true s (some v) ∧ U.upper v = "TRUE".toList) ↔
      ∃ v, getConf U c "SERVICE_ENABLED".toList true s = .ok (some v) ∧ U.upper v = "TRUE".toList := by
    intro s
    simp only [getConf_ascii hU c _ true s hs ha]
  suffices H : ∃ r, enabledServices U c ss = .ok r ∧ r.Sublist ss ∧
      (∀ s, s ∈ r ↔ s ∈ ss ∧ ∃ v, getConf U c "SERVICE_ENABLED".toList true s = .ok (some v) ∧ U.upper v = "TRUE".toList) by
    obtain ⟨r, h1, h2, h3⟩ := H
    exact ⟨r, h1, h2, fun s hs' => by rw [h3, hdec]; exact ⟨fun h => h.2, fun h => ⟨hs', h⟩⟩⟩
  induction ss with
  | nil => exact ⟨[], rfl, .refl _, by simp⟩
  | cons s ss ih =>
    obtain ⟨r, h1, h2, h3⟩ := ih
    obtain ⟨v, hv⟩ := hval s
    rw [enabledServices, hv]
    simp only [confStr, Option.elim_some, h1, bind, Except.bind, pure, Except.pure]
    by_cases ht : U.upper v = "TRUE".toList
    · rw [if_pos ht]
      refine ⟨_, rfl, h2.cons_cons s, ?_⟩
      intro t
      rw [List.mem_cons, List.mem_cons, h3]
      constructor
      · rintro (rfl | h)
        · exact ⟨.inl rfl, v, hv, ht⟩
        · exact ⟨.inr h.1, h.2⟩
      · rintro ⟨rfl | h, h'⟩
        · exact .inl rfl
        · exact .inr ⟨h, h'⟩
    · rw [if_neg ht]
      refine ⟨_, rfl, h2.cons s, ?_⟩
      intro t
      rw [List.mem_cons, h3]
      constructor
      · rintro h; exact ⟨.inr h.1, h.2⟩
      · rintro ⟨rfl | h, w, hw, hw'⟩
        · rw [hv] at hw
          cases hw
          exact absurd hw' ht
        · exact ⟨h, w, hw, hw'⟩

/-- One service switched off. -/
def offConfig : Config where
  service := { sections := [("PAUTH".toList, [("service_enabled".toList, "no".toList)])] }

example : enabledServices asciiUni offConfig ["aauth".toList, "pauth".toList] = .ok ["aauth".toList] := by decide

end Verif.Props
