import Verif.Model.Logging
import Verif.Props.Log
import Verif.Proofs.Dict

/-!
# Lemmas about the loggers
-/

namespace Verif.Proofs

/-! ### Computations -/

theorem lm_bind_ok {α β : Type} {m : LogM α} {f : α → LogM β} {s s' : LogSt} {b : β} :
    (m >>= f) s = .ok b s' ↔ ∃ a s1, m s = .ok a s1 ∧ f a s1 = .ok b s' := by
  show EStateM.bind m f s = _ ↔ _
  unfold EStateM.bind
  cases h : m s with
  | ok a s1 => simp
  | error e s1 => simp

theorem lm_pure_ok {α : Type} {a b : α} {s s' : LogSt} : (pure a : LogM α) s = .ok b s' ↔ a = b ∧ s = s' := by
  show EStateM.Result.ok a s = _ ↔ _
  simp

theorem lm_do_ok {f : LogSt → LogSt} {u : Unit} {s s' : LogSt} : logDo f s = .ok u s' ↔ f s = s' := by
  simp [logDo]

theorem lm_lift_ok {α : Type} {x : Except PyExc α} {a : α} {s s' : LogSt} :
    logLift x s = .ok a s' ↔ x = .ok a ∧ s = s' := by
  unfold logLift
  cases x <;> simp

/-! ### Names -/

theorem lastDot_none {s : Str} (h : '.' ∉ s) : lastDot s = none := if_neg h

theorem lastDot_append {p n : Str} (h : '.' ∉ n) : lastDot (p ++ '.' :: n) = some p.length := by
  unfold lastDot
  rw [if_pos (by simp)]
  have h' : '.' ∉ n.reverse := by simpa using h
  have : (p ++ '.' :: n).reverse.idxOf '.' = n.length := by
    rw [List.reverse_append, List.reverse_cons, List.append_assoc, List.idxOf_append_of_notMem h']
    simp
  rw [this]
  simp

theorem lastDot_lt {s : Str} {i : Nat} (h : lastDot s = some i) : i < s.length := by
  unfold lastDot at h
  split at h
  · next hm =>
    have := List.length_pos_of_mem hm
    simp only [Option.some.injEq] at h
    omega
  · cases h

theorem parentNames_child {p n : Str} (hp : p ≠ []) (h : '.' ∉ n) :
    ∃ r, parentNames (childName p n) = p :: r := by
  have hl : lastDot (childName p n) = some ((p.length - 1) + 1) := by
    have := List.length_pos_iff.mpr hp
    rw [childName, List.append_assoc, List.singleton_append, lastDot_append h]
    congr 1
    omega
  rw [parentNames]
  split
  · next h' => rw [hl] at h'; cases h'
  · next h' => rw [hl] at h'; cases h'
  · next i h' =>
    rw [hl] at h'
    cases h'
    have := List.length_pos_iff.mpr hp
    refine ⟨_, by
      rw [show p.length - 1 + 1 = p.length by omega]
      congr 1
      simp [childName]⟩

theorem parentNames_shorter (name : Str) : ∀ p ∈ parentNames name, p.length < name.length := by
  induction hn : name.length using Nat.strongRecOn generalizing name with
  | ind n ih =>
    subst hn
    intro p hp
    rw [parentNames] at hp
    split at hp
    · cases hp
    · cases hp
    · next i hi =>
      have hlt := lastDot_lt hi
      rcases List.mem_cons.mp hp with rfl | hp
      · simp only [List.length_take]; omega
      · have := ih (name.take i).length (by simp only [List.length_take]; omega) _ rfl p hp
        simp only [List.length_take] at this
        omega

theorem parentNames_root : parentNames rootLogName = [] := by decide +kernel

/-! ### Ancestors -/

theorem parent_shorter {s : LogSt} {name p : Str} (h : s.parent name = some p) (ha : name ∉ s.adopted) :
    p.length < name.length := by
  unfold LogSt.parent at h
  rw [if_neg ha] at h
  exact parentNames_shorter name p (List.mem_of_find?_eq_some h)

theorem parent_root {s : LogSt} (h : rootLogName ∉ s.adopted) : s.parent rootLogName = none := by
  unfold LogSt.parent
  rw [if_neg h, parentNames_root]
  rfl

/-- More fuel than the length of the name makes no difference. -/
theorem chain_fuel {s : LogSt} (hr : rootLogName ∉ s.adopted) (name : Str) (n : Nat) :
    s.chain (name.length + 2 + n) name = s.chain (name.length + 2) name := by
  induction hl : name.length using Nat.strongRecOn generalizing name n with
  | ind l ih =>
    subst hl
    rw [show name.length + 2 + n = (name.length + 1 + n) + 1 by omega]
    rw [LogSt.chain, LogSt.chain]
    congr 1
    cases hp : s.parent name with
    | none => rfl
    | some p =>
      simp only [Option.elim_some]
      by_cases ha : name ∈ s.adopted
      · unfold LogSt.parent at hp
        rw [if_pos ha] at hp
        cases hp
        rw [show name.length + 1 + n = (name.length + n) + 1 by omega, LogSt.chain, LogSt.chain, parent_root hr]
        rfl
      · have hlt := parent_shorter hp ha
        have h1 := ih p.length hlt p (name.length + 1 + n - (p.length + 2)) rfl
        have h2 := ih p.length hlt p (name.length + 1 - (p.length + 2)) rfl
        rw [show p.length + 2 + (name.length + 1 + n - (p.length + 2)) = name.length + 1 + n by omega] at h1
        rw [show p.length + 2 + (name.length + 1 - (p.length + 2)) = name.length + 1 by omega] at h2
        rw [h1, h2]

/-- The ancestors of a child are the child and the ancestors of the parent. -/
theorem ancestors_child {s : LogSt} (hr : rootLogName ∉ s.adopted) {p n : Str} (hp : p ≠ []) (hn : '.' ∉ n)
    (hex : (s.loggers.get p).isSome = true) (ha : childName p n ∉ s.adopted) :
    s.ancestors (childName p n) = (s.loggers.get (childName p n)).getD {} :: s.ancestors p := by
  obtain ⟨r, hr'⟩ := parentNames_child hp hn
  have hpar : s.parent (childName p n) = some p := by
    unfold LogSt.parent
    rw [if_neg ha, hr', List.find?_cons, hex]
  unfold LogSt.ancestors
  rw [LogSt.chain, hpar]
  simp only [Option.elim_some, List.map_cons, List.cons_append, List.cons.injEq, true_and]
  have hlen : (childName p n).length + 1 = p.length + 2 + n.length := by simp [childName]; omega
  rw [hlen, chain_fuel hr]

theorem ancestors_root {s : LogSt} (hr : rootLogName ∉ s.adopted) :
    s.ancestors rootLogName = [(s.loggers.get rootLogName).getD {}, s.root] := by
  unfold LogSt.ancestors
  rw [LogSt.chain, parent_root hr]
  rfl

theorem ancestors_adopted {s : LogSt} (hr : rootLogName ∉ s.adopted) {n : Str} (h : n ∈ s.adopted) :
    s.ancestors n = (s.loggers.get n).getD {} :: s.ancestors rootLogName := by
  have hpar : s.parent n = some rootLogName := if_pos h
  have h1 : s.chain (n.length + 1) rootLogName = [rootLogName] := by
    rw [LogSt.chain, parent_root hr]; rfl
  have h2 : s.chain (rootLogName.length + 2) rootLogName = [rootLogName] := by
    rw [LogSt.chain, parent_root hr]; rfl
  unfold LogSt.ancestors
  rw [LogSt.chain, hpar, h2]
  simp only [Option.elim_some, h1]
  rfl

/-! ### Writing -/

/-- Everything but what is in the files, the places in them and the number of records. -/
structure SameSetup (s t : LogSt) : Prop where
  loggers : t.loggers = s.loggers
  adopted : t.adopted = s.adopted
  root : t.root = s.root
  serviceLog : t.serviceLog = s.serviceLog
  clientLog : t.clientLog = s.clientLog
  opened : t.opened.map (fun f => (f.path, f.append)) = s.opened.map (fun f => (f.path, f.append))

theorem SameSetup.refl (s : LogSt) : SameSetup s s := ⟨rfl, rfl, rfl, rfl, rfl, rfl⟩

theorem SameSetup.trans {s t u : LogSt} (h : SameSetup s t) (h' : SameSetup t u) : SameSetup s u :=
  ⟨h'.loggers.trans h.loggers, h'.adopted.trans h.adopted, h'.root.trans h.root, h'.serviceLog.trans h.serviceLog,
    h'.clientLog.trans h.clientLog, h'.opened.trans h.opened⟩

theorem write_setup (s : LogSt) (k : Nat) (text : Str) : SameSetup s (s.write k text) := by
  unfold LogSt.write
  cases h : s.opened[k]? with
  | none => exact .refl s
  | some f =>
    refine ⟨rfl, rfl, rfl, rfl, rfl, ?_⟩
    simp only [List.map_set]
    obtain ⟨hk, hf⟩ := List.getElem?_eq_some_iff.mp h
    apply List.ext_getElem?
    intro i
    rw [List.getElem?_set]
    by_cases hi : k = i
    · subst hi
      simp [hk, ← hf]
    · simp [hi]

theorem emit_setup (E : LogEnv) (r : LogRecord) (s : LogSt) (h : LogHandler) : SameSetup s (s.emit E r h) := by
  unfold LogSt.emit
  cases E.render h.format h.dateFormat s.tick r with
  | none => exact .refl s
  | some line =>
    cases h.file with
    | none => exact ⟨rfl, rfl, rfl, rfl, rfl, rfl⟩
    | some k => exact write_setup s k _

theorem foldl_setup (E : LogEnv) (r : LogRecord) (hs : List LogHandler) (s : LogSt) :
    SameSetup s (hs.foldl (LogSt.emit E r) s) := by
  induction hs generalizing s with
  | nil => exact .refl s
  | cons h hs ih => exact (emit_setup E r s h).trans (ih _)

theorem log_setup (E : LogEnv) (s : LogSt) (name : Str) (level : Nat) (msg : Str) : SameSetup s (s.log E name level msg) := by
  unfold LogSt.log
  split
  · dsimp only
    have : ∀ t : LogSt, SameSetup s t → SameSetup s { t with tick := t.tick + 1 } :=
      fun t h => ⟨h.loggers, h.adopted, h.root, h.serviceLog, h.clientLog, h.opened⟩
    apply this
    split
    · unfold LogSt.lastResort
      split
      · exact ⟨rfl, rfl, rfl, rfl, rfl, rfl⟩
      · exact .refl s
    · exact foldl_setup E _ _ s
  · exact .refl s

theorem parent_setup {s t : LogSt} (h : SameSetup s t) (name : Str) : t.parent name = s.parent name := by
  unfold LogSt.parent
  rw [h.adopted, h.loggers]

theorem chain_setup {s t : LogSt} (h : SameSetup s t) (n : Nat) (name : Str) : t.chain n name = s.chain n name := by
  induction n generalizing name with
  | zero => rfl
  | succ n ih =>
    rw [LogSt.chain, LogSt.chain, parent_setup h]
    congr 1
    cases s.parent name with
    | none => rfl
    | some p => exact ih p

theorem ancestors_setup {s t : LogSt} (h : SameSetup s t) (name : Str) : t.ancestors name = s.ancestors name := by
  unfold LogSt.ancestors
  rw [chain_setup h, h.root, h.loggers]

theorem handlersFor_setup {s t : LogSt} (h : SameSetup s t) (name : Str) : t.handlersFor name = s.handlersFor name := by
  unfold LogSt.handlersFor
  rw [ancestors_setup h]

theorem enabled_setup {s t : LogSt} (h : SameSetup s t) (name : Str) (level : Nat) :
    t.enabled name level = s.enabled name level := by
  unfold LogSt.enabled LogSt.effective
  rw [ancestors_setup h]

end Verif.Proofs
