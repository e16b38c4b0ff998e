import Verif.Model.IniFile
import Verif.Spec.IniFile
import Verif.Proofs.Dict
import Verif.Proofs.IniRead
import Verif.Proofs.Ascii
import Verif.Proofs.IniAscii
import Verif.Props.Config

/-!
# The configuration files (C106, C107, C108)
-/

namespace Verif.Props

open Proofs Spec

variable {U : Uni} {look : Str → Option Str}

/-! ### C106: the expansion of `%` -/

theorem takeWhile_holds {α : Type} {p : α → Bool} {l : List α} {x : α} (h : x ∈ l.takeWhile p) : p x = true := by
  induction l with
  | nil => cases h
  | cons y l ih =>
    rw [List.takeWhile_cons] at h
    split at h
    · rename_i hy
      rcases List.mem_cons.mp h with rfl | h
      · exact hy
      · exact ih h
    · cases h

theorem keyRef_some {s name rest : Str} :
    keyRef s = some (name, rest) ↔ name ≠ [] ∧ ')' ∉ name ∧ s = name ++ ')' :: 's' :: rest := by
  have hsplit : s.takeWhile (· ≠ ')') ++ s.dropWhile (· ≠ ')') = s := List.takeWhile_append_dropWhile
  have hno : ')' ∉ s.takeWhile (· ≠ ')') := by
    intro h
    have := takeWhile_holds h
    simp at this
  constructor
  · intro h
    unfold keyRef at h
    dsimp only at h
    split at h
    · cases h
    · rename_i hne
      split at h
      · rename_i r hr
        injection h with h
        injection h with h1 h2
        subst h1 h2
        refine ⟨hne, hno, ?_⟩
        rw [← hr, hsplit]
      · cases h
  · rintro ⟨h1, h2, rfl⟩
    have ht : ∀ c ∈ name, (decide (c ≠ ')')) = true := by
      intro c hc
      simp only [ne_eq, decide_not, Bool.not_eq_eq_eq_not, Bool.not_true, decide_eq_false_iff_not]
      rintro rfl
      exact h2 hc
    unfold keyRef
    dsimp only
    rw [List.takeWhile_append_of_pos ht, List.dropWhile_append_of_pos ht]
    simp [h1]

theorem expandLoop_iff {n : Nat} (hn : ∀ v x, expand U look n v = .ok x ↔ Expands U look n v x) :
    ∀ (fuel : Nat) (s r : Str), s.length < fuel →
      (expandLoop U look (expand U look n) fuel s = .ok r ↔ Expands U look (n + 1) s r) := by
  intro fuel
  induction fuel with
  | zero => intro s r h; omega
  | succ fuel ih =>
    intro s r h
    cases s with
    | nil =>
      rw [expandLoop]
      constructor
      · intro h; cases h; exact .nil
      · intro h; cases h; rfl
    | cons c s =>
      unfold expandLoop
      by_cases hc : c ≠ '%'
      · rw [if_pos hc]
        have hl : s.length < fuel := by simp at h; omega
        constructor
        · intro hb
          cases hr : expandLoop U look (expand U look n) fuel s with
          | error e => rw [hr] at hb; cases hb
          | ok x => rw [hr] at hb; cases hb; exact .char hc ((ih s x hl).mp hr)
        · intro hb
          cases hb with
          | char _ ht => rw [(ih s _ hl).mpr ht]; rfl
          | percent ht => exact absurd rfl hc
          | plain => exact absurd rfl hc
          | nested => exact absurd rfl hc
      · rw [if_neg hc]
        have hc : c = '%' := Decidable.not_not.mp hc
        subst hc
        split
        · rename_i s'
          have hl : s'.length < fuel := by simp at h; omega
          constructor
          · intro hb
            cases hr : expandLoop U look (expand U look n) fuel s' with
            | error e => rw [hr] at hb; cases hb
            | ok x => rw [hr] at hb; cases hb; exact .percent ((ih s' x hl).mp hr)
          · intro hb
            cases hb with
            | char h _ => exact absurd rfl h
            | percent ht => rw [(ih s' _ hl).mpr ht]; rfl
        · rename_i s'
          cases hk : keyRef s' with
          | none =>
            constructor
            · intro hb; cases hb
            · intro hb
              cases hb with
              | char h _ => exact absurd rfl h
              | plain h1 h2 h3 h4 ht =>
                rw [keyRef_some.mpr ⟨h1, h2, rfl⟩] at hk; cases hk
              | nested h1 h2 h3 h4 hv ht =>
                rw [keyRef_some.mpr ⟨h1, h2, rfl⟩] at hk; cases hk
          | some q =>
            obtain ⟨name, rest⟩ := q
            obtain ⟨h1, h2, rfl⟩ := keyRef_some.mp hk
            have hl : rest.length < fuel := by simp at h; omega
            dsimp only
            constructor
            · intro hb
              cases hv : look (U.lower name) with
              | none => rw [hv] at hb; cases hb
              | some v =>
                rw [hv] at hb
                dsimp only at hb
                rw [refValue] at hb
                by_cases hp : '%' ∈ v
                · rw [if_pos hp] at hb
                  cases hx : expand U look n v with
                  | error e => rw [hx] at hb; cases hb
                  | ok x =>
                    rw [hx] at hb
                    cases hr : expandLoop U look (expand U look n) fuel rest with
                    | error e => rw [hr] at hb; cases hb
                    | ok y =>
                      rw [hr] at hb
                      cases hb
                      exact .nested h1 h2 hv hp ((hn v x).mp hx) ((ih rest y hl).mp hr)
                · rw [if_neg hp] at hb
                  cases hr : expandLoop U look (expand U look n) fuel rest with
                  | error e => rw [hr] at hb; cases hb
                  | ok y =>
                    rw [hr] at hb
                    cases hb
                    exact .plain h1 h2 hv hp ((ih rest y hl).mp hr)
            · intro hb
              generalize hs : '%' :: '(' :: (name ++ ')' :: 's' :: rest) = t at hb
              cases hb with
              | nil => cases hs
              | char h _ => cases hs; exact absurd rfl h
              | percent _ => cases hs
              | plain g1 g2 g3 g4 ht =>
                injection hs with _ hs
                injection hs with _ hs
                have := keyRef_some.mpr ⟨g1, g2, hs⟩
                rw [hk] at this
                cases this
                rw [g3]
                dsimp only
                rw [refValue, if_neg g4, (ih rest _ hl).mpr ht]
                rfl
              | nested g1 g2 g3 g4 hv ht =>
                injection hs with _ hs
                injection hs with _ hs
                have := keyRef_some.mpr ⟨g1, g2, hs⟩
                rw [hk] at this
                cases this
                rw [g3]
                dsimp only
                rw [refValue, if_pos g4, (hn _ _).mpr hv, (ih rest _ hl).mpr ht]
                rfl
        · rename_i g1 g2
          constructor
          · intro hb; cases hb
          · intro hb
            cases hb with
            | char h _ => exact absurd rfl h
            | percent _ => exact absurd rfl (g1 _)
            | plain => exact absurd rfl (g2 _)
            | nested => exact absurd rfl (g2 _)

/-- **C106**: a value is accepted exactly if it has a meaning, and then `get` returns that meaning. -/
theorem expand_iff (n : Nat) : ∀ (s r : Str), expand U look n s = .ok r ↔ Expands U look n s r := by
  induction n with
  | zero =>
    intro s r
    rw [expand]
    exact ⟨fun h => (by cases h), fun h => (by cases h)⟩
  | succ n ih =>
    intro s r
    rw [expand]
    exact expandLoop_iff ih _ s r (Nat.lt_succ_self _)

/-- Texts are expanded in one way only. -/
theorem expands_unique {n : Nat} {s r r' : Str} (h : Expands U look n s r) (h' : Expands U look n s r') : r = r' := by
  have := (expand_iff n s r).mpr h
  rw [(expand_iff n s r').mpr h'] at this
  exact (Except.ok.inj this).symm

/-- The loop does not depend on the fuel. -/
theorem expandLoop_fuel {nested : Str → Except IniError Str} : ∀ (n m : Nat) (s : Str), s.length < n → s.length < m →
    expandLoop U look nested n s = expandLoop U look nested m s := by
  intro n
  induction n with
  | zero => intro m s h; omega
  | succ n ih =>
    intro m s hn hm
    cases m with
    | zero => omega
    | succ m =>
      cases s with
      | nil => rfl
      | cons c s =>
        unfold expandLoop
        simp only [List.length_cons] at hn hm
        by_cases hc : c ≠ '%'
        · rw [if_pos hc, if_pos hc, ih m s (by omega) (by omega)]
        · rw [if_neg hc, if_neg hc]
          split
          · rename_i s'
            simp only [List.length_cons] at hn hm
            rw [ih m s' (by omega) (by omega)]
          · rename_i s'
            simp only [List.length_cons] at hn hm
            cases hk : keyRef s' with
            | none => rfl
            | some q =>
              obtain ⟨name, rest⟩ := q
              obtain ⟨h1, h2, rfl⟩ := keyRef_some.mp hk
              simp only [List.length_append, List.length_cons] at hn hm
              dsimp only
              rw [ih m rest (by omega) (by omega)]
          · rfl

theorem expand_cons {n : Nat} {c : Char} {s : Str} (h : c ≠ '%') :
    expand U look (n + 1) (c :: s) = (expand U look (n + 1) s).map (c :: ·) := by
  rw [expand, expand]
  conv_lhs => unfold expandLoop
  rw [if_pos h]
  change (do let r ← expandLoop U look (expand U look n) (s.length + 1) s; pure (c :: r)) = _
  cases expandLoop U look (expand U look n) (s.length + 1) s <;> rfl

theorem expand_percent {n : Nat} {s : Str} :
    expand U look (n + 1) ('%' :: '%' :: s) = (expand U look (n + 1) s).map ('%' :: ·) := by
  rw [expand, expand]
  conv_lhs => unfold expandLoop
  rw [if_neg (by simp)]
  change (do let r ← expandLoop U look (expand U look n) (s.length + 2) s; pure ('%' :: r)) = _
  rw [expandLoop_fuel (s.length + 2) (s.length + 1) s (by omega) (by omega)]
  cases expandLoop U look (expand U look n) (s.length + 1) s <;> rfl

/-- **C106**: `escape w` stands for `w`, whatever comes behind it. -/
theorem expand_escape_append (n : Nat) (w s : Str) :
    expand U look (n + 1) (escape w ++ s) = (expand U look (n + 1) s).map (w ++ ·) := by
  induction w with
  | nil =>
    change expand U look (n + 1) s = _
    cases expand U look (n + 1) s <;> rfl
  | cons c w ih =>
    by_cases hc : c = '%'
    · subst hc
      have : escape ('%' :: w) ++ s = '%' :: '%' :: (escape w ++ s) := by simp [escape]
      rw [this, expand_percent, ih]
      cases expand U look (n + 1) s <;> rfl
    · have : escape (c :: w) ++ s = c :: (escape w ++ s) := by simp [escape, hc]
      rw [this, expand_cons hc, ih]
      cases expand U look (n + 1) s <;> rfl

/-- **C106**: every text can be configured: written with `%` doubled it is read back as it is. -/
theorem expand_escape (w : Str) : expand U look maxDepth (escape w) = .ok w := by
  have := expand_escape_append (U := U) (look := look) 9 w []
  rw [List.append_nil] at this
  change expand U look (9 + 1) (escape w) = _
  rw [this]
  simp [expand, expandLoop, Except.map]

theorem escape_plain {w : Str} (h : '%' ∉ w) : escape w = w := by
  induction w with
  | nil => rfl
  | cons c w ih =>
    simp only [List.mem_cons, not_or] at h
    have h2 := ih h.2
    simp only [escape] at h2
    rw [escape, List.flatMap_cons, if_neg (Ne.symm h.1), h2]
    rfl

/-- A value without `%` stands for itself. -/
theorem expand_plain {w : Str} (h : '%' ∉ w) : expand U look maxDepth w = .ok w := by
  have := expand_escape (U := U) (look := look) w
  rwa [escape_plain h] at this

/-- **C106**: a `%` that is not followed by `%` or `(` makes the value unreadable. -/
theorem expand_lone (n : Nat) (w s : Str) (h1 : s.head? ≠ some '%') (h2 : s.head? ≠ some '(') :
    expand U look (n + 1) (escape w ++ '%' :: s) = .error .interpolationSyntax := by
  rw [expand_escape_append]
  have : expand U look (n + 1) ('%' :: s) = .error .interpolationSyntax := by
    rw [expand]
    unfold expandLoop
    rw [if_neg (by simp)]
    split
    · exact absurd rfl h1
    · exact absurd rfl h2
    · rfl
  rw [this]
  rfl

theorem expandLoop_ref (nested : Str → Except IniError Str) (n : Nat) (s : Str) :
    expandLoop U look nested (n + 1) ('%' :: '(' :: s) =
      match keyRef s with
      | none => .error .interpolationSyntax
      | some (name, rest) =>
        match look (U.lower name) with
        | none => .error .interpolationMissingOption
        | some v => do
          let x ← refValue nested v
          let r ← expandLoop U look nested n rest
          return x ++ r := rfl

/-- A reference, in general. -/
theorem expand_ref (n : Nat) (name s : Str) (h1 : name ≠ []) (h2 : ')' ∉ name) :
    expand U look (n + 1) ('%' :: '(' :: (name ++ ')' :: 's' :: s)) =
      match look (U.lower name) with
      | none => .error .interpolationMissingOption
      | some v => (if '%' ∈ v then expand U look n v else .ok v).bind
          (fun x => (expand U look (n + 1) s).map (x ++ ·)) := by
  rw [expand, expandLoop_ref, keyRef_some.mpr ⟨h1, h2, rfl⟩]
  dsimp only
  cases look (U.lower name) with
  | none => rfl
  | some v =>
    dsimp only
    rw [expandLoop_fuel _ (s.length + 1) s (by simp; omega) (by omega), ← expand, refValue]
    cases (if '%' ∈ v then expand U look n v else .ok v) with
    | error e => rfl
    | ok x => cases expand U look (n + 1) s <;> rfl

/-- **C106**: a reference to an option that is not configured makes the value unreadable. -/
theorem expand_missing (n : Nat) (w name s : Str) (h1 : name ≠ []) (h2 : ')' ∉ name) (h3 : look (U.lower name) = none) :
    expand U look (n + 1) (escape w ++ '%' :: '(' :: (name ++ ')' :: 's' :: s)) = .error .interpolationMissingOption := by
  rw [expand_escape_append, expand_ref n name s h1 h2, h3]
  rfl

/-- **C106**: a value that refers to its own option is unreadable; the limit on levels ends the recursion. -/
theorem expand_self (n : Nat) (w name s : Str) (h1 : name ≠ []) (h2 : ')' ∉ name)
    (h3 : look (U.lower name) = some (escape w ++ '%' :: '(' :: (name ++ ')' :: 's' :: s))) :
    expand U look n (escape w ++ '%' :: '(' :: (name ++ ')' :: 's' :: s)) = .error .interpolationDepth := by
  induction n with
  | zero => rfl
  | succ n ih =>
    rw [expand_escape_append, expand_ref n name s h1 h2, h3]
    dsimp only
    rw [if_pos (by simp), ih]
    rfl

/-- The model's fuel never runs out. -/
theorem expand_fuel (n : Nat) (s : Str) : expand U look n s ≠ .error .outOfFuel := by
  induction n generalizing s with
  | zero => intro h; cases h
  | succ n ihn =>
    rw [expand]
    have key : ∀ (fuel : Nat) (s : Str), s.length < fuel →
        expandLoop U look (expand U look n) fuel s ≠ .error .outOfFuel := by
      intro fuel
      induction fuel with
      | zero => intro s h; omega
      | succ fuel ih =>
        intro s h
        cases s with
        | nil => intro h; cases h
        | cons c s =>
          unfold expandLoop
          simp only [List.length_cons] at h
          by_cases hc : c ≠ '%'
          · rw [if_pos hc]
            have := ih s (by omega)
            cases hr : expandLoop U look (expand U look n) fuel s with
            | error e => rw [hr] at this; intro h; cases h; exact this rfl
            | ok x => intro h; cases h
          · rw [if_neg hc]
            split
            · rename_i s'
              simp only [List.length_cons] at h
              have := ih s' (by omega)
              cases hr : expandLoop U look (expand U look n) fuel s' with
              | error e => rw [hr] at this; intro h; cases h; exact this rfl
              | ok x => intro h; cases h
            · rename_i s'
              simp only [List.length_cons] at h
              cases hk : keyRef s' with
              | none => intro h; cases h
              | some q =>
                obtain ⟨name, rest⟩ := q
                obtain ⟨h1, h2, rfl⟩ := keyRef_some.mp hk
                simp only [List.length_append, List.length_cons] at h
                dsimp only
                cases hl : look (U.lower name) with
                | none => intro h; cases h
                | some v =>
                  dsimp only
                  have h0 : refValue (expand U look n) v ≠ .error .outOfFuel := by
                    rw [refValue]
                    by_cases hp : '%' ∈ v
                    · rw [if_pos hp]; exact ihn v
                    · rw [if_neg hp]; intro h; cases h
                  cases hx : refValue (expand U look n) v with
                  | error e => rw [hx] at h0; intro h; cases h; exact h0 rfl
                  | ok x =>
                    have := ih rest (by omega)
                    cases hr : expandLoop U look (expand U look n) fuel rest with
                    | error e => rw [hr] at this; intro h; cases h; exact this rfl
                    | ok x => intro h; cases h
            · intro h; cases h
    exact key _ s (Nat.lt_succ_self _)

/-! ### C106: `get_conf` on the values as written -/

theorem value_eq (i : Ini) (d : Dict Str) (o : Str) :
    i.value U d o = match i.look d (U.lower o) with
      | none => .ok none
      | some v => (expand U (i.look d) maxDepth v).map some := by
  unfold Ini.value
  cases i.look d (U.lower o) with
  | none => rfl
  | some v => dsimp only; cases expand U (i.look d) maxDepth v <;> rfl

/-- **C106**: `get_conf` expands the value that takes precedence, within its section, and returns built-in values as they
are. -/
theorem getText_eq (hU : U.Lawful) (c : Config) (name : Str) (service : Bool) (sect : Str)
    (hs : (c.ini service).sections.get defaultSect = none) (hup : U.upper (U.upper name) = U.upper name) :
    getText U c name service sect =
      let d := ((c.ini service).sections.get (U.upper sect)).getD []
      match (d.get (U.lower (U.upper name))).or ((c.ini service).defaults.get (U.lower (U.upper name))) with
      | some v => (expand U ((c.ini service).look d) maxDepth v).map some
      | none => .ok ((builtinConfigs service).get (U.upper name)).join := by
  have hdef : ∀ n, getTextN U c (n + 1) (U.upper name) service defaultSect =
      match (c.ini service).defaults.get (U.lower (U.upper name)) with
      | some v => (expand U ((c.ini service).look []) maxDepth v).map some
      | none => .ok ((builtinConfigs service).get (U.upper name)).join := by
    intro n
    rw [getTextN, upper_defaultSect hU, hs, hup]
    simp only [Option.getD_none, value_eq, Ini.look, dict_get_nil, Option.none_or]
    cases (c.ini service).defaults.get (U.lower (U.upper name)) with
    | none => simp [bind, Except.bind]
    | some v =>
      dsimp only
      cases expand U ((c.ini service).look []) maxDepth v with
      | error e => rfl
      | ok x => rfl
  rw [getText, getTextN]
  dsimp only
  rw [value_eq]
  have hl : (c.ini service).look (((c.ini service).sections.get (U.upper sect)).getD []) (U.lower (U.upper name)) =
    ((((c.ini service).sections.get (U.upper sect)).getD []).get (U.lower (U.upper name))).or
      ((c.ini service).defaults.get (U.lower (U.upper name))) := rfl
  rw [hl]
  cases hv : ((((c.ini service).sections.get (U.upper sect)).getD []).get (U.lower (U.upper name))).or
      ((c.ini service).defaults.get (U.lower (U.upper name))) with
  | some v =>
    dsimp only
    cases expand U ((c.ini service).look _) maxDepth v with
    | error e => rfl
    | ok x => rfl
  | none =>
    have hd : (c.ini service).defaults.get (U.lower (U.upper name)) = none := by
      rw [Option.or_eq_none_iff] at hv; exact hv.2
    dsimp only
    change (if _ then _ else _) = _
    rw [hdef 0, hd]
    dsimp only
    rw [ite_self]

/-! ### C106: the configuration of the other models -/

theorem dict_get_append {α : Type} (d e : Dict α) (k : Str) : Dict.get (d ++ e) k = (d.get k).or (e.get k) := by
  induction d with
  | nil => rw [List.nil_append, dict_get_nil, Option.none_or]
  | cons x d ih =>
    obtain ⟨k', v⟩ := x
    rw [List.cons_append, dict_get_cons, dict_get_cons, ih]
    split <;> rfl

theorem resolveSect_get {i : Ini} {d : Dict Str} {es xs : Dict Str} (h : i.resolveSect U d es = .ok xs) (k : Str) :
    (es.get k = none ∧ xs.get k = none) ∨
    ∃ v x, es.get k = some v ∧ expand U (i.look d) maxDepth v = .ok x ∧ xs.get k = some x := by
  induction es generalizing xs with
  | nil => cases h; exact .inl ⟨rfl, rfl⟩
  | cons e es ih =>
    obtain ⟨k', v⟩ := e
    rw [Ini.resolveSect] at h
    cases hx : expand U (i.look d) maxDepth v with
    | error e => rw [hx] at h; cases h
    | ok x =>
      rw [hx] at h
      cases hr : i.resolveSect U d es with
      | error e => rw [hr] at h; cases h
      | ok ys =>
        rw [hr] at h
        cases h
        rw [dict_get_cons, dict_get_cons]
        by_cases hk : k' = k
        · rw [if_pos hk, if_pos hk]
          exact .inr ⟨v, x, rfl, hx, rfl⟩
        · rw [if_neg hk, if_neg hk]
          exact ih hr

theorem resolveAll_get {i : Ini} {ds xs : Dict (Dict Str)} (h : i.resolveAll U ds = .ok xs) (s : Str) :
    (ds.get s = none ∧ xs.get s = none) ∨
    ∃ d x, ds.get s = some d ∧ i.resolveSect U d (d ++ i.defaults) = .ok x ∧ xs.get s = some x := by
  induction ds generalizing xs with
  | nil => cases h; exact .inl ⟨rfl, rfl⟩
  | cons e ds ih =>
    obtain ⟨s', d⟩ := e
    rw [Ini.resolveAll] at h
    cases hx : i.resolveSect U d (d ++ i.defaults) with
    | error e => rw [hx] at h; cases h
    | ok x =>
      rw [hx] at h
      cases hr : i.resolveAll U ds with
      | error e => rw [hr] at h; cases h
      | ok ys =>
        rw [hr] at h
        cases h
        rw [dict_get_cons, dict_get_cons]
        by_cases hk : s' = s
        · rw [if_pos hk, if_pos hk]
          exact .inr ⟨d, x, rfl, hx, rfl⟩
        · rw [if_neg hk, if_neg hk]
          exact ih hr

theorem resolve_value {i j : Ini} (h : i.resolve U = .ok j) (s o : Str) :
    i.value U ((i.sections.get s).getD []) o = .ok (j.option U ((j.sections.get s).getD []) o) ∧
    (j.sections.get s).isSome = (i.sections.get s).isSome := by
  unfold Ini.resolve at h
  cases h1 : i.resolveSect U [] i.defaults with
  | error e => rw [h1] at h; cases h
  | ok ds =>
    rw [h1] at h
    cases h2 : i.resolveAll U i.sections with
    | error e => rw [h2] at h; cases h
    | ok ss =>
      rw [h2] at h
      cases h
      rw [value_eq]
      unfold Ini.option Ini.look
      dsimp only
      rcases resolveAll_get h2 s with ⟨g1, g2⟩ | ⟨d, x, g1, g2, g3⟩
      · rw [g1, g2]
        refine ⟨?_, rfl⟩
        simp only [Option.getD_none, dict_get_nil, Option.none_or]
        rcases resolveSect_get h1 (U.lower o) with ⟨e1, e2⟩ | ⟨v, y, e1, e2, e3⟩
        · rw [e1, e2]
        · rw [e1, e3]
          dsimp only
          change (expand U (i.look []) maxDepth v).map some = _
          rw [e2]
          rfl
      · rw [g1, g3]
        refine ⟨?_, rfl⟩
        simp only [Option.getD_some]
        rcases resolveSect_get g2 (U.lower o) with ⟨e1, e2⟩ | ⟨v, y, e1, e2, e3⟩
        · rw [dict_get_append] at e1
          rw [e1, e2, Option.none_or]
          rw [Option.or_eq_none_iff] at e1
          rcases resolveSect_get h1 (U.lower o) with ⟨f1, f2⟩ | ⟨v, y, f1, f2, f3⟩
          · rw [f2]
          · rw [e1.2] at f1; cases f1
        · rw [dict_get_append] at e1
          rw [e1, e3]
          dsimp only
          change (expand U (i.look d) maxDepth v).map some = _
          rw [e2]
          rfl

/-- **C106**: if every value of the files can be expanded, `get_conf` on the files is `get_conf` on the expanded
configuration, which is the form the other theorems take it in. -/
theorem getText_resolve (hU : U.Lawful) (c c' : Config) (h : c.resolve U = .ok c') (name : Str) (service : Bool) (sect : Str) :
    ∃ v, getText U c name service sect = .ok v ∧ getConf U c' name service sect = .ok v := by
  have hi : (c.ini service).resolve U = .ok (c'.ini service) := by
    unfold Config.resolve at h
    cases h1 : c.service.resolve U with
    | error e => rw [h1] at h; cases h
    | ok s =>
      rw [h1] at h
      cases h2 : c.client.resolve U with
      | error e => rw [h2] at h; cases h
      | ok k =>
        rw [h2] at h
        cases h
        cases service
        · exact h2
        · exact h1
  have key : ∀ n name sect, getTextN U c n name service sect =
      match getConfN U c' n name service sect with
      | .ok v => .ok v
      | .error _ => .error .outOfFuel := by
    intro n
    induction n with
    | zero => intro name sect; rfl
    | succ n ih =>
      intro name sect
      rw [getTextN, getConfN]
      obtain ⟨h1, h2⟩ := resolve_value hi (U.upper sect) (U.upper name)
      rw [h1, h2]
      change (match (c'.ini service).option U _ (U.upper name) with | some v => _ | none => _) = _
      cases (c'.ini service).option U (((c'.ini service).sections.get (U.upper sect)).getD []) (U.upper name) with
      | some v => rfl
      | none =>
        dsimp only
        by_cases hd : (if ((c.ini service).sections.get (U.upper sect)).isSome = true then U.upper sect else defaultSect) =
            defaultSect
        · rw [if_pos hd, if_pos hd]
        · rw [if_neg hd, if_neg hd]
          exact ih _ _
  obtain ⟨-, v, hv⟩ := getConf_terminates hU c' 0 name service sect
  refine ⟨v, ?_, hv⟩
  rw [getConf] at hv
  rw [getText, key, hv]

/-- A dictionary with its values escaped. -/
def escapeDict (d : Dict Str) : Dict Str := d.map (fun e => (e.1, escape e.2))

/-- A configuration with its values escaped. -/
def escapeIni (i : Ini) : Ini :=
  { defaults := escapeDict i.defaults, sections := i.sections.map (fun s => (s.1, escapeDict s.2)) }

/-- **C106**: every configuration can be written down: escape its values. -/
theorem resolve_escaped (i : Ini) : (escapeIni i).resolve U =
    .ok { defaults := i.defaults, sections := i.sections.map (fun s => (s.1, s.2 ++ i.defaults)) } := by
  have h1 : ∀ (j : Ini) (d es : Dict Str), j.resolveSect U d (escapeDict es) = .ok es := by
    intro j d es
    induction es with
    | nil => rfl
    | cons e es ih =>
      obtain ⟨k, v⟩ := e
      rw [escapeDict, List.map_cons, Ini.resolveSect, expand_escape]
      rw [escapeDict] at ih
      rw [ih]
      rfl
  have h2 : ∀ (j : Ini) (ss : Dict (Dict Str)), j.defaults = escapeDict i.defaults →
      j.resolveAll U (ss.map (fun s => (s.1, escapeDict s.2))) = .ok (ss.map (fun s => (s.1, s.2 ++ i.defaults))) := by
    intro j ss hj
    induction ss with
    | nil => rfl
    | cons s ss ih =>
      obtain ⟨n, d⟩ := s
      have e : escapeDict d ++ j.defaults = escapeDict (d ++ i.defaults) := by rw [hj]; simp [escapeDict]
      rw [List.map_cons, Ini.resolveAll, e, h1, ih]
      rfl
  rw [escapeIni, Ini.resolve, h1, h2 _ _ rfl]
  rfl

/-! ### C107: reading the files -/

/-- **C107**: a file is read as what it says: the options of the default section and of the other sections, by lower-cased
name, with values that go on over indented lines, whatever the spaces, comments and blank lines in it. -/
theorem read_document (hU : U.Lawful) (d : Document) (hd : d.Ok U) (hf : d.Distinct U) :
    readIni U (textOf d.lines) = .ok
      { defaults := valuesOf U (d.defaults U), sections := (d.others U).map (fun s => (s.1, valuesOf U s.2)) } := by
  obtain ⟨st, h1, h2⟩ := iniLines_document hU hd hf
  have hj : ∀ x : Dict (List Str), joinValues U x = valuesOf U x := by
    intro x
    unfold joinValues valuesOf
    simp only [joinLines_eq, trimEnd]
  unfold readIni
  rw [fileLines_textOf (noBreak_iniDocument hd), h1]
  change (if st.bad = true then _ else _) = _
  rw [h2.bad, h2.defaults, h2.sections, defsOf_pieces, othersOf_pieces]
  simp only [hj]
  rfl

/-- The value of an option on a single line is what stands there. -/
theorem value_single (e : Entry) (he : e.Ok U) (hm : e.more = []) : trimEnd U (joined e.valueLines) = e.first := by
  rw [Entry.valueLines, hm]
  exact rstrip_id he.first.2.2

/-- Lines of comments leave no trace in a value, and blank lines behind it neither. -/
theorem value_noted (hU : U.Lawful) (e : Entry) (he : e.Ok U) (hm : ∀ l ∈ e.more, l.Note) : trimEnd U (joined e.valueLines) = e.first := by
  have key : ∀ (vs : List ValueLine) (x : Str), (∀ l ∈ vs, l.Note) →
      ∃ t, joined (x :: vs.flatMap ValueLine.adds) = x ++ t ∧ ∀ c ∈ t, c = '\n' := by
    intro vs
    induction vs with
    | nil => intro x _; exact ⟨[], by simp [joined], by simp⟩
    | cons v vs ih =>
      intro x h
      have h' : ∀ l ∈ vs, l.Note := fun l hl => h l (by simp [hl])
      cases v with
      | blank s =>
        obtain ⟨t, h1, h2⟩ := ih [] h'
        refine ⟨'\n' :: t, ?_, ?_⟩
        · rw [List.flatMap_cons, ValueLine.adds, List.singleton_append, joined, h1]
          · rfl
          · exact fun h => (by cases h)
        · intro c hc
          rcases List.mem_cons.mp hc with rfl | hc
          · rfl
          · exact h2 c hc
      | comment l m s =>
        rw [List.flatMap_cons, ValueLine.adds, List.nil_append]
        exact ih x h'
      | text l s r => exact (h (.text l s r) (by simp)).elim
  obtain ⟨t, h1, h2⟩ := key e.more e.first hm
  rw [Entry.valueLines, h1]
  refine (rstrip_spaces ?_).trans (rstrip_id he.first.2.2)
  intro c hc
  rw [h2 c hc, hU.space_ascii _ (by decide)]
  decide

/-- **C107**: the line end behind the last line does not matter. -/
theorem read_newline (t : Str) (h0 : t ≠ []) (ht : t.getLast? ≠ some '\n') : readIni U (t ++ ['\n']) = readIni U t := by
  obtain ⟨ls, l, -, h2, h3, h4⟩ := splitLines_spec t
  have hl : l ≠ [] := by
    rintro rfl
    rw [List.append_nil] at h2
    subst h2
    rcases List.eq_nil_or_concat ls with rfl | ⟨ls', x, rfl⟩
    · exact h0 rfl
    · apply ht
      simp [textOf]
  have e : t ++ ['\n'] = textOf (ls ++ [l]) := by rw [h2]; simp [textOf]
  unfold readIni
  rw [e, fileLines_textOf (noBreak_append h3 (by intro x hx; rw [List.mem_singleton] at hx; rw [hx]; exact h4)), h2,
    fileLines_last h3 h4 hl]

theorem read_prefix (hU : U.Lawful) {d : Document} (hd : d.Ok U) (hf : d.Distinct U) {l : Str} {rest : List Str}
    (hl : '\n' ∉ l) (hr : ∀ x ∈ rest, '\n' ∉ x) :
    ∃ st, Holds st (pieces U d.sections) ∧ fileLines (textOf (d.lines ++ l :: rest)) = d.lines ++ l :: rest ∧
      iniLines U {} (d.lines ++ l :: rest) = (iniLine U st l).bind (fun st => iniLines U st rest) := by
  obtain ⟨st, h1, h2⟩ := iniLines_document hU hd hf
  refine ⟨st, h2, fileLines_textOf (noBreak_append (noBreak_iniDocument hd) ?_), ?_⟩
  · intro x hx
    rcases List.mem_cons.mp hx with rfl | hx
    · exact hl
    · exact hr x hx
  · rw [iniLines_append, h1]
    rfl

/-- **C107**: a section given twice is refused, whatever follows. -/
theorem read_duplicate_section (hU : U.Lawful) (d : Document) (hd : d.Ok U) (hf : d.Distinct U) (s : Section) (hs : s.Ok U)
    (hdup : s.name ∈ (d.others U).map Prod.fst) (rest : List Str) (hr : ∀ x ∈ rest, '\n' ∉ x) :
    readIni U (textOf (d.lines ++ ('[' :: (s.name ++ ']' :: s.trail)) :: rest)) = .error (.duplicateSection s.name) := by
  obtain ⟨st, h1, h2, h3⟩ := read_prefix hU hd hf (l := '[' :: (s.name ++ ']' :: s.trail)) (rest := rest)
    (noBreak_iniSection hs _ (by simp [Section.lines])) hr
  have hne : s.name ≠ theDefault := by
    obtain ⟨x, hx, he⟩ := List.mem_map.mp hdup
    obtain ⟨y, hy, rfl⟩ := List.mem_map.mp hx
    have := (List.mem_filter.mp hy).2
    rw [← he]
    simpa using this
  have hmem : s.name ∈ (othersOf (pieces U d.sections)).map Prod.fst := by rw [othersOf_pieces]; exact hdup
  have hseen : (s.name, none) ∈ st.seen := by
    rw [h1.seen_sect]
    refine ⟨hne, ?_⟩
    obtain ⟨x, hx, he⟩ := List.mem_map.mp hmem
    exact List.mem_map.mpr ⟨x, (List.mem_filter.mp hx).1, he⟩
  have hsome : (st.sections.get s.name).isSome = true := by
    rw [h1.sections]
    cases hg : Dict.get (othersOf (pieces U d.sections)) s.name with
    | none => exact absurd hmem (dict_get_none_iff.mp hg)
    | some v => rfl
  unfold readIni
  rw [h2, h3, iniLine_header hU hs h1.indent, IniState.header, if_neg (fun h => hne (h.trans theDefault_eq.symm)), hsome,
    if_pos rfl, if_pos hseen]
  rfl

/-- **C107**: an option given twice in the section it is given in is refused, whatever follows; case does not matter. -/
theorem read_duplicate_option (hU : U.Lawful) (d : Document) (hd : d.Ok U) (hf : d.Distinct U) (ss : List Section) (s s' : Section)
    (hlast : d.sections = ss ++ [s]) (hs' : s' ∈ d.sections) (hn : s'.name = s.name) (e : Entry) (he : e.Ok U)
    (hdup : U.lower e.name ∈ (s'.options U).map Prod.fst) (rest : List Str) (hr : ∀ x ∈ rest, '\n' ∉ x) :
    readIni U (textOf (d.lines ++ (e.name ++ (e.before ++ e.delim :: (e.after ++ (e.first ++ e.trail)))) :: rest)) =
      .error (.duplicateOption s.name (U.lower e.name)) := by
  obtain ⟨st, h1, h2, h3⟩ := read_prefix hU hd hf
    (l := e.name ++ (e.before ++ e.delim :: (e.after ++ (e.first ++ e.trail)))) (rest := rest)
    (noBreak_iniEntry he _ (by simp [Entry.lines])) hr
  have hsect : st.sect = some s.name := by rw [h1.sect, pieces, hlast]; simp
  have hseen : (s.name, some (U.lower e.name)) ∈ st.seen := by
    rw [h1.seen_opt]
    refine ⟨s'.options U, ?_, hdup⟩
    rw [← hn]
    exact List.mem_map.mpr ⟨s', hs', rfl⟩
  unfold readIni
  rw [h2, h3, iniLine_entry hU he h1.indent hsect, if_pos hseen]
  rfl

/-- **C107**: an option before the first section is refused. -/
theorem read_no_header (hU : U.Lawful) (notes : List ValueLine) (hnotes : ∀ l ∈ notes, l.Ok U ∧ l.Note) (e : Entry)
    (he : e.Ok U) (rest : List Str) (hr : ∀ x ∈ rest, '\n' ∉ x) :
    readIni U (textOf (notes.map ValueLine.line ++
      (e.name ++ (e.before ++ e.delim :: (e.after ++ (e.first ++ e.trail)))) :: rest)) = .error .missingSectionHeader := by
  unfold readIni
  rw [fileLines_textOf, iniLines_append, iniLines_notes hU hnotes rfl]
  · change (iniLines U {} (_ :: rest)).bind _ = _
    rw [iniLines, iniLine_entry_any hU he rfl]
    rfl
  · refine noBreak_append ?_ ?_
    · intro x hx
      obtain ⟨v, hv, rfl⟩ := List.mem_map.mp hx
      exact noBreak_valueLine (hnotes v hv).1
    · intro x hx
      rcases List.mem_cons.mp hx with rfl | hx
      · exact noBreak_iniEntry he _ (by simp [Entry.lines])
      · exact hr x hx

/-- **C107**: a line in a section that is no option, header or comment and not indented makes the file unreadable. -/
theorem read_bad_line (hU : U.Lawful) (d : Document) (hd : d.Ok U) (hf : d.Distinct U) (l : Str) (h0 : l ≠ [])
    (ht : Trimmed U l) (hdel : '=' ∉ l ∧ ':' ∉ l) (hh : l.head? ≠ some '#' ∧ l.head? ≠ some ';' ∧ l.head? ≠ some '[')
    (rest : List Str) (hr : ∀ x ∈ rest, '\n' ∉ x) : ∃ e, readIni U (textOf (d.lines ++ l :: rest)) = .error e := by
  obtain ⟨st, h1, h2, h3⟩ := read_prefix hU hd hf ht.1 hr
  have hv : pyStrip U l = l := pyStrip_iff.mpr ⟨[], [], by simp, by simp, by simp, ht.2.1, ht.2.2⟩
  have hnone : optionLine U l = none := by
    have : ∀ y ∈ l, (!iniDelim y) = true := by
      intro y hy
      simp only [iniDelim, Bool.not_eq_true', Bool.or_eq_false_iff, decide_eq_false_iff_not]
      exact ⟨fun h => hdel.1 (h ▸ hy), fun h => hdel.2 (h ▸ hy)⟩
    have hd : l.dropWhile (fun c => !iniDelim c) = [] := by
      have := dropWhile_all (m := []) this
      rwa [List.append_nil] at this
    unfold optionLine
    rw [hd]
  have hline := iniLine_unindented (st := st) hv h0 hh.1 hh.2.1 h1.indent ht.2.1
  rw [sectHeader_none hh.2.2] at hline
  unfold readIni
  rw [h2, h3, hline]
  cases st.sect with
  | none => exact ⟨_, rfl⟩
  | some s =>
    dsimp only
    unfold IniState.optionLine
    rw [hnone]
    change ∃ e, ((iniLines U { st with bad := true } rest).bind _) = _
    cases hrest : iniLines U { st with bad := true } rest with
    | error e => exact ⟨e, rfl⟩
    | ok st' =>
      refine ⟨.parsing, ?_⟩
      change (if st'.bad = true then _ else _) = _
      rw [if_pos (iniLines_bad hrest rfl)]

/-- **C107**: line ends may be written the other way. -/
theorem read_crlf (t : Str) (h : '\r' ∉ t) :
    universalNewlines (t.flatMap (fun c => if c = '\n' then ['\r', '\n'] else [c])) = t := by
  induction t with
  | nil => rfl
  | cons c t ih =>
    have h1 : c ≠ '\r' := fun h' => h (by simp [h'])
    have h2 := ih (fun h' => h (by simp [h']))
    rw [List.flatMap_cons]
    by_cases hc : c = '\n'
    · rw [if_pos hc]
      change '\n' :: universalNewlines (t.flatMap (fun c => if c = '\n' then ['\r', '\n'] else [c])) = _
      rw [h2, hc]
    · rw [if_neg hc, List.singleton_append]
      rw [universalNewlines, h2]
      · exact fun s h' _ => h1 h'
      · exact fun h' => h1 h'

/-- **C107**: a file that cannot be opened counts as an empty one. -/
theorem read_missing : readIniFile U none = readIniFile U (some []) := rfl

/-! ### C107: what every file that is read has -/

/-- No section is called `DEFAULT` but the default section, and nothing is there twice. -/
structure IniOk (i : Ini) : Prop where
  noDefault : i.sections.get defaultSect = none
  names : (i.sections.map Prod.fst).Nodup
  defaults : (i.defaults.map Prod.fst).Nodup
  options : ∀ s ∈ i.sections, (s.2.map Prod.fst).Nodup

/-- The same while reading. -/
structure StateOk (st : IniState) : Prop where
  noDefault : st.sections.get defaultSect = none
  names : (st.sections.map Prod.fst).Nodup
  defaults : (st.defaults.map Prod.fst).Nodup
  options : ∀ s ∈ st.sections, (s.2.map Prod.fst).Nodup

theorem options_getD {st : IniState} (h : StateOk st) (s : Str) : (((st.sections.get s).getD []).map Prod.fst).Nodup := by
  cases hg : st.sections.get s with
  | none => exact List.nodup_nil
  | some d => exact h.options (s, d) (dict_mem_of_get hg)

theorem stateOk_store {st : IniState} (h : StateOk st) (s o : Str) (ls : List Str) : StateOk (st.store s o ls) := by
  unfold IniState.store
  split
  · exact ⟨h.noDefault, h.names, dict_put_nodup _ _ _ h.defaults, h.options⟩
  · rename_i hs
    refine ⟨?_, dict_put_nodup _ _ _ h.names, h.defaults, ?_⟩
    · dsimp only
      rw [dict_get_put, if_neg hs]
      exact h.noDefault
    · intro x hx
      rcases dict_mem_put hx with rfl | hx
      · exact dict_put_nodup _ _ _ (options_getD h s)
      · exact h.options x hx

theorem stateOk_line {st st' : IniState} {l : Str} (h : StateOk st) (hl : iniLine U st l = .ok st') : StateOk st' := by
  unfold iniLine at hl
  dsimp only at hl
  split at hl
  · cases hl; exact h
  · split at hl
    · cases hl
      cases st.current with
      | none => exact h
      | some c => exact stateOk_store h _ _ _
    · split at hl
      · cases hl
        exact stateOk_store h _ _ _
      · split at hl
        · rename_i name _
          unfold IniState.header at hl
          split at hl
          · cases hl; exact ⟨h.noDefault, h.names, h.defaults, h.options⟩
          · rename_i hname
            split at hl
            · split at hl
              · cases hl
              · cases hl; exact ⟨h.noDefault, h.names, h.defaults, h.options⟩
            · cases hl
              refine ⟨?_, dict_put_nodup _ _ _ h.names, h.defaults, ?_⟩
              · dsimp only
                rw [dict_get_put, if_neg hname]
                exact h.noDefault
              · intro x hx
                rcases dict_mem_put hx with rfl | hx
                · exact List.nodup_nil
                · exact h.options x hx
        · split at hl
          · cases hl
          · unfold IniState.optionLine at hl
            split at hl
            · cases hl; exact ⟨h.noDefault, h.names, h.defaults, h.options⟩
            · rename_i o v _
              dsimp only at hl
              have key : ∀ st : IniState, StateOk st → ∀ s o ls x y, StateOk { (st.store s o ls) with option := x, seen := y } := by
                intro st h s o ls x y
                have := stateOk_store h s o ls
                exact ⟨this.noDefault, this.names, this.defaults, this.options⟩
              split at hl <;> split at hl
              · cases hl
              · cases hl
                refine key _ ?_ _ _ _ _ _
                exact ⟨h.noDefault, h.names, h.defaults, h.options⟩
              · cases hl
              · cases hl
                refine key _ ?_ _ _ _ _ _
                exact ⟨h.noDefault, h.names, h.defaults, h.options⟩

theorem stateOk_lines {ls : List Str} : ∀ {st st' : IniState}, StateOk st → iniLines U st ls = .ok st' → StateOk st' := by
  induction ls with
  | nil => intro st st' h hl; cases hl; exact h
  | cons l ls ih =>
    intro st st' h hl
    rw [iniLines] at hl
    cases h1 : iniLine U st l with
    | error e => rw [h1] at hl; cases hl
    | ok s => rw [h1] at hl; exact ih (stateOk_line h h1) hl

theorem joinValues_keys (d : Dict (List Str)) : (joinValues U d).map Prod.fst = d.map Prod.fst := by
  simp [joinValues, List.map_map, Function.comp_def]

/-- **C107**: whatever is read, `DEFAULT` is only the default section, and sections and their options are there once. -/
theorem read_ok {t : Str} {i : Ini} (h : readIni U t = .ok i) : IniOk i := by
  unfold readIni at h
  cases h1 : iniLines U {} (fileLines t) with
  | error e => rw [h1] at h; cases h
  | ok st =>
    rw [h1] at h
    change (if st.bad = true then _ else _) = _ at h
    split at h
    · cases h
    · cases h
      have h0 : StateOk {} := ⟨rfl, List.nodup_nil, List.nodup_nil, fun _ h => (by cases h)⟩
      have hs : StateOk st := stateOk_lines h0 h1
      have hn : (st.sections.map (fun e => (e.1, joinValues U e.2))).map Prod.fst = st.sections.map Prod.fst := by
        simp [List.map_map, Function.comp_def]
      refine ⟨?_, ?_, ?_, ?_⟩
      · dsimp only
        rw [dict_get_none_iff, hn]
        exact dict_get_none_iff.mp hs.noDefault
      · dsimp only
        rw [hn]
        exact hs.names
      · dsimp only
        rw [joinValues_keys]
        exact hs.defaults
      · intro x hx
        obtain ⟨y, hy, rfl⟩ := List.mem_map.mp hx
        dsimp only
        rw [joinValues_keys]
        exact hs.options y hy

theorem readFile_ok {f : Option Str} {i : Ini} (h : readIniFile U f = .ok i) : IniOk i := by
  cases f with
  | none => cases h; exact ⟨rfl, List.nodup_nil, List.nodup_nil, fun _ h => (by cases h)⟩
  | some t => exact read_ok h

theorem readConfig_ok {s k : Option Str} {c : Config} (h : readConfig U s k = .ok c) : IniOk c.service ∧ IniOk c.client := by
  unfold readConfig at h
  cases h1 : readIniFile U s with
  | error e => rw [h1] at h; cases h
  | ok i =>
    rw [h1] at h
    cases h2 : readIniFile U k with
    | error e => rw [h2] at h; cases h
    | ok j =>
      rw [h2] at h
      cases h
      exact ⟨readFile_ok h1, readFile_ok h2⟩

theorem resolve_noDefault {i j : Ini} (h : i.resolve U = .ok j) (hi : i.sections.get defaultSect = none) :
    j.sections.get defaultSect = none := by
  have := (resolve_value h defaultSect []).2
  rw [hi] at this
  cases hj : j.sections.get defaultSect with
  | none => rfl
  | some v => rw [hj] at this; cases this

/-- **C106**: so for files whose values can be expanded, `get_conf` returns the value that takes precedence (C55), with
nothing else to assume about the files. -/
theorem file_setting (hU : U.Lawful) {s k : Option Str} {c c' : Config} (h : readConfig U s k = .ok c)
    (h' : c.resolve U = .ok c') (name : Str) (ha : name.all isAscii = true) (service : Bool) (sect : Str) (v : Option Str) :
    getText U c name service sect = .ok v ↔ Setting U c' name service sect v := by
  have hs : (c'.ini service).sections.get defaultSect = none := by
    unfold Config.resolve at h'
    cases h1 : c.service.resolve U with
    | error e => rw [h1] at h'; cases h'
    | ok i =>
      rw [h1] at h'
      cases h2 : c.client.resolve U with
      | error e => rw [h2] at h'; cases h'
      | ok j =>
        rw [h2] at h'
        cases h'
        cases service
        · exact resolve_noDefault h2 (readConfig_ok h).2.noDefault
        · exact resolve_noDefault h1 (readConfig_ok h).1.noDefault
  rw [← getConf_ascii hU c' name service sect hs ha v]
  obtain ⟨w, h1, h2⟩ := getText_resolve hU c c' h' name service sect
  rw [h1, h2]
  constructor
  · intro h; cases h; rfl
  · intro h; cases h; rfl

/-- **C106**: on files that are read, `get_conf` raises only if the value that takes precedence cannot be expanded. -/
theorem file_raises (hU : U.Lawful) {s k : Option Str} {c : Config} (h : readConfig U s k = .ok c) (name : Str)
    (ha : name.all isAscii = true) (service : Bool) (sect : Str) (e : IniError) :
    getText U c name service sect = .error e ↔
      ∃ v, (c.ini service).look (((c.ini service).sections.get (U.upper sect)).getD []) (U.lower (U.upper name)) = some v ∧
        expand U ((c.ini service).look (((c.ini service).sections.get (U.upper sect)).getD [])) maxDepth v = .error e := by
  have hs : (c.ini service).sections.get defaultSect = none := by
    cases service
    · exact (readConfig_ok h).2.noDefault
    · exact (readConfig_ok h).1.noDefault
  rw [getText_eq hU c name service sect hs (upper_upper_ascii hU name ha)]
  dsimp only
  change (match (c.ini service).look (((c.ini service).sections.get (U.upper sect)).getD []) (U.lower (U.upper name)) with
    | some v => _
    | none => _) = _ ↔ _
  cases (c.ini service).look (((c.ini service).sections.get (U.upper sect)).getD []) (U.lower (U.upper name)) with
  | none => simp
  | some v =>
    dsimp only
    constructor
    · intro hx
      refine ⟨v, rfl, ?_⟩
      cases hv : expand U ((c.ini service).look (((c.ini service).sections.get (U.upper sect)).getD [])) maxDepth v with
      | ok x => rw [hv] at hx; cases hx
      | error e' => rw [hv] at hx; cases hx; rfl
    · rintro ⟨w, hw, hx⟩
      cases hw
      rw [hx]
      rfl

/-- **C106**: a section whose name is not in upper case is never looked at: whatever it holds, and also without it,
`get_conf` is the same. -/
theorem lower_section_ignored (c c' : Config) (n : Str) (hn : ∀ x, U.upper x ≠ n) (service : Bool)
    (hd : (c'.ini service).defaults = (c.ini service).defaults)
    (hs : ∀ s, s ≠ n → (c'.ini service).sections.get s = (c.ini service).sections.get s) (name sect : Str) :
    getText U c' name service sect = getText U c name service sect := by
  have hl : (c'.ini service).look = (c.ini service).look := by
    funext d k
    rw [Ini.look, Ini.look, hd]
  have key : ∀ m name sect, getTextN U c' m name service sect = getTextN U c m name service sect := by
    intro m
    induction m with
    | zero => intro name sect; rfl
    | succ m ih =>
      intro name sect
      rw [getTextN, getTextN]
      rw [hs _ (hn sect), value_eq, value_eq, hl]
      simp only [ih]
  exact key 2 name sect

/-! ### Examples -/

/-- ```
# settings
[DEFAULT]
DB_NAME = hgaa
URL: http://%(HOST)s
  /%(db_name)s 100%%
Host=localhost

[LADON] services
; the port
PORT=8888
HOST =
```
-/
def sampleDoc : Document where
  notes := [.comment [] '#' " settings".toList]
  sections := [
    { name := "DEFAULT".toList
      entries := [
        { name := "DB_NAME".toList, before := [' '], after := [' '], first := "hgaa".toList },
        { name := "URL".toList, delim := ':', after := [' '], first := "http://%(HOST)s".toList,
          more := [.text "  ".toList "/%(db_name)s 100%%".toList []] },
        { name := "Host".toList, first := "localhost".toList, more := [.blank []] }] },
    { name := "LADON".toList, trail := " services".toList, notes := [.comment [] ';' " the port".toList]
      entries := [
        { name := "PORT".toList, first := "8888".toList },
        { name := "HOST".toList, before := [' '], first := [] }] }]

def sampleIni : Ini where
  defaults := [("db_name".toList, "hgaa".toList), ("url".toList, "http://%(HOST)s\n/%(db_name)s 100%%".toList),
    ("host".toList, "localhost".toList)]
  sections := [("LADON".toList, [("port".toList, "8888".toList), ("host".toList, [])])]

theorem trimmed_of {s : Str} (h : decide ('\n' ∉ s) && (s.head?.all (fun c => !asciiUni.isSpace c)) &&
    (s.getLast?.all (fun c => !asciiUni.isSpace c)) = true) : Trimmed asciiUni s := by
  simp only [Bool.and_eq_true, decide_eq_true_eq] at h
  refine ⟨h.1.1, ?_, ?_⟩
  · intro c hc
    have := h.1.2
    rw [hc] at this
    simpa using this
  · intro c hc
    have := h.2
    rw [hc] at this
    simpa using this

theorem spaces_of {s : Str} (h : s.all (fun c => asciiUni.isSpace c && decide (c ≠ '\n')) = true) : Spaces asciiUni s := by
  intro c hc
  have := List.all_eq_true.mp h c hc
  simpa using this

theorem sampleDoc_ok : sampleDoc.Ok asciiUni := by
  have h0 : Spaces asciiUni [] := spaces_of (by decide)
  have h1 : Spaces asciiUni [' '] := spaces_of (by decide)
  have h2 : Spaces asciiUni "  ".toList := spaces_of (by decide)
  constructor
  · intro l hl
    simp only [sampleDoc, List.mem_singleton] at hl
    subst hl
    exact ⟨⟨h0, .inl rfl, by decide⟩, trivial⟩
  · intro s hs
    simp only [sampleDoc, List.mem_cons, List.not_mem_nil, or_false] at hs
    rcases hs with rfl | rfl
    · refine ⟨by decide, by decide, by decide, by simp, ?_⟩
      intro e he
      simp only [List.mem_cons, List.not_mem_nil, or_false] at he
      rcases he with rfl | rfl | rfl
      · exact ⟨by decide, by decide, trimmed_of (by decide), by decide, by decide, h1, .inl rfl, h1, trimmed_of (by decide), h0,
          by simp⟩
      · refine ⟨by decide, by decide, trimmed_of (by decide), by decide, by decide, h0, .inr rfl, h1, trimmed_of (by decide), h0, ?_⟩
        intro l hl
        rw [List.mem_singleton] at hl
        subst hl
        exact ⟨by decide, h2, by decide, trimmed_of (by decide), by decide, by decide, h0⟩
      · refine ⟨by decide, by decide, trimmed_of (by decide), by decide, by decide, h0, .inl rfl, h0, trimmed_of (by decide), h0, ?_⟩
        intro l hl
        rw [List.mem_singleton] at hl
        subst hl
        exact h0
    · refine ⟨by decide, by decide, by decide, ?_, ?_⟩
      · intro l hl
        rw [List.mem_singleton] at hl
        subst hl
        exact ⟨⟨h0, .inr rfl, by decide⟩, trivial⟩
      · intro e he
        simp only [List.mem_cons, List.not_mem_nil, or_false] at he
        rcases he with rfl | rfl
        · exact ⟨by decide, by decide, trimmed_of (by decide), by decide, by decide, h0, .inl rfl, h0, trimmed_of (by decide), h0,
            by simp⟩
        · exact ⟨by decide, by decide, trimmed_of (by decide), by decide, by decide, h1, .inl rfl, h0, trimmed_of (by decide), h0,
            by simp⟩

theorem sampleDoc_distinct : sampleDoc.Distinct asciiUni := by
  refine ⟨by decide +kernel, by decide +kernel, ?_⟩
  intro s hs
  have : s = ("LADON".toList, [("port".toList, ["8888".toList]), ("host".toList, [[]])]) := by
    have e : sampleDoc.others asciiUni = [("LADON".toList, [("port".toList, ["8888".toList]), ("host".toList, [[]])])] := by
      decide +kernel
    rw [e, List.mem_singleton] at hs
    exact hs
  rw [this]
  decide

/-- The file of the comment above, read by `read_document` and by running the model. -/
example : readIni asciiUni (textOf sampleDoc.lines) = .ok sampleIni :=
  (read_document asciiUni_lawful sampleDoc sampleDoc_ok sampleDoc_distinct).trans (by decide +kernel)

example : readIni asciiUni ("# settings\n[DEFAULT]\nDB_NAME = hgaa\nURL: http://%(HOST)s\n  /%(db_name)s 100%%\n" ++
    "Host=localhost\n\n[LADON] services\n; the port\nPORT=8888\nHOST =").toList = .ok sampleIni := by decide +kernel

/-- A reference is resolved in the section that is asked: in `LADON` the host is empty. -/
example : getText asciiUni ⟨sampleIni, {}⟩ "url".toList true "TOOLS".toList = .ok (some "http://localhost\n/hgaa 100%".toList) ∧
    getText asciiUni ⟨sampleIni, {}⟩ "url".toList true "ladon".toList = .ok (some "http://\n/hgaa 100%".toList) := by
  decide +kernel

/-- The same by `expand_iff`. -/
example : Expands asciiUni (sampleIni.look []) maxDepth "http://%(HOST)s\n/%(db_name)s 100%%".toList
    "http://localhost\n/hgaa 100%".toList := (expand_iff _ _ _).mp (by decide +kernel)

/-- `file_setting` for this file. -/
example : ∃ c c', readConfig asciiUni (some (textOf sampleDoc.lines)) none = .ok c ∧ c.resolve asciiUni = .ok c' ∧
    Setting asciiUni c' "URL".toList true "LADON".toList (some "http://\n/hgaa 100%".toList) := by
  have h1 : readConfig asciiUni (some (textOf sampleDoc.lines)) none = .ok ⟨sampleIni, {}⟩ := by decide +kernel
  have h2 : ∃ c', Config.resolve asciiUni ⟨sampleIni, {}⟩ = .ok c' := by
    cases h : Config.resolve asciiUni ⟨sampleIni, {}⟩ with
    | ok c => exact ⟨c, rfl⟩
    | error e =>
      have : (Config.resolve asciiUni ⟨sampleIni, {}⟩).toOption.isSome = true := by decide +kernel
      rw [h] at this
      cases this
  obtain ⟨c', h2⟩ := h2
  exact ⟨_, c', h1, h2, (file_setting asciiUni_lawful h1 h2 _ (by decide) _ _ _).mp (by decide +kernel)⟩

/-- A password with a `%` in it makes `get_conf` raise (`expand_lone`), one with `%(` too, and `%%` is what is meant. -/
example : getText asciiUni ⟨{ defaults := [("db_pass".toList, "50%off".toList)] }, {}⟩ "DB_PASS".toList true "AAUTH".toList =
      .error .interpolationSyntax ∧
    getText asciiUni ⟨{ defaults := [("db_pass".toList, "a%(b".toList)] }, {}⟩ "DB_PASS".toList true "AAUTH".toList =
      .error .interpolationSyntax ∧
    getText asciiUni ⟨{ defaults := [("db_pass".toList, "%(b)s".toList)] }, {}⟩ "DB_PASS".toList true "AAUTH".toList =
      .error .interpolationMissingOption ∧
    getText asciiUni ⟨{ defaults := [("db_pass".toList, "%(db_pass)s".toList)] }, {}⟩ "DB_PASS".toList true "AAUTH".toList =
      .error .interpolationDepth ∧
    getText asciiUni ⟨{ defaults := [("db_pass".toList, "50%%off".toList)] }, {}⟩ "DB_PASS".toList true "AAUTH".toList =
      .ok (some "50%off".toList) := by decide +kernel

example : escape "50%off".toList = "50%%off".toList ∧ escape "plain".toList = "plain".toList := by decide

example : (escapeIni ⟨[("p".toList, "5%".toList)], [("A".toList, [("q".toList, "%".toList)])]⟩).resolve asciiUni =
    .ok ⟨[("p".toList, "5%".toList)], [("A".toList, [("q".toList, "%".toList), ("p".toList, "5%".toList)])]⟩ := by
  decide +kernel

/-- An option that is indented is swallowed by the value before it. -/
example : readIni asciiUni "[A]\nx=1\n  y=2\n".toList =
    .ok ⟨[], [("A".toList, [("x".toList, "1\ny=2".toList)])]⟩ := by decide +kernel

/-- What is refused. -/
example : readIni asciiUni "[A]\n[B]\n[A]\n".toList = .error (.duplicateSection "A".toList) ∧
    readIni asciiUni "[A]\nx=1\nX:2\n".toList = .error (.duplicateOption "A".toList "x".toList) ∧
    readIni asciiUni "# no section\nx=1\n[A]\n".toList = .error .missingSectionHeader ∧
    readIni asciiUni "[A]\nno option\n".toList = .error .parsing := by decide +kernel

example : readIni asciiUni (textOf (sampleDoc.lines ++ "[LADON]".toList :: ["x".toList])) =
    .error (.duplicateSection "LADON".toList) :=
  read_duplicate_section asciiUni_lawful sampleDoc sampleDoc_ok sampleDoc_distinct { name := "LADON".toList }
    ⟨by decide, by decide, by decide, by simp, by simp⟩ (by decide +kernel) _ (by decide)

/-- Sections in lower case are not found: the value of `DEFAULT` is used. -/
example : readIni asciiUni "[DEFAULT]\nx=1\n[aauth]\nx=2\n".toList =
      .ok ⟨[("x".toList, "1".toList)], [("aauth".toList, [("x".toList, "2".toList)])]⟩ ∧
    getText asciiUni ⟨⟨[("x".toList, "1".toList)], [("aauth".toList, [("x".toList, "2".toList)])]⟩, {}⟩ "X".toList true
      "aauth".toList = .ok (some "1".toList) := by decide +kernel

example : ∀ x, asciiUni.upper x ≠ "aauth".toList := by
  intro x h
  have : 'a' ∈ asciiUni.upper x := by rw [h]; decide
  obtain ⟨c, -, hc⟩ := List.mem_map.mp this
  unfold asciiUpper at hc
  split at hc
  · rename_i hr
    have h2 : (Char.ofNat (c.toNat - 32)).toNat = c.toNat - 32 := toNat_ofNat_small _ (by omega)
    rw [hc] at h2
    have h3 : 'a'.toNat = 97 := by decide
    omega
  · rename_i hr
    subst hc
    exact hr (by decide)

/-- Without files, the built-in values count. -/
example : readConfig asciiUni none none = .ok ⟨{}, {}⟩ ∧
    getText asciiUni ⟨{}, {}⟩ "SERVICE_PORT".toList true "LADON".toList = .ok (some "8888".toList) := by decide +kernel

example : universalNewlines "[A]\r\nx=1\ry=2\n".toList = "[A]\nx=1\ny=2\n".toList := by decide

end Verif.Props
