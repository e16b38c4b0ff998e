import Verif.Proofs.Integer
import Verif.Proofs.AAuth
import Verif.Proofs.AttCertText
import Verif.Proofs.Ascii

/-!
# Lemmas about connection attributes
-/

namespace Verif.Proofs

open Verif.Spec

variable {U : Uni}

/-! ### Splitting -/

theorem pySplit_nil_iff (c : Char) (s : Str) : pySplit c s ≠ [] := by
  cases s with
  | nil => simp [pySplit]
  | cons x s =>
    rw [pySplit]
    split
    · simp
    · split <;> simp

theorem pySplit_none (c : Char) (p : Str) (h : c ∉ p) : pySplit c p = [p] := by
  induction p with
  | nil => rfl
  | cons x p ih =>
    have hx := (not_or.mp (fun e => h (List.mem_cons.mpr e)))
    rw [pySplit, if_neg (fun e => hx.1 e.symm), ih hx.2]

theorem pySplit_append (c : Char) (p s : Str) (h : c ∉ p) : pySplit c (p ++ c :: s) = p :: pySplit c s := by
  induction p with
  | nil => rw [List.nil_append, pySplit, if_pos rfl]
  | cons x p ih =>
    have hx := (not_or.mp (fun e => h (List.mem_cons.mpr e)))
    rw [List.cons_append, pySplit, if_neg (fun e => hx.1 e.symm), ih hx.2]

theorem pySplit_parts (c : Char) (s : Str) : Parts c s (pySplit c s) := by
  refine ⟨pySplit_nil_iff c s, ?_, ?_⟩
  · induction s with
    | nil => simp [pySplit]
    | cons x s ih =>
      rw [pySplit]
      split
      · simpa using ih
      · split
        · rename_i hx h
          exact absurd h (pySplit_nil_iff c s)
        · rename_i hx _ w ws h
          rw [h] at ih
          rw [List.forall_mem_cons] at ih ⊢
          exact ⟨by simpa using ⟨fun e => hx e.symm, ih.1⟩, ih.2⟩
  · induction s with
    | nil => simp [pySplit, List.intercalate]
    | cons x s ih =>
      rw [pySplit]
      split
      · rename_i hx
        subst hx
        cases h : pySplit x s with
        | nil => exact absurd h (pySplit_nil_iff x s)
        | cons w ws =>
          rw [h] at ih
          rw [List.intercalate_cons_cons]
          simpa using ih
      · split
        · rename_i hx h
          exact absurd h (pySplit_nil_iff c s)
        · rename_i hx w ws h
          rw [h] at ih
          conv_lhs => rw [ih]
          cases ws with
          | nil => simp [List.intercalate]
          | cons v vs => rw [List.intercalate_cons_cons, List.intercalate_cons_cons]; simp

theorem pySplit_unique {c : Char} {s : Str} {ps : List Str} (h : Parts c s ps) : pySplit c s = ps := by
  obtain ⟨h1, h2, rfl⟩ := h
  induction ps with
  | nil => exact absurd rfl h1
  | cons p ps ih =>
    have h2' := List.forall_mem_cons.mp h2
    cases ps with
    | nil =>
      simp only [List.intercalate, List.intersperse, List.flatten_cons, List.flatten_nil, List.append_nil]
      exact pySplit_none c p h2'.1
    | cons q qs =>
      rw [List.intercalate_cons_cons, List.append_assoc, List.singleton_append, pySplit_append c p _ h2'.1,
        ih (by simp) h2'.2]

/-! ### Addresses -/

theorem addrParts_ok (hU : U.Lawful) {base : Nat} {label : Str} {i : Nat} {ps : List Str} {d : List (Str × ConAtt)} :
    addrParts U base label i ps = .ok d ↔
      ∃ vs, List.Forall₂ (IntText U base) ps vs ∧
        d = vs.mapIdx (fun j v => conAtt (label ++ decimal ((i + j : Nat) : Int)) .int (decimal v)) := by
  induction ps generalizing i d with
  | nil =>
    rw [addrParts]
    constructor
    · intro h
      cases h
      exact ⟨[], .nil, rfl⟩
    · rintro ⟨vs, h, rfl⟩
      cases h
      rfl
  | cons p ps ih =>
    rw [addrParts]
    simp only [except_bind_ok, except_pure_ok, ih, pyIntBase_iff hU]
    constructor
    · rintro ⟨v, hv, rest, ⟨vs, hvs, rfl⟩, rfl⟩
      refine ⟨v :: vs, .cons hv hvs, ?_⟩
      rw [List.mapIdx_cons]
      congr 2
      funext j v
      rw [show i + 1 + j = i + (j + 1) by omega]
    · rintro ⟨vs, h, rfl⟩
      cases h with
      | cons hv hvs =>
        rename_i v vs
        refine ⟨v, hv, _, ⟨vs, hvs, rfl⟩, ?_⟩
        rw [List.mapIdx_cons]
        congr 2
        funext j v
        rw [show i + 1 + j = i + (j + 1) by omega]

theorem intDigits_error {base : Nat} {s : Str} {e : PyExc} (h : intDigits U base s = .error e) : e = .valueError := by
  unfold intDigits at h
  split at h
  · split at h
    · cases h; rfl
    · cases h
  · cases h; rfl

theorem pyIntBase_ok {base : Nat} {s : Str} {v : Int} : pyIntBase U base s = .ok v ↔
    ∃ n : Nat, intDigits U base (if base = 16 then dropHexPrefix (intSign (pyStrip U s)).2 else (intSign (pyStrip U s)).2) =
      .ok n ∧ v = if (intSign (pyStrip U s)).1 then -(n : Int) else n := by
  unfold pyIntBase
  simp only [except_bind_ok, except_pure_ok]
  constructor
  · rintro ⟨n, h1, rfl⟩; exact ⟨n, h1, rfl⟩
  · rintro ⟨n, h1, rfl⟩; exact ⟨n, h1, rfl⟩

theorem pyIntBase_error {base : Nat} {s : Str} {e : PyExc} (h : pyIntBase U base s = .error e) : e = .valueError := by
  unfold pyIntBase at h
  dsimp only at h
  cases hd : intDigits U base (if base = 16 then dropHexPrefix (intSign (pyStrip U s)).2 else (intSign (pyStrip U s)).2) with
  | error e' => rw [hd] at h; cases h; exact intDigits_error hd
  | ok n => rw [hd] at h; cases h

theorem addrParts_error {base : Nat} {label : Str} {i : Nat} {ps : List Str} {e : PyExc}
    (h : addrParts U base label i ps = .error e) : e = .valueError := by
  induction ps generalizing i with
  | nil => cases h
  | cons p ps ih =>
    rw [addrParts] at h
    cases hp : pyIntBase U base p with
    | error e' =>
      rw [hp] at h
      cases h
      exact pyIntBase_error hp
    | ok v =>
      rw [hp] at h
      change (addrParts U base label (i + 1) ps).bind _ = _ at h
      cases hr : addrParts U base label (i + 1) ps with
      | error e' => rw [hr] at h; cases h; exact ih hr
      | ok r => rw [hr] at h; cases h

theorem addrAtts_error {exports : Dict Str} {e : PyExc} (h : addrAtts U exports = .error e) : e = .valueError := by
  unfold addrAtts at h
  split at h
  · cases h
  · rename_i addr _
    split at h
    · cases hr : addrParts U 10 "remote_addr_v4_oct".toList 0 (pySplit '.' addr) with
      | error e' => rw [hr] at h; cases h; exact addrParts_error hr
      | ok r => rw [hr] at h; cases h
    · split at h
      · cases hr : addrParts U 16 "remote_addr_v6_hex".toList 0 (pySplit ':' addr) with
        | error e' => rw [hr] at h; cases h; exact addrParts_error hr
        | ok r => rw [hr] at h; cases h
      · cases h

theorem map_mapIdx' {α β γ : Type} (f : Nat → α → β) (g : β → γ) (l : List α) :
    (l.mapIdx f).map g = l.mapIdx (fun i x => g (f i x)) := by
  apply List.ext_getElem <;> simp

/-- The entry of `con_att_set` for a row. -/
def rowEntry (r : Row) : ConAtt := ⟨r.1, "/attribute/connection/".toList ++ r.1, r.2.1, r.2.2⟩

theorem addrAtts_ok (hU : U.Lawful) {exports : Dict Str} {d : List (Str × ConAtt)} :
    addrAtts U exports = .ok d ↔ ∃ rows, AddressRows U exports rows ∧ d = rows.map (fun r => (r.1, rowEntry r)) := by
  unfold addrAtts AddressRows
  cases exports.get "REMOTE_ADDR".toList with
  | none =>
    dsimp only
    constructor
    · intro h; cases h; exact ⟨[], rfl, rfl⟩
    · rintro ⟨_, rfl, rfl⟩; rfl
  | some addr =>
    dsimp only
    by_cases h4 : '.' ∈ addr
    · rw [if_pos h4]
      simp only [if_pos h4, except_bind_ok, except_pure_ok, addrParts_ok hU]
      constructor
      · rintro ⟨parts, ⟨vs, hvs, rfl⟩, rfl⟩
        refine ⟨_, ⟨vs, ⟨_, pySplit_parts _ _, hvs⟩, rfl⟩, ?_⟩
        simp [numbered, rowEntry, conAtt, conEntry, showBool, Function.comp_def, map_mapIdx']
      · rintro ⟨rows, ⟨vs, ⟨ps, hp, hvs⟩, rfl⟩, rfl⟩
        refine ⟨_, ⟨vs, pySplit_unique hp ▸ hvs, rfl⟩, ?_⟩
        simp [numbered, rowEntry, conAtt, conEntry, showBool, Function.comp_def, map_mapIdx']
    · rw [if_neg h4]
      simp only [if_neg h4]
      by_cases h6 : ':' ∈ addr
      · rw [if_pos h6]
        simp only [if_pos h6, except_bind_ok, except_pure_ok, addrParts_ok hU]
        constructor
        · rintro ⟨parts, ⟨vs, hvs, rfl⟩, rfl⟩
          refine ⟨_, ⟨vs, ⟨_, pySplit_parts _ _, hvs⟩, rfl⟩, ?_⟩
          simp [numbered, rowEntry, conAtt, conEntry, showBool, Function.comp_def, map_mapIdx']
        · rintro ⟨rows, ⟨vs, ⟨ps, hp, hvs⟩, rfl⟩, rfl⟩
          refine ⟨_, ⟨vs, pySplit_unique hp ▸ hvs, rfl⟩, ?_⟩
          simp [numbered, rowEntry, conAtt, conEntry, showBool, Function.comp_def, map_mapIdx']
      · rw [if_neg h6]
        simp only [if_neg h6]
        constructor
        · intro h; cases h; exact ⟨[], rfl, rfl⟩
        · rintro ⟨_, rfl, rfl⟩; rfl

/-! ### The whole table -/

/-- The keys used for the entries of the table, apart from those for the numbers of an address. -/
def fixedKeys : List Str :=
  ["remote_addr", "remote_host", "remote_ident", "remote_user", "ip_v4", "ip_v6", "auth_method", "pub_key", "pub_key_size",
   "pub_key_algo", "con_time", "con_time_weekdayname", "con_time_monthname", "con_time_month", "con_time_day",
   "con_time_weekday", "con_time_year", "con_time_yearday", "con_time_hour", "con_time_min", "con_time_sec",
   "con_time_zone", "con_time_dst", "aauth_uid", "aauth_name", "aauth_url", "aauth_pub_key", "aauth_pub_key_size",
   "aauth_pub_key_algo", "aauth_version", "ac_version", "session_id", "session_length"].map String.toList

/-- What the keys for the numbers of an address start with. -/
def isNumberKey (k : Str) : Bool := "remote_addr_v".toList.isPrefixOf k

theorem fixedKeys_nodup : fixedKeys.Nodup := by decide +kernel

theorem fixedKeys_plain : ∀ k ∈ fixedKeys, isNumberKey k = false := by decide +kernel

theorem exportAtts_eq (hU : U.Lawful) (exports : Dict Str) :
    exportAtts U exports = (remoteRows exports).map (fun r => (r.1, rowEntry r)) := by
  unfold exportAtts remoteRows
  have h : ∀ s : Str, s.all isAscii = true → U.lower s = s.map asciiLower := hU.lower_ascii
  rw [List.map_filterMap]
  simp only [List.map_cons, List.map_nil, List.filterMap_cons, List.filterMap_nil]
  rw [h "REMOTE_ADDR".toList (by decide), h "REMOTE_HOST".toList (by decide), h "REMOTE_IDENT".toList (by decide),
    h "REMOTE_USER".toList (by decide),
    show ("REMOTE_ADDR".toList).map asciiLower = "remote_addr".toList by decide,
    show ("REMOTE_HOST".toList).map asciiLower = "remote_host".toList by decide,
    show ("REMOTE_IDENT".toList).map asciiLower = "remote_ident".toList by decide,
    show ("REMOTE_USER".toList).map asciiLower = "remote_user".toList by decide]
  cases exports.get "REMOTE_ADDR".toList <;> cases exports.get "REMOTE_HOST".toList <;>
    cases exports.get "REMOTE_IDENT".toList <;> cases exports.get "REMOTE_USER".toList <;> rfl

theorem remoteRows_keys (exports : Dict Str) :
    ((remoteRows exports).map Prod.fst).Sublist (["remote_addr", "remote_host", "remote_ident", "remote_user"].map String.toList) := by
  have key : ∀ ps : List (Str × Str), ((ps.filterMap (fun p =>
      (exports.get p.1).map (fun v => ((p.2, AttType.string, v) : Row)))).map Prod.fst).Sublist (ps.map Prod.snd) := by
    intro ps
    induction ps with
    | nil => exact List.Sublist.refl _
    | cons p ps ih =>
      rw [List.filterMap_cons, List.map_cons]
      cases exports.get p.1 with
      | none => exact ih.cons _
      | some v => exact ih.cons₂ _
  exact key _

theorem otherAtts_eq {X : Crypto} (a : Authority X) (key : PublicKeyArg) (con : ConTime) (credType serial : Int) :
    (keyAtts credType key ++ timeAtts con ++ authAtts a serial).map Prod.snd =
      (otherRows a key con credType serial).map rowEntry := by
  unfold keyAtts timeAtts authAtts otherRows
  by_cases hd : con.isdst < 0
  · rw [if_pos hd, if_neg (by omega : ¬ 0 ≤ con.isdst)]
    rfl
  · rw [if_neg hd, if_pos (by omega : 0 ≤ con.isdst)]
    by_cases h1 : con.isdst = 1
    · rw [if_pos h1, h1]; rfl
    · rw [if_neg h1, decide_eq_false h1]; rfl

theorem otherAtts_keys {X : Crypto} (a : Authority X) (key : PublicKeyArg) (con : ConTime) (credType serial : Int) :
    ((keyAtts credType key ++ timeAtts con ++ authAtts a serial).map Prod.fst).Sublist (fixedKeys.drop 6) := by
  unfold keyAtts timeAtts authAtts
  by_cases hd : 0 ≤ con.isdst
  · rw [if_pos hd]
    exact List.Sublist.refl _
  · rw [if_neg hd]
    have h : ∀ (l : List Str) (x : Str) (r : List Str), (l ++ r).Sublist (l ++ x :: r) := fun l x r =>
      (List.Sublist.refl l).append (List.sublist_cons_self x r)
    exact h ((fixedKeys.drop 6).take 16) "con_time_dst".toList ((fixedKeys.drop 6).drop 17)

theorem numbered_keys_nodup (label : String) (vs : List Int) : ((numbered label vs).map Prod.fst).Nodup := by
  rw [numbered, map_mapIdx', List.nodup_iff_getElem?_ne_getElem?]
  intro i j hij hj
  rw [List.length_mapIdx] at hj
  rw [List.getElem?_mapIdx, List.getElem?_mapIdx, List.getElem?_eq_getElem (by omega), List.getElem?_eq_getElem (by omega)]
  simp only [Option.map_some, ne_eq, Option.some.injEq, List.append_cancel_left_eq]
  intro h
  have := number_inj h
  omega

theorem addressRows_keys {exports : Dict Str} {rows : List Row} (h : AddressRows U exports rows) :
    (rows.map Prod.fst).Nodup ∧
      ∀ k ∈ rows.map Prod.fst, k ∈ ["ip_v4".toList, "ip_v6".toList] ∨ isNumberKey k = true := by
  have key : ∀ (b b' : Str) (label : String) (vs : List Int), (∀ s, isNumberKey (label.toList ++ s) = true) →
      ((("ip_v4".toList, AttType.bool, b) :: ("ip_v6".toList, AttType.bool, b') :: numbered label vs).map Prod.fst).Nodup ∧
      ∀ k ∈ (("ip_v4".toList, AttType.bool, b) :: ("ip_v6".toList, AttType.bool, b') :: numbered label vs).map Prod.fst,
        k ∈ ["ip_v4".toList, "ip_v6".toList] ∨ isNumberKey k = true := by
    intro b b' label vs hl
    have hn : ∀ k ∈ (numbered label vs).map Prod.fst, isNumberKey k = true := by
      intro k hk
      rw [numbered, map_mapIdx', List.mem_mapIdx] at hk
      obtain ⟨i, hi, rfl⟩ := hk
      exact hl _
    rw [List.map_cons, List.map_cons]
    refine ⟨List.nodup_cons.mpr ⟨?_, List.nodup_cons.mpr ⟨?_, numbered_keys_nodup label vs⟩⟩, ?_⟩
    · intro hm
      rcases List.mem_cons.mp hm with hm | hm
      · exact absurd hm (by dsimp only; decide)
      · exact absurd (hn _ hm) (by dsimp only; decide)
    · intro hm
      exact absurd (hn _ hm) (by dsimp only; decide)
    · intro k hk
      rcases List.mem_cons.mp hk with rfl | hk
      · exact .inl (by simp)
      · rcases List.mem_cons.mp hk with rfl | hk
        · exact .inl (by simp)
        · exact .inr (hn _ hk)
  unfold AddressRows at h
  split at h
  · subst h; simp
  · split at h
    · obtain ⟨vs, _, rfl⟩ := h
      exact key _ _ _ vs (fun s => rfl)
    · split at h
      · obtain ⟨vs, _, rfl⟩ := h
        exact key _ _ _ vs (fun s => rfl)
      · subst h; simp

theorem con_keys_nodup {X : Crypto} {exports : Dict Str} {rows : List Row} (h : AddressRows U exports rows)
    (a : Authority X) (key : PublicKeyArg) (con : ConTime) (credType serial : Int) :
    (((remoteRows exports).map Prod.fst) ++ (rows.map Prod.fst) ++
      ((keyAtts credType key ++ timeAtts con ++ authAtts a serial).map Prod.fst)).Nodup := by
  obtain ⟨h1, h2⟩ := addressRows_keys h
  have e1 := remoteRows_keys exports
  have e3 := otherAtts_keys a key con credType serial
  have n1 : (["remote_addr", "remote_host", "remote_ident", "remote_user"].map String.toList) = fixedKeys.take 4 := rfl
  rw [n1] at e1
  have sub1 : ∀ k ∈ (remoteRows exports).map Prod.fst, k ∈ fixedKeys.take 4 := fun k hk => e1.subset hk
  have sub3 := fun k hk => e3.subset (a := k) hk
  have dis : ∀ k ∈ fixedKeys.take 4, k ∉ fixedKeys.drop 6 ∧ k ∉ ["ip_v4".toList, "ip_v6".toList] := by decide +kernel
  have dis2 : ∀ k ∈ fixedKeys.drop 6, k ∉ ["ip_v4".toList, "ip_v6".toList] := by decide +kernel
  rw [List.nodup_append, List.nodup_append]
  refine ⟨⟨(fixedKeys_nodup.sublist (List.take_sublist 4 _)).sublist e1, h1, ?_⟩,
    (fixedKeys_nodup.sublist (List.drop_sublist 6 _)).sublist e3, ?_⟩
  · rintro k hk _ hk' rfl
    rcases h2 k hk' with h | h
    · exact (dis k (sub1 k hk)).2 h
    · rw [fixedKeys_plain k (List.mem_of_mem_take (sub1 k hk))] at h
      cases h
  · rintro k hk _ hk' rfl
    rcases List.mem_append.mp hk with hk | hk
    · exact (dis k (sub1 k hk)).1 (sub3 k hk')
    · rcases h2 k hk with h | h
      · exact dis2 k (sub3 k hk') h
      · rw [fixedKeys_plain k (List.mem_of_mem_drop (sub3 k hk'))] at h
        cases h

/-- The connection attributes are those of the table. -/
theorem makeConAttSet_ok (hU : U.Lawful) {X : Crypto} {a : Authority X} {credType : Int} {key : PublicKeyArg}
    {exports : Dict Str} {con : ConTime} {serial : Int} :
    (∀ d, makeConAttSet U a credType key exports con serial = .ok d →
      ∃ rows, ConnectionRows U a key exports con credType serial rows ∧ d.map Prod.snd = rows.map rowEntry) ∧
    ∀ rows, ConnectionRows U a key exports con credType serial rows →
      ∃ d, makeConAttSet U a credType key exports con serial = .ok d ∧ d.map Prod.snd = rows.map rowEntry := by
  have main : ∀ rows, AddressRows U exports rows →
      makeConAttSet U a credType key exports con serial = .ok ((remoteRows exports).map (fun r => (r.1, rowEntry r)) ++
        rows.map (fun r => (r.1, rowEntry r)) ++ (keyAtts credType key ++ timeAtts con ++ authAtts a serial)) := by
    intro rows h
    unfold makeConAttSet
    rw [bind_ok_eq _ ((addrAtts_ok hU).mpr ⟨rows, h, rfl⟩)]
    dsimp only
    rw [exportAtts_eq hU]
    have := dict_putAll_new ([] : Dict ConAtt) ((remoteRows exports).map (fun r => (r.1, rowEntry r)) ++
        rows.map (fun r => (r.1, rowEntry r)) ++ (keyAtts credType key ++ timeAtts con ++ authAtts a serial)) (by
          rw [List.nil_append, List.map_append, List.map_append, List.map_map, List.map_map]
          exact con_keys_nodup h a key con credType serial)
    rw [List.nil_append] at this
    rw [← this]
    simp only [List.append_assoc]
    rfl
  have vals : ∀ rows : List Row, ((remoteRows exports).map (fun r => (r.1, rowEntry r)) ++
        rows.map (fun r => (r.1, rowEntry r)) ++ (keyAtts credType key ++ timeAtts con ++ authAtts a serial)).map Prod.snd =
      (remoteRows exports ++ rows ++ otherRows a key con credType serial).map rowEntry := by
    intro rows
    rw [List.map_append, List.map_append, otherAtts_eq, List.map_map, List.map_map, List.map_append, List.map_append]
    rfl
  constructor
  · intro d h
    have h0 := h
    unfold makeConAttSet at h
    simp only [except_bind_ok, except_pure_ok] at h
    obtain ⟨addr, ha, _⟩ := h
    obtain ⟨rows, hr, rfl⟩ := (addrAtts_ok hU).mp ha
    rw [main rows hr] at h0
    cases h0
    exact ⟨_, ⟨rows, hr, rfl⟩, vals rows⟩
  · rintro _ ⟨rows, hr, rfl⟩
    exact ⟨_, main rows hr, vals rows⟩

theorem makeConAttSet_error {X : Crypto} {a : Authority X} {credType : Int} {key : PublicKeyArg}
    {exports : Dict Str} {con : ConTime} {serial : Int} {e : PyExc}
    (h : makeConAttSet U a credType key exports con serial = .error e) : e = .valueError := by
  unfold makeConAttSet at h
  cases ha : addrAtts U exports with
  | error e' => rw [ha] at h; cases h; exact addrAtts_error ha
  | ok d => rw [ha] at h; cases h

end Verif.Proofs
