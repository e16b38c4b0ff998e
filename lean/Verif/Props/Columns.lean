import Verif.Model.Columns
import Verif.Spec.Columns
import Verif.Props.PAuth
import Verif.Props.EndToEnd
import Verif.Props.CertTree
import Verif.Props.SampleData
/-!
# Room in the database of the policy authority (C142)
-/

namespace Verif.Props

open Proofs Spec

variable {U : Uni} {X : Crypto} {B : Bcrypt} {collate collate' : Str → Str} {a : Authority X} {env : RequestEnv}
  {cred : Credentials} {key : PublicKeyArg} {req : AttributeListArg} {exports exports' : Dict Str} {b : Bytes}
  {db db' : PAuthDb} {adb : AAuthDb} {penv : PAEnv} {serviceUid : Option Str} {r : SessionReturn} {refused : PyExc}

theorem b64encode_length : ∀ l : Bytes, (b64encode l).length = (l.length + 2) / 3 * 4
  | [] => rfl
  | [_] => by simp [b64encode]
  | [_, _] => by simp [b64encode]
  | _ :: _ :: _ :: l => by
    simp only [b64encode, List.length_cons, b64encode_length l]
    omega

theorem numberText_length (n : Int) : (numberText n).length = 28 := by
  unfold numberText b64
  rw [List.length_map, b64encode_length, packLE_length]

/-- Numbers of 160 bits fit. -/
theorem number_fits (n : Int) : fitsString 50 (numberText n) = true := by
  unfold fitsString
  rw [numberText_length]
  decide

theorem utf8_le (s : Str) : (utf8 s).length ≤ 4 * s.length := by
  induction s with
  | nil => exact Nat.le_refl _
  | cons c s ih =>
    have : (utf8Char c).length ≤ 4 := by
      unfold utf8Char
      dsimp only
      split_ifs <;> simp
    unfold utf8 at *
    rw [List.flatMap_cons, List.length_append, List.length_cons]
    omega

theorem hash_fits (hX : ∀ l, (X.sha256 l).length ≤ 32) (raw : RawCert) : fitsText (hashText X raw) = true := by
  refine decide_eq_true (Nat.le_trans (utf8_le _) ?_)
  unfold hashText b64
  rw [List.length_map, b64encode_length]
  have := hX (if raw.format = 0 then [] else raw.data)
  omega

theorem fitsInteger_iff {n : Int} : fitsInteger n = true ↔ -2147483648 ≤ n ∧ n ≤ 2147483647 := by
  unfold fitsInteger
  rw [decide_eq_true_iff]

theorem certRow_fits (hX : ∀ l, (X.sha256 l).length ≤ 32) {raw : RawCert} {c : AttCert} (hf : raw.format = 0 ∨ raw.format = 3)
    (h0 : 0 ≤ c.revRules.validBefore) :
    (certRow X raw c).fits = true ↔ c.revRules.validBefore < 2147483648 ∧ raw.data.length ≤ 65535 := by
  have h1 : fitsString 50 (certRow X raw c).serial = true := number_fits _
  have h2 : fitsText (certRow X raw c).hash = true := hash_fits hX raw
  have h3 : fitsInteger (certRow X raw c).format = true := by
    show fitsInteger raw.format = true
    rcases hf with h | h <;> rw [h] <;> decide
  have h4 : fitsInteger (certRow X raw c).version = true := by
    show fitsInteger 1 = true
    decide
  unfold ACRow.fits
  rw [h1, h2, h3, h4]
  simp only [Bool.true_and, Bool.and_true, Bool.and_eq_true, fitsInteger_iff]
  show fitsBlob raw.data = true ∧ (-2147483648 ≤ c.revRules.validBefore ∧ c.revRules.validBefore ≤ 2147483647) ↔ _
  unfold fitsBlob
  rw [decide_eq_true_iff]
  constructor
  · rintro ⟨h, _, h'⟩
    exact ⟨by omega, h⟩
  · rintro ⟨h, h'⟩
    exact ⟨h', by omega, by omega⟩

/-- What is added has room exactly if it fits its columns. -/
theorem room_iff (hX : ∀ l, (X.sha256 l).length ≤ 32) {raws : List RawCert} {cs : List AttCert}
    (hs : Started X collate db penv serviceUid raws exports cs db' r) :
    ((db'.certs.drop db.certs.length).all ACRow.fits && (db'.assignments.drop db.assignments.length).all ACARow.fits &&
        (db'.sessions.drop db.sessions.length).all SessionRow.fits) = true ↔
      RoomFor collate db penv serviceUid exports (raws.zip cs) := by
  obtain ⟨addr, uid, first, last, haddr, huid, hmin, hmax, hdb, _⟩ := hs.result
  have hlen : raws.length = cs.length := hs.sameHash.length_eq
  have hcs : (raws.zip cs).map Prod.snd = cs := List.map_snd_zip (by omega)
  -- what is known of accepted certificates
  have hfacts : ∀ p ∈ raws.zip cs, (p.1.format = 0 ∨ p.1.format = 3) ∧ 0 ≤ p.2.revRules.validBefore ∧ 0 ≤ p.2.info.issued := by
    intro p hp
    obtain ⟨i, hi⟩ := List.mem_iff_getElem?.mp hp
    obtain ⟨h1, h2⟩ := List.getElem?_zip_eq_some.mp hi
    have hz : raws.zipIdx[i]? = some (p.1, i) := by
      rw [List.getElem?_zipIdx, h1]
      simp
    obtain ⟨hi1, e1⟩ := List.getElem?_eq_some_iff.mp hz
    obtain ⟨hi2, e2⟩ := List.getElem?_eq_some_iff.mp h2
    have hacc := hs.accepted.get hi1 hi2
    rw [List.get_eq_getElem, List.get_eq_getElem, e1, e2] at hacc
    obtain ⟨b, hb, hw⟩ := hacc.sent
    refine ⟨?_, (wire_times hw).2.2.1.1, (wire_times hw).1.1⟩
    rcases hb with ⟨h, _⟩ | ⟨h, _⟩
    · exact .inl h
    · exact .inr h
  rw [List.min?_eq_some_iff] at hmin
  rw [List.max?_eq_some_iff] at hmax
  have hfirst0 : 0 ≤ first := by
    obtain ⟨c, hc, rfl⟩ := List.mem_map.mp hmin.1
    rw [← hcs] at hc
    obtain ⟨p, hp, rfl⟩ := List.mem_map.mp hc
    exact (hfacts p hp).2.1
  have hlast0 : 0 ≤ last := by
    obtain ⟨c, hc, rfl⟩ := List.mem_map.mp hmax.1
    rw [← hcs] at hc
    obtain ⟨p, hp, rfl⟩ := List.mem_map.mp hc
    exact (hfacts p hp).2.2
  have hends : (∃ p ∈ raws.zip cs, p.2.revRules.validBefore < 2147483648) ↔ first < 2147483648 := by
    constructor
    · rintro ⟨p, hp, h⟩
      have : p.2 ∈ cs := hcs ▸ List.mem_map_of_mem (f := Prod.snd) hp
      exact Int.lt_of_le_of_lt (hmin.2 _ (List.mem_map_of_mem (f := fun c : AttCert => c.revRules.validBefore) this)) h
    · intro h
      obtain ⟨c, hc, rfl⟩ := List.mem_map.mp hmin.1
      rw [← hcs] at hc
      obtain ⟨p, hp, rfl⟩ := List.mem_map.mp hc
      exact ⟨p, hp, h⟩
  have hissued : (∀ p ∈ raws.zip cs, p.2.info.issued < 2147483648) ↔ last < 2147483648 := by
    constructor
    · intro h
      obtain ⟨c, hc, rfl⟩ := List.mem_map.mp hmax.1
      rw [← hcs] at hc
      obtain ⟨p, hp, rfl⟩ := List.mem_map.mp hc
      exact h p hp
    · intro h p hp
      have : p.2 ∈ cs := hcs ▸ List.mem_map_of_mem (f := Prod.snd) hp
      exact Int.lt_of_le_of_lt (hmax.2 _ (List.mem_map_of_mem (f := fun c : AttCert => c.info.issued) this)) h
  have hA : (newCerts X collate db (raws.zip cs)).all ACRow.fits = true ↔ ∀ p ∈ raws.zip cs, isNew collate db p.2 = true →
      p.2.revRules.validBefore < 2147483648 ∧ p.1.data.length ≤ 65535 := by
    rw [List.all_eq_true]
    unfold newCerts
    constructor
    · intro h p hp hn
      exact (certRow_fits hX (hfacts p hp).1 (hfacts p hp).2.1).mp
        (h _ (List.mem_map_of_mem (f := fun p : RawCert × AttCert => certRow X p.1 p.2) (List.mem_filter.mpr ⟨hp, hn⟩)))
    · intro h x hx
      obtain ⟨p, hp, rfl⟩ := List.mem_map.mp hx
      obtain ⟨hp, hn⟩ := List.mem_filter.mp hp
      exact (certRow_fits hX (hfacts p hp).1 (hfacts p hp).2.1).mpr (h p hp hn)
  have hB : (cs.map (fun c => (⟨Spec.serialText c, numberText penv.random⟩ : ACARow))).all ACARow.fits = true := by
    rw [List.all_eq_true]
    intro x hx
    obtain ⟨c, _, rfl⟩ := List.mem_map.mp hx
    unfold ACARow.fits
    rw [Bool.and_eq_true]
    exact ⟨number_fits _, number_fits _⟩
  subst hdb
  dsimp only
  rw [List.drop_left, List.drop_left, List.drop_left, hB, Bool.and_true, Bool.and_eq_true, hA, List.all_cons, List.all_nil,
    Bool.and_true]
  unfold SessionRow.fits
  simp only [Bool.and_eq_true, fitsInteger_iff, fitsString, numberText_length, decide_eq_true_iff]
  constructor
  · rintro ⟨h1, ⟨⟨⟨⟨⟨⟨_, h2⟩, h3⟩, h4⟩, h5⟩, h6⟩, h7⟩⟩
    refine ⟨fun u hu => ?_, fun v hv => ?_, ⟨h4.1, by omega⟩, hends.mpr (by omega), hissued.mpr (by omega), h1⟩
    · rw [huid] at hu
      cases hu
      exact h6
    · rw [haddr] at hv
      cases hv
      exact h5
  · intro h
    have h3 := hends.mp h.ends
    have h2 := hissued.mp h.issued
    have h4 := h.time
    exact ⟨h.certs, ⟨⟨⟨⟨⟨⟨by omega, by omega⟩, by omega⟩, by omega⟩, h.address _ haddr⟩, h.uid _ huid⟩, by omega⟩⟩

/-- **C142**: `start_session` with columns succeeds exactly if it does without and there is room. -/
theorem strict_iff (hk : PAKeys collate db) (hr : penv.random < 2 ^ 160) (hX : ∀ l, (X.sha256 l).length ≤ 32)
    {set : Option (List RawCert)} :
    startSessionStrict X collate refused db penv serviceUid set exports = (db', .ok r) ↔
      ∃ raws cs, set = some raws ∧ raws ≠ [] ∧ Started X collate db penv serviceUid raws exports cs db' r ∧
        RoomFor collate db penv serviceUid exports (raws.zip cs) := by
  unfold startSessionStrict
  cases he : startSessionE X collate db penv serviceUid set exports with
  | error e =>
    dsimp only
    refine ⟨fun h => (by cases h), ?_⟩
    rintro ⟨raws, cs, h1, h2, h3, _⟩
    rw [(start_iff hk hr set).mpr ⟨raws, cs, h1, h2, h3⟩] at he
    cases he
  | ok q =>
    obtain ⟨d, s⟩ := q
    dsimp only
    obtain ⟨raws, cs, h1, h2, h3⟩ := (start_iff hk hr set).mp he
    constructor
    · intro h
      split at h
      · rename_i hfit
        cases h
        exact ⟨raws, cs, h1, h2, h3, (room_iff hX h3).mp hfit⟩
      · cases h
    · rintro ⟨raws', cs', h1', h2', h3', h4'⟩
      have hs := (start_iff hk hr set).mpr ⟨raws', cs', h1', h2', h3'⟩
      rw [he] at hs
      cases hs
      rw [if_pos ((room_iff hX h3').mpr h4')]

/-- **C142**: a refused request changes nothing, and one that is not refused for its columns is answered as without them. -/
theorem strict_cases {set : Option (List RawCert)} :
    startSessionStrict X collate refused db penv serviceUid set exports = startSession X collate db penv serviceUid set exports ∨
    startSessionStrict X collate refused db penv serviceUid set exports = (db, .error refused) ∧
      ∃ d s, startSession X collate db penv serviceUid set exports = (d, .ok s) := by
  unfold startSessionStrict startSession
  cases startSessionE X collate db penv serviceUid set exports with
  | error e => exact .inl rfl
  | ok q =>
    obtain ⟨d, s⟩ := q
    dsimp only
    split
    · exact .inl rfl
    · exact .inr ⟨rfl, d, s, rfl⟩

/-- **C142**: from 2^31 seconds on (2038-01-19) no session starts. -/
theorem strict_2038 (hk : PAKeys collate db) (hr : penv.random < 2 ^ 160) (hX : ∀ l, (X.sha256 l).length ≤ 32)
    (hnow : 2147483648 ≤ penv.now) {set : Option (List RawCert)} :
    startSessionStrict X collate refused db penv serviceUid set exports ≠ (db', .ok r) := by
  intro h
  obtain ⟨_, _, _, _, _, hroom⟩ := (strict_iff hk hr hX).mp h
  have := hroom.time
  omega

/-- What is stored of certificates and sessions fits its columns. -/
def Fitting (db : PAuthDb) : Prop :=
  (∀ x ∈ db.certs, x.fits = true) ∧ (∀ x ∈ db.assignments, x.fits = true) ∧ ∀ x ∈ db.sessions, x.fits = true

/-- **C142**: whatever requests do, what is stored fits. -/
theorem strict_fitting (hk : PAKeys collate db) (hr : penv.random < 2 ^ 160) (h : Fitting db) {set : Option (List RawCert)} :
    Fitting (startSessionStrict X collate refused db penv serviceUid set exports).1 := by
  unfold startSessionStrict
  cases he : startSessionE X collate db penv serviceUid set exports with
  | error e => exact h
  | ok q =>
    obtain ⟨d, s⟩ := q
    obtain ⟨raws, cs, h1, h2, h3⟩ := (start_iff hk hr set).mp he
    obtain ⟨addr, uid, first, last, _, _, _, _, rfl, _⟩ := h3.result
    dsimp only
    split
    · rename_i hfit
      rw [List.drop_left, List.drop_left, List.drop_left, Bool.and_eq_true, Bool.and_eq_true, List.all_eq_true, List.all_eq_true,
        List.all_eq_true] at hfit
      refine ⟨fun x hx => ?_, fun x hx => ?_, fun x hx => ?_⟩
      · exact (List.mem_append.mp hx).elim (h.1 x) (hfit.1.1 x)
      · exact (List.mem_append.mp hx).elim (h.2.1 x) (hfit.1.2 x)
      · exact (List.mem_append.mp hx).elim (h.2.2 x) (hfit.2 x)
    · exact h

/-- The certificate that is taken is the one issued. -/
theorem taken_issued (hU : U.Lawful) (hX : X.Lawful) (ha : AsciiInputs a adb env cred key exports)
    (h : a.issue U B collate adb env cred key req exports = .ok b) {raw : RawCert}
    (hraw : raw = ⟨b, 1, 0⟩ ∨ raw = ⟨b64encode b, 1, 3⟩) {cs : List AttCert}
    (hs : Started X collate' db penv serviceUid [raw] exports' cs db' r) :
    ∃ c, cs = [c] ∧ c.info = ⟨1, env.random, env.now⟩ ∧ c.revRules.validBefore = env.now + a.expire := by
  obtain ⟨username, user, sel, uri, rows, body, sig, _, _, _, _, _, _, _, _, hd⟩ := issued_certificate hU hX ha h
  have hacc : List.Forall₂ (fun p c => Accepted X db (penv.clock p.2) p.1 c) [(raw, 0)] cs := hs.accepted
  obtain ⟨c, l, hc, hl, rfl⟩ := List.forall₂_cons_left_iff.mp hacc
  cases hl
  obtain ⟨b', hb', hw'⟩ := hc.sent
  have hbb : b' = b := by
    rcases hraw with rfl | rfl
    · rcases hb' with ⟨_, e⟩ | ⟨e, _⟩
      · exact e
      · exact absurd e (show ¬ _ from by simp)
    · rcases hb' with ⟨e, _⟩ | ⟨_, e⟩
      · exact absurd e (show ¬ _ from by simp)
      · rw [b64decode_b64encode] at e
        exact (Except.ok.inj e).symm
  subst hbb
  clear hraw hb'
  have hd' := (decode_ok (v := true)).2 ⟨rfl, hw', fun _ => hc.verified⟩
  rw [hd'] at hd
  have he := (Prod.mk.inj (Except.ok.inj hd)).1
  refine ⟨c, rfl, ?_, ?_⟩
  · rw [he]
    rfl
  · rw [he]
    rfl

/-- **C142**: a certificate the attribute authority issues that ends after 2^31 seconds starts no session when it is new, though
without columns it would (`issued_session`). -/
theorem issued_2038 (hU : U.Lawful) (hX : X.Lawful) (hsha : ∀ l, (X.sha256 l).length ≤ 32)
    (ha : AsciiInputs a adb env cred key exports) (h : a.issue U B collate adb env cred key req exports = .ok b)
    (hend : 2147483648 ≤ env.now + a.expire) (hk : PAKeys collate' db) (hr : penv.random < 2 ^ 160) {raw : RawCert}
    (hraw : raw = ⟨b, 1, 0⟩ ∨ raw = ⟨b64encode b, 1, 3⟩) :
    startSessionStrict X collate' refused db penv serviceUid (some [raw]) exports' ≠ (db', .ok r) := by
  intro hst
  obtain ⟨raws, cs, he, _, hs, hroom⟩ := (strict_iff hk hr hsha).mp hst
  obtain rfl := Option.some.inj he
  obtain ⟨c, rfl, _, hbef⟩ := taken_issued hU hX ha h hraw hs
  obtain ⟨p, hp, hlt⟩ := hroom.ends
  obtain rfl := List.mem_singleton.mp hp
  dsimp only at hlt
  omega

/-- **C142**: before that, a certificate the attribute authority issues starts a session if the certificate as sent, the name of
the service and its address are not too long. -/
theorem issued_room (hU : U.Lawful) (hX : X.Lawful) (hsha : ∀ l, (X.sha256 l).length ≤ 32)
    (ha : AsciiInputs a adb env cred key exports) (h : a.issue U B collate adb env cred key req exports = .ok b) {uri : Str}
    (huri : a.aUri = some uri) (hk : PAKeys collate' db) (hr : penv.random < 2 ^ 160) (ht : Trusted db uri)
    (hnow : env.now < penv.clock 0 ∧ penv.clock 0 < env.now + a.expire)
    (hnew : ∀ x ∈ db.certs, collate' x.serial ≠ collate' (numberText env.random))
    (hfresh : ∀ s ∈ db.sessions, collate' s.id ≠ collate' (numberText penv.random))
    (hassign : ∀ x ∈ db.assignments, collate' x.sessionId ≠ collate' (numberText penv.random))
    (hfault : penv.commitFault = none) {addr uid : Str} (haddr : exports'.get "REMOTE_ADDR".toList = some addr) {raw : RawCert}
    (hraw : raw = ⟨b, 1, 0⟩ ∨ raw = ⟨b64encode b, 1, 3⟩) (hend : env.now + a.expire < 2147483648)
    (htime : -2147483648 ≤ penv.now ∧ penv.now < 2147483648) (hua : uid.length ≤ 100 ∧ addr.length ≤ 100)
    (hsize : raw.data.length ≤ 65535) :
    ∃ d, startSessionStrict X collate' refused db penv (some uid) (some [raw]) exports' =
      (d, .ok ⟨penv.random, penv.now, min (env.now + a.expire) (penv.now + 86400)⟩) := by
  obtain ⟨d, hst, _⟩ := issued_session (uid := uid) hU hX ha h huri hk hr ht hnow hnew hfresh hassign hfault haddr hraw
  obtain ⟨raws, cs, he, hne, hs⟩ := (start_iff hk hr _).mp (start_split.mp hst)
  obtain rfl := Option.some.inj he
  obtain ⟨c, rfl, hinfo, hbef⟩ := taken_issued hU hX ha h hraw hs
  refine ⟨d, (strict_iff hk hr hsha).mpr ⟨[raw], [c], rfl, hne, hs, ?_⟩⟩
  have hiss : c.info.issued = env.now := by rw [hinfo]
  refine ⟨fun u hu => ?_, fun v hv => ?_, htime, ⟨(raw, c), List.mem_cons_self, ?_⟩, fun p hp => ?_, fun p hp _ => ?_⟩
  · exact Option.some.inj hu ▸ hua.1
  · rw [haddr] at hv
    exact Option.some.inj hv ▸ hua.2
  · show c.revRules.validBefore < 2147483648
    omega
  · obtain rfl := List.mem_singleton.mp hp
    show c.info.issued < 2147483648
    have := hnow.1
    have := hnow.2
    omega
  · obtain rfl := List.mem_singleton.mp hp
    refine ⟨?_, hsize⟩
    show c.revRules.validBefore < 2147483648
    omega

/-- **C142**: the sample data fits. -/
theorem sample_fits : (∀ x ∈ aauthSample, x.fits = true) ∧ ∀ x ∈ pauthSample, x.fits = true := by
  constructor <;> decide +kernel

/-! ### Concrete cases -/

theorem toy_hash (l : Bytes) : (toyCrypto.sha256 l).length ≤ 32 := by
  show 3 ≤ 32
  decide

/-- A certificate of the examples issued so many seconds after 1970, by an authority whose certificates last a minute. -/
def lateIssue (now : Int) : Except PyExc Bytes :=
  sampleAuthority.issue asciiUni plainBcrypt id sampleDb { sampleRequestEnv with now := now } (sampleCred "ann" (some "x".toList))
    sampleKey ⟨some [], some []⟩ (sampleExports "10.0.0.1")

theorem late_ascii (now : Int) : AsciiInputs sampleAuthority sampleDb { sampleRequestEnv with now := now }
    (sampleCred "ann" (some "x".toList)) sampleKey (sampleExports "10.0.0.1") :=
  let h := sample_ascii "10.0.0.1" (by unfold Ascii; decide) "ann" (by unfold Ascii; decide) (some "x".toList)
  ⟨h.aauthId, h.aUri, h.revUrl, h.aauthUrl, h.username, h.cipher, h.exports, h.weekday, h.month, h.attributes, h.assignments⟩

/-- Half a minute before 2^31 a certificate is issued, and starts a session only without columns. -/
example : ∃ b d, lateIssue 2147483620 = .ok b ∧
    startSession toyCrypto id samplePAuthDb ⟨2147483630, fun _ => 2147483630, 5, none⟩ (some "s".toList) (some [⟨b, 1, 0⟩])
      (sampleExports "1.2.3.4") = (d, .ok ⟨5, 2147483630, 2147483680⟩) ∧
    startSessionStrict toyCrypto id .integrityError samplePAuthDb ⟨2147483630, fun _ => 2147483630, 5, none⟩ (some "s".toList)
      (some [⟨b, 1, 0⟩]) (sampleExports "1.2.3.4") = (samplePAuthDb, .error .integrityError) := by
  obtain ⟨b, hb⟩ : ∃ b, lateIssue 2147483620 = .ok b := issued_iff.mp (by decide +kernel)
  obtain ⟨d, h, _⟩ := issued_session (pdb := samplePAuthDb) (penv := ⟨2147483630, fun _ => 2147483630, 5, none⟩) (uid := "s".toList)
    (addr := "1.2.3.4".toList) (exports' := sampleExports "1.2.3.4") asciiUni_lawful toyCrypto_lawful
    (late_ascii _) hb rfl samplePAuthDb_consistent.keys (by decide)
    ⟨_, List.mem_cons_self, rfl, by decide⟩ (by decide) (fun _ h => (by cases h)) (fun _ h => (by cases h))
    (fun _ h => (by cases h)) rfl rfl (.inl rfl)
  refine ⟨b, d, hb, h, ?_⟩
  rcases strict_cases (X := toyCrypto) (collate := id) (refused := .integrityError) (db := samplePAuthDb)
    (penv := ⟨2147483630, fun _ => 2147483630, 5, none⟩) (serviceUid := some "s".toList) (exports := sampleExports "1.2.3.4")
    (set := some [⟨b, 1, 0⟩]) with h' | ⟨h', _⟩
  · rw [h] at h'
    exact absurd h' (issued_2038 asciiUni_lawful toyCrypto_lawful toy_hash (late_ascii _) hb (by decide)
      samplePAuthDb_consistent.keys (by decide) (.inl rfl))
  · exact h'

/-- Earlier it starts one with columns as well. -/
example : ∃ b d, lateIssue 1000 = .ok b ∧
    startSessionStrict toyCrypto id .integrityError samplePAuthDb ⟨1030, fun _ => 1030, 5, none⟩ (some "s".toList)
      (some [⟨b, 1, 0⟩]) (sampleExports "1.2.3.4") = (d, .ok ⟨5, 1030, 1060⟩) := by
  obtain ⟨b, hb⟩ : ∃ b, lateIssue 1000 = .ok b := issued_iff.mp (by decide +kernel)
  have hlen : ∀ b, lateIssue 1000 = .ok b → b.length ≤ 65535 := by
    have : (lateIssue 1000).toOption.all (fun b => decide (b.length ≤ 65535)) = true := by decide +kernel
    intro b hb
    rw [hb] at this
    exact of_decide_eq_true this
  obtain ⟨d, h⟩ := issued_room (refused := .integrityError) (db := samplePAuthDb) (penv := ⟨1030, fun _ => 1030, 5, none⟩)
    (uid := "s".toList) (addr := "1.2.3.4".toList) (exports' := sampleExports "1.2.3.4") asciiUni_lawful toyCrypto_lawful toy_hash
    (late_ascii _) hb rfl samplePAuthDb_consistent.keys (by decide)
    ⟨_, List.mem_cons_self, rfl, by decide⟩ (by decide) (fun _ h => (by cases h)) (fun _ h => (by cases h))
    (fun _ h => (by cases h)) rfl rfl (.inl rfl) (by decide) (by decide) (by decide) (hlen b hb)
  exact ⟨b, d, hb, h⟩

example : Fitting samplePAuthDb := ⟨fun _ h => (by cases h), fun _ h => (by cases h), fun _ h => (by cases h)⟩

end Verif.Props
