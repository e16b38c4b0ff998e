import Verif.Spec.Sessions
import Verif.Props.AttCert
import Verif.Proofs.AAuthNum

/-!
# Lemmas about `start_session`
-/

namespace Verif.Proofs

open Verif.Spec Verif.Props

variable {X : Crypto} {collate : Str → Str} {db : PAuthDb} {exports : Dict Str}

theorem verified_fits {c : AttCert} (h : c.verifySignature X = .ok true) : Fits c := by
  obtain ⟨_, _, _, _, _, _, body, _, _, _, _, _, hb, _⟩ := verify_iff.mp h
  exact (encode_succeeds_iff c).mp ⟨body, hb⟩

theorem intToB64_ok {n : Int} (h0 : 0 ≤ n) (h1 : n < 2 ^ 160) : intToB64 n = .ok (numberText n) := by
  unfold intToB64 toBytes
  rw [if_pos ⟨h0, by rw [show (256 : Int) ^ 20 = 2 ^ 160 by decide]; exact h1⟩]
  rfl

theorem intToB64_inv {n : Int} {s : Str} (h : intToB64 n = .ok s) : 0 ≤ n ∧ n < 2 ^ 160 ∧ s = numberText n := by
  unfold intToB64 toBytes at h
  split at h
  · rename_i hr
    refine ⟨hr.1, ?_, (Except.ok.inj h).symm⟩
    have := hr.2
    rwa [show (256 : Int) ^ 20 = 2 ^ 160 by decide] at this
  · cases h

theorem import_bytearray {data : Bytes} {f : ExportFormat} {c : AttCert} {rest : ACData} :
    AttCert.importAC X (.bytearray data) f true = .ok (c, rest) ↔
      (f = .bytes ∧ AttCert.decode X data true = .ok (c, []) ∧ rest = .bytearray []) ∨
      (f = .base64 ∧ ∃ b, b64decode data = .ok b ∧ AttCert.decode X b true = .ok (c, []) ∧ rest = .bytearray data) := by
  cases f with
  | bytes =>
    simp only [AttCert.importAC, AttCert.importBytes, except_bind_ok, except_pure_ok, Prod.exists, Prod.mk.injEq]
    constructor
    · rintro ⟨c1, r, h, rfl, rfl⟩
      have := (decode_ok.1 h).1
      subst this
      exact .inl ⟨trivial, h, rfl⟩
    · rintro (⟨_, h, rfl⟩ | ⟨h, _⟩)
      · exact ⟨c, [], h, rfl, rfl⟩
      · cases h
  | base64 =>
    simp only [AttCert.importAC, AttCert.importBase64, b64decodeData, except_bind_ok, except_pure_ok, Prod.exists,
      Prod.mk.injEq]
    constructor
    · rintro ⟨b, hb, c1, r, h, rfl, rfl⟩
      have := (decode_ok.1 h).1
      subst this
      exact .inr ⟨trivial, b, hb, h, rfl⟩
    · rintro (⟨h, _⟩ | ⟨_, b, hb, h, rfl⟩)
      · cases h
      · exact ⟨b, hb, c, [], h, rfl, rfl⟩
  | text => exact ⟨fun h => (by cases h), fun h => (by rcases h with ⟨h, _⟩ | ⟨h, _⟩ <;> cases h)⟩
  | xml => exact ⟨fun h => (by cases h), fun h => (by rcases h with ⟨h, _⟩ | ⟨h, _⟩ <;> cases h)⟩
  | base64full => exact ⟨fun h => (by cases h), fun h => (by rcases h with ⟨h, _⟩ | ⟨h, _⟩ <;> cases h)⟩

theorem authorityDict_get (hk : PAKeys collate db) (uid : Str) (a : PAAuthority) :
    db.authorityDict.get uid = some a ↔ a ∈ db.authorities ∧ a.uid = uid := by
  have hn : (db.authorities.map (fun r => r.uid)).Nodup := by
    have := hk.authorities
    rw [show (fun r : PAAuthority => collate r.uid) = collate ∘ (fun r => r.uid) from rfl, ← List.map_map] at this
    exact this.of_map
  have := dict_putAll_new ([] : Dict PAAuthority) (db.authorities.map (fun x => (x.uid, x))) (by
    rw [List.nil_append, List.map_map]
    exact hn)
  rw [List.foldl_map] at this
  have e : db.authorityDict = db.authorities.map (fun x => (x.uid, x)) := this
  rw [e]
  constructor
  · intro h
    obtain ⟨x, hx, he⟩ := List.mem_map.mp (dict_mem_of_get h)
    cases he
    exact ⟨hx, rfl⟩
  · rintro ⟨ha, rfl⟩
    refine dict_get_of_mem ?_ (List.mem_map.mpr ⟨a, ha, rfl⟩)
    rw [List.map_map]
    exact hn

theorem importSent {raw : RawCert} {f : ExportFormat} (hf : raw.format = f.value) {c : AttCert} {rest : ACData} :
    AttCert.importAC X (.bytearray raw.data) f true = .ok (c, rest) ↔
      (∃ b, SentBytes raw b ∧ CertWire c b) ∧ c.verifySignature X = .ok true ∧
        rest = .bytearray (if raw.format = 0 then [] else raw.data) := by
  rw [import_bytearray]
  constructor
  · rintro (⟨rfl, h, rfl⟩ | ⟨rfl, b, hb, h, rfl⟩)
    · obtain ⟨_, h1, h2⟩ := decode_ok.1 h
      exact ⟨⟨_, .inl ⟨hf, rfl⟩, h1⟩, h2 rfl, by rw [if_pos (show raw.format = 0 from hf)]⟩
    · obtain ⟨_, h1, h2⟩ := decode_ok.1 h
      refine ⟨⟨_, .inr ⟨hf, hb⟩, h1⟩, h2 rfl, ?_⟩
      rw [if_neg]
      rw [hf]
      decide
  · rintro ⟨⟨b, hb | hb, hw⟩, hv, rfl⟩
    · have : f = .bytes := by
        rw [hf] at hb
        revert hb
        cases f <;> simp [ExportFormat.value]
      subst this
      refine .inl ⟨rfl, decode_ok.2 ⟨rfl, hb.2 ▸ hw, fun _ => hv⟩, by rw [if_pos (show raw.format = 0 from hf)]⟩
    · have : f = .base64 := by
        rw [hf] at hb
        revert hb
        cases f <;> simp [ExportFormat.value]
      subst this
      refine .inr ⟨rfl, b, hb.2, decode_ok.2 ⟨rfl, hw, fun _ => hv⟩, ?_⟩
      rw [if_neg]
      rw [hf]
      decide

/-- What `_check_cert` accepts. -/
theorem checkCert_ok (hk : PAKeys collate db) {clock : Int} {raw : RawCert} {f : ExportFormat} {c : AttCert} {rest : ACData}
    (hf : raw.format = f.value) :
    checkCert X db.authorityDict exports clock (.bytearray raw.data) raw.version f = .ok (c, rest) ↔
      Accepted X db clock raw c ∧ rest = .bytearray (if raw.format = 0 then [] else raw.data) := by
  have hfmt := fun {c} {rest} => importSent (X := X) (c := c) (rest := rest) hf
  unfold checkCert
  constructor
  · intro h
    split at h
    · cases h
    · rename_i hv
      split at h
      · cases h
      · split at h
        · cases h
        · rename_i c1 rest1 himp
          split at h
          · cases h
          · rename_i i hi
            split at h
            · cases h
            · rename_i a ha
              split at h
              · cases h
              · rename_i ht
                split at h
                · rename_i hvt
                  cases h
                  obtain ⟨hs, hver, hr⟩ := hfmt.mp himp
                  obtain ⟨ham, hau⟩ := (authorityDict_get hk _ _).mp ha
                  rw [verify_time_clock, verify_time_iff] at hvt
                  exact ⟨⟨by omega, hs, hver, ⟨i, hi, a, ham, hau, by omega⟩, hvt.1, hvt.2⟩, hr⟩
                · cases h
  · rintro ⟨⟨h1, h2, h3, ⟨i, hi, a, ham, hau, ht⟩, h5, h6⟩, rfl⟩
    have himp := hfmt.mpr ⟨h2, h3, rfl⟩
    have hb : ¬ (f ≠ .bytes ∧ f ≠ .base64 ∧ f ≠ .base64full) := by
      rintro ⟨g1, g2, _⟩
      rcases import_bytearray.mp himp with ⟨g, _⟩ | ⟨g, _⟩
      · exact g1 g
      · exact g2 g
    rw [if_neg (not_not_intro h1), if_neg hb, himp]
    dsimp only
    rw [hi]
    dsimp only
    rw [(authorityDict_get hk i.uid a).mpr ⟨ham, hau⟩]
    dsimp only
    rw [if_neg (by omega), if_pos]
    rw [verify_time_clock, verify_time_iff]
    exact ⟨h5, h6⟩

theorem newRow_ok (hk : PAKeys collate db) {row : ACRow} {rows : List ACRow} :
    newRow collate db exports row = .ok rows ↔
      (∀ h ∈ db.certs, collate h.serial = collate row.serial → h.hash = row.hash) ∧
      rows = if db.certs.all (fun r => decide (collate r.serial ≠ collate row.serial)) then [row] else [] := by
  unfold newRow PAuthDb.findCert
  cases hf : db.certs.find? (fun r => decide (collate r.serial = collate row.serial)) with
  | none =>
    have hn : ∀ r ∈ db.certs, collate r.serial ≠ collate row.serial := fun r hr e =>
      absurd (List.find?_eq_none.mp hf r hr) (by simp [e])
    rw [if_pos]
    · constructor
      · intro h; cases h; exact ⟨fun h hh e => absurd e (hn h hh), rfl⟩
      · rintro ⟨_, rfl⟩; rfl
    · rw [List.all_eq_true]
      exact fun r hr => decide_eq_true (hn r hr)
  | some h =>
    have hm := List.mem_of_find?_eq_some hf
    have he : collate h.serial = collate row.serial := by simpa using List.find?_some hf
    rw [if_neg]
    · dsimp only
      split
      · rename_i hh
        exact ⟨fun h => (by cases h), fun ⟨h1, _⟩ => absurd (h1 h hm he) hh⟩
      · rename_i hh
        have hh := not_not.mp hh
        constructor
        · intro e
          cases e
          refine ⟨fun h' hm' he' => ?_, rfl⟩
          have : h' = h := List.inj_on_of_nodup_map hk.certs hm' hm (he'.trans he.symm)
          rw [this]; exact hh
        · rintro ⟨_, rfl⟩; rfl
    · intro e
      rw [List.all_eq_true] at e
      exact absurd he (of_decide_eq_true (e h hm))

/-- The accumulator after one more certificate. -/
def stepAcc (X : Crypto) (collate : Str → Str) (db : PAuthDb) (session : Str) (acc : StartAcc) (p : RawCert × AttCert) :
    StartAcc where
  processed := acc.processed.put (serialText p.2) p.2
  minValid := if acc.minValid = -1 ∨ p.2.revRules.validBefore < acc.minValid then p.2.revRules.validBefore else acc.minValid
  maxStart := if acc.maxStart = -1 ∨ acc.maxStart < p.2.info.issued then p.2.info.issued else acc.maxStart
  certs := acc.certs ++ if isNew collate db p.2 then [certRow X p.1 p.2] else []
  assignments := acc.assignments ++ [⟨serialText p.2, session⟩]

/-- The condition for a certificate to be taken. -/
def Taken (X : Crypto) (collate : Str → Str) (db : PAuthDb) (clock : Int) (raw : RawCert) (c : AttCert) : Prop :=
  Accepted X db clock raw c ∧ ∀ h ∈ db.certs, collate h.serial = collate (serialText c) → h.hash = hashText X raw

theorem startStep_ok (hk : PAKeys collate db) {session : Str} {clock : Int} {acc acc' : StartAcc} {raw : RawCert} :
    startStep X collate db exports session clock acc raw = .ok acc' ↔
      ∃ c, Taken X collate db clock raw c ∧ acc' = stepAcc X collate db session acc (raw, c) := by
  unfold startStep
  simp only [except_bind_ok, except_pure_ok, Prod.exists]
  constructor
  · rintro ⟨f, hf, c, rest, hc, s, hs, rows, hrows, rfl⟩
    have hf' := exportFormat_values.mp hf
    obtain ⟨hacc, rfl⟩ := (checkCert_ok hk hf').mp hc
    obtain ⟨_, _, rfl⟩ := intToB64_inv hs
    obtain ⟨hh, rfl⟩ := (newRow_ok hk).mp hrows
    refine ⟨c, ⟨hacc, hh⟩, ?_⟩
    unfold stepAcc certRow
    rw [← hf', hacc.version]
    rfl
  · rintro ⟨c, ⟨hacc, hh⟩, rfl⟩
    have hfit := verified_fits hacc.verified
    obtain ⟨f, hf⟩ : ∃ f : ExportFormat, raw.format = f.value := by
      obtain ⟨b, h | h, _⟩ := hacc.sent
      · exact ⟨.bytes, h.1⟩
      · exact ⟨.base64, h.1⟩
    refine ⟨f, exportFormat_values.mpr hf, c, _, (checkCert_ok hk hf).mpr ⟨hacc, rfl⟩, _,
      intToB64_ok hfit.serial.1 hfit.serial.2, _, (newRow_ok hk).mpr ⟨hh, rfl⟩, ?_⟩
    unfold stepAcc certRow
    rw [← hf, hacc.version]
    rfl

/-- A certificate with a reason to refuse it is refused for it. -/
theorem startStep_reason (hk : PAKeys collate db) {session : Str} {clock : Int} {acc : StartAcc} {raw : RawCert} {msg : String}
    {f : ExportFormat} (hf : raw.format = f.value) (h : Reason X collate db clock raw msg) :
    startStep X collate db exports session clock acc raw = .error (clientFaultLogged exports msg) := by
  have check : ∀ e, checkCert X db.authorityDict exports clock (.bytearray raw.data) raw.version f = .error e →
      startStep X collate db exports session clock acc raw = .error e := by
    intro e he
    unfold startStep
    rw [bind_ok_eq _ (exportFormat_values.mpr hf), he]
    rfl
  have imported : ∀ {b c}, SentBytes raw b → CertWire c b → c.verifySignature X = .ok true → ∃ rest,
      AttCert.importAC X (.bytearray raw.data) f true = .ok (c, rest) ∧ ¬ (f ≠ .bytes ∧ f ≠ .base64 ∧ f ≠ .base64full) := by
    intro b c hb hw hv
    have himp := (importSent (X := X) hf).mpr ⟨⟨b, hb, hw⟩, hv, rfl⟩
    refine ⟨_, himp, ?_⟩
    rintro ⟨g1, g2, _⟩
    rcases import_bytearray.mp himp with ⟨g, _⟩ | ⟨g, _⟩
    · exact g1 g
    · exact g2 g
  cases h with
  | version h =>
    apply check
    unfold checkCert
    rw [if_pos h]
  | format hv h =>
    apply check
    unfold checkCert
    rw [if_neg (not_not_intro hv), if_pos]
    rw [hf] at h
    revert h
    cases f <;> simp [ExportFormat.value]
  | unverified hv h hn =>
    apply check
    unfold checkCert
    rw [if_neg (not_not_intro hv), if_neg]
    · cases hi : AttCert.importAC X (.bytearray raw.data) f true with
      | error e => rfl
      | ok p =>
        obtain ⟨c, rest⟩ := p
        obtain ⟨⟨b, hb, hw⟩, hver, _⟩ := (importSent hf).mp hi
        exact absurd hver (hn b c hb hw)
    · rw [hf] at h
      revert h
      cases f <;> simp [ExportFormat.value]
  | untrusted hv hb hw hver hi hn =>
    apply check
    obtain ⟨rest, himp, hfm⟩ := imported hb hw hver
    unfold checkCert
    rw [if_neg (not_not_intro hv), if_neg hfm, himp]
    dsimp only
    rw [hi]
    dsimp only
    split
    · rfl
    · rename_i a ha
      obtain ⟨ham, hau⟩ := (authorityDict_get hk _ _).mp ha
      rw [if_pos]
      exact Int.not_lt.mp (fun hl => hn ⟨a, ham, hau, hl⟩)
  | expired hv hb hw hver hi ht hn =>
    apply check
    obtain ⟨rest, himp, hfm⟩ := imported hb hw hver
    obtain ⟨a, ham, hau, hl⟩ := ht
    unfold checkCert
    rw [if_neg (not_not_intro hv), if_neg hfm, himp]
    dsimp only
    rw [hi]
    dsimp only
    rw [(authorityDict_get hk _ a).mpr ⟨ham, hau⟩]
    dsimp only
    rw [if_neg (by omega), if_neg]
    rw [verify_time_clock, verify_time_iff]
    exact hn
  | @reused c r hacc hm he hne =>
    have hfit := verified_fits hacc.verified
    unfold startStep
    rw [bind_ok_eq _ (exportFormat_values.mpr hf), bind_ok_eq _ ((checkCert_ok hk hf).mpr ⟨hacc, rfl⟩)]
    dsimp only
    rw [bind_ok_eq _ (intToB64_ok hfit.serial.1 hfit.serial.2)]
    have : newRow collate db exports ⟨numberText c.info.serial, raw.data, f.value, raw.version, c.revRules.validBefore,
        b64Text (X.sha256 (ACData.rest (.bytearray (if raw.format = 0 then [] else raw.data))))⟩ =
        .error (clientFaultLogged exports "Certificate serial already in use.") := by
      unfold newRow PAuthDb.findCert
      dsimp only
      cases hfd : db.certs.find? (fun r => decide (collate r.serial = collate (numberText c.info.serial))) with
      | none => exact absurd (List.find?_eq_none.mp hfd r hm) (by simp; exact he)
      | some r' =>
        have hm' := List.mem_of_find?_eq_some hfd
        have he' : collate r'.serial = collate (numberText c.info.serial) := by simpa using List.find?_some hfd
        have : r' = r := List.inj_on_of_nodup_map hk.certs hm' hm (he'.trans he.symm)
        subst this
        dsimp only
        rw [if_pos]
        exact hne
    rw [this]
    rfl

/-- A certificate in a known format is taken, or there is a reason to refuse it. -/
theorem taken_or_reason {clock : Int} {raw : RawCert} {f : ExportFormat} (hf : raw.format = f.value) :
    (∃ c, Taken X collate db clock raw c) ∨ ∃ msg, Reason X collate db clock raw msg := by
  by_cases hv : raw.version = 1
  · by_cases h12 : raw.format = 1 ∨ raw.format = 2
    · exact .inr ⟨_, .format hv h12⟩
    · have h034 : raw.format = 0 ∨ raw.format = 3 ∨ raw.format = 4 := by
        rw [hf] at h12 ⊢
        revert h12
        cases f <;> simp [ExportFormat.value]
      by_cases hs : ∃ b c, SentBytes raw b ∧ CertWire c b ∧ c.verifySignature X = .ok true
      · obtain ⟨b, c, hb, hw, hver⟩ := hs
        obtain ⟨_, _, i, _, _, _, _, _, hi, _⟩ := verify_iff.mp hver
        by_cases ht : Trusted db i.uid
        · by_cases hn : c.revRules.validAfter < clock ∧ clock < c.revRules.validBefore
          · have hacc : Accepted X db clock raw c := ⟨hv, ⟨b, hb, hw⟩, hver, ⟨i, hi, ht⟩, hn.1, hn.2⟩
            by_cases hh : ∀ h ∈ db.certs, collate h.serial = collate (serialText c) → h.hash = hashText X raw
            · exact .inl ⟨c, hacc, hh⟩
            · push Not at hh
              obtain ⟨h, hm, he, hne⟩ := hh
              exact .inr ⟨_, .reused hacc hm he hne⟩
          · exact .inr ⟨_, .expired hv hb hw hver hi ht hn⟩
        · exact .inr ⟨_, .untrusted hv hb hw hver hi ht⟩
      · exact .inr ⟨_, .unverified hv h034 (fun b c hb hw hver => hs ⟨b, c, hb, hw, hver⟩)⟩
  · exact .inr ⟨_, .version hv⟩

theorem startLoop_ok (hk : PAKeys collate db) {session : Str} {clock : Nat → Int} (raws : List RawCert) (i : Nat)
    (acc acc' : StartAcc) :
    startLoop X collate db exports session clock i acc raws = .ok acc' ↔
      ∃ cs, List.Forall₂ (fun p c => Taken X collate db (clock p.2) p.1 c) (raws.zipIdx i) cs ∧
        acc' = (raws.zip cs).foldl (stepAcc X collate db session) acc := by
  induction raws generalizing i acc with
  | nil =>
    unfold startLoop
    constructor
    · intro h; cases h; exact ⟨[], .nil, rfl⟩
    · rintro ⟨cs, _, rfl⟩; rfl
  | cons raw raws ih =>
    unfold startLoop
    rw [except_bind_ok]
    simp only [startStep_ok hk, ih]
    rw [List.zipIdx_cons]
    constructor
    · rintro ⟨_, ⟨c, hc, rfl⟩, cs, hcs, rfl⟩
      exact ⟨c :: cs, .cons hc hcs, rfl⟩
    · rintro ⟨cs, hcs, rfl⟩
      cases hcs with
      | cons hc hcs => exact ⟨_, ⟨_, hc, rfl⟩, _, hcs, rfl⟩

/-- Certificates in known formats are all taken, or there is a first one that is refused. -/
theorem all_taken_or_reason {clock : Nat → Int} (raws : List RawCert) (i : Nat)
    (hf : ∀ raw ∈ raws, ∃ f : ExportFormat, raw.format = f.value) :
    (∃ cs, List.Forall₂ (fun p c => Taken X collate db (clock p.2) p.1 c) (raws.zipIdx i) cs) ∨
    ∃ pre raw post cs msg, raws = pre ++ raw :: post ∧
      List.Forall₂ (fun p c => Taken X collate db (clock p.2) p.1 c) (pre.zipIdx i) cs ∧
      Reason X collate db (clock (i + pre.length)) raw msg := by
  induction raws generalizing i with
  | nil => exact .inl ⟨[], .nil⟩
  | cons raw raws ih =>
    obtain ⟨f, hff⟩ := hf raw List.mem_cons_self
    rcases taken_or_reason (X := X) (collate := collate) (db := db) (clock := clock i) hff with ⟨c, hc⟩ | ⟨msg, hm⟩
    · rcases ih (i + 1) (fun r hr => hf r (List.mem_cons_of_mem _ hr)) with ⟨cs, hcs⟩ | ⟨pre, r, post, cs, msg, rfl, h1, h2⟩
      · exact .inl ⟨c :: cs, by rw [List.zipIdx_cons]; exact .cons hc hcs⟩
      · refine .inr ⟨raw :: pre, r, post, c :: cs, msg, rfl, by rw [List.zipIdx_cons]; exact .cons hc h1, ?_⟩
        rw [List.length_cons, show i + (pre.length + 1) = i + 1 + pre.length by omega]
        exact h2
    · exact .inr ⟨[], raw, raws, [], msg, rfl, .nil, hm⟩

theorem startLoop_reason (hk : PAKeys collate db) {session : Str} {clock : Nat → Int} {pre post : List RawCert} {raw : RawCert}
    {cs : List AttCert} {msg : String} {f : ExportFormat} (hf : raw.format = f.value) (i : Nat) (acc : StartAcc)
    (hpre : List.Forall₂ (fun p c => Taken X collate db (clock p.2) p.1 c) (pre.zipIdx i) cs)
    (h : Reason X collate db (clock (i + pre.length)) raw msg) :
    startLoop X collate db exports session clock i acc (pre ++ raw :: post) = .error (clientFaultLogged exports msg) := by
  induction pre generalizing i acc cs with
  | nil =>
    rw [List.length_nil, Nat.add_zero] at h
    rw [List.nil_append, startLoop, startStep_reason hk hf h]
    rfl
  | cons r pre ih =>
    rw [List.zipIdx_cons] at hpre
    cases hpre with
    | cons hc hcs =>
      rw [List.cons_append, startLoop, bind_ok_eq _ ((startStep_ok hk).mpr ⟨_, hc, rfl⟩)]
      refine ih (i + 1) _ hcs ?_
      rw [List.length_cons, show i + (pre.length + 1) = i + 1 + pre.length by omega] at h
      exact h

/-! ### The accumulator at the end -/

theorem min_sentinel (l : List Int) (m : Int) (hm : 0 ≤ m) (hl : ∀ v ∈ l, 0 ≤ v) :
    l.foldl (fun m v => if m = -1 ∨ v < m then v else m) m = l.foldl min m := by
  induction l generalizing m with
  | nil => rfl
  | cons v l ih =>
    have hv := hl v List.mem_cons_self
    rw [List.foldl_cons, List.foldl_cons]
    have : (if m = -1 ∨ v < m then v else m) = min m v := by
      rw [Int.min_def]
      split <;> split <;> omega
    rw [this]
    exact ih _ (by omega) (fun w hw => hl w (List.mem_cons_of_mem _ hw))

theorem max_sentinel (l : List Int) (m : Int) (hm : 0 ≤ m) (hl : ∀ v ∈ l, 0 ≤ v) :
    l.foldl (fun m v => if m = -1 ∨ m < v then v else m) m = l.foldl max m := by
  induction l generalizing m with
  | nil => rfl
  | cons v l ih =>
    have hv := hl v List.mem_cons_self
    rw [List.foldl_cons, List.foldl_cons]
    have : (if m = -1 ∨ m < v then v else m) = max m v := by
      rw [Int.max_def]
      split <;> split <;> omega
    rw [this]
    exact ih _ (by omega) (fun w hw => hl w (List.mem_cons_of_mem _ hw))

theorem steps_fields (session : Str) (ps : List (RawCert × AttCert)) (acc : StartAcc) :
    let r := ps.foldl (stepAcc X collate db session) acc
    r.certs = acc.certs ++ newCerts X collate db ps ∧
    r.assignments = acc.assignments ++ ps.map (fun p => ⟨serialText p.2, session⟩) ∧
    r.minValid = (ps.map (fun p => p.2.revRules.validBefore)).foldl (fun m v => if m = -1 ∨ v < m then v else m)
      acc.minValid ∧
    r.maxStart = (ps.map (fun p => p.2.info.issued)).foldl (fun m v => if m = -1 ∨ m < v then v else m) acc.maxStart ∧
    (ps ≠ [] → r.processed ≠ []) := by
  induction ps generalizing acc with
  | nil => simp [newCerts]
  | cons p ps ih =>
    obtain ⟨h1, h2, h3, h4, h5⟩ := ih (stepAcc X collate db session acc p)
    rw [List.foldl_cons]
    refine ⟨?_, ?_, ?_, ?_, ?_⟩
    · rw [h1]
      unfold newCerts
      rw [List.filter_cons]
      simp only [stepAcc, List.append_assoc, List.append_cancel_left_eq]
      split <;> simp
    · rw [h2]; simp [stepAcc]
    · rw [h3]; rfl
    · rw [h4]; rfl
    · intro _ he
      cases ps with
      | nil =>
        have hg : Dict.get (stepAcc X collate db session acc p).processed (serialText p.2) = some p.2 := by
          simp [stepAcc, dict_get_put]
        rw [List.foldl_nil] at he
        rw [he] at hg
        cases hg
      | cons q ps => exact h5 (by simp) he

end Verif.Proofs
