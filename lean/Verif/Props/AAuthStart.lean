import Verif.Spec.AAuthStart
import Verif.Props.ToolsLog

/-!
# What is recorded when the attribute authority is set up and asked for its description (C151)
-/

namespace Verif.Props

open Verif.Spec Proofs

variable {U : Uni} {X : Crypto} {c c' : Config} {readKey readKey' : Option Str → Option Str → Except PyExc (X.PrivKey × Int)}
  {create : Str → Except PyExc Unit} {st : Engines} {a a' : Authority X} {exports : Dict Str}

/-! ### How bytes are shown -/

theorem char_of_byte {n : Nat} (h : n < 256) : (Char.ofNat n).toNat = n := by
  have hv : n.isValidChar := .inl (by omega)
  unfold Char.ofNat
  rw [dif_pos hv]
  exact UInt32.toNat_ofNatLT ..

theorem char_eq_byte {n : Nat} (h : n < 256) {ch : Char} (e : Char.ofNat n = ch) : n = ch.toNat := by
  rw [← e, char_of_byte h]

theorem hexDigit_printable : ∀ n < 16, 32 ≤ (hexDigit n).toNat ∧ (hexDigit n).toNat < 127 := by decide +kernel

theorem hexDigit_inj : ∀ n < 16, ∀ m < 16, hexDigit n = hexDigit m → n = m := by decide +kernel

/-- How a byte is shown: as itself, after a backslash, by a letter, or by two hexadecimal digits. -/
theorem byteRepr_cases (q : Char) (b : UInt8) :
    (byteRepr q b = ['\\', Char.ofNat b.toNat] ∧ (Char.ofNat b.toNat = q ∨ Char.ofNat b.toNat = '\\')) ∨
    (byteRepr q b = ['\\', 't'] ∧ b.toNat = 9) ∨ (byteRepr q b = ['\\', 'n'] ∧ b.toNat = 10) ∨
    (byteRepr q b = ['\\', 'r'] ∧ b.toNat = 13) ∨
    (byteRepr q b = ['\\', 'x', hexDigit (b.toNat / 16), hexDigit (b.toNat % 16)] ∧ (b.toNat < 32 ∨ 127 ≤ b.toNat)) ∨
    (byteRepr q b = [Char.ofNat b.toNat] ∧ 32 ≤ b.toNat ∧ b.toNat < 127 ∧ Char.ofNat b.toNat ≠ q ∧
      Char.ofNat b.toNat ≠ '\\') := by
  have hb : b.toNat < 256 := b.toNat_lt
  unfold byteRepr
  dsimp only
  split
  · exact .inl ⟨rfl, by assumption⟩
  · rename_i h0
    split
    · rename_i h; exact .inr (.inl ⟨rfl, char_eq_byte hb h⟩)
    · split
      · rename_i h; exact .inr (.inr (.inl ⟨rfl, char_eq_byte hb h⟩))
      · split
        · rename_i h; exact .inr (.inr (.inr (.inl ⟨rfl, char_eq_byte hb h⟩)))
        · split
          · rename_i h; exact .inr (.inr (.inr (.inr (.inl ⟨rfl, h⟩))))
          · rename_i h
            rw [not_or] at h0 h
            exact .inr (.inr (.inr (.inr (.inr ⟨rfl, by omega, by omega, h0.1, h0.2⟩))))

theorem byteRepr_printable {q : Char} (hq : q = '\'' ∨ q = '"') (b : UInt8) : PrintableAscii (byteRepr q b) := by
  have hb : b.toNat < 256 := b.toNat_lt
  rcases byteRepr_cases q b with ⟨h, h'⟩ | ⟨h, h'⟩ | ⟨h, h'⟩ | ⟨h, h'⟩ | ⟨h, h'⟩ | ⟨h, h1, h2, h'⟩ <;> rw [h] <;> intro ch hc
  · have : ch = '\\' ∨ ch = q := by
      rcases List.mem_cons.1 hc with rfl | hc
      · exact .inl rfl
      · rw [List.mem_singleton.1 hc]
        exact h'.symm
    rcases hq with rfl | rfl <;> rcases this with rfl | rfl <;> decide
  · revert ch; decide
  · revert ch; decide
  · revert ch; decide
  · simp only [List.mem_cons, List.not_mem_nil, or_false] at hc
    rcases hc with rfl | rfl | rfl | rfl
    · decide
    · decide
    · exact hexDigit_printable _ (by omega)
    · exact hexDigit_printable _ (by omega)
  · rw [List.mem_singleton.1 hc, char_of_byte hb]
    exact ⟨h1, h2⟩

/-- **C151**: bytes are shown on one line of printable ASCII characters. -/
theorem bytesRepr_printable (b : Bytes) : PrintableAscii (bytesRepr b) := by
  unfold bytesRepr
  dsimp only
  generalize hq : (if (39 : UInt8) ∈ b ∧ (34 : UInt8) ∉ b then '"' else '\'') = q
  have hq : q = '\'' ∨ q = '"' := by
    rw [← hq]
    split
    · exact .inr rfl
    · exact .inl rfl
  intro ch hc
  simp only [List.mem_append, List.mem_cons, List.not_mem_nil, or_false, List.mem_flatMap] at hc
  rcases hc with ((rfl | rfl) | ⟨x, _, h⟩) | rfl
  · decide
  · rcases hq with rfl | rfl <;> decide
  · exact byteRepr_printable hq x ch h
  · rcases hq with rfl | rfl <;> decide

theorem byteRepr_prefix {q : Char} (hq : q = '\'' ∨ q = '"') {b b' : UInt8} {r r' : Str}
    (h : byteRepr q b ++ r = byteRepr q b' ++ r') : b = b' ∧ r = r' := by
  have hb : b.toNat < 256 := b.toNat_lt
  have hb' : b'.toNat < 256 := b'.toNat_lt
  have hesc : ∀ {ch : Char}, ch = q ∨ ch = '\\' → ch ≠ 't' ∧ ch ≠ 'n' ∧ ch ≠ 'r' ∧ ch ≠ 'x' := by
    rintro ch (rfl | rfl)
    · rcases hq with rfl | rfl <;> decide
    · decide
  have same : b.toNat = b'.toNat → b = b' := fun h => UInt8.toNat_inj.1 h
  rcases byteRepr_cases q b with ⟨e, g⟩ | ⟨e, g⟩ | ⟨e, g⟩ | ⟨e, g⟩ | ⟨e, g⟩ | ⟨e, _, _, g1, g2⟩ <;>
    rcases byteRepr_cases q b' with ⟨e', g'⟩ | ⟨e', g'⟩ | ⟨e', g'⟩ | ⟨e', g'⟩ | ⟨e', g'⟩ | ⟨e', _, _, g1', g2'⟩ <;>
    rw [e, e'] at h <;> simp only [List.cons_append, List.nil_append, List.cons.injEq, true_and] at h
  all_goals first
    | exact absurd h.1 (hesc g).1
    | exact absurd h.1 (hesc g).2.1
    | exact absurd h.1 (hesc g).2.2.1
    | exact absurd h.1 (hesc g).2.2.2
    | exact absurd h.1.symm (hesc g').1
    | exact absurd h.1.symm (hesc g').2.1
    | exact absurd h.1.symm (hesc g').2.2.1
    | exact absurd h.1.symm (hesc g').2.2.2
    | exact absurd h.1 (by decide)
    | exact absurd h.1 g2
    | exact absurd h.1.symm g2'
    | exact ⟨same (by rw [g, g']), h⟩
    | exact ⟨same (by rw [← char_of_byte hb, h.1, char_of_byte hb']), h.2⟩
    | skip
  · have h1 := hexDigit_inj _ (by omega) _ (by omega) h.1
    have h2 := hexDigit_inj _ (by omega) _ (by omega) h.2.1
    exact ⟨same (by omega), h.2.2⟩

theorem byteRepr_quote {q : Char} (hq : q = '\'' ∨ q = '"') (b : UInt8) {r : Str} : [q] ≠ byteRepr q b ++ r := by
  have hne : q ≠ '\\' := by rcases hq with rfl | rfl <;> decide
  intro h
  rcases byteRepr_cases q b with ⟨e, _⟩ | ⟨e, _⟩ | ⟨e, _⟩ | ⟨e, _⟩ | ⟨e, _⟩ | ⟨e, _, _, g, _⟩ <;> rw [e] at h <;>
    simp only [List.cons_append, List.nil_append, List.cons.injEq] at h
  all_goals first
    | exact hne h.1
    | exact g h.1.symm

theorem flatMap_byteRepr {q : Char} (hq : q = '\'' ∨ q = '"') : ∀ {b b' : Bytes},
    b.flatMap (byteRepr q) ++ [q] = b'.flatMap (byteRepr q) ++ [q] → b = b' := by
  intro b
  induction b with
  | nil =>
    intro b' h
    cases b' with
    | nil => rfl
    | cons x xs =>
      rw [List.flatMap_cons, List.append_assoc] at h
      exact absurd h (byteRepr_quote hq x)
  | cons y ys ih =>
    intro b' h
    cases b' with
    | nil =>
      rw [List.flatMap_cons, List.append_assoc] at h
      exact absurd h.symm (byteRepr_quote hq y)
    | cons x xs =>
      rw [List.flatMap_cons, List.flatMap_cons, List.append_assoc, List.append_assoc] at h
      obtain ⟨rfl, h'⟩ := byteRepr_prefix hq h
      rw [ih h']

/-- **C151**: different bytes are shown differently. -/
theorem bytesRepr_inj {b b' : Bytes} (h : bytesRepr b = bytesRepr b') : b = b' := by
  unfold bytesRepr at h
  dsimp only at h
  generalize hq : (if (39 : UInt8) ∈ b ∧ (34 : UInt8) ∉ b then '"' else '\'') = q at h
  generalize (if (39 : UInt8) ∈ b' ∧ (34 : UInt8) ∉ b' then '"' else '\'') = q' at h
  simp only [List.cons_append, List.nil_append, List.cons.injEq, true_and] at h
  obtain ⟨rfl, h⟩ := h
  refine flatMap_byteRepr ?_ h
  rw [← hq]
  split
  · exact .inr rfl
  · exact .inl rfl

/-! ### `__init__` -/

theorem setup_records_eq (a : Authority X) : [(10, setupMsg a), (10, "Setting up issuer AC section.".toList),
    (10, "Setting up database session for AttributeAuthority".toList)] =
      setupRecords a.aauthId a.aUri a.revUrl (bytesRepr (X.exportPub a.key)) := by
  have h1 : decimal 1 = ['1'] := by decide
  have h0 : decimal 0 = ['0'] := by decide
  unfold setupRecords setupMsg showOpt
  rw [h1, h0]
  simp [commaJoin]

/-- **C151**: an authority that cannot be set up records nothing, not even why. -/
theorem setup_fails {e : PyExc} (h : Authority.init U X c readKey = .error e) (t : Trail) :
    Authority.initLog U X c readKey create st t = .error e t := by
  unfold Authority.initLog
  rw [h]
  rfl

/-- **C151**: one that can be makes three records, then those of `get_engine` (C113), and ends as without records. -/
theorem setup_records (hU : U.Lawful) (hs : c.service.sections.get defaultSect = none) (h : Authority.init U X c readKey = .ok a) :
    ∃ x, EngineTrail U c st "AAUTH".toList x ∧ ∀ t, Authority.initLog U X c readKey create st t =
      match getSession U c create st "AAUTH".toList with
      | (es, .ok e) => .ok (a, es, e) (t ++ (setupRecords a.aauthId a.aUri a.revUrl (bytesRepr (X.exportPub a.key)) ++ x))
      | (_, .error e) => .error e (t ++ (setupRecords a.aauthId a.aUri a.revUrl (bytesRepr (X.exportPub a.key)) ++ x)) := by
  obtain ⟨x, hx, hrun⟩ := engine_records hU c create st "AAUTH".toList hs
  refine ⟨x, hx, fun t => ?_⟩
  unfold Authority.initLog getSession
  rw [h, ← setup_records_eq]
  show (getEngineLog U c create st "AAUTH".toList >>= fun engine => pure (a, engine)) (((t ++ [_]) ++ [_]) ++ [_]) = _
  show EStateM.bind _ _ _ = _
  unfold EStateM.bind
  rw [hrun]
  unfold engineEnd
  rcases getEngine U c create st "AAUTH".toList with ⟨es, e | e⟩ <;> simp [pure, EStateM.pure]

theorem printable_append {s t : Str} (hs : PrintableAscii s) (ht : PrintableAscii t) : PrintableAscii (s ++ t) := fun ch hc =>
  (List.mem_append.1 hc).elim (hs ch) (ht ch)

/-- **C151**: settings that are on one line are recorded on one line, whatever the key. -/
theorem setup_printable (a : Authority X) (h1 : PrintableAscii (a.aauthId.getD [])) (h2 : PrintableAscii (a.aUri.getD []))
    (h3 : PrintableAscii a.revUrl) :
    ∀ r ∈ setupRecords a.aauthId a.aUri a.revUrl (bytesRepr (X.exportPub a.key)), PrintableAscii r.2 := by
  have hn : PrintableAscii "None".toList := by unfold PrintableAscii; decide
  have shown : ∀ v : Option Str, PrintableAscii (v.getD []) → PrintableAscii (v.getD "None".toList) := by
    intro v hv
    cases v with
    | none => exact hn
    | some v => exact hv
  intro r hr
  simp only [setupRecords, List.mem_cons, List.not_mem_nil, or_false] at hr
  rcases hr with rfl | rfl | rfl
  · exact printable_append (printable_append (printable_append (printable_append (printable_append (printable_append
      (printable_append (printable_append (by unfold PrintableAscii; decide +kernel) (shown _ h1))
      (by unfold PrintableAscii; decide)) (shown _ h2)) (by unfold PrintableAscii; decide)) h3)
      (by unfold PrintableAscii; decide)) (bytesRepr_printable _)) (by unfold PrintableAscii; decide +kernel)
  · unfold PrintableAscii; decide +kernel
  · unfold PrintableAscii; decide +kernel

theorem init_same (hU : U.Lawful) (hs : c.service.sections.get defaultSect = none)
    (hs' : c'.service.sections.get defaultSect = none) (h : SameSettings U secretOptions c c') (hk : SameKeys X readKey readKey') :
    (∃ e, Authority.init U X c readKey = .error e ∧ Authority.init U X c' readKey' = .error e) ∨
    ∃ a a', Authority.init U X c readKey = .ok a ∧ Authority.init U X c' readKey' = .ok a' ∧ SamePublic a a' := by
  have conf : ∀ (n : Str), (n.map asciiUpper).map asciiLower ∉ secretOptions →
      n.all isAscii = true ∧ (n.map asciiUpper).all isAscii = true → ∀ sect, getConf U c n true sect = getConf U c' n true sect :=
    fun n hn ha sect => same_conf hU hs hs' h hn ha sect
  have tot := fun (c : Config) (n sect : Str) => (getConf_terminates hU c 0 n true sect).2
  obtain ⟨v1, e1⟩ := tot c' "AAUTH_ID".toList "AAUTH".toList
  obtain ⟨v2, e2⟩ := tot c' "A_URI".toList "AAUTH".toList
  obtain ⟨v3, e3⟩ := tot c' "REV_URI".toList "AAUTH".toList
  obtain ⟨v4, e4⟩ := tot c' "SERVICE_HOST".toList "LADON".toList
  obtain ⟨v5, e5⟩ := tot c' "SERVICE_PORT".toList "LADON".toList
  obtain ⟨v6, e6⟩ := tot c' "AC_EXPIRE_LENGTH".toList "AAUTH".toList
  obtain ⟨v7, e7⟩ := tot c' "KEY_FILE".toList "AAUTH".toList
  obtain ⟨p, ep⟩ := tot c "PASS_PEPPER".toList "AAUTH".toList
  obtain ⟨p', ep'⟩ := tot c' "PASS_PEPPER".toList "AAUTH".toList
  obtain ⟨k, ek⟩ := tot c "KEY_PASS".toList "AAUTH".toList
  obtain ⟨k', ek'⟩ := tot c' "KEY_PASS".toList "AAUTH".toList
  unfold Authority.init
  rw [conf "AAUTH_ID".toList (by decide) (by decide), conf "A_URI".toList (by decide) (by decide),
    conf "REV_URI".toList (by decide) (by decide), conf "SERVICE_HOST".toList (by decide) (by decide),
    conf "SERVICE_PORT".toList (by decide) (by decide), conf "AC_EXPIRE_LENGTH".toList (by decide) (by decide),
    conf "KEY_FILE".toList (by decide) (by decide), e1, e2, e3, e4, e5, e6, e7, ep, ep', ek, ek']
  dsimp only [bind, Except.bind]
  cases revocationUrl U v3 v4 v5 with
  | error e => exact .inl ⟨e, rfl, rfl⟩
  | ok rev =>
    dsimp only
    cases serviceUrl U v4 v5 "/AttributeAuthority/jsonwsp/".toList with
    | error e => exact .inl ⟨e, rfl, rfl⟩
    | ok url =>
      dsimp only
      cases lenOf v6 with
      | error e => exact .inl ⟨e, rfl, rfl⟩
      | ok text =>
        dsimp only
        cases pyIntBase U 10 text with
        | error e => exact .inl ⟨e, rfl, rfl⟩
        | ok n =>
          dsimp only
          have hk := hk v7 k k'
          cases hr : readKey v7 k with
          | error e =>
            rw [hr] at hk
            cases hr' : readKey' v7 k' with
            | error e' =>
              rw [hr'] at hk
              cases hk
              exact .inl ⟨e, rfl, rfl⟩
            | ok y => rw [hr'] at hk; cases hk
          | ok x =>
            rw [hr] at hk
            cases hr' : readKey' v7 k' with
            | error e' => rw [hr'] at hk; cases hk
            | ok y =>
              rw [hr'] at hk
              have hk := Prod.mk.inj (Except.ok.inj hk)
              exact .inr ⟨_, _, rfl, rfl, rfl, rfl, rfl, rfl, rfl, hk.1, hk.2⟩

/-- **C151**: the records do not depend on the pepper, the password of the key file and the private key, nor on the password of
the database unless it is of type MYSQL; nor do the exceptions and the public part of the authority. -/
theorem setup_secrets (hU : U.Lawful) (hs : c.service.sections.get defaultSect = none)
    (hs' : c'.service.sections.get defaultSect = none) (h : SameSettings U secretOptions c c') (hm : NoMysql U c)
    (hk : SameKeys X readKey readKey') (t : Trail) :
    (∃ e t', Authority.initLog U X c readKey create st t = .error e t' ∧
      Authority.initLog U X c' readKey' create st t = .error e t') ∨
    ∃ a a' es e t', Authority.initLog U X c readKey create st t = .ok (a, es, e) t' ∧
      Authority.initLog U X c' readKey' create st t = .ok (a', es, e) t' ∧ SamePublic a a' := by
  rcases init_same hU hs hs' h hk with ⟨e, h1, h2⟩ | ⟨a, a', h1, h2, h3⟩
  · exact .inl ⟨e, t, setup_fails h1 t, setup_fails h2 t⟩
  · obtain ⟨x, _, hrun⟩ := setup_records (create := create) (st := st) hU hs h1
    obtain ⟨y, hy, hrun'⟩ := engine_records hU c create st "AAUTH".toList hs
    have hl := engineLog_same (create := create) hU hs hs' h hm "AAUTH".toList st
    have hm : setupMsg a = setupMsg a' := by
      unfold setupMsg
      rw [h3.aauthId, h3.aUri, h3.revUrl, h3.key]
    unfold Authority.initLog
    rw [h1, h2, ← hl]
    show (∃ e t', (getEngineLog U c create st "AAUTH".toList >>= fun engine => pure (a, engine)) (((t ++ [(10, setupMsg a)]) ++ [_]) ++ [_]) = _ ∧
      (getEngineLog U c create st "AAUTH".toList >>= fun engine => pure (a', engine)) (((t ++ [(10, setupMsg a')]) ++ [_]) ++ [_]) = _) ∨
      ∃ b b' es e t', (getEngineLog U c create st "AAUTH".toList >>= fun engine => pure (a, engine)) (((t ++ [(10, setupMsg a)]) ++ [_]) ++ [_]) = _ ∧
      (getEngineLog U c create st "AAUTH".toList >>= fun engine => pure (a', engine)) (((t ++ [(10, setupMsg a')]) ++ [_]) ++ [_]) = _ ∧ _
    rw [hm]
    simp only [bind, EStateM.bind, hrun']
    unfold engineEnd
    rcases getEngine U c create st "AAUTH".toList with ⟨es, e | e⟩
    · exact .inl ⟨_, _, rfl, rfl⟩
    · exact .inr ⟨a, a', es, e, _, rfl, rfl, h3⟩

/-! ### `info` -/

/-- **C151**: `info` records the address it is asked from, once, before anything that can fail; without an address nothing is
recorded. It ends as without records. -/
theorem info_records (a : Authority X) (exports : Dict Str) (t : Trail) :
    a.infoLog exports t = auditEnd (a.info exports) (t ++ (exports.get "REMOTE_ADDR".toList).toList.map (fun addr =>
      (20, "Info request on AttributeAuthority from ".toList ++ addr ++ ".".toList))) := by
  have hm : ∀ addr : Str, "Info request on AttributeAuthority from ".toList ++ addr ++ ".".toList = infoMsg addr := fun _ => rfl
  simp only [hm]
  unfold Authority.infoLog Authority.info remoteAddr
  cases exports.get "REMOTE_ADDR".toList with
  | none =>
    show _ = EStateM.Result.error _ (t ++ [])
    rw [List.append_nil]
    rfl
  | some addr =>
    show (auditLift (infoAttr "aauth_id" a.aauthId) >>= _) (t ++ [(20, infoMsg addr)]) = _
    rw [audit_bind_lift]
    cases a.aauthId <;> cases a.aUri <;> rfl

/-! ### Examples -/

/-- A service with a database in a file. -/
def fileServiceConfig : Config :=
  ⟨⟨[("service_host".toList, []), ("service_port".toList, "80".toList), ("ac_expire_length".toList, "60".toList),
      ("db_type".toList, "sqlite".toList), ("db_name".toList, "hgaa".toList), ("pass_pepper".toList, "pepper".toList)],
    [("AAUTH".toList, [("aauth_id".toList, "AA".toList), ("a_uri".toList, "/aa".toList)])]⟩, ⟨[], []⟩⟩

/-- The same with another pepper and another password for the key file. -/
def otherSecrets : Config :=
  ⟨⟨(fileServiceConfig.service.defaults.put "pass_pepper".toList "salt".toList).put "key_pass".toList "x".toList,
    fileServiceConfig.service.sections⟩, ⟨[], []⟩⟩

theorem otherSecrets_same : SameSettings asciiUni secretOptions fileServiceConfig otherSecrets := by
  refine same_files (fun k hk => ?_) (fun k hk s => rfl)
  have h1 : "pass_pepper".toList ≠ k := fun h => hk (by rw [← h]; decide)
  have h2 : "key_pass".toList ≠ k := fun h => hk (by rw [← h]; decide)
  unfold otherSecrets
  rw [dict_get_put, if_neg h2, dict_get_put, if_neg h1]

theorem fileService_noMysql : NoMysql asciiUni fileServiceConfig := by
  have hk : asciiUni.lower (asciiUni.upper "DB_TYPE".toList) = "db_type".toList := by decide
  have hsec : ∀ p ∈ fileServiceConfig.service.sections, p.2.get "db_type".toList = none := by decide
  intro sect t h
  unfold Setting at h
  simp only [if_true, hk] at h
  rcases h with ⟨d, x, hd, hx, -⟩ | ⟨-, x, hx, hv⟩ | ⟨-, hx, -⟩
  · rw [hsec _ (dict_mem_of_get hd)] at hx
    cases hx
  · cases hv
    rw [show fileServiceConfig.service.defaults.get "db_type".toList = some "sqlite".toList by decide] at hx
    cases hx
    decide
  · rw [show fileServiceConfig.service.defaults.get "db_type".toList = some "sqlite".toList by decide] at hx
    cases hx

/-- A key of three bytes: a quote is shown as itself, the end of a line is not. -/
example : auditTrail (Authority.initLog asciiUni toyCrypto fileServiceConfig (fun _ _ => .ok ([7, 39, 10], 8)) (fun _ => .ok ())
      {} []) =
    [(10, "Setup AttributeAuthority with following attributes: aauth_id: AA, a_uri: /aa, rev_uri: http://localhost:80/AttributeAuthority/jsonwsp/revocation_list, pub_key: b\"\\x07'\\n\", aa_ver: 1, ac_ver: 1, c_types: [0]".toList),
      (10, "Setting up issuer AC section.".toList), (10, "Setting up database session for AttributeAuthority".toList),
      (20, "Creating sqlite database engine for AAUTH".toList), (10, "Connection string: sqlite:///hgaa.db".toList)] := by
  decide +kernel

/-- Another pepper and another password of the key file leave no trace. -/
example : auditTrail (Authority.initLog asciiUni toyCrypto fileServiceConfig (fun _ _ => .ok ([7, 39, 10], 8)) (fun _ => .ok ())
      {} []) =
    auditTrail (Authority.initLog asciiUni toyCrypto otherSecrets (fun _ _ => .ok ([7, 39, 10], 8)) (fun _ => .ok ()) {} []) := by
  rcases setup_secrets (X := toyCrypto) (create := fun _ => .ok ()) (st := {}) asciiUni_lawful rfl rfl otherSecrets_same
    fileService_noMysql (readKey := fun _ _ => .ok ([7, 39, 10], 8)) (readKey' := fun _ _ => .ok ([7, 39, 10], 8))
    (fun _ _ _ => rfl) [] with
    ⟨e, t, h1, h2⟩ | ⟨_, _, _, _, t, h1, h2, _⟩ <;> rw [h1, h2] <;> rfl

/-- Without a number for `AC_EXPIRE_LENGTH` the authority cannot be set up, and nothing is recorded. -/
example : Authority.initLog asciiUni toyCrypto sampleConfig (fun _ _ => .ok ([7], 8)) (fun _ => .ok ()) {} [] =
    .error .typeError [] := by
  have h : (Authority.init asciiUni toyCrypto sampleConfig (fun _ _ => .ok ([7], 8))).map (fun _ => ()) = .error .typeError := by
    decide +kernel
  cases hi : Authority.init asciiUni toyCrypto sampleConfig (fun _ _ => .ok ([7], 8)) with
  | ok a => rw [hi] at h; cases h
  | error e =>
    rw [hi] at h
    cases h
    exact setup_fails hi []

/-- An authority without a name answers with a fault, after the record. -/
example : ∃ msg, (Authority.mk none (some "/aa".toList) [] [] none 60 [7] 8 : Authority toyCrypto).infoLog (sampleExports "1.2.3.4") [] =
    .error (.serverFault msg) [(20, "Info request on AttributeAuthority from 1.2.3.4.".toList)] := by
  rw [info_records]
  exact ⟨_, rfl⟩

end Verif.Props
