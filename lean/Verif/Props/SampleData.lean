import Verif.Spec.SampleData
import Verif.Props.Tools
import Verif.Props.Shipped
import Verif.Props.EndToEnd
/-!
# The sample data (C141)

What the commands that fill the databases store, and what the services then do, for every earlier content of the databases,
every request and every time. `Tests/SampleCerts.lean` compares with two certificate files of the repository.
-/

namespace Verif.Props

open Proofs Spec

variable {U : Uni} {X : Crypto} {B : Bcrypt} {collate collate' : Str → Str} {a : Authority X} {env : RequestEnv}
  {cred : Credentials} {key : PublicKeyArg} {req : AttributeListArg} {exports exports' : Dict Str} {b : Bytes}
  {c : Config} {create : Str → Except PyExc Unit} {faults : DbFaults} {es : Engines} {e : Engine} {penv : PAEnv}

/-! ### Filling the databases -/

theorem nodup_collate {l m : List Str} (h : TellsApart collate m) (hl : l.Nodup) (hm : ∀ x ∈ l, x ∈ m) : (l.map collate).Nodup :=
  List.Nodup.map_on (fun x hx y hy => h x (hm x hx) y (hm y hy)) hl

theorem sample_keys (h : TellsApart collate sampleTexts) : (aauthSample.map (AARow.key collate)).Nodup := by
  have hsplit : aauthSample.map (AARow.key collate) =
      (aaTablesOf aauthSample).users.map (fun u => Sum.inl u.id) ++
      ((aaTablesOf aauthSample).attributes.map (fun t => Sum.inr (Sum.inl (collate t.id))) ++
      (aaTablesOf aauthSample).assignments.map (fun a => Sum.inr (Sum.inr (a.userId, collate a.attId)))) := rfl
  have hatt : ((aaTablesOf aauthSample).attributes.map (fun t => collate t.id)).Nodup := by
    have := nodup_collate (l := (aaTablesOf aauthSample).attributes.map (fun t => t.id)) h (by decide +kernel) (by decide +kernel)
    rwa [List.map_map] at this
  have hass : ((aaTablesOf aauthSample).assignments.map (fun a => collate a.attId)).Nodup := by
    have := nodup_collate (l := (aaTablesOf aauthSample).assignments.map (fun a => a.attId)) h (by decide +kernel)
      (by decide +kernel)
    rwa [List.map_map] at this
  rw [hsplit]
  refine List.nodup_append.mpr ⟨by decide +kernel, List.nodup_append.mpr ⟨?_, ?_, ?_⟩, ?_⟩
  · have := hatt.map (f := fun x => (Sum.inr (Sum.inl x) : Int ⊕ Str ⊕ Int × Str)) (fun x y h => by cases h; rfl)
    rwa [List.map_map] at this
  · have h1 : ((aaTablesOf aauthSample).assignments.map (fun a => (a.userId, collate a.attId))).Nodup := by
      refine List.Nodup.of_map (f := Prod.snd) ?_
      rw [List.map_map]
      exact hass
    have := h1.map (f := fun x => (Sum.inr (Sum.inr x) : Int ⊕ Str ⊕ Int × Str)) (fun x y h => by cases h; rfl)
    rwa [List.map_map] at this
  · intro x hx y hy hxy
    obtain ⟨_, _, rfl⟩ := List.mem_map.mp hx
    obtain ⟨_, _, rfl⟩ := List.mem_map.mp hy
    cases hxy
  · intro x hx y hy hxy
    obtain ⟨_, _, rfl⟩ := List.mem_map.mp hx
    rcases List.mem_append.mp hy with hy | hy <;> obtain ⟨_, _, rfl⟩ := List.mem_map.mp hy <;> cases hxy

/-- **C141**: filling the database of the attribute authority leaves exactly the sample rows in its tables, whatever was there,
and changes no other database. -/
theorem sample_stored (hU : U.Lawful) (hc : TellsApart collate sampleTexts) {st : Stores AARow}
    (hes : getSession U c create st.engines "AAUTH".toList = (es, .ok (some e))) {l : List (Nat × AARow)}
    (hl : l.map Prod.snd = aauthSample) (hd : (l.map Prod.fst).Nodup) (hn : ∀ x ∈ l, x.1 ∉ st.saved)
    (hw : faults.wipe = none) (ha : faults.add = none) :
    ∃ st', populateDb U (aaTables collate) c create faults st "AAUTH".toList l true false = (st', .ok ()) ∧
      st'.rows e.place = aauthSample ∧ ∀ p, p ≠ e.place → st'.rows p = st.rows p := by
  have hlow : U.lower "AAUTH".toList = "aauth".toList := by
    rw [hU.lower_ascii _ (by decide)]
    decide
  have hk : keptRows (aaTables collate) (U.lower "AAUTH".toList) true (st.rows e.place) = [] := by
    unfold keptRows
    rw [if_pos rfl, hlow]
    exact List.filter_eq_nil_iff.mpr (fun r _ h => of_decide_eq_true h rfl)
  have h := populate_first (T := aaTables collate) (faults := faults) (name := "AAUTH".toList) (useTest := false)
    (wipeFirst := true) hes hn hd (st' := ⟨es, fun p => if p = e.place then aauthSample else st.rows p, l.map Prod.fst ++ st.saved⟩)
    (fun _ => ⟨by rw [hlow]; decide, hw⟩) ha
  rw [hk, hl] at h
  refine ⟨_, h.mpr ⟨⟨sample_keys hc, fun r _ s hs => by cases hs⟩, rfl, rfl, fun p hp => if_neg hp, if_pos rfl⟩, if_pos rfl,
    fun p hp => if_neg hp⟩

theorem sample_pkeys (h : TellsApart collate samplePTexts) : (pauthSample.map (PARow.key collate)).Nodup := by
  have hnd := nodup_collate (l := samplePTexts) h (by decide +kernel) (fun _ h => h)
  have : (pauthSample.map (PARow.key collate)).map (fun k => k.2.1) = samplePTexts.map collate := by
    rfl
  rw [← this] at hnd
  exact hnd.of_map

/-- **C141**: filling the database of the policy authority leaves exactly the sample rows, so that no certificate is stored and no
session open. -/
theorem sample_pstored (hU : U.Lawful) (hc : TellsApart collate samplePTexts) {st : Stores PARow}
    (hes : getSession U c create st.engines "PAUTH".toList = (es, .ok (some e))) {l : List (Nat × PARow)}
    (hl : l.map Prod.snd = pauthSample) (hd : (l.map Prod.fst).Nodup) (hn : ∀ x ∈ l, x.1 ∉ st.saved)
    (hw : faults.wipe = none) (ha : faults.add = none) :
    ∃ st', populateDb U (paTables collate) c create faults st "PAUTH".toList l true false = (st', .ok ()) ∧
      st'.rows e.place = pauthSample ∧ (paTablesOf (st'.rows e.place)).sessions = [] ∧
      (paTablesOf (st'.rows e.place)).certs = [] ∧ ∀ p, p ≠ e.place → st'.rows p = st.rows p := by
  have hlow : U.lower "PAUTH".toList = "pauth".toList := by
    rw [hU.lower_ascii _ (by decide)]
    decide
  have hk : keptRows (paTables collate) (U.lower "PAUTH".toList) true (st.rows e.place) = [] := by
    unfold keptRows
    rw [if_pos rfl, hlow]
    exact List.filter_eq_nil_iff.mpr (fun r _ h => of_decide_eq_true h rfl)
  have h := populate_first (T := paTables collate) (faults := faults) (name := "PAUTH".toList) (useTest := false)
    (wipeFirst := true) hes hn hd (st' := ⟨es, fun p => if p = e.place then pauthSample else st.rows p, l.map Prod.fst ++ st.saved⟩)
    (fun _ => ⟨by rw [hlow]; decide, hw⟩) ha
  rw [hk, hl] at h
  refine ⟨_, h.mpr ⟨⟨sample_pkeys hc, fun r _ s hs => by cases hs⟩, rfl, rfl, fun p hp => if_neg hp, if_pos rfl⟩, if_pos rfl,
    ?_, ?_, fun p hp => if_neg hp⟩ <;>
  · dsimp only
    rw [if_pos rfl]
    rfl

/-! ### Users and their attributes -/

/-- **C141**: a name belongs to a user if the database takes it for one of the seven names. -/
theorem sample_user (hc : TellsApart collate sampleTexts) {name : Str} {u : DbUser} :
    UserNamed collate (aaTablesOf aauthSample) name u ↔
      u ∈ (aaTablesOf aauthSample).users ∧ collate u.username = collate name := by
  have hnd : ((aaTablesOf aauthSample).users.map (fun u => u.username)).Nodup := by decide +kernel
  have hin : ∀ u ∈ (aaTablesOf aauthSample).users, u.username ∈ sampleTexts := by decide +kernel
  constructor
  · rintro ⟨l, m, h, h1, _⟩
    exact ⟨h ▸ List.mem_append_right _ List.mem_cons_self, h1⟩
  · rintro ⟨hu, h1⟩
    obtain ⟨l, m, h⟩ := List.append_of_mem hu
    refine ⟨l, m, h, h1, fun v hv hvn => ?_⟩
    have hv' : v ∈ (aaTablesOf aauthSample).users := h ▸ List.mem_append_left _ hv
    have heq := hc _ (hin v hv') _ (hin u hu) (hvn.trans h1.symm)
    rw [h, List.map_append, List.map_cons] at hnd
    exact (List.nodup_append.mp hnd).2.2 _ (List.mem_map_of_mem hv) _ List.mem_cons_self heq

theorem sample_names : (aaTablesOf aauthSample).users.map (fun u => (u.id, u.username)) = sampleUsers := by decide +kernel

theorem userAttributes_id {db : AAuthDb} {m : List Str} (h : TellsApart collate m) (h1 : ∀ t ∈ db.attributes, t.id ∈ m)
    (h2 : ∀ t ∈ db.assignments, t.attId ∈ m) (n : Int) : db.userAttributes collate n = db.userAttributes id n := by
  unfold AAuthDb.userAttributes
  refine List.flatMap_congr (fun x hx => ?_)
  congr 1
  refine List.filter_congr (fun t ht => ?_)
  have hx' := h2 x (List.mem_of_mem_filter hx)
  exact decide_eq_decide.mpr ⟨fun he => h _ (h1 t ht) _ hx' he, fun he => congrArg collate he⟩

/-- **C141**: the attributes of the users: the first has six, the others have none. -/
theorem sample_assigned (hc : TellsApart collate sampleTexts) (n : Int) :
    ((aaTablesOf aauthSample).userAttributes collate n).map certified = if n = 1 then danCertified else [] := by
  rw [userAttributes_id hc (by decide +kernel) (by decide +kernel)]
  split
  · rename_i h
    subst h
    decide +kernel
  · rename_i h
    have : (aaTablesOf aauthSample).assignments.filter (fun a => decide (a.userId = n)) = [] := by
      refine List.filter_eq_nil_iff.mpr (fun x hx hn => h ?_)
      have h1 : ∀ a ∈ (aaTablesOf aauthSample).assignments, a.userId = 1 := by decide +kernel
      exact (of_decide_eq_true hn).symm.trans (h1 x hx)
    unfold AAuthDb.userAttributes
    rw [this]
    rfl

theorem sample_primary (hc : TellsApart collate sampleTexts) : PrimaryKeys collate (aaTablesOf aauthSample) := by
  have h1 := nodup_collate (l := (aaTablesOf aauthSample).attributes.map (fun t => t.id)) hc (by decide +kernel) (by decide +kernel)
  have h2 := nodup_collate (l := (aaTablesOf aauthSample).assignments.map (fun t => t.attId)) hc (by decide +kernel)
    (by decide +kernel)
  rw [List.map_map] at h1 h2
  refine ⟨h1, List.Nodup.of_map (f := Prod.snd) ?_⟩
  rw [List.map_map]
  exact h2

/-- **C141**: what a request for attributes of the first user gives: the attributes it names, by id or name, or all; a request of
any other user gives none, and is refused if it names any. -/
theorem sample_selected (hc : TellsApart collate sampleTexts) {n : Int} {names ids : List (Option Str)} {sel : Dict UserAtt}
    (h : selectAtts ((aaTablesOf aauthSample).userAttributes collate n) ⟨some names, some ids⟩ = .ok sel) :
    (n ≠ 1 → (sel.map Prod.snd).map certified = [] ∧ wanted ids = [] ∧ wanted names = []) ∧
    (n = 1 → wanted ids = [] → wanted names = [] → (sel.map Prod.snd).map certified = danCertified) ∧
    (n = 1 → ∀ x, x ∈ (sel.map Prod.snd).map certified ↔ x ∈ danCertified ∧ (wanted ids = [] ∧ wanted names = [] ∨
      x.id ∈ wanted ids ∨ ∃ m ∈ wanted names, x.name = some m)) := by
  have hcert := sample_assigned hc n
  have hnd := userAttributes_nodup (sample_primary hc) n
  obtain ⟨_, hav, hmem⟩ := (selection _ hnd ids names).1 sel h
  refine ⟨fun hn => ?_, fun hn h1 h2 => ?_, fun hn x => ?_⟩
  · rw [if_neg hn] at hcert
    have hnil := List.map_eq_nil_iff.mp hcert
    rw [hnil] at hav hmem
    refine ⟨?_, List.eq_nil_iff_forall_not_mem.mpr (fun i hi => ?_), List.eq_nil_iff_forall_not_mem.mpr (fun i hi => ?_)⟩
    · rw [List.map_eq_nil_iff]
      exact List.eq_nil_iff_forall_not_mem.mpr (fun x hx => by cases ((hmem x).mp hx).1)
    · obtain ⟨_, hx, _⟩ := hav.1 i hi
      cases hx
    · obtain ⟨_, hx, _⟩ := hav.2 i hi
      cases hx
  · obtain ⟨d, hd, he⟩ := selection_all _ hnd ids names h1 h2
    rw [h] at hd
    cases hd
    rw [he, hcert, if_pos hn]
  · rw [if_pos hn] at hcert
    have hid := userAttributes_id (db := aaTablesOf aauthSample) hc (by decide +kernel) (by decide +kernel) n
    have hfacts : ∀ y ∈ (aaTablesOf aauthSample).userAttributes id 1,
        (certified y).id = y.att.id ∧ (certified y).name = some y.att.name := by decide +kernel
    have hnames : (((aaTablesOf aauthSample).userAttributes id 1).map (fun y => y.att.name)).Nodup := by decide +kernel
    subst hn
    rw [hid] at hmem hcert
    rw [← hcert]
    have hnamed : ∀ m y, Named ((aaTablesOf aauthSample).userAttributes id 1) m y ↔
        y ∈ (aaTablesOf aauthSample).userAttributes id 1 ∧ y.att.name = m := by
      intro m y
      constructor
      · rintro ⟨l, r, he, hm, _⟩
        exact ⟨he ▸ List.mem_append_right _ List.mem_cons_self, hm⟩
      · rintro ⟨hy, hm⟩
        obtain ⟨l, r, he⟩ := List.append_of_mem hy
        refine ⟨l, r, he, hm, fun z hz hzm => ?_⟩
        rw [he, List.map_append, List.map_cons] at hnames
        have := (List.nodup_cons.mp (List.nodup_append.mp hnames).2.1).1
        exact this (hm ▸ hzm ▸ List.mem_map_of_mem hz)
    constructor
    · intro hx
      obtain ⟨y, hy, rfl⟩ := List.mem_map.mp hx
      obtain ⟨hy1, hy2⟩ := (hmem y).mp hy
      refine ⟨List.mem_map_of_mem hy1, ?_⟩
      rw [(hfacts y hy1).1, (hfacts y hy1).2]
      rcases hy2 with h | h | ⟨m, hm, h⟩
      · exact .inl h
      · exact .inr (.inl h)
      · exact .inr (.inr ⟨m, hm, congrArg some ((hnamed m y).mp h).2⟩)
    · rintro ⟨hx, hx2⟩
      obtain ⟨y, hy, rfl⟩ := List.mem_map.mp hx
      rw [(hfacts y hy).1, (hfacts y hy).2] at hx2
      refine List.mem_map_of_mem ((hmem y).mpr ⟨hy, ?_⟩)
      rcases hx2 with h | h | ⟨m, hm, h⟩
      · exact .inl h
      · exact .inr (.inl h)
      · exact .inr (.inr ⟨m, hm, (hnamed m y).mpr ⟨hy, Option.some.inj h⟩⟩)

/-! ### Certificates -/

/-- What a request brings with it is ASCII. -/
structure AsciiRequest (env : RequestEnv) (cred : Credentials) (key : PublicKeyArg) (exports : Dict Str) : Prop where
  username : AsciiOpt cred.username
  cipher : Ascii key.cipher
  exports : ∀ n, AsciiOpt (exports.get n)
  weekday : Ascii env.con.weekdayName
  month : Ascii env.con.monthName

theorem sample_inputs (hU : U.Lawful) (hl : ∀ m, U.intLimit = some m → 4 ≤ m)
    {readKey : Option Str → Option Str → Except PyExc (X.PrivKey × Int)}
    (ha : Authority.init U X shippedConfig readKey = .ok a) (hr : AsciiRequest env cred key exports) :
    AsciiInputs a (aaTablesOf aauthSample) env cred key exports ∧ a.aUri = some sampleUid ∧ a.expire = 3600 ∧
      a.pepper = some "PUTYOURPEPPERHERE".toList := by
  rw [shipped_aauth hU hl] at ha
  cases hk : readKey (some "keys/aauth_rsa_key.bin".toList) (some "PUTYOURPASSWORDHERE".toList) with
  | error x => rw [hk] at ha; cases ha
  | ok k =>
    rw [hk] at ha
    cases ha
    have hopt : ∀ s : String, s.toList.all isAscii = true → AsciiOpt (some s.toList) := fun s hs t ht => by
      cases ht
      exact ascii_of_all hs
    have hrev : Ascii "http://localhost:8888/AttributeAuthority/jsonwsp/revocation_list".toList := ascii_of_all (by decide)
    have hurl : Ascii "http://localhost:8888/AttributeAuthority/jsonwsp/".toList := ascii_of_all (by decide)
    have huid : some "hgabac://localhost:8888".toList = some sampleUid := by decide
    refine ⟨⟨hopt _ (by decide), hopt _ (by decide), hrev, hurl, hr.username,
      hr.cipher, hr.exports, hr.weekday, hr.month, ?_, ?_⟩, huid, rfl, rfl⟩
    · have : ∀ t ∈ (aaTablesOf aauthSample).attributes, t.id.all isAscii = true ∧ t.name.all isAscii = true := by decide +kernel
      exact fun t ht => ⟨ascii_of_all (this t ht).1, ascii_of_all (this t ht).2⟩
    · have : ∀ t ∈ (aaTablesOf aauthSample).assignments, (t.value.getD []).all isAscii = true := by decide +kernel
      intro t ht s hs
      have := this t ht
      rw [Option.mem_def.mp hs] at this
      exact ascii_of_all this

/-- **C141**: the certificates the shipped attribute authority issues from the sample data. -/
theorem sample_issued (hU : U.Lawful) (hX : X.Lawful) (hl : ∀ m, U.intLimit = some m → 4 ≤ m)
    {readKey : Option Str → Option Str → Except PyExc (X.PrivKey × Int)}
    (ha : Authority.init U X shippedConfig readKey = .ok a) (hr : AsciiRequest env cred key exports)
    (hc : TellsApart collate sampleTexts) {names ids : List (Option Str)}
    (h : a.issue U B collate (aaTablesOf aauthSample) env cred key ⟨some names, some ids⟩ exports = .ok b) :
    ∃ username user cert atts rows, cred.username = some username ∧ user ∈ (aaTablesOf aauthSample).users ∧
      (user.id, user.username) ∈ sampleUsers ∧ collate user.username = collate (U.lower username) ∧
      B.checkpw (utf8 (cred.password.getD "None".toList ++ "PUTYOURPEPPERHERE".toList)) (utf8 user.password) = .ok true ∧
      AttCert.decode X b true = .ok (cert, []) ∧ cert.issuer.map (·.uid) = some sampleUid ∧
      cert.holder.uid = sampleUid ++ "/user/".toList ++ username ∧
      ConnectionRows U a key exports env.con 0 env.random rows ∧
      cert.attSet = some (atts ++ rows.map Row.certified) ∧
      (user.id ≠ 1 → atts = [] ∧ wanted ids = [] ∧ wanted names = []) ∧
      (user.id = 1 → wanted ids = [] → wanted names = [] → atts = danCertified) ∧
      (user.id = 1 → ∀ x, x ∈ atts ↔ x ∈ danCertified ∧ (wanted ids = [] ∧ wanted names = [] ∨
        x.id ∈ wanted ids ∨ ∃ m ∈ wanted names, x.name = some m)) := by
  obtain ⟨hin, huri, hexp, hpep⟩ := sample_inputs hU hl ha hr
  obtain ⟨username, user, sel, uri, rows, body, sig, h1, h2, h3, h4, h5, h6, _, _, hd⟩ := issued_certificate hU hX hin h
  rw [huri] at h5
  cases h5
  obtain ⟨hu, hn⟩ := (sample_user hc).mp h2
  have hs := sample_selected hc h4
  have hrows : ∀ r ∈ rows, r.1 ≠ [] := connection_names h6
  obtain ⟨p1, p2, _, p4, _⟩ := issued_parts (a := a) (env := env) (key := key) sampleUid username (sel.map Prod.snd) rows hrows
  refine ⟨username, user, _, _, rows, h1, hu, ?_, hn, ?_, hd, ?_, ?_, h6, p4, hs.1, hs.2.1, hs.2.2⟩
  · rw [← sample_names]
    exact List.mem_map_of_mem (f := fun u : DbUser => (u.id, u.username)) hu
  · unfold Peppered at h3
    rw [hpep] at h3
    exact h3
  · exact congrArg (Option.map (·.uid)) p1
  · exact congrArg (·.uid) p2

/-! ### Sessions and policies -/

/-- **C141**: the sample policy authority trusts exactly the authority with the uid of the shipped attribute authority. -/
theorem sample_trusted (uid : Str) : Trusted (paTablesOf pauthSample) uid ↔ uid = sampleUid := by
  have h : (paTablesOf pauthSample).authorities.map (fun r => (r.uid, decide (0 < r.trustLevel))) = [(sampleUid, true)] := by
    decide +kernel
  constructor
  · rintro ⟨r, hr, rfl, _⟩
    have := List.mem_map_of_mem (f := fun r : PAAuthority => (r.uid, decide (0 < r.trustLevel))) hr
    rw [h, List.mem_singleton] at this
    exact congrArg Prod.fst this
  · rintro rfl
    obtain ⟨r, hr, he⟩ := List.mem_map.mp (h ▸ List.mem_singleton_self (sampleUid, true))
    exact ⟨r, hr, congrArg Prod.fst he, of_decide_eq_true (congrArg Prod.snd he)⟩

/-- **C141**: certificates issued from the sample data start sessions at the sample policy authority during the hour for which they
are valid, with whatever key they are signed: the key in the sample data is not looked at. -/
theorem sample_session (hU : U.Lawful) (hX : X.Lawful) (hl : ∀ m, U.intLimit = some m → 4 ≤ m)
    {readKey : Option Str → Option Str → Except PyExc (X.PrivKey × Int)}
    (ha : Authority.init U X shippedConfig readKey = .ok a) (hr : AsciiRequest env cred key exports)
    (h : a.issue U B collate (aaTablesOf aauthSample) env cred key req exports = .ok b)
    (hran : penv.random < 2 ^ 160) (hnow : env.now < penv.clock 0 ∧ penv.clock 0 < env.now + 3600)
    (hfault : penv.commitFault = none) {addr uid : Str} (haddr : exports'.get "REMOTE_ADDR".toList = some addr) {raw : RawCert}
    (hraw : raw = ⟨b, 1, 0⟩ ∨ raw = ⟨b64encode b, 1, 3⟩) :
    ∃ pdb', startSession X collate' (paTablesOf pauthSample) penv (some uid) (some [raw]) exports' =
      (pdb', .ok ⟨penv.random, penv.now, min (env.now + 3600) (penv.now + 86400)⟩) := by
  obtain ⟨hin, huri, hexp, _⟩ := sample_inputs hU hl ha hr
  have hkeys : PAKeys collate' (paTablesOf pauthSample) :=
    ⟨List.nodup_singleton _, List.nodup_nil, List.nodup_nil, List.nodup_nil⟩
  obtain ⟨pdb', hs, _⟩ := issued_session (collate' := collate') (pdb := paTablesOf pauthSample) (penv := penv) (uid := uid)
    (raw := raw) hU hX hin h huri hkeys hran ((sample_trusted _).mpr rfl) (by rw [hexp]; exact hnow)
    (fun x hx => by cases hx) (fun x hx => by cases hx) (fun x hx => by cases hx) hfault haddr hraw
  rw [hexp] at hs
  exact ⟨pdb', hs⟩

/-- **C141**: certificates of other authorities start none. -/
theorem sample_refused {raws : List RawCert} {pdb' : PAuthDb} {r : SessionReturn} (hran : penv.random < 2 ^ 160)
    {serviceUid : Option Str}
    (h : startSession X collate' (paTablesOf pauthSample) penv serviceUid (some raws) exports' = (pdb', .ok r)) :
    ∀ raw ∈ raws, ∃ cert i, cert.issuer = some i ∧ i.uid = sampleUid ∧ cert.verifySignature X = .ok true ∧
      ∃ bs, SentBytes raw bs ∧ CertWire cert bs := by
  have hkeys : PAKeys collate' (paTablesOf pauthSample) :=
    ⟨List.nodup_singleton _, List.nodup_nil, List.nodup_nil, List.nodup_nil⟩
  obtain ⟨_, cs, he, _, hs⟩ := (start_iff hkeys hran (some raws)).mp (start_split.mp h)
  cases he
  intro raw hraw
  obtain ⟨i, hi⟩ := List.mem_iff_getElem?.mp hraw
  have hz : (raw, i) ∈ raws.zipIdx := List.mem_zipIdx_iff_getElem?.mpr hi
  obtain ⟨cert, _, hacc⟩ := forall₂_left hs.accepted hz
  obtain ⟨iss, hiss, ht⟩ := hacc.trusted
  exact ⟨cert, iss, hiss, (sample_trusted _).mp ht, hacc.verified, hacc.sent⟩

/-- The database only takes texts for equal that differ in nothing but ASCII case. -/
def CaseOnly (collate : Str → Str) : Prop := ∀ s t, collate s = collate t → s.map asciiLower = t.map asciiLower

/-- **C141**: the sample policies are stored under another scheme than the uid of the authority: asking for a policy of the
authority by its uid always fails. -/
theorem sample_policies_unknown (hc : CaseOnly collate) {db : PAuthDb} (hdb : db.policies = (paTablesOf pauthSample).policies)
    (n : Str) (s : Option (Option Str)) (o : Option (List ObjectAtt)) :
    policyText collate db ⟨some (some (sampleUid ++ n)), s, o⟩ exports =
      .error (clientFaultLogged exports "Unknown policy uid.") := by
  have hne : ∀ p ∈ (paTablesOf pauthSample).policies, (p.uid.map asciiLower).take 5 ≠ ((sampleUid.take 5).map asciiLower) := by
    decide +kernel
  have : ¬ (db.sessions ≠ [] ∧ ∃ p ∈ db.policies, collate p.uid = collate (sampleUid ++ n)) := by
    rintro ⟨_, p, hp, he⟩
    refine hne p (hdb ▸ hp) ?_
    rw [hc _ _ he, ← List.map_take]
    rfl
  show (if db.sessions ≠ [] ∧ (∃ p ∈ db.policies, collate p.uid = collate (sampleUid ++ n)) then
      (Except.error .attributeError : Except PyExc Str) else .error (clientFaultLogged exports "Unknown policy uid.")) = _
  rw [if_neg this]

/-! ### Concrete cases -/

/-- Texts compared as they are, and without regard to case. -/
example : TellsApart id sampleTexts ∧ TellsApart id samplePTexts ∧ CaseOnly id :=
  ⟨fun _ _ _ _ h => h, fun _ _ _ _ h => h, fun _ _ h => congrArg _ h⟩
example : TellsApart (List.map asciiLower) sampleTexts := by unfold TellsApart; decide +kernel
example : TellsApart (List.map asciiLower) samplePTexts := by unfold TellsApart; decide +kernel
example : CaseOnly (List.map asciiLower) := fun _ _ h => h
/-- Passwords that bcrypt always accepts, and never. -/
def anyBcrypt (good : Bool) : Bcrypt := ⟨fun _ _ => .ok good, fun x _ => .ok x⟩

/-- A request to the shipped authority with the sample data. -/
def sampleRequest (good : Bool) (name : String) (names : List (Option Str)) : Except PyExc Bytes := do
  let a ← Authority.init asciiUni toyCrypto shippedConfig (fun _ _ => .ok ([7], 2048))
  a.issue asciiUni (anyBcrypt good) id (aaTablesOf aauthSample) sampleRequestEnv (sampleCred name (some "admin".toList)) sampleKey
    ⟨some names, some []⟩ (sampleExports "127.0.0.1")

/-- Dan, in whatever case, gets a certificate for everything and for the age; Jess only for nothing in particular; others, and those
with a wrong password, get none. -/
example : Issued (sampleRequest true "Dan" []) = true ∧ Issued (sampleRequest true "dan" [some "age".toList]) = true ∧
    Issued (sampleRequest true "jess" []) = true ∧ Issued (sampleRequest true "jess" [some "age".toList]) = false ∧
    Issued (sampleRequest true "mallory" []) = false ∧ Issued (sampleRequest false "dan" []) = false := by decide +kernel
example : AsciiRequest sampleRequestEnv (sampleCred "Dan" (some "admin".toList)) sampleKey (sampleExports "127.0.0.1") := by
  have h := sample_ascii "127.0.0.1" (ascii_of_all (by decide)) "Dan" (ascii_of_all (by decide)) (some "admin".toList)
  exact ⟨h.username, h.cipher, h.exports, h.weekday, h.month⟩

/-- The policies can be checked. -/
example : ∀ p ∈ (paTablesOf pauthSample).policies,
    policyCheck asciiUni (fun _ => ⟨.unknown, .int, .set [], [], []⟩) 0 0 (fun _ => "") [] p.policy = .ok () := by decide +kernel
/-- Under the scheme they are stored with, the policies are found as soon as there is a session, and cannot be read. -/
example : policyText id { paTablesOf pauthSample with sessions := [⟨[], 0, 0, 0, [], [], 0⟩] }
    ⟨some (some "hgabc://localhost:8888/policy/p1".toList), none, none⟩ [] = .error .attributeError := by decide +kernel

end Verif.Props
