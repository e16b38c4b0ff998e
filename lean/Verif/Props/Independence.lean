import Verif.Spec.Independence
import Verif.Props.Sizes
/-!
# What issued certificates do not depend on, and what their holders choose (C154)
-/

namespace Verif.Props

open Proofs Spec

variable {U : Uni} {X : Crypto} {B : Bcrypt} {collate : Str → Str} {a a' : Authority X} {env : RequestEnv}
  {cred cred' : Credentials} {key key' : PublicKeyArg} {req req' : AttributeListArg} {exports : Dict Str} {b : Bytes}
  {db db' : AAuthDb}

/-! ### Other users -/

theorem find_filter {α : Type} (p : α → Bool) : ∀ l : List α, l.find? p = (l.filter p).head?
  | [] => rfl
  | x :: l => by
    rw [List.find?_cons, List.filter_cons]
    cases h : p x
    · exact find_filter p l
    · rfl

theorem findUser_same {name : Str} (h : SameFor collate name db db') :
    db.findUser collate name = db'.findUser collate name := by
  unfold AAuthDb.findUser
  rw [find_filter, find_filter, h.users]

theorem userAttributes_same {name : Str} {u : DbUser} (h : SameFor collate name db db') (hu : u ∈ db.users)
    (hn : collate u.username = collate name) : db.userAttributes collate u.id = db'.userAttributes collate u.id := by
  unfold AAuthDb.userAttributes
  rw [← h.assignments u hu hn]
  refine List.flatMap_congr fun x hx => ?_
  obtain ⟨hx, hi⟩ := List.mem_filter.mp hx
  rw [h.attributes u hu hn x hx (of_decide_eq_true hi)]

/-- **C154**: the answer, a certificate or an error, depends on the database only as far as it is about the users with the name
in the request. -/
theorem others_irrelevant (h : ∀ username, cred.username = some username → SameFor collate (U.lower username) db db') :
    a.issue U B collate db env cred key req exports = a.issue U B collate db' env cred key req exports := by
  unfold Authority.issue
  cases hn : cred.username with
  | none => rfl
  | some username =>
    have hs := h username hn
    have hf := findUser_same hs
    dsimp only [Option.elim]
    cases hu : db.findUser collate (U.lower username) with
    | none =>
      rw [hu] at hf
      simp only [bind, Except.bind, hu, ← hf]
    | some u =>
      rw [hu] at hf
      obtain ⟨before, after, hm, hc, -⟩ := findUser_iff.mp hu
      have hx := userAttributes_same hs (u := u) (by rw [hm]; simp) hc
      simp only [bind, Except.bind, hu, ← hf, hx]

/-- **C154**: the same for the files and the response. -/
theorem others_irrelevant_response {acDir : Str} {files : Files}
    (h : ∀ username, cred.username = some username → SameFor collate (U.lower username) db db') :
    a.attributeRequest U B collate acDir db files env cred key req exports =
      a.attributeRequest U B collate acDir db' files env cred key req exports := by
  unfold Authority.attributeRequest
  rw [others_irrelevant h]

/-- **C154**: users with other names, what is assigned to others, and attributes not assigned to the user can be added before and
after the rows there are. -/
theorem rows_added {name : Str} {us us' : List DbUser} {ts ts' : List DbAttribute} {xs xs' : List DbAssignment}
    (hu : ∀ u ∈ us ++ us', collate u.username ≠ collate name)
    (hx : ∀ u ∈ db.users, collate u.username = collate name → ∀ x ∈ xs ++ xs', x.userId ≠ u.id)
    (ht : ∀ u ∈ db.users, collate u.username = collate name → ∀ x ∈ db.assignments, x.userId = u.id →
      ∀ t ∈ ts ++ ts', collate t.id ≠ collate x.attId) :
    SameFor collate name db ⟨us ++ db.users ++ us', ts ++ db.attributes ++ ts', xs ++ db.assignments ++ xs'⟩ := by
  have key : ∀ {α : Type} (p : α → Bool) (l m r : List α), (∀ x ∈ l ++ r, p x = false) →
      m.filter p = (l ++ m ++ r).filter p := by
    intro α p l m r h
    have h1 : l.filter p = [] := List.filter_eq_nil_iff.mpr fun x hx => by simp [h x (List.mem_append_left _ hx)]
    have h2 : r.filter p = [] := List.filter_eq_nil_iff.mpr fun x hx => by simp [h x (List.mem_append_right _ hx)]
    rw [List.filter_append, List.filter_append, h1, h2, List.append_nil, List.nil_append]
  refine ⟨key _ _ _ _ fun u h => decide_eq_false (hu u h), fun u h1 h2 => key _ _ _ _ fun x h => decide_eq_false (hx u h1 h2 x h),
    fun u h1 h2 x h3 h4 => key _ _ _ _ fun t h => decide_eq_false (ht u h1 h2 x h3 h4 t h)⟩

/-! ### Without the password -/

/-- **C154**: who does not know the password learns nothing: whatever the database holds and whatever is asked for, with any key,
the answer is the same. -/
theorem nothing_learned {addr username username' : Str} (haddr : exports.get "REMOTE_ADDR".toList = some addr)
    (ht : cred.type = 0) (ht' : cred'.type = 0) (hn : cred.username = some username) (hn' : cred'.username = some username')
    (h : TurnedAway U B collate db env.debug username (Peppered a cred))
    (h' : TurnedAway U B collate db' env.debug username' (Peppered a' cred')) :
    a.issue U B collate db env cred key req exports = a'.issue U B collate db' env cred' key' req' exports := by
  rw [invalid_credentials haddr ht hn h, invalid_credentials haddr ht' hn' h']

/-! ### Passwords -/

/-- Authorities that differ at most in the pepper. -/
theorem issue_peppered (p : Option Str) (hun : cred.username = cred'.username) (ht : cred.type = cred'.type)
    (h : ∀ s, B.checkpw (Peppered a cred) s = B.checkpw (Peppered { a with pepper := p } cred') s ∧
      B.hashpw (Peppered a cred) s = B.hashpw (Peppered { a with pepper := p } cred') s) :
    a.issue U B collate db env cred key req exports =
      Authority.issue U B collate { a with pepper := p } db env cred' key req exports := by
  have hc : ∀ s, B.checkpw (utf8 (showOpt cred.password ++ showOpt a.pepper)) s =
      B.checkpw (utf8 (showOpt cred'.password ++ showOpt p)) s := fun s => (h s).1
  have hh : ∀ s, B.hashpw (utf8 (showOpt cred.password ++ showOpt a.pepper)) s =
      B.hashpw (utf8 (showOpt cred'.password ++ showOpt p)) s := fun s => (h s).2
  unfold Authority.issue debugHash
  simp only [hc, hh, hun, ht]
  rfl

/-- **C154**: only the password followed by the pepper counts, not where one ends and the other begins. -/
theorem joined_only (p : Option Str) (hun : cred.username = cred'.username) (ht : cred.type = cred'.type)
    (h : Peppered a cred = Peppered { a with pepper := p } cred') :
    a.issue U B collate db env cred key req exports =
      Authority.issue U B collate { a with pepper := p } db env cred' key req exports :=
  issue_peppered p hun ht fun s => by rw [h]; exact ⟨rfl, rfl⟩

/-- **C154**: if bcrypt reads 72 bytes, of a password that long neither the rest nor the pepper counts. -/
theorem long_password (hB : Counts72 B) (p : Option Str) (hun : cred.username = cred'.username) (ht : cred.type = cred'.type)
    {w w' : Str} (hw : cred.password = some w) (hw' : cred'.password = some w') (h1 : 72 ≤ (utf8 w).length)
    (h2 : 72 ≤ (utf8 w').length) (h : (utf8 w).take 72 = (utf8 w').take 72) (h3 : 0 ∉ Peppered a cred)
    (h4 : 0 ∉ Peppered { a with pepper := p } cred') :
    a.issue U B collate db env cred key req exports =
      Authority.issue U B collate { a with pepper := p } db env cred' key req exports := by
  refine issue_peppered p hun ht fun s => hB _ _ s h3 h4 ?_
  unfold Peppered
  rw [hw, hw', Option.getD_some, Option.getD_some, utf8_append, utf8_append, List.take_append_of_le_length h1,
    List.take_append_of_le_length h2, h]

/-! ### The key of the client -/

/-- The rows that are not about the key of the client. -/
theorem otherRows_key (con : ConTime) (c s : Int) : otherRows a key con c s =
    ("auth_method".toList, .int, decimal c) :: ("pub_key".toList, .string, b64Text key.publicKey) ::
      ("pub_key_size".toList, .int, decimal key.keySize) :: ("pub_key_algo".toList, .string, key.cipher) ::
      (otherRows a key' con c s).drop 4 := rfl

theorem otherRows_length (con : ConTime) (c s : Int) : (otherRows a key con c s).length = (otherRows a key' con c s).length := by
  rw [otherRows_key (key' := key'), otherRows_key (key := key') (key' := key')]
  rfl

theorem b64Text_fits (l : Bytes) : (b64Text l).length < 65536 ↔ l.length ≤ 49149 := by
  rw [b64Text, List.length_map, b64encode_length]
  omega

/-- The parts of an issued certificate fit also with another key, if that fits. -/
theorem issuedFits_key {uri username : Str} {atts : List UserAtt} {addr : List Row} {con : ConTime} {c s : Int}
    (h : IssuedFits a uri env username key atts (remoteRows exports ++ addr ++ otherRows a key con c s)) :
    IssuedFits a uri env username key' atts (remoteRows exports ++ addr ++ otherRows a key' con c s) ↔ KeyFits key' := by
  constructor
  · intro h'
    refine ⟨(b64Text_fits _).mp (h'.rowTexts ("pub_key".toList, .string, b64Text key'.publicKey) ?_).2, ?_⟩
    · refine List.mem_append_right _ ?_
      rw [otherRows_key (key' := key')]
      simp
    · have := h'.holderAlgo
      omega
  · rintro ⟨k1, k2⟩
    have e2 : ("pub_key".toList).length + 22 < 65536 := by decide
    have e3 : ("pub_key_size".toList).length + 22 < 65536 := by decide
    have e4 : ("pub_key_algo".toList).length + 22 < 65536 := by decide
    refine { h with holderKey := by omega, holderAlgo := by omega, number := ?_, rowTexts := fun r hr => ?_ }
    · have := h.number
      rw [List.length_append, otherRows_length (key' := key)]
      rwa [List.length_append] at this
    · rcases List.mem_append.mp hr with hr | hr
      · exact h.rowTexts r (List.mem_append_left _ hr)
      · rw [otherRows_key (key' := key)] at hr
        have old : ∀ r ∈ otherRows a key con c s, r.1.length + 22 < 65536 ∧ r.2.2.length < 65536 :=
          fun r hr => h.rowTexts r (List.mem_append_right _ hr)
        rcases List.mem_cons.mp hr with rfl | hr
        · exact old _ (by rw [otherRows_key (key' := key)]; exact List.mem_cons_self)
        rcases List.mem_cons.mp hr with rfl | hr
        · exact ⟨e2, (b64Text_fits _).mpr k1⟩
        rcases List.mem_cons.mp hr with rfl | hr
        · exact ⟨e3, by show (decimal _).length < _; omega⟩
        rcases List.mem_cons.mp hr with rfl | hr
        · exact ⟨e4, by show key'.cipher.length < _; omega⟩
        · exact old _ (List.mem_of_mem_drop hr)

/-- The signature of the authority can be made and has room. -/
def Signs (a : Authority X) : Prop := ∀ m, ∃ sig, X.sign a.key (X.sha256 m) = .ok sig ∧ sig.length < 65536

/-- **C154**: if a request gets a certificate, it also gets one with another key exactly if there is room for that: the key, its
size and its cipher are checked in no way, nor that the client has the private key. -/
theorem key_unchecked (hU : U.Lawful) (hS : Signs a) (h : a.issue U B collate db env cred key req exports = .ok b) :
    (∃ b', a.issue U B collate db env cred key' req exports = .ok b') ↔ KeyFits key' := by
  constructor
  · intro h'
    obtain ⟨addr, username, user, sel, uri, rows, body, sig, -, -, -, -, -, -, -, -, ⟨l, hl, rfl⟩, hfit, -⟩ :=
      (issuable_iff hU).mp h'
    exact (issuedFits_key hfit).mp hfit
  · intro hk
    obtain ⟨addr, username, user, sel, uri, rows, body, sig, h1, h2, h3, h4, h5, h6, h7, h8, ⟨l, hl, rfl⟩, hfit, -⟩ :=
      (issuable_iff hU).mp ⟨b, h⟩
    have hfit' := (issuedFits_key (key' := key') hfit).mpr hk
    obtain ⟨body', hb'⟩ := (encode_succeeds_iff _).mpr (certificate_fits.mpr hfit')
    obtain ⟨sig', hs', hlen⟩ := hS body'
    exact (issuable_iff hU).mpr ⟨addr, username, user, sel, uri, _, body', sig', h1, h2, h3, h4, h5, h6, h7, h8, ⟨l, hl, rfl⟩,
      hfit', hb', hs', hlen⟩

theorem filter_three {α : Type} {p : α → Bool} {x y z w : α} {l : List α} (hy : p y = false) (hz : p z = false)
    (hw : p w = false) : (x :: y :: z :: w :: l).filter p = (x :: l).filter p := by
  simp [List.filter_cons, hy, hz, hw]

/-- What is issued decodes to the certificate of these parts. -/
theorem issued_decodes (hX : X.Lawful) (ha : AsciiInputs a db env cred key exports) {uri username : Str} {user : DbUser}
    {sel : Dict UserAtt} {rows : List Row} {c' : AttCert} (hun : cred.username = some username)
    (hsel : selectAtts (db.userAttributes collate user.id) req = .ok sel) (huri : a.aUri = some uri)
    (hrows : ConnectionRows U a key exports env.con 0 env.random rows)
    (hc : (certificate a uri env username key (sel.map Prod.snd) rows).encode X (.yes (some a.key) aauthSigAlgo) = .ok (b, c')) :
    ∃ sig, AttCert.decode X b true =
      .ok ({ content (certificate a uri env username key (sel.map Prod.snd) rows) with signature := sig }, []) := by
  obtain ⟨h1, h2⟩ := signed_export_imports hX hc rfl rfl rfl
    (certificate_ascii ha hrows huri hun (issued_only_assigned hsel)) (ascii_of_all (by decide)) (by decide)
  obtain ⟨body, sig, hb, hsig, rfl⟩ := sign_ok.mp h1
  exact ⟨_, h2⟩

/-- **C154**: the certificates for the same request with two keys say the same except for the keys: the holder's key and its
algorithm are those the client gave, and so are the connection attributes `pub_key`, `pub_key_size` and `pub_key_algo`. -/
theorem key_chosen (hU : U.Lawful) (hX : X.Lawful) (hS : Signs a) (ha : AsciiInputs a db env cred key exports)
    (ha' : AsciiInputs a db env cred key' exports) (h : a.issue U B collate db env cred key req exports = .ok b)
    (hk : KeyFits key') :
    ∃ b' c c' atts atts', a.issue U B collate db env cred key' req exports = .ok b' ∧
      AttCert.decode X b true = .ok (c, []) ∧ AttCert.decode X b' true = .ok (c', []) ∧
      c'.holder = { c.holder with
        pubKey := key'.publicKey
        keyAlgo := key'.cipher ++ "[".toList ++ decimal key'.keySize ++ "]".toList } ∧
      c.attSet = some atts ∧ c'.attSet = some atts' ∧
      (∀ r ∈ [("pub_key".toList, AttType.string, b64Text key'.publicKey), ("pub_key_size".toList, .int, decimal key'.keySize),
        ("pub_key_algo".toList, .string, key'.cipher)], Row.certified r ∈ atts') ∧
      atts'.filter (fun x => decide (x.id ∉ keyIds)) = atts.filter (fun x => decide (x.id ∉ keyIds)) ∧
      { c' with holder := c.holder, attSet := c.attSet, signature := c.signature } = c := by
  obtain ⟨addr, username, user, sel, uri, rows, c0, h1, h2, h3, h4, h5, h6, h7, h8, ⟨l, hl, rfl⟩, hc⟩ := (issue_iff hU).mp h
  have hrows : ConnectionRows U a key exports env.con 0 env.random _ := ⟨l, hl, rfl⟩
  have hrows' : ConnectionRows U a key' exports env.con 0 env.random _ := ⟨l, hl, rfl⟩
  obtain ⟨sig, hd⟩ := issued_decodes hX ha h3 h7 h8 hrows hc
  have hfit : IssuedFits a uri env username key (sel.map Prod.snd)
      (remoteRows exports ++ l ++ otherRows a key env.con 0 env.random) := by
    have hc := hc
    unfold AttCert.encode at hc
    simp only [except_bind_ok] at hc
    obtain ⟨body, hb, -⟩ := hc
    exact certificate_fits.mp ((encode_succeeds_iff _).mp ⟨body, hb⟩)
  obtain ⟨body', hb'⟩ := (encode_succeeds_iff _).mpr (certificate_fits.mpr ((issuedFits_key (key' := key') hfit).mpr hk))
  obtain ⟨sig', hs', hlen⟩ := hS body'
  have hw : ∃ w, (ACSignature.mk (some aauthSigAlgo) (some sig')).encode = .ok w :=
    ⟨_, signature_encode_ok.2 ⟨_, _, rfl, rfl, by decide, hlen, rfl⟩⟩
  obtain ⟨w, hw⟩ := hw
  have hc' : (certificate a uri env username key' (sel.map Prod.snd)
      (remoteRows exports ++ l ++ otherRows a key' env.con 0 env.random)).encode X (.yes (some a.key) aauthSigAlgo) =
      .ok (body' ++ w, { certificate a uri env username key' (sel.map Prod.snd)
        (remoteRows exports ++ l ++ otherRows a key' env.con 0 env.random) with
          signature := some ⟨some aauthSigAlgo, some sig'⟩ }) := by
    unfold AttCert.encode
    simp only [except_bind_ok]
    refine ⟨body', hb', _, sign_ok.mpr ⟨body', sig', hb', hs', rfl⟩, ?_⟩
    dsimp only
    simp only [except_bind_ok, except_pure_ok]
    exact ⟨w, hw, rfl⟩
  obtain ⟨sg, hd'⟩ := issued_decodes hX ha' h3 h7 h8 hrows' hc'
  obtain ⟨-, i2, -, i4, -⟩ := issued_parts (a := a) (env := env) (key := key) uri username (sel.map Prod.snd) _ (connection_names hrows)
  obtain ⟨-, j2, -, j4, -⟩ := issued_parts (a := a) (env := env) (key := key') uri username (sel.map Prod.snd) _ (connection_names hrows')
  refine ⟨_, _, _, _, _, (issue_iff hU).mpr ⟨addr, username, user, sel, uri, _, _, h1, h2, h3, h4, h5, h6, h7, h8, hrows', hc'⟩,
    hd, hd', ?_, i4, j4, ?_, ?_, ?_⟩
  · dsimp only
    rw [i2, j2]
  · intro r hr
    refine List.mem_append_right _ (List.mem_map_of_mem (List.mem_append_right _ ?_))
    rw [otherRows_key (key' := key')]
    simp only [List.mem_cons, List.not_mem_nil, or_false] at hr
    rcases hr with rfl | rfl | rfl <;> simp
  · have e1 : "/attribute/connection/".toList ++ "pub_key".toList ∈ keyIds := by decide
    have e2 : "/attribute/connection/".toList ++ "pub_key_size".toList ∈ keyIds := by decide
    have e3 : "/attribute/connection/".toList ++ "pub_key_algo".toList ∈ keyIds := by decide
    have drop : ∀ k : PublicKeyArg, ((otherRows a k env.con 0 env.random).map Row.certified).filter (fun x => decide (x.id ∉ keyIds)) =
        (("auth_method".toList, AttType.int, decimal 0) :: (otherRows a key env.con 0 env.random).drop 4 |>.map Row.certified).filter
          (fun x => decide (x.id ∉ keyIds)) := by
      intro k
      rw [otherRows_key (key' := key)]
      simp only [List.map_cons]
      exact filter_three (decide_eq_false (not_not_intro e1)) (decide_eq_false (not_not_intro e2))
        (decide_eq_false (not_not_intro e3))
    simp only [List.map_append, List.filter_append, drop]
  · rfl

/-! ### Examples -/

/-- A third user with an attribute of their own, and more rows about the second. -/
def largerDb : AAuthDb where
  users := [⟨3, "eve".toList, "zP".toList⟩] ++ sampleDb.users ++ []
  attributes := [] ++ sampleDb.attributes ++ [⟨"/c".toList, "age".toList, .int⟩]
  assignments := [⟨3, "/c".toList, some "1".toList⟩] ++ sampleDb.assignments ++ [⟨2, "/b/age".toList, none⟩]

example : SameFor id "ann".toList sampleDb largerDb ∧ sampleDb ≠ largerDb ∧
    ∃ b, sampleIssue (sampleCred "Ann" (some "x".toList)) ⟨some [], some []⟩ "10.0.0.1" = .ok b ∧
      sampleAuthority.issue asciiUni plainBcrypt id largerDb sampleRequestEnv (sampleCred "Ann" (some "x".toList)) sampleKey
        ⟨some [], some []⟩ (sampleExports "10.0.0.1") = .ok b := by
  have hs : SameFor id "ann".toList sampleDb largerDb := by
    refine rows_added ?_ ?_ ?_ <;> decide +kernel
  have hl : asciiUni.lower "Ann".toList = "ann".toList := by decide +kernel
  obtain ⟨b, hb⟩ := issued_iff.mp (show Issued (sampleIssue (sampleCred "Ann" (some "x".toList))
    ⟨some [], some []⟩ "10.0.0.1") = true by decide +kernel)
  refine ⟨hs, by decide +kernel, b, hb, ?_⟩
  rw [← others_irrelevant (db := sampleDb)]
  · exact hb
  · intro n hn
    cases hn
    rw [hl]
    exact hs

/-- The rows of the user themselves do matter. -/
example : ¬ SameFor id "bob".toList sampleDb largerDb :=
  fun h => absurd (h.assignments ⟨2, "bob".toList, "NoneP".toList⟩ (by decide +kernel) rfl) (by decide +kernel)

/-- A wrong password and an unknown name. -/
example : TurnedAway asciiUni plainBcrypt id sampleDb true "ann".toList (Peppered sampleAuthority (sampleCred "ann" (some "y".toList))) ∧
    TurnedAway asciiUni plainBcrypt id largerDb true "zoe".toList (Peppered sampleAuthority (sampleCred "zoe" none)) := by
  have hl : asciiUni.lower "ann".toList = "ann".toList := by decide +kernel
  refine ⟨.inr ⟨⟨1, "ann".toList, "xP".toList⟩, ?_, by decide +kernel, fun _ => ⟨_, rfl⟩⟩, .inl fun u hu => ?_⟩
  · rw [hl]
    exact findUser_iff.mp (by decide +kernel)
  · exact absurd (findUser_iff.mpr hu) (by rw [show largerDb.findUser id (asciiUni.lower "zoe".toList) = none by decide +kernel]; exact fun h => by cases h)

/-- A bcrypt without hashing that reads 72 bytes. -/
def shortBcrypt : Bcrypt := ⟨fun x y => .ok (x.take 72 == y.take 72), fun x _ => .ok (x.take 72)⟩

example : Counts72 shortBcrypt := fun x y s _ _ h => by
  unfold shortBcrypt
  simp only [h, and_self]

/-- A password of 72 characters, followed by others, and another pepper. -/
example : 72 ≤ (utf8 (List.replicate 72 'x')).length ∧
    (utf8 (List.replicate 72 'x')).take 72 = (utf8 (List.replicate 72 'x' ++ "yz".toList)).take 72 ∧
    0 ∉ Peppered sampleAuthority ⟨0, some "ann".toList, some (List.replicate 72 'x' ++ "yz".toList)⟩ ∧
    Peppered sampleAuthority (sampleCred "ann" (some "x".toList)) =
      Peppered { sampleAuthority with pepper := some [] } (sampleCred "ann" (some "xP".toList)) := by
  decide +kernel

/-- A key of four bytes that is said to have a million bits. -/
def boastedKey : PublicKeyArg := ⟨[1, 2, 3, 4], "RSA".toList, 1000000⟩

/-- The hypotheses of `key_chosen`. -/
example : toyCrypto.Lawful ∧ AsciiInputs sampleAuthority sampleDb sampleRequestEnv (sampleCred "Ann" (some "x".toList)) boastedKey
    (sampleExports "10.0.0.1") :=
  ⟨toyCrypto_lawful, { sample_ascii "10.0.0.1" (by unfold Ascii; decide) "Ann" (by unfold Ascii; decide) _ with
    cipher := by unfold Ascii; decide }⟩

example : KeyFits boastedKey ∧ KeyFits sampleKey := by
  unfold KeyFits
  decide +kernel

example : Signs sampleAuthority := fun m => ⟨[7] ++ toyCrypto.sha256 m, rfl, by
  show 4 < 65536
  decide⟩

end Verif.Props
