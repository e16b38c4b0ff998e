import Verif.Spec.Names
import Verif.Proofs.AttCertText
import Verif.Props.Independence
/-!
# Whom certificates name (C155)
-/

namespace Verif.Props

open Proofs Spec

variable {U U' : Uni} {X : Crypto} {B B' : Bcrypt} {collate collate' : Str → Str} {a a' : Authority X} {env env' : RequestEnv}
  {cred cred' : Credentials} {key key' : PublicKeyArg} {req req' : AttributeListArg} {exports exports' : Dict Str} {b b' : Bytes}
  {db db' : AAuthDb}

/-! ### Texts -/

theorem decimal_digits {n : Int} {c : Char} (h : c ∈ decimal n) : c = '-' ∨ c.isDigit = true := by
  have hd : ∀ m : Nat, c ∈ m.repr.toList → c.isDigit = true := by
    intro m h
    rw [Nat.toList_repr] at h
    exact Nat.isDigit_of_mem_toDigits (by decide) (by decide) h
  rw [decimal, Int.toString_eq_repr, Int.repr_eq_if] at h
  split at h
  · exact .inr (hd _ h)
  · rw [String.toList_append, List.mem_append] at h
    rcases h with h | h
    · exact .inl (by simpa using h)
    · exact .inr (hd _ h)

theorem last_bracket : ∀ {c c' t t' : Str}, '[' ∉ t → '[' ∉ t' → c ++ '[' :: t = c' ++ '[' :: t' → c = c' ∧ t = t'
  | [], [], t, t', _, _, h => ⟨rfl, (List.cons.inj h).2⟩
  | [], x :: c', t, t', h1, _, h => by
    obtain ⟨-, rfl⟩ := List.cons.inj h
    exact absurd (List.mem_append_right _ List.mem_cons_self) h1
  | x :: c, [], t, t', _, h2, h => by
    obtain ⟨-, rfl⟩ := List.cons.inj h
    exact absurd (List.mem_append_right _ List.mem_cons_self) h2
  | x :: c, y :: c', t, t', h1, h2, h => by
    obtain ⟨rfl, e⟩ := List.cons.inj h
    obtain ⟨e1, e2⟩ := last_bracket (c := c) (c' := c') h1 h2 e
    exact ⟨congrArg _ e1, e2⟩

/-- **C155**: the text of the algorithm of a key says which cipher and size were given, also if the name of the cipher has
brackets in it. -/
theorem algo_determines (c c' : Str) (n n' : Int) : AlgoText c n = AlgoText c' n' ↔ c = c' ∧ n = n' := by
  constructor
  · intro h
    have hb : ∀ n : Int, '[' ∉ decimal n ++ "]".toList := by
      intro n hm
      rcases List.mem_append.mp hm with hm | hm
      · rcases decimal_digits hm with hm | hm
        · cases hm
        · cases hm
      · exact absurd hm (by decide)
    unfold AlgoText at h
    simp only [List.append_assoc] at h
    obtain ⟨e1, e2⟩ := last_bracket (hb n) (hb n') h
    exact ⟨e1, number_inj (List.append_cancel_right e2)⟩
  · rintro ⟨rfl, rfl⟩
    rfl

theorem uid_nested {u u' w : Str} (h : "/user/".toList ++ u = w ++ ("/user/".toList ++ u')) :
    w = [] ∧ u = u' ∨ w = "/user".toList ∧ u = "user/".toList ++ u' ∨
      ∃ m, w = "/user/".toList ++ m ∧ u = m ++ ("/user/".toList ++ u') := by
  change '/' :: 'u' :: 's' :: 'e' :: 'r' :: '/' :: u = w ++ ('/' :: 'u' :: 's' :: 'e' :: 'r' :: '/' :: u') at h
  rcases w with _ | ⟨c0, _ | ⟨c1, _ | ⟨c2, _ | ⟨c3, _ | ⟨c4, _ | ⟨c5, m⟩⟩⟩⟩⟩⟩
  · simp at h
    exact .inl ⟨rfl, h⟩
  · simp at h
  · simp at h
  · simp at h
  · simp at h
  · simp at h
    obtain ⟨rfl, rfl, rfl, rfl, rfl, rfl⟩ := h
    exact .inr (.inl ⟨rfl, rfl⟩)
  · simp at h
    obtain ⟨rfl, rfl, rfl, rfl, rfl, rfl, rfl⟩ := h
    exact .inr (.inr ⟨m, rfl, rfl⟩)

/-- **C155**: exactly which users of which authorities have the same uid: the same one of the same authority, or those of
authorities whose uids continue each other by what is in the name of a user. -/
theorem uid_iff (uri uri' u u' : Str) : UserUid uri u = UserUid uri' u' ↔
    uri = uri' ∧ u = u' ∨ Nested uri u uri' u' ∨ Nested uri' u' uri u := by
  unfold UserUid
  have half : ∀ {uri uri' u u' w : Str}, uri' = uri ++ w → "/user/".toList ++ u = w ++ ("/user/".toList ++ u') →
      uri = uri' ∧ u = u' ∨ Nested uri u uri' u' := by
    rintro uri _ u u' w rfl h
    rcases uid_nested h with ⟨rfl, rfl⟩ | ⟨rfl, rfl⟩ | ⟨m, rfl, rfl⟩
    · exact .inl ⟨(List.append_nil _).symm, rfl⟩
    · exact .inr (.inl ⟨rfl, rfl⟩)
    · exact .inr (.inr ⟨m, by rw [List.append_assoc], by rw [List.append_assoc]⟩)
  constructor
  · intro h
    rw [List.append_assoc, List.append_assoc] at h
    rcases List.append_eq_append_iff.mp h with ⟨w, hw, h⟩ | ⟨w, hw, h⟩
    · rcases half hw h with h | h
      · exact .inl h
      · exact .inr (.inl h)
    · rcases half hw h with ⟨h1, h2⟩ | h
      · exact .inl ⟨h1.symm, h2.symm⟩
      · exact .inr (.inr h)
  · rintro (⟨rfl, rfl⟩ | (⟨rfl, rfl⟩ | ⟨m, rfl, rfl⟩) | (⟨rfl, rfl⟩ | ⟨m, rfl, rfl⟩))
    · rfl
    all_goals simp

/-- **C155**: names without a slash are not confused. -/
theorem uid_unique {uri uri' u u' : Str} (h : '/' ∉ u) (h' : '/' ∉ u') : UserUid uri u = UserUid uri' u' ↔ uri = uri' ∧ u = u' := by
  have no : ∀ {uri uri' u u' : Str}, '/' ∉ u → ¬ Nested uri u uri' u' := by
    rintro uri uri' u u' h (⟨-, rfl⟩ | ⟨m, -, rfl⟩) <;> exact h (by simp)
  rw [uid_iff]
  constructor
  · rintro (h1 | h1 | h1)
    · exact h1
    · exact absurd h1 (no h)
    · exact absurd h1 (no h')
  · exact .inl

/-- **C155**: nor are those of one authority. -/
theorem uid_same_authority (uri u u' : Str) : UserUid uri u = UserUid uri u' ↔ u = u' := by
  unfold UserUid
  exact ⟨List.append_cancel_left, fun h => h ▸ rfl⟩

/-! ### Certificates -/

/-- Two certificates, of the same authority or of two, and for the same user or two. -/
structure TwoIssued (U U' : Uni) (B B' : Bcrypt) (collate collate' : Str → Str) (a a' : Authority X) (db db' : AAuthDb)
    (env env' : RequestEnv) (cred cred' : Credentials) (key key' : PublicKeyArg) (req req' : AttributeListArg)
    (exports exports' : Dict Str) (c c' : AttCert) : Prop where
  first : ∃ b, a.issue U B collate db env cred key req exports = .ok b ∧ AttCert.decode X b true = .ok (c, [])
  second : ∃ b, a'.issue U' B' collate' db' env' cred' key' req' exports' = .ok b ∧ AttCert.decode X b true = .ok (c', [])

theorem issued_holder (hU : U.Lawful) (hX : X.Lawful) (ha : AsciiInputs a db env cred key exports)
    (h : a.issue U B collate db env cred key req exports = .ok b) {c : AttCert} (hd : AttCert.decode X b true = .ok (c, [])) :
    ∃ uri username, a.aUri = some uri ∧ cred.username = some username ∧
      c.holder = ⟨key.publicKey, AlgoText key.cipher key.keySize, UserUid uri username, cleanOpt (some username)⟩ ∧
      c.issuer.map ACIssuer.uid = some uri := by
  obtain ⟨username, user, sel, uri, rows, body, sig, h1, -, -, -, h2, h3, -, -, h4⟩ := issued_certificate hU hX ha h
  rw [hd] at h4
  cases h4
  obtain ⟨p1, p2, -⟩ := issued_parts (a := a) (env := env) (key := key) uri username (sel.map Prod.snd) rows (connection_names h3)
  refine ⟨uri, username, h2, h1, p2, ?_⟩
  dsimp only
  rw [p1]
  rfl

/-- **C155**: which issued certificates name the same holder by the uid. Whether the two certificates are from the same
authority does not follow. -/
theorem holder_uid_iff (hU : U.Lawful) (hU' : U'.Lawful) (hX : X.Lawful) (ha : AsciiInputs a db env cred key exports)
    (ha' : AsciiInputs a' db' env' cred' key' exports') {c c' : AttCert}
    (h : TwoIssued U U' B B' collate collate' a a' db db' env env' cred cred' key key' req req' exports exports' c c') :
    ∃ uri uri' u u', a.aUri = some uri ∧ a'.aUri = some uri' ∧ cred.username = some u ∧ cred'.username = some u' ∧
      (c.holder.uid = c'.holder.uid ↔ uri = uri' ∧ u = u' ∨ Nested uri u uri' u' ∨ Nested uri' u' uri u) := by
  obtain ⟨⟨b, hb, hd⟩, b', hb', hd'⟩ := h
  obtain ⟨uri, u, h1, h2, h3, -⟩ := issued_holder hU hX ha hb hd
  obtain ⟨uri', u', h1', h2', h3', -⟩ := issued_holder hU' hX ha' hb' hd'
  refine ⟨uri, uri', u, u', h1, h1', h2, h2', ?_⟩
  rw [h3, h3']
  exact uid_iff uri uri' u u'

/-- **C155**: the whole holder says which authority and name it was, as typed by the client, and which key, cipher and size. -/
theorem holder_determines (hU : U.Lawful) (hU' : U'.Lawful) (hX : X.Lawful) (ha : AsciiInputs a db env cred key exports)
    (ha' : AsciiInputs a' db' env' cred' key' exports') {c c' : AttCert}
    (h : TwoIssued U U' B B' collate collate' a a' db db' env env' cred cred' key key' req req' exports exports' c c') :
    c.holder = c'.holder ↔ a.aUri = a'.aUri ∧ cred.username = cred'.username ∧ key = key' := by
  obtain ⟨⟨b, hb, hd⟩, b', hb', hd'⟩ := h
  obtain ⟨uri, u, h1, h2, h3, -⟩ := issued_holder hU hX ha hb hd
  obtain ⟨uri', u', h1', h2', h3', -⟩ := issued_holder hU' hX ha' hb' hd'
  rw [h3, h3', h1, h1', h2, h2']
  constructor
  · intro e
    obtain ⟨e1, e2, e3, e4⟩ := ACHolder.mk.injEq .. ▸ e
    obtain ⟨e5, e6⟩ := (algo_determines _ _ _ _).mp e2
    have e7 : u = u' := by
      cases u <;> cases u' <;> first | rfl | (cases e4; done) | (cases e4; rfl)
    subst e7
    refine ⟨congrArg some ?_, rfl, ?_⟩
    · unfold UserUid at e3
      exact List.append_cancel_right (List.append_cancel_right e3)
    · cases key
      cases key'
      cases e1
      cases e5
      cases e6
      rfl
  · rintro ⟨e1, e2, rfl⟩
    cases e1
    cases e2
    rfl

/-! ### Examples -/

/-- An authority under the uids of the users of another one. -/
example : Nested "/aa".toList "user/bob".toList "/aa/user".toList "bob".toList ∧
    Nested "/aa".toList "x/user/bob".toList "/aa/user/x".toList "bob".toList ∧
    UserUid "/aa".toList "user/bob".toList = "/aa/user/user/bob".toList :=
  ⟨.inl ⟨by decide, by decide⟩, .inr ⟨"x".toList, by decide, by decide⟩, by decide⟩

example : AlgoText "RSA[2]".toList 8 = "RSA[2][8]".toList := by decide +kernel

/-- Two authorities, each with a user of its own. -/
def outerDb : AAuthDb := ⟨[⟨1, "user/bob".toList, "pP".toList⟩], [], []⟩
def innerDb : AAuthDb := ⟨[⟨1, "bob".toList, "pP".toList⟩], [], []⟩
def innerAuthority : Authority toyCrypto := { sampleAuthority with aUri := some "/aa/user".toList }

/-- Their certificates name the same holder by the uid, but another one by uid and name. -/
example : ∃ c c', TwoIssued asciiUni asciiUni plainBcrypt plainBcrypt id id sampleAuthority innerAuthority outerDb innerDb
      sampleRequestEnv sampleRequestEnv (sampleCred "user/bob" (some "p".toList)) (sampleCred "bob" (some "p".toList)) sampleKey
      sampleKey ⟨some [], some []⟩ ⟨some [], some []⟩ (sampleExports "10.0.0.1") (sampleExports "10.0.0.1") c c' ∧
    c.holder.uid = c'.holder.uid ∧ c.holder ≠ c'.holder := by
  have ha : AsciiInputs sampleAuthority outerDb sampleRequestEnv (sampleCred "user/bob" (some "p".toList)) sampleKey
      (sampleExports "10.0.0.1") :=
    { sample_ascii "10.0.0.1" (by unfold Ascii; decide) "user/bob" (by unfold Ascii; decide) (some "p".toList) with
      attributes := fun t ht => by cases ht
      assignments := fun t ht => by cases ht }
  have ha' : AsciiInputs innerAuthority innerDb sampleRequestEnv (sampleCred "bob" (some "p".toList)) sampleKey
      (sampleExports "10.0.0.1") :=
    { sample_ascii "10.0.0.1" (by unfold Ascii; decide) "bob" (by unfold Ascii; decide) (some "p".toList) with
      aUri := fun s hs => by cases hs; unfold Ascii; decide
      attributes := fun t ht => by cases ht
      assignments := fun t ht => by cases ht }
  obtain ⟨b, hb⟩ := issued_iff.mp (show Issued (sampleAuthority.issue asciiUni plainBcrypt id outerDb sampleRequestEnv
    (sampleCred "user/bob" (some "p".toList)) sampleKey ⟨some [], some []⟩ (sampleExports "10.0.0.1")) = true by decide +kernel)
  obtain ⟨b', hb'⟩ := issued_iff.mp (show Issued (innerAuthority.issue asciiUni plainBcrypt id innerDb sampleRequestEnv
    (sampleCred "bob" (some "p".toList)) sampleKey ⟨some [], some []⟩ (sampleExports "10.0.0.1")) = true by decide +kernel)
  obtain ⟨_, _, _, _, _, _, _, _, _, _, _, _, _, _, _, hd⟩ := issued_certificate asciiUni_lawful toyCrypto_lawful ha hb
  obtain ⟨_, _, _, _, _, _, _, _, _, _, _, _, _, _, _, hd'⟩ := issued_certificate asciiUni_lawful toyCrypto_lawful ha' hb'
  have two : TwoIssued asciiUni asciiUni plainBcrypt plainBcrypt id id sampleAuthority innerAuthority outerDb innerDb
      sampleRequestEnv sampleRequestEnv (sampleCred "user/bob" (some "p".toList)) (sampleCred "bob" (some "p".toList)) sampleKey
      sampleKey ⟨some [], some []⟩ ⟨some [], some []⟩ (sampleExports "10.0.0.1") (sampleExports "10.0.0.1") _ _ :=
    ⟨⟨b, hb, hd⟩, b', hb', hd'⟩
  refine ⟨_, _, two, ?_, fun e => ?_⟩
  · obtain ⟨uri, uri', u, u', h1, h2, h3, h4, h⟩ := holder_uid_iff asciiUni_lawful asciiUni_lawful toyCrypto_lawful ha ha' two
    cases h1
    cases h2
    cases h3
    cases h4
    exact h.mpr (.inr (.inl (.inl ⟨by decide, by decide⟩)))
  · exact absurd ((holder_determines asciiUni_lawful asciiUni_lawful toyCrypto_lawful ha ha' two).mp e).1 (by decide +kernel)

end Verif.Props
