import Verif.Proofs.AttCertText
/-!
# Properties of attribute certificates (C36 to C44, C70, C71)

`Spec/Certificate.lean` describes the byte format and the content of a certificate; the theorems relate the encoder, the
decoder, signing, export formats and `__eq__` to it, for every certificate, every byte string and every signature scheme.
-/

namespace Verif.Props
open Verif Verif.Spec Verif.Proofs

/-! ### A scheme and certificates for examples -/

/-- A signature scheme for the examples: the signature is the key followed by the hash. -/
def toyCrypto : Crypto where
  PubKey := Bytes
  PrivKey := Bytes
  sha256 b := [UInt8.ofNat b.length, b.foldl (· + ·) 0, b.foldl (fun x y => 3 * x + y) 1]
  importKey b := if b = [] then .error .valueError else .ok b
  sign k h := if k = [] then .error .valueError else .ok (k ++ h)
  verify p h s := s == p ++ h
  exportPub k := k

theorem toyCrypto_lawful : toyCrypto.Lawful where
  sign_verify k h s hs := by
    simp only [toyCrypto] at hs ⊢
    split at hs
    · cases hs
    · rename_i hk
      cases hs
      exact ⟨k, if_neg hk, by simp⟩
  sign_ne_nil k h s hs := by
    simp only [toyCrypto] at hs
    split at hs
    · cases hs
    · rename_i hk
      cases hs
      exact fun e => hk (List.append_eq_nil_iff.1 e).1

/-- A certificate with an attribute, an extension, delegation rules and empty optional fields. -/
def sampleCert : AttCert where
  issuer := some ⟨some [7, 8], some "RSA".toList, "/aa".toList, some [], some "u".toList⟩
  holder := ⟨[9], "RSA".toList, "/aa/bob".toList, some "Bob".toList⟩
  info := ⟨1, 77, 1000⟩
  attSet := some [ACAttribute.make "/a/age".toList .int (some "42".toList) (some "age".toList) (some [1, 2]),
    ACAttribute.make "/a/x".toList .null (some [])]
  revRules := ⟨1000, 2000, none, some []⟩
  delRules := some ⟨some [5]⟩
  extensions := some [⟨"e".toList, none⟩]

/-! ### C36: round trip -/

theorem nat_of_range {v : Int} {k : Nat} (h : 0 ≤ v ∧ v < (k : Int)) : ∃ n : Nat, v = n ∧ n < k :=
  ⟨v.toNat, by omega, by omega⟩

/-- C36: the signed part of a certificate can be encoded exactly if its fields fit their places. -/
theorem encode_succeeds_iff (c : AttCert) : (∃ b, c.encodeBody = .ok b) ↔ Fits c := by
  constructor
  · rintro ⟨b, h⟩
    obtain ⟨i, bi, bh, bn, br, bd, ba, be, e4, g1, g2, g3, g5, g6, g4, g7, rfl⟩ := body_encode_ok.1 h
    obtain ⟨key, algo, h1, h2, f1, f2, f3, f4, f5, _⟩ := issuer_encode_ok.1 g1
    obtain ⟨k1, k2, k3, k4, _⟩ := holder_encode_ok.1 g2
    obtain ⟨v, n, t, hi, q1, q2, q3, q4, _⟩ := info_encode_ok.1 g3
    obtain ⟨va, vb, r1, r2, r3, r4, r5, r6, _⟩ := revocation_encode_ok.1 g5
    obtain ⟨fa, bas, k4', rfl⟩ := encodeList_ok.1 g4
    obtain ⟨fe, bes, k7, rfl⟩ := encodeList_ok.1 g7
    refine ⟨⟨i, key, algo, e4, h1, h2, f1, f2, f3, f4, f5⟩, ⟨k1, k2, k3, k4⟩, ?_, ?_, ?_, ⟨fa, fun a ha => ?_⟩,
      ⟨?_, ?_, r5, r6⟩, fun d hd => ?_, ⟨fe, fun e he => ?_⟩⟩
    · rw [hi]; dsimp only; omega
    · rw [hi]; dsimp only
      have : n < 2 ^ 160 := q3
      omega
    · rw [hi]; dsimp only; omega
    · clear g4 h
      revert a
      generalize c.attSet.getD [] = l at k4'
      induction k4' with
      | nil => intro a ha; cases ha
      | cons h1 _ ih =>
        intro a ha
        rcases List.mem_cons.1 ha with rfl | ha
        · obtain ⟨p1, p2, p3, p4, _⟩ := attribute_encode_ok.1 h1
          exact ⟨p1, p2, p3, p4⟩
        · exact ih a ha
    · omega
    · omega
    · rw [hd] at g6
      exact (delegation_encode_ok.1 g6).1
    · clear g7 h
      revert e
      generalize c.extensions.getD [] = l at k7
      induction k7 with
      | nil => intro a ha; cases ha
      | cons h1 _ ih =>
        intro a ha
        rcases List.mem_cons.1 ha with rfl | ha
        · obtain ⟨p1, p2, _⟩ := extension_encode_ok.1 h1
          exact ⟨p1, p2⟩
        · exact ih a ha
  · rintro ⟨⟨i, key, algo, e4, h1, h2, f1, f2, f3, f4, f5⟩, ⟨k1, k2, k3, k4⟩, hv, hs, ht, ⟨fa, ha⟩, ⟨r1, r2, r5, r6⟩, hd,
      ⟨fe, he⟩⟩
    have hall : ∀ {α : Type} (enc : α → Except PyExc Bytes) (l : List α), (∀ a ∈ l, ∃ b, enc a = .ok b) →
        ∃ ws, List.Forall₂ (fun x w => enc x = .ok w) l ws := by
      intro α enc l h
      induction l with
      | nil => exact ⟨[], .nil⟩
      | cons x l ih =>
        obtain ⟨w, hw⟩ := h x (by simp)
        obtain ⟨ws, hws⟩ := ih (fun a ha => h a (by simp [ha]))
        exact ⟨w :: ws, .cons hw hws⟩
    obtain ⟨v, hv1, hv2⟩ := nat_of_range (k := 256) hv
    obtain ⟨n, hn1, hn2⟩ := nat_of_range (k := 2 ^ 160) (by simpa using hs)
    obtain ⟨t, ht1, ht2⟩ := nat_of_range (k := 4294967296) (by simpa using ht)
    obtain ⟨va, va1, va2⟩ := nat_of_range (k := 4294967296) (by simpa using r1)
    obtain ⟨vb, vb1, vb2⟩ := nat_of_range (k := 4294967296) (by simpa using r2)
    obtain ⟨was, hwa⟩ := hall ACAttribute.encode (c.attSet.getD []) fun a h => by
      obtain ⟨p1, p2, p3, p4⟩ := ha a h
      exact ⟨_, attribute_encode_ok.2 ⟨p1, p2, p3, p4, rfl⟩⟩
    obtain ⟨wes, hwe⟩ := hall ACExtension.encode (c.extensions.getD []) fun a h => by
      obtain ⟨p1, p2⟩ := he a h
      exact ⟨_, extension_encode_ok.2 ⟨p1, p2, rfl⟩⟩
    obtain ⟨bd, hbd⟩ : ∃ bd, encodeDel c.delRules = .ok bd := by
      cases hc : c.delRules with
      | none => exact ⟨_, rfl⟩
      | some d => exact ⟨_, delegation_encode_ok.2 ⟨hd d hc, rfl⟩⟩
    exact ⟨_, body_encode_ok.2 ⟨i, _, _, _, _, bd, _, _, e4,
      issuer_encode_ok.2 ⟨key, algo, h1, h2, f1, f2, f3, f4, f5, rfl⟩,
      holder_encode_ok.2 ⟨k1, k2, k3, k4, rfl⟩,
      info_encode_ok.2 ⟨v, n, t, by rw [← hv1, ← hn1, ← ht1], hv2, by decide, hn2, ht2, rfl⟩,
      revocation_encode_ok.2 ⟨va, vb, va1, vb1, va2, vb2, r5, r6, rfl⟩, hbd,
      encodeList_ok.2 ⟨fa, was, hwa, rfl⟩, encodeList_ok.2 ⟨fe, wes, hwe, rfl⟩, rfl⟩⟩

/-- What `encode` returns without signing. -/
theorem encode_no {X : Crypto} {c c' : AttCert} {b : Bytes} (h : c.encode X .no = .ok (b, c')) :
    c' = c ∧ ∃ body sig, c.encodeBody = .ok body ∧ b = body ++ sig ∧
      ((c.signature = none ∧ sig = [0, 0, 0, 0]) ∨ ∃ algo value, c.signature = some ⟨some algo, some value⟩ ∧
        Fits16 algo.length ∧ Fits16 value.length ∧
        sig = le 2 algo.length ++ le 2 value.length ++ packStr algo ++ value) := by
  simp only [AttCert.encode, AttCert.signArg, except_bind_ok, Except.ok.injEq] at h
  obtain ⟨body, hb, c1, rfl, h⟩ := h
  cases hs : c.signature with
  | none =>
    rw [hs] at h
    simp only [except_bind_ok, except_pure_ok, Except.ok.injEq, Prod.mk.injEq] at h
    obtain ⟨_, rfl, rfl, rfl⟩ := h
    exact ⟨rfl, body, _, hb, rfl, .inl ⟨rfl, rfl⟩⟩
  | some g =>
    rw [hs] at h
    simp only [except_bind_ok, except_pure_ok, Prod.mk.injEq] at h
    obtain ⟨sig, hg, rfl, rfl⟩ := h
    obtain ⟨algo, value, h1, h2, f1, f2, rfl⟩ := signature_encode_ok.1 hg
    refine ⟨rfl, body, _, hb, rfl, .inr ⟨algo, value, ?_, f1, f2, rfl⟩⟩
    cases g
    simp only at h1 h2
    rw [h1, h2]

/-- C36: decoding an encoded certificate gives its content back and consumes all bytes, if its texts are ASCII. -/
theorem round_trip {X : Crypto} {c c' : AttCert} {b : Bytes} (h : c.encode X .no = .ok (b, c'))
    (ha : ∀ t ∈ texts c, Ascii t) (hs : ∀ g, c.signature = some g → AsciiOpt g.algo) :
    AttCert.decode X b false = .ok (content c, []) := by
  obtain ⟨_, body, sig, hb, rfl, hsig⟩ := encode_no h
  rw [decode_ok]
  refine ⟨rfl, ?_, by simp⟩
  have hw := body_encode_wire hb ha
  rcases hsig with ⟨h0, rfl⟩ | ⟨algo, value, h0, f1, f2, rfl⟩
  · refine ⟨20, body, _, ⟨none, none⟩, hw, ?_, rfl, by simp [content, h0, cleanSignature]⟩
    exact signature_wire.1 rfl
  · refine ⟨20, body, _, ⟨cleanOpt (some algo), cleanOpt (some value)⟩, hw, ?_, rfl, ?_⟩
    · apply signature_wire.1
      have := signature_decode (r := []) f1 f2 (hs _ h0 algo rfl)
      rwa [List.append_nil] at this
    · simp only [content, h0, cleanSignature]
      cases algo <;> cases value <;> simp [cleanOpt]

example : sampleCert.encode toyCrypto .no = .ok
    ([2, 0, 3, 0, 3, 0, 0, 0, 1, 0, 7, 8, 82, 83, 65, 47, 97, 97, 117,
      1, 0, 3, 0, 7, 0, 3, 0, 9, 82, 83, 65, 47, 97, 97, 47, 98, 111, 98, 66, 111, 98,
      1, 20, 77, 0, 0, 0, 0, 0, 0, 0, 0, 0, 0, 0, 0, 0, 0, 0, 0, 0, 0, 0, 232, 3, 0, 0,
      2, 0, 6, 0, 2, 0, 3, 0, 2, 0, 1, 47, 97, 47, 97, 103, 101, 52, 50, 97, 103, 101, 1, 2,
      4, 0, 0, 0, 0, 0, 0, 0, 0, 47, 97, 47, 120,
      0, 0, 0, 0, 232, 3, 0, 0, 208, 7, 0, 0,
      1, 0, 5,
      1, 0, 1, 0, 0, 0, 101,
      0, 0, 0, 0], sampleCert) := by decide +kernel

example : (∀ t ∈ texts sampleCert, Ascii t) ∧ content sampleCert ≠ sampleCert := by
  constructor
  · unfold Ascii; decide +kernel
  · decide +kernel

/-- C36, C41: the content comes back only if the texts are ASCII. -/
theorem round_trip_iff {X : Crypto} {c c' : AttCert} {b : Bytes} (h : c.encode X .no = .ok (b, c')) :
    AttCert.decode X b false = .ok (content c, []) ↔
      (∀ t ∈ texts c, Ascii t) ∧ ∀ g, c.signature = some g → AsciiOpt g.algo := by
  refine ⟨fun hd => ?_, fun ha => round_trip h ha.1 ha.2⟩
  obtain ⟨_, body, sig, hb, rfl, hsig⟩ := encode_no h
  obtain ⟨_, ⟨n, w, s, g, hw, hg, he, hcs⟩, _⟩ := decode_ok.1 hd
  obtain ⟨ht, hs⟩ := body_ascii hw hb he.symm
  refine ⟨ht, ?_⟩
  subst hs
  rcases hsig with ⟨h0, _⟩ | ⟨algo, value, h0, f1, f2, rfl⟩
  · intro g hg; rw [h0] at hg; cases hg
  · intro g' hg'
    rw [h0] at hg'
    cases hg'
    intro t ht
    cases ht
    by_cases hn : algo = []
    · subst hn; intro c hc; cases hc
    · obtain ⟨na, nv, a, v, q1, q2, hb', hc, hga, _⟩ := hg
      simp only [List.append_assoc] at hb'
      obtain ⟨rfl, hb'⟩ := le_append_inj hb'.symm (fits_pow q1) (fits_pow f1)
      have hga' : g.algo = some algo := by
        simp only [content, h0, cleanSignature] at hcs
        have e1 : cleanOpt (some algo) = some algo := by cases algo <;> simp_all [cleanOpt]
        rw [e1] at hcs
        simp only at hcs
        split at hcs
        · cases hcs
        · have := Option.some.inj hcs
          rw [← this]
      rw [hga'] at hga
      obtain ⟨_, rfl⟩ := hga
      apply utf8_ascii_of_length
      have := utf8_length algo
      rcases hc with ⟨h1, _⟩ | ⟨h1, _⟩ <;> omega

/-! ### C37: parts are self delimiting -/

/-- C37 for issuers. -/
theorem issuer_delimited {i : ACIssuer} {b : Bytes} (h : i.encode = .ok b) (ha : AsciiOpt i.keyAlgo) (hu : Ascii i.uid)
    (hn : AsciiOpt i.name) (hr : AsciiOpt i.url) (r : Bytes) : ACIssuer.decode (b ++ r) = .ok (cleanIssuer i, r) :=
  issuer_decode (issuer_encode_wire h ha hu hn hr) r

/-- C37 for holders. -/
theorem holder_delimited {i : ACHolder} {b : Bytes} (h : i.encode = .ok b) (ha : Ascii i.keyAlgo) (hu : Ascii i.uid)
    (hn : AsciiOpt i.name) (r : Bytes) : ACHolder.decode (b ++ r) = .ok (cleanHolder i, r) :=
  holder_decode (holder_encode_wire h ha hu hn) r

/-- C37 for the certificate information, without conditions. -/
theorem info_delimited {i : ACInfo} {b : Bytes} (h : i.encode = .ok b) (r : Bytes) : ACInfo.decode (b ++ r) = .ok (i, r) :=
  info_decode (info_encode_ok.1 h) r

/-- C37 for attributes. -/
theorem attribute_delimited {a : ACAttribute} {b : Bytes} (h : a.encode = .ok b) (hi : Ascii a.id) (hv : AsciiOpt a.value)
    (hn : AsciiOpt a.name) (r : Bytes) : ACAttribute.decode (b ++ r) = .ok (cleanAttribute a, r) :=
  attribute_decode (attribute_encode_wire h hi hv hn) r

/-- C37 for revocation rules. -/
theorem revocation_delimited {a : ACRevocation} {b : Bytes} (h : a.encode = .ok b) (hu : AsciiOpt a.url) (r : Bytes) :
    ACRevocation.decode (b ++ r) = .ok (cleanRevocation a, r) :=
  revocation_decode (revocation_encode_wire h hu) r

/-- C37 for delegation rules. -/
theorem delegation_delimited {d : ACDelegation} {b : Bytes} (h : d.encode = .ok b) (r : Bytes) :
    ACDelegation.decode (b ++ r) = .ok (⟨cleanOpt d.extra⟩, r) := by
  obtain ⟨f, rfl⟩ := delegation_encode_ok.1 h
  rw [ACDelegation.decode, List.append_assoc, bind_ok_eq _ (getU_append (fits_pow f) _)]
  dsimp only
  rw [size, take_append_self, drop_append_self]
  rcases d with ⟨_ | _ | ⟨x, xs⟩⟩ <;> simp [optSlice, cleanOpt, pure, Except.pure]

/-- C37 for extensions. -/
theorem extension_delimited {e : ACExtension} {b : Bytes} (h : e.encode = .ok b) (hi : Ascii e.eid) (r : Bytes) :
    ACExtension.decode (b ++ r) = .ok (cleanExtension e, r) :=
  extension_decode (extension_encode_wire h hi) r

/-- C37 for signatures. -/
theorem signature_delimited {g : ACSignature} {b : Bytes} (h : g.encode = .ok b) (ha : AsciiOpt g.algo) (r : Bytes) :
    ACSignature.decode (b ++ r) = .ok (⟨cleanOpt g.algo, cleanOpt g.value⟩, r) := by
  obtain ⟨algo, value, h1, h2, f1, f2, rfl⟩ := signature_encode_ok.1 h
  rw [h1, h2]
  exact signature_decode f1 f2 (ha _ h1)

/-- C37 for the whole signed part. -/
theorem body_delimited {c : AttCert} {b : Bytes} (h : c.encodeBody = .ok b) (ha : ∀ t ∈ texts c, Ascii t) (r : Bytes) :
    AttCert.decodeBody (b ++ r) = .ok ({ content c with signature := none }, r) :=
  body_decode (body_encode_wire h ha) r

example : ∃ b, ACAttribute.encode ⟨"/a".toList, .float, some "1.5".toList, none, some [3]⟩ = .ok b ∧
    ACAttribute.decode (b ++ [4, 5]) = .ok (⟨"/a".toList, .float, some "1.5".toList, none, some [3]⟩, [4, 5]) :=
  ⟨[2, 0, 3, 0, 0, 0, 1, 0, 2, 47, 97, 49, 46, 53, 3], by decide +kernel, by decide +kernel⟩

/-! ### C38: what a signature binds -/

/-- C38: ASCII certificates with the same signed bytes have the same content apart from the signature. -/
theorem signed_bytes_bind {c c' : AttCert} {b : Bytes} (h : c.encodeBody = .ok b) (h' : c'.encodeBody = .ok b)
    (ha : ∀ t ∈ texts c, Ascii t) (ha' : ∀ t ∈ texts c', Ascii t) :
    content { c with signature := none } = content { c' with signature := none } := by
  have e1 := body_delimited h ha []
  rw [body_delimited h' ha' []] at e1
  have := (Prod.mk.inj (Except.ok.inj e1)).1
  exact this.symm

example : ∃ b, sampleCert.encodeBody = .ok b ∧ (content sampleCert).encodeBody = .ok b ∧
    content sampleCert ≠ sampleCert :=
  have h := (encode_succeeds_iff sampleCert).2 (by
    constructor <;> (try decide +kernel)
    all_goals first
      | exact ⟨_, _, _, rfl, rfl, rfl, by decide +kernel⟩
      | (intro d hd; cases hd; decide +kernel))
  h.elim fun b hb => ⟨b, hb, by rw [encodeBody_content]; exact hb, by decide +kernel⟩

/-- The holder of these two certificates differs in the uid. -/
def accentCert (uid : Str) : AttCert := { sampleCert with holder := ⟨[9], "RSA".toList, uid, none⟩ }

/-- C38 fails for other texts: certificates for two different users have the same signed bytes, because the encoder
cuts the UTF-8 form of `éx` and `éy` after two bytes. -/
theorem non_ascii_same_bytes : (accentCert ['é', 'x']).encodeBody = (accentCert ['é', 'y']).encodeBody ∧
    (∃ b, (accentCert ['é', 'x']).encodeBody = .ok b) ∧
    content (accentCert ['é', 'x']) ≠ content (accentCert ['é', 'y']) := by
  refine ⟨rfl, ?_, by decide +kernel⟩
  rw [encode_succeeds_iff]
  constructor <;> (try decide +kernel)
  all_goals first
    | exact ⟨_, _, _, rfl, rfl, rfl, by decide +kernel⟩
    | (intro d hd; cases hd; decide +kernel)

/-- C38: so a signature of one is a signature of the other, whatever the scheme. -/
theorem non_ascii_signature_moves (X : Crypto) (g : ACSignature) :
    ({ accentCert ['é', 'x'] with signature := some g } : AttCert).verifySignature X =
      ({ accentCert ['é', 'y'] with signature := some g } : AttCert).verifySignature X := by
  rcases g with ⟨_ | a, _ | v⟩ <;> rfl


/-! ### C39: signing and verifying -/

/-- C39: `verify_signature` holds exactly if there are a signature and an issuer key and the key accepts the signature of
the hash of the certificate's own encoding. -/
theorem verify_iff {X : Crypto} {c : AttCert} : c.verifySignature X = .ok true ↔
    ∃ algo sig i key keyAlgo pub body, c.signature = some ⟨some algo, some sig⟩ ∧ c.issuer = some i ∧
      i.pubKey = some key ∧ i.keyAlgo = some keyAlgo ∧ X.importKey key = .ok pub ∧ c.encodeBody = .ok body ∧
      X.verify pub (X.sha256 body) sig = true := by
  constructor
  · intro h
    unfold AttCert.verifySignature at h
    split at h
    · rename_i algo sig key keyAlgo uid name url hs hi
      simp only [except_bind_ok, except_pure_ok] at h
      obtain ⟨pub, hp, body, hb, h⟩ := h
      exact ⟨algo, sig, _, key, keyAlgo, pub, body, hs, hi, rfl, rfl, hp, hb, h⟩
    · cases h
  · rintro ⟨algo, sig, ⟨_, _, _, _, _⟩, key, keyAlgo, pub, body, hs, hi, rfl, rfl, hp, hb, h⟩
    unfold AttCert.verifySignature
    rw [hs, hi]
    dsimp only
    rw [bind_ok_eq _ hp, bind_ok_eq _ hb, h]
    rfl

/-- C39: a certificate without signature does not verify. -/
theorem unsigned_fails (X : Crypto) {c : AttCert} (h : c.signature = none) : c.verifySignature X = .ok false := by
  unfold AttCert.verifySignature
  rw [h]

/-- C39: if the scheme rejects the hash of the certificate, it does not verify. -/
theorem rejected_fails {X : Crypto} {c : AttCert} {algo : Str} {sig key body : Bytes} {i : ACIssuer} {pub : X.PubKey}
    (hs : c.signature = some ⟨some algo, some sig⟩) (hi : c.issuer = some i) (hk : i.pubKey = some key)
    (hp : X.importKey key = .ok pub) (hb : c.encodeBody = .ok body) (hv : X.verify pub (X.sha256 body) sig = false) :
    c.verifySignature X = .ok false := by
  obtain ⟨k, ka, u, n, r⟩ := i
  dsimp only at hk
  subst hk
  unfold AttCert.verifySignature
  rw [hs, hi]
  cases ka with
  | none => rfl
  | some ka =>
    dsimp only
    rw [bind_ok_eq _ hp, bind_ok_eq _ hb, hv]
    rfl

/-- What signing does: only the signature changes. -/
theorem sign_ok {X : Crypto} {c c' : AttCert} {k : X.PrivKey} {algo : Str} : c.sign X k algo = .ok c' ↔
    ∃ body sig, c.encodeBody = .ok body ∧ X.sign k (X.sha256 body) = .ok sig ∧
      c' = { c with signature := some ⟨some algo, some sig⟩ } := by
  simp only [AttCert.sign, except_bind_ok, except_pure_ok]
  constructor
  · rintro ⟨body, h1, sig, h2, rfl⟩
    exact ⟨body, sig, h1, h2, rfl⟩
  · rintro ⟨body, sig, h1, h2, rfl⟩
    exact ⟨body, h1, sig, h2, rfl⟩

/-- C39: a certificate signed with the key of its issuer verifies. -/
theorem sign_verifies {X : Crypto} (hX : X.Lawful) {c c' : AttCert} {k : X.PrivKey} {algo keyAlgo : Str} {i : ACIssuer}
    (h : c.sign X k algo = .ok c') (hi : c.issuer = some i) (hk : i.pubKey = some (X.exportPub k))
    (ha : i.keyAlgo = some keyAlgo) : c'.verifySignature X = .ok true := by
  obtain ⟨body, sig, hb, hs, rfl⟩ := sign_ok.1 h
  obtain ⟨p, hp, hv⟩ := hX.sign_verify k _ sig hs
  exact verify_iff.2 ⟨algo, sig, i, _, keyAlgo, p, body, rfl, hi, hk, ha, hp, hb, hv⟩

theorem sampleCert_sign : sampleCert.sign toyCrypto [7, 8] "A".toList =
    .ok { sampleCert with signature := some ⟨some "A".toList, some [7, 8, 126, 16, 127]⟩ } := by decide +kernel

example : ∃ c', sampleCert.sign toyCrypto [7, 8] "A".toList = .ok c' ∧ c'.verifySignature toyCrypto = .ok true :=
  ⟨_, sampleCert_sign, sign_verifies toyCrypto_lawful sampleCert_sign rfl rfl rfl⟩

/-- C39: the content of a certificate verifies if the certificate does, provided that the algorithm name and the
signature are not empty. -/
theorem content_verifies {X : Crypto} {c : AttCert} (h : c.verifySignature X = .ok true)
    (hn : ∀ g, c.signature = some g → g.algo ≠ some [] ∧ g.value ≠ some []) :
    (content c).verifySignature X = .ok true := by
  obtain ⟨algo, sig, i, key, keyAlgo, pub, body, hs, hi, hk, ha, hp, hb, hv⟩ := verify_iff.1 h
  obtain ⟨n1, n2⟩ := hn _ hs
  rw [verify_iff]
  refine ⟨algo, sig, cleanIssuer i, key, keyAlgo, pub, body, ?_, ?_, hk, ha, hp, ?_, hv⟩
  · cases algo with
    | nil => exact absurd rfl n1
    | cons x xs =>
      cases sig with
      | nil => exact absurd rfl n2
      | cons y ys => simp [content, hs, cleanSignature, cleanOpt]
  · simp [content, hi]
  · rw [encodeBody_content]; exact hb

/-- C39: signing on export and importing with verification works, and gives the content of the signed certificate. -/
theorem signed_export_imports {X : Crypto} (hX : X.Lawful) {c c' : AttCert} {k : X.PrivKey} {algo keyAlgo : Str}
    {i : ACIssuer} {b : Bytes} (h : c.encode X (.yes (some k) algo) = .ok (b, c')) (hi : c.issuer = some i)
    (hk : i.pubKey = some (X.exportPub k)) (ha : i.keyAlgo = some keyAlgo) (ht : ∀ t ∈ texts c, Ascii t)
    (hal : Ascii algo) (hne : algo ≠ []) :
    c.sign X k algo = .ok c' ∧ AttCert.decode X b true = .ok (content c', []) := by
  simp only [AttCert.encode, AttCert.signArg, except_bind_ok] at h
  obtain ⟨body, hb, c1, hs, h⟩ := h
  have hs0 := hs
  obtain ⟨body', sig, hb', hsig, rfl⟩ := sign_ok.1 hs
  have hv := sign_verifies hX hs hi hk ha
  have hcc : c' = { c with signature := some ⟨some algo, some sig⟩ } := by
    simp only [except_bind_ok, except_pure_ok, Prod.mk.injEq] at h
    obtain ⟨_, _, _, h⟩ := h
    exact h.symm
  subst hcc
  refine ⟨hs, ?_⟩
  have hno : ({ c with signature := some ⟨some algo, some sig⟩ } : AttCert).encode X .no =
      .ok (b, { c with signature := some ⟨some algo, some sig⟩ }) := by
    simp only [AttCert.encode, AttCert.signArg, except_bind_ok]
    exact ⟨body, hb, _, rfl, h⟩
  have hd := round_trip hno ht (fun g hg => by cases hg; intro t ht; cases ht; exact hal)
  obtain ⟨_, hw, _⟩ := decode_ok.1 hd
  refine decode_ok.2 ⟨rfl, hw, fun _ => content_verifies hv ?_⟩
  rintro g hg
  cases hg
  exact ⟨fun e => hne (Option.some.inj e), fun e => hX.sign_ne_nil _ _ _ hsig (Option.some.inj e)⟩

/-- C39: the names of the algorithms play no part in verification. -/
theorem algorithm_names_ignored (X : Crypto) (c : AttCert) (a a' : Str) (v : Option Bytes) :
    ({ c with signature := some ⟨some a, v⟩ } : AttCert).verifySignature X =
      ({ c with signature := some ⟨some a', v⟩ } : AttCert).verifySignature X := by
  unfold AttCert.verifySignature
  cases v with
  | none => rfl
  | some v =>
    dsimp only
    rcases c.issuer with _ | ⟨_ | _, _ | _, _, _, _⟩ <;> rfl

/-! ### C40: malformed certificates -/

/-- C40: what `decode` accepts: exactly the wire forms of certificates; with `verify`, only of those that verify. All
bytes are consumed. -/
theorem decode_accepts {X : Crypto} {bs r : Bytes} {v : Bool} {c : AttCert} :
    AttCert.decode X bs v = .ok (c, r) ↔ r = [] ∧ CertWire c bs ∧ (v = true → c.verifySignature X = .ok true) :=
  decode_ok

/-- C40: with `verify` only certificates that verify are returned, for every format. -/
theorem import_verified {X : Crypto} {d d' : ACData} {f : ExportFormat} {c : AttCert}
    (h : AttCert.importAC X d f true = .ok (c, d')) : c.verifySignature X = .ok true := by
  have h64 : ∀ {d d' : ACData}, AttCert.importBase64 X true d = .ok (c, d') → c.verifySignature X = .ok true := by
    intro d d' h
    simp only [AttCert.importBase64, except_bind_ok, except_pure_ok, Prod.exists, Prod.mk.injEq] at h
    obtain ⟨b, hb, c1, r, h1, rfl, _⟩ := h
    exact (decode_ok.1 h1).2.2 rfl
  cases f with
  | bytes =>
    cases d with
    | bytearray b =>
      simp only [AttCert.importAC, AttCert.importBytes, except_bind_ok, except_pure_ok, Prod.exists, Prod.mk.injEq] at h
      obtain ⟨c1, r, h1, rfl, _⟩ := h
      exact (decode_ok.1 h1).2.2 rfl
    | bytes b =>
      simp only [AttCert.importAC, AttCert.importBytes, except_bind_ok] at h
      obtain ⟨_, _, h⟩ := h
      cases h
    | str s => cases h
  | base64 => exact h64 h
  | text => cases h
  | xml => cases h
  | base64full =>
    cases d with
    | bytearray b => cases h
    | bytes b => cases h
    | str s =>
      simp only [AttCert.importAC] at h
      split at h
      · simp only [except_bind_ok, except_pure_ok, Prod.exists, Prod.mk.injEq] at h
        obtain ⟨c1, d1, h1, rfl, _⟩ := h
        exact h64 h1
      · cases h

/-- C40: a certificate whose signature does not verify is refused on import with `verify`. -/
theorem bad_signature_refused {X : Crypto} {b : Bytes} {c : AttCert} (h : AttCert.decode X b false = .ok (c, []))
    (hv : c.verifySignature X = .ok false) : AttCert.decode X b true = .error (.exception "Bad signature.") := by
  unfold AttCert.decode at h ⊢
  simp only [except_bind_ok, Prod.exists] at h
  obtain ⟨c0, r1, h1, g, r2, h2, h⟩ := h
  rw [bind_ok_eq _ h1]; dsimp only
  rw [bind_ok_eq _ h2]; dsimp only
  by_cases hr : 0 < r2.length
  · rw [if_pos hr] at h; cases h
  · rw [if_neg hr] at h ⊢
    simp only [Bool.false_eq_true, if_false, if_true] at h ⊢
    cases h
    rw [bind_ok_eq _ hv]
    rfl

/-- C40: bytes after the signature are refused, whatever comes before. -/
theorem extra_bytes_refused {X : Crypto} {c c' : AttCert} {b x : Bytes} (h : c.encode X .no = .ok (b, c'))
    (ha : ∀ t ∈ texts c, Ascii t) (hs : ∀ g, c.signature = some g → AsciiOpt g.algo) (hx : x ≠ []) (v : Bool) :
    AttCert.decode X (b ++ x) v = .error (.exception "Extra bytes on end of certificate.") := by
  obtain ⟨_, body, sig, hb, rfl, hsig⟩ := encode_no h
  have hxl : 0 < x.length := List.length_pos_iff.2 hx
  unfold AttCert.decode
  rw [List.append_assoc, bind_ok_eq _ (body_delimited hb ha (sig ++ x))]
  dsimp only
  rcases hsig with ⟨h0, rfl⟩ | ⟨algo, value, h0, f1, f2, rfl⟩
  · have e := signature_decode (algo := []) (value := []) (r := x) (by unfold Fits16; decide) (by unfold Fits16; decide)
      (by intro c hc; cases hc)
    have e' : ACSignature.decode ([0, 0, 0, 0] ++ x) = .ok (⟨none, none⟩, x) := e
    rw [bind_ok_eq _ e']
    dsimp only
    rw [if_pos hxl]
  · rw [bind_ok_eq _ (signature_decode f1 f2 (hs _ h0 algo rfl))]
    dsimp only
    rw [if_pos hxl]

/-- C40: a byte string with more after it is not accepted on its own, unless only the signature was cut: then the
accepted beginning contains the whole signed part and the sizes of the signature. -/
theorem prefix_accepted {X : Crypto} {c c' : AttCert} {n : Nat} {w s p q r : Bytes} {v : Bool} (hw : BodyWire n c w)
    (hp : p ++ q = w ++ s) (h : AttCert.decode X p v = .ok (c', r)) :
    { c' with signature := none } = { c with signature := none } ∧ ∃ s', p = w ++ s' ∧ s' ++ q = s ∧ 4 ≤ s'.length := by
  obtain ⟨_, ⟨n', w', s', g, hw', hg, rfl, _⟩, _⟩ := decode_ok.1 h
  have e1 := body_decode hw' (s' ++ q)
  rw [← List.append_assoc, hp, body_decode hw s] at e1
  obtain ⟨ec, es⟩ := Prod.mk.inj (Except.ok.inj e1)
  subst es
  have ew : w' = w := by
    rw [List.append_assoc] at hp
    exact List.append_cancel_right hp
  subst ew
  refine ⟨ec.symm, s', rfl, rfl, ?_⟩
  obtain ⟨na, nv, a, b, q1, q2, rfl, _⟩ := hg
  simp only [List.length_append, le, packLE_length]
  omega

/-- C40: the same for encoded certificates. -/
theorem encoded_prefix_accepted {X : Crypto} {c c1 c' : AttCert} {b p q r : Bytes} {v : Bool}
    (h : c.encode X .no = .ok (b, c1)) (ha : ∀ t ∈ texts c, Ascii t) (hp : p ++ q = b)
    (hd : AttCert.decode X p v = .ok (c', r)) :
    ∃ body s s', c.encodeBody = .ok body ∧ b = body ++ s ∧ p = body ++ s' ∧ s' ++ q = s ∧ 4 ≤ s'.length ∧
      { c' with signature := none } = { content c with signature := none } := by
  obtain ⟨_, body, sig, hb, rfl, _⟩ := encode_no h
  obtain ⟨e, s', e1, e2, e3⟩ := prefix_accepted (body_encode_wire hb ha) hp hd
  exact ⟨body, sig, s', hb, rfl, e1, e2, e3, e⟩

/-- C40: no strict prefix of an unsigned certificate is accepted. -/
theorem unsigned_prefix_refused {X : Crypto} {c c1 c' : AttCert} {b p q r : Bytes} {v : Bool}
    (h : c.encode X .no = .ok (b, c1)) (ha : ∀ t ∈ texts c, Ascii t) (hs : c.signature = none) (hp : p ++ q = b)
    (hq : q ≠ []) : AttCert.decode X p v ≠ .ok (c', r) := by
  intro hd
  obtain ⟨_, body, sig, hb, rfl, hsig⟩ := encode_no h
  obtain ⟨e, s', e1, e2, e3⟩ := prefix_accepted (body_encode_wire hb ha) hp hd
  rcases hsig with ⟨_, rfl⟩ | ⟨_, _, h0, _⟩
  · have := congrArg List.length e2
    have hq' := List.length_pos_iff.2 hq
    rw [List.length_append] at this
    simp only [List.length_cons, List.length_nil] at this
    omega
  · rw [hs] at h0; cases h0

/-- C40: cut signatures are accepted without `verify`. -/
theorem cut_signature_accepted : ∃ b, (∃ c', ({ sampleCert with signature := some ⟨some "A".toList, some [1, 2]⟩ } :
      AttCert).encode toyCrypto .no = .ok (b, c')) ∧
    AttCert.decode toyCrypto b.dropLast false =
      .ok ({ content sampleCert with signature := some ⟨some "A".toList, some [1]⟩ }, []) ∧
    AttCert.decode toyCrypto b.dropLast.dropLast.dropLast false =
      .ok ({ content sampleCert with signature := some ⟨some [], some []⟩ }, []) := by
  obtain ⟨body, hb⟩ : ∃ body, sampleCert.encodeBody = .ok body :=
    (encode_succeeds_iff _).2 (by
      constructor <;> (try decide +kernel)
      all_goals first
        | exact ⟨_, _, _, rfl, rfl, rfl, by decide +kernel⟩
        | (intro d hd; cases hd; decide +kernel))
  have ha : ∀ t ∈ texts sampleCert, Ascii t := by unfold Ascii; decide +kernel
  refine ⟨body ++ [1, 0, 2, 0, 65, 1, 2], ⟨{ sampleCert with signature := some ⟨some "A".toList, some [1, 2]⟩ }, ?_⟩, ?_, ?_⟩
  · simp only [AttCert.encode, AttCert.signArg, except_bind_ok]
    refine ⟨body, hb, _, rfl, ?_⟩
    dsimp only
    rw [bind_ok_eq (a := [1, 0, 2, 0, 65, 1, 2]) _ (by decide +kernel)]
    rfl
  · have e : (body ++ [1, 0, 2, 0, 65, 1, 2]).dropLast = body ++ [1, 0, 2, 0, 65, 1] := by
      rw [List.dropLast_append_of_ne_nil (by simp)]; rfl
    rw [e, AttCert.decode, bind_ok_eq _ (body_delimited hb ha _)]
    decide +kernel
  · have e : (body ++ [1, 0, 2, 0, 65, 1, 2]).dropLast.dropLast.dropLast = body ++ [1, 0, 2, 0] := by
      rw [List.dropLast_append_of_ne_nil (by simp), List.dropLast_append_of_ne_nil (by simp),
        List.dropLast_append_of_ne_nil (by simp)]; rfl
    rw [e, AttCert.decode, bind_ok_eq _ (body_delimited hb ha _)]
    decide +kernel

theorem info_resize {n m : Nat} {i : ACInfo} {bs : Bytes} (hi : InfoWire n i bs) (hs : i.serial < 256 ^ m)
    (hm : m < 256) : ∃ bs', InfoWire m i bs' ∧ bs'.length + n = bs.length + m := by
  obtain ⟨v, k, t, rfl, h1, h2, h3, h4, rfl⟩ := hi
  have hk : k < 256 ^ m := by
    have : (k : Int) < ((256 ^ m : Nat) : Int) := by simpa using hs
    exact Int.ofNat_lt.1 this
  refine ⟨_, ⟨v, k, t, rfl, h1, hm, hk, h4, rfl⟩, ?_⟩
  simp only [List.length_append, le, packLE_length]
  omega

/-- C40: verification is of the decoded content, not of the bytes: every accepted certificate can be written in other
bytes, with another size for its serial number, that are accepted as the same certificate. -/
theorem bytes_malleable {X : Crypto} {c : AttCert} {v : Bool} {bs r : Bytes} (h : AttCert.decode X bs v = .ok (c, r))
    (hs : c.info.serial < 256 ^ 254) : ∃ bs', bs' ≠ bs ∧ AttCert.decode X bs' v = .ok (c, r) := by
  obtain ⟨rfl, ⟨n, w, s, g, ⟨i, atts, exts, wi, wh, wn, wa, wr, wd, we, e1, e2, e3, h1, h2, h3, h4, h5, h6, h7, rfl⟩, hg, rfl,
    e⟩, hv⟩ := decode_ok.1 h
  obtain ⟨m, hm, hmn, hsm⟩ : ∃ m, m < 256 ∧ m ≠ n ∧ c.info.serial < 256 ^ m := by
    by_cases hn : n = 254
    · refine ⟨255, by omega, by omega, Int.lt_trans hs ?_⟩
      decide
    · exact ⟨254, by omega, by omega, hs⟩
  obtain ⟨wn', h3', hl⟩ := info_resize h3 hsm hm
  refine ⟨wi ++ wh ++ wn' ++ wa ++ wr ++ wd ++ we ++ s, fun eq => ?_, decode_ok.2 ⟨rfl,
    ⟨m, _, s, g, ⟨i, atts, exts, wi, wh, wn', wa, wr, wd, we, e1, e2, e3, h1, h2, h3', h4, h5, h6, h7, rfl⟩, hg, rfl, e⟩,
    hv⟩⟩
  have := congrArg List.length eq
  simp only [List.length_append] at this
  omega

/-! ### C41: texts that are not ASCII -/

/-- C41 as worded is false: this certificate can be encoded and decoded, and the uid of its holder is another one. -/
theorem non_ascii_changed : (∃ b, (accentCert ['é', 'x']).encodeBody = .ok b) ∧
    ACHolder.encode (accentCert ['é', 'x']).holder = .ok [1, 0, 3, 0, 2, 0, 0, 0, 9, 82, 83, 65, 195, 169] ∧
    ACHolder.decode [1, 0, 3, 0, 2, 0, 0, 0, 9, 82, 83, 65, 195, 169] = .ok (⟨[9], "RSA".toList, ['é'], none⟩, []) :=
  ⟨non_ascii_same_bytes.2.1, by decide +kernel, by decide +kernel⟩

/-- C41: a cut inside a character makes the certificate unreadable. -/
theorem non_ascii_unreadable :
    ACHolder.encode ⟨[9], "RSA".toList, ['€'], none⟩ = .ok [1, 0, 3, 0, 1, 0, 0, 0, 9, 82, 83, 65, 226] ∧
    ACHolder.decode [1, 0, 3, 0, 1, 0, 0, 0, 9, 82, 83, 65, 226] = .error .unicodeError := by
  constructor <;> decide +kernel

/-- C41, exactly: a text is written as the first bytes of its UTF-8 form, as many as it has characters. -/
theorem text_cut (s : Str) : packStr s <+: utf8 s ∧ (packStr s).length = s.length ∧ (packStr s = utf8 s ↔ Ascii s) := by
  refine ⟨List.take_prefix _ _, packStr_length s, ⟨fun h => ?_, packStr_ascii⟩⟩
  apply utf8_ascii_of_length
  rw [← h, packStr_length]

/-! ### C42: validity -/

/-- C42: a certificate is valid strictly between its two times. -/
theorem verify_time_iff (c : AttCert) (clock now : Int) :
    c.verifyTime clock (some now) = true ↔ c.revRules.validAfter < now ∧ now < c.revRules.validBefore := by
  simp [AttCert.verifyTime]

/-- C42: without a time the clock is used. -/
theorem verify_time_clock (c : AttCert) (clock : Int) : c.verifyTime clock = c.verifyTime clock (some clock) := rfl

example : sampleCert.verifyTime 1001 = true ∧ sampleCert.verifyTime 1000 = false ∧ sampleCert.verifyTime 2000 = false ∧
    sampleCert.verifyTime 5 (some 1999) = true := by decide

/-! ### C43: equality -/

/-- Equality of the parts that are compared as a whole: names of issuer and holder are not compared, and empty delegation
rules and signatures are like missing ones. -/
def SameParts (a b : AttCert) : Prop :=
  a.issuer.map (fun i => (i.pubKey, i.keyAlgo, i.uid, i.url)) = b.issuer.map (fun i => (i.pubKey, i.keyAlgo, i.uid, i.url)) ∧
  a.holder.pubKey = b.holder.pubKey ∧ a.holder.keyAlgo = b.holder.keyAlgo ∧ a.holder.uid = b.holder.uid ∧
  a.info = b.info ∧ a.revRules = b.revRules ∧ a.delRules.bind (·.extra) = b.delRules.bind (·.extra) ∧
  a.signature.bind (·.value) = b.signature.bind (·.value) ∧ a.signature.bind (·.algo) = b.signature.bind (·.algo)

/-- Lists as `__eq__` compares them: of the same length, and for every entry of the first the first entry of the second
with the same id is equal to it. -/
def SameList {α : Type} (ident : α → Str) (xs ys : Option (List α)) : Prop :=
  (xs = none ∧ ys = none) ∨ ∃ l m, xs = some l ∧ ys = some m ∧ l.length = m.length ∧
    ∀ a ∈ l, m.find? (fun b => ident b = ident a) = some a

theorem same_first {a b : AttCert} : (optEqv ACIssuer.eqv a.issuer b.issuer && a.holder.eqv b.holder && a.info.eqv b.info &&
    a.revRules.eqv b.revRules && delEqv a.delRules b.delRules && sigEqv a.signature b.signature) = true ↔ SameParts a b := by
  rw [Bool.and_eq_true, Bool.and_eq_true, delEqv_iff, sigEqv_iff]
  obtain ⟨ai, ⟨_, _, _, _⟩, ⟨_, _, _⟩, _, ⟨_, _, _, _⟩, _, _, _⟩ := a
  obtain ⟨bi, ⟨_, _, _, _⟩, ⟨_, _, _⟩, _, ⟨_, _, _, _⟩, _, _, _⟩ := b
  have hi : optEqv ACIssuer.eqv ai bi = true ↔
      ai.map (fun i => (i.pubKey, i.keyAlgo, i.uid, i.url)) = bi.map (fun i => (i.pubKey, i.keyAlgo, i.uid, i.url)) := by
    cases ai <;> cases bi <;> simp [optEqv, ACIssuer.eqv, and_assoc]
  simp only [Bool.and_eq_true, SameParts, hi, ACHolder.eqv, ACInfo.eqv, ACRevocation.eqv, beq_iff_eq, ACInfo.mk.injEq,
    ACRevocation.mk.injEq]
  tauto

/-- C43: what `==` means. -/
theorem eqv_iff {a b : AttCert} : a.eqv b = .ok true ↔
    SameParts a b ∧ SameList ACAttribute.id a.attSet b.attSet ∧ SameList ACExtension.eid a.extensions b.extensions := by
  rw [← same_first, SameList, SameList, ← listEqv_iff (fun _ _ => attribute_eqv), ← listEqv_iff (fun _ _ => extension_eqv)]
  unfold AttCert.eqv
  simp only [Bool.and_eq_true]
  constructor
  · intro h
    split at h
    · rename_i h0
      split at h
      · cases h
      · rename_i h1
        split at h
        · cases h
        · rename_i h2
          simp only [except_bind_ok] at h
          obtain ⟨atts, ha, h⟩ := h
          cases atts with
          | false => cases h
          | true =>
            simp only [Bool.not_eq_true, Bool.not_eq_false', Bool.and_eq_true] at h1 h2 h0
            exact ⟨⟨⟨h0, h1⟩, h2⟩, ha, h⟩
    · cases h
  · rintro ⟨⟨⟨h0, h1⟩, h2⟩, ha, he⟩
    rw [if_pos (by simpa using h0), if_neg (by simp [h1]), if_neg (by simp [h2]), bind_ok_eq _ ha]
    exact he

/-- C43: when comparing raises: the parts agree and exactly one attribute list is missing, or the attributes agree and
exactly one list of extensions is missing. -/
theorem eqv_error_iff {a b : AttCert} : a.eqv b = .error .typeError ↔ SameParts a b ∧
    (a.attSet.isSome ≠ b.attSet.isSome ∨
      SameList ACAttribute.id a.attSet b.attSet ∧ a.extensions.isSome ≠ b.extensions.isSome) := by
  have hl : ∀ {α : Type} {ident : α → Str} {f : α → α → Bool} (xs ys : Option (List α)),
      listEqv ident f xs ys = .error .typeError ↔ xs.isSome ≠ ys.isSome := by
    intro α ident f xs ys
    cases xs <;> cases ys <;> simp only [listEqv] <;> try simp
    split <;> simp
  rw [← same_first, SameList, ← listEqv_iff (fun _ _ => attribute_eqv),
    ← hl (ident := ACAttribute.id) (f := ACAttribute.eqv), ← hl (ident := ACExtension.eid) (f := ACExtension.eqv)]
  unfold AttCert.eqv
  by_cases h0 : (optEqv ACIssuer.eqv a.issuer b.issuer && a.holder.eqv b.holder && a.info.eqv b.info &&
    a.revRules.eqv b.revRules) = true
  swap
  · rw [if_neg h0, Bool.eq_false_iff.2 h0]; simp
  rw [if_pos h0, h0]
  by_cases h1 : delEqv a.delRules b.delRules = true
  swap
  · rw [if_pos (by simpa using h1), Bool.eq_false_iff.2 h1]; simp
  rw [if_neg (by simp [h1]), h1]
  by_cases h2 : sigEqv a.signature b.signature = true
  swap
  · rw [if_pos (by simpa using h2), Bool.eq_false_iff.2 h2]; simp
  rw [if_neg (by simp [h2]), h2]
  cases listEqv ACAttribute.id ACAttribute.eqv a.attSet b.attSet with
  | error e => simp [bind, Except.bind]
  | ok x => cases x <;> simp [bind, Except.bind]

/-- No two attributes, and no two extensions, of the certificate have the same id. -/
def DistinctIds (c : AttCert) : Prop :=
  ((c.attSet.getD []).map ACAttribute.id).Nodup ∧ ((c.extensions.getD []).map ACExtension.eid).Nodup

/-- The same list up to order, or both missing. -/
def PermList {α : Type} : Option (List α) → Option (List α) → Prop
  | none, none => True
  | some l, some m => l.Perm m
  | _, _ => False

theorem sameList_perm {α : Type} {ident : α → Str} {xs ys : Option (List α)} (hx : ((xs.getD []).map ident).Nodup)
    (hy : ((ys.getD []).map ident).Nodup) : SameList ident xs ys ↔ PermList xs ys := by
  unfold SameList
  cases xs <;> cases ys <;> simp only [PermList] <;> try simp
  simpa using nodup_perm (ident := ident) hx hy

/-- C43: with distinct ids, `==` is equality of the compared parts and of the lists up to order. -/
theorem eqv_distinct {a b : AttCert} (ha : DistinctIds a) (hb : DistinctIds b) : a.eqv b = .ok true ↔
    SameParts a b ∧ PermList a.attSet b.attSet ∧ PermList a.extensions b.extensions := by
  rw [eqv_iff, sameList_perm ha.1 hb.1, sameList_perm ha.2 hb.2]

theorem PermList.refl {α : Type} (xs : Option (List α)) : PermList xs xs := by cases xs <;> simp [PermList]

theorem PermList.symm {α : Type} {xs ys : Option (List α)} (h : PermList xs ys) : PermList ys xs := by
  cases xs <;> cases ys <;> simp only [PermList] at h ⊢
  exact h.symm

theorem PermList.trans {α : Type} {xs ys zs : Option (List α)} (h : PermList xs ys) (h' : PermList ys zs) :
    PermList xs zs := by
  cases xs <;> cases ys <;> cases zs <;> simp only [PermList] at h h' ⊢
  exact h.trans h'

/-- C43: reflexive for distinct ids. -/
theorem eqv_refl {a : AttCert} (ha : DistinctIds a) : a.eqv a = .ok true :=
  (eqv_distinct ha ha).2 ⟨⟨rfl, rfl, rfl, rfl, rfl, rfl, rfl, rfl, rfl⟩, .refl _, .refl _⟩

/-- C43: symmetric for distinct ids. -/
theorem eqv_symm {a b : AttCert} (ha : DistinctIds a) (hb : DistinctIds b) (h : a.eqv b = .ok true) :
    b.eqv a = .ok true := by
  obtain ⟨⟨h1, h2, h3, h4, h5, h6, h7, h8, h9⟩, hl, he⟩ := (eqv_distinct ha hb).1 h
  exact (eqv_distinct hb ha).2
    ⟨⟨h1.symm, h2.symm, h3.symm, h4.symm, h5.symm, h6.symm, h7.symm, h8.symm, h9.symm⟩, hl.symm, he.symm⟩

/-- C43: transitive for distinct ids. -/
theorem eqv_trans {a b c : AttCert} (ha : DistinctIds a) (hb : DistinctIds b) (hc : DistinctIds c)
    (h : a.eqv b = .ok true) (h' : b.eqv c = .ok true) : a.eqv c = .ok true := by
  obtain ⟨⟨h1, h2, h3, h4, h5, h6, h7, h8, h9⟩, hl, he⟩ := (eqv_distinct ha hb).1 h
  obtain ⟨⟨g1, g2, g3, g4, g5, g6, g7, g8, g9⟩, gl, ge⟩ := (eqv_distinct hb hc).1 h'
  exact (eqv_distinct ha hc).2 ⟨⟨h1.trans g1, h2.trans g2, h3.trans g3, h4.trans g4, h5.trans g5, h6.trans g6, h7.trans g7,
    h8.trans g8, h9.trans g9⟩, hl.trans gl, he.trans ge⟩

/-- C43: the order of attributes and extensions does not matter if ids are distinct. -/
theorem eqv_order {a : AttCert} {l m : List ACAttribute} {k n : List ACExtension} (hl : l.Perm m) (hk : k.Perm n)
    (h1 : (l.map ACAttribute.id).Nodup) (h2 : (k.map ACExtension.eid).Nodup) :
    AttCert.eqv { a with attSet := some l, extensions := some k } { a with attSet := some m, extensions := some n } =
      .ok true :=
  (eqv_distinct (a := { a with attSet := some l, extensions := some k })
    (b := { a with attSet := some m, extensions := some n }) ⟨h1, h2⟩
    ⟨((hl.map _).nodup_iff).1 h1, ((hk.map _).nodup_iff).1 h2⟩).2
    ⟨⟨rfl, rfl, rfl, rfl, rfl, rfl, rfl, rfl, rfl⟩, hl, hk⟩

example : DistinctIds sampleCert ∧ sampleCert.eqv { sampleCert with attSet := sampleCert.attSet.map List.reverse } =
    .ok true := by
  constructor
  · unfold DistinctIds; decide +kernel
  · decide +kernel

/-- The certificate with these values for the attribute `a`. -/
def repeatedCert (vs : List Str) : AttCert :=
  { sampleCert with attSet := some (vs.map fun v => ACAttribute.make "a".toList .string (some v)) }

/-- C43: with repeated ids a certificate may differ from itself. -/
theorem eqv_not_refl : (repeatedCert ["x".toList, "y".toList]).eqv (repeatedCert ["x".toList, "y".toList]) = .ok false := by
  decide +kernel

/-- C43: and the order of comparison matters. -/
theorem eqv_not_symm :
    (repeatedCert ["x".toList, "x".toList]).eqv (repeatedCert ["x".toList, "y".toList]) = .ok true ∧
    (repeatedCert ["x".toList, "y".toList]).eqv (repeatedCert ["x".toList, "x".toList]) = .ok false := by
  constructor <;> decide +kernel

/-- C43: comparing a certificate with the result of decoding it raises if it has no attributes. -/
theorem eqv_decoded_raises (c : AttCert) (h : c.attSet = none)
    (hs : SameParts c (content c)) : c.eqv (content c) = .error .typeError := by
  rw [eqv_error_iff]
  refine ⟨hs, .inl ?_⟩
  rw [h]
  simp [content, h]

example : AttCert.eqv { sampleCert with issuer := sampleCert.issuer.map fun i => { i with name := some "x".toList } }
    { sampleCert with holder := { sampleCert.holder with name := none } } = .ok true := by decide +kernel

/-! ### C44: formats -/

/-- C44: the three formats carry the same bytes. -/
theorem export_formats {X : Crypto} {c c' : AttCert} {s : SignArg X} {b : Bytes} (h : c.encode X s = .ok (b, c')) :
    c.exportAC X s .bytes = .ok (.bytearray b, c') ∧ c.exportAC X s .base64 = .ok (.bytes (b64encode b), c') ∧
    c.exportAC X s .base64full = .ok (.str (acHeader "BASE64" c.info.version ++ b64Text b ++
      "\n---- END ATTRIBUTE CERTIFICATE ----".toList), c') := by
  refine ⟨?_, ?_, ?_⟩ <;> simp only [AttCert.exportAC] <;> rw [bind_ok_eq _ h] <;> rfl

/-- C44: and importing them back is decoding these bytes; only `BYTES` changes the caller's data, which is emptied. -/
theorem import_formats (X : Crypto) (v : Bool) (b : Bytes) (version : Int) {c : AttCert} :
    let full := acHeader "BASE64" version ++ b64Text b ++ "\n---- END ATTRIBUTE CERTIFICATE ----".toList
    (AttCert.importAC X (.bytearray b) .bytes v = .ok (c, .bytearray []) ↔ AttCert.decode X b v = .ok (c, [])) ∧
    (AttCert.importAC X (.bytes (b64encode b)) .base64 v = .ok (c, .bytes (b64encode b)) ↔
      AttCert.decode X b v = .ok (c, [])) ∧
    (AttCert.importAC X (.str full) .base64full v = .ok (c, .str full) ↔ AttCert.decode X b v = .ok (c, [])) := by
  have hr : ∀ {r}, AttCert.decode X b v = .ok (c, r) → r = [] := fun h => (decode_ok.1 h).1
  have h64 : ∀ d, b64decodeData d = .ok b →
      (AttCert.importBase64 X v d = .ok (c, d) ↔ AttCert.decode X b v = .ok (c, [])) := by
    intro d hd
    unfold AttCert.importBase64
    rw [bind_ok_eq _ hd]
    simp only [except_bind_ok, except_pure_ok, Prod.exists, Prod.mk.injEq]
    constructor
    · rintro ⟨c1, r, h1, rfl, _⟩
      cases hr h1
      exact h1
    · intro h
      exact ⟨c, _, h, rfl, trivial⟩
  refine ⟨?_, h64 _ (b64decode_b64encode b), ?_⟩
  · simp only [AttCert.importAC, AttCert.importBytes, except_bind_ok, except_pure_ok, Prod.exists, Prod.mk.injEq]
    constructor
    · rintro ⟨c1, r, h1, rfl, _⟩
      cases hr h1
      exact h1
    · intro h
      exact ⟨c, _, h, rfl, rfl⟩
  · have ht : b64decodeData (.str (b64Text b)) = .ok b := by
      simp only [b64decodeData, b64Text_ascii, if_true, b64Text_bytes, b64decode_b64encode]
    simp only [AttCert.importAC, full_fourth]
    rw [← h64 _ ht]
    simp only [except_bind_ok, except_pure_ok, Prod.exists, Prod.mk.injEq, and_true]
    constructor
    · rintro ⟨c1, d1, h1, rfl⟩
      have : d1 = .str (b64Text b) := by
        simp only [AttCert.importBase64, except_bind_ok, except_pure_ok, Prod.exists, Prod.mk.injEq] at h1
        obtain ⟨_, _, _, _, _, _, h⟩ := h1
        exact h.symm
      rw [← this] at h1 ⊢; exact h1
    · intro h
      exact ⟨c, _, h, rfl⟩

/-- C44: what is left of the caller's data after an import. -/
theorem import_leaves {X : Crypto} {d d' : ACData} {f : ExportFormat} {v : Bool} {c : AttCert}
    (h : AttCert.importAC X d f v = .ok (c, d')) :
    (f = .bytes ∧ (∃ b, d = .bytearray b) ∧ d' = .bytearray []) ∨ (f = .base64 ∧ d' = d) ∨
      (f = .base64full ∧ (∃ s, d = .str s) ∧ d' = d) := by
  cases f with
  | bytes =>
    cases d with
    | bytearray b =>
      simp only [AttCert.importAC, AttCert.importBytes, except_bind_ok, except_pure_ok, Prod.exists, Prod.mk.injEq] at h
      obtain ⟨c1, r, h1, rfl, rfl⟩ := h
      exact .inl ⟨rfl, ⟨_, rfl⟩, by rw [(decode_ok.1 h1).1]⟩
    | bytes b =>
      simp only [AttCert.importAC, AttCert.importBytes, except_bind_ok] at h
      obtain ⟨_, _, h⟩ := h
      cases h
    | str s => cases h
  | base64 =>
    simp only [AttCert.importAC, AttCert.importBase64, except_bind_ok, except_pure_ok, Prod.exists, Prod.mk.injEq] at h
    obtain ⟨_, _, _, _, _, _, h⟩ := h
    exact .inr (.inl ⟨rfl, h.symm⟩)
  | text => cases h
  | xml => cases h
  | base64full =>
    cases d with
    | bytearray b => cases h
    | bytes b => cases h
    | str s =>
      simp only [AttCert.importAC] at h
      split at h
      · simp only [except_bind_ok, except_pure_ok, Prod.exists, Prod.mk.injEq] at h
        obtain ⟨c1, d1, h1, rfl, rfl⟩ := h
        exact .inr (.inr ⟨rfl, ⟨_, rfl⟩, rfl⟩)
      · cases h

/-- C44: XML is not supported in either direction and text cannot be imported. -/
theorem formats_unsupported (X : Crypto) (c : AttCert) (s : SignArg X) (d : ACData) (v : Bool) :
    c.exportAC X s .xml = .error (.exception "XML format not yet supported.") ∧
    AttCert.importAC X d .xml v = .error (.exception "XML format not yet supported.") ∧
    AttCert.importAC X d .text v = .error (.exception "TEXT import not yet supported.") := ⟨rfl, rfl, rfl⟩

/-- C44: signing needs a key in all formats. -/
theorem export_needs_key {X : Crypto} {c c' : AttCert} {algo : Str} {f : ExportFormat} {d : ACData} :
    c.exportAC X (.yes none algo) f ≠ .ok (d, c') := by
  have he : ∀ r, c.encode X (.yes none algo) ≠ .ok r := by
    intro r h
    simp only [AttCert.encode, AttCert.signArg, except_bind_ok] at h
    obtain ⟨_, _, _, h, _⟩ := h
    cases h
  intro h
  cases f with
  | xml => cases h
  | text => cases h
  | bytes | base64 | base64full =>
    simp only [AttCert.exportAC, except_bind_ok] at h
    exact he _ h.choose_spec.1

/-- C44: the numbers of the formats. -/
theorem exportFormat_values {n : Int} {f : ExportFormat} : ExportFormat.ofValue n = .ok f ↔ n = f.value := by
  unfold ExportFormat.ofValue
  constructor
  · intro h
    repeat' split at h
    all_goals cases h <;> assumption
  · rintro rfl
    cases f <;> rfl

/-! ### C70: the TEXT format -/

/-- C70: certificates are shown unless the issuer has no key or the signature no value. -/
theorem text_succeeds_iff (c : AttCert) : (∃ t, c.text = .ok t) ↔
    (∀ i, c.issuer = some i → i.pubKey ≠ none) ∧ ∀ g, c.signature = some g → g.value ≠ none := by
  delta AttCert.text
  rcases c.issuer with _ | ⟨_ | k, ka, u, n, l⟩ <;> rcases c.signature with _ | ⟨a, _ | v⟩
  · exact ⟨fun _ => ⟨nofun, nofun⟩, fun _ => ⟨_, rfl⟩⟩
  · exact ⟨nofun, fun h => absurd rfl (h.2 _ rfl)⟩
  · exact ⟨fun _ => ⟨nofun, by intro g hg; cases hg; exact nofun⟩, fun _ => ⟨_, rfl⟩⟩
  · exact ⟨nofun, fun h => absurd rfl (h.1 _ rfl)⟩
  · exact ⟨nofun, fun h => absurd rfl (h.1 _ rfl)⟩
  · exact ⟨nofun, fun h => absurd rfl (h.1 _ rfl)⟩
  · exact ⟨fun _ => ⟨by intro g hg; cases hg; exact nofun, nofun⟩, fun _ => ⟨_, rfl⟩⟩
  · exact ⟨nofun, fun h => absurd rfl (h.2 _ rfl)⟩
  · exact ⟨fun _ => ⟨by intro g hg; cases hg; exact nofun, by intro g hg; cases hg; exact nofun⟩, fun _ => ⟨_, rfl⟩⟩

/-- C70: the lines of the text of a complete certificate without line breaks in its texts. -/
theorem text_shows {c : AttCert} {t : Str} (h : c.text = .ok t) (hc : Complete c) (hs : SingleLine c) :
    splitLines t = certLines c := by
  obtain ⟨ls, e, rfl⟩ := text_lines h hc
  have hb := noBreak_cert hs
  rw [e] at hb ⊢
  rw [splitLines_unlines (fun l hl => hb l (by simp [hl])), splitLines_single (noBreak_of_contains (by decide +kernel))]

/-- C70: equal texts show equal certificates, but for the difference between missing and empty lists and rules. -/
theorem text_determines {c d : AttCert} {t : Str} (h : c.text = .ok t) (h' : d.text = .ok t) (hc : Complete c)
    (hd : Complete d) (hs : SingleLine c) (hs' : SingleLine d) :
    c.issuer = d.issuer ∧ c.holder = d.holder ∧ c.info = d.info ∧ c.attSet.getD [] = d.attSet.getD [] ∧
    c.revRules = d.revRules ∧ c.delRules.bind (·.extra) = d.delRules.bind (·.extra) ∧
    c.extensions.getD [] = d.extensions.getD [] ∧ c.signature = d.signature :=
  certLines_inj hc hd ((text_shows h hc hs).symm.trans (text_shows h' hd hs'))

example : Complete sampleCert ∧ SingleLine sampleCert ∧ (certLines sampleCert).length = 48 := by
  refine ⟨⟨⟨_, rfl, nofun, nofun⟩, nofun⟩, ⟨?_, nofun⟩, by decide +kernel⟩
  decide +kernel

/-- C70: with line breaks in values one attribute can look like two. -/
theorem text_forged :
    (repeatedCert ["x\n#### END ATTRIBUTE: a ####\n#### BEGIN ATTRIBUTE: a ####\nATTRIBUTE ID: a\nATTRIBUTE TYPE: AttributeType.STRING\nATTRIBUTE VALUE: y".toList]).text =
      (repeatedCert ["x".toList, "y".toList]).text := by decide +kernel

/-- C70: the TEXT export is this text, of the certificate after signing. -/
theorem text_export {X : Crypto} {c c' : AttCert} {s : SignArg X} {d : ACData} :
    c.exportAC X s .text = .ok (d, c') ↔ c.signArg X s = .ok c' ∧ ∃ t, c'.text = .ok t ∧ d = .str t := by
  simp only [AttCert.exportAC, except_bind_ok, except_pure_ok, Prod.mk.injEq]
  constructor
  · rintro ⟨c1, h1, t, h2, rfl, rfl⟩
    exact ⟨h1, t, h2, rfl⟩
  · rintro ⟨h1, t, h2, rfl⟩
    exact ⟨c', h1, t, h2, rfl, rfl⟩

/-! ### C71: constructors -/

/-- C71: with the default rules a certificate is valid for a day, without its first and last second. -/
theorem default_validity (c : AttCert) (now now' clock t : Int) (h : c.revRules = ACRevocation.make now now') :
    c.verifyTime clock (some t) = true ↔ now < t ∧ t < now' + 86400 := by
  rw [verify_time_iff, h]
  rfl

/-- C71: given times are kept, and so are URL and extension bytes. -/
theorem revocation_make (now now' a b : Int) (url : Option Str) (extra : Option Bytes) :
    ACRevocation.make now now' (some a) (some b) url extra = ⟨a, b, url, extra⟩ ∧
    ACRevocation.make now now' (some a) none url extra = ⟨a, now' + 86400, url, extra⟩ ∧
    ACRevocation.make now now' none (some b) url extra = ⟨now, b, url, extra⟩ := ⟨rfl, rfl, rfl⟩

/-- C71: an attribute never stores an empty value or name; the others are kept. -/
theorem attribute_make (id : Str) (type : AttType) (value name : Option Str) (extra : Option Bytes) :
    ACAttribute.make id type value name extra = ⟨id, type, cleanOpt value, cleanOpt name, extra⟩ := by
  rcases value with _ | _ | _ <;> rcases name with _ | _ | _ <;> simp [ACAttribute.make, cleanOpt]

/-- C71: so an attribute made by the constructor survives the codec but for empty extension bytes. -/
theorem attribute_make_clean (id : Str) (type : AttType) (value name : Option Str) :
    cleanAttribute (ACAttribute.make id type value name none) = ACAttribute.make id type value name none := by
  rw [attribute_make]
  rcases value with _ | _ | _ <;> rcases name with _ | _ | _ <;> rfl

/-- C71: serial number and time of issue are the given ones, else the random number and the clock. -/
theorem info_make (random now version s t : Int) : ACInfo.make random now version = ⟨version, random, now⟩ ∧
    ACInfo.make random now version (some s) (some t) = ⟨version, s, t⟩ ∧ (ACInfo.make random now).version = 0 :=
  ⟨rfl, rfl, rfl⟩

end Verif.Props
