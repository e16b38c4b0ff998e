import Verif.Spec.Sizes
import Verif.Props.Columns
import Verif.Props.Encoder
import Verif.Props.EncoderLoss
import Verif.Props.NodeCount
/-!
# Sizes of certificates and of encoded policies (C153)
-/

namespace Verif.Props

open Proofs Spec

variable {U : Uni} {X : Crypto} {B : Bcrypt} {collate collate' : Str → Str} {a : Authority X} {env : RequestEnv}
  {cred : Credentials} {key : PublicKeyArg} {req : AttributeListArg} {exports exports' : Dict Str} {b : Bytes}
  {db db' : PAuthDb} {adb : AAuthDb} {penv : PAEnv} {serviceUid : Option Str} {r : SessionReturn} {refused : PyExc}

/-! ### Certificates -/

theorem sum_bytes {α : Type} {enc : α → Except PyExc Bytes} {f : α → Nat} {xs : List α} {ws : List Bytes}
    (h : List.Forall₂ (fun x w => enc x = .ok w) xs ws) (hf : ∀ x w, enc x = .ok w → w.length = f x) :
    ws.flatten.length = (xs.map f).sum := by
  induction h with
  | nil => rfl
  | cons h _ ih => simp [hf _ _ h, ih]

theorem attribute_bytes {x : ACAttribute} {w : Bytes} (h : x.encode = .ok w) : w.length = attributeBytes x := by
  obtain ⟨-, -, -, -, rfl⟩ := attribute_encode_ok.1 h
  simp [sizes, attributeBytes, size]
  omega

theorem extension_bytes {x : ACExtension} {w : Bytes} (h : x.encode = .ok w) : w.length = extensionBytes x := by
  obtain ⟨-, -, rfl⟩ := extension_encode_ok.1 h
  simp [sizes, extensionBytes, size]
  omega

theorem signature_bytes {g : ACSignature} {w : Bytes} (h : g.encode = .ok w) : w.length = signatureBytes (some g) := by
  obtain ⟨algo, value, h1, h2, -, -, rfl⟩ := signature_encode_ok.1 h
  simp [signatureBytes, h1, h2, size]
  omega

/-- **C153**: the size of the signed part of a certificate. -/
theorem body_size {c : AttCert} (h : c.encodeBody = .ok b) : b.length = bodyBytes c := by
  obtain ⟨i, bi, bh, bn, br, bd, ba, be, hi, g1, g2, g3, g5, g6, g4, g7, rfl⟩ := body_encode_ok.1 h
  obtain ⟨key, algo, h1, h2, -, -, -, -, -, rfl⟩ := issuer_encode_ok.1 g1
  obtain ⟨-, -, -, -, rfl⟩ := holder_encode_ok.1 g2
  obtain ⟨v, n, t, -, -, -, -, -, rfl⟩ := info_encode_ok.1 g3
  obtain ⟨va, vb, -, -, -, -, -, -, rfl⟩ := revocation_encode_ok.1 g5
  obtain ⟨-, bas, ha, rfl⟩ := encodeList_ok.1 g4
  obtain ⟨-, bes, he, rfl⟩ := encodeList_ok.1 g7
  have hd : bd.length = 2 + size (c.delRules.bind ACDelegation.extra) := by
    cases hc : c.delRules with
    | none =>
      rw [hc] at g6
      cases g6
      rfl
    | some d =>
      rw [hc] at g6
      obtain ⟨-, rfl⟩ := delegation_encode_ok.1 g6
      simp [size]
  have hsa := sum_bytes ha fun _ _ => attribute_bytes
  have hse := sum_bytes he fun _ _ => extension_bytes
  simp only [List.length_append, packLE_length, hd, hsa, hse]
  simp [sizes, bodyBytes, issuerBytes, holderBytes, hi, h1, h2, size]
  omega

/-- **C153**: the size of an encoded certificate is determined by the certificate returned, and nothing else. -/
theorem cert_size {c c' : AttCert} {s : SignArg X} (h : c.encode X s = .ok (b, c')) : b.length = certBytes c' := by
  unfold AttCert.encode at h
  simp only [except_bind_ok] at h
  obtain ⟨body, hb, c1, hs, h⟩ := h
  have hbody : bodyBytes c1 = bodyBytes c := by
    cases s with
    | no =>
      cases hs
      rfl
    | yes k algo =>
      cases k with
      | none => cases hs
      | some k =>
        obtain ⟨_, _, _, _, rfl⟩ := sign_ok.mp hs
        rfl
  cases hc : c1.signature with
  | none =>
    rw [hc] at h
    cases h
    rw [List.length_append, body_size hb, certBytes, hbody, hc]
    rfl
  | some g =>
    rw [hc] at h
    dsimp only at h
    simp only [except_bind_ok, except_pure_ok, Prod.mk.injEq] at h
    obtain ⟨sig, hg, rfl, rfl⟩ := h
    rw [List.length_append, body_size hb, certBytes, hbody, hc, signature_bytes hg]

/-- **C153**: exports have the size of the encoded certificate, or that in base 64. -/
theorem export_size {c c' : AttCert} {s : SignArg X} {d : ACData} :
    (c.exportAC X s .bytes = .ok (d, c') → ∃ b, d = .bytearray b ∧ b.length = certBytes c') ∧
    (c.exportAC X s .base64 = .ok (d, c') → ∃ b, d = .bytes b ∧ b.length = base64Bytes (certBytes c')) ∧
    (c.exportAC X s .base64full = .ok (d, c') → ∃ t, d = .str t ∧
      t.length = 99 + (decimal c.info.version).length + base64Bytes (certBytes c')) := by
  refine ⟨fun h => ?_, fun h => ?_, fun h => ?_⟩ <;> unfold AttCert.exportAC at h <;>
    simp only [except_bind_ok, except_pure_ok, Prod.mk.injEq, Prod.exists] at h <;>
    obtain ⟨b, c1, h, rfl, rfl⟩ := h
  · exact ⟨b, rfl, cert_size h⟩
  · exact ⟨_, rfl, by rw [b64encode_length, cert_size h, base64Bytes]⟩
  · refine ⟨_, rfl, ?_⟩
    have h1 : (acHeader "BASE64" c.info.version).length = 63 + (decimal c.info.version).length := by
      unfold acHeader
      simp only [List.length_append, List.length_cons, List.length_nil]
      have e1 : ("---- BEGIN ATTRIBUTE CERTIFICATE ----\nFORMAT: ".toList).length = 46 := by decide
      have e2 : ("BASE64".toList).length = 6 := by decide
      have e3 : ("\nVERSION: ".toList).length = 10 := by decide
      omega
    have h2 : ("\n---- END ATTRIBUTE CERTIFICATE ----".toList).length = 36 := by decide
    rw [List.length_append, List.length_append, h1, h2, b64Text, List.length_map, b64encode_length, cert_size h, base64Bytes]
    omega

/-! ### Certificates that are issued -/

theorem size_cleanOpt {α : Type} (x : Option (List α)) : size (cleanOpt x) = size x := by
  unfold cleanOpt
  split <;> rfl

theorem certified_bytes (x : UserAtt) : attributeBytes (certified x) = userBytes x := by
  unfold attributeBytes certified userBytes
  dsimp only
  rw [size_cleanOpt, size_cleanOpt]
  rfl

theorem row_bytes (r : Row) : attributeBytes r.certified = rowBytes r := by
  unfold attributeBytes Row.certified rowBytes
  dsimp only
  rw [size_cleanOpt, List.length_append, show ("/attribute/connection/".toList).length = 22 from by decide]
  show 9 + (22 + r.1.length) + r.2.2.length + r.1.length + 0 = _
  omega

theorem certificate_bytes (uri username : Str) (atts : List UserAtt) (rows : List Row) (sig : Bytes) :
    certBytes { certificate a uri env username key atts rows with signature := some ⟨some aauthSigAlgo, some sig⟩ } =
      issuedBytes a uri username key atts rows sig.length := by
  unfold certBytes bodyBytes certificate signatureBytes issuerBytes holderBytes issuedBytes
  dsimp only [Option.map_some, Option.getD_some, Option.getD_none, Option.bind_some]
  rw [List.map_append, List.sum_append, List.map_map, List.map_map,
    show (attributeBytes ∘ certified) = userBytes from funext certified_bytes,
    show (attributeBytes ∘ Row.certified) = rowBytes from funext row_bytes]
  have e1 : ("RSA[".toList).length = 4 := by decide
  have e2 : ("]".toList).length = 1 := by decide
  have e3 : ("[".toList).length = 1 := by decide
  have e4 : ("/user/".toList).length = 6 := by decide
  have e5 : aauthSigAlgo.length = 24 := by decide
  simp only [size, Option.getD_some, Option.getD_none, List.length_append, e1, e2, e3, e4, e5, List.map_nil, List.sum_nil,
    List.length_nil]
  omega

/-- **C153**: the size of an issued certificate, from the attributes selected, the rows about the connection, and the names, keys
and addresses of the authority and the client. -/
theorem issued_size (hU : U.Lawful) (h : a.issue U B collate adb env cred key req exports = .ok b) :
    ∃ username user sel uri rows body sig, cred.username = some username ∧ UserNamed collate adb (U.lower username) user ∧
      selectAtts (adb.userAttributes collate user.id) req = .ok sel ∧ a.aUri = some uri ∧
      ConnectionRows U a key exports env.con 0 env.random rows ∧
      (certificate a uri env username key (sel.map Prod.snd) rows).encodeBody = .ok body ∧
      X.sign a.key (X.sha256 body) = .ok sig ∧
      b.length = issuedBytes a uri username key (sel.map Prod.snd) rows sig.length := by
  obtain ⟨addr, username, user, sel, uri, rows, c', _, _, hun, huser, _, _, hsel, huri, hrows, hc⟩ := (issue_iff hU).mp h
  have hlen := cert_size hc
  unfold AttCert.encode at hc
  simp only [except_bind_ok] at hc
  obtain ⟨body, hb, c1, hs, hc⟩ := hc
  obtain ⟨body', sig, hb', hsig, rfl⟩ := sign_ok.mp hs
  rw [hb] at hb'
  cases hb'
  dsimp only at hc
  simp only [except_bind_ok, except_pure_ok, Prod.mk.injEq] at hc
  obtain ⟨w, hw, _, rfl⟩ := hc
  exact ⟨username, user, sel, uri, rows, body, sig, hun, huser, hsel, huri, hrows, hb, hsig,
    hlen.trans (certificate_bytes uri username _ rows sig)⟩

theorem certificate_fits {uri username : Str} {atts : List UserAtt} {rows : List Row} :
    Fits (certificate a uri env username key atts rows) ↔ IssuedFits a uri env username key atts rows := by
  have e1 : ("RSA[".toList).length = 4 := by decide
  have e2 : ("]".toList).length = 1 := by decide
  have e3 : ("[".toList).length = 1 := by decide
  have e4 : ("/user/".toList).length = 6 := by decide
  have e5 : ("/attribute/connection/".toList).length = 22 := by decide
  constructor
  · rintro ⟨⟨i, k, al, hi, hk, hal, f1, f2, f3, f4, f5⟩, ⟨g1, g2, g3, g4⟩, -, hs, ht, ⟨n1, n2⟩, ⟨r1, r2, r3, -⟩, -, -⟩
    cases hi
    cases hk
    cases hal
    simp only [certificate, List.length_append, e1, e2, e3, e4, size, Option.getD_some, List.length_map, Fits16] at *
    refine ⟨f1, by omega, f4, f5, g1, by omega, by omega, by omega, ht, r2, r3, n1, fun x hx => ?_, fun x hx => ?_⟩
    · obtain ⟨p1, p2, p3, -⟩ := n2 (certified x) (List.mem_append_left _ (List.mem_map_of_mem hx))
      refine ⟨p1, ?_, ?_⟩
      · exact (size_cleanOpt _).symm.trans_lt p2
      · exact (size_cleanOpt _).symm.trans_lt p3
    · obtain ⟨p1, p2, -, -⟩ := n2 x.certified (List.mem_append_right _ (List.mem_map_of_mem hx))
      have p1' : ("/attribute/connection/".toList ++ x.1).length < 65536 := p1
      rw [List.length_append, e5] at p1'
      exact ⟨by omega, (size_cleanOpt _).symm.trans_lt p2⟩
  · rintro ⟨h1, h2, h3, h4, h5, h6, h7, h8, h9, h10, h11, h12, h13, h14⟩
    simp only [size] at h3
    refine ⟨⟨_, _, _, rfl, rfl, rfl, ?_⟩, ?_, ?_, ?_, ?_, ⟨?_, fun x hx => ?_⟩, ?_, fun d hd => ?_, ?_⟩
    all_goals simp only [certificate, List.length_append, e1, e2, e3, e4, size, Option.getD_some, List.length_map, Fits16]
    · exact ⟨h1, by omega, by omega, h3, h4⟩
    · exact ⟨h5, by omega, by omega, by omega⟩
    · decide
    · omega
    · exact h9
    · exact h12
    · rcases List.mem_append.mp hx with hx | hx
      · obtain ⟨y, hy, rfl⟩ := List.mem_map.mp hx
        obtain ⟨p1, p2, p3⟩ := h13 y hy
        exact ⟨p1, (size_cleanOpt _).trans_lt p2, (size_cleanOpt _).trans_lt p3, Nat.zero_lt_succ 65535⟩
      · obtain ⟨y, hy, rfl⟩ := List.mem_map.mp hx
        obtain ⟨p1, p2⟩ := h14 y hy
        refine ⟨?_, (size_cleanOpt _).trans_lt p2, ?_, Nat.zero_lt_succ 65535⟩
        · show ("/attribute/connection/".toList ++ y.1).length < 65536
          rw [List.length_append, e5]
          omega
        · show y.1.length < 65536
          omega
    · exact ⟨h9, h10, h11, by decide⟩
    · cases hd
      decide
    · exact ⟨by decide, fun e he => by cases he⟩

/-- **C153**: exactly which requests get a certificate, with the sizes of all parts. -/
theorem issuable_iff (hU : U.Lawful) : (∃ b, a.issue U B collate adb env cred key req exports = .ok b) ↔
    ∃ addr username user sel uri rows body sig,
      exports.get "REMOTE_ADDR".toList = some addr ∧ cred.type = 0 ∧ cred.username = some username ∧
      UserNamed collate adb (U.lower username) user ∧
      (env.debug = true → ∃ h, B.hashpw (Peppered a cred) (utf8 user.password) = .ok h) ∧
      B.checkpw (Peppered a cred) (utf8 user.password) = .ok true ∧
      selectAtts (adb.userAttributes collate user.id) req = .ok sel ∧
      a.aUri = some uri ∧ ConnectionRows U a key exports env.con 0 env.random rows ∧
      IssuedFits a uri env username key (sel.map Prod.snd) rows ∧
      (certificate a uri env username key (sel.map Prod.snd) rows).encodeBody = .ok body ∧
      X.sign a.key (X.sha256 body) = .ok sig ∧ sig.length < 65536 := by
  constructor
  · rintro ⟨b, h⟩
    obtain ⟨addr, username, user, sel, uri, rows, c', h1, h2, h3, h4, h5, h6, h7, h8, h9, hc⟩ := (issue_iff hU).mp h
    unfold AttCert.encode at hc
    simp only [except_bind_ok] at hc
    obtain ⟨body, hb, c1, hs, hc⟩ := hc
    obtain ⟨body', sig, hb', hsig, rfl⟩ := sign_ok.mp hs
    rw [hb] at hb'
    cases hb'
    dsimp only at hc
    simp only [except_bind_ok, except_pure_ok, Prod.mk.injEq] at hc
    obtain ⟨w, hw, _, rfl⟩ := hc
    obtain ⟨_, _, h10, h11, _, h12, _⟩ := signature_encode_ok.1 hw
    cases h11
    exact ⟨addr, username, user, sel, uri, rows, body, sig, h1, h2, h3, h4, h5, h6, h7, h8, h9,
      certificate_fits.mp ((encode_succeeds_iff _).mp ⟨body, hb⟩), hb, hsig, h12⟩
  · rintro ⟨addr, username, user, sel, uri, rows, body, sig, h1, h2, h3, h4, h5, h6, h7, h8, h9, h10, hb, hsig, hlen⟩
    have hw : ∃ w, (ACSignature.mk (some aauthSigAlgo) (some sig)).encode = .ok w :=
      ⟨_, signature_encode_ok.2 ⟨_, _, rfl, rfl, by decide, hlen, rfl⟩⟩
    obtain ⟨w, hw⟩ := hw
    refine ⟨body ++ w, (issue_iff hU).mpr ⟨addr, username, user, sel, uri, rows,
      { certificate a uri env username key (sel.map Prod.snd) rows with signature := some ⟨some aauthSigAlgo, some sig⟩ },
      h1, h2, h3, h4, h5, h6, h7, h8, h9, ?_⟩⟩
    unfold AttCert.encode
    simp only [except_bind_ok]
    refine ⟨body, hb, _, sign_ok.mpr ⟨body, sig, hb, hsig, rfl⟩, ?_⟩
    dsimp only
    simp only [except_bind_ok, except_pure_ok]
    exact ⟨w, hw, rfl⟩

/-- **C153**: which issued certificates are too large for the database of the policy authority: sent alone and as they are, those
of more than 65535 bytes, and in base 64 those of more than 49149 bytes. All others start a session when nothing else prevents
it. -/
theorem issued_room_iff (hU : U.Lawful) (hX : X.Lawful) (hsha : ∀ l, (X.sha256 l).length ≤ 32)
    (ha : AsciiInputs a adb env cred key exports) (h : a.issue U B collate adb env cred key req exports = .ok b) {uri : Str}
    (huri : a.aUri = some uri) (hk : PAKeys collate' db) (hr : penv.random < 2 ^ 160) (ht : Trusted db uri)
    (hnow : env.now < penv.clock 0 ∧ penv.clock 0 < env.now + a.expire)
    (hnew : ∀ x ∈ db.certs, collate' x.serial ≠ collate' (numberText env.random))
    (hfresh : ∀ s ∈ db.sessions, collate' s.id ≠ collate' (numberText penv.random))
    (hassign : ∀ x ∈ db.assignments, collate' x.sessionId ≠ collate' (numberText penv.random))
    (hfault : penv.commitFault = none) {addr uid : Str} (haddr : exports'.get "REMOTE_ADDR".toList = some addr)
    (hend : env.now + a.expire < 2147483648) (htime : -2147483648 ≤ penv.now ∧ penv.now < 2147483648)
    (hua : uid.length ≤ 100 ∧ addr.length ≤ 100) :
    ((∃ d s, startSessionStrict X collate' refused db penv (some uid) (some [⟨b, 1, 0⟩]) exports' = (d, .ok s)) ↔
      b.length ≤ 65535) ∧
    ((∃ d s, startSessionStrict X collate' refused db penv (some uid) (some [⟨b64encode b, 1, 3⟩]) exports' = (d, .ok s)) ↔
      b.length ≤ 49149) := by
  have key : ∀ raw : RawCert, (raw = ⟨b, 1, 0⟩ ∨ raw = ⟨b64encode b, 1, 3⟩) →
      ((∃ d s, startSessionStrict X collate' refused db penv (some uid) (some [raw]) exports' = (d, .ok s)) ↔
        raw.data.length ≤ 65535) := by
    intro raw hraw
    constructor
    · rintro ⟨d, s, hst⟩
      obtain ⟨raws, cs, he, _, hs, hroom⟩ := (strict_iff hk hr hsha).mp hst
      obtain rfl := Option.some.inj he
      obtain ⟨c, rfl, hinfo, _⟩ := taken_issued hU hX ha h hraw hs
      refine (hroom.certs (raw, c) List.mem_cons_self ?_).2
      unfold isNew Spec.serialText
      rw [hinfo, List.all_eq_true]
      intro x hx
      exact decide_eq_true (hnew x hx)
    · intro hsize
      obtain ⟨d, hd⟩ := issued_room (refused := refused) hU hX hsha ha h huri hk hr ht hnow hnew hfresh hassign hfault haddr hraw
        hend htime hua hsize
      exact ⟨d, _, hd⟩
  refine ⟨key _ (.inl rfl), (key _ (.inr rfl)).trans ?_⟩
  dsimp only
  rw [b64encode_length]
  omega

/-! ### Trees -/

theorem value_bytes {t : Token} {bs : Bytes} (h : ValStored U t.type t.value bs) : bs.length = valueBytes t := by
  obtain ⟨ty, p, v⟩ := t
  dsimp only at h
  unfold valueBytes
  cases h with
  | none h1 h2 => cases ty <;> first | rfl | exact absurd rfl h1 | exact absurd rfl h2
  | str s h1 h2 =>
    have hl : ((utf8 s).take s.length).length = s.length := packStr_length s
    cases ty <;> first | exact hl | exact absurd rfl h1 | exact absurd rfl h2
  | int _ _ h3 _ => exact h3
  | float h => exact packF32_length h
  | floatInt _ h => exact packF32_length h

theorem rec_bytes (r : Rec) : r.bytes.length = 10 + r.val.length + 2 * r.cids.length := by
  unfold Rec.bytes
  simp only [List.length_append, packLE_length]
  have : (r.cids.flatMap (packLE 2)).length = 2 * r.cids.length := by
    induction r.cids with
    | nil => rfl
    | cons x l ih => simp [List.flatMap_cons, ih]; omega
  omega

mutual
theorem children_count (n : Node) : ((preorder n).map (fun m => m.children.length)).sum + 1 = (preorder n).length := by
  cases n with
  | mk k t i r cs =>
    simp only [preorder, List.map_cons, List.sum_cons, List.length_cons]
    have := children_counts cs
    show cs.length + _ + 1 = _
    omega
theorem children_counts (ns : List Node) :
    ((preorderList ns).map (fun m => m.children.length)).sum + ns.length = (preorderList ns).length := by
  cases ns with
  | nil => rfl
  | cons n ns =>
    simp only [preorderList, List.map_append, List.sum_append, List.length_append, List.length_cons]
    have := children_count n
    have := children_counts ns
    omega
end

theorem recs_bytes {ms : List Node} {recs : List Rec} (h : List.Forall₂ (RecOf U) ms recs) :
    (recs.map Rec.bytes).flatten.length =
      (ms.map (fun m => 10 + valueBytes m.tok)).sum + 2 * (ms.map (fun m => m.children.length)).sum := by
  induction h with
  | nil => rfl
  | cons hx _ ih =>
    rename_i m r ms recs
    simp only [List.map_cons, List.flatten_cons, List.length_append, List.sum_cons, ih, rec_bytes, value_bytes hx.value,
      hx.cids, List.length_map]
    omega

theorem base64_encodes {n : Node} {bs : Bytes} (h : astEncode U n true = .ok bs) :
    ∃ raw, astEncode U n = .ok raw ∧ bs = b64encode raw := by
  simp only [astEncode, except_bind_ok, except_pure_ok] at h ⊢
  obtain ⟨a, ha, b, hb, c, hc, d, hd, rfl⟩ := h
  exact ⟨_, ⟨a, ha, b, hb, c, hc, d, hd, rfl⟩, rfl⟩

/-- **C153**: the size of an encoded tree: three bytes, and twelve for each node besides the value of its token; in base 64, four
bytes for every three begun. -/
theorem tree_size {n : Node} {bs : Bytes} (b64 : Bool) (h : astEncode U n b64 = .ok bs) :
    bs.length = if b64 then base64Bytes (treeBytes n) else treeBytes n := by
  have hraw : ∀ bs, astEncode U n = .ok bs → bs.length = treeBytes n := by
    intro bs h
    obtain ⟨recs, h1, _, _, rfl⟩ := (encode_format U n bs).mp h
    unfold fileBytes treeBytes
    simp only [List.length_append, packLE_length, recs_bytes h1]
    have hc := children_count n
    have hs : ∀ ms : List Node, (ms.map (fun m => 12 + valueBytes m.tok)).sum =
        (ms.map (fun m => 10 + valueBytes m.tok)).sum + 2 * ms.length := by
      intro ms
      induction ms with
      | nil => rfl
      | cons m ms ih => simp only [List.map_cons, List.sum_cons, ih, List.length_cons]; omega
    rw [hs]
    omega
  cases b64 with
  | false => exact hraw bs h
  | true =>
    obtain ⟨raw, hr, rfl⟩ := base64_encodes h
    rw [b64encode_length, hraw raw hr]
    rfl

theorem packF32_ok_iff {q : ℚ} : (∃ bs, packF32 (.fin q) = .ok bs) ↔ SmallFloat q := by
  have hov := packF32_overflow q
  have habs : SmallFloat q ↔ |q| < (2 ^ 25 - 1) * 2 ^ 103 := by
    unfold SmallFloat
    rw [abs_lt]
  rw [habs]
  constructor
  · rintro ⟨bs, h⟩
    by_contra hc
    rw [hov.2 (not_lt.1 hc)] at h
    cases h
  · intro h
    cases hpk : packF32 (.fin q) with
    | ok bs => exact ⟨bs, rfl⟩
    | error e =>
      exfalso
      have he : packF32 (.fin q) = .error .overflowError := by
        unfold packF32 at hpk ⊢
        dsimp only at hpk ⊢
        by_cases c1 : q = 0
        · rw [if_pos c1] at hpk; cases hpk
        · rw [if_neg c1] at hpk ⊢
          by_cases c2 : f32Bits (if q < 0 then -q else q) < 255 * 2 ^ 23
          · rw [if_pos c2] at hpk; cases hpk
          · rw [if_neg c2]
      exact absurd h (not_lt.2 (hov.1 he))

theorem storable_iff {t : Token} : Storable U t ↔ ∃ bs, ValStored U t.type t.value bs := by
  obtain ⟨ty, p, v⟩ := t
  constructor
  · intro h
    unfold Storable at h
    dsimp only at h ⊢
    by_cases hi : ty = .int
    · subst hi
      cases v with
      | int i =>
        obtain ⟨bs, hb⟩ : ∃ bs, packI32 i = .ok bs := by
          unfold packI32; rw [if_pos h]; exact ⟨_, rfl⟩
        obtain ⟨h1, h2, h3, h4⟩ := packI32_ok.1 hb
        exact ⟨bs, .int h1 h2 h3 h4⟩
      | _ => exact h.elim
    · by_cases hf : ty = .float
      · subst hf
        cases v with
        | flt f =>
          cases f with
          | fin q =>
            obtain ⟨bs, hb⟩ := packF32_ok_iff.mpr h
            exact ⟨bs, .float hb⟩
          | inf n => exact ⟨_, .float rfl⟩
        | int i =>
          obtain ⟨q, hq, hs⟩ := h
          obtain ⟨bs, hb⟩ := packF32_ok_iff.mpr hs
          exact ⟨bs, .floatInt hq hb⟩
        | none => exact h.elim
        | str s => exact h.elim
      · cases v with
        | none => exact ⟨_, .none hi hf⟩
        | str s => exact ⟨_, .str s hi hf⟩
        | int i => cases ty <;> first | exact h.elim | exact absurd rfl hi | exact absurd rfl hf
        | flt f => cases ty <;> first | exact h.elim | exact absurd rfl hi | exact absurd rfl hf
  · rintro ⟨bs, h⟩
    dsimp only at h
    unfold Storable
    cases h with
    | none h1 h2 => cases ty <;> first | trivial | exact absurd rfl h1 | exact absurd rfl h2
    | str s h1 h2 => cases ty <;> first | trivial | exact absurd rfl h1 | exact absurd rfl h2
    | int h1 h2 _ _ => exact ⟨h1, h2⟩
    | float h =>
      rename_i f
      cases f with
      | fin q => exact packF32_ok_iff.mp ⟨_, h⟩
      | inf n => trivial
    | floatInt h1 h2 => exact ⟨_, h1, packF32_ok_iff.mp ⟨_, h2⟩⟩

theorem rec_exists {n : Node} (hf : NodeFits n) (hs : Storable U n.tok) (hid : ∀ c ∈ n.children, c.id < 65536) :
    ∃ r : Rec, RecOf U n r ∧ r.Fits := by
  obtain ⟨val, h1⟩ := storable_iff.mp hs
  have hv := value_bytes h1
  obtain ⟨k, ⟨ty, p, v⟩, i, rs, cs⟩ := n
  obtain ⟨f1, ⟨f2, f3⟩, f4, f5⟩ := hf
  dsimp only [Node.id, Node.kind, Node.tok, Node.children] at *
  obtain ⟨pn, rfl⟩ : ∃ pn : Nat, p = pn := ⟨p.toNat, by omega⟩
  have h3 : val.length < 65536 := by
    rw [hv]
    unfold valueBytes
    dsimp only
    split
    · decide
    · decide
    · exact f5 _ rfl
    · decide
  refine ⟨⟨i, k.value, ty.value, pn, val.length, val, cs.map Node.id⟩,
    ⟨rfl, (kindNumber_iff _ _).2 rfl, (typeNumber_iff _ _).2 rfl, rfl, h1, rfl, rfl⟩,
    ⟨f1, kindValue_lt k, typeValue_lt ty, by dsimp only; omega, h3, by simpa using f4, ?_⟩⟩
  intro c hc
  obtain ⟨m, hm, rfl⟩ := List.mem_map.1 hc
  exact hid m hm

/-- **C153**: exactly which trees can be encoded. -/
theorem tree_encodes_iff (n : Node) (b64 : Bool) : (∃ bs, astEncode U n b64 = .ok bs) ↔
    (preorder n).length < 65536 ∧ ∀ m ∈ preorder n, NodeFits m ∧ Storable U m.tok := by
  have hraw : (∃ bs, astEncode U n b64 = .ok bs) ↔ ∃ bs, astEncode U n = .ok bs := by
    cases b64 with
    | false => exact Iff.rfl
    | true =>
      constructor
      · rintro ⟨bs, h⟩
        obtain ⟨raw, h, _⟩ := base64_encodes h
        exact ⟨raw, h⟩
      · rintro ⟨bs, h⟩
        exact ⟨_, (base64_transparent U (.fin 0) n bs).1.mp h⟩
  rw [hraw]
  constructor
  · rintro ⟨bs, h⟩
    obtain ⟨recs, h1, h2, h3, _⟩ := (encode_format U n bs).mp h
    refine ⟨h1.length_eq ▸ h3, ?_⟩
    have key : ∀ ms recs, List.Forall₂ (RecOf U) ms recs → (∀ r ∈ recs, r.Fits) →
        ∀ m ∈ ms, NodeFits m ∧ Storable U m.tok := by
      intro ms recs h
      induction h with
      | nil => intro _ m hm; cases hm
      | cons hx _ ih =>
        rename_i m r ms recs
        intro hf x hxm
        rw [List.forall_mem_cons] at hf
        rcases List.mem_cons.mp hxm with rfl | hxm
        · have hst : Storable U x.tok := storable_iff.mpr ⟨_, hx.value⟩
          refine ⟨⟨hx.id ▸ hf.1.id, ?_, ?_, ?_⟩, hst⟩
          · rw [hx.pos]
            have := hf.1.pos
            omega
          · have := hf.1.num
            rw [hx.cids, List.length_map] at this
            exact this
          · intro s hs
            have h1 := value_bytes hx.value
            have h2 := hf.1.size
            rw [hx.size, h1] at h2
            unfold valueBytes at h2
            unfold Storable at hst
            rw [hs] at h2 hst
            revert h2 hst
            cases x.tok.type <;> intro hst h2 <;> first | exact h2 | exact hst.elim
        · exact ih hf.2 x hxm
    exact key _ _ h1 h2
  · rintro ⟨hn, h⟩
    have key : ∀ ms : List Node, (∀ m ∈ ms, NodeFits m ∧ Storable U m.tok) → (∀ m ∈ ms, ∀ c ∈ m.children, c.id < 65536) →
        ∃ recs, List.Forall₂ (RecOf U) ms recs ∧ ∀ r ∈ recs, r.Fits := by
      intro ms
      induction ms with
      | nil => intro _ _; exact ⟨[], .nil, fun r hr => by cases hr⟩
      | cons m ms ih =>
        intro h1 h2
        rw [List.forall_mem_cons] at h1 h2
        obtain ⟨r, hr, hf⟩ := rec_exists h1.1.1 h1.1.2 h2.1
        obtain ⟨recs, hrs, hfs⟩ := ih h1.2 h2.2
        exact ⟨r :: recs, .cons hr hrs, List.forall_mem_cons.mpr ⟨hf, hfs⟩⟩
    obtain ⟨recs, h1, h2⟩ := key (preorder n) h fun m hm c hc => (h c (child_ids_mem n m hm c hc)).1.id
    exact ⟨_, (encode_format U n _).mpr ⟨recs, h1, h2, h1.length_eq ▸ hn, rfl⟩⟩

/-! ### Policies -/

theorem lexeme_bytes {w : Str} {ty : TokenType} {v : TVal} {nx : Option Char} (h : Lexeme U w ty v nx) (p : Int) :
    12 + valueBytes ⟨ty, p, v⟩ ≤ 16 * w.length := by
  have h1 := lexeme_length h
  have h2 : valueBytes ⟨ty, p, v⟩ ≤ 4 ∨ valueBytes ⟨ty, p, v⟩ ≤ w.length := by
    unfold valueBytes
    dsimp only
    split
    · exact .inl (Nat.le_refl _)
    · exact .inl (Nat.le_refl _)
    · exact .inr (lexeme_value_length h _ rfl)
    · exact .inl (Nat.zero_le _)
  omega

theorem tokens_bytes {text : Str} {pos : Nat} {ts : List Token} (h : Tokenizes U text pos ts) :
    ∃ mid e, ts = mid ++ [e] ∧ (mid.map (fun t => 12 + valueBytes t)).sum ≤ 16 * text.length := by
  induction h with
  | done ws pos h => exact ⟨[], _, rfl, Nat.zero_le _⟩
  | tok ws w rest pos ty v toks h hw hr ih =>
    obtain ⟨mid, e, rfl, hs⟩ := ih
    refine ⟨_ :: mid, e, rfl, ?_⟩
    have := lexeme_bytes hw ((pos + ws.length : Nat) : Int)
    simp only [List.map_cons, List.sum_cons, List.length_append]
    omega

theorem filter_sum_le {α : Type} (f : α → Nat) (p : α → Bool) (l : List α) : ((l.filter p).map f).sum ≤ (l.map f).sum := by
  induction l with
  | nil => exact Nat.le_refl _
  | cons x l ih =>
    rw [List.filter_cons]
    split <;> simp only [List.map_cons, List.sum_cons] <;> omega

theorem storable_literal {t : Token} {w : Str} {nx : Option Char} (h : Lexeme U w t.type t.value nx) :
    Storable U t ↔ StorableLiteral t := by
  obtain ⟨ty, p, v⟩ := t
  have htext : ∀ {ty : TokenType} {s : Str}, ty ≠ .int → ty ≠ .float →
      (Storable U ⟨ty, p, .str s⟩ ↔ StorableLiteral ⟨ty, p, .str s⟩) := by
    intro ty s h1 h2
    refine ⟨fun _ => ⟨fun _ e => (by cases e), fun _ e => (by cases e)⟩, fun _ => ?_⟩
    unfold Storable
    cases ty <;> first | trivial | exact absurd rfl h1 | exact absurd rfl h2
  have hnone : ∀ {ty : TokenType}, ty ≠ .int → ty ≠ .float →
      (Storable U ⟨ty, p, .none⟩ ↔ StorableLiteral ⟨ty, p, .none⟩) := by
    intro ty h1 h2
    refine ⟨fun _ => ⟨fun _ e => (by cases e), fun _ e => (by cases e)⟩, fun _ => ?_⟩
    unfold Storable
    cases ty <;> first | trivial | exact absurd rfl h1 | exact absurd rfl h2
  dsimp only at h
  cases h with
  | punct w ty v nx hq =>
    simp only [punctuation, List.mem_cons, Prod.mk.injEq, List.not_mem_nil, or_false] at hq
    rcases hq with ⟨_, rfl, rfl⟩ | ⟨_, rfl, rfl⟩ | ⟨_, rfl, rfl⟩ | ⟨_, rfl, rfl⟩ | ⟨_, rfl, rfl⟩ |
      ⟨_, rfl, rfl⟩ | ⟨_, rfl, rfl⟩ | ⟨_, rfl, rfl⟩ | ⟨_, rfl, rfl⟩ <;>
      first | exact htext (by decide) (by decide) | exact hnone (by decide) (by decide)
  | gt => exact htext (by decide) (by decide)
  | lt => exact htext (by decide) (by decide)
  | string => exact htext (by decide) (by decide)
  | int neg ds m => exact ⟨fun h => ⟨fun i e => TVal.int.inj e ▸ h, fun _ e => by cases e⟩, fun h => h.1 _ rfl⟩
  | float neg ip fp x y =>
    generalize U.roundF _ = f
    cases f with
    | fin q =>
      exact ⟨fun h => ⟨fun _ e => (by cases e), fun q' e => PyFloat.fin.inj (TVal.flt.inj e) ▸ h⟩, fun h => h.2 _ rfl⟩
    | inf s => exact ⟨fun _ => ⟨fun _ e => (by cases e), fun _ e => by cases e⟩, fun _ => trivial⟩
  | att pre ident kw ty nx hc =>
    simp only [attClasses, List.mem_cons, Prod.mk.injEq, List.not_mem_nil, or_false] at hc
    rcases hc with ⟨_, rfl⟩ | ⟨_, rfl⟩ | ⟨_, rfl⟩ | ⟨_, rfl⟩ | ⟨_, rfl⟩ <;> exact htext (by decide) (by decide)
  | keyword w kw ty v nx hk =>
    simp only [keywords, List.mem_cons, Prod.mk.injEq, List.not_mem_nil, or_false] at hk
    rcases hk with ⟨_, rfl, _⟩ | ⟨_, rfl, _⟩ | ⟨_, rfl, _⟩ | ⟨_, rfl, _⟩ | ⟨_, rfl, _⟩ |
      ⟨_, rfl, _⟩ | ⟨_, rfl, _⟩ | ⟨_, rfl, _⟩ | ⟨_, rfl, _⟩ <;> exact htext (by decide) (by decide)

/-- Brackets and commas have no numbers. -/
theorem punct_storable {t : Token} {w : Str} {nx : Option Char} (hp : Punct t = true) (h : Lexeme U w t.type t.value nx) :
    Storable U t := by
  obtain ⟨ty, p, v⟩ := t
  simp only [Punct, Bool.or_eq_true, beq_iff_eq] at hp
  obtain ⟨bs, hv⟩ : ∃ bs, ValStored U ty v bs := by
    dsimp only at h
    cases h with
    | punct w ty v nx hq =>
      have hty : ty ≠ .int ∧ ty ≠ .float := by
        constructor <;> rintro rfl <;> simp at hp
      cases v with
      | none => exact ⟨_, .none hty.1 hty.2⟩
      | some s => exact ⟨_, .str _ hty.1 hty.2⟩
    | gt => simp at hp
    | lt => simp at hp
    | string => simp at hp
    | int => simp at hp
    | float => simp at hp
    | att pre ident kw ty nx hc =>
      simp only [attClasses, List.mem_cons, Prod.mk.injEq, List.not_mem_nil, or_false] at hc
      rcases hc with ⟨_, rfl⟩ | ⟨_, rfl⟩ | ⟨_, rfl⟩ | ⟨_, rfl⟩ | ⟨_, rfl⟩ <;> simp at hp
    | keyword w kw ty v nx hk =>
      simp only [keywords, List.mem_cons, Prod.mk.injEq, List.not_mem_nil, or_false] at hk
      rcases hk with ⟨_, rfl, _⟩ | ⟨_, rfl, _⟩ | ⟨_, rfl, _⟩ | ⟨_, rfl, _⟩ | ⟨_, rfl, _⟩ |
        ⟨_, rfl, _⟩ | ⟨_, rfl, _⟩ | ⟨_, rfl, _⟩ | ⟨_, rfl, _⟩ <;> simp at hp
  exact storable_iff.mpr ⟨bs, hv⟩

/-- What is known about the nodes of a parsed text. -/
theorem parsed_nodes (hU : U.Lawful) {k k' : Nat} {text : Str} {toks : List Token} {n : Node}
    (hl : lexTokens U text = .ok toks) (h : parseText U k text = .ok (n, k')) :
    ∃ mid, toks = ⟨.start, 0, .none⟩ :: mid ++ [⟨.«end», text.length, .none⟩] ∧
      List.Perm ((preorder n).map Node.tok) (mid.filter (fun t => !Punct t)) ∧
      List.Perm ((preorder n).map Node.id) (List.range' k (k' - k)) ∧ Tokenizes U text 0 (mid ++ [⟨.«end», text.length, .none⟩]) ∧
      ∀ t ∈ mid, ∃ i : Nat, t.pos = (i : Int) ∧ i < text.length ∧ ∃ w rest,
        text.drop i = w ++ rest ∧ Lexeme U w t.type t.value rest.head? := by
  obtain ⟨mid, h1, h2, -⟩ := token_positions U hU text toks hl
  obtain ⟨mid', h1', h2'⟩ := tokens_bracketed U hU text toks hl
  have hmid : mid' = mid := by
    rw [h1] at h1'
    simp only [List.cons_append, List.cons.injEq, true_and] at h1'
    exact (List.append_cancel_right h1').symm
  subst hmid
  obtain ⟨ts, h3, h4⟩ := (lexer_refines_grammar U hU text toks).mp hl
  rw [h1] at h3
  obtain rfl := (List.cons.inj h3).2
  have hp : parseTokens U k (⟨.start, 0, .none⟩ :: (mid' ++ [⟨.«end», text.length, .none⟩])) = .ok (n, k') := by
    unfold parseText at h
    rw [hl, h1] at h
    exact h
  have htok := parse_tokens U k k' _ _ mid' n rfl rfl (fun t h => (h2' t h).2) hp
  obtain ⟨h5, h6, -⟩ := parse_ids U k k' _ n hp
  have hperm := preorder_ids n
  rw [h6] at hperm
  exact ⟨mid', h1, htok ▸ preorder_toks n, hperm, h4, h2⟩

/-- **C153**: the size of the AST of a policy is between 12 bytes for each node and 16 for each character of the text, and three. -/
theorem policy_size (hU : U.Lawful) {k k' : Nat} {text : Str} {n : Node} (h : parseText U k text = .ok (n, k')) {bs : Bytes}
    (he : astEncode U n = .ok bs) :
    (preorder n).length = k' - k ∧ 3 + 12 * (k' - k) ≤ bs.length ∧ bs.length ≤ 3 + 16 * text.length := by
  obtain ⟨toks, hl⟩ : ∃ toks, lexTokens U text = .ok toks := by
    unfold parseText at h
    cases hl : lexTokens U text with
    | ok toks => exact ⟨toks, rfl⟩
    | error e => rw [hl] at h; cases h
  obtain ⟨mid, _, h2, h3, h4, _⟩ := parsed_nodes hU hl h
  have hlen : (preorder n).length = k' - k := by simpa using h3.length_eq
  have hsize := tree_size false he
  rw [if_neg (by decide)] at hsize
  refine ⟨hlen, ?_, ?_⟩
  · rw [hsize, treeBytes, ← hlen]
    have : ∀ ms : List Node, 12 * ms.length ≤ (ms.map (fun m => 12 + valueBytes m.tok)).sum := by
      intro ms
      induction ms with
      | nil => exact Nat.le_refl _
      | cons m ms ih => simp only [List.map_cons, List.sum_cons, List.length_cons]; omega
    have := this (preorder n)
    omega
  · obtain ⟨mid', e, hm, hs⟩ := tokens_bytes h4
    obtain ⟨rfl, _⟩ := List.append_inj' hm rfl
    have hsum : ((preorder n).map (fun m => 12 + valueBytes m.tok)).sum ≤ (mid.map (fun t => 12 + valueBytes t)).sum := by
      have e1 : (preorder n).map (fun m => 12 + valueBytes m.tok) =
          ((preorder n).map Node.tok).map (fun t => 12 + valueBytes t) := by rw [List.map_map]; rfl
      rw [e1, (h2.map _).sum_nat]
      exact filter_sum_le _ _ _
    rw [hsize, treeBytes]
    omega

/-- **C153**: the AST of a policy text shorter than 2^16, with ids below 2^16, can be encoded exactly if its ints have 32 bits and
its floats are not rounded to more than the largest binary32 number. -/
theorem policy_encodes_iff (hU : U.Lawful) {k k' : Nat} {text : Str} {toks : List Token} {n : Node}
    (hl : lexTokens U text = .ok toks) (h : parseText U k text = .ok (n, k')) (hk : k' < 65536) (ht : text.length < 65536)
    (b64 : Bool) : (∃ bs, astEncode U n b64 = .ok bs) ↔ ∀ t ∈ toks, StorableLiteral t := by
  obtain ⟨mid, h1, h2, h3, _, h5⟩ := parsed_nodes hU hl h
  have hlen : (preorder n).length = k' - k := by simpa using h3.length_eq
  have hmem : ∀ m ∈ preorder n, m.tok ∈ mid ∧ Punct m.tok = false := by
    intro m hm
    have := h2.mem_iff.1 (List.mem_map_of_mem (f := Node.tok) hm)
    rw [List.mem_filter] at this
    exact ⟨this.1, by simpa using this.2⟩
  have hlit : ∀ t ∈ mid, Storable U t ↔ StorableLiteral t := by
    intro t htm
    obtain ⟨i, _, _, w, rest, _, hw⟩ := h5 t htm
    exact storable_literal hw
  rw [tree_encodes_iff]
  constructor
  · rintro ⟨_, hs⟩ t htm
    rw [h1] at htm
    rcases List.mem_append.1 htm with htm | htm
    · rcases List.mem_cons.1 htm with rfl | htm
      · exact ⟨fun _ e => (by cases e), fun _ e => by cases e⟩
      · by_cases hp : Punct t = true
        · obtain ⟨_, _, _, _, _, _, hw⟩ := h5 t htm
          exact (hlit t htm).mp (punct_storable hp hw)
        · obtain ⟨m, hm, rfl⟩ := List.mem_map.1 (h2.mem_iff.2 (List.mem_filter.2 ⟨htm, by simpa using hp⟩))
          exact (hlit _ htm).mp (hs m hm).2
    · obtain rfl := List.mem_singleton.mp htm
      exact ⟨fun _ e => (by cases e), fun _ e => by cases e⟩
  · intro hs
    refine ⟨by omega, fun m hm => ⟨⟨?_, ?_, ?_, ?_⟩, ?_⟩⟩
    · have := h3.mem_iff.1 (List.mem_map_of_mem (f := Node.id) hm)
      rw [List.mem_range'_1] at this
      omega
    · obtain ⟨i, hp, hi, _⟩ := h5 _ (hmem m hm).1
      rw [hp]
      omega
    · have := children_lt n m hm
      omega
    · intro s hs
      obtain ⟨i, _, hi, w, rest, hw, hx⟩ := h5 _ (hmem m hm).1
      have a := lexeme_value_length hx s hs
      have b := congrArg List.length hw
      simp only [List.length_drop, List.length_append] at b
      omega
    · exact (hlit _ (hmem m hm).1).mpr (hs _ (h1 ▸ by simp [(hmem m hm).1]))

/-! ### Concrete cases -/

/-- The certificate of the examples. -/
example : (sampleCert.encode toyCrypto .no).map (fun p => p.1.length) = .ok (certBytes sampleCert) := by decide +kernel
/-- Signing adds the name of the algorithm and the signature. -/
example : (sampleCert.encode toyCrypto (.yes (some [7, 8]) "A".toList)).map (fun p => p.1.length) =
    .ok (certBytes sampleCert + 1 + 5) := by decide +kernel
/-- Five nodes with values of 2, 1, 0, 4 and 1 bytes. -/
example : exampleBytes.length = 3 + 12 * 5 + 8 := by decide +kernel
/-- The largest int that can be stored, and the next. -/
example : ((textBytes 0 "user.a = 2147483647").toOption.map List.length, (textBytes 0 "user.a = 2147483648").toOption) =
    (some (3 + 12 * 3 + 6), none) := by decide +kernel
/-- Sixteen bytes for a character are nearly needed. -/
example : (textBytes 0 "1>1").toOption.map List.length = some 48 ∧ 3 + 16 * "1>1".toList.length = 51 := by decide +kernel

/-- The database of the examples with another value. -/
def valueDb (v : Str) : AAuthDb := { sampleDb with assignments := [⟨1, "/a/age".toList, some v⟩] }

/-- The certificate with this value. -/
def valueIssue (v : Str) : Except PyExc Bytes :=
  sampleAuthority.issue asciiUni plainBcrypt id (valueDb v) sampleRequestEnv (sampleCred "ann" (some "x".toList)) sampleKey
    ⟨some [], some [some "/a/age".toList]⟩ (sampleExports "10.0.0.1")

theorem value_selected (v : Str) : selectAtts ((valueDb v).userAttributes id 1) ⟨some [], some [some "/a/age".toList]⟩ =
    .ok [("/a/age".toList, ⟨⟨"/a/age".toList, "age".toList, .int⟩, some v⟩)] := by
  with_unfolding_all rfl

theorem value_user {v : Str} {user : DbUser} (h : UserNamed id (valueDb v) (asciiUni.lower "ann".toList) user) :
    user = ⟨1, "ann".toList, "xP".toList⟩ := by
  have h1 := findUser_iff.mpr h
  have h2 : (valueDb v).findUser id (asciiUni.lower "ann".toList) = some ⟨1, "ann".toList, "xP".toList⟩ := by
    show (valueDb []).findUser id (asciiUni.lower "ann".toList) = _
    decide +kernel
  exact Option.some.inj (h1.symm.trans h2)

/-- Values of up to 65535 characters are certified. -/
theorem value_issued (v : Str) (hv : v.length < 65536) : ∃ b, valueIssue v = .ok b ∧ v.length < b.length := by
  have h0 : ∃ b, valueIssue [] = .ok b := issued_iff.mp (by decide +kernel)
  have h1 : ∃ b, valueIssue v = .ok b := by
    obtain ⟨addr, username, user, sel, uri, rows, body, sig, e1, e2, e3, e4, e7, e8, e9, e10, e11, e12, _, _, _⟩ :=
      (issuable_iff asciiUni_lawful).mp h0
    cases e3
    obtain rfl := value_user e4
    have hsel := e9.symm.trans (value_selected [])
    cases hsel
    have hfits : IssuedFits sampleAuthority uri sampleRequestEnv "ann".toList sampleKey
        ([("/a/age".toList, (⟨⟨"/a/age".toList, "age".toList, .int⟩, some v⟩ : UserAtt))].map Prod.snd) rows := by
      refine { e12 with number := e12.number, texts := fun x hx => ?_ }
      obtain rfl := List.mem_singleton.mp hx
      exact ⟨show ("/a/age".toList).length < 65536 by decide, hv, show ("age".toList).length < 65536 by decide⟩
    obtain ⟨body, hb⟩ := (encode_succeeds_iff _).mpr (certificate_fits.mpr hfits)
    exact (issuable_iff asciiUni_lawful).mpr ⟨addr, _, _, _, uri, rows, body, _, e1, e2, rfl, e4, e7, e8, value_selected v, e10,
      e11, hfits, hb, rfl, by simp [toyCrypto, sampleAuthority]⟩
  obtain ⟨b, hb⟩ := h1
  refine ⟨b, hb, ?_⟩
  obtain ⟨username, user, sel, uri, rows, body, sig, e1, e2, e3, _, _, _, _, hlen⟩ := issued_size asciiUni_lawful hb
  cases e1
  obtain rfl := value_user e2
  have hsel := e3.symm.trans (value_selected v)
  cases hsel
  rw [hlen, issuedBytes]
  simp only [List.map_cons, List.map_nil, List.sum_cons, List.sum_nil, userBytes, Option.getD_some]
  omega

/-- A certificate that is issued, but too long for the database in base 64; and one too long in any format. -/
example : (∃ b, valueIssue (List.replicate 50000 'x') = .ok b ∧ ¬ b.length ≤ 49149) ∧
    ∃ b, valueIssue (List.replicate 65535 'x') = .ok b ∧ ¬ b.length ≤ 65535 := by
  obtain ⟨b, h1, h2⟩ := value_issued (List.replicate 50000 'x') (by rw [List.length_replicate]; decide)
  obtain ⟨b', h1', h2'⟩ := value_issued (List.replicate 65535 'x') (by rw [List.length_replicate]; decide)
  rw [List.length_replicate] at h2 h2'
  exact ⟨⟨b, h1, by omega⟩, b', h1', by omega⟩

/-- A longer value is not certified. -/
example (v : Str) (hv : 65536 ≤ v.length) : ¬ ∃ b, valueIssue v = .ok b := by
  intro h
  obtain ⟨addr, username, user, sel, uri, rows, body, sig, _, _, e3, e4, _, _, e9, _, _, e12, _⟩ :=
    (issuable_iff asciiUni_lawful).mp h
  cases e3
  obtain rfl := value_user e4
  have hsel := e9.symm.trans (value_selected v)
  cases hsel
  have := (e12.texts _ (List.mem_singleton.mpr rfl)).2.1
  dsimp only [Option.getD_some] at this
  omega

end Verif.Props
