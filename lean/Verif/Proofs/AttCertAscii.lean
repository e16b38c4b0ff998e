import Verif.Proofs.AttCertEncode
/-!
# Only ASCII certificates are encoded in the wire form of their content

The encoder stores numbers of characters and the decoder expects numbers of bytes, so the two agree only on texts with as
many bytes as characters.
-/

namespace Verif.Proofs
open Verif Verif.Spec

theorem le_append_inj {k m n : Nat} {a b : Bytes} (h : le k m ++ a = le k n ++ b) (hm : m < 256 ^ k) (hn : n < 256 ^ k) :
    m = n ∧ a = b := by
  obtain ⟨h1, h2⟩ := List.append_inj h (by simp)
  exact ⟨packLE_inj hm hn h1, h2⟩

theorem optText_fun {s : Option Str} {a b : Bytes} (ha : OptText s a) (hb : OptText s b) : a = b := by
  cases s with
  | none => exact Eq.trans ha (Eq.symm hb)
  | some s => exact ha.1.trans hb.1.symm

theorem optBytes_fun {s : Option Bytes} {a b : Bytes} (ha : OptBytes s a) (hb : OptBytes s b) : a = b := by
  cases s with
  | none => exact Eq.trans ha (Eq.symm hb)
  | some s => exact ha.1.trans hb.1.symm

theorem issuer_ascii {i : ACIssuer} {w e r r' : Bytes} (hw : IssuerWire (cleanIssuer i) w) (he : i.encode = .ok e)
    (h : w ++ r = e ++ r') : (AsciiOpt i.keyAlgo ∧ Ascii i.uid ∧ AsciiOpt i.name ∧ AsciiOpt i.url) ∧ r = r' := by
  obtain ⟨key, algo, name, url, h1, h2, h3, h4, hf, rfl⟩ := hw
  obtain ⟨key', algo', h1', h2', f1', f2', f3', f4', f5', rfl⟩ := issuer_encode_ok.1 he
  obtain ⟨f1, f2, f3, f4, f5⟩ : Fits16 key.length ∧ Fits16 (utf8 algo).length ∧ Fits16 (utf8 i.uid).length ∧
      Fits16 name.length ∧ Fits16 url.length := by simpa [SizesFit, cleanIssuer] using hf
  obtain rfl : key' = key := Option.some.inj (h1'.symm.trans h1)
  obtain rfl : algo' = algo := Option.some.inj (h2'.symm.trans h2)
  simp only [sizes, List.flatMap_cons, List.flatMap_nil, List.flatten_cons, List.flatten_nil, List.append_nil,
    List.append_assoc, packStr_length, packOptStr_length] at h
  obtain ⟨_, h⟩ := le_append_inj h f1 f1
  obtain ⟨l2, h⟩ := le_append_inj h f2 f2'
  obtain ⟨l3, h⟩ := le_append_inj h f3 f3'
  obtain ⟨l4, h⟩ := le_append_inj h f4 f4'
  obtain ⟨l5, h⟩ := le_append_inj h f5 f5'
  have a2 := utf8_ascii_of_length l2
  have a3 : Ascii i.uid := utf8_ascii_of_length l3
  have a4 := optText_ascii h3 l4
  have a5 := optText_ascii h4 l5
  refine ⟨⟨fun t ht => ?_, a3, a4, a5⟩, ?_⟩
  · rw [h2'] at ht
    cases ht
    exact a2
  · rw [← packStr_ascii a2, optText_fun h3 (optText_pack a4), optText_fun h4 (optText_pack a5),
      show (cleanIssuer i).uid = i.uid from rfl, ← packStr_ascii a3] at h
    simpa using h

theorem holder_ascii {i : ACHolder} {w e r r' : Bytes} (hw : HolderWire (cleanHolder i) w) (he : i.encode = .ok e)
    (h : w ++ r = e ++ r') : (Ascii i.keyAlgo ∧ Ascii i.uid ∧ AsciiOpt i.name) ∧ r = r' := by
  obtain ⟨name, h3, hf, rfl⟩ := hw
  obtain ⟨f1', f2', f3', f4', rfl⟩ := holder_encode_ok.1 he
  obtain ⟨f1, f2, f3, f4⟩ : Fits16 i.pubKey.length ∧ Fits16 (utf8 i.keyAlgo).length ∧ Fits16 (utf8 i.uid).length ∧
      Fits16 name.length := by simpa [SizesFit, cleanHolder] using hf
  simp only [sizes, List.flatMap_cons, List.flatMap_nil, List.flatten_cons, List.flatten_nil, List.append_nil,
    List.append_assoc, packStr_length, packOptStr_length, cleanHolder] at h
  obtain ⟨_, h⟩ := le_append_inj h f1 f1
  obtain ⟨l2, h⟩ := le_append_inj h f2 f2'
  obtain ⟨l3, h⟩ := le_append_inj h f3 f3'
  obtain ⟨l4, h⟩ := le_append_inj h f4 f4'
  have a2 := utf8_ascii_of_length l2
  have a3 := utf8_ascii_of_length l3
  have a4 := optText_ascii h3 l4
  refine ⟨⟨a2, a3, a4⟩, ?_⟩
  rw [← packStr_ascii a2, optText_fun h3 (optText_pack a4), ← packStr_ascii a3] at h
  simpa using h

theorem attribute_ascii {a : ACAttribute} {w e r r' : Bytes} (hw : AttributeWire (cleanAttribute a) w)
    (he : a.encode = .ok e) (h : w ++ r = e ++ r') : (Ascii a.id ∧ AsciiOpt a.value ∧ AsciiOpt a.name) ∧ r = r' := by
  obtain ⟨value, name, extra, h1, h2, h3, hf, rfl⟩ := hw
  obtain ⟨f1', f2', f3', f4', rfl⟩ := attribute_encode_ok.1 he
  obtain ⟨f1, f2, f3, f4⟩ : Fits16 (utf8 a.id).length ∧ Fits16 value.length ∧ Fits16 name.length ∧
      Fits16 extra.length := by simpa [SizesFit, cleanAttribute] using hf
  have e4 := optBytes_fun h3 (optBytes_clean _)
  subst e4
  simp only [sizes, List.flatMap_cons, List.flatMap_nil, List.flatten_cons, List.flatten_nil, List.append_nil,
    List.append_assoc, packStr_length, packOptStr_length, cleanAttribute] at h
  obtain ⟨l1, h⟩ := le_append_inj h f1 f1'
  obtain ⟨l2, h⟩ := le_append_inj h f2 f2'
  obtain ⟨l3, h⟩ := le_append_inj h f3 f3'
  have a1 := utf8_ascii_of_length l1
  have a2 := optText_ascii h1 l2
  have a3 := optText_ascii h2 l3
  refine ⟨⟨a1, a2, a3⟩, ?_⟩
  rw [← packStr_ascii a1, optText_fun h1 (optText_pack a2), optText_fun h2 (optText_pack a3)] at h
  simpa using h

theorem revocation_ascii {a : ACRevocation} {w e r r' : Bytes} (hw : RevocationWire (cleanRevocation a) w)
    (he : a.encode = .ok e) (h : w ++ r = e ++ r') : AsciiOpt a.url ∧ r = r' := by
  obtain ⟨va, vb, url, extra, h1, h2, _, _, h3, h4, hf, rfl⟩ := hw
  obtain ⟨va', vb', h1', h2', _, _, f3, f4, rfl⟩ := revocation_encode_ok.1 he
  obtain ⟨f1, f2⟩ : Fits16 url.length ∧ Fits16 extra.length := by simpa [SizesFit] using hf
  have e4 := optBytes_fun h4 (optBytes_clean _)
  subst e4
  obtain rfl : va' = va := by have := h1'.symm.trans h1; omega
  obtain rfl : vb' = vb := by have := h2'.symm.trans h2; omega
  simp only [sizes, List.flatMap_cons, List.flatMap_nil, List.flatten_cons, List.flatten_nil, List.append_nil,
    List.append_assoc, packStr_length, packOptStr_length] at h
  obtain ⟨l1, h⟩ := le_append_inj h f1 f3
  have a1 := optText_ascii h3 l1
  refine ⟨a1, ?_⟩
  rw [optText_fun h3 (optText_pack a1)] at h
  simpa [cleanRevocation] using h

theorem extension_ascii {x : ACExtension} {w e r r' : Bytes} (hw : ExtensionWire (cleanExtension x) w)
    (he : x.encode = .ok e) (h : w ++ r = e ++ r') : Ascii x.eid ∧ r = r' := by
  obtain ⟨extra, h3, hf, rfl⟩ := hw
  obtain ⟨f1', f2', rfl⟩ := extension_encode_ok.1 he
  obtain ⟨f1, f2⟩ : Fits16 (utf8 x.eid).length ∧ Fits16 extra.length := by simpa [SizesFit, cleanExtension] using hf
  have e4 := optBytes_fun h3 (optBytes_clean _)
  subst e4
  simp only [sizes, List.flatMap_cons, List.flatMap_nil, List.flatten_cons, List.flatten_nil, List.append_nil,
    List.append_assoc, packStr_length, cleanExtension] at h
  obtain ⟨l1, h⟩ := le_append_inj h f1 f1'
  have a1 := utf8_ascii_of_length l1
  refine ⟨a1, ?_⟩
  rw [← packStr_ascii a1] at h
  simpa using h

theorem delegation_wire_fun {d : Option ACDelegation} {a b : Bytes} (ha : DelegationWire d a) (hb : DelegationWire d b) :
    a = b := by
  cases d with
  | none => exact Eq.trans ha (Eq.symm hb)
  | some d =>
    obtain ⟨x, h1, _, _, rfl⟩ := ha
    obtain ⟨y, h2, _, _, rfl⟩ := hb
    obtain rfl : x = y := Option.some.inj (h1.symm.trans h2)
    rfl

theorem list_ascii {α : Type} {enc : α → Except PyExc Bytes} {wire : α → Bytes → Prop} {clean : α → α} {P : α → Prop}
    (hp : ∀ x w e r r', wire (clean x) w → enc x = .ok e → w ++ r = e ++ r' → P x ∧ r = r')
    {xs : List α} {ws es : List Bytes} {r r' : Bytes} (hw : List.Forall₂ wire (xs.map clean) ws)
    (he : List.Forall₂ (fun x w => enc x = .ok w) xs es) (h : ws.flatten ++ r = es.flatten ++ r') :
    (∀ x ∈ xs, P x) ∧ r = r' := by
  induction he generalizing ws with
  | nil => cases hw; exact ⟨by simp, h⟩
  | cons h1 _ ih =>
    cases hw with
    | cons h1' h2' =>
      simp only [List.flatten_cons, List.append_assoc] at h
      obtain ⟨p, h⟩ := hp _ _ _ _ _ h1' h1 h
      obtain ⟨ps, h⟩ := ih h2' h
      exact ⟨by simpa using ⟨p, ps⟩, h⟩

theorem info_wire_size {m n : Nat} {i : ACInfo} {a b r r' : Bytes} (ha : InfoWire m i a) (hb : InfoWire n i b)
    (h : a ++ r = b ++ r') : m = n ∧ a = b ∧ r = r' := by
  obtain ⟨v, s, t, rfl, f1, f2, f3, f4, rfl⟩ := ha
  obtain ⟨v', s', t', e, f1', f2', f3', f4', rfl⟩ := hb
  simp only [ACInfo.mk.injEq, Int.natCast_inj] at e
  obtain ⟨rfl, rfl, rfl⟩ := e
  simp only [List.append_assoc] at h
  obtain ⟨_, h⟩ := le_append_inj h (by omega) (by omega)
  obtain ⟨rfl, h⟩ := le_append_inj h (by omega) (by omega)
  exact ⟨rfl, rfl, by simpa using h⟩

/-- If the encoding of a certificate is a wire form of its content, then its texts are ASCII. -/
theorem body_ascii {n : Nat} {c : AttCert} {w e r r' : Bytes} (hw : BodyWire n (content c) w) (he : c.encodeBody = .ok e)
    (h : w ++ r = e ++ r') : (∀ t ∈ texts c, Ascii t) ∧ r = r' := by
  obtain ⟨issuer, atts, exts, wi, wh, wn, wa, wr, wd, we, e1, e2, e3, h1, h2, h3, ⟨was, h4, f4, rfl⟩, h5, h6,
    ⟨wes, h7, f7, rfl⟩, rfl⟩ := hw
  obtain ⟨i, bi, bh, bn, br, bd, ba, be, e4, g1, g2, g3, g5, g6, g4, g7, rfl⟩ := body_encode_ok.1 he
  obtain ⟨fa, bas, k4, rfl⟩ := encodeList_ok.1 g4
  obtain ⟨fe, bes, k7, rfl⟩ := encodeList_ok.1 g7
  obtain rfl : cleanIssuer i = issuer := by simpa [content, e4] using e1
  obtain rfl : (c.attSet.getD []).map cleanAttribute = atts := Option.some.inj e2
  have e5 : (c.extensions.getD []).map cleanExtension = exts := by
    simp only [content, cleanOpt_some] at e3
    revert e3
    cases h : (c.extensions.getD []).map cleanExtension <;> cases exts <;> simp
  subst e5
  simp only [List.append_assoc] at h
  obtain ⟨⟨a1, a2, a3, a4⟩, h⟩ := issuer_ascii h1 g1 h
  obtain ⟨⟨a5, a6, a7⟩, h⟩ := holder_ascii h2 g2 h
  obtain ⟨_, _, h⟩ := info_wire_size h3 (info_encode_ok.1 g3) h
  obtain ⟨_, h⟩ := le_append_inj h (fits_pow f4) (fits_pow fa)
  obtain ⟨a8, h⟩ := list_ascii (P := fun a : ACAttribute => Ascii a.id ∧ AsciiOpt a.value ∧ AsciiOpt a.name)
    (fun _ _ _ _ _ h1 h2 h3 => attribute_ascii h1 h2 h3) h4 k4 h
  obtain ⟨a9, h⟩ := revocation_ascii h5 g5 h
  have hd := delegation_wire_fun h6 (delegation_encode_wire g6)
  subst hd
  have h := List.append_cancel_left h
  obtain ⟨_, h⟩ := le_append_inj h (fits_pow f7) (fits_pow fe)
  obtain ⟨a10, h⟩ := list_ascii (P := fun x : ACExtension => Ascii x.eid)
    (fun _ _ _ _ _ h1 h2 h3 => extension_ascii h1 h2 h3) h7 k7 h
  rw [asciiOpt_iff] at a1 a3 a4 a7 a9
  refine ⟨fun t ht => ?_, h⟩
  simp only [texts, e4, List.mem_append, List.mem_cons, List.not_mem_nil, or_false, List.mem_flatMap, List.mem_map] at ht
  rcases ht with (((((((ht | rfl) | ht) | ht) | (rfl | rfl)) | ht) | ⟨a, hm, (rfl | ht) | ht⟩) | ht) | ⟨x, hm, rfl⟩
  · exact a1 t ht
  · exact a2
  · exact a3 t ht
  · exact a4 t ht
  · exact a5
  · exact a6
  · exact a7 t ht
  · exact (a8 a hm).1
  · exact asciiOpt_iff.1 (a8 a hm).2.1 t ht
  · exact asciiOpt_iff.1 (a8 a hm).2.2 t ht
  · exact a9 t ht
  · exact a10 x hm

end Verif.Proofs
