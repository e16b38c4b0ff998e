import Verif.Spec.Certificate
import Verif.Proofs.Bytes
/-!
# Decoding attribute certificates: exactly the wire format
-/

namespace Verif.Proofs
open Verif Verif.Spec

/-- A slice of `k` bytes is there completely, or nothing is left after it. -/
theorem slice_cases (k : Nat) (r : Bytes) :
    (∃ a r', r = a ++ r' ∧ a.length = k ∧ r.take k = a ∧ r.drop k = r') ∨ (r.drop k = [] ∧ r.length < k) := by
  by_cases h : k ≤ r.length
  · exact .inl ⟨r.take k, r.drop k, (List.take_append_drop k r).symm, by simp [h], rfl, rfl⟩
  · exact .inr ⟨List.drop_eq_nil_of_le (by omega), by omega⟩

theorem append_nil_right {a r : Bytes} (h : [] = a ++ r) : r = [] := by
  cases a with
  | nil => exact h.symm
  | cons x a => cases h

theorem decodeOptStr_ok {bs : Bytes} {s : Option Str} : decodeOptStr bs = .ok s ↔ OptText s bs := by
  unfold decodeOptStr OptText
  by_cases h : bs = []
  · subst h
    cases s <;> simp
  · rw [if_neg h]
    cases s with
    | none => cases hd : utf8Decode bs <;> simp [Except.map, h]
    | some s =>
      cases hd : utf8Decode bs with
      | error e =>
        simp only [Except.map, reduceCtorEq, false_iff, not_and]
        intro hs
        rw [utf8Decode_ok.2 hs] at hd
        cases hd
      | ok t =>
        have ht := utf8Decode_ok.1 hd
        subst ht
        simp only [Except.map, Except.ok.injEq, Option.some.injEq]
        exact ⟨fun e => ⟨by rw [e], h⟩, fun e => utf8_inj e.1⟩

theorem optBytes_slice {size : Nat} {a : Bytes} (h : a.length = size) : OptBytes (optSlice size a) a := by
  unfold optSlice
  split
  · rename_i h0; subst h0; exact List.eq_nil_of_length_eq_zero h
  · rename_i h0
    refine ⟨rfl, ?_⟩
    rintro rfl
    exact h0 h.symm

theorem optSlice_of {x : Option Bytes} {b : Bytes} (h : OptBytes x b) : optSlice b.length b = x := by
  cases x with
  | none => have : b = [] := h; subst this; rfl
  | some x =>
    obtain ⟨rfl, hb⟩ := h
    rw [optSlice, if_neg]
    simpa using hb

/-! ### Every wire form decodes, whatever follows -/

theorem take_append_self (a r : Bytes) : (a ++ r).take a.length = a := by simp
theorem drop_append_self (a r : Bytes) : (a ++ r).drop a.length = r := by simp

theorem takeBytes_append (a r : Bytes) : takeBytes a.length (a ++ r) = .ok (a, r) := takeBytes_ok.2 ⟨rfl, rfl⟩

theorem fits_pow {n : Nat} (h : Fits16 n) : n < 256 ^ 2 := h

theorem bind_ok_eq {α β : Type} {x : Except PyExc α} {a : α} (f : α → Except PyExc β) (h : x = .ok a) :
    (x >>= f) = f a := by rw [h]; rfl

theorem issuer_decode {i : ACIssuer} {w : Bytes} (h : IssuerWire i w) (r : Bytes) :
    ACIssuer.decode (w ++ r) = .ok (i, r) := by
  obtain ⟨key, algo, name, url, h1, h2, h3, h4, hf, rfl⟩ := h
  obtain ⟨f1, f2, f3, f4, f5⟩ : Fits16 key.length ∧ Fits16 (utf8 algo).length ∧ Fits16 (utf8 i.uid).length ∧
      Fits16 name.length ∧ Fits16 url.length := by simpa [SizesFit] using hf
  simp only [sizes, List.flatMap_cons, List.flatMap_nil, List.flatten_cons, List.flatten_nil, List.append_nil,
    List.append_assoc, ACIssuer.decode]
  rw [bind_ok_eq _ (getU_append (fits_pow f1) _)]; dsimp only
  rw [bind_ok_eq _ (getU_append (fits_pow f2) _)]; dsimp only
  rw [bind_ok_eq _ (getU_append (fits_pow f3) _)]; dsimp only
  rw [bind_ok_eq _ (getU_append (fits_pow f4) _)]; dsimp only
  rw [bind_ok_eq _ (getU_append (fits_pow f5) _)]; dsimp only
  rw [drop_append_self, take_append_self, bind_ok_eq _ (takeBytes_append _ _)]; dsimp only
  rw [bind_ok_eq _ (takeBytes_append _ _)]; dsimp only
  rw [bind_ok_eq _ (takeBytes_append _ _)]; dsimp only
  rw [bind_ok_eq _ (takeBytes_append _ _)]; dsimp only
  rw [bind_ok_eq _ (utf8Decode_utf8 _), bind_ok_eq _ (utf8Decode_utf8 _), bind_ok_eq _ (decodeOptStr_ok.2 h4),
    bind_ok_eq _ (decodeOptStr_ok.2 h3)]
  cases i; simp_all [pure, Except.pure]

theorem holder_decode {h : ACHolder} {w : Bytes} (hw : HolderWire h w) (r : Bytes) :
    ACHolder.decode (w ++ r) = .ok (h, r) := by
  obtain ⟨name, h3, hf, rfl⟩ := hw
  obtain ⟨f1, f2, f3, f4⟩ : Fits16 h.pubKey.length ∧ Fits16 (utf8 h.keyAlgo).length ∧ Fits16 (utf8 h.uid).length ∧
      Fits16 name.length := by simpa [SizesFit] using hf
  simp only [sizes, List.flatMap_cons, List.flatMap_nil, List.flatten_cons, List.flatten_nil, List.append_nil,
    List.append_assoc, ACHolder.decode]
  rw [bind_ok_eq _ (getU_append (fits_pow f1) _)]; dsimp only
  rw [bind_ok_eq _ (getU_append (fits_pow f2) _)]; dsimp only
  rw [bind_ok_eq _ (getU_append (fits_pow f3) _)]; dsimp only
  rw [bind_ok_eq _ (getU_append (fits_pow f4) _)]; dsimp only
  rw [drop_append_self, take_append_self, bind_ok_eq _ (takeBytes_append _ _)]; dsimp only
  rw [bind_ok_eq _ (takeBytes_append _ _)]; dsimp only
  rw [bind_ok_eq _ (takeBytes_append _ _)]; dsimp only
  rw [bind_ok_eq _ (utf8Decode_utf8 _), bind_ok_eq _ (utf8Decode_utf8 _), bind_ok_eq _ (decodeOptStr_ok.2 h3)]
  rfl

theorem info_decode {n : Nat} {i : ACInfo} {w : Bytes} (h : InfoWire n i w) (r : Bytes) :
    ACInfo.decode (w ++ r) = .ok (i, r) := by
  obtain ⟨v, s, t, rfl, h1, h2, h3, h4, rfl⟩ := h
  simp only [List.append_assoc, ACInfo.decode]
  rw [bind_ok_eq _ (getU_append (by omega) _)]; dsimp only
  rw [bind_ok_eq _ (getU_append (by omega) _)]; dsimp only
  rw [show (le n s ++ (le 4 t ++ r)).take n = le n s by simp [List.take_left'],
    show (le n s ++ (le 4 t ++ r)).drop n = le 4 t ++ r by simp [List.drop_left'],
    bind_ok_eq _ (getU_append (by omega) _), unpackLE_packLE h3]
  rfl

theorem attType_ofValue (t : AttType) : AttType.ofValue t.value = .ok t := by cases t <;> rfl

theorem attType_lt (t : AttType) : t.value < 256 ^ 1 := by cases t <;> decide

theorem attType_ofValue_ok {n : Nat} {t : AttType} (h : AttType.ofValue n = .ok t) : n = t.value := by
  match n with
  | 0 | 1 | 2 | 3 | 4 | 5 => injection h with h; subst h; rfl
  | n + 6 => cases h

theorem attribute_decode {a : ACAttribute} {w : Bytes} (h : AttributeWire a w) (r : Bytes) :
    ACAttribute.decode (w ++ r) = .ok (a, r) := by
  obtain ⟨value, name, extra, h1, h2, h3, hf, rfl⟩ := h
  obtain ⟨f1, f2, f3, f4⟩ : Fits16 (utf8 a.id).length ∧ Fits16 value.length ∧ Fits16 name.length ∧
      Fits16 extra.length := by simpa [SizesFit] using hf
  simp only [sizes, List.flatMap_cons, List.flatMap_nil, List.flatten_cons, List.flatten_nil, List.append_nil,
    List.append_assoc, ACAttribute.decode]
  rw [bind_ok_eq _ (getU_append (fits_pow f1) _)]; dsimp only
  rw [bind_ok_eq _ (getU_append (fits_pow f2) _)]; dsimp only
  rw [bind_ok_eq _ (getU_append (fits_pow f3) _)]; dsimp only
  rw [bind_ok_eq _ (getU_append (fits_pow f4) _)]; dsimp only
  rw [bind_ok_eq _ (getU_append (attType_lt _) _)]; dsimp only
  rw [bind_ok_eq _ (attType_ofValue _), bind_ok_eq _ (takeBytes_append _ _)]; dsimp only
  rw [bind_ok_eq _ (takeBytes_append _ _)]; dsimp only
  rw [bind_ok_eq _ (takeBytes_append _ _)]; dsimp only
  rw [bind_ok_eq _ (utf8Decode_utf8 _), bind_ok_eq _ (decodeOptStr_ok.2 h1), bind_ok_eq _ (decodeOptStr_ok.2 h2),
    drop_append_self, take_append_self, optSlice_of h3]
  rfl

theorem optText_size {s : Option Str} {b : Bytes} (h : OptText s b) :
    decodeSized b.length b = .ok s := by
  have := decodeOptStr_ok.2 h
  unfold decodeOptStr at this
  unfold decodeSized
  rw [← this]
  simp

theorem revocation_decode {v : ACRevocation} {w : Bytes} (h : RevocationWire v w) (r : Bytes) :
    ACRevocation.decode (w ++ r) = .ok (v, r) := by
  obtain ⟨va, vb, url, extra, e1, e2, h1, h2, h3, h4, hf, rfl⟩ := h
  obtain ⟨f1, f2⟩ : Fits16 url.length ∧ Fits16 extra.length := by simpa [SizesFit] using hf
  simp only [sizes, List.flatMap_cons, List.flatMap_nil, List.flatten_cons, List.flatten_nil, List.append_nil,
    List.append_assoc, ACRevocation.decode]
  rw [bind_ok_eq _ (getU_append (fits_pow f1) _)]; dsimp only
  rw [bind_ok_eq _ (getU_append (fits_pow f2) _)]; dsimp only
  rw [bind_ok_eq _ (getU_append (by omega) _)]; dsimp only
  rw [bind_ok_eq _ (getU_append (by omega) _)]; dsimp only
  rw [take_append_self, drop_append_self, bind_ok_eq _ (optText_size h3), take_append_self, drop_append_self,
    optSlice_of h4]
  cases v; simp_all [pure, Except.pure]

theorem delegation_decode {d : Option ACDelegation} {w : Bytes} (h : DelegationWire d w) (r : Bytes) :
    decodeDel (w ++ r) = .ok (d, r) := by
  cases d with
  | none =>
    have : w = [0, 0] := h
    subst this
    rfl
  | some d =>
    obtain ⟨b, e, hb, hf, rfl⟩ := h
    have hl : b.length ≠ 0 := by simpa using hb
    unfold decodeDel ACDelegation.decode
    rw [List.append_assoc, bind_ok_eq _ (getU_append (fits_pow hf) _)]; dsimp only
    rw [if_pos hl]
    simp only [bind_assoc]
    rw [bind_ok_eq _ (getU_append (fits_pow hf) _)]; dsimp only
    rw [take_append_self, drop_append_self, optSlice, if_neg hl]
    cases d; simp_all [pure, Except.pure, bind, Except.bind]

theorem extension_decode {x : ACExtension} {w : Bytes} (h : ExtensionWire x w) (r : Bytes) :
    ACExtension.decode (w ++ r) = .ok (x, r) := by
  obtain ⟨extra, h3, hf, rfl⟩ := h
  obtain ⟨f1, f2⟩ : Fits16 (utf8 x.eid).length ∧ Fits16 extra.length := by simpa [SizesFit] using hf
  simp only [sizes, List.flatMap_cons, List.flatMap_nil, List.flatten_cons, List.flatten_nil, List.append_nil,
    List.append_assoc, ACExtension.decode]
  rw [bind_ok_eq _ (getU_append (fits_pow f1) _)]; dsimp only
  rw [bind_ok_eq _ (getU_append (fits_pow f2) _)]; dsimp only
  rw [take_append_self, drop_append_self, bind_ok_eq _ (utf8Decode_utf8 _), take_append_self, drop_append_self,
    optSlice_of h3]
  rfl

theorem many_decode {α : Type} {dec : Bytes → Except PyExc (α × Bytes)} {wire : α → Bytes → Prop}
    (hd : ∀ x w, wire x w → ∀ r, dec (w ++ r) = .ok (x, r)) {xs : List α} {ws : List Bytes}
    (h : List.Forall₂ wire xs ws) (r : Bytes) : decodeMany dec xs.length (ws.flatten ++ r) = .ok (xs, r) := by
  induction h with
  | nil => rfl
  | cons hx _ ih =>
    simp only [List.flatten_cons, List.append_assoc, List.length_cons, decodeMany]
    rw [bind_ok_eq _ (hd _ _ hx _)]; dsimp only
    rw [bind_ok_eq _ ih]
    rfl

theorem body_decode {n : Nat} {c : AttCert} {w : Bytes} (h : BodyWire n c w) (r : Bytes) :
    AttCert.decodeBody (w ++ r) = .ok ({ c with signature := none }, r) := by
  obtain ⟨issuer, atts, exts, wi, wh, wn, wa, wr, wd, we, e1, e2, e3, h1, h2, h3, ⟨was, h4, f4, rfl⟩, h5, h6,
    ⟨wes, h7, f7, rfl⟩, rfl⟩ := h
  simp only [List.append_assoc, AttCert.decodeBody]
  rw [bind_ok_eq _ (issuer_decode h1 _)]; dsimp only
  rw [bind_ok_eq _ (holder_decode h2 _)]; dsimp only
  rw [bind_ok_eq _ (info_decode h3 _)]; dsimp only
  rw [bind_ok_eq _ (getU_append (fits_pow f4) _)]; dsimp only
  rw [bind_ok_eq _ (many_decode (fun _ _ h r => attribute_decode h r) h4 _)]; dsimp only
  rw [bind_ok_eq _ (revocation_decode h5 _)]; dsimp only
  rw [bind_ok_eq _ (delegation_decode h6 _)]; dsimp only
  rw [bind_ok_eq _ (getU_append (fits_pow f7) _)]; dsimp only
  rw [bind_ok_eq _ (many_decode (fun _ _ h r => extension_decode h r) h7 _), ← e1, ← e2, ← e3]
  rfl

/-! ### What decodes is a wire form, unless the bytes ended in the middle of the part -/

theorem issuer_wire {i : ACIssuer} {bs r : Bytes} (h : ACIssuer.decode bs = .ok (i, r)) :
    (∃ w, bs = w ++ r ∧ IssuerWire i w) ∨ r = [] := by
  simp only [ACIssuer.decode, except_bind_ok, except_pure_ok, Prod.exists, getU_ok, takeBytes_ok, utf8Decode_ok,
    decodeOptStr_ok] at h
  obtain ⟨n1, r1, ⟨rfl, f1⟩, n2, r2, ⟨rfl, f2⟩, n3, r3, ⟨rfl, f3⟩, n4, r4, ⟨rfl, f4⟩, n5, r5, ⟨rfl, f5⟩, a, q1, ⟨ha, la⟩,
    u, q2, ⟨rfl, lu⟩, nm, q3, ⟨rfl, ln⟩, ur, q4, ⟨rfl, lur⟩, algo, rfl, uid, rfl, url, hurl, name, hname, h⟩ := h
  cases h
  rcases slice_cases n1 r5 with ⟨key, r', rfl, hk, ht, hd⟩ | ⟨hd, _⟩
  · refine .inl ⟨_, ?_, key, algo, nm, ur, by rw [ht], rfl, hname, hurl, ?_, rfl⟩
    · rw [hd] at ha
      subst ha
      simp [sizes, hk, la, lu, ln, lur]
    · simp only [SizesFit, List.mem_cons, List.not_mem_nil, or_false]
      rintro f (rfl | rfl | rfl | rfl | rfl) <;> (unfold Fits16; omega)
  · right
    rw [hd] at ha
    have h1 := append_nil_right ha
    exact append_nil_right (append_nil_right (append_nil_right h1.symm).symm).symm

theorem holder_wire {i : ACHolder} {bs r : Bytes} (h : ACHolder.decode bs = .ok (i, r)) :
    (∃ w, bs = w ++ r ∧ HolderWire i w) ∨ r = [] := by
  simp only [ACHolder.decode, except_bind_ok, except_pure_ok, Prod.exists, getU_ok, takeBytes_ok, utf8Decode_ok,
    decodeOptStr_ok] at h
  obtain ⟨n1, r1, ⟨rfl, f1⟩, n2, r2, ⟨rfl, f2⟩, n3, r3, ⟨rfl, f3⟩, n4, r4, ⟨rfl, f4⟩, a, q1, ⟨ha, la⟩,
    u, q2, ⟨rfl, lu⟩, nm, q3, ⟨rfl, ln⟩, algo, rfl, uid, rfl, name, hname, h⟩ := h
  cases h
  rcases slice_cases n1 r4 with ⟨key, r', rfl, hk, ht, hd⟩ | ⟨hd, _⟩
  · refine .inl ⟨_, ?_, nm, hname, ?_, rfl⟩
    · rw [hd] at ha
      subst ha
      simp [sizes, hk, la, lu, ln]
    · rw [ht]
      simp only [SizesFit, List.mem_cons, List.not_mem_nil, or_false]
      rintro f (rfl | rfl | rfl | rfl) <;> (unfold Fits16; omega)
  · right
    rw [hd] at ha
    have h1 := append_nil_right ha
    exact append_nil_right (append_nil_right h1.symm).symm

theorem info_wire {i : ACInfo} {bs r : Bytes} (h : ACInfo.decode bs = .ok (i, r)) :
    ∃ n w, bs = w ++ r ∧ InfoWire n i w := by
  simp only [ACInfo.decode, except_bind_ok, except_pure_ok, Prod.exists, getU_ok] at h
  obtain ⟨v, r1, ⟨rfl, f1⟩, n, r2, ⟨rfl, f2⟩, t, r3, ⟨hd, f3⟩, h⟩ := h
  cases h
  rcases slice_cases n r2 with ⟨s, r', rfl, hk, ht, hd'⟩ | ⟨hd', _⟩
  · rw [hd'] at hd
    subst hd
    refine ⟨n, _, ?_, v, unpackLE s, t, by rw [ht], by omega, by omega, hk ▸ unpackLE_lt s, by omega, rfl⟩
    rw [← hk, le, le, le, le, packLE_unpackLE]
    simp
  · rw [hd'] at hd
    have := congrArg List.length hd
    simp at this
    omega

theorem attribute_wire {i : ACAttribute} {bs r : Bytes} (h : ACAttribute.decode bs = .ok (i, r)) :
    (∃ w, bs = w ++ r ∧ AttributeWire i w) ∨ r = [] := by
  simp only [ACAttribute.decode, except_bind_ok, except_pure_ok, Prod.exists, getU_ok, takeBytes_ok, utf8Decode_ok,
    decodeOptStr_ok] at h
  obtain ⟨n1, r1, ⟨rfl, f1⟩, n2, r2, ⟨rfl, f2⟩, n3, r3, ⟨rfl, f3⟩, n4, r4, ⟨rfl, f4⟩, n5, r5, ⟨rfl, f5⟩, ty, hty,
    a, q1, ⟨rfl, la⟩, u, q2, ⟨rfl, lu⟩, nm, q3, ⟨rfl, ln⟩, id, rfl, value, hvalue, name, hname, h⟩ := h
  cases h
  have := attType_ofValue_ok hty
  subst this
  rcases slice_cases n4 q3 with ⟨x, r', rfl, hk, ht, hd⟩ | ⟨hd, _⟩
  · refine .inl ⟨_, ?_, u, nm, x, hvalue, hname, by rw [ht]; exact optBytes_slice hk, ?_, rfl⟩
    · rw [hd]
      simp [sizes, hk, la, lu, ln]
    · simp only [SizesFit, List.mem_cons, List.not_mem_nil, or_false]
      rintro f (rfl | rfl | rfl | rfl) <;> (unfold Fits16; omega)
  · exact .inr hd

theorem optText_size' {n : Nat} {s : Option Str} {b : Bytes} (hb : b.length = n)
    (h : decodeSized n b = .ok s) : OptText s b := by
  rw [← decodeOptStr_ok, decodeOptStr, ← h, ← hb, decodeSized]
  simp

theorem revocation_wire {i : ACRevocation} {bs r : Bytes} (h : ACRevocation.decode bs = .ok (i, r)) :
    (∃ w, bs = w ++ r ∧ RevocationWire i w) ∨ r = [] := by
  simp only [ACRevocation.decode, except_bind_ok, except_pure_ok, Prod.exists, getU_ok] at h
  obtain ⟨n1, r1, ⟨rfl, f1⟩, n2, r2, ⟨rfl, f2⟩, n3, r3, ⟨rfl, f3⟩, n4, r4, ⟨rfl, f4⟩, url, hu, h⟩ := h
  cases h
  rcases slice_cases n1 r4 with ⟨u, r', rfl, hk, ht, hd⟩ | ⟨hd, _⟩
  · rw [hd]
    rw [ht] at hu
    rcases slice_cases n2 r' with ⟨x, r'', rfl, hk', ht', hd'⟩ | ⟨hd', _⟩
    · refine .inl ⟨_, ?_, n3, n4, u, x, rfl, rfl, by omega, by omega, optText_size' hk hu,
        by dsimp only; rw [ht']; exact optBytes_slice hk', ?_, rfl⟩
      · rw [hd']
        simp [sizes, hk, hk']
      · simp only [SizesFit, List.mem_cons, List.not_mem_nil, or_false]
        rintro f (rfl | rfl) <;> (unfold Fits16; omega)
    · exact .inr hd'
  · right
    rw [hd]
    simp

theorem delegation_wire {i : Option ACDelegation} {bs r : Bytes} (h : decodeDel bs = .ok (i, r)) :
    (∃ w, bs = w ++ r ∧ DelegationWire i w) ∨ r = [] := by
  simp only [decodeDel, except_bind_ok, Prod.exists, getU_ok] at h
  obtain ⟨n, r1, ⟨rfl, f⟩, h⟩ := h
  by_cases h0 : n = 0
  · subst h0
    rw [if_neg (by simp), except_pure_ok] at h
    cases h
    exact .inl ⟨[0, 0], rfl, rfl⟩
  · rw [if_pos h0] at h
    simp only [ACDelegation.decode, except_bind_ok, except_pure_ok, Prod.exists, getU_ok] at h
    obtain ⟨d, r2, ⟨n', r3, ⟨e, f'⟩, hd⟩, h⟩ := h
    cases hd
    cases h
    obtain ⟨rfl, rfl⟩ : n = n' ∧ r1 = r3 := by
      obtain ⟨e1, e2⟩ := List.append_inj e (by simp)
      exact ⟨packLE_inj f f' e1, e2⟩
    rcases slice_cases n r1 with ⟨x, r'', rfl, hk', ht', hd'⟩ | ⟨hd', _⟩
    · refine .inl ⟨le 2 n ++ x, by rw [hd', List.append_assoc], x, ?_, ?_, by unfold Fits16; omega, by rw [hk']⟩
      · rw [ht', optSlice, if_neg h0]
      · rintro rfl
        exact h0 hk'.symm
    · exact .inr hd'

theorem extension_wire {i : ACExtension} {bs r : Bytes} (h : ACExtension.decode bs = .ok (i, r)) :
    (∃ w, bs = w ++ r ∧ ExtensionWire i w) ∨ r = [] := by
  simp only [ACExtension.decode, except_bind_ok, except_pure_ok, Prod.exists, getU_ok, utf8Decode_ok] at h
  obtain ⟨n1, r1, ⟨rfl, f1⟩, n2, r2, ⟨rfl, f2⟩, eid, hu, h⟩ := h
  cases h
  rcases slice_cases n1 r2 with ⟨u, r', rfl, hk, ht, hd⟩ | ⟨hd, _⟩
  · rw [hd]
    rw [ht] at hu
    subst hu
    rcases slice_cases n2 r' with ⟨x, r'', rfl, hk', ht', hd'⟩ | ⟨hd', _⟩
    · refine .inl ⟨_, ?_, x, by dsimp only; rw [ht']; exact optBytes_slice hk', ?_, rfl⟩
      · rw [hd']
        simp [sizes, hk, hk']
      · simp only [SizesFit, List.mem_cons, List.not_mem_nil, or_false]
        rintro f (rfl | rfl) <;> (unfold Fits16; omega)
    · exact .inr hd'
  · right
    rw [hd]
    simp

theorem many_wire {α : Type} {dec : Bytes → Except PyExc (α × Bytes)} {wire : α → Bytes → Prop}
    (hd : ∀ x bs r, dec bs = .ok (x, r) → (∃ w, bs = w ++ r ∧ wire x w) ∨ r = [])
    (hn : ∀ x r, dec [] ≠ .ok (x, r)) {n : Nat} {xs : List α} {bs r : Bytes}
    (h : decodeMany dec n bs = .ok (xs, r)) :
    xs.length = n ∧ ((∃ ws : List Bytes, bs = ws.flatten ++ r ∧ List.Forall₂ wire xs ws) ∨ r = []) := by
  induction n generalizing xs bs with
  | zero =>
    cases h
    exact ⟨rfl, .inl ⟨[], rfl, .nil⟩⟩
  | succ n ih =>
    simp only [decodeMany, except_bind_ok, except_pure_ok, Prod.exists] at h
    obtain ⟨x, r1, h1, ys, r2, h2, h⟩ := h
    cases h
    obtain ⟨hl, h3⟩ := ih h2
    refine ⟨by simp [hl], ?_⟩
    rcases hd _ _ _ h1 with ⟨w, rfl, hw⟩ | rfl
    · rcases h3 with ⟨ws, rfl, hws⟩ | h3
      · exact .inl ⟨w :: ws, by simp, .cons hw hws⟩
      · exact .inr h3
    · right
      rcases h3 with ⟨ws, h3, _⟩ | h3
      · exact append_nil_right h3
      · exact h3

theorem getU_nil {k : Nat} (hk : 0 < k) (x : Nat × Bytes) : getU k [] ≠ .ok x := by
  intro h
  obtain ⟨n, r⟩ := x
  have := congrArg List.length (getU_ok.1 h).1
  simp at this
  omega

theorem bind_getU_nil {β : Type} {k : Nat} (hk : 0 < k) (f : Nat × Bytes → Except PyExc β) (b : β) :
    (getU k [] >>= f) ≠ .ok b := by
  intro h
  obtain ⟨a, ha, _⟩ := except_bind_ok.1 h
  exact getU_nil hk a ha

theorem body_wire {c : AttCert} {bs r : Bytes} (h : AttCert.decodeBody bs = .ok (c, r)) :
    c.signature = none ∧ ((∃ n w, bs = w ++ r ∧ BodyWire n c w) ∨ r = []) := by
  simp only [AttCert.decodeBody, except_bind_ok, except_pure_ok, Prod.exists] at h
  obtain ⟨issuer, r1, h1, holder, r2, h2, info, r3, h3, na, r4, h4, atts, r5, h5, rev, r6, h6, del, r7, h7, ne, r8, h8, exts,
    r9, h9, h⟩ := h
  cases h
  refine ⟨rfl, ?_⟩
  obtain ⟨l9, h9 | h9⟩ := many_wire (fun _ _ _ h => extension_wire h)
    (fun x r h => bind_getU_nil (by decide) _ _ h) h9
  swap; · exact .inr h9
  obtain ⟨wes, e9, h9⟩ := h9
  rcases delegation_wire h7 with ⟨wd, e7, w7⟩ | e7
  swap; · rw [e7] at h8; exact absurd h8 (getU_nil (by decide) _)
  rcases revocation_wire h6 with ⟨wr, e6, w6⟩ | e6
  swap; · rw [e6] at h7; exact absurd h7 (bind_getU_nil (by decide) _ _)
  obtain ⟨l5, h5 | e5⟩ := many_wire (fun _ _ _ h => attribute_wire h)
    (fun x r h => bind_getU_nil (by decide) _ _ h) h5
  swap; · rw [e5] at h6; exact absurd h6 (bind_getU_nil (by decide) _ _)
  obtain ⟨was, e5, h5⟩ := h5
  obtain ⟨n, wn, e3, w3⟩ := info_wire h3
  rcases holder_wire h2 with ⟨wh, e2, w2⟩ | e2
  swap; · rw [e2] at h3; exact absurd h3 (bind_getU_nil (by decide) _ _)
  rcases issuer_wire h1 with ⟨wi, e1, w1⟩ | e1
  swap; · rw [e1] at h2; exact absurd h2 (bind_getU_nil (by decide) _ _)
  obtain ⟨e4, f4⟩ := getU_ok.1 h4
  obtain ⟨e8, f8⟩ := getU_ok.1 h8
  exact .inl ⟨n, _, by simp [e1, e2, e3, e4, e5, e6, e7, e8, e9, l5, l9], issuer, atts, exts, wi, wh, wn, _, wr, wd, _, rfl,
    rfl, rfl, w1, w2, w3, ⟨was, h5, by unfold Fits16; omega, rfl⟩, w6, w7, ⟨wes, h9, by unfold Fits16; omega, rfl⟩, rfl⟩

end Verif.Proofs
