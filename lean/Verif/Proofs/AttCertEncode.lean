import Verif.Proofs.AttCert
/-!
# Encoding attribute certificates
-/

namespace Verif.Proofs
open Verif Verif.Spec

theorem packU_len {k n : Nat} {b : Bytes} : packU k (n : Int) = .ok b ↔ n < 256 ^ k ∧ b = packLE k n := by
  rw [packU_ok]
  constructor
  · rintro ⟨m, hm, h1, h2⟩
    obtain rfl : n = m := by omega
    exact ⟨h1, h2⟩
  · rintro ⟨h1, h2⟩
    exact ⟨n, rfl, h1, h2⟩

theorem packU_optLen {α : Type} {k : Nat} {x : Option (List α)} {b : Bytes} :
    packU k (optLen x) = .ok b ↔ size x < 256 ^ k ∧ b = packLE k (size x) := packU_len

theorem lenOf_ok {α : Type} {x : Option α} {a : α} : lenOf x = .ok a ↔ x = some a := by
  cases x <;> simp [lenOf]

@[simp] theorem packStr_length (s : Str) : (packStr s).length = s.length := by
  have := utf8_length s
  simp [packStr, this]

@[simp] theorem packOptStr_length (s : Option Str) : (packOptStr s).length = size s := packStr_length _

theorem ascii_iff (s : Str) : Ascii s ↔ s.all isAscii = true := by
  simp [Ascii, isAscii]

theorem packStr_ascii {s : Str} (h : Ascii s) : packStr s = utf8 s := by
  rw [packStr, List.take_of_length_le]
  exact Nat.le_of_eq ((utf8_length_eq s).2 ((ascii_iff s).1 h))

theorem utf8_nil_iff {s : Str} : utf8 s = [] ↔ s = [] := by
  constructor
  · intro h
    have := utf8_length s
    rw [h] at this
    exact List.eq_nil_of_length_eq_zero (by simpa using this)
  · rintro rfl; rfl

theorem optText_pack {s : Option Str} (h : AsciiOpt s) : OptText (cleanOpt s) (packOptStr s) := by
  match s, h with
  | none, _ => rfl
  | some [], _ => rfl
  | some (c :: t), h =>
    have e : packOptStr (some (c :: t)) = utf8 (c :: t) := packStr_ascii (h _ rfl)
    rw [e]
    exact ⟨rfl, fun h => by simp [utf8_nil_iff] at h⟩

theorem optBytes_clean (x : Option Bytes) : OptBytes (cleanOpt x) (x.getD []) := by
  match x with
  | none => rfl
  | some [] => rfl
  | some (b :: t) => exact ⟨rfl, by simp⟩

/-- A text of the wire form of the content has as many bytes as the text has characters only if it is ASCII. -/
theorem optText_ascii {s : Option Str} {w : Bytes} (h : OptText (cleanOpt s) w) (hl : w.length = size s) : AsciiOpt s := by
  match s with
  | none => intro t ht; cases ht
  | some [] => intro t ht; cases ht; intro c hc; cases hc
  | some (c :: t) =>
    obtain ⟨rfl, _⟩ := h
    intro u hu
    cases hu
    rw [ascii_iff, ← utf8_length_eq]
    exact hl

theorem utf8_ascii_of_length {s : Str} (h : (utf8 s).length = s.length) : Ascii s := (ascii_iff s).2 ((utf8_length_eq s).1 h)

/-! ### The parts -/

theorem issuer_encode_ok {i : ACIssuer} {b : Bytes} : i.encode = .ok b ↔ ∃ key algo, i.pubKey = some key ∧
    i.keyAlgo = some algo ∧ Fits16 key.length ∧ Fits16 algo.length ∧ Fits16 i.uid.length ∧ Fits16 (size i.name) ∧
    Fits16 (size i.url) ∧
    let fs := [key, packStr algo, packStr i.uid, packOptStr i.name, packOptStr i.url]
    b = sizes fs ++ fs.flatten := by
  simp only [ACIssuer.encode, except_bind_ok, except_pure_ok, packU_len, packU_optLen, lenOf_ok]
  constructor
  · rintro ⟨key, h1, algo, h2, _, ⟨f1, rfl⟩, _, ⟨f2, rfl⟩, _, ⟨f3, rfl⟩, _, ⟨f4, rfl⟩, _, ⟨f5, rfl⟩, rfl⟩
    exact ⟨key, algo, h1, h2, f1, f2, f3, f4, f5, by simp [sizes, List.append_assoc]⟩
  · rintro ⟨key, algo, h1, h2, f1, f2, f3, f4, f5, rfl⟩
    exact ⟨key, h1, algo, h2, _, ⟨f1, rfl⟩, _, ⟨f2, rfl⟩, _, ⟨f3, rfl⟩, _, ⟨f4, rfl⟩, _, ⟨f5, rfl⟩,
      by simp [sizes, List.append_assoc]⟩

theorem holder_encode_ok {h : ACHolder} {b : Bytes} : h.encode = .ok b ↔ Fits16 h.pubKey.length ∧
    Fits16 h.keyAlgo.length ∧ Fits16 h.uid.length ∧ Fits16 (size h.name) ∧
    let fs := [h.pubKey, packStr h.keyAlgo, packStr h.uid, packOptStr h.name]
    b = sizes fs ++ fs.flatten := by
  simp only [ACHolder.encode, except_bind_ok, except_pure_ok, packU_len, packU_optLen]
  constructor
  · rintro ⟨_, ⟨f1, rfl⟩, _, ⟨f2, rfl⟩, _, ⟨f3, rfl⟩, _, ⟨f4, rfl⟩, rfl⟩
    exact ⟨f1, f2, f3, f4, by simp [sizes, List.append_assoc]⟩
  · rintro ⟨f1, f2, f3, f4, rfl⟩
    exact ⟨_, ⟨f1, rfl⟩, _, ⟨f2, rfl⟩, _, ⟨f3, rfl⟩, _, ⟨f4, rfl⟩, by simp [sizes, List.append_assoc]⟩

theorem toBytes_ok {k : Nat} {v : Int} {b : Bytes} :
    toBytes k v = .ok b ↔ ∃ n : Nat, v = n ∧ n < 256 ^ k ∧ b = packLE k n := by
  rw [← packU_ok]
  unfold toBytes packU
  split <;> simp

theorem info_encode_ok {i : ACInfo} {b : Bytes} : i.encode = .ok b ↔ InfoWire 20 i b := by
  simp only [ACInfo.encode, except_bind_ok, except_pure_ok, packU_ok, toBytes_ok]
  constructor
  · rintro ⟨_, ⟨v, e1, f1, rfl⟩, _, ⟨k, e2, f2, rfl⟩, _, ⟨n, e3, f3, rfl⟩, _, ⟨t, e4, f4, rfl⟩, rfl⟩
    obtain rfl : k = 20 := by omega
    exact ⟨v, n, t, by cases i; simp_all, by omega, by decide, f3, by omega, rfl⟩
  · rintro ⟨v, n, t, rfl, f1, _, f3, f4, rfl⟩
    exact ⟨_, ⟨v, rfl, by omega, rfl⟩, _, ⟨20, rfl, by decide, rfl⟩, _, ⟨n, rfl, f3, rfl⟩, _, ⟨t, rfl, by omega, rfl⟩, rfl⟩

theorem attribute_encode_ok {a : ACAttribute} {b : Bytes} : a.encode = .ok b ↔ Fits16 a.id.length ∧
    Fits16 (size a.value) ∧ Fits16 (size a.name) ∧ Fits16 (size a.extra) ∧
    let fs := [packStr a.id, packOptStr a.value, packOptStr a.name, a.extra.getD []]
    b = sizes fs ++ le 1 a.type.value ++ fs.flatten := by
  simp only [ACAttribute.encode, except_bind_ok, except_pure_ok, packU_len, packU_optLen]
  constructor
  · rintro ⟨_, ⟨f1, rfl⟩, _, ⟨f2, rfl⟩, _, ⟨f3, rfl⟩, _, ⟨f4, rfl⟩, _, ⟨f5, rfl⟩, rfl⟩
    exact ⟨f1, f2, f3, f4, by simp [sizes, List.append_assoc, size]⟩
  · rintro ⟨f1, f2, f3, f4, rfl⟩
    exact ⟨_, ⟨f1, rfl⟩, _, ⟨f2, rfl⟩, _, ⟨f3, rfl⟩, _, ⟨f4, rfl⟩, _, ⟨attType_lt _, rfl⟩,
      by simp [sizes, List.append_assoc, size]⟩

theorem revocation_encode_ok {r : ACRevocation} {b : Bytes} : r.encode = .ok b ↔ ∃ va vb : Nat, r.validAfter = va ∧
    r.validBefore = vb ∧ va < 4294967296 ∧ vb < 4294967296 ∧ Fits16 (size r.url) ∧ Fits16 (size r.extra) ∧
    let fs := [packOptStr r.url, r.extra.getD []]
    b = sizes fs ++ le 4 va ++ le 4 vb ++ fs.flatten := by
  have h4 : ∀ (v : Int) (b : Bytes), packU 4 v = .ok b ↔ ∃ n : Nat, v = n ∧ n < 256 ^ 4 ∧ b = packLE 4 n :=
    fun _ _ => packU_ok
  simp only [ACRevocation.encode, except_bind_ok, except_pure_ok, packU_optLen, h4]
  constructor
  · rintro ⟨_, ⟨f1, rfl⟩, _, ⟨f2, rfl⟩, _, ⟨va, e1, f3, rfl⟩, _, ⟨vb, e2, f4, rfl⟩, rfl⟩
    exact ⟨va, vb, e1, e2, by omega, by omega, f1, f2, by simp [sizes, List.append_assoc, size]⟩
  · rintro ⟨va, vb, e1, e2, f3, f4, f1, f2, rfl⟩
    exact ⟨_, ⟨f1, rfl⟩, _, ⟨f2, rfl⟩, _, ⟨va, e1, by omega, rfl⟩, _, ⟨vb, e2, by omega, rfl⟩,
      by simp [sizes, List.append_assoc, size]⟩

theorem delegation_encode_ok {d : ACDelegation} {b : Bytes} : d.encode = .ok b ↔ Fits16 (size d.extra) ∧
    b = le 2 (size d.extra) ++ d.extra.getD [] := by
  simp only [ACDelegation.encode, except_bind_ok, except_pure_ok, packU_optLen]
  constructor
  · rintro ⟨_, ⟨f1, rfl⟩, rfl⟩
    exact ⟨f1, rfl⟩
  · rintro ⟨f1, rfl⟩
    exact ⟨_, ⟨f1, rfl⟩, rfl⟩

theorem extension_encode_ok {e : ACExtension} {b : Bytes} : e.encode = .ok b ↔ Fits16 e.eid.length ∧
    Fits16 (size e.extra) ∧
    let fs := [packStr e.eid, e.extra.getD []]
    b = sizes fs ++ fs.flatten := by
  simp only [ACExtension.encode, except_bind_ok, except_pure_ok, packU_len, packU_optLen]
  constructor
  · rintro ⟨_, ⟨f1, rfl⟩, _, ⟨f2, rfl⟩, rfl⟩
    exact ⟨f1, f2, by simp [sizes, List.append_assoc, size]⟩
  · rintro ⟨f1, f2, rfl⟩
    exact ⟨_, ⟨f1, rfl⟩, _, ⟨f2, rfl⟩, by simp [sizes, List.append_assoc, size]⟩

theorem signature_encode_ok {g : ACSignature} {b : Bytes} : g.encode = .ok b ↔ ∃ algo value, g.algo = some algo ∧
    g.value = some value ∧ Fits16 algo.length ∧ Fits16 value.length ∧
    b = le 2 algo.length ++ le 2 value.length ++ packStr algo ++ value := by
  simp only [ACSignature.encode, except_bind_ok, except_pure_ok, packU_len, lenOf_ok]
  constructor
  · rintro ⟨algo, h1, value, h2, _, ⟨f1, rfl⟩, _, ⟨f2, rfl⟩, rfl⟩
    exact ⟨algo, value, h1, h2, f1, f2, rfl⟩
  · rintro ⟨algo, value, h1, h2, f1, f2, rfl⟩
    exact ⟨algo, h1, value, h2, _, ⟨f1, rfl⟩, _, ⟨f2, rfl⟩, rfl⟩

theorem encodeAll_ok {α : Type} {enc : α → Except PyExc Bytes} {xs : List α} {b : Bytes} :
    encodeAll enc xs = .ok b ↔ ∃ ws : List Bytes, List.Forall₂ (fun x w => enc x = .ok w) xs ws ∧ b = ws.flatten := by
  induction xs generalizing b with
  | nil =>
    constructor
    · intro h; cases h; exact ⟨[], .nil, rfl⟩
    · rintro ⟨ws, h, rfl⟩; cases h; rfl
  | cons x xs ih =>
    simp only [encodeAll, except_bind_ok, except_pure_ok]
    constructor
    · rintro ⟨w, h1, b', h2, rfl⟩
      obtain ⟨ws, h3, rfl⟩ := ih.1 h2
      exact ⟨w :: ws, .cons h1 h3, rfl⟩
    · rintro ⟨ws, h, rfl⟩
      cases h with
      | cons h1 h2 => exact ⟨_, h1, _, ih.2 ⟨_, h2, rfl⟩, rfl⟩

theorem encodeList_ok {α : Type} {enc : α → Except PyExc Bytes} {xs : Option (List α)} {b : Bytes} :
    encodeList enc xs = .ok b ↔ Fits16 (size xs) ∧ ∃ ws : List Bytes,
      List.Forall₂ (fun x w => enc x = .ok w) (xs.getD []) ws ∧ b = le 2 (size xs) ++ ws.flatten := by
  unfold encodeList
  rw [size]
  cases xs.getD [] with
  | nil =>
    constructor
    · intro h; cases h; exact ⟨by simp [Fits16], [], .nil, by simp [packLE]⟩
    · rintro ⟨_, ws, h, rfl⟩; cases h; simp [packLE]
  | cons x l =>
    simp only [except_bind_ok, except_pure_ok, packU_len, encodeAll_ok]
    constructor
    · rintro ⟨_, ⟨f, rfl⟩, _, ⟨ws, h, rfl⟩, rfl⟩
      exact ⟨f, ws, h, rfl⟩
    · rintro ⟨f, ws, h, rfl⟩
      exact ⟨_, ⟨f, rfl⟩, _, ⟨ws, h, rfl⟩, rfl⟩

/-- The parts of an encoded body. -/
theorem body_encode_ok {c : AttCert} {b : Bytes} : c.encodeBody = .ok b ↔ ∃ i bi bh bn br bd ba be, c.issuer = some i ∧
    i.encode = .ok bi ∧ c.holder.encode = .ok bh ∧ c.info.encode = .ok bn ∧ c.revRules.encode = .ok br ∧
    encodeDel c.delRules = .ok bd ∧
    encodeList ACAttribute.encode c.attSet = .ok ba ∧ encodeList ACExtension.encode c.extensions = .ok be ∧
    b = bi ++ bh ++ bn ++ ba ++ br ++ bd ++ be := by
  unfold AttCert.encodeBody
  cases c.issuer with
  | none => simp [bind, Except.bind, encodeIssuer]
  | some i =>
    simp only [except_bind_ok, except_pure_ok, Option.some.injEq, encodeIssuer]
    constructor
    · rintro ⟨bi, h1, bh, h2, bn, h3, br, h4, bd, h5, ba, h6, be, h7, rfl⟩
      exact ⟨i, bi, bh, bn, br, bd, ba, be, rfl, h1, h2, h3, h4, h5, h6, h7, rfl⟩
    · rintro ⟨i', bi, bh, bn, br, bd, ba, be, rfl, h1, h2, h3, h4, h5, h6, h7, rfl⟩
      exact ⟨bi, h1, bh, h2, bn, h3, br, h4, bd, h5, ba, h6, be, h7, rfl⟩

/-! ### ASCII certificates are encoded in the wire form of their content -/

theorem issuer_encode_wire {i : ACIssuer} {b : Bytes} (h : i.encode = .ok b) (ha : AsciiOpt i.keyAlgo) (hu : Ascii i.uid)
    (hn : AsciiOpt i.name) (hr : AsciiOpt i.url) : IssuerWire (cleanIssuer i) b := by
  obtain ⟨key, algo, h1, h2, f1, f2, f3, f4, f5, rfl⟩ := issuer_encode_ok.1 h
  refine ⟨key, algo, _, _, h1, h2, optText_pack hn, optText_pack hr, ?_, ?_⟩
  · rw [← packStr_ascii (ha _ h2), show (cleanIssuer i).uid = i.uid from rfl, ← packStr_ascii hu]
    simp [SizesFit, f1, f2, f3, f4, f5]
  · rw [← packStr_ascii (ha _ h2), show (cleanIssuer i).uid = i.uid from rfl, ← packStr_ascii hu]

theorem holder_encode_wire {i : ACHolder} {b : Bytes} (h : i.encode = .ok b) (ha : Ascii i.keyAlgo) (hu : Ascii i.uid)
    (hn : AsciiOpt i.name) : HolderWire (cleanHolder i) b := by
  obtain ⟨f1, f2, f3, f4, rfl⟩ := holder_encode_ok.1 h
  have e1 : utf8 (cleanHolder i).keyAlgo = packStr i.keyAlgo := (packStr_ascii ha).symm
  have e2 : utf8 (cleanHolder i).uid = packStr i.uid := (packStr_ascii hu).symm
  refine ⟨_, optText_pack hn, ?_, ?_⟩
  · rw [e1, e2]
    simp [SizesFit, cleanHolder, f1, f2, f3, f4]
  · rw [e1, e2]; rfl

theorem attribute_encode_wire {a : ACAttribute} {b : Bytes} (h : a.encode = .ok b) (hi : Ascii a.id)
    (hv : AsciiOpt a.value) (hn : AsciiOpt a.name) : AttributeWire (cleanAttribute a) b := by
  obtain ⟨f1, f2, f3, f4, rfl⟩ := attribute_encode_ok.1 h
  have e1 : utf8 (cleanAttribute a).id = packStr a.id := (packStr_ascii hi).symm
  refine ⟨_, _, _, optText_pack hv, optText_pack hn, optBytes_clean _, ?_, ?_⟩
  · rw [e1]
    simpa [SizesFit] using ⟨f1, f2, f3, f4⟩
  · rw [e1]; rfl

theorem revocation_encode_wire {r : ACRevocation} {b : Bytes} (h : r.encode = .ok b) (hu : AsciiOpt r.url) :
    RevocationWire (cleanRevocation r) b := by
  obtain ⟨va, vb, e1, e2, f1, f2, f3, f4, rfl⟩ := revocation_encode_ok.1 h
  refine ⟨va, vb, _, _, e1, e2, f1, f2, optText_pack hu, optBytes_clean _, ?_, rfl⟩
  simp only [SizesFit, List.mem_cons, List.not_mem_nil, or_false]
  rintro f (rfl | rfl)
  · rw [packOptStr_length]; exact f3
  · rw [size] at f4; exact f4

theorem delegation_encode_wire {d : Option ACDelegation} {b : Bytes}
    (h : encodeDel d = .ok b) :
    DelegationWire (cleanDelegation d) b := by
  have e0 : le 2 0 ++ [] = [0, 0] := by simp [packLE]
  rcases d with _ | ⟨_ | _ | ⟨x, xs⟩⟩
  · injection h with h; exact h.symm
  · obtain ⟨_, hb⟩ := delegation_encode_ok.1 h; exact hb.trans e0
  · obtain ⟨_, hb⟩ := delegation_encode_ok.1 h; exact hb.trans e0
  · obtain ⟨f, hb⟩ := delegation_encode_ok.1 h
    exact ⟨x :: xs, rfl, by simp, f, hb⟩

theorem extension_encode_wire {e : ACExtension} {b : Bytes} (h : e.encode = .ok b) (hi : Ascii e.eid) :
    ExtensionWire (cleanExtension e) b := by
  obtain ⟨f1, f4, rfl⟩ := extension_encode_ok.1 h
  have e1 : utf8 (cleanExtension e).eid = packStr e.eid := (packStr_ascii hi).symm
  refine ⟨_, optBytes_clean _, ?_, ?_⟩
  · rw [e1]
    simpa [SizesFit] using ⟨f1, f4⟩
  · rw [e1]

theorem forall2_map_wire {α : Type} {enc : α → Except PyExc Bytes} {wire : α → Bytes → Prop} {clean : α → α}
    {xs : List α} {ws : List Bytes} (h : List.Forall₂ (fun x w => enc x = .ok w) xs ws)
    (hw : ∀ x ∈ xs, ∀ w, enc x = .ok w → wire (clean x) w) : List.Forall₂ wire (xs.map clean) ws := by
  induction h with
  | nil => exact .nil
  | cons h1 _ ih =>
    exact .cons (hw _ (by simp) _ h1) (ih (fun x hx => hw x (by simp [hx])))

theorem list_encode_wire {α : Type} {enc : α → Except PyExc Bytes} {wire : α → Bytes → Prop} {clean : α → α}
    {xs : Option (List α)} {b : Bytes} (h : encodeList enc xs = .ok b)
    (hw : ∀ x ∈ xs.getD [], ∀ w, enc x = .ok w → wire (clean x) w) : ListWire wire ((xs.getD []).map clean) b := by
  obtain ⟨f, ws, h1, rfl⟩ := encodeList_ok.1 h
  exact ⟨ws, forall2_map_wire h1 hw, by rw [List.length_map]; exact f, by rw [List.length_map]; rfl⟩

theorem asciiOpt_iff {s : Option Str} : AsciiOpt s ↔ ∀ t ∈ s.toList, Ascii t := by
  cases s <;> simp [AsciiOpt]

theorem cleanOpt_some {α : Type} (l : List α) : cleanOpt (some l) = if l = [] then none else some l := by
  cases l <;> simp [cleanOpt]

theorem body_encode_wire {c : AttCert} {b : Bytes} (h : c.encodeBody = .ok b) (ha : ∀ t ∈ texts c, Ascii t) :
    BodyWire 20 (content c) b := by
  obtain ⟨i, bi, bh, bn, br, bd, ba, be, e, h1, h2, h3, h4, h5, h6, h7, rfl⟩ := body_encode_ok.1 h
  simp only [texts, e, List.mem_append, List.mem_cons, List.not_mem_nil, or_false, List.mem_flatMap, List.mem_map] at ha
  refine ⟨cleanIssuer i, (c.attSet.getD []).map cleanAttribute, (c.extensions.getD []).map cleanExtension, bi, bh, bn, ba, br,
    bd, be, by simp [content, e], rfl, by simp only [content, cleanOpt_some], ?_, ?_, ?_, ?_, ?_, ?_, ?_, rfl⟩
  · refine issuer_encode_wire h1 (asciiOpt_iff.2 fun t ht => ?_) ?_ (asciiOpt_iff.2 fun t ht => ?_)
      (asciiOpt_iff.2 fun t ht => ?_) <;> (apply ha; simp_all)
  · refine holder_encode_wire h2 ?_ ?_ (asciiOpt_iff.2 fun t ht => ?_) <;> (apply ha; simp_all)
  · exact info_encode_ok.1 h3
  · refine list_encode_wire h6 fun a hm w hw => attribute_encode_wire hw ?_ (asciiOpt_iff.2 fun t ht => ?_)
      (asciiOpt_iff.2 fun t ht => ?_)
    · exact ha _ (.inl (.inl (.inr ⟨a, hm, by simp⟩)))
    · exact ha _ (.inl (.inl (.inr ⟨a, hm, by simp_all⟩)))
    · exact ha _ (.inl (.inl (.inr ⟨a, hm, by simp_all⟩)))
  · refine revocation_encode_wire h4 (asciiOpt_iff.2 fun t ht => ?_)
    apply ha; simp_all
  · exact delegation_encode_wire h5
  · refine list_encode_wire h7 fun x hm w hw => extension_encode_wire hw ?_
    exact ha _ (.inr ⟨x, hm, rfl⟩)

end Verif.Proofs
