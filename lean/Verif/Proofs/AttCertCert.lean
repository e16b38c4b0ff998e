import Verif.Proofs.AttCertAscii
import Mathlib.Data.List.Perm.Subperm
import Mathlib.Data.List.Nodup
/-!
# Signatures, export formats and equality of attribute certificates
-/

namespace Verif.Proofs
open Verif Verif.Spec

/-! ### Signature part -/

theorem decodeSized_ok {n : Nat} {b : Bytes} {s : Option Str} :
    decodeSized n b = .ok s ↔ (match s with | none => n = 0 | some s => n ≠ 0 ∧ b = utf8 s) := by
  unfold decodeSized
  by_cases h : n = 0
  · rw [if_pos h]
    cases s <;> simp [h]
  · rw [if_neg h]
    cases hd : utf8Decode b with
    | error e =>
      cases s with
      | none => simp [Except.map, h]
      | some s =>
        simp only [Except.map, reduceCtorEq, false_iff, not_and]
        intro _ hs
        rw [utf8Decode_ok.2 hs] at hd
        cases hd
    | ok t =>
      have ht := utf8Decode_ok.1 hd
      subst ht
      cases s with
      | none => simp [Except.map, h]
      | some s =>
        simp only [Except.map, Except.ok.injEq, Option.some.injEq]
        exact ⟨fun e => ⟨h, by rw [e]⟩, fun e => utf8_inj e.2⟩

theorem signature_wire {g : ACSignature} {bs : Bytes} : ACSignature.decode bs = .ok (g, []) ↔ SignatureWire g bs := by
  simp only [ACSignature.decode, except_bind_ok, except_pure_ok, Prod.exists, getU_ok, decodeSized_ok]
  constructor
  · rintro ⟨na, r1, ⟨rfl, f1⟩, nv, r2, ⟨rfl, f2⟩, algo, ha, h⟩
    simp only [Prod.mk.injEq] at h
    obtain ⟨rfl, hd⟩ := h
    have hl : (r2.drop na).length ≤ nv := List.drop_eq_nil_iff.1 hd
    refine ⟨na, nv, r2.take na, r2.drop na, by unfold Fits16; omega, by unfold Fits16; omega, by simp, ?_, ha, ?_⟩
    · by_cases hk : na ≤ r2.length
      · exact .inl ⟨by simp [hk], hl⟩
      · exact .inr ⟨by simp; omega, List.drop_eq_nil_of_le (by omega)⟩
    · simp only [optSlice]
      by_cases h0 : nv = 0
      · simp [h0]
      · rw [if_neg h0, List.take_of_length_le hl]
        exact ⟨h0, rfl⟩
  · rintro ⟨na, nv, a, v, f1, f2, rfl, hc, ha, hv⟩
    have e1 : (a ++ v).take na = a ∧ (a ++ v).drop na = v := by
      rcases hc with ⟨rfl, _⟩ | ⟨hl, rfl⟩
      · simp
      · rw [List.append_nil]
        exact ⟨List.take_of_length_le (by omega), List.drop_eq_nil_of_le (by omega)⟩
    have hl : v.length ≤ nv := by
      rcases hc with ⟨_, h⟩ | ⟨_, rfl⟩
      · exact h
      · simp
    refine ⟨na, le 2 nv ++ (a ++ v), ⟨by simp, f1⟩, nv, a ++ v, ⟨rfl, f2⟩, g.algo, ?_, ?_⟩
    · rw [e1.1]; exact ha
    · rw [e1.2, List.drop_eq_nil_of_le hl, List.take_of_length_le hl]
      obtain ⟨ga, gv⟩ := g
      cases gv with
      | none => simp only at hv; simp [optSlice, hv]
      | some x => obtain ⟨h0, rfl⟩ := hv; simp [optSlice, h0]

/-- A signature part that is there completely decodes, whatever follows. -/
theorem signature_decode {algo : Str} {value r : Bytes} (f1 : Fits16 algo.length) (f2 : Fits16 value.length)
    (ha : Ascii algo) :
    ACSignature.decode (le 2 algo.length ++ le 2 value.length ++ packStr algo ++ value ++ r) =
      .ok (⟨cleanOpt (some algo), cleanOpt (some value)⟩, r) := by
  simp only [List.append_assoc, ACSignature.decode]
  rw [bind_ok_eq _ (getU_append (fits_pow f1) _)]; dsimp only
  rw [bind_ok_eq _ (getU_append (fits_pow f2) _)]; dsimp only
  have e : (packStr algo ++ (value ++ r)).take algo.length = packStr algo := by
    rw [List.take_left' (packStr_length _)]
  have e' : (packStr algo ++ (value ++ r)).drop algo.length = value ++ r := by
    rw [List.drop_left' (packStr_length _)]
  have e'' : decodeSized algo.length (packStr algo) = .ok (cleanOpt (some algo)) := by
    rw [decodeSized_ok, packStr_ascii ha]
    cases algo <;> simp [cleanOpt]
  rw [e, e', bind_ok_eq _ e'', take_append_self, drop_append_self]
  cases value <;> simp [optSlice, cleanOpt, pure, Except.pure]

/-! ### The whole certificate -/

theorem decode_ok {X : Crypto} {bs r : Bytes} {v : Bool} {c : AttCert} :
    AttCert.decode X bs v = .ok (c, r) ↔ r = [] ∧ CertWire c bs ∧ (v = true → c.verifySignature X = .ok true) := by
  unfold AttCert.decode
  simp only [except_bind_ok, Prod.exists]
  constructor
  · rintro ⟨c0, r1, h1, g, r2, h2, h⟩
    by_cases hr : 0 < r2.length
    · rw [if_pos hr] at h; cases h
    · rw [if_neg hr] at h
      obtain rfl : r2 = [] := List.eq_nil_of_length_eq_zero (by omega)
      have hg := signature_wire.1 h2
      obtain ⟨hs, hb⟩ := body_wire h1
      have key : CertWire { c0 with signature := if g.value = none ∧ g.algo = none then none else some g } bs := by
        rcases hb with ⟨n, w, rfl, hw⟩ | rfl
        · refine ⟨n, w, r1, g, hw, hg, rfl, ?_⟩
          cases g
          simp only [ACSignature.mk.injEq, and_comm]
        · exact absurd h2 (bind_getU_nil (by decide) _ _)
      cases v with
      | false =>
        rw [if_neg (by simp)] at h
        cases h
        exact ⟨rfl, key, by simp⟩
      | true =>
        rw [if_pos rfl] at h
        obtain ⟨ok, h3, h⟩ := except_bind_ok.1 h
        cases ok with
        | false => rw [if_neg (by simp)] at h; cases h
        | true =>
          rw [if_pos rfl] at h
          cases h
          exact ⟨rfl, key, fun _ => h3⟩
  · rintro ⟨rfl, ⟨n, w, sig, g, hb, hg, rfl, hs⟩, hv⟩
    have hc : ({ ({ c with signature := none } : AttCert) with
        signature := if g.value = none ∧ g.algo = none then none else some g } : AttCert) = c := by
      cases c
      cases g
      simp only [ACSignature.mk.injEq, and_comm] at hs ⊢
      rw [hs]
    refine ⟨_, sig, body_decode hb sig, g, [], signature_wire.2 hg, ?_⟩
    rw [if_neg (by simp)]
    cases v with
    | false => rw [if_neg (by simp), hc]; rfl
    | true =>
      rw [if_pos rfl, except_bind_ok]
      refine ⟨true, ?_, ?_⟩
      · rw [hc]; exact hv rfl
      · rw [if_pos rfl, hc]; rfl

/-! ### Only the content is encoded -/

theorem cleanOpt_getD {α : Type} (x : Option (List α)) : (cleanOpt x).getD [] = x.getD [] := by
  match x with
  | none => rfl
  | some [] => rfl
  | some (_ :: _) => rfl

theorem optLen_clean {α : Type} (x : Option (List α)) : optLen (cleanOpt x) = optLen x := by
  rw [optLen, optLen, cleanOpt_getD]

theorem packOptStr_clean (x : Option Str) : packOptStr (cleanOpt x) = packOptStr x := by
  rw [packOptStr, packOptStr, cleanOpt_getD]

theorem encodeAll_map {α : Type} {enc : α → Except PyExc Bytes} {f : α → α} (h : ∀ x, enc (f x) = enc x) (xs : List α) :
    encodeAll enc (xs.map f) = encodeAll enc xs := by
  induction xs with
  | nil => rfl
  | cons x xs ih => simp only [List.map_cons, encodeAll, h, ih]

theorem encodeList_map {α : Type} {enc : α → Except PyExc Bytes} {f : α → α} (h : ∀ x, enc (f x) = enc x)
    (xs : Option (List α)) : encodeList enc (some ((xs.getD []).map f)) = encodeList enc xs := by
  unfold encodeList
  cases hx : xs.getD [] with
  | nil => rfl
  | cons x l =>
    simp only [Option.getD_some, List.map_cons]
    rw [show f x :: l.map f = (x :: l).map f from rfl, encodeAll_map h]
    simp

theorem encodeList_clean {α : Type} {enc : α → Except PyExc Bytes} (xs : Option (List α)) :
    encodeList enc (cleanOpt xs) = encodeList enc xs := by
  unfold encodeList
  rw [cleanOpt_getD]

theorem encodeDel_clean (d : Option ACDelegation) : encodeDel (cleanDelegation d) = encodeDel d := by
  have e0 : (0 : Int) = ((0 : Nat) : Int) := rfl
  rcases d with _ | ⟨_ | _ | ⟨x, xs⟩⟩
  · rfl
  · simp [cleanDelegation, encodeDel, ACDelegation.encode, optLen, packU, packLE, bind, Except.bind, pure, Except.pure]
  · simp [cleanDelegation, encodeDel, ACDelegation.encode, optLen, packU, packLE, bind, Except.bind, pure, Except.pure]
  · rfl

theorem encodeBody_content (c : AttCert) : (content c).encodeBody = c.encodeBody := by
  have h1 : encodeIssuer (c.issuer.map cleanIssuer) = encodeIssuer c.issuer := by
    cases c.issuer with
    | none => rfl
    | some i => simp only [Option.map_some, encodeIssuer, ACIssuer.encode, cleanIssuer, optLen_clean, packOptStr_clean]
  have h2 : (cleanHolder c.holder).encode = c.holder.encode := by
    simp only [ACHolder.encode, cleanHolder, optLen_clean, packOptStr_clean]
  have h3 : (cleanRevocation c.revRules).encode = c.revRules.encode := by
    simp only [ACRevocation.encode, cleanRevocation, optLen_clean, packOptStr_clean, cleanOpt_getD]
  have h4 : encodeList ACAttribute.encode (some ((c.attSet.getD []).map cleanAttribute)) =
      encodeList ACAttribute.encode c.attSet := encodeList_map (fun a => by
    simp only [ACAttribute.encode, cleanAttribute, optLen_clean, packOptStr_clean, cleanOpt_getD]) _
  have h5 : encodeList ACExtension.encode (cleanOpt (some ((c.extensions.getD []).map cleanExtension))) =
      encodeList ACExtension.encode c.extensions := (encodeList_clean _).trans (encodeList_map (fun a => by
    simp only [ACExtension.encode, cleanExtension, optLen_clean, cleanOpt_getD]) _)
  simp only [AttCert.encodeBody, content, h1, h2, h3, h4, h5, encodeDel_clean]

theorem encodeBody_signature (c : AttCert) (g : Option ACSignature) :
    ({ c with signature := g } : AttCert).encodeBody = c.encodeBody := rfl


/-! ### Lines and base64 text -/

theorem b64Digit_plain (n : Nat) : (b64Digit n).toNat < 128 ∧ (b64Digit n).toNat ≠ 10 := by
  unfold b64Digit
  split
  · rw [UInt8.toNat_ofNat']; omega
  · split
    · rw [UInt8.toNat_ofNat']; omega
    · split
      · rw [UInt8.toNat_ofNat']; omega
      · split <;> decide

theorem b64encode_plain (b : Bytes) : ∀ x ∈ b64encode b, x.toNat < 128 ∧ x.toNat ≠ 10 := by
  have h61 : (61 : UInt8).toNat < 128 ∧ (61 : UInt8).toNat ≠ 10 := by decide
  fun_induction b64encode b with
  | case1 => simp
  | case2 a =>
    intro x hx
    simp only [List.mem_cons, List.not_mem_nil, or_false] at hx
    rcases hx with rfl | rfl | rfl | rfl <;> first | exact b64Digit_plain _ | exact h61
  | case3 a b =>
    intro x hx
    simp only [List.mem_cons, List.not_mem_nil, or_false] at hx
    rcases hx with rfl | rfl | rfl | rfl <;> first | exact b64Digit_plain _ | exact h61
  | case4 a b c r ih =>
    intro x hx
    simp only [List.mem_cons] at hx
    rcases hx with rfl | rfl | rfl | rfl | hx
    iterate 4 exact b64Digit_plain _
    exact ih x hx

theorem char_ofNat_toNat {n : Nat} (h : n < 128) : (Char.ofNat n).toNat = n := by
  have hv : n.isValidChar := Or.inl (by omega)
  unfold Char.ofNat
  rw [dif_pos hv]
  rfl

theorem b64Text_ascii (b : Bytes) : (b64Text b).all isAscii = true := by
  simp only [b64Text, List.all_map, List.all_eq_true, Function.comp]
  intro x hx
  simp only [isAscii, char_ofNat_toNat (b64encode_plain b x hx).1, decide_eq_true_eq]
  exact (b64encode_plain b x hx).1

theorem b64Text_bytes (b : Bytes) : (b64Text b).map (fun c => UInt8.ofNat c.toNat) = b64encode b := by
  rw [b64Text, List.map_map]
  refine (List.map_congr_left fun x hx => ?_).trans (List.map_id _)
  simp only [Function.comp, char_ofNat_toNat (b64encode_plain b x hx).1, UInt8.ofNat_toNat, id]

theorem b64Text_line (b : Bytes) : '\n' ∉ b64Text b := by
  intro h
  simp only [b64Text, List.mem_map] at h
  obtain ⟨x, hx, e⟩ := h
  have := congrArg Char.toNat e
  rw [char_ofNat_toNat (b64encode_plain b x hx).1] at this
  exact (b64encode_plain b x hx).2 this

theorem decimal_line (n : Int) : '\n' ∉ decimal n := by
  have hd : ∀ m : Nat, '\n' ∉ m.repr.toList := by
    intro m h
    rw [Nat.toList_repr] at h
    have := Nat.isDigit_of_mem_toDigits (by decide) (by decide) h
    simp at this
  intro h
  rw [decimal, Int.toString_eq_repr, Int.repr_eq_if] at h
  split at h
  · exact hd _ h
  · rw [String.toList_append, List.mem_append] at h
    rcases h with h | h
    · simp at h
    · exact hd _ h

theorem splitLines_line {l : Str} (h : '\n' ∉ l) (s : Str) : splitLines (l ++ '\n' :: s) = l :: splitLines s := by
  induction l with
  | nil => simp [splitLines]
  | cons c l ih =>
    simp only [List.mem_cons, not_or] at h
    rw [List.cons_append, splitLines, if_neg (Ne.symm h.1), ih h.2]

theorem lines_assoc (p q r d t u : Str) : (p ++ '\n' :: (q ++ '\n' :: r)) ++ d ++ ['\n'] ++ t ++ '\n' :: u =
    p ++ '\n' :: (q ++ '\n' :: ((r ++ d) ++ '\n' :: (t ++ '\n' :: u))) := by simp

theorem full_fourth (v : Int) (b : Bytes) :
    (splitLines (acHeader "BASE64" v ++ b64Text b ++ "\n---- END ATTRIBUTE CERTIFICATE ----".toList))[3]? =
      some (b64Text b) := by
  have e : acHeader "BASE64" v ++ b64Text b ++ "\n---- END ATTRIBUTE CERTIFICATE ----".toList =
      "---- BEGIN ATTRIBUTE CERTIFICATE ----".toList ++ '\n' :: ("FORMAT: BASE64".toList ++ '\n' ::
        (("VERSION: ".toList ++ decimal v) ++ '\n' :: (b64Text b ++ '\n' ::
          "---- END ATTRIBUTE CERTIFICATE ----".toList))) := by
    have e1 : "---- BEGIN ATTRIBUTE CERTIFICATE ----\nFORMAT: ".toList ++ "BASE64".toList ++ "\nVERSION: ".toList =
        "---- BEGIN ATTRIBUTE CERTIFICATE ----".toList ++ '\n' :: ("FORMAT: BASE64".toList ++ '\n' ::
          "VERSION: ".toList) := by decide +kernel
    have e2 : "\n---- END ATTRIBUTE CERTIFICATE ----".toList = '\n' :: "---- END ATTRIBUTE CERTIFICATE ----".toList := by
      decide +kernel
    exact ((congrArg (fun h => h ++ decimal v ++ ['\n'] ++ b64Text b ++
      "\n---- END ATTRIBUTE CERTIFICATE ----".toList) e1).trans (congrArg (fun u => _ ++ u) e2)).trans
      (lines_assoc _ _ _ _ _ _)
  rw [e, splitLines_line (by decide +kernel), splitLines_line (by decide +kernel), splitLines_line, splitLines_line (b64Text_line b)]
  · rfl
  · intro h
    rcases List.mem_append.1 h with h | h
    · revert h; decide +kernel
    · exact decimal_line v h

/-! ### Equality -/

theorem attribute_eqv {a b : ACAttribute} : a.eqv b = true ↔ a = b := by
  cases a; cases b
  simp [ACAttribute.eqv]
  tauto

theorem extension_eqv {a b : ACExtension} : a.eqv b = true ↔ a = b := by
  cases a; cases b
  simp [ACExtension.eqv]
  tauto

/-- The inner loop: the first entry with the same id is equal. -/
theorem findEqv_iff {α : Type} {ident : α → Str} {eqv : α → α → Bool} (he : ∀ a b, eqv a b = true ↔ a = b) (a : α)
    (ys : List α) : findEqv ident eqv a ys = true ↔ ys.find? (fun b => ident b = ident a) = some a := by
  induction ys with
  | nil => simp [findEqv]
  | cons b ys ih =>
    rw [findEqv, List.find?_cons]
    by_cases h : ident a = ident b
    · simp only [h, if_pos, he, decide_true]
      exact ⟨fun e => by rw [e], fun e => (Option.some.inj e).symm⟩
    · rw [if_neg h, ih]
      simp [Ne.symm h]

theorem find_unique {α : Type} {ident : α → Str} {a : α} {ys : List α} (hn : (ys.map ident).Nodup) :
    ys.find? (fun b => ident b = ident a) = some a ↔ a ∈ ys := by
  constructor
  · exact List.mem_of_find?_eq_some
  · intro ha
    obtain ⟨s, t, rfl⟩ := List.append_of_mem ha
    rw [List.find?_append, List.find?_eq_none.2]
    · simp
    · intro x hx
      simp only [List.map_append, List.map_cons] at hn
      have := (List.nodup_append.1 hn).2.2 (ident x) (List.mem_map_of_mem hx) (ident a) (by simp)
      simpa using this

theorem listEqv_iff {α : Type} {ident : α → Str} {eqv : α → α → Bool} (he : ∀ a b, eqv a b = true ↔ a = b)
    {xs ys : Option (List α)} : listEqv ident eqv xs ys = .ok true ↔ (xs = none ∧ ys = none) ∨
      ∃ l m, xs = some l ∧ ys = some m ∧ l.length = m.length ∧
        ∀ a ∈ l, m.find? (fun b => ident b = ident a) = some a := by
  cases xs <;> cases ys <;> simp only [listEqv]
  · simp
  · simp
  · simp
  · rename_i l m
    by_cases h : l.length = m.length
    · rw [if_pos h]
      simp only [Except.ok.injEq, List.all_eq_true, findEqv_iff he]
      constructor
      · intro h'; exact .inr ⟨l, m, rfl, rfl, h, h'⟩
      · rintro (⟨h', _⟩ | ⟨_, _, h1, h2, _, h3⟩)
        · cases h'
        · cases h1; cases h2; exact h3
    · rw [if_neg h]
      simp only [Except.ok.injEq, Bool.false_eq_true, false_iff]
      rintro (⟨h', _⟩ | ⟨_, _, h1, h2, h3, _⟩)
      · cases h'
      · cases h1; cases h2; exact h h3

theorem nodup_perm {α : Type} {ident : α → Str} {l m : List α} (hl : (l.map ident).Nodup) (hm : (m.map ident).Nodup) :
    (l.length = m.length ∧ ∀ a ∈ l, m.find? (fun b => ident b = ident a) = some a) ↔ l.Perm m := by
  constructor
  · rintro ⟨h1, h2⟩
    have hs : l ⊆ m := fun a ha => (find_unique hm).1 (h2 a ha)
    exact (List.subperm_of_subset (List.Nodup.of_map _ hl) hs).perm_of_length_le (by omega)
  · intro h
    exact ⟨h.length_eq, fun a ha => (find_unique hm).2 (h.subset ha)⟩

theorem delEqv_iff {a b : Option ACDelegation} :
    delEqv a b = true ↔ a.bind ACDelegation.extra = b.bind ACDelegation.extra := by
  rcases a with _ | ⟨_ | a⟩ <;> rcases b with _ | ⟨_ | b⟩ <;> simp [delEqv, optEqv, ACDelegation.eqv]

theorem sigEqv_iff {a b : Option ACSignature} : sigEqv a b = true ↔
    a.bind ACSignature.value = b.bind ACSignature.value ∧ a.bind ACSignature.algo = b.bind ACSignature.algo := by
  rcases a with _ | ⟨_ | _, _ | _⟩ <;> rcases b with _ | ⟨_ | _, _ | _⟩ <;> simp [sigEqv, optEqv, ACSignature.eqv]

end Verif.Proofs
