import Verif.Proofs.AttCertCert
/-!
# Lemmas for the TEXT format of certificates
-/

namespace Verif.Proofs
open Verif Verif.Spec

/-! ### The literals of the code, split at line breaks -/

theorem lit0 : "==== BEGIN INFORMATION ====\nVERSION: ".toList =
    "==== BEGIN ".toList ++ ("INFORMATION".toList ++ (" ====".toList ++ (['\n'] ++
      "VERSION: ".toList))) := by decide +kernel
theorem lit1 : "\nSERIAL: ".toList = ['\n'] ++ "SERIAL: ".toList := by decide +kernel
theorem lit2 : "\nISSUED: ".toList = ['\n'] ++ "ISSUED: ".toList := by decide +kernel
theorem lit3 : "\n==== END INFORMATION ====\n".toList =
    ['\n'] ++ ("==== END ".toList ++ ("INFORMATION".toList ++ (" ====".toList ++ ['\n']))) := by decide +kernel
theorem lit4 : "==== BEGIN ISSUER ====\nPUBLIC KEY: ".toList =
    "==== BEGIN ".toList ++ ("ISSUER".toList ++ (" ====".toList ++ (['\n'] ++
      "PUBLIC KEY: ".toList))) := by decide +kernel
theorem lit5 : "\nKEY ALGORITHM: ".toList = ['\n'] ++ "KEY ALGORITHM: ".toList := by decide +kernel
theorem lit6 : "\nUID: ".toList = ['\n'] ++ "UID: ".toList := by decide +kernel
theorem lit7 : "==== END ISSUER ====\n".toList =
    "==== END ".toList ++ ("ISSUER".toList ++ (" ====".toList ++ ['\n'])) := by decide +kernel
theorem lit8 : "==== BEGIN HOLDER ====\nPUBLIC KEY: ".toList =
    "==== BEGIN ".toList ++ ("HOLDER".toList ++ (" ====".toList ++ (['\n'] ++
      "PUBLIC KEY: ".toList))) := by decide +kernel
theorem lit9 : "==== END HOLDER ====\n".toList =
    "==== END ".toList ++ ("HOLDER".toList ++ (" ====".toList ++ ['\n'])) := by decide +kernel
theorem lit10 : " ####\nATTRIBUTE ID: ".toList =
    " ####".toList ++ (['\n'] ++ "ATTRIBUTE ID: ".toList) := by decide +kernel
theorem lit11 : "\nATTRIBUTE TYPE: ".toList = ['\n'] ++ "ATTRIBUTE TYPE: ".toList := by decide +kernel
theorem lit12 : " ####\n".toList = " ####".toList ++ ['\n'] := by decide +kernel
theorem lit13 : "==== BEGIN REVOCATION RULES ====\nVALID AFTER: ".toList =
    "==== BEGIN ".toList ++ ("REVOCATION RULES".toList ++ (" ====".toList ++ (['\n'] ++
      "VALID AFTER: ".toList))) := by decide +kernel
theorem lit14 : "\nVALID BEFORE: ".toList = ['\n'] ++ "VALID BEFORE: ".toList := by decide +kernel
theorem lit15 : "==== END REVOCATION RULES ====\n".toList =
    "==== END ".toList ++ ("REVOCATION RULES".toList ++ (" ====".toList ++ ['\n'])) := by decide +kernel
theorem lit16 : "==== BEGIN DELEGATION RULES ====\n".toList =
    "==== BEGIN ".toList ++ ("DELEGATION RULES".toList ++ (" ====".toList ++ ['\n'])) := by decide +kernel
theorem lit17 : "==== END DELEGATION RULES ====\n".toList =
    "==== END ".toList ++ ("DELEGATION RULES".toList ++ (" ====".toList ++ ['\n'])) := by decide +kernel
theorem lit18 : " ####\nEXTENSION ID: ".toList =
    " ####".toList ++ (['\n'] ++ "EXTENSION ID: ".toList) := by decide +kernel
theorem lit19 : "==== BEGIN SIGNATURE ====\nSIGNATURE ALGORITHM: ".toList =
    "==== BEGIN ".toList ++ ("SIGNATURE".toList ++ (" ====".toList ++ (['\n'] ++
      "SIGNATURE ALGORITHM: ".toList))) := by decide +kernel
theorem lit20 : "\nSIGNATURE VALUE: ".toList = ['\n'] ++ "SIGNATURE VALUE: ".toList := by decide +kernel
theorem lit21 : "\n==== END SIGNATURE ====\n".toList =
    ['\n'] ++ ("==== END ".toList ++ ("SIGNATURE".toList ++ (" ====".toList ++ ['\n']))) := by decide +kernel
theorem lit22 : " ====\n".toList = " ====".toList ++ ['\n'] := by decide +kernel
theorem lit23 : "---- BEGIN ATTRIBUTE CERTIFICATE ----\nFORMAT: ".toList =
    "---- BEGIN ATTRIBUTE CERTIFICATE ----".toList ++ (['\n'] ++ "FORMAT: ".toList) := by decide +kernel
theorem lit24 : "\nVERSION: ".toList = ['\n'] ++ "VERSION: ".toList := by decide +kernel
theorem lit25 : "#### BEGIN ATTRIBUTE: ".toList =
    "#### BEGIN ".toList ++ ("ATTRIBUTE".toList ++ ": ".toList) := by decide +kernel
theorem lit26 : "#### END ATTRIBUTE: ".toList =
    "#### END ".toList ++ ("ATTRIBUTE".toList ++ ": ".toList) := by decide +kernel
theorem lit27 : "#### BEGIN EXTENSION: ".toList =
    "#### BEGIN ".toList ++ ("EXTENSION".toList ++ ": ".toList) := by decide +kernel
theorem lit28 : "#### END EXTENSION: ".toList =
    "#### END ".toList ++ ("EXTENSION".toList ++ ": ".toList) := by decide +kernel
theorem lit29 : "FORMAT: TEXT".toList = "FORMAT: ".toList ++ "TEXT".toList := by decide +kernel

/-- Every line followed by a line break. -/
def unlines (ls : List Str) : Str := ls.flatMap (· ++ ['\n'])

theorem unlines_append (a b : List Str) : unlines (a ++ b) = unlines a ++ unlines b := List.flatMap_append

theorem unlines_cons (a : Str) (b : List Str) : unlines (a :: b) = a ++ (['\n'] ++ unlines b) := by simp [unlines]

theorem unlines_nil : unlines [] = [] := rfl

theorem optLine_text (label : String) (s : Option Str) : optLine label s = unlines (optLines label s) := by
  cases s <;> simp only [optLine, optLines, unlines_cons, unlines_nil, List.append_nil, List.append_assoc]

theorem extraLine_text (b : Option Bytes) : extraLine b = unlines (optLines "EXTENSION BYTES: " (b.map b64)) := optLine_text _ _

theorem info_text (i : ACInfo) : i.text = unlines (infoLines i) := by
  delta ACInfo.text
  simp only [infoLines, block, lit0, lit1, lit2, lit3, lit4, lit5, lit6, lit7, lit8, lit9, lit10, lit11, lit12, lit13, lit14, lit15, lit16, lit17, lit18, lit19, lit20, lit21, lit22, lit23, lit24, lit25, lit26, lit27, lit28, lit29,
    unlines_append, unlines_cons, unlines_nil, List.append_assoc, List.append_nil, decimal, number]

theorem issuer_text {i : ACIssuer} {t : Str} (h : i.text = .ok t) (ha : i.keyAlgo ≠ none) :
    t = unlines (issuerLines i) := by
  simp only [ACIssuer.text, b64TextOf, lenOf] at h
  obtain ⟨k, ka, u, n, l⟩ := i
  cases k with
  | none => cases h
  | some k =>
    cases ka with
    | none => exact absurd rfl ha
    | some ka =>
      replace h := Except.ok.inj h
      rw [← h]
      simp only [showOpt, Option.getD_some, issuerLines, block, lit0, lit1, lit2, lit3, lit4, lit5, lit6, lit7, lit8, lit9, lit10, lit11, lit12, lit13, lit14, lit15, lit16, lit17, lit18, lit19, lit20, lit21, lit22, lit23, lit24, lit25, lit26, lit27, lit28, lit29, optLine_text,
        unlines_append, unlines_cons, unlines_nil, List.append_assoc, List.append_nil, b64Text, b64]

theorem holder_text (h : ACHolder) : h.text = unlines (holderLines h) := by
  delta ACHolder.text
  simp only [holderLines, block, lit0, lit1, lit2, lit3, lit4, lit5, lit6, lit7, lit8, lit9, lit10, lit11, lit12, lit13, lit14, lit15, lit16, lit17, lit18, lit19, lit20, lit21, lit22, lit23, lit24, lit25, lit26, lit27, lit28, lit29, optLine_text,
    unlines_append, unlines_cons, unlines_nil, List.append_assoc, List.append_nil, b64Text, b64]

theorem attribute_text (a : ACAttribute) : a.text = unlines (attributeLines a) := by
  delta ACAttribute.text
  simp only [attributeLines, entry, lit0, lit1, lit2, lit3, lit4, lit5, lit6, lit7, lit8, lit9, lit10, lit11, lit12, lit13, lit14, lit15, lit16, lit17, lit18, lit19, lit20, lit21, lit22, lit23, lit24, lit25, lit26, lit27, lit28, lit29, optLine_text, extraLine_text,
    unlines_append, unlines_cons, unlines_nil, List.append_assoc, List.append_nil]

theorem revocation_text (r : ACRevocation) : r.text = unlines (revocationLines r) := by
  delta ACRevocation.text
  simp only [revocationLines, block, lit0, lit1, lit2, lit3, lit4, lit5, lit6, lit7, lit8, lit9, lit10, lit11, lit12, lit13, lit14, lit15, lit16, lit17, lit18, lit19, lit20, lit21, lit22, lit23, lit24, lit25, lit26, lit27, lit28, lit29, optLine_text, extraLine_text,
    unlines_append, unlines_cons, unlines_nil, List.append_assoc, List.append_nil, decimal, number]

theorem delegation_text (d : Option ACDelegation) :
    (match d with | none => [] | some d => d.text) = unlines (delegationLines d) := by
  rcases d with _ | ⟨_ | b⟩
  · rfl
  · rfl
  · simp only [ACDelegation.text, delegationLines, block, lit0, lit1, lit2, lit3, lit4, lit5, lit6, lit7, lit8, lit9, lit10, lit11, lit12, lit13, lit14, lit15, lit16, lit17, lit18, lit19, lit20, lit21, lit22, lit23, lit24, lit25, lit26, lit27, lit28, lit29, extraLine_text, Option.bind_some, Option.map_some, optLines,
      unlines_append, unlines_cons, unlines_nil, List.append_assoc, List.append_nil]

theorem extension_text (e : ACExtension) : e.text = unlines (extensionLines e) := by
  delta ACExtension.text
  simp only [extensionLines, entry, lit0, lit1, lit2, lit3, lit4, lit5, lit6, lit7, lit8, lit9, lit10, lit11, lit12, lit13, lit14, lit15, lit16, lit17, lit18, lit19, lit20, lit21, lit22, lit23, lit24, lit25, lit26, lit27, lit28, lit29, extraLine_text,
    unlines_append, unlines_cons, unlines_nil, List.append_assoc, List.append_nil]

theorem textList_text {α : Type} (label : String) {f : α → Str} {g : α → List Str} (hf : ∀ x, f x = unlines (g x))
    (xs : Option (List α)) : textList label f xs = unlines (listLines label g xs) := by
  have hm : ∀ l : List α, l.flatMap f = unlines (l.flatMap g) := by
    intro l
    induction l with
    | nil => rfl
    | cons x l ih => rw [List.flatMap_cons, List.flatMap_cons, unlines_append, ih, hf]
  unfold textList listLines
  cases xs.getD [] with
  | nil => rfl
  | cons x l =>
    dsimp only
    rw [hm]
    simp only [block, lit0, lit1, lit2, lit3, lit4, lit5, lit6, lit7, lit8, lit9, lit10, lit11, lit12, lit13, lit14, lit15, lit16, lit17, lit18, lit19, lit20, lit21, lit22, lit23, lit24, lit25, lit26, lit27, lit28, lit29, unlines_append, unlines_cons, unlines_nil, List.append_assoc, List.append_nil]

theorem signature_text {g : ACSignature} {t : Str} (h : g.text = .ok t) (ha : g.algo ≠ none) :
    t = unlines (signatureLines (some g)) := by
  simp only [ACSignature.text, b64TextOf, lenOf] at h
  obtain ⟨a, v⟩ := g
  cases v with
  | none => cases h
  | some v =>
    cases a with
    | none => exact absurd rfl ha
    | some a =>
      replace h := Except.ok.inj h
      rw [← h]
      simp only [showOpt, Option.getD_some, signatureLines, block, lit0, lit1, lit2, lit3, lit4, lit5, lit6, lit7, lit8, lit9, lit10, lit11, lit12, lit13, lit14, lit15, lit16, lit17, lit18, lit19, lit20, lit21, lit22, lit23, lit24, lit25, lit26, lit27, lit28, lit29,
        unlines_append, unlines_cons, unlines_nil, List.append_assoc, List.append_nil, b64Text, b64]

/-! ### Splitting into lines -/

/-- No line has a line break. -/
def NoBreak (ls : List Str) : Prop := ∀ l ∈ ls, '\n' ∉ l

theorem splitLines_unlines {ls : List Str} (h : NoBreak ls) (e : Str) : splitLines (unlines ls ++ e) = ls ++ splitLines e := by
  induction ls with
  | nil => rfl
  | cons l ls ih =>
    rw [unlines_cons, List.append_assoc, List.append_assoc, List.singleton_append,
      splitLines_line (h l (by simp)), ih (fun x hx => h x (by simp [hx]))]
    rfl

theorem splitLines_single {e : Str} (h : '\n' ∉ e) : splitLines e = [e] := by
  induction e with
  | nil => rfl
  | cons c e ih =>
    simp only [List.mem_cons, not_or] at h
    rw [splitLines, if_neg (Ne.symm h.1), ih h.2]

theorem noBreak_append {a b : List Str} (ha : NoBreak a) (hb : NoBreak b) : NoBreak (a ++ b) := by
  intro l hl
  rcases List.mem_append.1 hl with h | h
  · exact ha l h
  · exact hb l h

theorem noBreak_nil : NoBreak [] := fun _ h => nomatch h

theorem noBreak_cons {l : Str} {ls : List Str} (h : '\n' ∉ l) (hs : NoBreak ls) : NoBreak (l :: ls) := by
  intro x hx
  rcases List.mem_cons.1 hx with rfl | hx
  · exact h
  · exact hs x hx

theorem noBreak_label {label s : Str} (h : label.contains '\n' = false) (hs : '\n' ∉ s) : '\n' ∉ label ++ s := by
  intro hm
  rcases List.mem_append.1 hm with hm | hm
  · rw [List.contains_iff_mem.2 hm] at h; cases h
  · exact hs hm

theorem noBreak_optLines {label : String} {x : Option Str} (h : label.toList.contains '\n' = false)
    (hs : ∀ s ∈ x.toList, '\n' ∉ s) : NoBreak (optLines label x) := by
  cases x with
  | none => exact noBreak_nil
  | some s => exact noBreak_cons (noBreak_label h (hs s (by simp))) noBreak_nil

theorem noBreak_of_contains {s : Str} (h : s.contains '\n' = false) : '\n' ∉ s := by
  intro hm
  rw [List.contains_iff_mem.2 hm] at h; cases h

theorem noBreak_block {name : String} {ls : List Str} (h : name.toList.contains '\n' = false) (hs : NoBreak ls) :
    NoBreak (block name ls) := by
  have h1 := noBreak_of_contains h
  have h2 : '\n' ∉ " ====".toList := noBreak_of_contains (by decide +kernel)
  refine noBreak_append (noBreak_append (noBreak_cons ?_ noBreak_nil) hs) (noBreak_cons ?_ noBreak_nil) <;>
  · rw [List.append_assoc]
    exact noBreak_label (by decide +kernel) (noBreak_label h h2)

theorem noBreak_entry {kind : String} {id : Str} {ls : List Str} (h : kind.toList.contains '\n' = false)
    (hi : '\n' ∉ id) (hs : NoBreak ls) : NoBreak (entry kind id ls) := by
  have h2 : '\n' ∉ " ####".toList := noBreak_of_contains (by decide +kernel)
  have h3 : '\n' ∉ id ++ " ####".toList := fun hm => (List.mem_append.1 hm).elim hi h2
  refine noBreak_append (noBreak_append (noBreak_cons ?_ noBreak_nil) hs) (noBreak_cons ?_ noBreak_nil) <;>
  · rw [List.append_assoc, List.append_assoc, List.append_assoc]
    exact noBreak_label (by decide +kernel) (noBreak_label h (noBreak_label (by decide +kernel) h3))

theorem noBreak_b64 (b : Option Bytes) : ∀ s ∈ (b.map b64).toList, '\n' ∉ s := by
  intro s hs
  cases b with
  | none => simp at hs
  | some b =>
    simp only [Option.map_some, Option.toList_some, List.mem_singleton] at hs
    subst hs
    exact b64Text_line b

theorem noBreak_flatMap {α : Type} {f : α → List Str} {l : List α} (h : ∀ x ∈ l, NoBreak (f x)) : NoBreak (l.flatMap f) := by
  intro s hs
  obtain ⟨x, hx, hs⟩ := List.mem_flatMap.1 hs
  exact h x hx s hs

theorem noBreak_list {α : Type} {name : String} {f : α → List Str} {xs : Option (List α)}
    (hn : name.toList.contains '\n' = false) (h : ∀ x ∈ xs.getD [], NoBreak (f x)) : NoBreak (listLines name f xs) := by
  unfold listLines
  cases hx : xs.getD [] with
  | nil => exact noBreak_nil
  | cons x l => exact noBreak_block hn (noBreak_flatMap (hx ▸ h))

theorem attType_name (t : AttType) : '\n' ∉ t.name := by
  apply noBreak_of_contains
  cases t <;> decide +kernel

theorem noBreak_cert {c : AttCert} (h : SingleLine c) : NoBreak (certLines c) := by
  obtain ⟨ht, hg⟩ := h
  have hb : ∀ b, '\n' ∉ b64 b := b64Text_line
  have hd : ∀ n, '\n' ∉ number n := decimal_line
  unfold certLines
  simp only [texts, List.mem_append, List.mem_flatMap, List.mem_map, List.mem_cons, List.not_mem_nil, or_false] at ht
  refine noBreak_append (noBreak_append (noBreak_append (noBreak_append (noBreak_append (noBreak_append (noBreak_append
    (noBreak_append (noBreak_append ?_ ?_) ?_) ?_) ?_) ?_) ?_) ?_) ?_) ?_
  · exact noBreak_cons (noBreak_of_contains (by decide +kernel)) (noBreak_cons (noBreak_of_contains (by decide +kernel))
      (noBreak_cons (noBreak_label (by decide +kernel) (hd _)) noBreak_nil))
  · exact noBreak_block (by decide +kernel) (noBreak_cons (noBreak_label (by decide +kernel) (hd _))
      (noBreak_cons (noBreak_label (by decide +kernel) (hd _))
      (noBreak_cons (noBreak_label (by decide +kernel) (hd _)) noBreak_nil)))
  · cases hi : c.issuer with
    | none => exact noBreak_nil
    | some i =>
      rw [hi] at ht
      refine noBreak_block (by decide +kernel) (noBreak_append (noBreak_append (noBreak_cons
        (noBreak_label (by decide +kernel) (hb _)) (noBreak_cons (noBreak_label (by decide +kernel) ?_)
        (noBreak_cons (noBreak_label (by decide +kernel) (ht _ (by simp))) noBreak_nil)))
        (noBreak_optLines (by decide +kernel) fun s hs => ht s ?_)) (noBreak_optLines (by decide +kernel) fun s hs => ht s ?_))
      · cases hk : i.keyAlgo with
        | none => exact List.not_mem_nil
        | some k => exact ht k (by simp [hk])
      · simp only [List.mem_append]; tauto
      · simp only [List.mem_append]; tauto
  · refine noBreak_block (by decide +kernel) (noBreak_append (noBreak_cons
        (noBreak_label (by decide +kernel) (hb _)) (noBreak_cons (noBreak_label (by decide +kernel) (ht _ (by simp)))
        (noBreak_cons (noBreak_label (by decide +kernel) (ht _ (by simp))) noBreak_nil)))
        (noBreak_optLines (by decide +kernel) fun s hs => ht s (by tauto)))
  · refine noBreak_list (by decide +kernel) fun a ha => ?_
    have hta : ∀ t, t = a.id ∨ t ∈ a.value.toList ∨ t ∈ a.name.toList → '\n' ∉ t := by
      intro t h
      refine ht t (.inl (.inl (.inr ⟨a, ha, ?_⟩)))
      tauto
    exact noBreak_entry (by decide +kernel) (hta _ (.inl rfl)) (noBreak_append (noBreak_append (noBreak_append
      (noBreak_cons (noBreak_label (by decide +kernel) (hta _ (.inl rfl)))
        (noBreak_cons (noBreak_label (by decide +kernel) (attType_name _)) noBreak_nil))
      (noBreak_optLines (by decide +kernel) fun s hs => hta s (.inr (.inl hs))))
      (noBreak_optLines (by decide +kernel) fun s hs => hta s (.inr (.inr hs))))
      (noBreak_optLines (by decide +kernel) (noBreak_b64 _)))
  · exact noBreak_block (by decide +kernel) (noBreak_append (noBreak_append (noBreak_cons
      (noBreak_label (by decide +kernel) (hd _)) (noBreak_cons (noBreak_label (by decide +kernel) (hd _)) noBreak_nil))
      (noBreak_optLines (by decide +kernel) fun s hs => ht s (by tauto)))
      (noBreak_optLines (by decide +kernel) (noBreak_b64 _)))
  · unfold delegationLines
    cases c.delRules.bind (·.extra) with
    | none => exact noBreak_nil
    | some b => exact noBreak_block (by decide +kernel) (noBreak_cons (noBreak_label (by decide +kernel) (hb _)) noBreak_nil)
  · refine noBreak_list (by decide +kernel) fun e he => ?_
    have hte : '\n' ∉ e.eid := ht _ (.inr ⟨e, he, rfl⟩)
    exact noBreak_entry (by decide +kernel) hte (noBreak_append (noBreak_cons (noBreak_label (by decide +kernel) hte)
      noBreak_nil) (noBreak_optLines (by decide +kernel) (noBreak_b64 _)))
  · cases hs : c.signature with
    | none => exact noBreak_nil
    | some g => exact noBreak_block (by decide +kernel) (noBreak_cons (noBreak_label (by decide +kernel) (hg g hs))
        (noBreak_cons (noBreak_label (by decide +kernel) (hb _)) noBreak_nil))
  · exact noBreak_cons (noBreak_of_contains (by decide +kernel)) noBreak_nil

/-- The text is the lines of the specification, the last without a line break. -/
theorem text_lines {c : AttCert} {t : Str} (h : c.text = .ok t) (hc : Complete c) :
    ∃ ls, certLines c = ls ++ ["---- END ATTRIBUTE CERTIFICATE ----".toList] ∧
      t = unlines ls ++ "---- END ATTRIBUTE CERTIFICATE ----".toList := by
  obtain ⟨⟨i, hi, hk, ha⟩, hg⟩ := hc
  refine ⟨_, rfl, ?_⟩
  delta AttCert.text at h
  rw [hi] at h
  dsimp only at h
  rw [except_bind_ok] at h
  obtain ⟨ti, h1, h⟩ := h
  have hti := issuer_text h1 ha
  have hsig : ∀ x, (match c.signature with | none => .ok [] | some g => g.text) = Except.ok x →
      x = unlines (signatureLines c.signature) := by
    intro x hx
    cases hs : c.signature with
    | none => rw [hs] at hx; cases hx; rfl
    | some g => rw [hs] at hx; exact signature_text hx (hg g hs).1
  have hfin : ∀ x, t = acHeader "TEXT" c.info.version ++ c.info.text ++ ti ++ c.holder.text ++
      textList "ATTRIBUTE SET" ACAttribute.text c.attSet ++ c.revRules.text ++
      (match c.delRules with | none => [] | some d => d.text) ++
      textList "EXTENSIONS" ACExtension.text c.extensions ++ x ++ "---- END ATTRIBUTE CERTIFICATE ----".toList →
      x = unlines (signatureLines c.signature) → t = unlines (["---- BEGIN ATTRIBUTE CERTIFICATE ----".toList,
        "FORMAT: TEXT".toList, "VERSION: ".toList ++ number c.info.version] ++
        infoLines c.info ++ (c.issuer.map issuerLines).getD [] ++ holderLines c.holder ++
        listLines "ATTRIBUTE SET" attributeLines c.attSet ++ revocationLines c.revRules ++ delegationLines c.delRules ++
        listLines "EXTENSIONS" extensionLines c.extensions ++ signatureLines c.signature) ++
        "---- END ATTRIBUTE CERTIFICATE ----".toList := by
    intro x ht hx
    rw [ht, hx, hti, hi, delegation_text, textList_text _ attribute_text, textList_text _ extension_text, info_text,
      holder_text, revocation_text]
    delta acHeader
    simp only [lit23, lit24, lit29, Option.map_some, Option.getD_some, unlines_append, unlines_cons, unlines_nil,
      List.append_assoc, List.nil_append, decimal, number]
  cases hs : c.signature with
  | none =>
    rw [hs] at h hfin
    replace h := Except.ok.inj h
    exact hfin [] h.symm rfl
  | some g =>
    rw [hs] at h hfin
    dsimp only at h
    rw [except_bind_ok] at h
    obtain ⟨x, hx, h⟩ := h
    replace h := Except.ok.inj h
    exact hfin x h.symm (signature_text hx (hg g hs).1)

/-! ### Reading lines back -/

theorem toDigits_inj : ∀ {n m : Nat}, Nat.toDigits 10 n = Nat.toDigits 10 m → n = m := by
  intro n
  induction n using Nat.strongRecOn with
  | _ n ih =>
    intro m h
    rw [Nat.toDigits_eq_if (by omega), Nat.toDigits_eq_if (n := m) (by omega)] at h
    have hd : ∀ {a b : Nat}, a < 10 → b < 10 → a.digitChar = b.digitChar → a = b := by
      intro a b ha hb e
      have := congrArg Char.toNat e
      rw [Nat.toNat_digitChar_of_lt_ten ha, Nat.toNat_digitChar_of_lt_ten hb] at this
      omega
    split at h <;> split at h
    · rename_i h1 h2
      exact hd h1 h2 (List.cons.inj h).1
    · have := congrArg List.length h
      have hp := Nat.length_toDigits_pos (b := 10) (n := m / 10)
      simp only [List.length_append, List.length_singleton] at this
      omega
    · have := congrArg List.length h
      have hp := Nat.length_toDigits_pos (b := 10) (n := n / 10)
      simp only [List.length_append, List.length_singleton] at this
      omega
    · rename_i h1 h2
      obtain ⟨e1, e2⟩ := List.append_inj' h rfl
      have := ih (n / 10) (by omega) e1
      have := hd (Nat.mod_lt _ (by omega)) (Nat.mod_lt _ (by omega)) (List.cons.inj e2).1
      omega

theorem number_inj {n m : Int} (h : number n = number m) : n = m := by
  have hneg : ∀ a b : Nat, Nat.toDigits 10 a ≠ '-' :: Nat.toDigits 10 b := by
    intro a b e
    have := Nat.isDigit_of_mem_toDigits (b := 10) (n := a) (c := '-') (by decide) (by decide) (e ▸ List.mem_cons_self)
    simp at this
  have hm : "-".toList = ['-'] := by decide +kernel
  rw [number, number, Int.toString_eq_repr, Int.toString_eq_repr, Int.repr_eq_if, Int.repr_eq_if] at h
  split at h <;> split at h
  · rw [Nat.toList_repr, Nat.toList_repr] at h
    have := toDigits_inj h
    omega
  · rw [String.toList_append, Nat.toList_repr, Nat.toList_repr, hm] at h
    exact absurd h (hneg _ _)
  · rw [String.toList_append, Nat.toList_repr, Nat.toList_repr, hm] at h
    exact absurd h.symm (hneg _ _)
  · rw [String.toList_append, String.toList_append, Nat.toList_repr, Nat.toList_repr, hm] at h
    have := toDigits_inj (List.cons.inj h).2
    omega

theorem b64_inj {a b : Bytes} (h : b64 a = b64 b) : a = b := by
  have := congrArg (List.map (fun c => UInt8.ofNat c.toNat)) h
  rw [show b64 a = b64Text a from rfl, show b64 b = b64Text b from rfl, b64Text_bytes, b64Text_bytes] at this
  exact b64encode_inj this

/-- A line that is not labelled so. -/
def Apart (label : Str) (ls : List Str) : Prop := ∀ s, ls.head? ≠ some (label ++ s)

theorem apart_label {a b s t : Str} (h : a.isPrefixOf b = false) (h' : b.isPrefixOf a = false) : a ++ s ≠ b ++ t := by
  intro e
  rcases List.prefix_or_prefix_of_prefix (List.prefix_append a s) (e ▸ List.prefix_append b t) with p | p
  · rw [List.isPrefixOf_iff_prefix.2 p] at h; cases h
  · rw [List.isPrefixOf_iff_prefix.2 p] at h'; cases h'

theorem apart_cons {a b s : Str} {ls : List Str} (h : a.isPrefixOf b = false) (h' : b.isPrefixOf a = false) :
    Apart a ((b ++ s) :: ls) := by
  intro t e
  exact apart_label h' h (Option.some.inj e)

theorem apart_opt {a : Str} {label : String} {x : Option Str} {ls : List Str} (h : a.isPrefixOf label.toList = false)
    (h' : label.toList.isPrefixOf a = false) (hr : Apart a ls) : Apart a (optLines label x ++ ls) := by
  cases x with
  | none => exact hr
  | some s => exact apart_cons h h'

theorem optLines_inj {label : String} {x y : Option Str} {r r' : List Str} (hr : Apart label.toList r)
    (hr' : Apart label.toList r') (h : optLines label x ++ r = optLines label y ++ r') : x = y ∧ r = r' := by
  cases x with
  | none =>
    cases y with
    | none => exact ⟨rfl, h⟩
    | some t => exact absurd (by rw [show r = _ from h]; rfl) (hr t)
  | some s =>
    cases y with
    | none => exact absurd (by rw [← show _ = r' from h]; rfl) (hr' s)
    | some t =>
      obtain ⟨e, h⟩ := List.cons.inj h
      exact ⟨by rw [List.append_cancel_left e], h⟩

theorem optB64_inj {x y : Option Bytes} (h : x.map b64 = y.map b64) : x = y := by
  cases x <;> cases y <;> simp only [Option.map_some, Option.map_none, Option.some.injEq] at h ⊢
  · cases h
  · cases h
  · exact b64_inj h

theorem infoLines_inj {a b : ACInfo} {r r' : List Str} (h : infoLines a ++ r = infoLines b ++ r') : a = b ∧ r = r' := by
  simp only [infoLines, block, List.append_assoc, List.cons_append, List.nil_append, List.cons.injEq] at h
  obtain ⟨_, h1, h2, h3, _, h4⟩ := h
  obtain ⟨_, _, _⟩ := a
  obtain ⟨_, _, _⟩ := b
  have e1 := number_inj (List.append_cancel_left h1)
  have e2 := number_inj (List.append_cancel_left h2)
  have e3 := number_inj (List.append_cancel_left h3)
  dsimp only at e1 e2 e3
  exact ⟨by rw [e1, e2, e3], h4⟩

theorem issuerLines_inj {a b : ACIssuer} {r r' : List Str} (ha : a.pubKey ≠ none ∧ a.keyAlgo ≠ none)
    (hb : b.pubKey ≠ none ∧ b.keyAlgo ≠ none) (h : issuerLines a ++ r = issuerLines b ++ r') : a = b ∧ r = r' := by
  simp only [issuerLines, block, List.append_assoc, List.cons_append, List.nil_append, List.cons.injEq] at h
  obtain ⟨_, h1, h2, h3, h⟩ := h
  obtain ⟨e4, g1⟩ := optLines_inj (apart_opt (by decide +kernel) (by decide +kernel)
    (apart_cons (by decide +kernel) (by decide +kernel))) (apart_opt (by decide +kernel) (by decide +kernel)
    (apart_cons (by decide +kernel) (by decide +kernel))) h
  obtain ⟨e5, g2⟩ := optLines_inj (apart_cons (by decide +kernel) (by decide +kernel))
    (apart_cons (by decide +kernel) (by decide +kernel)) g1
  obtain ⟨k, ka, u, n, l⟩ := a
  obtain ⟨k', ka', u', n', l'⟩ := b
  have e1 := b64_inj (List.append_cancel_left h1)
  have e2 := List.append_cancel_left h2
  have e3 := List.append_cancel_left h3
  dsimp only at e1 e2 e3 e4 e5 ha hb
  cases k with
  | none => exact absurd rfl ha.1
  | some k =>
  cases k' with
  | none => exact absurd rfl hb.1
  | some k' =>
  cases ka with
  | none => exact absurd rfl ha.2
  | some ka =>
  cases ka' with
  | none => exact absurd rfl hb.2
  | some ka' =>
    rw [Option.getD_some, Option.getD_some] at e1 e2
    exact ⟨by rw [e1, e2, e3, e4, e5], (List.cons.inj g2).2⟩

theorem holderLines_inj {a b : ACHolder} {r r' : List Str} (h : holderLines a ++ r = holderLines b ++ r') :
    a = b ∧ r = r' := by
  simp only [holderLines, block, List.append_assoc, List.cons_append, List.nil_append, List.cons.injEq] at h
  obtain ⟨_, h1, h2, h3, h⟩ := h
  obtain ⟨e4, g1⟩ := optLines_inj (apart_cons (by decide +kernel) (by decide +kernel))
    (apart_cons (by decide +kernel) (by decide +kernel)) h
  obtain ⟨k, ka, u, n⟩ := a
  obtain ⟨k', ka', u', n'⟩ := b
  have e1 := b64_inj (List.append_cancel_left h1)
  have e2 := List.append_cancel_left h2
  have e3 := List.append_cancel_left h3
  dsimp only at e1 e2 e3 e4
  exact ⟨by rw [e1, e2, e3, e4], (List.cons.inj g1).2⟩

theorem attType_name_inj {a b : AttType} (h : a.name = b.name) : a = b := by
  have : ∀ a b : AttType, decide (a.name = b.name) = decide (a = b) := by
    intro a b; cases a <;> cases b <;> decide +kernel
  exact of_decide_eq_true ((this a b).symm.trans (decide_eq_true h))

theorem attributeLines_inj {a b : ACAttribute} {r r' : List Str} (h : attributeLines a ++ r = attributeLines b ++ r') :
    a = b ∧ r = r' := by
  simp only [attributeLines, entry, List.append_assoc, List.cons_append, List.nil_append, List.cons.injEq] at h
  obtain ⟨_, h1, h2, h⟩ := h
  have hend : ∀ {l : Str} {id : Str} {r}, l.isPrefixOf "#### END ".toList = false → "#### END ".toList.isPrefixOf l = false →
      Apart l (("#### END ".toList ++ ("ATTRIBUTE".toList ++ (": ".toList ++ (id ++ " ####".toList)))) :: r) :=
    fun h h' => apart_cons h h'
  obtain ⟨e3, g1⟩ := optLines_inj (apart_opt (by decide +kernel) (by decide +kernel) (apart_opt (by decide +kernel)
    (by decide +kernel) (hend (by decide +kernel) (by decide +kernel)))) (apart_opt (by decide +kernel) (by decide +kernel)
    (apart_opt (by decide +kernel) (by decide +kernel) (hend (by decide +kernel) (by decide +kernel)))) h
  obtain ⟨e4, g2⟩ := optLines_inj (apart_opt (by decide +kernel) (by decide +kernel) (hend (by decide +kernel)
    (by decide +kernel))) (apart_opt (by decide +kernel) (by decide +kernel) (hend (by decide +kernel)
    (by decide +kernel))) g1
  obtain ⟨e5, g3⟩ := optLines_inj (hend (by decide +kernel) (by decide +kernel)) (hend (by decide +kernel)
    (by decide +kernel)) g2
  obtain ⟨i, t, v, n, x⟩ := a
  obtain ⟨i', t', v', n', x'⟩ := b
  have e1 := List.append_cancel_left h1
  have e2 := attType_name_inj (List.append_cancel_left h2)
  have e5 := optB64_inj e5
  dsimp only at e1 e2 e3 e4 e5
  exact ⟨by rw [e1, e2, e3, e4, e5], (List.cons.inj g3).2⟩

theorem revocationLines_inj {a b : ACRevocation} {r r' : List Str} (h : revocationLines a ++ r = revocationLines b ++ r') :
    a = b ∧ r = r' := by
  simp only [revocationLines, block, List.append_assoc, List.cons_append, List.nil_append, List.cons.injEq] at h
  obtain ⟨_, h1, h2, h⟩ := h
  obtain ⟨e3, g1⟩ := optLines_inj (apart_opt (by decide +kernel) (by decide +kernel)
    (apart_cons (by decide +kernel) (by decide +kernel))) (apart_opt (by decide +kernel) (by decide +kernel)
    (apart_cons (by decide +kernel) (by decide +kernel))) h
  obtain ⟨e4, g2⟩ := optLines_inj (apart_cons (by decide +kernel) (by decide +kernel))
    (apart_cons (by decide +kernel) (by decide +kernel)) g1
  obtain ⟨x, y, u, v⟩ := a
  obtain ⟨x', y', u', v'⟩ := b
  have e1 := number_inj (List.append_cancel_left h1)
  have e2 := number_inj (List.append_cancel_left h2)
  have e4 := optB64_inj e4
  dsimp only at e1 e2 e3 e4
  exact ⟨by rw [e1, e2, e3, e4], (List.cons.inj g2).2⟩

theorem extensionLines_inj {a b : ACExtension} {r r' : List Str} (h : extensionLines a ++ r = extensionLines b ++ r') :
    a = b ∧ r = r' := by
  simp only [extensionLines, entry, List.append_assoc, List.cons_append, List.nil_append, List.cons.injEq] at h
  obtain ⟨_, h1, h⟩ := h
  obtain ⟨e2, g1⟩ := optLines_inj (apart_cons (by decide +kernel) (by decide +kernel))
    (apart_cons (by decide +kernel) (by decide +kernel)) h
  obtain ⟨i, x⟩ := a
  obtain ⟨i', x'⟩ := b
  have e1 := List.append_cancel_left h1
  have e2 := optB64_inj e2
  dsimp only at e1 e2
  exact ⟨by rw [e1, e2], (List.cons.inj g1).2⟩

/-- The first line of a block. -/
def marker (name : String) : Str := "==== BEGIN ".toList ++ name.toList ++ " ====".toList

theorem flatMap_inj {α : Type} {f : α → List Str} (hf : ∀ x, ∃ s l, f x = ("#### ".toList ++ s) :: l)
    (hi : ∀ {a b r r'}, f a ++ r = f b ++ r' → a = b ∧ r = r') {e : Str} (he : ∀ s, e ≠ "#### ".toList ++ s) {r r' : List Str} :
    ∀ {l m : List α}, l.flatMap f ++ e :: r = m.flatMap f ++ e :: r' → l = m ∧ r = r'
  | [], [], h => ⟨rfl, (List.cons.inj h).2⟩
  | [], y :: m, h => by
    obtain ⟨s, k, hy⟩ := hf y
    rw [List.flatMap_cons, hy] at h
    exact absurd (List.cons.inj h).1 (he s)
  | x :: l, [], h => by
    obtain ⟨s, k, hx⟩ := hf x
    rw [List.flatMap_cons, hx] at h
    exact absurd (List.cons.inj h).1.symm (he s)
  | x :: l, y :: m, h => by
    rw [List.flatMap_cons, List.flatMap_cons, List.append_assoc, List.append_assoc] at h
    obtain ⟨rfl, h1⟩ := hi h
    obtain ⟨rfl, h2⟩ := flatMap_inj hf hi he h1
    exact ⟨rfl, h2⟩

theorem listLines_inj {α : Type} {name : String} {f : α → List Str} (hf : ∀ x, ∃ s l, f x = ("#### ".toList ++ s) :: l)
    (hi : ∀ {a b r r'}, f a ++ r = f b ++ r' → a = b ∧ r = r') {xs ys : Option (List α)} {r r' : List Str}
    (hr : r.head? ≠ some (marker name)) (hr' : r'.head? ≠ some (marker name))
    (h : listLines name f xs ++ r = listLines name f ys ++ r') : xs.getD [] = ys.getD [] ∧ r = r' := by
  unfold listLines at h
  cases hx : xs.getD [] with
  | nil =>
    rw [hx] at h
    cases hy : ys.getD [] with
    | nil => rw [hy] at h; exact ⟨rfl, h⟩
    | cons y m =>
      rw [hy] at h
      exact absurd (by rw [show r = _ from h]; rfl) hr
  | cons x l =>
    rw [hx] at h
    cases hy : ys.getD [] with
    | nil =>
      rw [hy] at h
      exact absurd (by rw [← show _ = r' from h]; rfl) hr'
    | cons y m =>
      rw [hy] at h
      simp only [block, List.append_assoc, List.cons_append, List.nil_append, List.cons.injEq] at h
      refine flatMap_inj hf hi ?_ h.2
      intro s
      exact apart_label (by decide +kernel) (by decide +kernel)

theorem delegationLines_inj {a b : Option ACDelegation} {r r' : List Str} (hr : r.head? ≠ some (marker "DELEGATION RULES"))
    (hr' : r'.head? ≠ some (marker "DELEGATION RULES")) (h : delegationLines a ++ r = delegationLines b ++ r') :
    a.bind (·.extra) = b.bind (·.extra) ∧ r = r' := by
  unfold delegationLines at h
  cases hx : a.bind (·.extra) with
  | none =>
    rw [hx] at h
    cases hy : b.bind (·.extra) with
    | none => rw [hy] at h; exact ⟨rfl, h⟩
    | some y => rw [hy] at h; exact absurd (by rw [show r = _ from h]; rfl) hr
  | some x =>
    rw [hx] at h
    cases hy : b.bind (·.extra) with
    | none => rw [hy] at h; exact absurd (by rw [← show _ = r' from h]; rfl) hr'
    | some y =>
      rw [hy] at h
      simp only [block, List.append_assoc, List.cons_append, List.nil_append, List.cons.injEq] at h
      obtain ⟨_, h1, _, h⟩ := h
      exact ⟨by rw [b64_inj (List.append_cancel_left h1)], h⟩

theorem signatureLines_inj {a b : Option ACSignature} {r : List Str} (hr : r.head? ≠ some (marker "SIGNATURE"))
    (ha : ∀ g, a = some g → g.algo ≠ none ∧ g.value ≠ none) (hb : ∀ g, b = some g → g.algo ≠ none ∧ g.value ≠ none)
    (h : signatureLines a ++ r = signatureLines b ++ r) : a = b := by
  rcases a with _ | ⟨x, y⟩ <;> rcases b with _ | ⟨x', y'⟩
  · rfl
  · exact absurd (by rw [show r = _ from h]; rfl) hr
  · exact absurd (by rw [← show _ = r from h]; rfl) hr
  · have ha := ha _ rfl
    have hb := hb _ rfl
    simp only [signatureLines, block, List.append_assoc, List.cons_append, List.nil_append, List.cons.injEq] at h
    obtain ⟨_, h1, h2, _, h⟩ := h
    have e1 := List.append_cancel_left h1
    have e2 := b64_inj (List.append_cancel_left h2)
    dsimp only at ha hb e1 e2
    cases x with
    | none => exact absurd rfl ha.1
    | some x =>
    cases y with
    | none => exact absurd rfl ha.2
    | some y =>
    cases x' with
    | none => exact absurd rfl hb.1
    | some x' =>
    cases y' with
    | none => exact absurd rfl hb.2
    | some y' =>
      rw [Option.getD_some, Option.getD_some] at e1 e2
      rw [e1, e2]

theorem listLines_head {α : Type} {name : String} {f : α → List Str} {xs : Option (List α)} {r : List Str} {s : Str}
    (hn : marker name ≠ s) (hr : r.head? ≠ some s) : (listLines name f xs ++ r).head? ≠ some s := by
  unfold listLines
  cases xs.getD [] with
  | nil => exact hr
  | cons x l => exact fun e => hn (Option.some.inj e)

theorem delegationLines_head {d : Option ACDelegation} {r : List Str} {s : Str}
    (hn : marker "DELEGATION RULES" ≠ s) (hr : r.head? ≠ some s) : (delegationLines d ++ r).head? ≠ some s := by
  unfold delegationLines
  cases d.bind (·.extra) with
  | none => exact hr
  | some b => exact fun e => hn (Option.some.inj e)

theorem signatureLines_head {d : Option ACSignature} {r : List Str} {s : Str}
    (hn : marker "SIGNATURE" ≠ s) (hr : r.head? ≠ some s) : (signatureLines d ++ r).head? ≠ some s := by
  cases d with
  | none => exact hr
  | some b => exact fun e => hn (Option.some.inj e)

theorem entry_head (kind : String) (id : Str) (ls : List Str) : ∃ s l, entry kind id ls = ("#### ".toList ++ s) :: l := by
  have e : "#### BEGIN ".toList = "#### ".toList ++ "BEGIN ".toList := by decide +kernel
  refine ⟨"BEGIN ".toList ++ (kind.toList ++ (": ".toList ++ (id ++ " ####".toList))),
    ls ++ ["#### END ".toList ++ kind.toList ++ ": ".toList ++ id ++ " ####".toList], ?_⟩
  simp only [entry, e, List.append_assoc, List.cons_append, List.nil_append]

/-- The lines determine the certificate, except for the difference between missing and empty lists and rules. -/
theorem certLines_inj {c d : AttCert} (hc : Complete c) (hd : Complete d) (h : certLines c = certLines d) :
    c.issuer = d.issuer ∧ c.holder = d.holder ∧ c.info = d.info ∧ c.attSet.getD [] = d.attSet.getD [] ∧
    c.revRules = d.revRules ∧ c.delRules.bind (·.extra) = d.delRules.bind (·.extra) ∧
    c.extensions.getD [] = d.extensions.getD [] ∧ c.signature = d.signature := by
  obtain ⟨⟨i, hi, hi1, hi2⟩, hg⟩ := hc
  obtain ⟨⟨j, hj, hj1, hj2⟩, hg'⟩ := hd
  have ne : ∀ {a b : Str}, decide (a = b) = false → a ≠ b := fun h => of_decide_eq_false h
  have hlast : ∀ s : Str, decide ("---- END ATTRIBUTE CERTIFICATE ----".toList = s) = false →
      ["---- END ATTRIBUTE CERTIFICATE ----".toList].head? ≠ some s := fun s hs e => ne hs (Option.some.inj e)
  have hrev : ∀ x r, (revocationLines x ++ r).head? ≠ some (marker "ATTRIBUTE SET") :=
    fun x r e => ne (by decide +kernel) (Option.some.inj (show some (marker "REVOCATION RULES") = _ from e))
  simp only [certLines, hi, hj, Option.map_some, Option.getD_some, List.append_assoc, List.cons_append, List.nil_append,
    List.cons.injEq] at h
  obtain ⟨_, _, _, h⟩ := h
  obtain ⟨e1, g1⟩ := infoLines_inj h
  obtain ⟨e2, g2⟩ := issuerLines_inj ⟨hi1, hi2⟩ ⟨hj1, hj2⟩ g1
  obtain ⟨e3, g3⟩ := holderLines_inj g2
  obtain ⟨e4, g4⟩ := listLines_inj (fun a => entry_head _ _ _) attributeLines_inj
    (hrev c.revRules _) (hrev d.revRules _) g3
  obtain ⟨e5, g5⟩ := revocationLines_inj g4
  have hh : ∀ (x : AttCert) (s : Str), decide (marker "EXTENSIONS" = s) = false → decide (marker "SIGNATURE" = s) = false →
      decide ("---- END ATTRIBUTE CERTIFICATE ----".toList = s) = false →
      (listLines "EXTENSIONS" extensionLines x.extensions ++ (signatureLines x.signature ++
        ["---- END ATTRIBUTE CERTIFICATE ----".toList])).head? ≠ some s :=
    fun x s h1 h2 h3 => listLines_head (ne h1) (signatureLines_head (ne h2) (hlast _ h3))
  obtain ⟨e6, g6⟩ := delegationLines_inj (hh c _ (by decide +kernel) (by decide +kernel) (by decide +kernel))
    (hh d _ (by decide +kernel) (by decide +kernel) (by decide +kernel)) g5
  obtain ⟨e7, g7⟩ := listLines_inj (fun a => entry_head _ _ _) extensionLines_inj
    (signatureLines_head (ne (by decide +kernel)) (hlast _ (by decide +kernel)))
    (signatureLines_head (ne (by decide +kernel)) (hlast _ (by decide +kernel))) g6
  have e8 := signatureLines_inj (hlast _ (by decide +kernel)) hg hg' g7
  exact ⟨by rw [hi, hj, e2], e3, e1, e4, e5, e6, e7, e8⟩

end Verif.Proofs
