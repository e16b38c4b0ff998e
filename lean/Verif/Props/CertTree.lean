import Verif.Spec.CertTree
import Verif.Props.AAuthGui

/-!
# The tree of a certificate in the attribute authority demo (C140)
-/

namespace Verif.Props

open Proofs Spec

variable {U : Uni} {X : Crypto} {G : Keys} {date : Int → Except PyExc Str}

/-! ### Sections and groups -/

/-- Sections one below the other. -/
def stack (l : List (Str × List CertRow)) : List CertRow := l.flatMap (fun p => ⟨0, p.1, none⟩ :: p.2)

theorem stack_cons (p : Str × List CertRow) (l : List (Str × List CertRow)) :
    stack (p :: l) = ⟨0, p.1, none⟩ :: (p.2 ++ stack l) := rfl

theorem skip_body {title : Str} {body rest : List CertRow} (h : ∀ r ∈ body, r.depth ≠ 0) :
    (body ++ rest).dropWhile (fun r => !(r.depth == 0 && r.text == title)) =
      rest.dropWhile (fun r => !(r.depth == 0 && r.text == title)) := by
  induction body with
  | nil => rfl
  | cons r body ih =>
    have h1 := h r List.mem_cons_self
    rw [List.cons_append, List.dropWhile_cons_of_pos, ih (fun r hr => h r (List.mem_cons_of_mem _ hr))]
    simp [h1]

theorem take_body {body : List CertRow} (h : ∀ r ∈ body, r.depth ≠ 0) (l : List (Str × List CertRow)) :
    (body ++ stack l).takeWhile (fun r => r.depth != 0) = body := by
  induction body with
  | nil => cases l <;> rfl
  | cons r body ih =>
    have h1 := h r List.mem_cons_self
    rw [List.cons_append, List.takeWhile_cons_of_pos (by simp [h1]), ih (fun r hr => h r (List.mem_cons_of_mem _ hr))]

/-- A section is found by its title. -/
theorem section_stack : ∀ {l : List (Str × List CertRow)}, (∀ p ∈ l, ∀ r ∈ p.2, r.depth ≠ 0) → (l.map (·.1)).Nodup →
    ∀ {t b}, (t, b) ∈ l → sectionOf t (stack l) = b := by
  intro l
  induction l with
  | nil => intro _ _ t b h; cases h
  | cons p l ih =>
    intro h hn t b hm
    rw [List.map_cons, List.nodup_cons] at hn
    unfold sectionOf
    rw [stack_cons]
    rcases List.mem_cons.mp hm with rfl | hm
    · rw [List.dropWhile_cons_of_neg (by simp), List.drop_one, List.tail_cons]
      exact take_body (h _ List.mem_cons_self) l
    · have hne : p.1 ≠ t := by
        rintro rfl
        exact hn.1 (List.mem_map.mpr ⟨_, hm, rfl⟩)
      rw [List.dropWhile_cons_of_pos (by simp [hne]), skip_body (h _ List.mem_cons_self)]
      exact ih (fun p hp => h p (List.mem_cons_of_mem _ hp)) hn.2 hm

theorem titles_stack : ∀ {l : List (Str × List CertRow)}, (∀ p ∈ l, ∀ r ∈ p.2, r.depth ≠ 0) →
    titles (stack l) = l.map (·.1) := by
  intro l
  induction l with
  | nil => intro _; rfl
  | cons p l ih =>
    intro h
    have hb : p.2.filter (fun r => r.depth == 0) = [] := by
      rw [List.filter_eq_nil_iff]
      intro r hr
      simp [h p List.mem_cons_self r hr]
    unfold titles at ih ⊢
    rw [stack_cons, List.filter_cons_of_pos (by rfl), List.filter_append, hb, List.nil_append, List.map_cons, List.map_cons,
      ih (fun p hp => h p (List.mem_cons_of_mem _ hp))]

theorem bare_stack {l : List (Str × List CertRow)} (h : ∀ p ∈ l, ∀ r ∈ p.2, r.depth ≠ 0) :
    ∀ r ∈ stack l, r.depth = 0 → r.value = none := by
  intro r hr h0
  obtain ⟨p, hp, hr⟩ := List.mem_flatMap.mp hr
  rcases List.mem_cons.mp hr with rfl | hr
  · rfl
  · exact absurd h0 (h p hp r hr)

theorem group_body {body rest : List CertRow} (h : ∀ r ∈ body, r.depth ≠ 1) : groups (body ++ rest) = groups rest := by
  induction body with
  | nil => rfl
  | cons r body ih =>
    rw [List.cons_append, groups, if_neg (h r List.mem_cons_self), ih (fun r hr => h r (List.mem_cons_of_mem _ hr))]

/-- Groups are found again. -/
theorem groups_flat : ∀ {l : List (CertRow × List CertRow)}, (∀ p ∈ l, p.1.depth = 1 ∧ ∀ r ∈ p.2, r.depth ≠ 1) →
    groups (l.flatMap (fun p => p.1 :: p.2)) = l := by
  intro l
  induction l with
  | nil => intro _; rfl
  | cons p l ih =>
    intro h
    obtain ⟨h1, h2⟩ := h p List.mem_cons_self
    have ht : (p.2 ++ l.flatMap (fun p => p.1 :: p.2)).takeWhile (fun r => r.depth != 1) = p.2 := by
      rw [List.takeWhile_append_of_pos (fun r hr => by simp [h2 r hr])]
      cases l with
      | nil => rw [List.flatMap_nil, List.takeWhile_nil, List.append_nil]
      | cons q l =>
        rw [List.flatMap_cons, List.cons_append, List.takeWhile_cons_of_neg, List.append_nil]
        simp [(h q (List.mem_cons_of_mem _ List.mem_cons_self)).1]
    rw [List.flatMap_cons, List.cons_append, groups, if_pos h1, ht, group_body h2,
      ih (fun p hp => h p (List.mem_cons_of_mem _ hp))]

theorem fields_depth {d : Nat} {l : List (String × Option CertCell)} : ∀ r ∈ fields d l, r.depth = d := by
  intro r hr
  obtain ⟨p, _, hp⟩ := List.mem_filterMap.mp hr
  cases hx : p.2 with
  | none => rw [hx] at hp; cases hp
  | some x => rw [hx] at hp; cases hp; rfl

/-! ### The rows of a certificate -/

/-- The rows of groups. -/
def groupRows (l : List (CertRow × List CertRow)) : List CertRow := l.flatMap (fun p => p.1 :: p.2)

/-- The sections of the tree of a certificate. -/
def treeSections (v : Visible) : List (Str × List CertRow) :=
  [("Information".toList, fields 1 [("version", some (.int v.version)), ("serial", some (.text (serialText v.serial))),
     ("issued", some (.text v.issued))]),
   ("Issuer".toList, fields 1 [("pub_key", some (.ofBytes v.issuer.pubKey)),
     ("key_algo", some (.ofText v.issuer.keyAlgo)), ("uid", some (.text v.issuer.uid)), ("name", v.issuer.name.map .text),
     ("url", v.issuer.url.map .text)]),
   ("Holder".toList, fields 1 [("pub_key", some (.bytes v.holder.pubKey)),
     ("key_algo", some (.text v.holder.keyAlgo)), ("uid", some (.text v.holder.uid)), ("name", v.holder.name.map .text)]),
   ("Attribute Set".toList, groupRows (v.atts.map attributeGroup)),
   ("Revocation Rules".toList, fields 1 [("valid_after", some (.text v.validAfter)),
     ("valid_before", some (.text v.validBefore)), ("url", v.url.map .text), ("extra_bytes", v.revExtra.map .bytes)]),
   ("Delegation Rules".toList, fields 1 [("extra_bytes", v.delExtra.map .bytes)]),
   ("Extensions".toList, groupRows (v.exts.map extensionGroup)),
   ("Signature".toList, match v.signature with
     | none => []
     | some (algo, b) => fields 1 [("sig_algo", some (.ofText algo)), ("sig_value", some (.bytes (hexlify b)))])]

theorem attribute_rows {a : ACAttribute} {v : VisibleAttribute} (h : AttributeSeen U a v) :
    attributeRows U a = (attributeGroup v).1 :: (attributeGroup v).2 := by
  obtain ⟨id, name, type, value⟩ := v
  obtain ⟨h1, h2, h3, h4⟩ := h
  dsimp only at h1 h2 h3 h4
  subst h1; subst h2; subst h3
  have hv : shownValue U a.value = value := by
    rcases h4 with ⟨v, h1, h2, h3⟩ | ⟨h1 | ⟨v, h1, h2⟩, h3⟩
    · rw [h1, h3, shownValue, if_neg h2]
    · rw [h1, h3, shownValue]
    · rw [h1, h3, shownValue, if_pos h2]
  unfold attributeRows attributeGroup
  rw [hv]
  cases a.name <;> cases value <;> rfl

theorem attributes_rows {l : List ACAttribute} {vs : List VisibleAttribute} (h : List.Forall₂ (AttributeSeen U) l vs) :
    l.flatMap (attributeRows U) = groupRows (vs.map attributeGroup) := by
  induction h with
  | nil => rfl
  | cons h _ ih =>
    rw [List.flatMap_cons, ih, attribute_rows h]
    rfl

theorem extensions_rows (l : List ACExtension) : l.flatMap extensionRows = groupRows (l.map extensionGroup) := by
  induction l with
  | nil => rfl
  | cons e l ih =>
    rw [List.flatMap_cons, ih]
    rfl

/-- The tree of a certificate that can be drawn. -/
theorem tree_rows {c : AttCert} {v : Visible} (h : Sees U date c v) : certTree U date c = (stack (treeSections v), none) := by
  obtain ⟨h1, h2, h3, h4, h5, ⟨l, h6, h6'⟩, h7, h8, h9, h10, h11, h12, h13⟩ := h
  unfold certTree drawDate
  rw [h3, h7, h8, h4, h6, ← h1, ← h2, ← h5, ← h9, ← h10]
  have hd : delegationRows c.delRules = ⟨0, "Delegation Rules".toList, none⟩ ::
      fields 1 [("extra_bytes", v.delExtra.map .bytes)] := by
    unfold delegationRows
    rcases h11 with ⟨e1, e2⟩ | ⟨d, e1, e2⟩
    · rw [e1, e2]; rfl
    · rw [e1, e2]
      show _ :: optRow 1 _ _ d.extra = _
      cases d.extra <;> rfl
  have he : extensionsRows c.extensions = ⟨0, "Extensions".toList, none⟩ :: groupRows (v.exts.map extensionGroup) := by
    unfold extensionsRows
    rw [← extensions_rows]
    rcases h12 with e | ⟨e1, e2⟩
    · rw [e]; rfl
    · rw [e1, e2]; rfl
  have hs : drawSignature c.signature = (⟨0, "Signature".toList, none⟩ :: (match v.signature with
      | none => []
      | some (algo, b) => fields 1 [("sig_algo", some (.ofText algo)), ("sig_value", some (.bytes (hexlify b)))]), none) := by
    rcases h13 with ⟨e1, e2⟩ | ⟨algo, b, e1, e2⟩
    · rw [e1, e2]; rfl
    · rw [e1, e2]; rfl
  have ha : drawAttributes U (some l) = (⟨0, "Attribute Set".toList, none⟩ :: groupRows (v.atts.map attributeGroup), none) := by
    unfold drawAttributes
    dsimp only
    rw [attributes_rows h6']
  have hi : drawIssuer (some v.issuer) = (⟨0, "Issuer".toList, none⟩ :: fields 1 [("pub_key", some (.ofBytes v.issuer.pubKey)),
     ("key_algo", some (.ofText v.issuer.keyAlgo)), ("uid", some (.text v.issuer.uid)), ("name", v.issuer.name.map .text),
     ("url", v.issuer.url.map .text)], none) := by
    unfold drawIssuer
    dsimp only
    cases v.issuer.name <;> cases v.issuer.url <;> rfl
  have hh : holderRows v.holder = ⟨0, "Holder".toList, none⟩ :: fields 1 [("pub_key", some (.bytes v.holder.pubKey)),
     ("key_algo", some (.text v.holder.keyAlgo)), ("uid", some (.text v.holder.uid)), ("name", v.holder.name.map .text)] := by
    unfold holderRows
    cases v.holder.name <;> rfl
  rw [hd, he, hs, ha, hi, hh]
  unfold Drawing.andThen treeSections
  dsimp only
  simp only [stack_cons, List.append_assoc, List.cons_append, List.nil_append]
  cases v.url <;> cases v.revExtra <;> simp [fields, optRow, stack]

theorem sections_below (v : Visible) : ∀ p ∈ treeSections v, ∀ r ∈ p.2, r.depth ≠ 0 := by
  have hf : ∀ l, ∀ r ∈ fields 1 l, r.depth ≠ 0 := fun l r hr => by rw [fields_depth r hr]; decide
  have hg : ∀ l : List (CertRow × List CertRow), (∀ p ∈ l, p.1.depth = 1 ∧ ∀ r ∈ p.2, r.depth = 2) →
      ∀ r ∈ groupRows l, r.depth ≠ 0 := by
    intro l hl r hr
    obtain ⟨p, hp, hr⟩ := List.mem_flatMap.mp hr
    rcases List.mem_cons.mp hr with rfl | hr
    · rw [(hl p hp).1]; decide
    · rw [(hl p hp).2 r hr]; decide
  intro p hp
  unfold treeSections at hp
  simp only [List.mem_cons, List.not_mem_nil, or_false] at hp
  rcases hp with rfl | rfl | rfl | rfl | rfl | rfl | rfl | rfl
  · exact hf _
  · exact hf _
  · exact hf _
  · refine hg _ (fun p hp => ?_)
    obtain ⟨a, _, rfl⟩ := List.mem_map.mp hp
    exact ⟨rfl, fields_depth⟩
  · exact hf _
  · exact hf _
  · refine hg _ (fun p hp => ?_)
    obtain ⟨a, _, rfl⟩ := List.mem_map.mp hp
    exact ⟨rfl, fields_depth⟩
  · cases v.signature with
    | none => exact fun r hr => (by cases hr)
    | some p => exact hf _

theorem sections_nodup (v : Visible) : ((treeSections v).map (·.1)).Nodup := by
  show (["Information", "Issuer", "Holder", "Attribute Set", "Revocation Rules", "Delegation Rules", "Extensions",
    "Signature"].map String.toList).Nodup
  decide +kernel

theorem stack_reads (v : Visible) : TreeReads (stack (treeSections v)) v := by
  have hb := sections_below v
  have hs : ∀ t b, (t, b) ∈ treeSections v → sectionOf t (stack (treeSections v)) = b :=
    fun t b h => section_stack hb (sections_nodup v) h
  refine ⟨(titles_stack hb).trans rfl, ⟨_, rfl, rfl⟩, bare_stack hb, hs _ _ ?_, hs _ _ ?_, hs _ _ ?_, ?_, hs _ _ ?_, hs _ _ ?_,
    ?_, hs _ _ ?_⟩
  case refine_4 =>
    rw [hs _ (groupRows (v.atts.map attributeGroup)) (by unfold treeSections; simp)]
    refine groups_flat (fun p hp => ?_)
    obtain ⟨a, _, rfl⟩ := List.mem_map.mp hp
    exact ⟨rfl, fun r hr => by rw [fields_depth r hr]; decide⟩
  case refine_7 =>
    rw [hs _ (groupRows (v.exts.map extensionGroup)) (by unfold treeSections; simp)]
    refine groups_flat (fun p hp => ?_)
    obtain ⟨a, _, rfl⟩ := List.mem_map.mp hp
    exact ⟨rfl, fun r hr => by rw [fields_depth r hr]; decide⟩
  case refine_8 => exact List.mem_of_getLast? (by unfold treeSections; rfl)
  all_goals (unfold treeSections; simp)

/-- **C140**: the tree shows everything there is to be seen of a certificate under the titles and names it belongs to, and
nothing else. -/
theorem tree_reads {c : AttCert} {v : Visible} (h : Sees U date c v) :
    (certTree U date c).2 = none ∧ TreeReads (certTree U date c).1 v := by
  rw [tree_rows h]
  exact ⟨rfl, stack_reads v⟩

/-! ### Numbers and bytes -/

theorem hexUpper_sign (n : Nat) (s : Str) : hexUpper n ≠ '-' :: s := by
  intro h
  have h1 := hexUpper_read n
  rw [h, baseDigits, if_neg (by decide), show baseDigit asciiUni 16 '-' = none by decide] at h1
  cases h1

/-- Different numbers are shown differently. -/
theorem serialText_inj {n m : Int} (h : serialText n = serialText m) : n = m := by
  unfold serialText at h
  split at h <;> split at h
  · have := hexUpper_inj (List.cons.inj h).2
    omega
  · exact absurd h.symm (hexUpper_sign _ _)
  · exact absurd h (hexUpper_sign _ _)
  · have := hexUpper_inj h
    omega

/-- **C140**: the serial number is shown as at least two hexadecimal digits, whose value is the number. -/
theorem serial_reads (n : Nat) :
    2 ≤ (serialText n).length ∧ baseDigits asciiUni 16 0 false (serialText n) = some n := by
  have h : serialText n = hexUpper n := by
    unfold serialText
    rw [if_neg (by omega), Int.toNat_natCast]
  rw [h]
  refine ⟨?_, hexUpper_read n⟩
  have := Nat.length_toDigits_pos (b := 16) (n := n)
  unfold hexUpper
  dsimp only
  split
  · rw [List.length_cons, List.length_map]
    omega
  · omega

theorem hexByte_facts (b : UInt8) : ∃ x y : UInt8, hexByte b = [x, y] ∧
    (∀ d ∈ [x, y], 48 ≤ d ∧ d ≤ 57 ∨ 97 ≤ d ∧ d ≤ 102) ∧
    b.toNat = 16 * (if x ≤ 57 then x.toNat - 48 else x.toNat - 87) + (if y ≤ 57 then y.toNat - 48 else y.toNat - 87) := by
  have h : ∀ n < 256, (∀ d ∈ hexByte (UInt8.ofNat n), 48 ≤ d ∧ d ≤ 57 ∨ 97 ≤ d ∧ d ≤ 102) ∧
      n = 16 * (if (hexByte (UInt8.ofNat n))[0]! ≤ 57 then (hexByte (UInt8.ofNat n))[0]!.toNat - 48
        else (hexByte (UInt8.ofNat n))[0]!.toNat - 87) + (if (hexByte (UInt8.ofNat n))[1]! ≤ 57
        then (hexByte (UInt8.ofNat n))[1]!.toNat - 48 else (hexByte (UInt8.ofNat n))[1]!.toNat - 87) := by decide +kernel
  have hb := h b.toNat b.toNat_lt
  rw [UInt8.ofNat_toNat] at hb
  exact ⟨_, _, rfl, hb⟩

theorem hexByte_inj {a b : UInt8} (h : hexByte a = hexByte b) : a = b := by
  obtain ⟨x, y, h1, _, h2⟩ := hexByte_facts a
  obtain ⟨x', y', h1', _, h2'⟩ := hexByte_facts b
  rw [h1, h1'] at h
  cases h
  exact UInt8.toNat.inj (h2.trans h2'.symm)

/-- **C140**: signatures are shown as two lower case hexadecimal digits for each byte, and different ones differently. -/
theorem hexlify_shows (b : Bytes) : (hexlify b).length = 2 * b.length ∧
    (∀ d ∈ hexlify b, 48 ≤ d ∧ d ≤ 57 ∨ 97 ≤ d ∧ d ≤ 102) ∧ ∀ b', hexlify b = hexlify b' → b = b' := by
  induction b with
  | nil =>
    refine ⟨rfl, fun d hd => (by cases hd), fun b' h => ?_⟩
    cases b' with
    | nil => rfl
    | cons x b' => cases h
  | cons x b ih =>
    obtain ⟨i1, i2, i3⟩ := ih
    have hx : hexlify (x :: b) = hexByte x ++ hexlify b := rfl
    refine ⟨?_, ?_, ?_⟩
    · rw [hx, List.length_append, i1, List.length_cons]
      show 2 + _ = _
      omega
    · intro d hd
      rw [hx] at hd
      rcases List.mem_append.mp hd with hd | hd
      · obtain ⟨y, z, h1, h2, _⟩ := hexByte_facts x
        rw [h1] at hd
        exact h2 d hd
      · exact i2 d hd
    · intro b' h
      cases b' with
      | nil => cases h
      | cons x' b' =>
        have h' : hexByte x ++ hexlify b = hexByte x' ++ hexlify b' := h
        obtain ⟨h1, h2⟩ := List.append_inj h' rfl
        rw [hexByte_inj h1, i3 b' h2]

/-! ### What can be read -/

theorem fields_eq {d : Nat} {a : String} {x y : Option CertCell} {l l' : List (String × Option CertCell)}
    (h : fields d ((a, x) :: l) = fields d ((a, y) :: l')) (hl : ∀ p ∈ l, p.1 ≠ a) (hl' : ∀ p ∈ l', p.1 ≠ a) :
    x = y ∧ fields d l = fields d l' := by
  have hn : ∀ (m : List (String × Option CertCell)) (r : CertRow) (t : List CertRow), fields d m = r :: t →
      ∃ p ∈ m, r.text = p.1.toList := by
    intro m r t hm
    have hr : r ∈ fields d m := hm ▸ List.mem_cons_self
    obtain ⟨p, hp, hr⟩ := List.mem_filterMap.mp hr
    cases hx : p.2 with
    | none => rw [hx] at hr; cases hr
    | some z => rw [hx] at hr; cases hr; exact ⟨p, hp, rfl⟩
  cases x with
  | none =>
    cases y with
    | none => exact ⟨rfl, h⟩
    | some y =>
      have h' : fields d l = ⟨d, a.toList, some y⟩ :: fields d l' := h
      obtain ⟨p, hp, e⟩ := hn _ _ _ h'
      exact absurd (String.toList_inj.mp e).symm (hl p hp)
  | some x =>
    cases y with
    | none =>
      have h' : fields d l' = ⟨d, a.toList, some x⟩ :: fields d l := h.symm
      obtain ⟨p, hp, e⟩ := hn _ _ _ h'
      exact absurd (String.toList_inj.mp e).symm (hl' p hp)
    | some y =>
      have h' : (⟨d, a.toList, some x⟩ : CertRow) :: fields d l = ⟨d, a.toList, some y⟩ :: fields d l' := h
      obtain ⟨h1, h2⟩ := List.cons.inj h'
      exact ⟨(CertRow.mk.inj h1).2.2, h2⟩

theorem map_text {x y : Option Str} (h : x.map CertCell.text = y.map CertCell.text) : x = y := by
  cases x <;> cases y <;> cases h <;> rfl

theorem map_bytes {x y : Option Bytes} (h : x.map CertCell.bytes = y.map CertCell.bytes) : x = y := by
  cases x <;> cases y <;> cases h <;> rfl

theorem ofBytes_inj {x y : Option Bytes} (h : CertCell.ofBytes x = CertCell.ofBytes y) : x = y := by
  cases x <;> cases y <;> cases h <;> rfl

theorem ofText_inj {x y : Option Str} (h : CertCell.ofText x = CertCell.ofText y) : x = y := by
  cases x <;> cases y <;> cases h <;> rfl

theorem member_inj {x y : AttType} (h : x.member = y.member) : x = y := by
  cases x <;> cases y <;> first | rfl | exact absurd h (by decide)

theorem attributeGroup_inj {a b : VisibleAttribute} (h : attributeGroup a = attributeGroup b) : a = b := by
  obtain ⟨id, name, type, value⟩ := a
  obtain ⟨id', name', type', value'⟩ := b
  obtain ⟨h1, h2⟩ := Prod.mk.inj h
  cases h1
  obtain ⟨_, h2⟩ := fields_eq h2 (by simp) (by simp)
  obtain ⟨e1, h2⟩ := fields_eq h2 (by simp) (by simp)
  obtain ⟨e2, h2⟩ := fields_eq h2 (by simp) (by simp)
  obtain ⟨e3, _⟩ := fields_eq h2 (by simp) (by simp)
  cases map_text e1
  cases map_text e3
  cases member_inj (CertCell.text.inj (Option.some.inj e2))
  rfl

theorem extensionGroup_inj {a b : ACExtension} (h : extensionGroup a = extensionGroup b) : a = b := by
  obtain ⟨id, extra⟩ := a
  obtain ⟨id', extra'⟩ := b
  obtain ⟨h1, h2⟩ := Prod.mk.inj h
  cases h1
  obtain ⟨_, h2⟩ := fields_eq h2 (by simp) (by simp)
  obtain ⟨e, _⟩ := fields_eq h2 (by simp) (by simp)
  cases ofBytes_inj (Option.some.inj e)
  rfl

/-- A tree shows one thing only. -/
theorem reads_unique {rows : List CertRow} {v v' : Visible} (h : TreeReads rows v) (h' : TreeReads rows v') : v = v' := by
  obtain ⟨version, serial, issued, issuer, holder, atts, after, before, url, rev, del, exts, sig⟩ := v
  obtain ⟨version', serial', issued', issuer', holder', atts', after', before', url', rev', del', exts', sig'⟩ := v'
  obtain ⟨_, _, _, h1, h2, h3, h4, h5, h6, h7, h8⟩ := h
  obtain ⟨_, _, _, k1, k2, k3, k4, k5, k6, k7, k8⟩ := h'
  dsimp only at h1 h2 h3 h4 h5 h6 h7 h8 k1 k2 k3 k4 k5 k6 k7 k8
  obtain ⟨a1, b1⟩ := fields_eq (h1.symm.trans k1) (by simp) (by simp)
  obtain ⟨a2, b1⟩ := fields_eq b1 (by simp) (by simp)
  obtain ⟨a3, _⟩ := fields_eq b1 (by simp) (by simp)
  obtain ⟨a4, b1⟩ := fields_eq (h2.symm.trans k2) (by simp) (by simp)
  obtain ⟨a5, b1⟩ := fields_eq b1 (by simp) (by simp)
  obtain ⟨a6, b1⟩ := fields_eq b1 (by simp) (by simp)
  obtain ⟨a7, b1⟩ := fields_eq b1 (by simp) (by simp)
  obtain ⟨a8, _⟩ := fields_eq b1 (by simp) (by simp)
  obtain ⟨a9, b1⟩ := fields_eq (h3.symm.trans k3) (by simp) (by simp)
  obtain ⟨a10, b1⟩ := fields_eq b1 (by simp) (by simp)
  obtain ⟨a11, b1⟩ := fields_eq b1 (by simp) (by simp)
  obtain ⟨a12, _⟩ := fields_eq b1 (by simp) (by simp)
  obtain ⟨a13, b1⟩ := fields_eq (h5.symm.trans k5) (by simp) (by simp)
  obtain ⟨a14, b1⟩ := fields_eq b1 (by simp) (by simp)
  obtain ⟨a15, b1⟩ := fields_eq b1 (by simp) (by simp)
  obtain ⟨a16, _⟩ := fields_eq b1 (by simp) (by simp)
  obtain ⟨a17, _⟩ := fields_eq (h6.symm.trans k6) (by simp) (by simp)
  have hatts : atts = atts' := List.map_injective_iff.mpr (fun _ _ h => attributeGroup_inj h) (h4.symm.trans k4)
  have hexts : exts = exts' := List.map_injective_iff.mpr (fun _ _ h => extensionGroup_inj h) (h7.symm.trans k7)
  have hsig : sig = sig' := by
    have h9 := h8.symm.trans k8
    rcases sig with _ | ⟨algo, b⟩ <;> rcases sig' with _ | ⟨algo', b'⟩
    · rfl
    · cases h9
    · cases h9
    · obtain ⟨e1, b1⟩ := fields_eq h9 (by simp) (by simp)
      obtain ⟨e2, _⟩ := fields_eq b1 (by simp) (by simp)
      cases ofText_inj (Option.some.inj e1)
      cases (hexlify_shows b).2.2 b' (CertCell.bytes.inj (Option.some.inj e2))
      rfl
  obtain ⟨i1, i2, i3, i4, i5⟩ := issuer
  obtain ⟨j1, j2, j3, j4, j5⟩ := issuer'
  obtain ⟨m1, m2, m3, m4⟩ := holder
  obtain ⟨n1, n2, n3, n4⟩ := holder'
  subst hatts; subst hexts; subst hsig
  cases a1; cases a3; cases a6; cases a9; cases a10; cases a11; cases a13; cases a14
  cases serialText_inj (CertCell.text.inj (Option.some.inj a2))
  cases ofBytes_inj (Option.some.inj a4)
  cases ofText_inj (Option.some.inj a5)
  cases map_text a7; cases map_text a8; cases map_text a12; cases map_text a15; cases map_bytes a16; cases map_bytes a17
  rfl

/-- **C140**: two certificates that can be drawn have the same tree if and only if the same is to be seen of them. -/
theorem tree_same_iff {date' : Int → Except PyExc Str} {c c' : AttCert} {v v' : Visible} (h : Sees U date c v)
    (h' : Sees U date' c' v') : (certTree U date c).1 = (certTree U date' c').1 ↔ v = v' := by
  constructor
  · intro e
    exact reads_unique (tree_reads h).2 (e ▸ (tree_reads h').2)
  · rintro rfl
    rw [tree_rows h, tree_rows h']

/-! ### Drawings that fail -/

/-- **C140**: the first thing that cannot be drawn ends the drawing with its exception. -/
theorem tree_error (c : AttCert) : (certTree U date c).2 = (obstacles date c).findSome? id := by
  obtain ⟨issuer, holder, info, atts, rev, del, exts, sig⟩ := c
  unfold certTree obstacles drawDate Drawing.andThen
  dsimp only
  cases date info.issued with
  | error e => rfl
  | ok s =>
    cases issuer with
    | none => rfl
    | some i =>
      cases atts with
      | none => rfl
      | some l =>
        cases date rev.validAfter with
        | error e => rfl
        | ok s =>
          cases date rev.validBefore with
          | error e => rfl
          | ok s =>
            rcases sig with _ | ⟨algo, _ | v⟩
            · simp [drawSignature, drawIssuer, drawAttributes]
            · simp [drawSignature, drawIssuer, drawAttributes]
            · simp [drawSignature, drawIssuer, drawAttributes]

/-- What there is to be seen of an attribute. -/
theorem attribute_seen (U : Uni) (a : ACAttribute) : ∃ v, AttributeSeen U a v := by
  cases h : a.value with
  | none => exact ⟨⟨a.id, a.name, a.type, none⟩, rfl, rfl, rfl, .inr ⟨.inl h, rfl⟩⟩
  | some v =>
    by_cases hl : U.lower v = "none".toList
    · exact ⟨⟨a.id, a.name, a.type, none⟩, rfl, rfl, rfl, .inr ⟨.inr ⟨v, h, hl⟩, rfl⟩⟩
    · exact ⟨⟨a.id, a.name, a.type, some v⟩, rfl, rfl, rfl, .inl ⟨v, h, hl, rfl⟩⟩

theorem attributes_seen (U : Uni) (l : List ACAttribute) : ∃ vs, List.Forall₂ (AttributeSeen U) l vs := by
  induction l with
  | nil => exact ⟨[], .nil⟩
  | cons a l ih =>
    obtain ⟨v, h⟩ := attribute_seen U a
    obtain ⟨vs, hs⟩ := ih
    exact ⟨v :: vs, .cons h hs⟩

/-- **C140**: a certificate can be drawn if and only if nothing stops it, that is, if there is something to be seen of all its
parts. -/
theorem tree_complete_iff (c : AttCert) : (certTree U date c).2 = none ↔ ∃ v, Sees U date c v := by
  constructor
  · intro h
    rw [tree_error] at h
    unfold obstacles at h
    simp only [List.findSome?_eq_none_iff, List.mem_cons, List.not_mem_nil, or_false, id, forall_eq_or_imp, forall_eq] at h
    obtain ⟨h1, h2, h3, h4, h5, h6⟩ := h
    have hd : ∀ t, (match date t with | .ok _ => none | .error e => some e : Option PyExc) = none → ∃ s, date t = .ok s := by
      intro t ht
      cases hd : date t with
      | ok s => exact ⟨s, rfl⟩
      | error e => rw [hd] at ht; cases ht
    obtain ⟨s1, h1⟩ := hd _ h1
    obtain ⟨s2, h4⟩ := hd _ h4
    obtain ⟨s3, h5⟩ := hd _ h5
    cases hi : c.issuer with
    | none => rw [if_pos hi] at h2; cases h2
    | some i =>
      cases ha : c.attSet with
      | none => rw [if_pos ha] at h3; cases h3
      | some l =>
        obtain ⟨vs, hvs⟩ := attributes_seen U l
        have hsig : ∃ sig, (c.signature = none ∧ sig = none ∨
            ∃ algo b, c.signature = some ⟨algo, some b⟩ ∧ sig = some (algo, b)) := by
          rcases hc : c.signature with _ | ⟨algo, _ | b⟩
          · exact ⟨none, .inl ⟨rfl, rfl⟩⟩
          · rw [if_pos ⟨_, hc, rfl⟩] at h6; cases h6
          · exact ⟨_, .inr ⟨algo, b, rfl, rfl⟩⟩
        obtain ⟨sig, hsig⟩ := hsig
        refine ⟨⟨c.info.version, c.info.serial, s1, i, c.holder, vs, s2, s3, c.revRules.url, c.revRules.extra,
          c.delRules.bind (·.extra), c.extensions.getD [], sig⟩, rfl, rfl, h1, hi, rfl, ⟨l, ha, hvs⟩, h4, h5, rfl, rfl, ?_, ?_,
          hsig⟩
        · cases hc : c.delRules with
          | none => exact .inl ⟨rfl, rfl⟩
          | some d => exact .inr ⟨d, rfl, rfl⟩
        · cases hc : c.extensions with
          | none => exact .inr ⟨rfl, rfl⟩
          | some d => exact .inl rfl
  · rintro ⟨v, h⟩
    exact (tree_reads h).1

/-- A drawing is the same as another, or fails with a beginning of its rows. -/
def DrawnUpTo (a b : Drawing) : Prop := a = b ∨ a.2 ≠ none ∧ a.1 <+: b.1

theorem drawn_andThen {a b a' b' : Drawing} (h : DrawnUpTo a a') (h' : DrawnUpTo b b') :
    DrawnUpTo (a.andThen b) (a'.andThen b') := by
  obtain ⟨r, o⟩ := a
  obtain ⟨r', o'⟩ := a'
  obtain ⟨s, p⟩ := b
  obtain ⟨s', p'⟩ := b'
  rcases h with h | ⟨h1, h2⟩
  · cases h
    cases o with
    | some e => exact .inl rfl
    | none =>
      rcases h' with h' | ⟨h1, h2⟩
      · cases h'; exact .inl rfl
      · exact .inr ⟨h1, (List.prefix_append_right_inj r).mpr h2⟩
  · cases o with
    | none => exact absurd rfl h1
    | some e =>
      refine .inr ⟨fun h => (by cases h), ?_⟩
      cases o' with
      | none => exact h2.trans (List.prefix_append _ _)
      | some e' => exact h2

theorem drawn_date {date' : Int → Except PyExc Str} (h : Extends date' date) (label : Str) (t : Int) :
    DrawnUpTo (drawDate date label t) (drawDate date' label t) := by
  unfold drawDate
  cases hd : date t with
  | ok s => rw [h t s hd]; exact .inl rfl
  | error e => exact .inr ⟨fun h => (by cases h), List.nil_prefix⟩

/-- **C140**: a drawing that fails leaves a beginning of the tree: with more dates known and a value of the signature, the rows
drawn are there again and in front. -/
theorem tree_prefix {date' : Int → Except PyExc Str} (h : Extends date' date) (c c' : AttCert)
    (hc : c' = c ∨ ∃ algo value, c.signature = some ⟨algo, none⟩ ∧ c' = { c with signature := some ⟨algo, value⟩ }) :
    (certTree U date c).1 <+: (certTree U date' c').1 := by
  have key : ∀ sig, DrawnUpTo (drawSignature c.signature) (drawSignature sig) →
      (certTree U date c).1 <+: (certTree U date' { c with signature := sig }).1 := by
    intro sig hsig
    have : DrawnUpTo (certTree U date c) (certTree U date' { c with signature := sig }) := by
      unfold certTree
      exact drawn_andThen (.inl rfl) (drawn_andThen (drawn_date h _ _) (drawn_andThen (.inl rfl) (drawn_andThen (.inl rfl)
        (drawn_andThen (.inl rfl) (drawn_andThen (.inl rfl) (drawn_andThen (drawn_date h _ _) (drawn_andThen (drawn_date h _ _)
        (drawn_andThen (.inl rfl) hsig))))))))
    rcases this with e | ⟨_, e⟩
    · rw [e]; exact List.prefix_rfl
    · exact e
  rcases hc with rfl | ⟨algo, value, h1, rfl⟩
  · exact key _ (.inl rfl)
  · refine key _ ?_
    rw [h1]
    refine .inr ⟨fun h => (by cases h), ?_⟩
    cases value with
    | none => exact List.prefix_rfl
    | some v => exact List.prefix_append _ _

/-! ### Certificates received -/

theorem wire_times {c : AttCert} {b : Bytes} (h : CertWire c b) :
    (0 ≤ c.info.issued ∧ c.info.issued < 4294967296) ∧ (0 ≤ c.revRules.validAfter ∧ c.revRules.validAfter < 4294967296) ∧
    (0 ≤ c.revRules.validBefore ∧ c.revRules.validBefore < 4294967296) ∧ c.issuer ≠ none ∧ c.attSet ≠ none := by
  obtain ⟨size, body, sig, g, hb, _⟩ := h
  obtain ⟨i, l, x, _, _, _, _, _, _, _, h1, h2, _, _, _, hn, _, hr, _⟩ := hb
  obtain ⟨v, n, t, e, _, _, _, ht, _⟩ := hn
  obtain ⟨va, vb, _, _, e1, e2, hva, hvb, _⟩ := hr
  rw [e, e1, e2, h1, h2]
  dsimp only
  refine ⟨⟨?_, ?_⟩, ⟨?_, ?_⟩, ⟨?_, ?_⟩, fun h => (by cases h), fun h => (by cases h)⟩ <;> omega

/-- **C140**: of a certificate that has been received, only a signature without value stops the drawing: all times have dates. -/
theorem received_tree (hd : DatesKnown date) {c : AttCert} {b : Bytes} (h : CertWire c b) :
    (certTree U date c).2 = AAuthGui.treeError c := by
  obtain ⟨⟨a1, a2⟩, ⟨b1, b2⟩, ⟨c1, c2⟩, hi, ha⟩ := wire_times h
  obtain ⟨s1, e1⟩ := hd _ a1 a2
  obtain ⟨s2, e2⟩ := hd _ b1 b2
  obtain ⟨s3, e3⟩ := hd _ c1 c2
  rw [tree_error]
  unfold obstacles AAuthGui.treeError
  rw [e1, e2, e3, if_neg hi, if_neg ha]
  rcases c.signature with _ | ⟨algo, _ | v⟩ <;> simp

/-- **C140**: the window draws the tree of every certificate it can read completely, unless its signature has no value; then
all of it but the value is drawn and TypeError raised. -/
theorem window_tree (hd : DatesKnown date) (g : AAuthGui G) (b : Bytes) {k : G.Key} (hk : g.client.lastKey = some k)
    {c : AttCert} (hc : CertWire c b) :
    (g.receive X b).1.ac = some c ∧
    (((g.receive X b).2 = .done ∧ ∃ v, Sees U date c v ∧ TreeReads (certTree U date c).1 v) ∨
     ∃ algo, c.signature = some ⟨algo, none⟩ ∧ (g.receive X b).2 = .raised .typeError ∧
       ∃ v, TreeReads ((certTree U date c).1 ++ [⟨1, "sig_value".toList, some (.bytes [])⟩]) v ∧
         Sees U date { c with signature := some ⟨algo, some []⟩ } v) := by
  have hdec : AttCert.decode X b false = .ok (c, []) := decode_accepts.mpr ⟨rfl, hc, fun h => (by cases h)⟩
  have hrec : (g.receive X b).1.ac = some c ∧
      (g.receive X b).2 = match AAuthGui.treeError c with | some e => .raised e | none => .done := by
    unfold AAuthGui.receive
    rw [hk]
    dsimp only
    rw [hdec]
    exact ⟨rfl, rfl⟩
  rw [hrec.2]
  refine ⟨hrec.1, ?_⟩
  have ht := received_tree (U := U) hd hc
  by_cases hs : ∃ algo, c.signature = some ⟨algo, none⟩
  · obtain ⟨algo, hs⟩ := hs
    have he : AAuthGui.treeError c = some .typeError := by unfold AAuthGui.treeError; rw [hs]
    refine .inr ⟨algo, hs, by rw [he], ?_⟩
    have hrows : certTree U date { c with signature := some ⟨algo, some []⟩ } =
        ((certTree U date c).1 ++ [⟨1, "sig_value".toList, some (.bytes [])⟩], none) := by
      obtain ⟨⟨a1, a2⟩, ⟨b1, b2⟩, ⟨c1, c2⟩, hi, ha⟩ := wire_times hc
      obtain ⟨s1, e1⟩ := hd _ a1 a2
      obtain ⟨s2, e2⟩ := hd _ b1 b2
      obtain ⟨s3, e3⟩ := hd _ c1 c2
      obtain ⟨i, hi⟩ := Option.ne_none_iff_exists'.mp hi
      obtain ⟨l, ha⟩ := Option.ne_none_iff_exists'.mp ha
      unfold certTree drawDate
      dsimp only
      rw [e1, e2, e3, hs, hi, ha]
      simp [Drawing.andThen, drawSignature, drawIssuer, drawAttributes, hexlify]
    obtain ⟨v, hv⟩ := (tree_complete_iff (U := U) (date := date) { c with signature := some ⟨algo, some []⟩ }).mp (by rw [hrows])
    have hr := (tree_reads hv).2
    rw [hrows] at hr
    exact ⟨v, hr, hv⟩
  · have he : AAuthGui.treeError c = none := by
      unfold AAuthGui.treeError
      split
      · rename_i algo h
        exact absurd ⟨algo, h⟩ hs
      · rfl
    rw [he] at ht
    obtain ⟨v, hv⟩ := (tree_complete_iff c).mp ht
    exact .inl ⟨by rw [he], v, hv, (tree_reads hv).2⟩

/-- **C140**: what the attribute authority issues is drawn completely: the key it was asked for is the one of the holder, and
the signature is there. -/
theorem issued_tree (hd : DatesKnown date) (hU : U.Lawful) (hX : X.Lawful) {B : Bcrypt} {collate : Str → Str} {a : Authority X}
    {db : AAuthDb} {env : RequestEnv} {cred : Credentials} {key : PublicKeyArg} {req : AttributeListArg} {exports : Dict Str} {b : Bytes}
    (ha : AsciiInputs a db env cred key exports) (h : a.issue U B collate db env cred key req exports = .ok b) :
    ∃ c v sig, AttCert.decode X b true = .ok (c, []) ∧ (certTree U date c).2 = none ∧ TreeReads (certTree U date c).1 v ∧
      v.holder.pubKey = key.publicKey ∧ v.signature = some (some aauthSigAlgo, sig) := by
  obtain ⟨username, user, sel, uri, rows, body, sig, _, _, _, _, _, _, _, _, hdec⟩ := issued_certificate hU hX ha h
  have hw := (decode_accepts.mp hdec).2.1
  have ht : (certTree U date _).2 = none := (received_tree (U := U) hd hw).trans (by rfl)
  obtain ⟨v, hv⟩ := (tree_complete_iff _).mp ht
  refine ⟨_, v, sig, hdec, ht, (tree_reads hv).2, by rw [hv.holder]; rfl, ?_⟩
  rcases hv.signature with ⟨e, _⟩ | ⟨algo, b, e, e'⟩
  · cases e
  · cases e
    exact e'

/-! ### What is not shown -/

/-- Attributes that look the same: all but further bytes is the same, and a value may be absent in one and `none` in the
other. -/
def LooksSame (U : Uni) (a a' : ACAttribute) : Prop :=
  a'.id = a.id ∧ a'.name = a.name ∧ a'.type = a.type ∧
    (a'.value = a.value ∨ ∀ x, x = a.value ∨ x = a'.value → ∀ v, x = some v → U.lower v = "none".toList)

theorem shown_nothing {x : Option Str} (h : ∀ v, x = some v → U.lower v = "none".toList) : shownValue U x = none := by
  cases x with
  | none => rfl
  | some v => rw [shownValue, if_pos (h v rfl)]

/-- **C140**: the tree does not show the further bytes of attributes, nor whether the value of an attribute is absent or the
word `none`. -/
theorem tree_hides (c : AttCert) (l l' : List ACAttribute) (h : c.attSet = some l) (hl : List.Forall₂ (LooksSame U) l l') :
    certTree U date { c with attSet := some l' } = certTree U date c := by
  have hr : l'.flatMap (attributeRows U) = l.flatMap (attributeRows U) := by
    clear h
    induction hl with
    | nil => rfl
    | cons ha _ ih =>
      rename_i a a' l l' _
      obtain ⟨h1, h2, h3, h4⟩ := ha
      have hv : shownValue U a'.value = shownValue U a.value := by
        rcases h4 with h4 | h4
        · rw [h4]
        · rw [shown_nothing (h4 _ (.inl rfl)), shown_nothing (h4 _ (.inr rfl))]
      rw [List.flatMap_cons, List.flatMap_cons, ih]
      unfold attributeRows
      rw [h1, h2, h3, hv]
  unfold certTree
  dsimp only
  rw [h]
  unfold drawAttributes
  dsimp only
  rw [hr]

/-- **C140**: the tree does not show whether a list of extensions is absent or empty, or delegation rules absent or without
content. -/
theorem tree_hides_empty (c : AttCert) (he : c.extensions = none) (hd : c.delRules = none) :
    certTree U date { c with extensions := some [] } = certTree U date c ∧
    certTree U date { c with delRules := some ⟨none⟩ } = certTree U date c := by
  unfold certTree
  dsimp only
  rw [he, hd]
  exact ⟨rfl, rfl⟩

/-! ### Examples -/

/-- Dates as numbers; there are none for negative times. -/
def sampleDate (t : Int) : Except PyExc Str := if t < 0 then .error .valueError else .ok (Nat.toDigits 10 t.toNat)

theorem sampleDate_known : DatesKnown sampleDate := fun t h _ => ⟨_, if_neg (by omega)⟩

/-- A certificate as it is received. -/
def shownCert (value : Option Str) (extra : Option Bytes) : AttCert where
  issuer := some ⟨some [7, 8], some "RSA".toList, "/aa".toList, none, some "u".toList⟩
  holder := ⟨[9], "RSA".toList, "/aa/bob".toList, some "Bob".toList⟩
  info := ⟨1, 77, 1000⟩
  attSet := some [⟨"/a/age".toList, .int, some "42".toList, some "age".toList, extra⟩, ⟨"/a/x".toList, .null, value, none, none⟩]
  revRules := ⟨1000, 2000, none, none⟩
  extensions := some [⟨"e".toList, some [3]⟩]
  signature := some ⟨some "A".toList, some [1, 171]⟩

example : certTree asciiUni sampleDate (shownCert (some "NONE".toList) none) =
    ([⟨0, "Information".toList, none⟩, ⟨1, "version".toList, some (.int 1)⟩, ⟨1, "serial".toList, some (.text "4D".toList)⟩,
      ⟨1, "issued".toList, some (.text "1000".toList)⟩, ⟨0, "Issuer".toList, none⟩, ⟨1, "pub_key".toList, some (.bytes [7, 8])⟩,
      ⟨1, "key_algo".toList, some (.text "RSA".toList)⟩, ⟨1, "uid".toList, some (.text "/aa".toList)⟩,
      ⟨1, "url".toList, some (.text "u".toList)⟩, ⟨0, "Holder".toList, none⟩, ⟨1, "pub_key".toList, some (.bytes [9])⟩,
      ⟨1, "key_algo".toList, some (.text "RSA".toList)⟩, ⟨1, "uid".toList, some (.text "/aa/bob".toList)⟩,
      ⟨1, "name".toList, some (.text "Bob".toList)⟩, ⟨0, "Attribute Set".toList, none⟩, ⟨1, "/a/age".toList, none⟩,
      ⟨2, "id".toList, some (.text "/a/age".toList)⟩, ⟨2, "name".toList, some (.text "age".toList)⟩,
      ⟨2, "type".toList, some (.text "INT".toList)⟩, ⟨2, "value".toList, some (.text "42".toList)⟩, ⟨1, "/a/x".toList, none⟩,
      ⟨2, "id".toList, some (.text "/a/x".toList)⟩, ⟨2, "type".toList, some (.text "NULL".toList)⟩,
      ⟨0, "Revocation Rules".toList, none⟩, ⟨1, "valid_after".toList, some (.text "1000".toList)⟩,
      ⟨1, "valid_before".toList, some (.text "2000".toList)⟩, ⟨0, "Delegation Rules".toList, none⟩,
      ⟨0, "Extensions".toList, none⟩, ⟨1, "e".toList, none⟩, ⟨2, "eid".toList, some (.text "e".toList)⟩,
      ⟨2, "extra_bytes".toList, some (.bytes [3])⟩, ⟨0, "Signature".toList, none⟩,
      ⟨1, "sig_algo".toList, some (.text "A".toList)⟩, ⟨1, "sig_value".toList, some (.bytes (utf8 "01ab".toList))⟩], none) := by
  decide +kernel

/-- Certificates that are received and look the same: the further bytes of an attribute differ, and a value. -/
example : (∃ b, CertWire (shownCert (some "NONE".toList) none) b) ∧ (∃ b, CertWire (shownCert none (some [1, 2])) b) ∧
    shownCert (some "NONE".toList) none ≠ shownCert none (some [1, 2]) ∧
    certTree asciiUni sampleDate (shownCert none (some [1, 2])) =
      certTree asciiUni sampleDate (shownCert (some "NONE".toList) none) := by
  have hw : ∀ c, (c.encode toyCrypto .no).map Prod.snd = .ok c → (∀ t ∈ texts c, Ascii t) →
      (∀ s, c.signature = some s → AsciiOpt s.algo) → content c = c → ∃ b, CertWire c b := by
    intro c hb h1 h2 h3
    cases he : c.encode toyCrypto .no with
    | error e => rw [he] at hb; cases hb
    | ok p =>
      have := round_trip (c' := p.2) (b := p.1) (X := toyCrypto) (c := c) he h1 h2
      rw [h3] at this
      exact ⟨p.1, (decode_accepts.mp this).2.1⟩
  refine ⟨hw _ (by decide +kernel) (by unfold Ascii; decide +kernel) ?_ (by decide +kernel),
    hw _ (by decide +kernel) (by unfold Ascii; decide +kernel) ?_ (by decide +kernel),
    by decide +kernel, ?_⟩
  · intro s hs
    cases hs
    unfold AsciiOpt Ascii
    decide +kernel
  · intro s hs
    cases hs
    unfold AsciiOpt Ascii
    decide +kernel
  · exact tree_hides (shownCert (some "NONE".toList) none) _ _ rfl
      (.cons ⟨rfl, rfl, rfl, .inl rfl⟩ (.cons ⟨rfl, rfl, rfl, .inr (by
        rintro x (rfl | rfl) v hv
        · cases hv; decide +kernel
        · cases hv)⟩ .nil))

/-- A signature without value: the rest is drawn. -/
example : certTree asciiUni sampleDate { shownCert none none with signature := some ⟨some "A".toList, none⟩ } =
    ((certTree asciiUni sampleDate (shownCert none none)).1.dropLast, some .typeError) ∧
    AAuthGui.treeError { shownCert none none with signature := some ⟨some "A".toList, none⟩ } = some .typeError := by
  decide +kernel

/-- A time without a date: nothing from there on is drawn. -/
example : certTree asciiUni sampleDate { shownCert none none with revRules := ⟨-1, 2000, none, none⟩ } =
    ((certTree asciiUni sampleDate (shownCert none none)).1.take 24, some .valueError) := by decide +kernel

end Verif.Props
