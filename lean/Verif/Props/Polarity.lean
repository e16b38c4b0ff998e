import Verif.Spec.Polarity
import Verif.Props.Relevant

/-!
# Raising an attribute (C160, C161)

Attributes all mentions of which speak for a policy: raising one never turns TRUE into anything else. Dually for attributes that speak
against it. The same for attributes that hold collections, when elements are added.
-/

namespace Verif.Props

open Verif.Spec Proofs

/-- The order, in the direction asked for. -/
def Toward (up : Bool) (a b : Tri) : Prop := if up then TruthLe a b else TruthLe b a

theorem truthLe_not {a b : Tri} (h : TruthLe a b) : TruthLe (kleeneNot b) (kleeneNot a) := by
  unfold TruthLe at *
  rcases h with rfl | rfl | rfl
  · exact .inr (.inl rfl)
  · exact .inl rfl
  · exact .inr (.inr rfl)

theorem truthLe_kleene (o : Token) {a b a' b' : Tri} (h : TruthLe a a') (h' : TruthLe b b') : TruthLe (kleene o a b) (kleene o a' b') := by
  unfold TruthLe kleene at *
  split <;> revert h h' <;> cases a <;> cases b <;> cases a' <;> cases b' <;> decide

theorem toward_refl (up : Bool) (a : Tri) : Toward up a a := by
  cases up <;> exact .inr (.inr rfl)

/-- What an ordering of two denotations gives. -/
def ordTri (f : PyFloat → PyFloat → Bool) (a b : Den) : Tri :=
  match a.number, b.number with
  | some m, some n => triOf (f m n)
  | _, _ => .undef

theorem ord_value {o : Token} {e : String × String × (Den → Den → Answer)} (he : e ∈ operators) (hv : o.value = .str e.1.toList)
    {f : PyFloat → PyFloat → Bool} (hf : e.2.2 = semOrd f) (a b : Den) : (semCmp o a b).2 = .ok (.truth (ordTri f a b)) := by
  by_cases hu : a = .truth .undef ∨ b = .truth .undef
  · unfold semCmp
    rw [if_pos hu]
    rcases hu with rfl | rfl
    · rfl
    · unfold ordTri
      cases a.number <;> rfl
  · have hfind : operators.find? (fun e => o.value = .str e.1.toList) = some e := by
      rw [hv]
      simp only [operators, List.mem_cons, List.not_mem_nil, or_false] at he
      rcases he with rfl | rfl | rfl | rfl | rfl | rfl | rfl | rfl <;> rfl
    unfold semCmp
    rw [if_neg hu, hfind]
    show (answerOut e.2.1 (e.2.2 a b)).2 = _
    rw [hf]
    unfold semOrd ordTri
    rcases a.number with _ | m
    · rfl
    · rcases b.number with _ | n
      · rfl
      · cases h : f m n <;> simp only [h] <;> rfl

theorem num_up {m n c : PyFloat} (h : ¬ numLt n m) (hc : numLt c m) : numLt c n := by
  cases m <;> cases n <;> cases c <;> simp only [numLt] at * <;> grind

theorem num_down {m n c : PyFloat} (h : ¬ numLt n m) (hc : numLt n c) : numLt m c := by
  cases m <;> cases n <;> cases c <;> simp only [numLt] at * <;> grind

/-- What an attribute denotes rises. -/
inductive DenRises : Den → Den → Prop
  | same (d) : DenRises d d
  | truth {v w : Tri} (h : TruthLe v w) : DenRises (.truth v) (.truth w)
  | number {x y : Scalar} {m n : PyFloat} (hx : x.num = some m) (hy : y.num = some n) (h : ¬ numLt n m) : DenRises (.single x) (.single y)

theorem number_den {A : Atts} {t : Token} {ty : SymType} {x : Scalar} {m : PyFloat} (h : ty = .int ∨ ty = .float)
    (hx : x.num = some m) (hA : A t.type (attName t) = some (ty, .sc x)) : (semAtt A t).2 = .ok (.single x) := by
  unfold semAtt
  rw [hA]
  have hfit : fits ty (.sc x) = true := by
    rcases h with rfl | rfl <;> simp [fits, hx]
  cases x with
  | none => cases hx
  | tri v => cases hx
  | _ => simp only [hfit, if_true]; rfl

theorem att_rises {A B : Atts} {t : Token} (h : Rises (A t.type (attName t)) (B t.type (attName t))) :
    ∃ d d', (semAtt A t).2 = .ok d ∧ (semAtt B t).2 = .ok d' ∧ DenRises d d' := by
  have ok : ∀ C : Atts, ∃ d, (semAtt C t).2 = .ok d := by
    intro C
    unfold semAtt
    split
    · exact ⟨_, rfl⟩
    · exact ⟨_, rfl⟩
    · split <;> exact ⟨_, rfl⟩
  generalize hA : A t.type (attName t) = a at h
  generalize hB : B t.type (attName t) = b at h
  cases h with
  | same =>
    obtain ⟨d, hd⟩ := ok A
    refine ⟨d, d, hd, ?_, .same d⟩
    unfold semAtt at hd ⊢
    rw [hB, ← hA]
    exact hd
  | truth h => exact ⟨_, _, by unfold semAtt; rw [hA]; rfl, by unfold semAtt; rw [hB]; rfl, .truth h⟩
  | given => exact ⟨_, _, by unfold semAtt; rw [hA], by unfold semAtt; rw [hB]; rfl, .truth (.inr (.inl rfl))⟩
  | taken => exact ⟨_, _, by unfold semAtt; rw [hA]; rfl, by unfold semAtt; rw [hB], .truth (.inl rfl)⟩
  | number h h' hx hy hle => exact ⟨_, _, number_den h hx hA, number_den h' hy hB, .number hx hy hle⟩

/-- An ordering becomes truer as its larger side rises, or less true as its smaller side does. -/
theorem upward_rises {up : Bool} {o : Token} (ho : Upward up o) {d d' : Den} (h : DenRises d d') (b : Den) :
    (∃ v w, (semCmp o d b).2 = .ok (.truth v) ∧ (semCmp o d' b).2 = .ok (.truth w) ∧ Toward up v w) ∧
    ∃ v w, (semCmp o b d).2 = .ok (.truth v) ∧ (semCmp o b d').2 = .ok (.truth w) ∧ Toward (!up) v w := by
  have key : ∀ {e : String × String × (Den → Den → Answer)} {f : PyFloat → PyFloat → Bool}, e ∈ operators → o.value = .str e.1.toList →
      e.2.2 = semOrd f → (∀ m n c, ¬ numLt n m → Toward up (triOf (f m c)) (triOf (f n c)) ∧ Toward (!up) (triOf (f c m)) (triOf (f c n))) →
      (∃ v w, (semCmp o d b).2 = .ok (.truth v) ∧ (semCmp o d' b).2 = .ok (.truth w) ∧ Toward up v w) ∧
      ∃ v w, (semCmp o b d).2 = .ok (.truth v) ∧ (semCmp o b d').2 = .ok (.truth w) ∧ Toward (!up) v w := by
    intro e f he hv hf hm
    refine ⟨⟨_, _, ord_value he hv hf _ _, ord_value he hv hf _ _, ?_⟩, ⟨_, _, ord_value he hv hf _ _, ord_value he hv hf _ _, ?_⟩⟩
    · cases h with
      | same => exact toward_refl _ _
      | truth h => exact toward_refl _ _
      | number hx hy hle =>
        unfold ordTri
        rw [show (Den.single _).number = _ from hx, show (Den.single _).number = _ from hy]
        rcases b.number with _ | c
        · exact toward_refl _ _
        · exact (hm _ _ c hle).1
    · cases h with
      | same => exact toward_refl _ _
      | truth h =>
        unfold ordTri
        cases b.number <;> exact toward_refl _ _
      | number hx hy hle =>
        unfold ordTri
        rw [show (Den.single _).number = _ from hx, show (Den.single _).number = _ from hy]
        rcases b.number with _ | c
        · exact toward_refl _ _
        · exact (hm _ _ c hle).2
  have le : ∀ {x y : Bool}, (x = true → y = true) → TruthLe (triOf x) (triOf y) := by
    intro x y h
    unfold TruthLe
    cases x <;> cases y <;> simp_all [triOf]
  cases up with
  | true =>
    rcases ho with ho | ho
    · refine key (e := (">", "qt_op", semOrd fun m n => decide (numLt n m))) (by simp [operators]) ho rfl fun m n c hmn => ⟨le ?_, le ?_⟩
      · simpa using fun hc => num_up hmn hc
      · simpa using fun hc => num_down hmn hc
    · refine key (e := (">=", "gte_op", semOrd fun m n => decide (¬ numLt m n))) (by simp [operators]) ho rfl fun m n c hmn => ⟨le ?_, le ?_⟩
      · simpa using fun hc h => hc (num_down hmn h)
      · simpa using fun hc h => hc (num_up hmn h)
  | false =>
    rcases ho with ho | ho
    · refine key (e := ("<", "lt_op", semOrd fun m n => decide (numLt m n))) (by simp [operators]) ho rfl fun m n c hmn => ⟨le ?_, le ?_⟩
      · simpa using fun hc => num_down hmn hc
      · simpa using fun hc => num_up hmn hc
    · refine key (e := ("<=", "lte_op", semOrd fun m n => decide (¬ numLt n m))) (by simp [operators]) ho rfl fun m n c hmn => ⟨le ?_, le ?_⟩
      · simpa using fun hc h => hc (num_up hmn h)
      · simpa using fun hc h => hc (num_down hmn h)

theorem operand_same {U : Uni} {A B : Atts} {key : Str} (hd : DifferOnly U key A B) {x : Operand} (h : ∀ t ∈ x.atts, attKey U t ≠ key) :
    semOperand A x = semOperand B x := by
  cases x with
  | att t =>
    show semAtt A t = semAtt B t
    unfold semAtt
    rw [hd t.type (attName t) (h t (by simp [Operand.atts]))]
  | atom t => rfl
  | set s l => rfl

theorem bind_value {α β : Type} {x : Eff α} {f : α → Eff β} {a : α} {b : β} (h : x.2 = .ok a) (h' : (f a).2 = .ok b) :
    (x.bind f).2 = .ok b := by
  obtain ⟨w, o⟩ := x
  cases h
  exact h'

/-- Changing an attribute, for meanings. -/
theorem sem_speaks {U : Uni} {A B : Atts} {key : Str} (hd : DifferOnly U key A B) {left right : Bool → Token → Prop}
    {R : Den → Den → Prop}
    (hr : ∀ t, attKey U t = key → ∃ d d', (semAtt A t).2 = .ok d ∧ (semAtt B t).2 = .ok d' ∧ R d d')
    (hb : ∀ v d', R (.truth v) d' → ∃ w, d' = .truth w ∧ TruthLe v w)
    (hL : ∀ up o d d' b v, left up o → R d d' → (semCmp o d b).2 = .ok (.truth v) →
      ∃ w, (semCmp o d' b).2 = .ok (.truth w) ∧ Toward up v w)
    (hR : ∀ up o d d' b v, right up o → R d d' → (semCmp o b d).2 = .ok (.truth v) →
      ∃ w, (semCmp o b d').2 = .ok (.truth w) ∧ Toward up v w)
    (p : Policy) {up : Bool} (hp : p.Speaks left right U key up)
    {v : Tri} (h : (sem U A p).2 = .ok (.truth v)) : ∃ w, (sem U B p).2 = .ok (.truth w) ∧ Toward up v w := by
  induction p generalizing up v with
  | cmp l o r =>
    obtain ⟨a, ha, h1⟩ := bind_ok h
    obtain ⟨b, hb, h2⟩ := bind_ok h1
    rcases hp with hn | ⟨t, rfl, hn, ho⟩ | ⟨t, rfl, hn, ho⟩
    · refine ⟨v, ?_, toward_refl _ _⟩
      rw [operand_same hd fun t ht => hn t (List.mem_append_left _ ht)] at ha
      rw [operand_same hd fun t ht => hn t (List.mem_append_right _ ht)] at hb
      exact bind_value ha (bind_value hb h2)
    · rw [operand_same hd hn] at hb
      by_cases hk : attKey U t = key
      · obtain ⟨d, d', e1, e2, hdd⟩ := hr t hk
        have : a = d := by
          have := ha.symm.trans e1
          cases this
          rfl
        subst this
        obtain ⟨y, e4, e5⟩ := hL up o _ _ b v ho hdd h2
        exact ⟨y, bind_value (show (semOperand B (.att t)).2 = _ from e2) (bind_value hb e4), e5⟩
      · refine ⟨v, ?_, toward_refl _ _⟩
        rw [operand_same hd (x := .att t) (by simpa [Operand.atts] using hk)] at ha
        exact bind_value ha (bind_value hb h2)
    · rw [operand_same hd hn] at ha
      by_cases hk : attKey U t = key
      · obtain ⟨d, d', e1, e2, hdd⟩ := hr t hk
        have : b = d := by
          have := hb.symm.trans e1
          cases this
          rfl
        subst this
        obtain ⟨y, e4, e5⟩ := hR up o _ _ a v ho hdd h2
        exact ⟨y, bind_value ha (bind_value (show (semOperand B (.att t)).2 = _ from e2) e4), e5⟩
      · refine ⟨v, ?_, toward_refl _ _⟩
        rw [operand_same hd (x := .att t) (by simpa [Operand.atts] using hk)] at hb
        exact bind_value ha (bind_value hb h2)
  | lit t => exact ⟨v, h, toward_refl _ _⟩
  | att t =>
    by_cases hk : attKey U t = key
    · rcases hp with hp | rfl
      · exact absurd hk hp
      · obtain ⟨d, d', e1, e2, hdd⟩ := hr t hk
        have : Den.truth v = d := by
          have := h.symm.trans e1
          cases this
          rfl
        subst this
        obtain ⟨w, rfl, hle⟩ := hb _ _ hdd
        exact ⟨w, e2, hle⟩
    · refine ⟨v, ?_, toward_refl _ _⟩
      have := operand_same hd (x := .att t) (by simpa [Operand.atts] using hk)
      exact (congrArg Prod.snd this).symm.trans h
  | not n p ih =>
    rw [sem_not] at h ⊢
    obtain ⟨a, ha, h1⟩ := bind_ok h
    cases a with
    | truth x =>
      cases h1
      obtain ⟨y, e1, e2⟩ := ih hp ha
      refine ⟨_, bind_value e1 rfl, ?_⟩
      cases up with
      | true => exact truthLe_not e2
      | false => exact truthLe_not e2
    | _ => cases h1
  | bin o p q ihp ihq =>
    rw [sem_bin] at h ⊢
    obtain ⟨a, ha, h1⟩ := bind_ok h
    obtain ⟨b, hb, h2⟩ := bind_ok h1
    cases a with
    | truth x =>
      cases b with
      | truth y =>
        cases h2
        obtain ⟨x', e1, e2⟩ := ihp hp.1 ha
        obtain ⟨y', e3, e4⟩ := ihq hp.2 hb
        refine ⟨_, bind_value e1 (bind_value e3 rfl), ?_⟩
        cases up with
        | true => exact truthLe_kleene o e2 e4
        | false => exact truthLe_kleene o e2 e4
      | _ => cases h2
    | _ => cases h2

/-- Raising an attribute, for meanings. -/
theorem sem_polar {U : Uni} {A B : Atts} {key : Str} (hd : DifferOnly U key A B)
    (hr : ∀ t, attKey U t = key → Rises (A t.type (attName t)) (B t.type (attName t))) (p : Policy) {up : Bool} (hp : p.Polar U key up)
    {v : Tri} (h : (sem U A p).2 = .ok (.truth v)) : ∃ w, (sem U B p).2 = .ok (.truth w) ∧ Toward up v w := by
  refine sem_speaks hd (fun t ht => att_rises (hr t ht)) (fun v d' h => ?_) (fun up o d d' b v ho hdd h => ?_)
    (fun up o d d' b v ho hdd h => ?_) p hp h
  · cases h with
    | same => exact ⟨v, rfl, .inr (.inr rfl)⟩
    | truth h => exact ⟨_, rfl, h⟩
  · obtain ⟨⟨x, y, e3, e4, e5⟩, -⟩ := upward_rises ho hdd b
    rw [e3] at h
    cases h
    exact ⟨y, e4, e5⟩
  · obtain ⟨-, x, y, e3, e4, e5⟩ := upward_rises ho hdd b
    rw [e3] at h
    cases h
    rw [Bool.not_not] at e5
    exact ⟨y, e4, e5⟩

/-! ### Collections -/

/-- What an attribute denotes grows. -/
inductive DenGrows : Den → Den → Prop
  | many {l m : List Scalar} (h : ∀ a ∈ l, ∃ b ∈ m, a.pyEq b = true) : DenGrows (.many l) (.many m)

theorem pyEq_trans {a b c : Scalar} (h : a.pyEq b = true) (h' : b.pyEq c = true) : a.pyEq c = true := by
  unfold Scalar.pyEq at *
  cases ha : a.num <;> cases hb : b.num <;> cases hc : c.num <;> simp_all

theorem pyEq_symm {a b : Scalar} (h : a.pyEq b = true) : b.pyEq a = true := by
  unfold Scalar.pyEq at *
  cases ha : a.num <;> cases hb : b.num <;> simp_all

theorem collects_den {A : Atts} {t : Token} {l : List Scalar} (h : Collects l (A t.type (attName t))) :
    (semAtt A t).2 = .ok (.many l) := by
  unfold semAtt
  rcases h with h | ⟨h, hl⟩
  · rw [h]
    rfl
  · rw [h]
    show Except.ok (if l.all Scalar.hashable = true then Den.many l else .manyBad) = _
    rw [if_pos hl]

theorem att_grows {A B : Atts} {t : Token} (h : Grows (A t.type (attName t)) (B t.type (attName t))) :
    ∃ d d', (semAtt A t).2 = .ok d ∧ (semAtt B t).2 = .ok d' ∧ DenGrows d d' := by
  obtain ⟨l, m, h1, h2, h3⟩ := h
  exact ⟨_, _, collects_den h1, collects_den h2, .many h3⟩

section
variable {l m : List Scalar} (h : ∀ a ∈ l, ∃ b ∈ m, a.pyEq b = true)
include h

theorem included_right {x : List Scalar} (hx : included x l = true) : included x m = true := by
  simp only [included, decide_eq_true_eq] at *
  intro a ha
  obtain ⟨b, hb, e⟩ := hx a ha
  obtain ⟨c, hc, e'⟩ := h b hb
  exact ⟨c, hc, pyEq_trans e e'⟩

theorem included_left {x : List Scalar} (hx : included m x = true) : included l x = true := by
  simp only [included, decide_eq_true_eq] at *
  intro a ha
  obtain ⟨b, hb, e⟩ := h a ha
  obtain ⟨c, hc, e'⟩ := hx b hb
  exact ⟨c, hc, pyEq_trans e e'⟩

theorem overlap_left {x : List Scalar} (hx : overlap l x = true) : overlap m x = true := by
  simp only [overlap, decide_eq_true_eq] at *
  obtain ⟨a, ha, b, hb, e⟩ := hx
  obtain ⟨c, hc, e'⟩ := h a ha
  exact ⟨c, hc, b, hb, pyEq_trans (pyEq_symm e') e⟩

theorem overlap_right {x : List Scalar} (hx : overlap x l = true) : overlap x m = true := by
  simp only [overlap, decide_eq_true_eq] at *
  obtain ⟨a, ha, b, hb, e⟩ := hx
  obtain ⟨c, hc, e'⟩ := h b hb
  exact ⟨a, ha, c, hc, pyEq_trans e e'⟩

theorem scan_grows {as : List Atom} {x : Option Bool} (hx : scan l as = .ok x) :
    ∃ u v, x = some u ∧ scan m as = .ok (some v) ∧ (u = true → v = true) := by
  induction as with
  | nil => cases hx; exact ⟨_, _, rfl, rfl, id⟩
  | cons a as ih =>
    unfold scan at hx ⊢
    split at hx
    · cases hx
    · rename_i hn
      rw [if_neg hn]
      split at hx
      · cases hx
        rename_i hy
        obtain ⟨y, hy, e⟩ := hy
        obtain ⟨c, hc, e'⟩ := h y hy
        rw [if_pos ⟨c, hc, pyEq_trans e e'⟩]
        exact ⟨_, _, rfl, rfl, id⟩
      · obtain ⟨u, v, e1, e2, e3⟩ := ih hx
        split
        · exact ⟨u, true, e1, rfl, fun _ => rfl⟩
        · exact ⟨u, v, e1, e2, e3⟩

theorem in_left {b : Den} {x : Option Bool} (hx : semIn (.many l) b = .ok x) :
    ∃ y, semIn (.many m) b = .ok y ∧ (x = none ∧ y = none ∨ ∃ u v, x = some u ∧ y = some v ∧ (u = true → v = true)) := by
  cases b with
  | manyBad => cases hx
  | lit as =>
    obtain ⟨u, v, e1, e2, e3⟩ := scan_grows h hx
    exact ⟨_, e2, .inr ⟨u, v, e1, rfl, e3⟩⟩
  | many b => cases hx; exact ⟨_, rfl, .inr ⟨_, _, rfl, rfl, overlap_right h⟩⟩
  | single y => cases hx; exact ⟨_, rfl, .inr ⟨_, _, rfl, rfl, overlap_right h⟩⟩
  | truth t => cases hx; exact ⟨_, rfl, .inl ⟨rfl, rfl⟩⟩
  | const a => cases hx; exact ⟨_, rfl, .inl ⟨rfl, rfl⟩⟩

theorem in_right {b : Den} {x : Option Bool} (hx : semIn b (.many l) = .ok x) :
    ∃ y, semIn b (.many m) = .ok y ∧ (x = none ∧ y = none ∨ ∃ u v, x = some u ∧ y = some v ∧ (u = true → v = true)) := by
  cases b with
  | manyBad => cases hx
  | lit as => cases hx; exact ⟨_, rfl, .inr ⟨_, _, rfl, rfl, overlap_left h⟩⟩
  | many b => cases hx; exact ⟨_, rfl, .inr ⟨_, _, rfl, rfl, overlap_left h⟩⟩
  | single y => cases hx; exact ⟨_, rfl, .inr ⟨_, _, rfl, rfl, included_right h⟩⟩
  | truth t => cases hx; exact ⟨_, rfl, .inl ⟨rfl, rfl⟩⟩
  | const a =>
    change (if a = .null then Except.error PyExc.typeError else Except.ok (some (included [.atom a] l))) = _ at hx
    show ∃ y, (if a = .null then Except.error PyExc.typeError else Except.ok (some (included [.atom a] m))) = _ ∧ _
    split at hx
    · cases hx
    · rename_i hn
      cases hx
      rw [if_neg hn]
      exact ⟨_, rfl, .inr ⟨_, _, rfl, rfl, included_right h⟩⟩

theorem subset_left {b : Den} {x : Option Bool} (hx : semSubset (.many l) b = .ok x) :
    ∃ y, semSubset (.many m) b = .ok y ∧ (x = none ∧ y = none ∨ ∃ u v, x = some u ∧ y = some v ∧ (v = true → u = true)) := by
  cases b with
  | truth t => cases hx; exact ⟨_, rfl, .inl ⟨rfl, rfl⟩⟩
  | const a => cases hx; exact ⟨_, rfl, .inl ⟨rfl, rfl⟩⟩
  | manyBad => cases hx
  | lit as =>
    unfold semSubset at hx ⊢
    split at hx
    · cases hx
    · rename_i hn
      rw [if_neg (show ¬ ((Den.many m).unsettable || (Den.lit as).unsettable) = true from hn)]
      cases hx
      exact ⟨_, rfl, .inr ⟨_, _, rfl, rfl, included_left h⟩⟩
  | many b => cases hx; exact ⟨_, rfl, .inr ⟨_, _, rfl, rfl, included_left h⟩⟩
  | single y => cases hx; exact ⟨_, rfl, .inr ⟨_, _, rfl, rfl, included_left h⟩⟩

theorem subset_right {b : Den} {x : Option Bool} (hx : semSubset b (.many l) = .ok x) :
    ∃ y, semSubset b (.many m) = .ok y ∧ (x = none ∧ y = none ∨ ∃ u v, x = some u ∧ y = some v ∧ (u = true → v = true)) := by
  cases b with
  | truth t => cases hx; exact ⟨_, rfl, .inl ⟨rfl, rfl⟩⟩
  | const a => cases hx; exact ⟨_, rfl, .inl ⟨rfl, rfl⟩⟩
  | manyBad => cases hx
  | lit as =>
    unfold semSubset at hx ⊢
    split at hx
    · cases hx
    · rename_i hn
      rw [if_neg (show ¬ ((Den.lit as).unsettable || (Den.many m).unsettable) = true from hn)]
      cases hx
      exact ⟨_, rfl, .inr ⟨_, _, rfl, rfl, included_right h⟩⟩
  | many b => cases hx; exact ⟨_, rfl, .inr ⟨_, _, rfl, rfl, included_right h⟩⟩
  | single y => cases hx; exact ⟨_, rfl, .inr ⟨_, _, rfl, rfl, included_right h⟩⟩

end

theorem semCmp_ok {o : Token} {e : String × String × (Den → Den → Answer)} (he : e ∈ operators) (hv : o.value = .str e.1.toList)
    {a b : Den} (ha : a ≠ .truth .undef) (hb : b ≠ .truth .undef) : semCmp o a b = answerOut e.2.1 (e.2.2 a b) := by
  have hfind : operators.find? (fun e => o.value = .str e.1.toList) = some e := by
    rw [hv]
    simp only [operators, List.mem_cons, List.not_mem_nil, or_false] at he
    rcases he with rfl | rfl | rfl | rfl | rfl | rfl | rfl | rfl <;> rfl
  unfold semCmp
  rw [if_neg (fun h => h.elim ha hb), hfind]

/-- From answers to truth values. -/
theorem answer_toward {up : Bool} {rule : String} {f g : Answer} {v : Tri} (h : (answerOut rule f).2 = .ok (.truth v))
    (hfg : ∀ x, f = .ok x → ∃ y, g = .ok y ∧ (x = none ∧ y = none ∨ ∃ u w, x = some u ∧ y = some w ∧
      if up then u = true → w = true else w = true → u = true)) : ∃ w, (answerOut rule g).2 = .ok (.truth w) ∧ Toward up v w := by
  cases f with
  | error e => cases h
  | ok x =>
    obtain ⟨y, rfl, ⟨rfl, rfl⟩ | ⟨u, w, rfl, rfl, hle⟩⟩ := hfg x rfl
    · exact ⟨v, h, toward_refl _ _⟩
    · refine ⟨triOf w, by cases w <;> rfl, ?_⟩
      have hv : v = triOf u := by cases u <;> cases h <;> rfl
      subst hv
      cases up <;> cases u <;> cases w <;> simp_all [Toward, TruthLe, triOf]

/-- Adding to a collection, for meanings. -/
theorem sem_gathers {U : Uni} {A B : Atts} {key : Str} (hd : DifferOnly U key A B)
    (hr : ∀ t, attKey U t = key → Grows (A t.type (attName t)) (B t.type (attName t))) (p : Policy) {up : Bool} (hp : p.Gathers U key up)
    {v : Tri} (h : (sem U A p).2 = .ok (.truth v)) : ∃ w, (sem U B p).2 = .ok (.truth w) ∧ Toward up v w := by
  have hmany : ∀ l, Den.many l ≠ .truth .undef := fun _ h => by cases h
  refine sem_speaks hd (fun t ht => att_grows (hr t ht)) (fun v d' h => (by cases h)) (fun up o d d' b v ho hdd h => ?_)
    (fun up o d d' b v ho hdd h => ?_) p hp h
  · obtain ⟨hg⟩ := hdd
    by_cases hb : b = .truth .undef
    · subst hb
      exact ⟨v, h, toward_refl _ _⟩
    · cases up with
      | true =>
        have he : ("IN", "in_op", semIn) ∈ operators := by simp [operators]
        rw [semCmp_ok he ho (hmany _) hb] at h ⊢
        exact answer_toward h fun x hx => in_left hg hx
      | false =>
        have he : ("SUBSET", "subset_op", semSubset) ∈ operators := by simp [operators]
        rw [semCmp_ok he ho (hmany _) hb] at h ⊢
        exact answer_toward h fun x hx => subset_left hg hx
  · obtain ⟨hg⟩ := hdd
    obtain ⟨rfl, ho⟩ := ho
    by_cases hb : b = .truth .undef
    · subst hb
      exact ⟨v, h, toward_refl _ _⟩
    · rcases ho with ho | ho
      · have he : ("IN", "in_op", semIn) ∈ operators := by simp [operators]
        rw [semCmp_ok he ho hb (hmany _)] at h ⊢
        exact answer_toward h fun x hx => in_right hg hx
      · have he : ("SUBSET", "subset_op", semSubset) ∈ operators := by simp [operators]
        rw [semCmp_ok he ho hb (hmany _)] at h ⊢
        exact answer_toward h fun x hx => subset_right hg hx

section
variable {U : Uni} (hU : U.Lawful) {E F : SymEnv} (hE : SymEnv.SetsOk E) (hF : SymEnv.SetsOk F) {key : Str}
  (hd : DifferOnly U key (attsOf U E) (attsOf U F))
  (hr : ∀ t, attKey U t = key → Rises (attsOf U E t.type (attName t)) (attsOf U F t.type (attName t)))
  {text : Str} {p : Policy} (hp : PolicyOf U text p) {m : Int} (hm : 2 < m)
include hU hE hF hd hr hp hm

theorem raised {up : Bool} (hk : p.Polar U key up) {v : Tri} (h : Gives U E (some m) text v) :
    ∃ w, Gives U F (some m) text w ∧ Toward up v w := by
  by_cases hl : ∃ x, p = .lit x
  · obtain ⟨x, rfl⟩ := hl
    exact absurd h (lit_gives hU hE hp)
  · have hl : ∀ x, p ≠ .lit x := fun x hx => hl ⟨x, hx⟩
    obtain ⟨w, h1, h2⟩ := sem_polar hd hr p hk ((gives_sem hU hE hm hp hl v).mp h)
    exact ⟨w, (gives_sem hU hF hm hp hl w).mpr h1, h2⟩

/-- **C160**: raising an attribute all mentions of which speak for the policy gives a truth value that is no lower. -/
theorem raised_for (hk : p.Polar U key true) {v : Tri} (h : Gives U E (some m) text v) :
    ∃ w, Gives U F (some m) text w ∧ TruthLe v w := raised hU hE hF hd hr hp hm hk h

/-- **C160**: so access is not lost. -/
theorem never_lost (hk : p.Polar U key true) (h : Gives U E (some m) text .true) : Gives U F (some m) text .true := by
  obtain ⟨w, h1, h2 | rfl | rfl⟩ := raised_for hU hE hF hd hr hp hm hk h
  · cases h2
  · exact h1
  · exact h1

/-- **C160**: raising an attribute all mentions of which speak against the policy gives a truth value that is no higher. -/
theorem raised_against (hk : p.Polar U key false) {v : Tri} (h : Gives U E (some m) text v) :
    ∃ w, Gives U F (some m) text w ∧ TruthLe w v := raised hU hE hF hd hr hp hm hk h

/-- **C160**: so access is not gained. -/
theorem never_gained (hk : p.Polar U key false) {v : Tri} (hv : v ≠ .true) (h : Gives U E (some m) text v) :
    ∃ w, Gives U F (some m) text w ∧ w ≠ .true := by
  obtain ⟨w, h1, rfl | h2 | rfl⟩ := raised_against hU hE hF hd hr hp hm hk h
  · exact ⟨_, h1, by decide⟩
  · exact absurd h2 hv
  · exact ⟨_, h1, hv⟩

end

section
variable {U : Uni} (hU : U.Lawful) {E F : SymEnv} (hE : SymEnv.SetsOk E) (hF : SymEnv.SetsOk F) {key : Str}
  (hd : DifferOnly U key (attsOf U E) (attsOf U F))
  (hr : ∀ t, attKey U t = key → Grows (attsOf U E t.type (attName t)) (attsOf U F t.type (attName t)))
  {text : Str} {p : Policy} (hp : PolicyOf U text p) {m : Int} (hm : 2 < m)
include hU hE hF hd hr hp hm

/-- **C161**: adding to a collection gives a truth value that is no lower if all mentions speak for the policy, and no higher if all
speak against it. -/
theorem grown {up : Bool} (hk : p.Gathers U key up) {v : Tri} (h : Gives U E (some m) text v) :
    ∃ w, Gives U F (some m) text w ∧ if up then TruthLe v w else TruthLe w v := by
  by_cases hl : ∃ x, p = .lit x
  · obtain ⟨x, rfl⟩ := hl
    exact absurd h (lit_gives hU hE hp)
  · have hl : ∀ x, p ≠ .lit x := fun x hx => hl ⟨x, hx⟩
    obtain ⟨w, h1, h2⟩ := sem_gathers hd hr p hk ((gives_sem hU hE hm hp hl v).mp h)
    exact ⟨w, (gives_sem hU hF hm hp hl w).mpr h1, h2⟩

/-- **C161**: so access is not lost. -/
theorem growth_keeps (hk : p.Gathers U key true) (h : Gives U E (some m) text .true) : Gives U F (some m) text .true := by
  obtain ⟨w, h1, h2⟩ := grown hU hE hF hd hr hp hm hk h
  rcases h2 with h2 | rfl | rfl
  · cases h2
  · exact h1
  · exact h1

/-- **C161**: and not gained. -/
theorem growth_refuses (hk : p.Gathers U key false) {v : Tri} (hv : v ≠ .true) (h : Gives U E (some m) text v) :
    ∃ w, Gives U F (some m) text w ∧ w ≠ .true := by
  obtain ⟨w, h1, h2⟩ := grown hU hE hF hd hr hp hm hk h
  rcases h2 with rfl | h2 | rfl
  · exact ⟨_, h1, by decide⟩
  · exact absurd h2 hv
  · exact ⟨_, h1, hv⟩

end

/-! ### Concrete cases -/

/-- `user.a >= 1 AND NOT user.b` -/
def polarPolicy : Policy :=
  .bin (typedAnd 12) (.cmp (.att (typedAtt 0 "a")) (typedOp 7 ">=") (.atom (typedOne 10)))
    (.not ⟨.notOp, 16, .str "NOT".toList⟩ (.att (typedAtt 20 "b")))

theorem polarPolicy_of : PolicyOf asciiUni "user.a >= 1 AND NOT user.b".toList polarPolicy := by
  have h : lexTokens asciiUni "user.a >= 1 AND NOT user.b".toList = .ok (⟨.start, 0, .none⟩ :: ((([typedAtt 0 "a"] ++ typedOp 7 ">=" ::
      [typedOne 10]) ++ typedAnd 12 :: [⟨.notOp, 16, .str "NOT".toList⟩, typedAtt 20 "b"]) ++ [⟨.«end», 26, .none⟩])) := by decide +kernel
  obtain ⟨ts, h1, h2⟩ := (lexer_refines_grammar asciiUni asciiUni_lawful _ _).1 h
  simp only [List.cons.injEq, true_and] at h1
  subst h1
  exact ⟨_, _, h2, .term (.and (.exp (.cmp (.att (by decide)) rfl (.atom (by decide)))) (by decide) (.notAtt rfl (by decide)))⟩

/-- `user.a` speaks for it and `user.b` against it. -/
theorem polarPolicy_polar : polarPolicy.Polar asciiUni "user.a".toList true ∧ polarPolicy.Polar asciiUni "user.b".toList false := by
  refine ⟨⟨.inr (.inl ⟨_, rfl, fun u hu => (by cases hu), .inr rfl⟩), .inl ?_⟩, ⟨.inl ?_, .inr rfl⟩⟩
  · decide +kernel
  · decide +kernel

/-- A table with a number and a truth value. -/
def polarEnv (a : Int) (b : Tri) : SymEnv :=
  ⟨⟨[("user.a".toList, 0), ("user.b".toList, 1)]⟩, fun
    | 0 => ⟨.int, .usrAtt, .sc (.atom (.int a)), [], []⟩
    | _ => ⟨.bool, .usrAtt, .sc (.tri b), [], []⟩⟩

theorem polarEnv_sets (a : Int) (b : Tri) : SymEnv.SetsOk (polarEnv a b) := by
  intro r l h
  unfold polarEnv at h
  dsimp only at h
  split at h <;> cases h

theorem polarEnv_atts (a : Int) (b : Tri) (ty : TokenType) (n : Str) : attsOf asciiUni (polarEnv a b) ty n =
    if asciiUni.lower (fullPrefix (some ty) ++ n) = "user.a".toList then some (.int, .sc (.atom (.int a)))
    else if asciiUni.lower (fullPrefix (some ty) ++ n) = "user.b".toList then some (.bool, .sc (.tri b)) else none := by
  unfold attsOf SymTab.lookup SymTab.get polarEnv
  rw [← prefix_eq]
  dsimp only [List.find?]
  by_cases h1 : asciiUni.lower (fullPrefix (some ty) ++ n) = "user.a".toList
  · rw [if_pos h1, h1]
    rfl
  · rw [if_neg h1, beq_eq_false_iff_ne.mpr (Ne.symm h1)]
    by_cases h2 : asciiUni.lower (fullPrefix (some ty) ++ n) = "user.b".toList
    · rw [if_pos h2, h2]
      rfl
    · rw [if_neg h2, beq_eq_false_iff_ne.mpr (Ne.symm h2)]
      rfl

/-- Whoever has access with some number keeps it with every larger one. -/
example (a a' : Int) (haa : a ≤ a') (b : Tri) (h : Gives asciiUni (polarEnv a b) (some 3) "user.a >= 1 AND NOT user.b".toList .true) :
    Gives asciiUni (polarEnv a' b) (some 3) "user.a >= 1 AND NOT user.b".toList .true := by
  refine never_lost asciiUni_lawful (polarEnv_sets a b) (polarEnv_sets a' b) (fun ty n hne => ?_) (fun t ht => ?_) polarPolicy_of
    (by decide) polarPolicy_polar.1 h
  · rw [polarEnv_atts, polarEnv_atts, if_neg hne, if_neg hne]
  · have ht : asciiUni.lower (fullPrefix (some t.type) ++ attName t) = "user.a".toList := ht
    rw [polarEnv_atts, polarEnv_atts, if_pos ht, if_pos ht]
    refine .number (.inl rfl) (.inl rfl) rfl rfl ?_
    show ¬ ((a' : Rat) < (a : Rat))
    exact not_lt.mpr (by exact_mod_cast haa)

/-- **C160**: mentions that speak neither for nor against a policy can take access away either way: `user.a = 1`. -/
theorem equality_lost :
    Gives asciiUni (polarEnv 1 .false) (some 3) "user.a = 1".toList .true ∧
    Gives asciiUni (polarEnv 2 .false) (some 3) "user.a = 1".toList .false ∧
    Gives asciiUni (polarEnv (-1) .false) (some 3) "user.a = 1".toList .false := by
  have run : ∀ {E : SymEnv} {v : Tri}, (evaluateText asciiUni E (some 3) 0 "user.a = 1".toList).map (·.2) = .ok (.ok (.tri v)) →
      Gives asciiUni E (some 3) "user.a = 1".toList v := by
    intro E v h
    cases he : evaluateText asciiUni E (some 3) 0 "user.a = 1".toList with
    | error e => rw [he] at h; cases h
    | ok x =>
      rw [he] at h
      obtain ⟨s, r⟩ := x
      cases h
      exact ⟨0, s, he⟩
  refine ⟨run ?_, run ?_, run ?_⟩ <;> decide +kernel

/-- `1 IN user.a AND NOT (user.a SUBSET user.b)` -/
def gatherPolicy : Policy :=
  .bin (typedAnd 12) (.cmp (.atom (typedOne 0)) (typedOp 2 "IN") (.att (typedAtt 5 "a")))
    (.not ⟨.notOp, 16, .str "NOT".toList⟩ (.cmp (.att (typedAtt 21 "a")) (typedOp 28 "SUBSET") (.att (typedAtt 35 "b"))))

theorem gatherPolicy_of : PolicyOf asciiUni "1 IN user.a AND NOT (user.a SUBSET user.b)".toList gatherPolicy := by
  have h : lexTokens asciiUni "1 IN user.a AND NOT (user.a SUBSET user.b)".toList = .ok (⟨.start, 0, .none⟩ ::
      ((([typedOne 0] ++ typedOp 2 "IN" :: [typedAtt 5 "a"]) ++ typedAnd 12 :: ⟨.notOp, 16, .str "NOT".toList⟩ ::
      ⟨.lparn, 20, .none⟩ :: (([typedAtt 21 "a"] ++ typedOp 28 "SUBSET" :: [typedAtt 35 "b"]) ++ [⟨.rparn, 41, .none⟩])) ++
      [⟨.«end», 42, .none⟩])) := by decide +kernel
  obtain ⟨ts, h1, h2⟩ := (lexer_refines_grammar asciiUni asciiUni_lawful _ _).1 h
  simp only [List.cons.injEq, true_and] at h1
  subst h1
  exact ⟨_, _, h2, .term (.and (.exp (.cmp (.atom (by decide)) rfl (.att (by decide)))) (by decide)
    (.notParen rfl rfl (.term (.exp (.cmp (.att (by decide)) rfl (.att (by decide))))) rfl))⟩

/-- `user.a` speaks for it and `user.b` against it. -/
theorem gatherPolicy_gathers :
    gatherPolicy.Gathers asciiUni "user.a".toList true ∧ gatherPolicy.Gathers asciiUni "user.b".toList false := by
  refine ⟨⟨.inr (.inr ⟨_, rfl, fun u hu => (by cases hu), rfl, .inl rfl⟩), .inr (.inl ⟨_, rfl, ?_, rfl⟩)⟩,
    ⟨.inl ?_, .inr (.inr ⟨_, rfl, ?_, rfl, .inr rfl⟩)⟩⟩ <;> decide +kernel

/-- A table with two sets of numbers. -/
def gatherEnv (a b : List Int) : SymEnv :=
  ⟨⟨[("user.a".toList, 0), ("user.b".toList, 1)]⟩, fun
    | 0 => ⟨.set, .usrAtt, .list (a.map fun i => .atom (.int i)), [], []⟩
    | _ => ⟨.set, .usrAtt, .list (b.map fun i => .atom (.int i)), [], []⟩⟩

theorem gatherEnv_sets (a b : List Int) : SymEnv.SetsOk (gatherEnv a b) := by
  intro r l h
  unfold gatherEnv at h
  dsimp only at h
  split at h <;> cases h

theorem gatherEnv_atts (a b : List Int) (ty : TokenType) (n : Str) : attsOf asciiUni (gatherEnv a b) ty n =
    if asciiUni.lower (fullPrefix (some ty) ++ n) = "user.a".toList then some (.set, .list (a.map fun i => .atom (.int i)))
    else if asciiUni.lower (fullPrefix (some ty) ++ n) = "user.b".toList then some (.set, .list (b.map fun i => .atom (.int i)))
    else none := by
  unfold attsOf SymTab.lookup SymTab.get gatherEnv
  rw [← prefix_eq]
  dsimp only [List.find?]
  by_cases h1 : asciiUni.lower (fullPrefix (some ty) ++ n) = "user.a".toList
  · rw [if_pos h1, h1]
    rfl
  · rw [if_neg h1, beq_eq_false_iff_ne.mpr (Ne.symm h1)]
    by_cases h2 : asciiUni.lower (fullPrefix (some ty) ++ n) = "user.b".toList
    · rw [if_pos h2, h2]
      rfl
    · rw [if_neg h2, beq_eq_false_iff_ne.mpr (Ne.symm h2)]
      rfl

/-- Whoever has access with some numbers keeps it when numbers are added. -/
example (a a' b : List Int) (haa : ∀ i ∈ a, i ∈ a')
    (h : Gives asciiUni (gatherEnv a b) (some 3) "1 IN user.a AND NOT (user.a SUBSET user.b)".toList .true) :
    Gives asciiUni (gatherEnv a' b) (some 3) "1 IN user.a AND NOT (user.a SUBSET user.b)".toList .true := by
  refine growth_keeps asciiUni_lawful (gatherEnv_sets a b) (gatherEnv_sets a' b) (fun ty n hne => ?_) (fun t ht => ?_) gatherPolicy_of
    (by decide) gatherPolicy_gathers.1 h
  · rw [gatherEnv_atts, gatherEnv_atts, if_neg hne, if_neg hne]
  · have ht : asciiUni.lower (fullPrefix (some t.type) ++ attName t) = "user.a".toList := ht
    rw [gatherEnv_atts, gatherEnv_atts, if_pos ht, if_pos ht]
    refine ⟨_, _, .inr ⟨rfl, ?_⟩, .inr ⟨rfl, ?_⟩, fun x hx => ⟨x, ?_, ?_⟩⟩
    · simp [Scalar.hashable]
    · simp [Scalar.hashable]
    · obtain ⟨i, hi, rfl⟩ := List.mem_map.mp hx
      exact List.mem_map.mpr ⟨i, haa i hi, rfl⟩
    · obtain ⟨i, hi, rfl⟩ := List.mem_map.mp hx
      simp [Scalar.pyEq, Scalar.num]

/-- **C161**: the left side of SUBSET and negations of the others take access away: `user.a SUBSET {1}` and `NOT (2 IN user.a)`. -/
theorem growth_lost :
    Gives asciiUni (gatherEnv [1] []) (some 3) "user.a SUBSET {1}".toList .true ∧
    Gives asciiUni (gatherEnv [1, 2] []) (some 3) "user.a SUBSET {1}".toList .false ∧
    Gives asciiUni (gatherEnv [1] []) (some 3) "NOT (2 IN user.a)".toList .true ∧
    Gives asciiUni (gatherEnv [1, 2] []) (some 3) "NOT (2 IN user.a)".toList .false := by
  have run : ∀ {E : SymEnv} {text : Str} {v : Tri}, (evaluateText asciiUni E (some 3) 0 text).map (·.2) = .ok (.ok (.tri v)) →
      Gives asciiUni E (some 3) text v := by
    intro E text v h
    cases he : evaluateText asciiUni E (some 3) 0 text with
    | error e => rw [he] at h; cases h
    | ok x =>
      rw [he] at h
      obtain ⟨s, r⟩ := x
      cases h
      exact ⟨0, s, he⟩
  refine ⟨run ?_, run ?_, run ?_, run ?_⟩ <;> decide +kernel

end Verif.Props
