import Verif.Props.InterpMessages
/-!
# Warnings tell kinds of attributes, not values (C129)
-/

namespace Verif.Props
open Verif Verif.Spec Verif.Proofs

/-- What operators can warn about: the form of an operand. -/
inductive Shape where
  | undef | decided | const (a : Atom) | lit (l : List Atom) | number | text | many | bad | odd
deriving DecidableEq

def denShape : Den → Shape
  | .truth .undef => .undef
  | .truth _ => .decided
  | .const a => .const a
  | .lit l => .lit l
  | .single (.atom (.str _)) => .text
  | .single x => if x.num.isSome then .number else .odd
  | .many _ => .many
  | .manyBad => .bad

def sortShape : AttSort → Shape
  | .decided => .decided
  | .number => .number
  | .text => .text
  | .collection => .many
  | .unhashable => .bad
  | _ => .undef

theorem sortShape_odd (s : AttSort) : sortShape s ≠ .odd := by cases s <;> decide

theorem semAtt_shape (A : Atts) (t : Token) : ∃ d, (semAtt A t).2 = .ok d ∧ denShape d = sortShape (sortOf (A t.type (attName t))) := by
  unfold semAtt
  dsimp only
  cases A t.type (attName t) with
  | none => exact ⟨_, rfl, rfl⟩
  | some x =>
    obtain ⟨ty, v⟩ := x
    cases v with
    | set l => cases ty <;> exact ⟨_, rfl, rfl⟩
    | list l =>
      have key : ∀ l, ∃ d, valueDen (.list l) = d ∧
          denShape d = sortShape (if l.all Scalar.hashable then .collection else .unhashable) := by
        intro l
        refine ⟨_, rfl, ?_⟩
        show denShape (if l.all Scalar.hashable = true then .many l else .manyBad) = _
        by_cases hl : l.all Scalar.hashable = true
        · rw [if_pos hl, if_pos hl]; rfl
        · rw [if_neg hl, if_neg hl]; rfl
      cases ty
      case set =>
        obtain ⟨d, h1, h2⟩ := key l
        exact ⟨d, by rw [← h1]; rfl, h2⟩
      all_goals exact ⟨_, rfl, rfl⟩
    | sc x =>
      cases x with
      | none => exact ⟨_, rfl, rfl⟩
      | bool b => cases ty <;> exact ⟨_, rfl, rfl⟩
      | tri b => cases ty <;> cases b <;> exact ⟨_, rfl, rfl⟩
      | obj b n => cases ty <;> exact ⟨_, rfl, rfl⟩
      | atom a => cases a <;> cases ty <;> exact ⟨_, rfl, rfl⟩

/-- Which remarks an attribute of a kind gets. -/
theorem remarksAtt_sort {A B : Atts} {t : Token} (h : sortOf (A t.type (attName t)) = sortOf (B t.type (attName t))) :
    remarksAtt A t = remarksAtt B t := by
  have key : ∀ A : Atts, remarksAtt A t = match sortOf (A t.type (attName t)) with
      | .unknown => [⟨some t.pos, "Interpreter Warning, unknown attribute ".toList ++ calledName t ++ " found in policy.".toList⟩]
      | .noValue => [⟨some t.pos, "Interpreter Warning, the attribute ".toList ++ calledName t ++ " has no value.".toList⟩,
          ⟨some t.pos, "Interpreter Warning, the attribute ".toList ++ calledName t ++ " has an invalid type.".toList⟩]
      | .misfit => [⟨some t.pos, "Interpreter Warning, the attribute ".toList ++ calledName t ++ " has an invalid type.".toList⟩]
      | _ => [] := by
    intro A
    unfold remarksAtt
    dsimp only
    cases A t.type (attName t) with
    | none => rfl
    | some x =>
      obtain ⟨ty, v⟩ := x
      cases v with
      | set l => cases ty <;> rfl
      | list l =>
        cases ty
        case set =>
          show ([] : List Remark) = _
          have hs : sortOf (some (.set, .list l)) = if l.all Scalar.hashable then .collection else .unhashable := rfl
          rw [hs]
          by_cases hl : l.all Scalar.hashable = true
          · rw [if_pos hl]
          · rw [if_neg hl]
        all_goals rfl
      | sc x =>
        cases x with
        | none => rfl
        | bool b => cases ty <;> rfl
        | tri b => cases ty <;> cases b <;> rfl
        | obj b n => cases ty <;> rfl
        | atom a => cases a <;> cases ty <;> rfl
  rw [key A, key B, h]

/-- Two answers that warn alike, unless one is an error. -/
def Match (x y : Answer) : Prop :=
  (x = .ok none ∧ y = .ok none) ∨ (∃ u v, x = .ok (some u) ∧ y = .ok (some v)) ∨ (∃ e, x = .error e) ∨ ∃ e, y = .error e

/-- Denotations of the same form. -/
def Alike (a b : Den) : Prop := denShape a = denShape b ∧ denShape a ≠ .odd

/-- The forms of pairs of alike operands. -/
theorem alike_cases {a b : Den} (h : Alike a b) :
    (a = .truth .undef ∧ b = .truth .undef) ∨ (∃ u v, a = .truth u ∧ b = .truth v ∧ u ≠ .undef ∧ v ≠ .undef) ∨
    (∃ c, a = .const c ∧ b = .const c) ∨ (∃ l, a = .lit l ∧ b = .lit l) ∨
    (∃ x y, a = .single x ∧ b = .single y ∧ x.num.isSome = true ∧ y.num.isSome = true) ∨
    (∃ s t, a = .single (.atom (.str s)) ∧ b = .single (.atom (.str t))) ∨
    (∃ l m, a = .many l ∧ b = .many m) ∨ (a = .manyBad ∧ b = .manyBad) := by
  obtain ⟨h1, h2⟩ := h
  have single : ∀ x, (denShape (.single x) = .number ∧ x.num.isSome = true) ∨ (∃ s, x = .atom (.str s)) ∨ denShape (.single x) = .odd := by
    intro x
    cases x with
    | atom a =>
      cases a
      case str s => exact Or.inr (Or.inl ⟨s, rfl⟩)
      case null => exact Or.inr (Or.inr rfl)
      all_goals exact Or.inl ⟨rfl, rfl⟩
    | bool b => exact Or.inl ⟨rfl, rfl⟩
    | _ => exact Or.inr (Or.inr rfl)
  cases a with
  | truth u =>
    cases b with
    | truth v => cases u <;> cases v <;> simp_all [denShape]
    | single y => rcases single y with h | ⟨s, rfl⟩ | h <;> cases u <;> simp_all [denShape]
    | _ => cases u <;> simp_all [denShape]
  | const c =>
    cases b with
    | const d => simp_all [denShape]
    | truth v => cases v <;> simp_all [denShape]
    | single y => rcases single y with h | ⟨s, rfl⟩ | h <;> simp_all [denShape]
    | _ => simp_all [denShape]
  | lit l =>
    cases b with
    | lit d => simp_all [denShape]
    | truth v => cases v <;> simp_all [denShape]
    | single y => rcases single y with h | ⟨s, rfl⟩ | h <;> simp_all [denShape]
    | _ => simp_all [denShape]
  | many l =>
    cases b with
    | many d => simp_all [denShape]
    | truth v => cases v <;> simp_all [denShape]
    | single y => rcases single y with ⟨h, _⟩ | ⟨s, rfl⟩ | h <;> first | cases h1 | (rw [h] at h1; cases h1)
    | _ => simp_all [denShape]
  | manyBad =>
    cases b with
    | manyBad => simp_all [denShape]
    | truth v => cases v <;> simp_all [denShape]
    | single y => rcases single y with ⟨h, _⟩ | ⟨s, rfl⟩ | h <;> first | cases h1 | (rw [h] at h1; cases h1)
    | _ => simp_all [denShape]
  | single x =>
    rcases single x with ⟨hx, gx⟩ | ⟨s, rfl⟩ | hx
    · rw [hx] at h1
      cases b with
      | single y =>
        rcases single y with ⟨hy, gy⟩ | ⟨s, rfl⟩ | hy
        · exact Or.inr (Or.inr (Or.inr (Or.inr (Or.inl ⟨x, y, rfl, rfl, gx, gy⟩))))
        · cases h1
        · rw [hy] at h1; cases h1
      | truth v => cases v <;> cases h1
      | _ => cases h1
    · cases b with
      | single y =>
        rcases single y with ⟨hy, gy⟩ | ⟨t, rfl⟩ | hy
        · rw [hy] at h1; cases h1
        · exact Or.inr (Or.inr (Or.inr (Or.inr (Or.inr (Or.inl ⟨s, t, rfl, rfl⟩)))))
        · rw [hy] at h1; cases h1
      | truth v => cases v <;> cases h1
      | _ => cases h1
    · exact absurd hx h2

theorem match_some (u v : Bool) : Match (.ok (some u)) (.ok (some v)) := Or.inr (Or.inl ⟨u, v, rfl, rfl⟩)
theorem match_none : Match (.ok none) (.ok none) := Or.inl ⟨rfl, rfl⟩
theorem match_left (e : PyExc) (y : Answer) : Match (.error e) y := Or.inr (Or.inr (Or.inl ⟨e, rfl⟩))
theorem match_right (x : Answer) (e : PyExc) : Match x (.error e) := Or.inr (Or.inr (Or.inr ⟨e, rfl⟩))

theorem sameKind_num {x y : Scalar} (a : Atom) (hx : x.num.isSome = true) (hy : y.num.isSome = true) :
    Match (.ok (sameKindEq (.atom a) x)) (.ok (sameKindEq (.atom a) y)) ∧
    Match (.ok (sameKindEq x (.atom a))) (.ok (sameKindEq y (.atom a))) := by
  have hx' : (∃ b, x = .bool b) ∨ (∃ i, x = .atom (.int i)) ∨ ∃ f, x = .atom (.flt f) := by
    cases x with
    | atom c => cases c <;> simp_all [Scalar.num]
    | _ => simp_all [Scalar.num]
  have hy' : (∃ b, y = .bool b) ∨ (∃ i, y = .atom (.int i)) ∨ ∃ f, y = .atom (.flt f) := by
    cases y with
    | atom c => cases c <;> simp_all [Scalar.num]
    | _ => simp_all [Scalar.num]
  cases a <;> rcases hx' with ⟨_, rfl⟩ | ⟨_, rfl⟩ | ⟨_, rfl⟩ <;> rcases hy' with ⟨_, rfl⟩ | ⟨_, rfl⟩ | ⟨_, rfl⟩ <;>
    first | exact ⟨match_some _ _, match_some _ _⟩ | exact ⟨match_none, match_none⟩

theorem sameKind_str (s t : Str) (a : Atom) :
    Match (.ok (sameKindEq (.atom a) (.atom (.str s)))) (.ok (sameKindEq (.atom a) (.atom (.str t)))) ∧
    Match (.ok (sameKindEq (.atom (.str s)) (.atom a))) (.ok (sameKindEq (.atom (.str t)) (.atom a))) := by
  cases a <;> first | exact ⟨match_some _ _, match_some _ _⟩ | exact ⟨match_none, match_none⟩

theorem match_refl (x : Answer) : Match x x := by
  rcases x with e | (_ | b)
  · exact match_left _ _
  · exact match_none
  · exact match_some _ _

theorem semEq_match {a a' b b' : Den} (ha : Alike a a') (hb : Alike b b') : Match (semEq a b) (semEq a' b') := by
  rcases alike_cases ha with ⟨rfl, rfl⟩ | ⟨u, v, rfl, rfl, _, _⟩ | ⟨c, rfl, rfl⟩ | ⟨l, rfl, rfl⟩ | ⟨x, y, rfl, rfl, hx, hy⟩ |
      ⟨s, t, rfl, rfl⟩ | ⟨l, m, rfl, rfl⟩ | ⟨rfl, rfl⟩ <;>
    rcases alike_cases hb with ⟨rfl, rfl⟩ | ⟨u', v', rfl, rfl, _, _⟩ | ⟨c', rfl, rfl⟩ | ⟨l', rfl, rfl⟩ | ⟨x', y', rfl, rfl, hx', hy'⟩ |
      ⟨s', t', rfl, rfl⟩ | ⟨l', m', rfl, rfl⟩ | ⟨rfl, rfl⟩ <;>
    first
    | exact match_none
    | exact match_some _ _
    | exact match_left _ _
    | exact match_refl _
    | exact (sameKind_num _ ‹_› ‹_›).1
    | exact (sameKind_num _ ‹_› ‹_›).2
    | exact (sameKind_str _ _ _).1
    | exact (sameKind_str _ _ _).2

theorem number_alike {a a' : Den} (ha : Alike a a') : a.number.isSome = a'.number.isSome := by
  rcases alike_cases ha with ⟨rfl, rfl⟩ | ⟨u, v, rfl, rfl, _, _⟩ | ⟨c, rfl, rfl⟩ | ⟨l, rfl, rfl⟩ | ⟨x, y, rfl, rfl, hx, hy⟩ |
      ⟨s, t, rfl, rfl⟩ | ⟨l, m, rfl, rfl⟩ | ⟨rfl, rfl⟩ <;> first | rfl | exact hx.trans hy.symm

theorem semOrd_match (f : PyFloat → PyFloat → Bool) {a a' b b' : Den} (ha : Alike a a') (hb : Alike b b') :
    Match (semOrd f a b) (semOrd f a' b') := by
  have h1 := number_alike ha
  have h2 := number_alike hb
  unfold semOrd
  cases h3 : a.number <;> cases h4 : a'.number <;> cases h5 : b.number <;> cases h6 : b'.number <;>
    simp_all [Match]

theorem scan_match (l m : List Scalar) (x : List Atom) : Match (Spec.scan l x) (Spec.scan m x) := by
  have : ∀ l, (∃ b, Spec.scan l x = .ok (some b)) ∨ ∃ e, Spec.scan l x = .error e := by
    intro l
    induction x with
    | nil => exact Or.inl ⟨_, rfl⟩
    | cons a x ih =>
      unfold Spec.scan
      split
      · exact Or.inr ⟨_, rfl⟩
      · split
        · exact Or.inl ⟨_, rfl⟩
        · exact ih
  rcases this l with ⟨b, h⟩ | ⟨e, h⟩
  · rcases this m with ⟨c, g⟩ | ⟨e, g⟩
    · rw [h, g]; exact match_some _ _
    · rw [g]; exact match_right _ _
  · rw [h]; exact match_left _ _

theorem null_match (c : Prop) [Decidable c] (e : PyExc) (u v : Bool) :
    Match (if c then .error e else .ok (some u)) (if c then .error e else .ok (some v)) := by
  by_cases h : c
  · rw [if_pos h]; exact match_left _ _
  · rw [if_neg h, if_neg h]; exact match_some _ _

theorem semIn_match {a a' b b' : Den} (ha : Alike a a') (hb : Alike b b') : Match (semIn a b) (semIn a' b') := by
  rcases alike_cases ha with ⟨rfl, rfl⟩ | ⟨u, v, rfl, rfl, _, _⟩ | ⟨c, rfl, rfl⟩ | ⟨l, rfl, rfl⟩ | ⟨x, y, rfl, rfl, hx, hy⟩ |
      ⟨s, t, rfl, rfl⟩ | ⟨l, m, rfl, rfl⟩ | ⟨rfl, rfl⟩ <;>
    rcases alike_cases hb with ⟨rfl, rfl⟩ | ⟨u', v', rfl, rfl, _, _⟩ | ⟨c', rfl, rfl⟩ | ⟨l', rfl, rfl⟩ | ⟨x', y', rfl, rfl, hx', hy'⟩ |
      ⟨s', t', rfl, rfl⟩ | ⟨l', m', rfl, rfl⟩ | ⟨rfl, rfl⟩ <;>
    first
    | exact match_none
    | exact match_some _ _
    | exact match_left _ _
    | exact match_refl _
    | exact scan_match _ _ _
    | exact null_match _ _ _ _

theorem semSubset_match {a a' b b' : Den} (ha : Alike a a') (hb : Alike b b') : Match (semSubset a b) (semSubset a' b') := by
  unfold semSubset
  rcases alike_cases ha with ⟨rfl, rfl⟩ | ⟨u, v, rfl, rfl, _, _⟩ | ⟨c, rfl, rfl⟩ | ⟨l, rfl, rfl⟩ | ⟨x, y, rfl, rfl, hx, hy⟩ |
      ⟨s, t, rfl, rfl⟩ | ⟨l, m, rfl, rfl⟩ | ⟨rfl, rfl⟩ <;>
    rcases alike_cases hb with ⟨rfl, rfl⟩ | ⟨u', v', rfl, rfl, _, _⟩ | ⟨c', rfl, rfl⟩ | ⟨l', rfl, rfl⟩ | ⟨x', y', rfl, rfl, hx', hy'⟩ |
      ⟨s', t', rfl, rfl⟩ | ⟨l', m', rfl, rfl⟩ | ⟨rfl, rfl⟩ <;>
    first
    | exact match_none
    | exact match_some _ _
    | exact match_left _ _
    | exact match_refl _
    | (dsimp only [Den.unsettable, Den.asSet]
       first | exact null_match _ _ _ _ | exact match_left _ _)

theorem operators_match {s rule : String} {f : Den → Den → Answer} (h : (s, rule, f) ∈ operators) {a a' b b' : Den}
    (ha : Alike a a') (hb : Alike b b') : Match (f a b) (f a' b') := by
  simp only [operators, List.mem_cons, Prod.mk.injEq, List.not_mem_nil, or_false] at h
  rcases h with ⟨rfl, rfl, rfl⟩ | ⟨rfl, rfl, rfl⟩ | ⟨rfl, rfl, rfl⟩ | ⟨rfl, rfl, rfl⟩ |
    ⟨rfl, rfl, rfl⟩ | ⟨rfl, rfl, rfl⟩ | ⟨rfl, rfl, rfl⟩ | ⟨rfl, rfl, rfl⟩
  · exact semEq_match ha hb
  · rcases semEq_match ha hb with ⟨h1, h2⟩ | ⟨u, v, h1, h2⟩ | ⟨e, h1⟩ | ⟨e, h1⟩
    · show Match (Answer.neg _) (Answer.neg _); rw [h1, h2]; exact match_none
    · show Match (Answer.neg _) (Answer.neg _); rw [h1, h2]; exact match_some _ _
    · show Match (Answer.neg _) (Answer.neg _); rw [h1]; exact match_left _ _
    · show Match (Answer.neg _) (Answer.neg _); rw [h1]; exact match_right _ _
  · exact semOrd_match _ ha hb
  · exact semOrd_match _ ha hb
  · exact semOrd_match _ ha hb
  · exact semOrd_match _ ha hb
  · exact semIn_match ha hb
  · exact semSubset_match ha hb

/-! ### Remarks in two states -/

/-- Two evaluations warn alike: both get through and say the same, with results related by `R`; or one is cut short by an error and
says the beginning of what the other says. -/
def Par (R : Den → Den → Prop) (r s : List Remark) (x y : Except PyExc Den) : Prop :=
  (∃ a b, x = .ok a ∧ y = .ok b ∧ R a b ∧ r = s) ∨ (∃ e, x = .error e ∧ r <+: s) ∨ ∃ e, y = .error e ∧ s <+: r

def SameSorts (A B : Atts) (ts : List Token) : Prop :=
  ∀ t ∈ ts, sortOf (A t.type (attName t)) = sortOf (B t.type (attName t))

theorem SameSorts.left {A B : Atts} {l m : List Token} (h : SameSorts A B (l ++ m)) : SameSorts A B l :=
  fun t ht => h t (List.mem_append_left _ ht)
theorem SameSorts.right {A B : Atts} {l m : List Token} (h : SameSorts A B (l ++ m)) : SameSorts A B m :=
  fun t ht => h t (List.mem_append_right _ ht)

theorem par_att {A B : Atts} {t : Token} (h : SameSorts A B [t]) :
    Par Alike (remarksAtt A t) (remarksAtt B t) (semAtt A t).2 (semAtt B t).2 := by
  have h := h t (by simp)
  obtain ⟨a, ha, sa⟩ := semAtt_shape A t
  obtain ⟨b, hb, sb⟩ := semAtt_shape B t
  refine Or.inl ⟨a, b, ha, hb, ⟨by rw [sa, sb, h], by rw [sa]; exact sortShape_odd _⟩, remarksAtt_sort h⟩

theorem par_operand {A B : Atts} {v : Operand} (h : SameSorts A B v.attToks) :
    Par Alike (remarksOperand A v) (remarksOperand B v) (semOperand A v).2 (semOperand B v).2 := by
  cases v with
  | att t => exact par_att h
  | atom t =>
    unfold semOperand
    dsimp only
    cases constOf t with
    | none => exact Or.inr (Or.inl ⟨_, rfl, List.prefix_refl _⟩)
    | some a => exact Or.inl ⟨_, _, rfl, rfl, ⟨rfl, by simp [denShape]⟩, rfl⟩
  | set l es =>
    unfold semOperand
    dsimp only
    cases semElems es with
    | error e => exact Or.inr (Or.inl ⟨_, rfl, List.prefix_refl _⟩)
    | ok l => exact Or.inl ⟨_, _, rfl, rfl, ⟨rfl, by simp [denShape]⟩, rfl⟩

/-- Sequencing. -/
theorem par_bind {R S : Den → Den → Prop} {r s : List Remark} {x y : Eff Den} (h : Par R r s x.2 y.2)
    {f g : Den → List Remark} {k m : Den → Eff Den} (hk : ∀ a b, R a b → Par S (f a) (g b) (k a).2 (m b).2) :
    Par S (r ++ after x.2 f) (s ++ after y.2 g) (x.bind k).2 (y.bind m).2 := by
  obtain ⟨w, x⟩ := x
  obtain ⟨w', y⟩ := y
  rcases h with ⟨a, b, rfl, rfl, hR, rfl⟩ | ⟨e, rfl, h⟩ | ⟨e, rfl, h⟩
  · rcases hk a b hR with ⟨c, d, h1, h2, h3, h4⟩ | ⟨e, h1, h2⟩ | ⟨e, h1, h2⟩
    · exact Or.inl ⟨c, d, h1, h2, h3, by simp only [after]; rw [h4]⟩
    · exact Or.inr (Or.inl ⟨e, h1, (List.prefix_append_right_inj r).2 h2⟩)
    · exact Or.inr (Or.inr ⟨e, h1, (List.prefix_append_right_inj r).2 h2⟩)
  · exact Or.inr (Or.inl ⟨e, rfl, by simp only [after, List.append_nil]; exact h.trans (List.prefix_append _ _)⟩)
  · exact Or.inr (Or.inr ⟨e, rfl, by simp only [after, List.append_nil]; exact h.trans (List.prefix_append _ _)⟩)

def isTruth : Den → Bool
  | .truth _ => true
  | _ => false

/-- Results connectives treat alike. -/
def BothTruth (a b : Den) : Prop := isTruth a = isTruth b

theorem Alike.both {a b : Den} (h : Alike a b) : BothTruth a b := by
  rcases alike_cases h with ⟨rfl, rfl⟩ | ⟨u, v, rfl, rfl, _, _⟩ | ⟨c, rfl, rfl⟩ | ⟨l, rfl, rfl⟩ | ⟨x, y, rfl, rfl, hx, hy⟩ |
      ⟨s, t, rfl, rfl⟩ | ⟨l, m, rfl, rfl⟩ | ⟨rfl, rfl⟩ <;> rfl

theorem Alike.undef {a b : Den} (h : Alike a b) : a = .truth .undef ↔ b = .truth .undef := by
  rcases alike_cases h with ⟨rfl, rfl⟩ | ⟨u, v, rfl, rfl, _, _⟩ | ⟨c, rfl, rfl⟩ | ⟨l, rfl, rfl⟩ | ⟨x, y, rfl, rfl, hx, hy⟩ |
      ⟨s, t, rfl, rfl⟩ | ⟨l, m, rfl, rfl⟩ | ⟨rfl, rfl⟩ <;> simp_all

theorem answerOut_fst {rule : String} {a : Answer} : (answerOut rule a).1 = [] ↔ a ≠ .ok none := by
  rcases a with e | (_ | (_ | _)) <;> simp [answerOut]

theorem par_cmp {o : Token} {a a' b b' : Den} (ha : Alike a a') (hb : Alike b b') :
    Par BothTruth (remarksCmp o a b) (remarksCmp o a' b') (semCmp o a b).2 (semCmp o a' b').2 := by
  by_cases hu : a = .truth .undef ∨ b = .truth .undef
  · have hu' : a' = .truth .undef ∨ b' = .truth .undef := by rwa [ha.undef, hb.undef] at hu
    unfold remarksCmp semCmp
    rw [if_pos hu, if_pos hu']
    exact Or.inl ⟨_, _, rfl, rfl, rfl, rfl⟩
  · have hu' : ¬ (a' = .truth .undef ∨ b' = .truth .undef) := by rwa [ha.undef, hb.undef] at hu
    cases hf : operators.find? (fun e => o.value = .str e.1.toList) with
    | none =>
      unfold remarksCmp semCmp
      rw [if_neg hu, if_neg hu', hf]
      exact Or.inr (Or.inl ⟨_, rfl, List.prefix_refl _⟩)
    | some x =>
      obtain ⟨s, rule, f⟩ := x
      have h1 : semCmp o a b = answerOut rule (f a b) := by unfold semCmp; rw [if_neg hu, hf]
      have h2 : semCmp o a' b' = answerOut rule (f a' b') := by unfold semCmp; rw [if_neg hu', hf]
      unfold remarksCmp
      rw [h1, h2]
      rcases operators_match (List.mem_of_find?_eq_some hf) ha hb with ⟨g1, g2⟩ | ⟨u, v, g1, g2⟩ | ⟨e, g1⟩ | ⟨e, g1⟩
      · rw [g1, g2]
        exact Or.inl ⟨_, _, rfl, rfl, rfl, rfl⟩
      · rw [g1, g2]
        cases u <;> cases v <;> exact Or.inl ⟨_, _, rfl, rfl, rfl, rfl⟩
      · rw [g1]
        exact Or.inr (Or.inl ⟨_, rfl, by rw [if_pos (answerOut_fst.2 (by simp))]; exact List.nil_prefix⟩)
      · rw [g1]
        exact Or.inr (Or.inr ⟨_, rfl, by
          rw [if_pos (c := (answerOut rule (.error e)).1 = []) (answerOut_fst.2 (by simp))]; exact List.nil_prefix⟩)

theorem par_policy {U : Uni} {A B : Atts} {p : Policy} (h : SameSorts A B p.attToks) :
    Par BothTruth (remarks U A p) (remarks U B p) (sem U A p).2 (sem U B p).2 := by
  induction p with
  | cmp l o r =>
    refine par_bind (par_operand h.left) fun a a' ha => ?_
    exact par_bind (par_operand h.right) fun b b' hb => par_cmp ha hb
  | lit t =>
    unfold sem
    by_cases hl : litTri U t = .true
    · rw [if_pos hl]
      exact Or.inl ⟨_, _, rfl, rfl, rfl, rfl⟩
    · rw [if_neg hl]
      exact Or.inr (Or.inl ⟨_, rfl, List.prefix_refl _⟩)
  | att t =>
    rcases par_att h with ⟨a, b, h1, h2, h3, h4⟩ | h | h
    · exact Or.inl ⟨a, b, h1, h2, h3.both, h4⟩
    · exact Or.inr (Or.inl h)
    · exact Or.inr (Or.inr h)
  | not n p ih =>
    have := par_bind (S := BothTruth) (ih h) (f := fun _ => []) (g := fun _ => [])
      (k := fun | .truth v => Eff.pure (.truth (kleeneNot v)) | _ => Eff.fail (.interpreterError n.pos "evaluate_not_node"))
      (m := fun | .truth v => Eff.pure (.truth (kleeneNot v)) | _ => Eff.fail (.interpreterError n.pos "evaluate_not_node"))
      (fun a b hab => by
        cases a <;> cases b <;> first | exact Or.inl ⟨_, _, rfl, rfl, rfl, rfl⟩ |
          exact Or.inr (Or.inl ⟨_, rfl, List.prefix_refl _⟩) | cases hab)
    have nil : ∀ x : Except PyExc Den, after x (fun _ => []) = [] := by intro x; cases x <;> rfl
    rw [nil, nil, List.append_nil, List.append_nil] at this
    exact this
  | bin o p q ih1 ih2 =>
    refine par_bind (ih1 h.left) fun a a' ha => ?_
    have := par_bind (S := BothTruth) (ih2 h.right) (f := fun _ => []) (g := fun _ => [])
      (k := fun b => match (generalizing := false) a, b with
        | .truth v, .truth w => Eff.pure (.truth (kleene o v w))
        | _, _ => Eff.fail (.interpreterError o.pos "evaluate_bool_op_node"))
      (m := fun b => match (generalizing := false) a', b with
        | .truth v, .truth w => Eff.pure (.truth (kleene o v w))
        | _, _ => Eff.fail (.interpreterError o.pos "evaluate_bool_op_node"))
      (fun b b' hb => by
        cases a <;> cases a' <;> first | cases ha | skip
        all_goals cases b <;> cases b' <;> first | exact Or.inl ⟨_, _, rfl, rfl, rfl, rfl⟩ |
          exact Or.inr (Or.inl ⟨_, rfl, List.prefix_refl _⟩) | cases hb)
    have nil : ∀ x : Except PyExc Den, after x (fun _ => []) = [] := by intro x; cases x <;> rfl
    rw [nil, nil, List.append_nil, List.append_nil] at this
    exact this

theorem par_whole {U : Uni} {A B : Atts} {p : Policy} (h : SameSorts A B p.attToks) :
    Par BothTruth (remarks U A p) (remarks U B p) (semPolicy U A p).2 (semPolicy U B p).2 := by
  cases p with
  | lit t => exact Or.inr (Or.inl ⟨_, rfl, List.prefix_refl _⟩)
  | _ => exact par_policy h

/-- C129: let two tables give every attribute of the policy the same kind (unknown, without value, misfit, number, text, TRUE or FALSE,
UNDEF, collection, collection with unhashable elements). Then the warnings shown in one are the beginning of those shown in the other;
and if neither evaluation fails (level ERROR, 3, raises nothing) the warnings shown, and the text of what is raised at any level, are
the same: the values of attributes have no influence on them. -/
theorem warnings_tell_kinds (U : Uni) (hU : U.Lawful) (E F : SymEnv) (hE : SymEnv.SetsOk E) (hF : SymEnv.SetsOk F)
    (builtin : PyExc → Str) (level : Option Int) (k : Nat) (text : Str) (p : Policy) (hp : PolicyOf U text p)
    (h : SameSorts (attsOf U E) (attsOf U F) p.attToks) :
    ∃ s r s' r', evaluateTextM U E level k text = .ok (s, r) ∧ evaluateTextM U F level k text = .ok (s', r') ∧
      (s.warnings.map (WarnM.str (some text)) <+: s'.warnings.map (WarnM.str (some text)) ∨
        s'.warnings.map (WarnM.str (some text)) <+: s.warnings.map (WarnM.str (some text))) ∧
      (evalShown U (attsOf U E) builtin (some 3) text p = none → evalShown U (attsOf U F) builtin (some 3) text p = none →
        s.warnings.map (WarnM.str (some text)) = s'.warnings.map (WarnM.str (some text)) ∧
        (match r with | .ok _ => none | .error e => some (e.str builtin (some text))) =
          (match r' with | .ok _ => none | .error e => some (e.str builtin (some text)))) := by
  obtain ⟨s, r, h1, h2, h3⟩ := evaluate_says U hU E hE builtin level k text p hp
  obtain ⟨s', r', g1, g2, g3⟩ := evaluate_says U hU F hF builtin level k text p hp
  refine ⟨s, r, s', r', h1, g1, ?_⟩
  rw [h2, g2]
  have fails : ∀ {A : Atts} {e : PyExc}, (semPolicy U A p).2 = .error e → evalShown U A builtin (some 3) text p ≠ none := by
    intro A e he
    unfold evalShown
    rw [he]
    cases e <;> simp
  rcases par_whole (U := U) h with ⟨a, b, e1, e2, _, e3⟩ | ⟨e, e1, e2⟩ | ⟨e, e1, e2⟩
  · refine ⟨Or.inl (by rw [e3]; exact List.prefix_refl _), fun _ _ => ⟨by rw [e3], h3.trans (Eq.trans ?_ g3.symm)⟩⟩
    unfold evalShown
    rw [e1, e2, e3]
  · exact ⟨Or.inl (e2.map _), fun h _ => absurd h (fails e1)⟩
  · exact ⟨Or.inr (e2.map _), fun _ h => absurd h (fails e1)⟩

/-! ### Examples -/

/-- What is said during a call, and what is raised. -/
def talk (E : SymEnv) (level : Option Int) (text : Str) : Option (List Str × Option Str) :=
  match evaluateTextM asciiUni E level 0 text with
  | .ok (s, r) => some (s.warnings.map (WarnM.str (some text)),
      match r with | .ok _ => none | .error e => some (e.str (fun _ => txt!"builtin") (some text)))
  | .error _ => none

/-- An unknown attribute, and one of the wrong type: names as written, values never. -/
example : talk (sampleEnv []) (some 3) (txt!"user.Zed = 1") =
    some ([txt!"Interpreter Warning, unknown attribute user.Zed found in policy. @ char 0 near 'user.Zed = '"], none) := by
  decide +kernel
example : talk (sampleEnv [("user.bad", 5)]) (some 2) (txt!"2 > user.BAD") =
    some ([txt!"Interpreter Warning, the attribute user.BAD has an invalid type. @ char 4 near '2 > user.BAD'"],
      some (txt!"Interpreter Warning, the attribute user.BAD has an invalid type. @ char 4 near '2 > user.BAD'")) := by
  decide +kernel
/-- An operator does not fit: no position. -/
example : talk (sampleEnv [("user.a", 0)]) (some 2) (txt!"user.a = \"x\"") =
    some ([txt!"Interpreter Warning, invalid type used in '=' or '!=' operation."],
      some (txt!"Interpreter Warning, invalid type used in '=' or '!=' operation.")) := by
  decide +kernel
/-- An error. -/
example : talk (sampleEnv [("user.a", 0)]) (some 3) (txt!"user.a = 0") =
    some ([], some (txt!"Interpreter Error, invalid node type. @ char 9 near 'user.a = 0'")) := by
  decide +kernel
/-- Different values, same kinds. -/
example : SameSorts (attsOf asciiUni (sampleEnv [("user.a", 0)])) (attsOf asciiUni (sampleEnv [("user.a", 1)]))
    (Policy.attToks (.cmp (.att ⟨.usrAtt, 0, .str (txt!"a")⟩) ⟨.op, 7, .str (txt!"<")⟩ (.att ⟨.usrAtt, 9, .str (txt!"b")⟩))) := by
  intro t ht
  simp only [Policy.attToks, Operand.attToks, List.cons_append, List.nil_append, List.mem_cons, List.not_mem_nil, or_false] at ht
  rcases ht with rfl | rfl <;> decide +kernel

end Verif.Props
