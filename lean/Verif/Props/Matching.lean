import Verif.Props.SetDecisions
import Verif.Props.Numbers
import Verif.Props.Polarity
/-!
# What evaluation depends on (C170)

Evaluation sees of the values in a symbol table only their sorts and how they compare with each other and with the literals of the policy.
So two tables whose values can be matched so that sorts, equality and order agree give the same results.
-/

namespace Verif.Spec

/-- The sorts of values. -/
inductive ValueSort where
  | number
  | text
  | null
  | none
  | truth (t : Tri)
  | object (hashable : Bool)

/-- The sort of a value. -/
def valueSort : Scalar → ValueSort
  | .none => .none
  | .bool _ => .number
  | .tri t => .truth t
  | .atom .null => .null
  | .atom (.str _) => .text
  | .atom (.int _) => .number
  | .atom (.flt _) => .number
  | .obj h _ => .object h

/-- Matched values are of the same sort, and equality and order of values agree with those of the values matched with them. -/
structure Matching (S : Scalar → Scalar → Prop) : Prop where
  sort : ∀ x x', S x x' → valueSort x = valueSort x'
  eq : ∀ x x' y y', S x x' → S y y' → x.pyEq y = x'.pyEq y'
  lt : ∀ x x' y y', S x x' → S y y' → ∀ m n m' n', x.num = some m → y.num = some n → x'.num = some m' → y'.num = some n' →
    (numLt m n ↔ numLt m' n')

/-- Each element of one list is matched with one of the other. -/
def MatchLists (S : Scalar → Scalar → Prop) (l l' : List Scalar) : Prop := (∀ x ∈ l, ∃ x' ∈ l', S x x') ∧ ∀ x' ∈ l', ∃ x ∈ l, S x x'

/-- Matched attribute values. -/
inductive MatchValues (S : Scalar → Scalar → Prop) : PyVal → PyVal → Prop where
  | sc {x x'} : S x x' → MatchValues S (.sc x) (.sc x')
  | set {l l'} : MatchLists S l l' → MatchValues S (.set l) (.set l')
  | list {l l'} : MatchLists S l l' → MatchValues S (.list l) (.list l')

/-- The attribute is missing in both tables, or has the same type and matched values. -/
def MatchAtts (S : Scalar → Scalar → Prop) (A B : Atts) (t : Token) : Prop :=
  (A t.type (attName t) = none ∧ B t.type (attName t) = none) ∨
  ∃ ty v w, A t.type (attName t) = some (ty, v) ∧ B t.type (attName t) = some (ty, w) ∧ MatchValues S v w

end Verif.Spec

namespace Verif.Props
open Verif.Spec Proofs

/-- Matched operands. -/
inductive MatchDens (S : Scalar → Scalar → Prop) : Den → Den → Prop where
  | truth (v) : MatchDens S (.truth v) (.truth v)
  | const {c} : S (.atom c) (.atom c) → MatchDens S (.const c) (.const c)
  | lit {m} : (∀ c ∈ m, S (.atom c) (.atom c)) → MatchDens S (.lit m) (.lit m)
  | single {x x'} : S x x' → MatchDens S (.single x) (.single x')
  | many {l l'} : MatchLists S l l' → MatchDens S (.many l) (.many l')
  | manyBad : MatchDens S .manyBad .manyBad

theorem num_sort (x : Scalar) : x.num.isSome = true ↔ valueSort x = .number := by
  cases x with
  | atom a => cases a <;> simp [valueSort, Scalar.num]
  | _ => simp [valueSort, Scalar.num]

theorem sameKind_sort (x y : Scalar) : sameKindEq x y = match valueSort x, valueSort y with
    | .number, .number => some (x.pyEq y)
    | .text, .text => some (x.pyEq y)
    | .null, .null => some (x.pyEq y)
    | _, _ => none := by
  cases x with
  | atom a =>
    cases y with
    | atom b => cases a <;> cases b <;> simp [valueSort, sameKindEq, Scalar.num, Scalar.pyEq]
    | _ => cases a <;> simp [valueSort, sameKindEq, Scalar.num, Scalar.pyEq]
  | _ =>
    cases y with
    | atom b => cases b <;> simp [valueSort, sameKindEq, Scalar.num, Scalar.pyEq]
    | _ => simp [valueSort, sameKindEq, Scalar.num, Scalar.pyEq]

theorem hashable_sort (x : Scalar) : x.hashable = match valueSort x with
    | .truth _ => false
    | .null => false
    | .object h => h
    | _ => true := by
  cases x with
  | atom a => cases a <;> rfl
  | _ => rfl

section
variable {S : Scalar → Scalar → Prop} (h : Matching S)
include h

theorem match_kind {x x' y y' : Scalar} (hx : S x x') (hy : S y y') : sameKindEq x y = sameKindEq x' y' := by
  rw [sameKind_sort, sameKind_sort, h.sort _ _ hx, h.sort _ _ hy, h.eq _ _ _ _ hx hy]

theorem match_included {l l' m m' : List Scalar} (hl : MatchLists S l l') (hm : MatchLists S m m') : included l m = included l' m' := by
  unfold included
  refine decide_eq_decide.mpr ⟨fun g x' hx' => ?_, fun g x hx => ?_⟩
  · obtain ⟨x, hx, sx⟩ := hl.2 x' hx'
    obtain ⟨y, hy, e⟩ := g x hx
    obtain ⟨y', hy', sy⟩ := hm.1 y hy
    exact ⟨y', hy', (h.eq _ _ _ _ sx sy).symm.trans e⟩
  · obtain ⟨x', hx', sx⟩ := hl.1 x hx
    obtain ⟨y', hy', e⟩ := g x' hx'
    obtain ⟨y, hy, sy⟩ := hm.2 y' hy'
    exact ⟨y, hy, (h.eq _ _ _ _ sx sy).trans e⟩

theorem match_overlap {l l' m m' : List Scalar} (hl : MatchLists S l l') (hm : MatchLists S m m') : overlap l m = overlap l' m' := by
  unfold overlap
  refine decide_eq_decide.mpr ⟨?_, ?_⟩
  · rintro ⟨x, hx, y, hy, e⟩
    obtain ⟨x', hx', sx⟩ := hl.1 x hx
    obtain ⟨y', hy', sy⟩ := hm.1 y hy
    exact ⟨x', hx', y', hy', (h.eq _ _ _ _ sx sy).symm.trans e⟩
  · rintro ⟨x', hx', y', hy', e⟩
    obtain ⟨x, hx, sx⟩ := hl.2 x' hx'
    obtain ⟨y, hy, sy⟩ := hm.2 y' hy'
    exact ⟨x, hx, y, hy, (h.eq _ _ _ _ sx sy).trans e⟩

theorem match_same {l l' m m' : List Scalar} (hl : MatchLists S l l') (hm : MatchLists S m m') : sameElems l m = sameElems l' m' := by
  have e : ∀ a b : List Scalar, sameElems a b = (included a b && included b a) := fun a b => by
    unfold sameElems included
    rw [Bool.decide_and]
  rw [e, e, match_included h hl hm, match_included h hm hl]

theorem match_scan {l l' : List Scalar} (hl : MatchLists S l l') : ∀ {m : List Atom}, (∀ c ∈ m, S (.atom c) (.atom c)) → scan l m = scan l' m
  | [], _ => rfl
  | c :: m, hm => by
    have h1 : (∃ y ∈ l, (Scalar.atom c).pyEq y = true) ↔ ∃ y ∈ l', (Scalar.atom c).pyEq y = true := by
      have hc := hm c List.mem_cons_self
      constructor
      · rintro ⟨y, hy, e⟩
        obtain ⟨y', hy', sy⟩ := hl.1 y hy
        exact ⟨y', hy', (h.eq _ _ _ _ hc sy).symm.trans e⟩
      · rintro ⟨y', hy', e⟩
        obtain ⟨y, hy, sy⟩ := hl.2 y' hy'
        exact ⟨y, hy, (h.eq _ _ _ _ hc sy).trans e⟩
    rw [scan, scan, match_scan hl fun t ht => hm t (List.mem_cons_of_mem _ ht)]
    simp only [h1]

omit h in
theorem match_one {x x' : Scalar} (hx : S x x') : MatchLists S [x] [x'] :=
  ⟨fun _ hy => ⟨x', List.mem_singleton.mpr rfl, List.mem_singleton.mp hy ▸ hx⟩, fun _ hy => ⟨x, List.mem_singleton.mpr rfl, List.mem_singleton.mp hy ▸ hx⟩⟩

omit h in
theorem match_atoms {m : List Atom} (hm : ∀ c ∈ m, S (.atom c) (.atom c)) : MatchLists S (atoms m) (atoms m) := by
  constructor <;>
  · intro x hx
    obtain ⟨c, hc, rfl⟩ := List.mem_map.mp hx
    exact ⟨_, hx, hm c hc⟩

theorem match_eq {a a' b b' : Den} (ha : MatchDens S a a') (hb : MatchDens S b b') : semEq a b = semEq a' b' := by
  have ok : ∀ {x y : Bool}, x = y → (Except.ok (some x) : Answer) = .ok (some y) := fun e => by rw [e]
  cases ha <;> cases hb <;> first
    | rfl
    | exact congrArg Except.ok (match_kind h (by assumption) (by assumption))
    | exact ok (h.eq _ _ _ _ (by assumption) (by assumption))
    | exact ok (match_same h (by assumption) (by assumption))
    | exact ok (match_same h (match_one (by assumption)) (by assumption))
    | exact ok (match_same h (by assumption) (match_one (by assumption)))

theorem match_in {a a' b b' : Den} (ha : MatchDens S a a') (hb : MatchDens S b b') : semIn a b = semIn a' b' := by
  have ok : ∀ {x y : Bool}, x = y → (Except.ok (some x) : Answer) = .ok (some y) := fun e => by rw [e]
  cases ha <;> cases hb <;> first
    | rfl
    | exact ok (h.eq _ _ _ _ (by assumption) (by assumption))
    | exact ok (match_included h (match_one (by assumption)) (by assumption))
    | exact ok (match_included h (match_one (by assumption)) (match_atoms (by assumption)))
    | exact ok (match_overlap h (by assumption) (by assumption))
    | exact ok (match_overlap h (by assumption) (match_atoms (by assumption)))
    | exact ok (match_overlap h (match_one (by assumption)) (by assumption))
    | exact ok (match_overlap h (match_one (by assumption)) (match_atoms (by assumption)))
    | exact match_scan h (by assumption) (by assumption)
    | (simp only [semIn]; rw [match_included h (match_one (by assumption)) (by assumption)])

theorem match_subset {a a' b b' : Den} (ha : MatchDens S a a') (hb : MatchDens S b b') : semSubset a b = semSubset a' b' := by
  have hu : ∀ {c c' : Den}, MatchDens S c c' → c.unsettable = c'.unsettable := fun hc => by cases hc <;> rfl
  have hset : ∀ {c c' d d' : Den}, MatchDens S c c' → MatchDens S d d' → (Den.asSet c d = none ∧ Den.asSet c' d' = none) ∨
      ∃ l l', Den.asSet c d = some l ∧ Den.asSet c' d' = some l' ∧ MatchLists S l l' := fun hc hd => by
    cases hd <;> cases hc <;> first
      | exact .inl ⟨rfl, rfl⟩
      | exact .inr ⟨_, _, rfl, rfl, by assumption⟩
      | exact .inr ⟨_, _, rfl, rfl, match_one (by assumption)⟩
      | exact .inr ⟨_, _, rfl, rfl, match_atoms (by assumption)⟩
  unfold semSubset
  rw [hu ha, hu hb]
  rcases hset hb ha with ⟨e1, e2⟩ | ⟨l, l', e1, e2, hl⟩ <;> rcases hset ha hb with ⟨e3, e4⟩ | ⟨m, m', e3, e4, hm⟩
  · rw [e1, e2]
  · rw [e1, e2]
  · rw [e1, e2, e3, e4]
  · rw [e1, e2, e3, e4]
    dsimp only
    rw [match_included h hl hm]

theorem match_number {a a' : Den} (ha : MatchDens S a a') : (a.number = none ∧ a'.number = none) ∨
    ∃ x x' m m', S x x' ∧ x.num = some m ∧ x'.num = some m' ∧ a.number = some m ∧ a'.number = some m' := by
  have key : ∀ {x x' : Scalar}, S x x' → (x.num = none ∧ x'.num = none) ∨ ∃ m m', x.num = some m ∧ x'.num = some m' := fun {x x'} hx => by
    have h1 := num_sort x
    have h2 := num_sort x'
    rw [h.sort _ _ hx, ← h2] at h1
    revert h1
    cases x.num <;> cases x'.num <;> simp
  cases ha with
  | const hc =>
    rcases key hc with e | ⟨m, m', e, e'⟩
    · exact .inl e
    · exact .inr ⟨_, _, m, m', hc, e, e', e, e'⟩
  | single hc =>
    rcases key hc with e | ⟨m, m', e, e'⟩
    · exact .inl e
    · exact .inr ⟨_, _, m, m', hc, e, e', e, e'⟩
  | _ => exact .inl ⟨rfl, rfl⟩

theorem match_ord {a a' b b' : Den} (ha : MatchDens S a a') (hb : MatchDens S b b') {f : PyFloat → PyFloat → Bool}
    (hf : ∀ m n m' n', (numLt m n ↔ numLt m' n') → (numLt n m ↔ numLt n' m') → f m n = f m' n') : semOrd f a b = semOrd f a' b' := by
  rw [semOrd_eq, semOrd_eq]
  rcases match_number h ha with ⟨e1, e2⟩ | ⟨x, x', m, m', hx, n1, n2, e1, e2⟩ <;>
  rcases match_number h hb with ⟨e3, e4⟩ | ⟨y, y', n, n', hy, n3, n4, e3, e4⟩
  · rw [e1, e2]; rfl
  · rw [e1, e2]; rfl
  · rw [e1, e2, e3, e4]; rfl
  · rw [e1, e2, e3, e4]
    show Except.ok (some (f m n)) = Except.ok (some (f m' n'))
    rw [hf m n m' n' (h.lt _ _ _ _ hx hy _ _ _ _ n1 n3 n2 n4) (h.lt _ _ _ _ hy hx _ _ _ _ n3 n1 n4 n2)]

theorem match_cmp (o : Token) {a a' b b' : Den} (ha : MatchDens S a a') (hb : MatchDens S b b') : semCmp o a b = semCmp o a' b' := by
  have hun : ∀ {c c' : Den}, MatchDens S c c' → (c = .truth .undef ↔ c' = .truth .undef) := fun hc => by cases hc <;> simp
  unfold semCmp
  simp only [hun ha, hun hb]
  cases hf : operators.find? (fun e => o.value = .str e.1.toList) with
  | none => rfl
  | some e =>
    have he : e.2.2 a b = e.2.2 a' b' := by
      rcases (op_mem e).mp (List.mem_of_find?_eq_some hf) with rfl | rfl | rfl | rfl | rfl | rfl | rfl | rfl
      · exact match_eq h ha hb
      · exact congrArg Answer.neg (match_eq h ha hb)
      · exact match_ord h ha hb fun _ _ _ _ g1 _ => decide_eq_decide.mpr g1
      · exact match_ord h ha hb fun _ _ _ _ _ g2 => decide_eq_decide.mpr g2
      · exact match_ord h ha hb fun _ _ _ _ _ g2 => decide_eq_decide.mpr (not_congr g2)
      · exact match_ord h ha hb fun _ _ _ _ g1 _ => decide_eq_decide.mpr (not_congr g1)
      · exact match_in h ha hb
      · exact match_subset h ha hb
    dsimp only
    rw [he]

theorem match_hashable {l l' : List Scalar} (hl : MatchLists S l l') : l.all Scalar.hashable = l'.all Scalar.hashable := by
  rw [Bool.eq_iff_iff, List.all_eq_true, List.all_eq_true]
  constructor
  · intro g x' hx'
    obtain ⟨x, hx, sx⟩ := hl.2 x' hx'
    rw [hashable_sort, ← h.sort _ _ sx, ← hashable_sort]
    exact g x hx
  · intro g x hx
    obtain ⟨x', hx', sx⟩ := hl.1 x hx
    rw [hashable_sort, h.sort _ _ sx, ← hashable_sort]
    exact g x' hx'

theorem match_value {v w : PyVal} (hv : MatchValues S v w) : (v = .sc .none ↔ w = .sc .none) ∧ (∀ ty, fits ty v = fits ty w) ∧
    MatchDens S (valueDen v) (valueDen w) := by
  cases hv with
  | @sc x x' hx =>
    have hs := h.sort _ _ hx
    refine ⟨?_, fun ty => ?_, ?_⟩
    · rcases x with _ | _ | _ | (_ | _ | _ | _) | _ <;> rcases x' with _ | _ | _ | (_ | _ | _ | _) | _ <;> simp_all [valueSort]
    · rcases x with _ | _ | _ | (_ | _ | _ | _) | _ <;> rcases x' with _ | _ | _ | (_ | _ | _ | _) | _ <;>
        first | (cases ty <;> rfl) | (exfalso; revert hs; simp [valueSort])
    · rcases x with _ | _ | _ | (_ | _ | _ | _) | _ <;> rcases x' with _ | _ | _ | (_ | _ | _ | _) | _ <;>
        first | exact .single hx | (exfalso; revert hs; simp [valueSort]; done) | (cases hs; exact .truth _)
  | set hl => exact ⟨by simp, fun ty => by cases ty <;> rfl, .many hl⟩
  | list hl =>
    refine ⟨by simp, fun ty => by cases ty <;> rfl, ?_⟩
    unfold valueDen
    dsimp only
    rw [match_hashable h hl]
    split
    · exact .many hl
    · exact .manyBad

theorem semAtt_match {A B : Atts} {t : Token} (ht : MatchAtts S A B t) : ∃ w d d', semAtt A t = (w, .ok d) ∧ semAtt B t = (w, .ok d') ∧ MatchDens S d d' := by
  rcases ht with ⟨e1, e2⟩ | ⟨ty, v, w, e1, e2, hv⟩
  · unfold semAtt
    rw [e1, e2]
    exact ⟨_, _, _, rfl, rfl, .truth _⟩
  · obtain ⟨h1, h2, h3⟩ := match_value h hv
    have e : ∀ (C : Atts) (u : PyVal), C t.type (attName t) = some (ty, u) → semAtt C t = if u = .sc .none then
        ([⟨t.pos, "evaluate_att_node"⟩, ⟨t.pos, "evaluate_att_node"⟩], .ok (.truth .undef)) else
        if fits ty u then ([], .ok (valueDen u)) else ([⟨t.pos, "evaluate_att_node"⟩], .ok (.truth .undef)) := fun C u hC => by
      unfold semAtt
      rw [hC]
      rcases u with (_ | _ | _ | _ | _) | _ | _ <;> simp
    rw [e A v e1, e B w e2]
    simp only [h1, h2 ty]
    split
    · exact ⟨_, _, _, rfl, rfl, .truth _⟩
    · split
      · exact ⟨_, _, _, rfl, rfl, h3⟩
      · exact ⟨_, _, _, rfl, rfl, .truth _⟩

/-- Warnings and errors are the same, and results are matched. -/
def MatchEffs (S : Scalar → Scalar → Prop) (x y : Eff Den) : Prop :=
  (∃ w e, x = (w, .error e) ∧ y = (w, .error e)) ∨ ∃ w d d', x = (w, .ok d) ∧ y = (w, .ok d') ∧ MatchDens S d d'

omit h in
theorem MatchEffs.bind {x y : Eff Den} (hx : MatchEffs S x y) {f g : Den → Eff Den} (hf : ∀ d d', MatchDens S d d' → MatchEffs S (f d) (g d')) :
    MatchEffs S (x.bind f) (y.bind g) := by
  rcases hx with ⟨w, e, rfl, rfl⟩ | ⟨w, d, d', rfl, rfl, hd⟩
  · exact .inl ⟨_, _, rfl, rfl⟩
  · rcases hf d d' hd with ⟨v, e, h1, h2⟩ | ⟨v, c, c', h1, h2, hc⟩
    · exact .inl ⟨w ++ v, e, by simp [Eff.bind, h1], by simp [Eff.bind, h2]⟩
    · exact .inr ⟨w ++ v, c, c', by simp [Eff.bind, h1], by simp [Eff.bind, h2], hc⟩

omit h in
theorem match_answer (r : String) (a : Answer) : MatchEffs S (answerOut r a) (answerOut r a) := by
  rcases a with e | (_ | _ | _)
  · exact .inl ⟨_, _, rfl, rfl⟩
  all_goals exact .inr ⟨_, _, _, rfl, rfl, .truth _⟩

omit h in
theorem match_cmp_self (o : Token) (a b : Den) : MatchEffs S (semCmp o a b) (semCmp o a b) := by
  unfold semCmp
  split
  · exact .inr ⟨_, _, _, rfl, rfl, .truth _⟩
  · split
    · exact match_answer _ _
    · exact .inl ⟨_, _, rfl, rfl⟩

theorem match_operand {A B : Atts} {z : Operand} (hz : z.WF) (ha : ∀ t ∈ z.atts, MatchAtts S A B t)
    (hc : ∀ t ∈ z.tokens, AtomTok false t → ∀ c, constOf t = some c → S (.atom c) (.atom c)) : MatchEffs S (semOperand A z) (semOperand B z) := by
  cases z with
  | att t =>
    obtain ⟨w, d, d', h1, h2, h3⟩ := semAtt_match h (ha t List.mem_cons_self)
    exact .inr ⟨w, d, d', h1, h2, h3⟩
  | atom t =>
    unfold semOperand
    dsimp only
    cases hco : constOf t with
    | none => exact .inl ⟨_, _, rfl, rfl⟩
    | some c => exact .inr ⟨_, _, _, rfl, rfl, .const (hc t List.mem_cons_self hz c hco)⟩
  | set b es =>
    unfold semOperand
    dsimp only
    cases hse : semElems es with
    | error e => exact .inl ⟨_, _, rfl, rfl⟩
    | ok k =>
      refine .inr ⟨_, _, _, rfl, rfl, .lit fun c hk => ?_⟩
      obtain ⟨t, h1, h2⟩ := elems_const hse _ hk
      exact hc t (List.mem_cons_of_mem _ h1) (hz.2 t h1) c h2

theorem match_sem {U : Uni} {A B : Atts} (p : Policy) (hw : p.WF) (ha : ∀ t ∈ p.atts, MatchAtts S A B t)
    (hc : ∀ t ∈ p.tokens, AtomTok false t → ∀ c, constOf t = some c → S (.atom c) (.atom c)) : MatchEffs S (sem U A p) (sem U B p) := by
  induction p with
  | cmp l o r =>
    obtain ⟨g1, g2, g3, g4⟩ := cmp_parts hw (c := ⟨l, o, r⟩) (List.mem_singleton.mpr rfl)
    refine (match_operand h g1 (fun t ht => ha t (List.mem_append_left _ ht)) fun t ht => hc t (g3 t ht)).bind fun d d' hd => ?_
    refine (match_operand h g2 (fun t ht => ha t (List.mem_append_right _ ht)) fun t ht => hc t (g4 t ht)).bind fun e e' he => ?_
    rw [match_cmp h o hd he]
    exact match_cmp_self _ _ _
  | lit t =>
    unfold sem
    split
    · exact .inr ⟨_, _, _, rfl, rfl, .truth _⟩
    · exact .inl ⟨_, _, rfl, rfl⟩
  | att t =>
    obtain ⟨w, d, d', h1, h2, h3⟩ := semAtt_match h (ha t List.mem_cons_self)
    exact .inr ⟨w, d, d', h1, h2, h3⟩
  | not n p ih =>
    refine (ih hw.2 ha fun t ht => hc t (List.mem_cons_of_mem _ ht)).bind fun d d' hd => ?_
    cases hd <;> first | exact .inl ⟨_, _, rfl, rfl⟩ | exact .inr ⟨_, _, _, rfl, rfl, .truth _⟩
  | bin o p q ihp ihq =>
    refine (ihp hw.2.1 (fun t ht => ha t (List.mem_append_left _ ht)) fun t ht => hc t (List.mem_append_left _ ht)).bind fun d d' hd => ?_
    refine (ihq hw.2.2 (fun t ht => ha t (List.mem_append_right _ ht)) fun t ht => hc t (List.mem_append_right _ (List.mem_cons_of_mem _ ht))).bind fun e e' he => ?_
    cases hd <;> cases he <;> first | exact .inl ⟨_, _, rfl, rfl⟩ | exact .inr ⟨_, _, _, rfl, rfl, .truth _⟩

theorem match_policy {U : Uni} {A B : Atts} (p : Policy) (hw : p.WF) (ha : ∀ t ∈ p.atts, MatchAtts S A B t)
    (hc : ∀ t ∈ p.tokens, AtomTok false t → ∀ c, constOf t = some c → S (.atom c) (.atom c)) :
    MatchEffs S (semPolicy U A p) (semPolicy U B p) := by
  cases p with
  | lit t => exact .inl ⟨_, _, rfl, rfl⟩
  | _ => exact match_sem h _ hw ha hc

omit h in
theorem match_outcome {x y : Eff Den} (hx : MatchEffs S x y) (level : Option Int) :
    (∃ e, outcome level x = .error e ∧ outcome level y = .error e) ∨
    ∃ d d', outcome level x = .ok d ∧ outcome level y = .ok d' ∧ MatchDens S d d' := by
  rcases hx with ⟨w, e, rfl, rfl⟩ | ⟨w, d, d', rfl, rfl, hd⟩
  · exact .inl ⟨e, rfl, rfl⟩
  · cases w with
    | nil => exact .inr ⟨d, d', rfl, rfl, hd⟩
    | cons v w =>
      cases level with
      | none => exact .inl ⟨_, rfl, rfl⟩
      | some m =>
        by_cases hm : m ≤ 2
        · exact .inl ⟨.interpreterWarning v.pos v.rule, by simp [outcome, hm], by simp [outcome, hm]⟩
        · exact .inr ⟨d, d', by simp [outcome, hm], by simp [outcome, hm], hd⟩

/-- **C170**: for two tables whose values are matched, and each literal of the policy with itself, `evaluate` gives the same truth value
or the same exception, with the same warnings. -/
theorem matched_results {U : Uni} (hU : U.Lawful) {E F : SymEnv} (hE : SymEnv.SetsOk E) (hF : SymEnv.SetsOk F) {text : Str} {p : Policy}
    (hp : PolicyOf U text p) (ha : ∀ t ∈ p.atts, MatchAtts S (attsOf U E) (attsOf U F) t)
    (hc : ∀ t ∈ p.tokens, AtomTok false t → ∀ c, constOf t = some c → S (.atom c) (.atom c)) (level : Option Int) (k : Nat) :
    ∃ s r s' r', evaluateText U E level k text = .ok (s, r) ∧ evaluateText U F level k text = .ok (s', r') ∧ s.warnings = s'.warnings ∧
      (∀ e, r = .error e ↔ r' = .error e) ∧ ∀ v, r = .ok (.tri v) ↔ r' = .ok (.tri v) := by
  have hw : p.WF := by
    obtain ⟨ts, e, -, h2⟩ := hp
    exact dpolicy_wf h2
  have hm := match_policy h (U := U) p hw ha hc
  obtain ⟨s, r, e1, e2, e3⟩ := (evaluate_refines U hU E hE level k text).2 p hp
  obtain ⟨s', r', f1, f2, f3⟩ := (evaluate_refines U hU F hF level k text).2 p hp
  refine ⟨s, r, s', r', e1, f1, ?_, ?_⟩
  · rw [e2, f2]
    rcases hm with ⟨w, e, g1, g2⟩ | ⟨w, d, d', g1, g2, -⟩
    · rw [g1, g2]
    · rw [g1, g2]
  · rcases match_outcome hm level with ⟨e, g1, g2⟩ | ⟨d, d', g1, g2, hd⟩
    · rw [g1] at e3
      rw [g2] at f3
      cases r with
      | ok x => cases e3
      | error x =>
        cases r' with
        | ok x => cases f3
        | error y =>
          cases e3
          cases f3
          exact ⟨fun _ => Iff.rfl, fun v => ⟨nofun, nofun⟩⟩
    · rw [g1] at e3
      rw [g2] at f3
      cases r with
      | error x => cases e3
      | ok x =>
        cases r' with
        | error x => cases f3
        | ok y =>
          have e3 : resultDen E x = some d := Except.ok.inj e3
          have f3 : resultDen F y = some d' := Except.ok.inj f3
          have hdd : ∀ v, d = .truth v ↔ d' = .truth v := fun v => by cases hd <;> simp
          refine ⟨fun e => ⟨nofun, nofun⟩, fun v => ⟨fun g => ?_, fun g => ?_⟩⟩
          · cases g
            have : d' = .truth v := (hdd v).mp (Option.some.inj e3).symm
            rw [resultDen_tri (f3.trans (congrArg some this))]
          · cases g
            have : d = .truth v := (hdd v).mpr (Option.some.inj f3).symm
            rw [resultDen_tri (e3.trans (congrArg some this))]

/-- **C170**: so they decide the same, at every level. -/
theorem matched_gives {U : Uni} (hU : U.Lawful) {E F : SymEnv} (hE : SymEnv.SetsOk E) (hF : SymEnv.SetsOk F) {text : Str} {p : Policy}
    (hp : PolicyOf U text p) (ha : ∀ t ∈ p.atts, MatchAtts S (attsOf U E) (attsOf U F) t)
    (hc : ∀ t ∈ p.tokens, AtomTok false t → ∀ c, constOf t = some c → S (.atom c) (.atom c)) (level : Option Int) (v : Tri) :
    Gives U E level text v ↔ Gives U F level text v := by
  constructor
  · rintro ⟨k, s, g⟩
    obtain ⟨s1, r, s2, r', e1, e2, -, -, e3⟩ := matched_results h hU hE hF hp ha hc level k
    rw [g] at e1
    cases e1
    exact ⟨k, s2, (e3 v).mp rfl ▸ e2⟩
  · rintro ⟨k, s, g⟩
    obtain ⟨s1, r, s2, r', e1, e2, -, -, e3⟩ := matched_results h hU hE hF hp ha hc level k
    rw [g] at e2
    cases e2
    exact ⟨k, s1, (e3 v).mpr rfl ▸ e1⟩

end

/-! ### Policies without literals -/

/-- A whole number. -/
def wholeScalar (i : Int) : Scalar := .atom (.int i)

/-- Whole numbers are matched with their images. -/
def ImageOf (g : Int → Int) (x x' : Scalar) : Prop := ∃ i, x = wholeScalar i ∧ x' = wholeScalar (g i)

theorem image_matching {g : Int → Int} (hg : ∀ i j, i < j → g i < g j) : Matching (ImageOf g) where
  sort := by
    rintro x x' ⟨i, rfl, rfl⟩
    rfl
  eq := by
    rintro x x' y y' ⟨i, rfl, rfl⟩ ⟨j, rfl, rfl⟩
    simp only [wholeScalar, Scalar.pyEq, Scalar.num]
    refine decide_eq_decide.mpr ?_
    simp only [PyFloat.fin.injEq, Int.cast_inj]
    refine ⟨fun e => by rw [e], fun e => ?_⟩
    rcases Int.lt_trichotomy i j with hl | hl | hl
    · have := hg _ _ hl; omega
    · exact hl
    · have := hg _ _ hl; omega
  lt := by
    rintro x x' y y' ⟨i, rfl, rfl⟩ ⟨j, rfl, rfl⟩ m n m' n' e1 e2 e3 e4
    cases e1
    cases e2
    cases e3
    cases e4
    show ((i : ℚ) < j) ↔ ((g i : ℚ) < g j)
    simp only [Int.cast_lt]
    refine ⟨hg _ _, fun e => ?_⟩
    rcases Int.lt_trichotomy i j with hl | hl | hl
    · exact hl
    · rw [hl] at e; omega
    · have := hg _ _ hl; omega

/-- **C170**: a policy without literals on whole numbers decides the same after any strictly increasing change of all the numbers, such
as adding the same number to each. -/
theorem scale_free {U : Uni} (hU : U.Lawful) {g : Int → Int} (hg : ∀ i j, i < j → g i < g j) {E F : SymEnv} (hE : SymEnv.SetsOk E)
    (hF : SymEnv.SetsOk F) {text : Str} {p : Policy} (hp : PolicyOf U text p) (hn : ∀ t ∈ p.tokens, ¬ AtomTok false t)
    (ha : ∀ t ∈ p.atts, ∃ i, attsOf U E t.type (attName t) = some (.int, .sc (wholeScalar i)) ∧
      attsOf U F t.type (attName t) = some (.int, .sc (wholeScalar (g i)))) (level : Option Int) (v : Tri) :
    Gives U E level text v ↔ Gives U F level text v := by
  refine matched_gives (image_matching hg) hU hE hF hp (fun t ht => ?_) (fun t ht hat => absurd hat (hn t ht)) level v
  obtain ⟨i, h1, h2⟩ := ha t ht
  exact .inr ⟨_, _, _, h1, h2, .sc ⟨i, rfl, rfl⟩⟩

/-- Texts are matched with their images, and constants that are not texts with themselves. -/
def Renamed (g : Str → Str) (x x' : Scalar) : Prop := (∃ s, x = textual s ∧ x' = textual (g s)) ∨
  ∃ c, (∀ s, c ≠ .str s) ∧ x = .atom c ∧ x' = .atom c

theorem renamed_matching {g : Str → Str} (hg : ∀ s t, g s = g t → s = t) : Matching (Renamed g) where
  sort := by
    rintro x x' (⟨s, rfl, rfl⟩ | ⟨c, hc, rfl, rfl⟩) <;> rfl
  eq := by
    rintro x x' y y' (⟨s, rfl, rfl⟩ | ⟨c, hc, rfl, rfl⟩) (⟨t, rfl, rfl⟩ | ⟨d, hd, rfl, rfl⟩)
    · rw [textual_eq, textual_eq]
      exact decide_eq_decide.mpr ⟨fun e => by rw [e], hg _ _⟩
    · rw [(atom_textual d s).2, (atom_textual d (g s)).2]
      exact decide_eq_decide.mpr ⟨fun e => absurd e (hd _), fun e => absurd e (hd _)⟩
    · rw [(atom_textual c t).1, (atom_textual c (g t)).1]
      exact decide_eq_decide.mpr ⟨fun e => absurd e (hc _), fun e => absurd e (hc _)⟩
    · rfl
  lt := by
    rintro x x' y y' (⟨s, rfl, rfl⟩ | ⟨c, hc, rfl, rfl⟩) (⟨t, rfl, rfl⟩ | ⟨d, hd, rfl, rfl⟩) m n m' n' e1 e2 e3 e4
    · cases e1
    · cases e1
    · cases e2
    · rw [e1] at e3
      rw [e2] at e4
      cases e3
      cases e4
      exact Iff.rfl

/-- **C170**: a policy without text literals on texts and sets of texts decides the same after any change of the texts under which
different texts stay different. -/
theorem names_free {U : Uni} (hU : U.Lawful) {g : Str → Str} (hg : ∀ s t, g s = g t → s = t) {E F : SymEnv} (hE : SymEnv.SetsOk E)
    (hF : SymEnv.SetsOk F) {text : Str} {p : Policy} (hp : PolicyOf U text p)
    (hn : ∀ t ∈ p.tokens, AtomTok false t → ∀ s, constOf t ≠ some (.str s))
    (ha : ∀ t ∈ p.atts, (∃ s : Str, attsOf U E t.type (attName t) = some (.string, .sc (.atom (.str s))) ∧
        attsOf U F t.type (attName t) = some (.string, .sc (.atom (.str (g s))))) ∨
      ∃ l : List Str, attsOf U E t.type (attName t) = some (.set, .set (l.map fun s => .atom (.str s))) ∧
        attsOf U F t.type (attName t) = some (.set, .set (l.map fun s => .atom (.str (g s))))) (level : Option Int) (v : Tri) :
    Gives U E level text v ↔ Gives U F level text v := by
  refine matched_gives (renamed_matching hg) hU hE hF hp (fun t ht => ?_)
    (fun t ht hat c hco => .inr ⟨c, fun s hs => hn t ht hat s (hs ▸ hco), rfl, rfl⟩) level v
  rcases ha t ht with ⟨s, h1, h2⟩ | ⟨l, h1, h2⟩
  · exact .inr ⟨_, _, _, h1, h2, .sc (.inl ⟨s, rfl, rfl⟩)⟩
  · refine .inr ⟨_, _, _, h1, h2, .set ⟨fun x hx => ?_, fun x hx => ?_⟩⟩
    · obtain ⟨s, hs, rfl⟩ := List.mem_map.mp hx
      exact ⟨_, List.mem_map.mpr ⟨s, hs, rfl⟩, .inl ⟨s, rfl, rfl⟩⟩
    · obtain ⟨s, hs, rfl⟩ := List.mem_map.mp hx
      exact ⟨_, List.mem_map.mpr ⟨s, hs, rfl⟩, .inl ⟨s, rfl, rfl⟩⟩

/-! ### Concrete cases -/

/-- `user.a < user.b` -/
def lessPolicy : Policy := .cmp (.att (typedAtt 0 "a")) (typedOp 7 "<") (.att (typedAtt 9 "b"))

theorem lessPolicy_of : PolicyOf asciiUni "user.a < user.b".toList lessPolicy := by
  have h : lexTokens asciiUni "user.a < user.b".toList = .ok (⟨.start, 0, .none⟩ :: (([typedAtt 0 "a"] ++ typedOp 7 "<" ::
      [typedAtt 9 "b"]) ++ [⟨.«end», 15, .none⟩])) := by decide +kernel
  obtain ⟨ts, h1, h2⟩ := (lexer_refines_grammar asciiUni asciiUni_lawful _ _).1 h
  simp only [List.cons.injEq, true_and] at h1
  subst h1
  exact ⟨_, _, h2, .term (.exp (.cmp (.att (by decide)) rfl (.att (by decide))))⟩

/-- A table with two numbers. -/
def lessEnv (a b : Int) : SymEnv :=
  ⟨⟨[("user.a".toList, 0), ("user.b".toList, 1)]⟩, fun
    | 0 => ⟨.int, .usrAtt, .sc (.atom (.int a)), [], []⟩
    | _ => ⟨.int, .usrAtt, .sc (.atom (.int b)), [], []⟩⟩

theorem lessEnv_sets (a b : Int) : SymEnv.SetsOk (lessEnv a b) := by
  intro r l h
  unfold lessEnv at h
  dsimp only at h
  split at h <;> cases h

/-- Adding a number to both changes nothing. -/
example (a b c : Int) (level : Option Int) (v : Tri) :
    Gives asciiUni (lessEnv a b) level "user.a < user.b".toList v ↔ Gives asciiUni (lessEnv (a + c) (b + c)) level "user.a < user.b".toList v := by
  refine scale_free asciiUni_lawful (g := fun i => i + c) (fun i j hij => Int.add_lt_add_right hij c) (lessEnv_sets _ _) (lessEnv_sets _ _)
    lessPolicy_of ?_ ?_ level v
  · unfold AtomTok
    decide
  · intro t ht
    simp only [lessPolicy, Policy.atts, Operand.atts, List.cons_append, List.nil_append, List.mem_cons, List.not_mem_nil, or_false] at ht
    rcases ht with rfl | rfl
    · exact ⟨a, rfl, rfl⟩
    · exact ⟨b, rfl, rfl⟩

/-- 5 matched with 1000, and 1 and TRUE with themselves. -/
def fiveMatched (x x' : Scalar) : Prop := (x = wholeScalar 5 ∧ x' = wholeScalar 1000) ∨ (x = wholeScalar 1 ∧ x' = wholeScalar 1) ∨
  (x = .tri .true ∧ x' = .tri .true)

theorem fiveMatched_matching : Matching fiveMatched where
  sort := by rintro x x' (⟨rfl, rfl⟩ | ⟨rfl, rfl⟩ | ⟨rfl, rfl⟩) <;> rfl
  eq := by rintro x x' y y' (⟨rfl, rfl⟩ | ⟨rfl, rfl⟩ | ⟨rfl, rfl⟩) (⟨rfl, rfl⟩ | ⟨rfl, rfl⟩ | ⟨rfl, rfl⟩) <;> decide +kernel
  lt := by
    rintro x x' y y' (⟨rfl, rfl⟩ | ⟨rfl, rfl⟩ | ⟨rfl, rfl⟩) (⟨rfl, rfl⟩ | ⟨rfl, rfl⟩ | ⟨rfl, rfl⟩) m n m' n' e1 e2 e3 e4 <;>
    cases e1 <;> cases e2 <;> cases e3 <;> cases e4 <;> decide +kernel

/-- `user.a >= 1 AND NOT user.b` does not tell 5 from 1000. -/
example (level : Option Int) (v : Tri) : Gives asciiUni (polarEnv 5 .true) level "user.a >= 1 AND NOT user.b".toList v ↔
    Gives asciiUni (polarEnv 1000 .true) level "user.a >= 1 AND NOT user.b".toList v := by
  refine matched_gives fiveMatched_matching asciiUni_lawful (polarEnv_sets _ _) (polarEnv_sets _ _) polarPolicy_of ?_ ?_ level v
  · intro t ht
    simp only [polarPolicy, Policy.atts, Operand.atts, List.cons_append, List.nil_append, List.append_nil, List.mem_cons, List.not_mem_nil, or_false] at ht
    rcases ht with rfl | rfl
    · exact .inr ⟨_, _, _, rfl, rfl, .sc (.inl ⟨rfl, rfl⟩)⟩
    · exact .inr ⟨_, _, _, rfl, rfl, .sc (.inr (.inr ⟨rfl, rfl⟩))⟩
  · intro t ht hat c hco
    simp only [polarPolicy, Policy.tokens, Operand.tokens, List.cons_append, List.nil_append, List.mem_cons, List.not_mem_nil, or_false] at ht
    rcases ht with rfl | rfl | rfl | rfl | rfl | rfl
    · exact absurd hat (by unfold AtomTok; decide)
    · exact absurd hat (by unfold AtomTok; decide)
    · cases hco
      exact .inr (.inl ⟨rfl, rfl⟩)
    · exact absurd hat (by unfold AtomTok; decide)
    · exact absurd hat (by unfold AtomTok; decide)
    · exact absurd hat (by unfold AtomTok; decide)

/-- `user.a IN user.b` -/
def inPolicy : Policy := .cmp (.att (typedAtt 0 "a")) (typedOp 7 "IN") (.att (typedAtt 10 "b"))

theorem inPolicy_of : PolicyOf asciiUni "user.a IN user.b".toList inPolicy := by
  have h : lexTokens asciiUni "user.a IN user.b".toList = .ok (⟨.start, 0, .none⟩ :: (([typedAtt 0 "a"] ++ typedOp 7 "IN" ::
      [typedAtt 10 "b"]) ++ [⟨.«end», 16, .none⟩])) := by decide +kernel
  obtain ⟨ts, h1, h2⟩ := (lexer_refines_grammar asciiUni asciiUni_lawful _ _).1 h
  simp only [List.cons.injEq, true_and] at h1
  subst h1
  exact ⟨_, _, h2, .term (.exp (.cmp (.att (by decide)) rfl (.att (by decide))))⟩

/-- A table with a text and a set of texts. -/
def inEnv (s : Str) (l : List Str) : SymEnv :=
  ⟨⟨[("user.a".toList, 0), ("user.b".toList, 1)]⟩, fun
    | 0 => ⟨.string, .usrAtt, .sc (.atom (.str s)), [], []⟩
    | _ => ⟨.set, .usrAtt, .set (l.map fun s => .atom (.str s)), [], []⟩⟩

theorem inEnv_sets (s : Str) (l : List Str) : SymEnv.SetsOk (inEnv s l) := by
  intro r k h
  unfold inEnv at h
  dsimp only at h
  split at h
  · cases h
  · cases h
    simp [Scalar.hashable]

/-- Putting an x in front of all texts changes nothing. -/
example (s : Str) (l : List Str) (level : Option Int) (v : Tri) : Gives asciiUni (inEnv s l) level "user.a IN user.b".toList v ↔
    Gives asciiUni (inEnv ('x' :: s) (l.map ('x' :: ·))) level "user.a IN user.b".toList v := by
  refine names_free asciiUni_lawful (g := ('x' :: ·)) (fun s t h => (List.cons.inj h).2) (inEnv_sets _ _) (inEnv_sets _ _) inPolicy_of ?_ ?_ level v
  · intro t ht hat
    exact absurd hat (by revert t; unfold AtomTok; decide)
  · intro t ht
    simp only [inPolicy, Policy.atts, Operand.atts, List.cons_append, List.nil_append, List.mem_cons, List.not_mem_nil, or_false] at ht
    rcases ht with rfl | rfl
    · exact .inl ⟨s, rfl, rfl⟩
    · refine .inr ⟨l, rfl, ?_⟩
      show some (SymType.set, PyVal.set ((l.map ('x' :: ·)).map fun s => .atom (.str s))) = _
      rw [List.map_map]
      rfl

end Verif.Props
