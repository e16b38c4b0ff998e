import Verif.Props.Polarity
import Verif.Props.Expressive

/-!
# Large numbers and other texts (C164, C165)

As a number grows, the decision changes only finitely often: policies are thresholds and exceptions, and cannot, for example, tell even
numbers from odd ones. For an attribute that holds a text, all texts but finitely many give the same: policies cannot look into a text.
-/

namespace Verif.Props

open Verif.Spec Proofs

/-- Ways for an index to be late; of two there is a common one. -/
structure Late (ι : Type) where
  {κ : Type}
  is : κ → ι → Prop
  any : κ
  meet : κ → κ → κ
  both : ∀ {m n a}, is (meet m n) a → is m a ∧ is n a

/-- Large numbers, or small ones. -/
def lateInt (s : Bool) : Late Int where
  is N a := N ≤ if s then a else -a
  any := (0 : Int)
  meet := max
  both h := ⟨le_trans (le_max_left _ _) h, le_trans (le_max_right _ _) h⟩

/-- All but finitely many texts. -/
def lateText : Late Str where
  is l a := a ∉ l
  any := ([] : List Str)
  meet := (· ++ ·)
  both h := by simpa using h

/-- The function is constant for late indices. -/
def Settles {ι α : Type} (L : Late ι) (f : ι → α) : Prop := ∃ N, ∀ a b, L.is N a → L.is N b → f a = f b

section
variable {ι : Type} {L : Late ι}

theorem settles_const {α : Type} (c : α) : Settles L fun _ => c := ⟨L.any, fun _ _ _ _ => rfl⟩

theorem Settles.map {α β : Type} {f : ι → α} (h : Settles L f) (g : α → β) : Settles L fun a => g (f a) := by
  obtain ⟨N, h⟩ := h
  exact ⟨N, fun a b ha hb => congrArg g (h a b ha hb)⟩

theorem Settles.map₂ {α β γ : Type} {f : ι → α} {g : ι → β} (h : Settles L f) (h' : Settles L g) (k : α → β → γ) :
    Settles L fun a => k (f a) (g a) := by
  obtain ⟨N, h⟩ := h
  obtain ⟨M, h'⟩ := h'
  exact ⟨L.meet N M, fun a b ha hb => congrArg₂ k (h a b (L.both ha).1 (L.both hb).1) (h' a b (L.both ha).2 (L.both hb).2)⟩

theorem settles_any {α : Type} (l : List α) {P : ι → α → Bool} (h : ∀ y ∈ l, Settles L fun a => P a y) :
    Settles L fun a => l.any (P a) := by
  induction l with
  | nil => exact settles_const false
  | cons x l ih =>
    simp only [List.any_cons]
    exact (h x List.mem_cons_self).map₂ (ih fun y hy => h y (List.mem_cons_of_mem _ hy)) or

theorem settles_all {α : Type} (l : List α) {P : ι → α → Bool} (h : ∀ y ∈ l, Settles L fun a => P a y) :
    Settles L fun a => l.all (P a) := by
  induction l with
  | nil => exact settles_const true
  | cons x l ih =>
    simp only [List.all_cons]
    exact (h x List.mem_cons_self).map₂ (ih fun y hy => h y (List.mem_cons_of_mem _ hy)) and

/-- A value that depends on an index behaves, beside the given other ones, in the same way for late indices. -/
structure Smooth (L : Late ι) (x : ι → Scalar) (Y : Scalar → Prop) : Prop where
  eq : ∀ y, Y y → Settles L (fun a => (x a).pyEq y) ∧ Settles L fun a => y.pyEq (x a)
  kind : ∀ y, Y y → Settles L (fun a => sameKindEq (x a) y) ∧ Settles L fun a => sameKindEq y (x a)
  self : ∀ a, (x a).pyEq (x a) = true
  lt : ∀ y q, Y y → y.num = some q → Settles L (fun a => (x a).num.map fun n => decide (numLt n q)) ∧
    Settles L fun a => (x a).num.map fun n => decide (numLt q n)
  lt_self : Settles L fun a => (x a).num.map fun n => decide (numLt n n)

variable {x : ι → Scalar} {Y : Scalar → Prop}

/-- All values in a denotation are given ones. -/
def Within (Y : Scalar → Prop) : Den → Prop
  | .const c => Y (.atom c)
  | .lit m => ∀ y ∈ atoms m, Y y
  | .single y => Y y
  | .many m => ∀ y ∈ m, Y y
  | _ => True

/-! ### Comparisons with collections -/

theorem included_one (x : Scalar) (m : List Scalar) : included [x] m = m.any (x.pyEq ·) := by
  rw [Bool.eq_iff_iff]
  simp [included]

theorem included_of_one (x : Scalar) (m : List Scalar) : included m [x] = m.all (·.pyEq x) := by
  rw [Bool.eq_iff_iff]
  simp [included]

theorem overlap_one (x : Scalar) (m : List Scalar) : overlap [x] m = m.any (x.pyEq ·) := by
  rw [Bool.eq_iff_iff]
  simp [overlap]

theorem same_one (x : Scalar) (m : List Scalar) : sameElems [x] m = (m.any (x.pyEq ·) && m.all (·.pyEq x)) := by
  rw [Bool.eq_iff_iff]
  simp [sameElems]

theorem same_of_one (x : Scalar) (m : List Scalar) : sameElems m [x] = (m.all (·.pyEq x) && m.any (x.pyEq ·)) := by
  rw [Bool.eq_iff_iff]
  simp [sameElems]

theorem settles_mem (hx : Smooth L x Y) {m : List Scalar} (hm : ∀ y ∈ m, Y y) : Settles L fun a => m.any ((x a).pyEq ·) :=
  settles_any m fun y hy => (hx.eq y (hm y hy)).1

theorem settles_each (hx : Smooth L x Y) {m : List Scalar} (hm : ∀ y ∈ m, Y y) : Settles L fun a => m.all (·.pyEq (x a)) :=
  settles_all m (P := fun a y => y.pyEq (x a)) fun y hy => (hx.eq y (hm y hy)).2

theorem Settles.answer {f : ι → Bool} (h : Settles L f) : Settles L fun a => (Except.ok (some (f a)) : Answer) :=
  h.map fun b => (Except.ok (some b) : Answer)

/-- The operator settles with the number on the left, on the right, and on both sides. -/
def OpSettles (L : Late ι) (x : ι → Scalar) (Y : Scalar → Prop) (f : Den → Den → Answer) : Prop :=
  (∀ b, Within Y b → Settles L fun a => f (.single (x a)) b) ∧ (∀ b, Within Y b → Settles L fun a => f b (.single (x a))) ∧
  Settles L fun a => f (.single (x a)) (.single (x a))

theorem one_within {y : Scalar} (h : Y y) : ∀ z ∈ [y], Y z := fun z hz => by
  rw [List.mem_singleton.mp hz]
  exact h

theorem eq_settles (hx : Smooth L x Y) : OpSettles L x Y semEq := by
  refine ⟨fun b hb => ?_, fun b hb => ?_, ?_⟩
  · cases b with
    | const c => exact (hx.kind (.atom c) hb).1.map (Except.ok : _ → Answer)
    | single y => exact (hx.eq y hb).1.answer
    | many m =>
      simp only [semEq, same_one]
      exact ((settles_mem hx hb).map₂ (settles_each hx hb) and).answer
    | _ => exact settles_const _
  · cases b with
    | const c => exact (hx.kind (.atom c) hb).2.map (Except.ok : _ → Answer)
    | single y => exact (hx.eq y hb).2.answer
    | many m =>
      simp only [semEq, same_of_one]
      exact ((settles_each hx hb).map₂ (settles_mem hx hb) and).answer
    | _ => exact settles_const _
  · simp only [semEq, hx.self]
    exact settles_const _

theorem semOrd_eq (f : PyFloat → PyFloat → Bool) (a b : Den) : semOrd f a b = .ok (a.number.bind fun m => b.number.map (f m)) := by
  unfold semOrd
  rcases a.number with _ | m <;> rcases b.number with _ | n <;> rfl

theorem number_within {b : Den} (h : Within Y b) {q : PyFloat} (hq : b.number = some q) : ∃ y, Y y ∧ y.num = some q := by
  cases b with
  | const c => exact ⟨_, h, hq⟩
  | single y => exact ⟨_, h, hq⟩
  | _ => cases hq

theorem ord_settles {f : PyFloat → PyFloat → Bool} (h1 : ∀ y q, Y y → y.num = some q → Settles L fun a => (x a).num.map (f · q))
    (h2 : ∀ y q, Y y → y.num = some q → Settles L fun a => (x a).num.map (f q ·)) (h3 : Settles L fun a => (x a).num.map fun n => f n n) :
    OpSettles L x Y (semOrd f) := by
  have hn : ∀ a, (Den.single (x a)).number = (x a).num := fun _ => rfl
  have h0 : ∀ {g : ι → Option Bool}, Settles L g → Settles L fun a => (Except.ok (g a) : Answer) := fun h => h.map _
  refine ⟨fun b hb => ?_, fun b hb => ?_, ?_⟩ <;> simp only [semOrd_eq, hn] <;> refine h0 ?_
  · cases hn : b.number with
    | none =>
      have h : ∀ o : Option PyFloat, (o.bind fun m => (none : Option PyFloat).map (f m)) = none := fun o => by cases o <;> rfl
      simp only [h]
      exact settles_const _
    | some q =>
      have h : ∀ o : Option PyFloat, (o.bind fun m => (some q).map (f m)) = o.map (f · q) := fun o => by cases o <;> rfl
      simp only [h]
      obtain ⟨y, hy, hq⟩ := number_within hb hn
      exact h1 y q hy hq
  · cases hn : b.number with
    | none => exact settles_const _
    | some q =>
      obtain ⟨y, hy, hq⟩ := number_within hb hn
      exact h2 y q hy hq
  · have h : ∀ o : Option PyFloat, (o.bind fun m => o.map (f m)) = o.map fun n => f n n := fun o => by cases o <;> rfl
    simp only [h]
    exact h3

theorem in_settles (hx : Smooth L x Y) : OpSettles L x Y semIn := by
  refine ⟨fun b hb => ?_, fun b hb => ?_, ?_⟩
  · cases b with
    | lit m =>
      simp only [semIn, included_one]
      exact (settles_mem hx hb).answer
    | many m =>
      simp only [semIn, included_one]
      exact (settles_mem hx hb).answer
    | single y => exact (hx.eq y hb).1.answer
    | _ => exact settles_const _
  · cases b with
    | lit m =>
      simp only [semIn, overlap_one]
      exact (settles_mem hx hb).answer
    | many m =>
      simp only [semIn, overlap_one]
      exact (settles_mem hx hb).answer
    | single y => exact (hx.eq y hb).2.answer
    | _ => exact settles_const _
  · simp only [semIn, hx.self]
    exact settles_const _

theorem subset_settles (hx : Smooth L x Y) : OpSettles L x Y semSubset := by
  refine ⟨fun b hb => ?_, fun b hb => ?_, ?_⟩
  · cases b with
    | lit m =>
      by_cases hm : Atom.null ∈ m
      · simp only [semSubset, Den.unsettable, hm, decide_true, Bool.or_true, if_true]
        exact settles_const _
      · simp only [semSubset, Den.unsettable, hm, Den.asSet, included_one]
        exact (settles_mem hx hb).answer
    | many m =>
      simp only [semSubset, Den.unsettable, Den.asSet, included_one]
      exact (settles_mem hx hb).answer
    | single y =>
      simp only [semSubset, Den.unsettable, Den.asSet, included_one]
      exact (settles_mem hx (one_within hb)).answer
    | _ => exact settles_const _
  · cases b with
    | lit m =>
      by_cases hm : Atom.null ∈ m
      · simp only [semSubset, Den.unsettable, hm, decide_true, Bool.true_or, if_true]
        exact settles_const _
      · simp only [semSubset, Den.unsettable, hm, Den.asSet, included_of_one]
        exact (settles_each hx hb).answer
    | many m =>
      simp only [semSubset, Den.unsettable, Den.asSet, included_of_one]
      exact (settles_each hx hb).answer
    | single y =>
      simp only [semSubset, Den.unsettable, Den.asSet, included_of_one]
      exact (settles_each hx (one_within hb)).answer
    | _ => exact settles_const _
  · simp only [semSubset, Den.unsettable, Den.asSet, included_one, List.any_cons, hx.self, Bool.true_or]
    exact settles_const _

theorem map_not {f : ι → Option PyFloat} {g : PyFloat → Bool} (h : Settles L fun a => (f a).map g) : Settles L fun a => (f a).map fun n => !g n := by
  have : (fun a => (f a).map fun n => !g n) = fun a => ((f a).map g).map (! ·) := by
    funext a
    cases f a <;> rfl
  rw [this]
  exact h.map _

theorem operator_settles (hx : Smooth L x Y) {e : String × String × (Den → Den → Answer)} (he : e ∈ operators) : OpSettles L x Y e.2.2 := by
  have h0 := eq_settles hx
  rcases (op_mem e).mp he with rfl | rfl | rfl | rfl | rfl | rfl | rfl | rfl
  · exact h0
  · exact ⟨fun b hb => (h0.1 b hb).map Answer.neg, fun b hb => (h0.2.1 b hb).map Answer.neg, h0.2.2.map Answer.neg⟩
  · exact ord_settles (fun y q hy hq => (hx.lt y q hy hq).1) (fun y q hy hq => (hx.lt y q hy hq).2) hx.lt_self
  · exact ord_settles (fun y q hy hq => (hx.lt y q hy hq).2) (fun y q hy hq => (hx.lt y q hy hq).1) hx.lt_self
  · simp only [decide_not]
    exact ord_settles (fun y q hy hq => map_not (hx.lt y q hy hq).2) (fun y q hy hq => map_not (hx.lt y q hy hq).1) (map_not hx.lt_self)
  · simp only [decide_not]
    exact ord_settles (fun y q hy hq => map_not (hx.lt y q hy hq).1) (fun y q hy hq => map_not (hx.lt y q hy hq).2) (map_not hx.lt_self)
  · exact in_settles hx
  · exact subset_settles hx

/-! ### Policies -/

theorem semCmp_settles (hx : Smooth L x Y) (o : Token) : (∀ b, Within Y b → Settles L fun a => semCmp o (.single (x a)) b) ∧
    (∀ b, Within Y b → Settles L fun a => semCmp o b (.single (x a))) ∧ Settles L fun a => semCmp o (.single (x a)) (.single (x a)) := by
  have hne : ∀ a, Den.single (x a) ≠ .truth .undef := fun _ h => by cases h
  unfold semCmp
  cases hf : operators.find? (fun e => o.value = .str e.1.toList) with
  | none =>
    refine ⟨fun b hw => ?_, fun b hw => ?_, ?_⟩ <;> simp only [hne, false_or, or_false] <;> exact settles_const _
  | some e =>
    obtain ⟨h1, h2, h3⟩ := operator_settles hx (List.mem_of_find?_eq_some hf)
    refine ⟨fun b hw => ?_, fun b hw => ?_, ?_⟩
    · simp only [hne, false_or]
      by_cases hb : b = .truth .undef
      · simp only [hb, if_true]
        exact settles_const _
      · simp only [hb, if_false]
        exact (h1 b hw).map (answerOut e.2.1)
    · simp only [hne, or_false]
      by_cases hb : b = .truth .undef
      · simp only [hb, if_true]
        exact settles_const _
      · simp only [hb, if_false]
        exact (h2 b hw).map (answerOut e.2.1)
    · simp only [hne, or_false, if_false]
      exact h3.map (answerOut e.2.1)

/-- What can be seen of a result: the truth value, or that it is none. -/
def seen : Except PyExc Den → Except PyExc (Option Tri)
  | .error e => .error e
  | .ok (.truth v) => .ok (some v)
  | .ok _ => .ok none

theorem bind_result {α β : Type} (x : Eff α) (f : α → Eff β) : (x.bind f).2 = match x.2 with | .error e => .error e | .ok y => (f y).2 := by
  rcases x with ⟨w, _ | y⟩ <;> rfl

/-- NOT, on what can be seen. -/
def seenNot (n : Token) : Except PyExc (Option Tri) → Except PyExc (Option Tri)
  | .error e => .error e
  | .ok (some v) => .ok (some (kleeneNot v))
  | .ok none => .error (.interpreterError n.pos "evaluate_not_node")

/-- AND and OR, on what can be seen. -/
def seenBin (o : Token) : Except PyExc (Option Tri) → Except PyExc (Option Tri) → Except PyExc (Option Tri)
  | .error e, _ => .error e
  | .ok _, .error e => .error e
  | .ok (some v), .ok (some w) => .ok (some (kleene o v w))
  | .ok _, .ok _ => .error (.interpreterError o.pos "evaluate_bool_op_node")

theorem sem_not_seen (U : Uni) (A : Atts) (n : Token) (p : Policy) : seen (sem U A (.not n p)).2 = seenNot n (seen (sem U A p).2) := by
  show seen ((sem U A p).bind _).2 = _
  rw [bind_result]
  rcases (sem U A p).2 with e | (_ | _ | _ | _ | _ | _) <;> rfl

theorem sem_bin_seen (U : Uni) (A : Atts) (o : Token) (p q : Policy) :
    seen (sem U A (.bin o p q)).2 = seenBin o (seen (sem U A p).2) (seen (sem U A q).2) := by
  show seen ((sem U A p).bind fun _ => (sem U A q).bind _).2 = _
  simp only [bind_result]
  rcases (sem U A p).2 with e | (_ | _ | _ | _ | _ | _) <;> rcases (sem U A q).2 with e | (_ | _ | _ | _ | _ | _) <;> rfl

section
variable {U : Uni} {A : ι → Atts} {key : Str} {ty : SymType} (hd : ∀ a b, DifferOnly U key (A a) (A b))
  (hv : ∀ a t, attKey U t = key → A a t.type (attName t) = some (ty, .sc (x a)))
include hd hv

/-- An operand is the number or does not depend on it. -/
theorem operand_cases (hfit : ∀ a, fits ty (.sc (x a)) = true ∧ x a ≠ .none ∧ valueDen (.sc (x a)) = .single (x a)) (z : Operand) :
    (∀ a, (semOperand (A a) z).2 = .ok (.single (x a))) ∨ ∀ a b, semOperand (A a) z = semOperand (A b) z := by
  by_cases h : ∀ t ∈ z.atts, attKey U t ≠ key
  · exact .inr fun a b => operand_same (hd a b) h
  · refine .inl fun a => ?_
    cases z with
    | att t =>
      have ht : attKey U t = key := by
        by_contra hne
        exact h fun u hu => by rw [List.mem_singleton.mp hu]; exact hne
      show (semAtt (A a) t).2 = _
      unfold semAtt
      rw [hv a t ht]
      obtain ⟨h1, h2, h3⟩ := hfit a
      revert h1 h2 h3
      cases x a with
      | none => exact fun _ h => absurd rfl h
      | _ => intro h1 _ h3; simp only [h1, h3, if_true]
    | _ => exact absurd (fun t ht => by cases ht) h

theorem sem_settles (hx : Smooth L x Y)
    (hfit : ∀ a, fits ty (.sc (x a)) = true ∧ x a ≠ .none ∧ valueDen (.sc (x a)) = .single (x a)) (a₀ : ι)
    {G : Operand → Prop} (hG : ∀ z, G z → (∀ a b, semOperand (A a) z = semOperand (A b) z) → ∀ d, (semOperand (A a₀) z).2 = .ok d → Within Y d)
    (p : Policy) (hp : ∀ c ∈ p.cmps, G c.l ∧ G c.r) :
    Settles L fun a => seen (sem U (A a) p).2 := by
  induction p with
  | cmp l o r =>
    show Settles L fun a => seen ((semOperand (A a) l).bind fun x => (semOperand (A a) r).bind fun y => semCmp o x y).2
    obtain ⟨h1, h2, h3⟩ := semCmp_settles hx o
    obtain ⟨gl, gr⟩ := hp ⟨l, o, r⟩ (List.mem_singleton.mpr rfl)
    rcases operand_cases hd hv hfit l with hl | hl <;> rcases operand_cases hd hv hfit r with hr | hr
    · simp only [bind_result, hl, hr]
      exact h3.map fun x => seen x.2
    · simp only [hr _ a₀, bind_result, hl]
      cases he : (semOperand (A a₀) r).2 with
      | error e => exact settles_const _
      | ok y => exact (h1 y (hG r gr hr y he)).map fun x => seen x.2
    · simp only [hl _ a₀, bind_result, hr]
      cases he : (semOperand (A a₀) l).2 with
      | error e => exact settles_const _
      | ok x => exact (h2 x (hG l gl hl x he)).map fun x => seen x.2
    · exact ⟨L.any, fun a b _ _ => by simp only [hl a b, hr a b]⟩
  | lit t => exact ⟨L.any, fun a b _ _ => rfl⟩
  | att t =>
    show Settles L fun a => seen (semOperand (A a) (.att t)).2
    rcases operand_cases hd hv hfit (.att t) with h | h
    · simp only [h]
      exact settles_const (Except.ok none)
    · exact ⟨L.any, fun a b _ _ => by simp only [h a b]⟩
  | not n p ih =>
    simp only [sem_not_seen]
    exact (ih hp).map (seenNot n)
  | bin o p q ihp ihq =>
    simp only [sem_bin_seen]
    exact (ihp fun c hc => hp c (List.mem_append_left _ hc)).map₂ (ihq fun c hc => hp c (List.mem_append_right _ hc)) (seenBin o)

end

theorem seen_truth (x : Except PyExc Den) (v : Tri) : x = .ok (.truth v) ↔ seen x = .ok (some v) := by
  rcases x with e | (_ | _ | _ | _ | _ | _) <;> simp [seen]

section
variable {U : Uni} (hU : U.Lawful) {E : ι → SymEnv} (hE : ∀ a, SymEnv.SetsOk (E a)) {key : Str} {ty : SymType}
  (hd : ∀ a b, DifferOnly U key (attsOf U (E a)) (attsOf U (E b)))
  (hv : ∀ a t, attKey U t = key → attsOf U (E a) t.type (attName t) = some (ty, .sc (x a)))
  {text : Str} {p : Policy} (hp : PolicyOf U text p) {m : Int} (hm : 2 < m)
include hU hE hd hv hp hm

theorem gives_settles (hx : Smooth L x Y)
    (hfit : ∀ a, fits ty (.sc (x a)) = true ∧ x a ≠ .none ∧ valueDen (.sc (x a)) = .single (x a)) (a₀ : ι)
    {G : Operand → Prop} (hG : ∀ z, G z → (∀ a b, semOperand (attsOf U (E a)) z = semOperand (attsOf U (E b)) z) →
      ∀ d, (semOperand (attsOf U (E a₀)) z).2 = .ok d → Within Y d) (hg : ∀ c ∈ p.cmps, G c.l ∧ G c.r) :
    Settles L fun a => {v | Gives U (E a) (some m) text v} := by
  by_cases hl : ∃ x, p = .lit x
  · obtain ⟨x, rfl⟩ := hl
    refine ⟨L.any, fun a b _ _ => Set.ext fun v => ?_⟩
    exact ⟨fun h => absurd h (lit_gives hU (hE a) hp), fun h => absurd h (lit_gives hU (hE b) hp)⟩
  · have hl : ∀ x, p ≠ .lit x := fun x hx => hl ⟨x, hx⟩
    obtain ⟨N, h⟩ := sem_settles hd hv hx hfit a₀ hG p hg
    refine ⟨N, fun a b ha hb => Set.ext fun v => ?_⟩
    show Gives U (E a) (some m) text v ↔ Gives U (E b) (some m) text v
    have := h a b ha hb
    dsimp only at this
    rw [gives_sem hU (hE a) hm hp hl, gives_sem hU (hE b) hm hp hl, seen_truth, seen_truth, this]

end

end

/-! ### Comparisons of numbers -/

theorem beyond (s : Bool) (r : Rat) : ∃ N : Int, ∀ a : Int, N ≤ (if s then a else -a) → if s then r < (a : Rat) else (a : Rat) < r := by
  obtain ⟨h1, h2⟩ := number_around r
  cases s with
  | true =>
    refine ⟨r.floor + 1, fun a ha => ?_⟩
    simp only [if_true] at ha ⊢
    exact lt_of_lt_of_le h2 (by exact_mod_cast ha)
  | false =>
    refine ⟨-(r.floor - 1), fun a ha => ?_⟩
    simp only [Bool.false_eq_true, if_false] at ha ⊢
    have : a ≤ r.floor - 1 := by omega
    exact lt_of_le_of_lt (by exact_mod_cast this) h1

/-- Comparing with the number settles. -/
def NumSettles (L : Late Int) (q : PyFloat) : Prop :=
  Settles L (fun a => decide (numLt (.fin a) q)) ∧ Settles L (fun a => decide (numLt q (.fin a))) ∧
    Settles L fun a => decide (PyFloat.fin (a : Rat) = q)

theorem settles_far {L : Late Int} (s : Bool) (q : PyFloat) (h : ∀ r, q = .fin r → ∃ N, ∀ a : Int, L.is N a → if s then r < a else (a : Rat) < r) :
    NumSettles L q := by
  cases q with
  | inf n =>
    refine ⟨⟨L.any, fun a b _ _ => decide_eq_decide.mpr Iff.rfl⟩,
      ⟨L.any, fun a b _ _ => decide_eq_decide.mpr Iff.rfl⟩, ⟨L.any, fun a b _ _ => ?_⟩⟩
    exact decide_eq_decide.mpr ⟨fun h => (by cases h), fun h => (by cases h)⟩
  | fin r =>
    obtain ⟨N, h⟩ := h r rfl
    have key : ∀ a b : Int, L.is N a → L.is N b →
        ((a : Rat) < r ↔ (b : Rat) < r) ∧ (r < (a : Rat) ↔ r < (b : Rat)) ∧ ((a : Rat) = r ↔ (b : Rat) = r) := by
      intro a b ha hb
      have h1 := h a ha
      have h2 := h b hb
      cases s with
      | true =>
        simp only [if_true] at h1 h2
        exact ⟨⟨fun h => absurd h (not_lt_of_gt h1), fun h => absurd h (not_lt_of_gt h2)⟩, ⟨fun _ => h2, fun _ => h1⟩,
          ⟨fun h => absurd h (ne_of_gt h1), fun h => absurd h (ne_of_gt h2)⟩⟩
      | false =>
        simp only [Bool.false_eq_true, if_false] at h1 h2
        exact ⟨⟨fun _ => h2, fun _ => h1⟩, ⟨fun h => absurd h (not_lt_of_gt h1), fun h => absurd h (not_lt_of_gt h2)⟩,
          ⟨fun h => absurd h (ne_of_lt h1), fun h => absurd h (ne_of_lt h2)⟩⟩
    refine ⟨⟨N, fun a b ha hb => ?_⟩, ⟨N, fun a b ha hb => ?_⟩, ⟨N, fun a b ha hb => ?_⟩⟩
    · exact decide_eq_decide.mpr (key a b ha hb).1
    · exact decide_eq_decide.mpr (key a b ha hb).2.1
    · refine decide_eq_decide.mpr ?_
      rw [PyFloat.fin.injEq, PyFloat.fin.injEq]
      exact (key a b ha hb).2.2

theorem settles_number {s : Bool} (q : PyFloat) : NumSettles (lateInt s) q := settles_far s q fun r _ => beyond s r

/-- The number as a value. -/
def whole (a : Int) : Scalar := .atom (.int a)

theorem settles_pyEq {L : Late Int} (y : Scalar) (h : ∀ q, y.num = some q → NumSettles L q) :
    Settles L (fun a => (whole a).pyEq y) ∧ Settles L fun a => y.pyEq (whole a) := by
  cases hy : y.num with
  | none =>
    have h1 : (fun a => (whole a).pyEq y) = fun _ => false := by
      funext a
      unfold Scalar.pyEq
      rw [hy]
      rfl
    have h2 : (fun a => y.pyEq (whole a)) = fun _ => false := by
      funext a
      unfold Scalar.pyEq
      rw [hy]
      rfl
    rw [h1, h2]
    exact ⟨settles_const _, settles_const _⟩
  | some q =>
    have h1 : (fun a => (whole a).pyEq y) = fun a : Int => decide (PyFloat.fin (a : Rat) = q) := by
      funext a
      unfold Scalar.pyEq
      rw [hy]
      rfl
    have h2 : (fun a => y.pyEq (whole a)) = fun a : Int => decide (PyFloat.fin (a : Rat) = q) := by
      funext a
      unfold Scalar.pyEq
      rw [hy]
      exact decide_eq_decide.mpr eq_comm
    rw [h1, h2]
    exact ⟨(h q hy).2.2, (h q hy).2.2⟩

theorem kind_left (a : Int) (y : Scalar) : sameKindEq (whole a) y = y.num.map fun n => decide (PyFloat.fin (a : Rat) = n) := by
  rcases y with _ | _ | _ | (_ | _ | _ | _) | _ <;> rfl

theorem kind_right (a : Int) (y : Scalar) : sameKindEq y (whole a) = y.num.map fun n => decide (n = PyFloat.fin (a : Rat)) := by
  rcases y with _ | _ | _ | (_ | _ | _ | _) | _ <;> rfl

theorem settles_kind {L : Late Int} (y : Scalar) (h : ∀ q, y.num = some q → NumSettles L q) :
    Settles L (fun a => sameKindEq (whole a) y) ∧ Settles L fun a => sameKindEq y (whole a) := by
  simp only [kind_left, kind_right]
  cases hy : y.num with
  | none => exact ⟨settles_const none, settles_const none⟩
  | some q =>
    refine ⟨(h q hy).2.2.map some, ?_⟩
    have h1 : (fun a : Int => (some q).map fun n => decide (n = PyFloat.fin (a : Rat))) =
        fun a : Int => some (decide (PyFloat.fin (a : Rat) = q)) := by
      funext a
      exact congrArg some (decide_eq_decide.mpr eq_comm)
    rw [h1]
    exact (h q hy).2.2.map some

theorem within_any (d : Den) : Within (fun _ => True) d := by
  cases d <;> simp [Within]

theorem smooth_whole {L : Late Int} {Y : Scalar → Prop} (h : ∀ y q, Y y → y.num = some q → NumSettles L q) : Smooth L whole Y where
  eq y hy := settles_pyEq y fun q => h y q hy
  kind y hy := settles_kind y fun q => h y q hy
  self a := by
    unfold Scalar.pyEq
    show decide _ = true
    exact decide_eq_true rfl
  lt y q hy hq := ⟨(h y q hy hq).1.map some, (h y q hy hq).2.1.map some⟩
  lt_self := by
    have h : (fun a => (whole a).num.map fun n => decide (numLt n n)) = fun _ => some false := by
      funext a
      exact congrArg some (decide_eq_false (lt_irrefl (a : Rat)))
    rw [h]
    exact settles_const _

theorem smooth_int (s : Bool) : Smooth (lateInt s) whole fun _ => True := smooth_whole fun _ q _ _ => settles_number q

section
variable {U : Uni} (hU : U.Lawful) {E : Int → SymEnv} (hE : ∀ a, SymEnv.SetsOk (E a)) {key : Str}
  (hd : ∀ a b, DifferOnly U key (attsOf U (E a)) (attsOf U (E b)))
  (hv : ∀ a t, attKey U t = key → attsOf U (E a) t.type (attName t) = some (.int, .sc (.atom (.int a))))
  {text : Str} {p : Policy} (hp : PolicyOf U text p) {m : Int} (hm : 2 < m)
include hU hE hd hv hp hm

/-- **C164**: from some number on, and down from some number, the truth value of a policy no longer changes. -/
theorem numbers_settle : ∃ N : Int, ∀ a b : Int, (N ≤ a ∧ N ≤ b) ∨ (a ≤ -N ∧ b ≤ -N) → ∀ v,
    (Gives U (E a) (some m) text v ↔ Gives U (E b) (some m) text v) := by
  obtain ⟨(N : Int), h1⟩ := gives_settles hU hE hd hv hp hm (smooth_int true) (fun _ => ⟨rfl, fun h => (by cases h), rfl⟩) 0 (G := fun _ => True)
    (fun _ _ _ d _ => within_any d) fun _ _ => ⟨trivial, trivial⟩
  obtain ⟨(M : Int), h2⟩ := gives_settles hU hE hd hv hp hm (smooth_int false) (fun _ => ⟨rfl, fun h => (by cases h), rfl⟩) 0 (G := fun _ => True)
    (fun _ _ _ d _ => within_any d) fun _ _ => ⟨trivial, trivial⟩
  refine ⟨max N M, fun a b h v => ?_⟩
  rcases h with ⟨ha, hb⟩ | ⟨ha, hb⟩
  · exact Set.ext_iff.mp (h1 a b (le_trans (le_max_left _ _) ha) (le_trans (le_max_left _ _) hb)) v
  · refine Set.ext_iff.mp (h2 a b ?_ ?_) v
    · show (M : Int) ≤ -a
      have := le_max_right N M
      omega
    · show (M : Int) ≤ -b
      have := le_max_right N M
      omega

/-- **C164**: so no policy gives TRUE for the even numbers and FALSE for the odd ones. -/
theorem parity_untestable : ¬ ∀ a : Int, Gives U (E a) (some m) text (if a % 2 = 0 then .true else .false) := by
  intro h
  obtain ⟨N, hN⟩ := numbers_settle hU hE hd hv hp hm
  have h0 := h (2 * max N 0)
  have h1 := h (2 * max N 0 + 1)
  rw [if_pos (by omega)] at h0
  rw [if_neg (by omega)] at h1
  have h2 := (hN (2 * max N 0) (2 * max N 0 + 1) (.inl (by omega)) .true).mp h0
  exact absurd (gives_unique hU (hE _) hm hp h1 h2) (by decide)

end

/-! ### Texts -/

/-- The text as a value. -/
def textual (a : Str) : Scalar := .atom (.str a)

theorem settles_text {α : Type} {f : Str → α} {c : α} (y : Scalar) (h : ∀ a, textual a ≠ y → f a = c) : Settles lateText f := by
  by_cases hy : ∃ t, y = textual t
  · obtain ⟨t, rfl⟩ := hy
    have : ∀ a, a ∉ [t] → f a = c := fun a ha => h a fun e => ha (by cases e; exact List.mem_singleton.mpr rfl)
    exact ⟨[t], fun a b ha hb => (this a ha).trans (this b hb).symm⟩
  · have : ∀ a, f a = c := fun a => h a fun e => hy ⟨a, e.symm⟩
    exact ⟨[], fun a b _ _ => (this a).trans (this b).symm⟩

theorem settles_text_kind (y : Scalar) : Settles lateText (fun a => sameKindEq (textual a) y) ∧ Settles lateText fun a => sameKindEq y (textual a) := by
  rcases y with _ | _ | _ | (_ | _ | t | _) | _
  case atom.str =>
    constructor
    · refine settles_text (c := some false) (textual t) fun a ha => congrArg some (decide_eq_false fun e => ha ?_)
      rw [e]
    · refine settles_text (c := some false) (textual t) fun a ha => congrArg some (decide_eq_false fun e => ha ?_)
      rw [e]
  all_goals exact ⟨settles_const none, settles_const none⟩

theorem smooth_text : Smooth lateText textual fun _ => True where
  eq y _ := by
    constructor
    · refine settles_text (c := false) y fun a ha => ?_
      unfold Scalar.pyEq
      cases y.num with
      | none => exact decide_eq_false ha
      | some q => rfl
    · refine settles_text (c := false) y fun a ha => ?_
      unfold Scalar.pyEq
      cases y.num with
      | none => exact decide_eq_false (Ne.symm ha)
      | some q => rfl
  kind y _ := settles_text_kind y
  self a := decide_eq_true rfl
  lt _ _ _ _ := ⟨settles_const none, settles_const none⟩
  lt_self := settles_const none

section
variable {U : Uni} (hU : U.Lawful) {E : Str → SymEnv} (hE : ∀ a, SymEnv.SetsOk (E a)) {key : Str}
  (hd : ∀ a b, DifferOnly U key (attsOf U (E a)) (attsOf U (E b)))
  (hv : ∀ a t, attKey U t = key → attsOf U (E a) t.type (attName t) = some (.string, .sc (.atom (.str a))))
  {text : Str} {p : Policy} (hp : PolicyOf U text p) {m : Int} (hm : 2 < m)
include hU hE hd hv hp hm

/-- **C165**: all texts but finitely many give the same truth value. -/
theorem texts_settle : ∃ l : List Str, ∀ a b, a ∉ l → b ∉ l → ∀ v,
    (Gives U (E a) (some m) text v ↔ Gives U (E b) (some m) text v) := by
  obtain ⟨l, h⟩ := gives_settles hU hE hd hv hp hm smooth_text (fun _ => ⟨rfl, fun h => (by cases h), rfl⟩) [] (G := fun _ => True)
    (fun _ _ _ d _ => within_any d) fun _ _ => ⟨trivial, trivial⟩
  exact ⟨l, fun a b ha hb v => Set.ext_iff.mp (h a b ha hb) v⟩

/-- **C165**: so a policy gives TRUE for the texts with some property, and FALSE for the others, only if the property or its opposite
holds for finitely many texts. -/
theorem only_listed_texts {P : Str → Prop} [DecidablePred P] (h : ∀ a, Gives U (E a) (some m) text (if P a then .true else .false)) :
    ∃ l : List Str, (∀ a, P a → a ∈ l) ∨ ∀ a, ¬ P a → a ∈ l := by
  obtain ⟨l, hl⟩ := texts_settle hU hE hd hv hp hm
  refine ⟨l, ?_⟩
  by_contra hc
  rw [not_or] at hc
  obtain ⟨h1, h2⟩ := hc
  simp only [not_forall] at h1 h2
  obtain ⟨a, ha, hal⟩ := h1
  obtain ⟨b, hb, hbl⟩ := h2
  have ga := h a
  have gb := h b
  rw [if_pos ha] at ga
  rw [if_neg hb] at gb
  exact absurd (gives_unique hU (hE _) hm hp gb ((hl a b hal hbl .true).mp ga)) (by decide)

/-- **C165**: for example not for the texts that start with an `a`. -/
theorem start_untestable : ¬ ∀ a : Str, Gives U (E a) (some m) text (if a.head? = some 'a' then .true else .false) := by
  intro h
  obtain ⟨l, hl⟩ := only_listed_texts hU hE hd hv hp hm h
  have hlong : ∀ (l : List Str) (c : Char), c :: List.replicate ((l.map List.length).sum) 'x' ∉ l := by
    intro l c hc
    have hle : ∀ (l : List Str) (y : Str), y ∈ l → y.length ≤ (l.map List.length).sum := by
      intro l
      induction l with
      | nil => intro y hy; cases hy
      | cons z l ih =>
        intro y hy
        rw [List.map_cons, List.sum_cons]
        rcases List.mem_cons.mp hy with rfl | hy
        · omega
        · have := ih y hy
          omega
    have := hle l _ hc
    rw [List.length_cons, List.length_replicate] at this
    omega
  rcases hl with hl | hl
  · exact hlong l 'a' (hl _ rfl)
  · exact hlong l 'b' (hl _ (by simp))

end

/-! ### Concrete cases -/

/-- For `user.a >= 1 AND NOT user.b`, tables that differ in the number. -/
example (b : Tri) : ∃ N : Int, ∀ x y : Int, (N ≤ x ∧ N ≤ y) ∨ (x ≤ -N ∧ y ≤ -N) → ∀ v,
    (Gives asciiUni (polarEnv x b) (some 3) "user.a >= 1 AND NOT user.b".toList v ↔
      Gives asciiUni (polarEnv y b) (some 3) "user.a >= 1 AND NOT user.b".toList v) := by
  refine numbers_settle (key := "user.a".toList) asciiUni_lawful (fun x => polarEnv_sets x b) (fun x y ty n hne => ?_) (fun x t ht => ?_)
    polarPolicy_of (by decide)
  · rw [polarEnv_atts, polarEnv_atts, if_neg hne, if_neg hne]
  · have ht : asciiUni.lower (fullPrefix (some t.type) ++ attName t) = "user.a".toList := ht
    rw [polarEnv_atts, if_pos ht]

/-- No policy tells, in the tables with a number and a truth value, even numbers from odd ones. -/
example (b : Tri) (text : Str) (p : Policy) (hp : PolicyOf asciiUni text p) :
    ¬ ∀ x : Int, Gives asciiUni (polarEnv x b) (some 3) text (if x % 2 = 0 then .true else .false) := by
  refine parity_untestable (key := "user.a".toList) asciiUni_lawful (fun x => polarEnv_sets x b) (fun x y ty n hne => ?_)
    (fun x t ht => ?_) hp (by decide)
  · rw [polarEnv_atts, polarEnv_atts, if_neg hne, if_neg hne]
  · have ht : asciiUni.lower (fullPrefix (some t.type) ++ attName t) = "user.a".toList := ht
    rw [polarEnv_atts, if_pos ht]

/-- A table with a text. -/
def textEnv (a : Str) : SymEnv := ⟨⟨[("user.a".toList, 0)]⟩, fun _ => ⟨.string, .usrAtt, .sc (.atom (.str a)), [], []⟩⟩

theorem textEnv_sets (a : Str) : SymEnv.SetsOk (textEnv a) := by
  intro r l h
  cases h

theorem textEnv_atts (a : Str) (ty : TokenType) (n : Str) : attsOf asciiUni (textEnv a) ty n =
    if asciiUni.lower (fullPrefix (some ty) ++ n) = "user.a".toList then some (.string, .sc (.atom (.str a))) else none := by
  unfold attsOf SymTab.lookup SymTab.get textEnv
  rw [← prefix_eq]
  dsimp only [List.find?]
  by_cases h1 : asciiUni.lower (fullPrefix (some ty) ++ n) = "user.a".toList
  · rw [if_pos h1, h1]
    rfl
  · rw [if_neg h1, beq_eq_false_iff_ne.mpr (Ne.symm h1)]
    rfl

/-- No policy tells the texts that start with an `a` from the others in these tables. -/
example (text : Str) (p : Policy) (hp : PolicyOf asciiUni text p) :
    ¬ ∀ a : Str, Gives asciiUni (textEnv a) (some 3) text (if a.head? = some 'a' then .true else .false) := by
  refine start_untestable (key := "user.a".toList) asciiUni_lawful textEnv_sets (fun x y ty n hne => ?_) (fun x t ht => ?_) hp (by decide)
  · rw [textEnv_atts, textEnv_atts, if_neg hne, if_neg hne]
  · have ht : asciiUni.lower (fullPrefix (some t.type) ++ attName t) = "user.a".toList := ht
    rw [textEnv_atts, if_pos ht]

end Verif.Props
