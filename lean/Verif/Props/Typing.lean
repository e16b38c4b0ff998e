import Verif.Props.Robust
import Verif.Props.TypeChecker
import Verif.Spec.Typing
/-!
# C145: types that promise a decision
-/

namespace Verif.Props
open Verif Verif.Spec Verif.Proofs

/-! ### Operands -/

/-- What an operand of a type can denote. -/
inductive DenOf : OperandType → Den → Prop
  | boolAtt (b : Bool) : DenOf (.att .number) (.single (.bool b))
  | intAtt (i : Int) : DenOf (.att .number) (.single (.atom (.int i)))
  | fltAtt (f : PyFloat) : DenOf (.att .number) (.single (.atom (.flt f)))
  | textAtt (s : Str) : DenOf (.att .text) (.single (.atom (.str s)))
  | trueAtt : DenOf (.att .truth) (.truth .true)
  | falseAtt : DenOf (.att .truth) (.truth .false)
  | collAtt (l : List Scalar) : DenOf (.att .collection) (.many l)
  | int (i : Int) : DenOf .number (.const (.int i))
  | flt (f : PyFloat) : DenOf .number (.const (.flt f))
  | text (s : Str) : DenOf .text (.const (.str s))
  | null : DenOf .null (.const .null)
  | set (l : List Atom) (h : Atom.null ∉ l) : DenOf (.set false) (.lit l)
  | setNull (l : List Atom) (h : Atom.null ∈ l) : DenOf (.set true) (.lit l)

theorem denOf_undef {a : OperandType} : ¬ DenOf a (.truth .undef) := by
  generalize hd : Den.truth .undef = d
  intro h
  cases h <;> cases hd

/-- The operand is no collection with elements. -/
def NoElems (d : Den) : Prop := ∀ l, d = .many l → l = []

theorem semAtt_kept {U : Uni} {Γ : Promises} {A : Atts} {t : Token} (h : (Γ (attKey U t)).Kept (A t.type (attName t))) :
    ∃ d, semAtt A t = ([], .ok d) ∧ DenOf (.att (Γ (attKey U t))) d ∧
      ((∀ ty v, A t.type (attName t) = some (ty, v) → v = .set [] ∨ v = .list [] ∨ ∃ x, v = .sc x) → NoElems d) := by
  unfold semAtt
  generalize Γ (attKey U t) = p at h ⊢
  generalize A t.type (attName t) = x at h ⊢
  cases p with
  | number =>
    obtain ⟨ty, v, rfl, hty, hv⟩ := h
    have hf : fits ty (.sc v) = true := by rcases hty with rfl | rfl <;> exact hv
    refine ⟨.single v, ?_, ?_, fun _ l hl => (by cases hl)⟩
    · cases v with
      | none => cases hv
      | bool b => simp only [hf, if_true, valueDen]
      | tri t => cases hv
      | atom a => simp only [hf, if_true, valueDen]
      | obj b n => cases hv
    · cases v with
      | none => cases hv
      | bool b => exact .boolAtt b
      | tri t => cases hv
      | atom a =>
        cases a with
        | int i => exact .intAtt i
        | flt f => exact .fltAtt f
        | str s => cases hv
        | null => cases hv
      | obj b n => cases hv
  | text =>
    obtain ⟨s, rfl⟩ := h
    exact ⟨_, rfl, .textAtt s, fun _ l hl => (by cases hl)⟩
  | truth =>
    rcases h with rfl | rfl
    · exact ⟨_, rfl, .trueAtt, fun _ l hl => (by cases hl)⟩
    · exact ⟨_, rfl, .falseAtt, fun _ l hl => (by cases hl)⟩
  | collection =>
    rcases h with ⟨l, rfl⟩ | ⟨l, rfl, hl⟩
    · refine ⟨_, rfl, .collAtt l, fun he m hm => ?_⟩
      cases hm
      rcases he _ _ rfl with h | h | ⟨x, h⟩ <;> cases h
      rfl
    · refine ⟨.many l, ?_, .collAtt l, fun he m hm => ?_⟩
      · simp only [fits, if_true, valueDen, hl]
      · cases hm
        rcases he _ _ rfl with h | h | ⟨x, h⟩ <;> cases h
        rfl

/-- The attributes have no collections with elements. -/
def EmptyIn (A : Atts) (l : List Token) : Prop :=
  ∀ t ∈ l, ∀ ty v, A t.type (attName t) = some (ty, v) → v = .set [] ∨ v = .list [] ∨ ∃ x, v = .sc x

theorem semElems_err {es : List Token} (h : ∃ t ∈ es, constOf t = none) : ∃ e, semElems es = .error e := by
  cases hs : semElems es with
  | error e => exact ⟨e, rfl⟩
  | ok m =>
    obtain ⟨t, ht, hn⟩ := h
    exact absurd hn (semElems_clean hs t ht)

theorem semOperand_typed {U : Uni} {Γ : Promises} {A : Atts} (x : Operand) (h : KeptBy U Γ A x.atts) :
    (x.typed U Γ = .rejected ∧ ∃ e, semOperand A x = ([], .error e)) ∨
    (∃ d, semOperand A x = ([], .ok d) ∧ DenOf (x.typed U Γ) d ∧ (EmptyIn A x.atts → NoElems d)) := by
  cases x with
  | att t =>
    right
    obtain ⟨d, h1, h2, h3⟩ := semAtt_kept (h t (List.mem_singleton.mpr rfl))
    exact ⟨d, h1, h2, fun he => h3 (he t (List.mem_singleton.mpr rfl))⟩
  | atom t =>
    simp only [Operand.typed, semOperand]
    cases hc : constOf t with
    | none => exact .inl ⟨rfl, _, rfl⟩
    | some a =>
      right
      cases a with
      | int i => exact ⟨_, rfl, .int i, fun _ l hl => (by cases hl)⟩
      | flt i => exact ⟨_, rfl, .flt i, fun _ l hl => (by cases hl)⟩
      | str i => exact ⟨_, rfl, .text i, fun _ l hl => (by cases hl)⟩
      | null => exact ⟨_, rfl, .null, fun _ l hl => (by cases hl)⟩
  | set b es =>
    simp only [Operand.typed, semOperand]
    by_cases hr : ∃ t ∈ es, constOf t = none
    · left
      obtain ⟨e, he⟩ := semElems_err hr
      refine ⟨if_pos hr, e, ?_⟩
      rw [he]
      rfl
    · right
      rw [if_neg hr]
      obtain ⟨l, hl, hn⟩ := (semElems_ok es).mpr (fun t ht hc => hr ⟨t, ht, hc⟩)
      refine ⟨.lit l, ?_, ?_, fun _ l hl => (by cases hl)⟩
      · rw [hl]
        rfl
      · simp only [constOf_null]
        by_cases hm : ∃ t ∈ es, t.type = .null
        · rw [decide_eq_true hm]
          exact .setNull l (hn.mpr hm)
        · rw [decide_eq_false hm]
          exact .set l (fun k => hm (hn.mp k))

/-! ### Operators -/

theorem eq_typed {a b : OperandType} {x y : Den} (hx : DenOf a x) (hy : DenOf b y) :
    EqTyped a b ↔ ∃ v, semEq x y = .ok (some v) := by
  cases hx <;> cases hy <;>
    simp_all [EqTyped, Promise.comparable, semEq, sameKindEq, Scalar.num]

theorem ord_typed (f : PyFloat → PyFloat → Bool) {a b : OperandType} {x y : Den} (hx : DenOf a x) (hy : DenOf b y) :
    OrdTyped a b ↔ ∃ v, semOrd f x y = .ok (some v) := by
  cases hx <;> cases hy <;> simp [OrdTyped, semOrd, Den.number, Scalar.num]

theorem scan_clean (l : List Scalar) {m : List Atom} (h : Atom.null ∉ m) : ∃ v, scan l m = .ok (some v) := by
  induction m with
  | nil => exact ⟨_, rfl⟩
  | cons x m ih =>
    rw [List.mem_cons, not_or] at h
    unfold scan
    rw [if_neg (Ne.symm h.1)]
    split
    · exact ⟨_, rfl⟩
    · exact ih h.2

theorem in_typed {a b : OperandType} {x y : Den} (hx : DenOf a x) (hy : DenOf b y) (h : InTyped a b) :
    ∃ v, semIn x y = .ok (some v) := by
  cases hx <;> cases hy <;> simp_all [InTyped, Promise.comparable, semIn]
  rename_i l m hm
  obtain ⟨v, hv⟩ := scan_clean l hm
  cases v
  · exact .inl hv
  · exact .inr hv

theorem in_back {a b : OperandType} {x y : Den} (hx : DenOf a x) (hy : DenOf b y) (he : NoElems x)
    (h : ∃ v, semIn x y = .ok (some v)) : InTyped a b := by
  cases hx <;> cases hy <;> simp_all [InTyped, Promise.comparable, semIn]
  rename_i l m hm
  cases he l rfl
  rcases h with h | h <;> exact scan_null hm _ h

theorem subset_typed {a b : OperandType} {x y : Den} (hx : DenOf a x) (hy : DenOf b y) :
    (SetTyped a ∧ SetTyped b) ↔ ∃ v, semSubset x y = .ok (some v) := by
  cases hx <;> cases hy <;> simp_all [SetTyped, Promise.comparable, semSubset, Den.unsettable, Den.asSet]

theorem answer_decided {rule : String} {a : Answer} : Decided (answerOut rule a) ↔ ∃ v, a = .ok (some v) := by
  unfold Decided answerOut
  rcases a with e | (_ | (_ | _)) <;> simp

theorem neg_decided {a : Answer} : (∃ v, Answer.neg a = .ok (some v)) ↔ ∃ v, a = .ok (some v) := by
  unfold Answer.neg
  rcases a with e | (_ | (_ | _)) <;> simp [Except.map]

theorem cmp_decided {o : Token} {a b : OperandType} {x y : Den} (ho : ∃ e ∈ operators, o.value = .str e.1.toList) (hx : DenOf a x)
    (hy : DenOf b y) :
    (CmpTyped o a b → Decided (semCmp o x y)) ∧ (NoElems x → Decided (semCmp o x y) → CmpTyped o a b) := by
  have hu : ¬ (x = .truth .undef ∨ y = .truth .undef) := by
    rintro (rfl | rfl)
    · cases hx
    · cases hy
  unfold semCmp
  rw [if_neg hu]
  obtain ⟨e, he, hv⟩ := ho
  simp only [operators, List.mem_cons, List.not_mem_nil, or_false] at he
  unfold CmpTyped Operates
  rcases he with rfl | rfl | rfl | rfl | rfl | rfl | rfl | rfl
  all_goals
    rw [hv]
    simp only [operators, List.find?, String.toList_inj, TVal.str.injEq, String.reduceEq, decide_true, decide_false, true_or,
      or_true, or_false, false_or, forall_const, true_and, and_true, IsEmpty.forall_iff, implies_true]
    rw [answer_decided]
  · exact ⟨(eq_typed hx hy).mp, fun _ => (eq_typed hx hy).mpr⟩
  · rw [neg_decided]
    exact ⟨(eq_typed hx hy).mp, fun _ => (eq_typed hx hy).mpr⟩
  · exact ⟨(ord_typed _ hx hy).mp, fun _ => (ord_typed _ hx hy).mpr⟩
  · exact ⟨(ord_typed _ hx hy).mp, fun _ => (ord_typed _ hx hy).mpr⟩
  · exact ⟨(ord_typed _ hx hy).mp, fun _ => (ord_typed _ hx hy).mpr⟩
  · exact ⟨(ord_typed _ hx hy).mp, fun _ => (ord_typed _ hx hy).mpr⟩
  · exact ⟨in_typed hx hy, in_back hx hy⟩
  · exact ⟨(subset_typed hx hy).mp, fun _ => (subset_typed hx hy).mpr⟩

/-- An operator is not typed with a rejected literal. -/
theorem rejected_untyped {o : Token} {a b : OperandType} (ho : ∃ e ∈ operators, o.value = .str e.1.toList)
    (h : a = .rejected ∨ b = .rejected) : ¬ CmpTyped o a b := by
  obtain ⟨e, he, hv⟩ := ho
  simp only [operators, List.mem_cons, List.not_mem_nil, or_false] at he
  unfold CmpTyped Operates
  rcases he with rfl | rfl | rfl | rfl | rfl | rfl | rfl | rfl
  all_goals
    rw [hv]
    simp only [TVal.str.injEq, String.toList_inj, String.reduceEq, true_or, or_true, or_false, false_or, forall_const, true_and,
      and_true, IsEmpty.forall_iff, implies_true]
    rcases h with rfl | rfl
  all_goals first
    | (cases b <;> simp [EqTyped, OrdTyped, InTyped, SetTyped]; done)
    | (cases a <;> simp [EqTyped, OrdTyped, InTyped, SetTyped]; done)

/-! ### Policies -/

theorem decided_bind {x : Eff Den} {f : Den → Eff Den} (h : Decided (x.bind f)) :
    ∃ d, x = ([], .ok d) ∧ Decided (f d) := by
  obtain ⟨w, o⟩ := x
  unfold Eff.bind at h
  cases o with
  | error e => rcases h with h | h <;> simp at h
  | ok d =>
    dsimp only at h
    refine ⟨d, ?_, ?_⟩
    · rcases h with h | h <;> simp at h <;> simp [h.1.1]
    · unfold Decided
      rcases h with h | h <;> simp at h
      · exact .inl (Prod.ext h.1.2 h.2)
      · exact .inr (Prod.ext h.1.2 h.2)

theorem bind_pure {α β : Type} {f : α → Eff β} (d : α) : Eff.bind (([], .ok d) : Eff α) f = f d := by
  unfold Eff.bind
  simp

theorem quiet_bind {α β : Type} {x : Eff α} {f : α → Eff β} {e : β} (h : x.bind f = ([], .ok e)) :
    ∃ d, x = ([], .ok d) ∧ f d = ([], .ok e) := by
  obtain ⟨w, o⟩ := x
  unfold Eff.bind at h
  cases o with
  | error e => simp at h
  | ok d =>
    simp at h
    exact ⟨d, by rw [h.1.1], Prod.ext h.1.2 h.2⟩

/-- If the promises are kept and nothing is said, the result is not UNDEF. -/
theorem quiet_decided {U : Uni} {Γ : Promises} {A : Atts} (p : Policy) (ho : p.OpsOk) (hA : KeptBy U Γ A p.atts) {d : Den}
    (h : sem U A p = ([], .ok d)) : d ≠ .truth .undef := by
  induction p generalizing d with
  | cmp l o r =>
    have h1 := semOperand_typed l (fun t ht => hA t (by simp [Policy.atts, ht]))
    have h2 := semOperand_typed r (fun t ht => hA t (by simp [Policy.atts, ht]))
    unfold sem at h
    obtain ⟨x, hx, h⟩ := quiet_bind h
    obtain ⟨y, hy, h⟩ := quiet_bind h
    rcases h1 with ⟨_, e, hl⟩ | ⟨x', hl, hxt, _⟩
    · rw [hl] at hx
      cases hx
    rcases h2 with ⟨_, e, hl'⟩ | ⟨y', hl', hyt, _⟩
    · rw [hl'] at hy
      cases hy
    rw [hl] at hx
    rw [hl'] at hy
    cases hx
    cases hy
    unfold semCmp at h
    rw [if_neg (by rintro (rfl | rfl); exact denOf_undef hxt; exact denOf_undef hyt)] at h
    split at h
    · rename_i rule f _
      generalize f x y = a at h
      rintro rfl
      rcases a with e | (_ | (_ | _)) <;> simp [answerOut] at h
    · cases h
  | lit t =>
    unfold sem at h
    split at h <;> cases h
    simp
  | att t =>
    unfold sem at h
    obtain ⟨d', h1, h2, _⟩ := semAtt_kept (hA t (by simp [Policy.atts]))
    rw [h1] at h
    cases h
    rintro rfl
    exact denOf_undef h2
  | not n p ih =>
    unfold sem at h
    obtain ⟨x, hx, h⟩ := quiet_bind h
    have := ih ho hA hx
    cases x with
    | truth v =>
      cases h
      cases v
      · simp [kleeneNot]
      · simp [kleeneNot]
      · exact absurd rfl this
    | _ => cases h
  | bin o p q ihp ihq =>
    unfold sem at h
    obtain ⟨x, hx, h⟩ := quiet_bind h
    obtain ⟨y, hy, h⟩ := quiet_bind h
    have k1 := ihp ho.1 (fun t ht => hA t (List.mem_append_left _ ht)) hx
    have k2 := ihq ho.2 (fun t ht => hA t (List.mem_append_right _ ht)) hy
    cases x with
    | truth v =>
      cases y with
      | truth w =>
        cases h
        unfold kleene
        cases v <;> cases w <;> simp at k1 k2 ⊢ <;> split <;> simp
      | _ => cases h
    | _ => cases h

theorem cond_decided {U : Uni} {Γ : Promises} {A : Atts} (p : Policy) (ho : p.OpsOk) (hA : KeptBy U Γ A p.atts) :
    (CondTyped U Γ p → Decided (sem U A p)) ∧ (EmptyIn A p.atts → Decided (sem U A p) → CondTyped U Γ p) := by
  induction p with
  | cmp l o r =>
    have h1 := semOperand_typed l (fun t ht => hA t (by simp [Policy.atts, ht]))
    have h2 := semOperand_typed r (fun t ht => hA t (by simp [Policy.atts, ht]))
    unfold CondTyped sem
    rcases h1 with ⟨hr, e, hl⟩ | ⟨x, hl, hx, hex⟩
    · refine ⟨fun h => absurd h (rejected_untyped ho (.inl hr)), fun _ h => ?_⟩
      rw [hl] at h
      rcases h with h | h <;> cases h
    · rw [hl, bind_pure]
      rcases h2 with ⟨hr, e, hl⟩ | ⟨y, hl, hy, _⟩
      · refine ⟨fun h => absurd h (rejected_untyped ho (.inr hr)), fun _ h => ?_⟩
        rw [hl] at h
        rcases h with h | h <;> cases h
      · rw [hl, bind_pure]
        obtain ⟨k1, k2⟩ := cmp_decided ho hx hy
        exact ⟨k1, fun he => k2 (hex (fun t ht => he t (by simp [Policy.atts, ht])))⟩
  | lit t =>
    unfold CondTyped sem
    constructor
    · intro h
      rw [if_pos h]
      exact .inl rfl
    · intro _ h
      by_contra hn
      rw [if_neg hn] at h
      rcases h with h | h <;> cases h
  | att t =>
    unfold CondTyped sem
    obtain ⟨d, h1, h2, _⟩ := semAtt_kept (hA t (by simp [Policy.atts]))
    rw [h1]
    constructor
    · intro h
      rw [h] at h2
      cases h2
      · exact .inl rfl
      · exact .inr rfl
    · intro _ h
      generalize Γ (attKey U t) = q at h2 ⊢
      rcases h with h | h <;> cases h <;> cases h2 <;> rfl
  | not n p ih =>
    obtain ⟨i1, i2⟩ := ih ho hA
    unfold CondTyped sem
    constructor
    · intro h
      rcases i1 h with h | h <;> rw [h, bind_pure]
      · exact .inr rfl
      · exact .inl rfl
    · intro he h
      obtain ⟨d, h1, h2⟩ := decided_bind h
      refine i2 he ?_
      rw [h1]
      cases d with
      | truth v =>
        cases v with
        | true => exact .inl rfl
        | false => exact .inr rfl
        | undef => rcases h2 with h2 | h2 <;> cases h2
      | _ => rcases h2 with h2 | h2 <;> cases h2
  | bin o p q ihp ihq =>
    have h1 : ∀ t ∈ p.atts, t ∈ (Policy.bin o p q).atts := fun t ht => List.mem_append_left _ ht
    have h2 : ∀ t ∈ q.atts, t ∈ (Policy.bin o p q).atts := fun t ht => List.mem_append_right _ ht
    obtain ⟨i1, i2⟩ := ihp ho.1 (fun t ht => hA t (h1 t ht))
    obtain ⟨j1, j2⟩ := ihq ho.2 (fun t ht => hA t (h2 t ht))
    unfold CondTyped sem
    constructor
    · rintro ⟨hp, hq⟩
      rcases i1 hp with hp | hp <;> rcases j1 hq with hq | hq <;> rw [hp, bind_pure, hq, bind_pure] <;> dsimp only <;>
        unfold kleene <;> split <;> simp [Decided, Eff.pure]
    · intro he h
      obtain ⟨x, h3, h⟩ := decided_bind h
      obtain ⟨y, h4, h⟩ := decided_bind h
      have hxy : (∃ v, x = .truth v) ∧ ∃ w, y = .truth w := by
        cases x <;> cases y <;> first | exact ⟨⟨_, rfl⟩, _, rfl⟩ | (rcases h with h | h <;> cases h)
      obtain ⟨⟨v, rfl⟩, w, rfl⟩ := hxy
      have k1 := quiet_decided p ho.1 (fun t ht => hA t (h1 t ht)) h3
      have k2 := quiet_decided q ho.2 (fun t ht => hA t (h2 t ht)) h4
      refine ⟨i2 (fun t ht => he t (h1 t ht)) ?_, j2 (fun t ht => he t (h2 t ht)) ?_⟩
      · rw [h3]
        cases v
        · exact .inl rfl
        · exact .inr rfl
        · exact absurd rfl k1
      · rw [h4]
        cases w
        · exact .inl rfl
        · exact .inr rfl
        · exact absurd rfl k2

theorem policy_decided {U : Uni} {Γ : Promises} {A : Atts} (p : Policy) (ho : p.OpsOk) (hA : KeptBy U Γ A p.atts) :
    (PromiseTyped U Γ p → Decided (semPolicy U A p)) ∧ (EmptyIn A p.atts → Decided (semPolicy U A p) → PromiseTyped U Γ p) := by
  cases p with
  | lit t => exact ⟨fun h => absurd h id, fun _ h => by rcases h with h | h <;> cases h⟩
  | cmp l o r => exact cond_decided _ ho hA
  | att t => exact cond_decided _ ho hA
  | not n p => exact cond_decided _ ho hA
  | bin o p q => exact cond_decided _ ho hA

/-! ### Evaluation -/

/-- `evaluate` returns TRUE or FALSE and records no warning. -/
def Decides (U : Uni) (E : SymEnv) (level : Option Int) (k : Nat) (text : Str) : Prop :=
  ∃ s v, evaluateText U E level k text = .ok (s, .ok (.tri v)) ∧ v ≠ .undef ∧ s.warnings = []

theorem decides_iff {U : Uni} (hU : U.Lawful) {E : SymEnv} (hE : SymEnv.SetsOk E) {level : Option Int} {k : Nat} {text : Str}
    {p : Policy} (hp : PolicyOf U text p) :
    Decides U E level k text ↔ Decided (semPolicy U (attsOf U E) p) := by
  obtain ⟨s, r, h1, h2, h3⟩ := (evaluate_refines U hU E hE level k text).2 p hp
  constructor
  · rintro ⟨s', v, h4, h5, h6⟩
    rw [h1] at h4
    cases h4
    rw [h6] at h2
    rcases hx : semPolicy U (attsOf U E) p with ⟨w, o⟩
    rw [hx] at h2 h3
    cases h2
    cases o with
    | error e => cases h3
    | ok d =>
      have h3 : some (Den.truth v) = some d := Except.ok.inj h3
      cases h3
      cases v
      · exact .inl rfl
      · exact .inr rfl
      · exact absurd rfl h5
  · intro h
    have : ∃ v, v ≠ Tri.undef ∧ semPolicy U (attsOf U E) p = ([], .ok (.truth v)) := by
      rcases h with h | h
      · exact ⟨.true, by decide, h⟩
      · exact ⟨.false, by decide, h⟩
    obtain ⟨v, hv, h⟩ := this
    rw [h] at h2 h3
    cases r with
    | error e => cases h3
    | ok x =>
      have h3 : resultDen E x = some (.truth v) := Except.ok.inj h3
      have hx : x = .tri v := by
        cases x with
        | tri t => cases h3; rfl
        | none => cases h3
        | atom a => cases h3
        | list l => cases h3
        | sym r =>
          simp only [resultDen] at h3
          generalize (E.heap r).value = y at h3
          cases y with
          | sc y => cases y <;> simp [valueDen] at h3
          | set l => simp [valueDen] at h3
          | list l =>
            simp only [valueDen] at h3
            split at h3 <;> cases h3
      subst hx
      exact ⟨s, v, h1, hv, h2⟩

/-- **C145**: a well typed policy gives TRUE or FALSE, without a warning, in every table that keeps the promises. -/
theorem typed_decides {U : Uni} (hU : U.Lawful) {text : Str} {p : Policy} (hp : PolicyOf U text p) {Γ : Promises}
    (h : PromiseTyped U Γ p) {E : SymEnv} (hE : SymEnv.SetsOk E) (hk : KeptBy U Γ (attsOf U E) p.atts) (level : Option Int) (k : Nat) :
    Decides U E level k text :=
  (decides_iff hU hE hp).mpr ((policy_decided p (policyOf_ok hp).2.1 hk).1 h)

/-- **C145**: a policy that is not well typed does not, in every table that keeps the promises and in which collections are empty. -/
theorem untyped_fails {U : Uni} (hU : U.Lawful) {text : Str} {p : Policy} (hp : PolicyOf U text p) {Γ : Promises}
    (h : ¬ PromiseTyped U Γ p) {E : SymEnv} (hE : SymEnv.SetsOk E) (hk : KeptBy U Γ (attsOf U E) p.atts)
    (he : EmptyIn (attsOf U E) p.atts) (level : Option Int) (k : Nat) : ¬ Decides U E level k text :=
  fun hd => h ((policy_decided p (policyOf_ok hp).2.1 hk).2 he ((decides_iff hU hE hp).mp hd))

/-- Where the symbol for a promise is. -/
def Promise.ref : Promise → Nat
  | .number => 0 | .text => 1 | .truth => 2 | .collection => 3

/-- A table that keeps all promises. -/
def promiseEnv (U : Uni) (Γ : Promises) (p : Policy) : SymEnv where
  tab := ⟨p.atts.map fun t => (attKey U t, Promise.ref (Γ (attKey U t)))⟩
  heap
    | 0 => ⟨.int, .usrAtt, .sc (.atom (.int 1)), [], []⟩
    | 1 => ⟨.string, .usrAtt, .sc (.atom (.str "a".toList)), [], []⟩
    | 2 => ⟨.bool, .usrAtt, .sc (.tri .true), [], []⟩
    | _ => ⟨.set, .usrAtt, .set [], [], []⟩

theorem promiseEnv_att {U : Uni} {Γ : Promises} {p : Policy} {t : Token} (ht : t ∈ p.atts) :
    attsOf U (promiseEnv U Γ p) t.type (attName t) = some
      (((promiseEnv U Γ p).heap (Promise.ref (Γ (attKey U t)))).type, ((promiseEnv U Γ p).heap (Promise.ref (Γ (attKey U t)))).value) := by
  unfold attsOf
  have : (promiseEnv U Γ p).tab.lookup U (attTypePrefix (some t.type) ++ attName t) = some (Promise.ref (Γ (attKey U t))) := by
    unfold SymTab.lookup SymTab.get
    have hkey : U.lower (attTypePrefix (some t.type) ++ attName t) = attKey U t := by
      unfold attKey
      rw [prefix_eq]
    rw [hkey]
    cases hf : (promiseEnv U Γ p).tab.entries.find? (fun e => e.1 == attKey U t) with
    | none =>
      rw [List.find?_eq_none] at hf
      have := hf _ (List.mem_map.2 ⟨t, ht, rfl⟩)
      simp at this
    | some e =>
      have hm := List.mem_of_find?_eq_some hf
      have he := List.find?_some hf
      obtain ⟨u, _, rfl⟩ := List.mem_map.1 hm
      have he : attKey U u = attKey U t := by simpa using he
      rw [he]
      rfl
  rw [this]
  rfl

theorem promiseEnv_ok (U : Uni) (Γ : Promises) (p : Policy) : SymEnv.SetsOk (promiseEnv U Γ p) ∧
    KeptBy U Γ (attsOf U (promiseEnv U Γ p)) p.atts ∧ EmptyIn (attsOf U (promiseEnv U Γ p)) p.atts := by
  refine ⟨?_, fun t ht => ?_, fun t ht ty v h => ?_⟩
  · intro r l h
    unfold promiseEnv at h
    dsimp only at h
    split at h <;> cases h
    rfl
  · rw [promiseEnv_att ht]
    cases Γ (attKey U t) with
    | number => exact ⟨_, _, rfl, .inl rfl, rfl⟩
    | text => exact ⟨_, rfl⟩
    | truth => exact .inl rfl
    | collection => exact .inl ⟨_, rfl⟩
  · rw [promiseEnv_att ht] at h
    cases h
    cases Γ (attKey U t) with
    | number => exact .inr (.inr ⟨_, rfl⟩)
    | text => exact .inr (.inr ⟨_, rfl⟩)
    | truth => exact .inr (.inr ⟨_, rfl⟩)
    | collection => exact .inl rfl

/-- **C145**: well typed are exactly the policies that decide in every table that keeps the promises. -/
theorem typed_iff {U : Uni} (hU : U.Lawful) {text : Str} {p : Policy} (hp : PolicyOf U text p) (Γ : Promises) (level : Option Int)
    (k : Nat) : PromiseTyped U Γ p ↔
      ∀ E, SymEnv.SetsOk E → KeptBy U Γ (attsOf U E) p.atts → Decides U E level k text := by
  constructor
  · exact fun h E hE hk => typed_decides hU hp h hE hk level k
  · intro h
    by_contra hn
    obtain ⟨h1, h2, h3⟩ := promiseEnv_ok U Γ p
    exact untyped_fails hU hp hn h1 h2 h3 level k (h _ h1 h2)

/-! ### The type checker -/

/-- Values of tokens of literals. -/
def ValOk (t : Token) : Prop :=
  (t.type = .int → ∃ i, t.value = .int i) ∧ (t.type = .float → ∃ f, t.value = .flt f) ∧ (t.type = .string → ∃ s, t.value = .str s)

theorem lexeme_valOk {U : Uni} {w : Str} {ty : TokenType} {v : TVal} {nx : Option Char} (p : Int)
    (h : Lexeme U w ty v nx) : ValOk ⟨ty, p, v⟩ := by
  cases h with
  | punct w ty v nx h =>
    simp only [punctuation, List.mem_cons, Prod.mk.injEq, List.not_mem_nil, or_false] at h
    rcases h with ⟨_, rfl, rfl⟩ | ⟨_, rfl, rfl⟩ | ⟨_, rfl, rfl⟩ | ⟨_, rfl, rfl⟩ | ⟨_, rfl, rfl⟩ |
      ⟨_, rfl, rfl⟩ | ⟨_, rfl, rfl⟩ | ⟨_, rfl, rfl⟩ | ⟨_, rfl, rfl⟩ <;> simp [ValOk]
  | gt => simp [ValOk]
  | lt => simp [ValOk]
  | string => simp [ValOk]
  | int => simp [ValOk]
  | float => simp [ValOk]
  | att pre ident kw ty nx hc =>
    simp only [attClasses, List.mem_cons, Prod.mk.injEq, List.not_mem_nil, or_false] at hc
    rcases hc with ⟨_, rfl⟩ | ⟨_, rfl⟩ | ⟨_, rfl⟩ | ⟨_, rfl⟩ | ⟨_, rfl⟩ <;> simp [ValOk]
  | keyword w kw ty v nx hk =>
    simp only [keywords, List.mem_cons, Prod.mk.injEq, List.not_mem_nil, or_false] at hk
    rcases hk with ⟨_, rfl, rfl⟩ | ⟨_, rfl, rfl⟩ | ⟨_, rfl, rfl⟩ | ⟨_, rfl, rfl⟩ | ⟨_, rfl, rfl⟩ |
      ⟨_, rfl, rfl⟩ | ⟨_, rfl, rfl⟩ | ⟨_, rfl, rfl⟩ | ⟨_, rfl, rfl⟩ <;> simp [ValOk]

theorem tokenizes_valOk {U : Uni} {text : Str} {pos : Nat} {ts : List Token}
    (h : Tokenizes U text pos ts) : ∀ t ∈ ts, ValOk t := by
  induction h with
  | done ws pos h => simp [ValOk]
  | tok ws w rest pos ty v toks h hw hr ih =>
    intro t ht
    simp only [List.mem_cons] at ht
    rcases ht with rfl | ht
    · exact lexeme_valOk _ hw
    · exact ih t ht

theorem policyOf_vals {U : Uni} {text : Str} {p : Policy} (h : PolicyOf U text p) : ∀ t ∈ p.tokens, ValOk t := by
  obtain ⟨ts, e, h1, h2⟩ := h
  intro t hm
  rw [← dpolicy_tokens h2, List.mem_filter] at hm
  exact tokenizes_valOk h1 t (by simp [hm.1])

theorem cmp_parts {p : Policy} (hw : p.WF) {c : Cmp} (hc : c ∈ p.cmps) :
    c.l.WF ∧ c.r.WF ∧ (∀ t ∈ c.l.tokens, t ∈ p.tokens) ∧ ∀ t ∈ c.r.tokens, t ∈ p.tokens := by
  induction p with
  | cmp l o r =>
    cases List.mem_singleton.mp hc
    exact ⟨hw.1, hw.2.2, fun t ht => List.mem_append_left _ ht, fun t ht => List.mem_append_right _ (List.mem_cons_of_mem _ ht)⟩
  | lit t => cases hc
  | att t => cases hc
  | not n p ih =>
    obtain ⟨h1, h2, h3, h4⟩ := ih hw.2 hc
    exact ⟨h1, h2, fun t ht => List.mem_cons_of_mem _ (h3 t ht), fun t ht => List.mem_cons_of_mem _ (h4 t ht)⟩
  | bin o p q ihp ihq =>
    rcases List.mem_append.mp hc with hc | hc
    · obtain ⟨h1, h2, h3, h4⟩ := ihp hw.2.1 hc
      exact ⟨h1, h2, fun t ht => List.mem_append_left _ (h3 t ht), fun t ht => List.mem_append_left _ (h4 t ht)⟩
    · obtain ⟨h1, h2, h3, h4⟩ := ihq hw.2.2 hc
      exact ⟨h1, h2, fun t ht => List.mem_append_right _ (List.mem_cons_of_mem _ (h3 t ht)),
        fun t ht => List.mem_append_right _ (List.mem_cons_of_mem _ (h4 t ht))⟩

/-- The literal types of the checker and of the promises are the same. -/
theorem simple_typed {U : Uni} {Γ : Promises} {x : Operand} (hw : x.WF) (hv : ∀ t ∈ x.tokens, ValOk t) (hs : x.Simple) :
    (∃ t, x = .att t ∧ x.kind = .att ∧ x.typed U Γ = .att (Γ (attKey U t))) ∨
    (x.kind = .number ∧ x.typed U Γ = .number ∧ (x.litType = .int ∨ x.litType = .float)) ∨
    (x.kind = .string ∧ x.typed U Γ = .text ∧ x.litType = .string) ∨
    (x.kind = .null ∧ x.typed U Γ = .null ∧ x.litType = .unknown) := by
  cases x with
  | att t => exact .inl ⟨t, rfl, rfl, rfl⟩
  | set l es => exact absurd hs id
  | atom t =>
    right
    obtain ⟨v1, v2, v3⟩ := hv t (by simp [Operand.tokens])
    obtain ⟨ty, pos, v⟩ := t
    simp only [Operand.Simple, constOf] at hs
    simp only [Operand.WF, AtomTok] at hw
    dsimp only at v1 v2 v3 hs hw
    rcases hw with rfl | rfl | rfl | rfl | ⟨h, _⟩
    · obtain ⟨i, rfl⟩ := v1 rfl
      left
      simp only [reduceCtorEq, if_false] at hs
      refine ⟨rfl, ?_, .inl rfl⟩
      simp only [Operand.typed, constOf, reduceCtorEq, if_false]
      split
      · rename_i h
        simp [h] at hs
      · rfl
    · obtain ⟨i, rfl⟩ := v2 rfl
      left
      simp only [reduceCtorEq, if_false] at hs
      refine ⟨rfl, ?_, .inr rfl⟩
      simp only [Operand.typed, constOf, reduceCtorEq, if_false]
      split
      · rename_i h
        simp [h] at hs
      · rfl
    · obtain ⟨i, rfl⟩ := v3 rfl
      right; left
      simp only [reduceCtorEq, if_false] at hs
      refine ⟨rfl, ?_, rfl⟩
      simp only [Operand.typed, constOf, reduceCtorEq, if_false]
      split
      · rename_i h
        simp [h] at hs
      · rfl
    · right; right
      exact ⟨rfl, rfl, rfl⟩
    · cases h

/-- What is needed of the operands of a comparison. -/
def Cmp.Read (c : Cmp) : Prop := c.l.WF ∧ c.r.WF ∧ (∀ t ∈ c.l.tokens, ValOk t) ∧ ∀ t ∈ c.r.tokens, ValOk t

theorem cmpTyped_ord {c : Cmp} (h : c.ordering) (a b : OperandType) : CmpTyped c.o a b ↔ OrdTyped a b := by
  simp only [Cmp.ordering, List.map_cons, List.map_nil, List.mem_cons, List.not_mem_nil, or_false] at h
  unfold CmpTyped Operates
  rcases h with h | h | h | h <;> simp [h]

theorem cmpTyped_eq {c : Cmp} (h : c.equality) (a b : OperandType) : CmpTyped c.o a b ↔ EqTyped a b := by
  simp only [Cmp.equality, List.map_cons, List.map_nil, List.mem_cons, List.not_mem_nil, or_false] at h
  unfold CmpTyped Operates
  rcases h with h | h <;> simp [h]

theorem eq_not_ord {c : Cmp} (h : c.equality) : ¬ c.ordering := by
  simp only [Cmp.equality, Cmp.ordering, List.map_cons, List.map_nil, List.mem_cons, List.not_mem_nil, or_false] at h ⊢
  rcases h with h | h <;> simp [h]

/-- Types of literals that are no sets. -/
def Basic (ty : SymType) : Prop := ty = .int ∨ ty = .float ∨ ty = .string

theorem kind_att (t : Token) : (Operand.att t).kind = .att := rfl

theorem typed_att (U : Uni) (Γ : Promises) (t : Token) : (Operand.att t).typed U Γ = .att (Γ (attKey U t)) := rfl

theorem promise_eq (p : Promise) : (Promise.number = p ↔ p = .number) ∧ (Promise.text = p ↔ p = .text) := ⟨eq_comm, eq_comm⟩

/-- A plain comparison is well typed if it does not clash and says of its attribute what is promised. -/
theorem plain_typed {U : Uni} {Γ : Promises} {c : Cmp} (hr : Cmp.Read c) (hp : c.Plain) :
    (CmpTyped c.o (c.l.typed U Γ) (c.r.typed U Γ) ↔
      ¬ c.clash ∧ ∀ t ty, c.evidence = some (t, ty) → promiseOf ty = Γ (attKey U t)) ∧
    ∀ t ty, c.evidence = some (t, ty) → Basic ty ∧ t ∈ c.l.atts ++ c.r.atts := by
  obtain ⟨l, o, r⟩ := c
  obtain ⟨h1, h2, h3, h4⟩ := hr
  obtain ⟨ho, p1, p2, p3, p4⟩ := hp
  dsimp only at *
  have hl := simple_typed (U := U) (Γ := Γ) h1 h3 p1
  have hr := simple_typed (U := U) (Γ := Γ) h2 h4 p2
  have hb : (⟨l, o, r⟩ : Cmp).ordering ∨ ((⟨l, o, r⟩ : Cmp).equality ∧ ¬ (⟨l, o, r⟩ : Cmp).ordering) := by
    rcases ho with ho | ho
    · exact .inl ho
    · exact .inr ⟨ho, eq_not_ord ho⟩
  have key : CmpTyped o (l.typed U Γ) (r.typed U Γ) ↔ if (⟨l, o, r⟩ : Cmp).ordering then
      OrdTyped (l.typed U Γ) (r.typed U Γ) else EqTyped (l.typed U Γ) (r.typed U Γ) := by
    rcases hb with hb | ⟨hb, hn⟩
    · rw [if_pos hb]; exact cmpTyped_ord hb _ _
    · rw [if_neg hn]; exact cmpTyped_eq hb _ _
  rw [key]
  unfold Cmp.evidence Cmp.clash
  dsimp only
  cases l with
  | set b es => exact absurd p1 id
  | att t =>
    cases r with
    | set b es => exact absurd p2 id
    | att u => exact absurd rfl (p3 rfl).1
    | atom u =>
      rcases hr with ⟨v, hv, _⟩ | ⟨m1, m2, m3⟩ | ⟨m1, m2, m3⟩ | ⟨m1, m2, m3⟩
      · cases hv
      · rw [m2]
        rcases hb with hb | ⟨hb, hn⟩
        · rcases m3 with m3 | m3 <;>
          simp [hb, m1, m3, kind_att, typed_att, OrdTyped, promiseOf, Basic, Operand.atts, promise_eq]
        · rcases m3 with m3 | m3 <;>
          simp [hb, hn, m1, m3, kind_att, typed_att, EqTyped, promiseOf, Basic, Operand.atts, promise_eq]
      · rw [m2]
        rcases hb with hb | ⟨hb, hn⟩
        · simp [hb, m1, m3, OrdTyped]
        · simp [hb, hn, m1, m3, kind_att, typed_att, EqTyped, promiseOf, Basic, Operand.atts, promise_eq]
      · exact absurd m1 (p3 rfl).2
  | atom t =>
    rcases hl with ⟨v, hv, _⟩ | ⟨k1, k2, k3⟩ | ⟨k1, k2, k3⟩ | ⟨k1, k2, k3⟩
    · cases hv
    · cases r with
      | set b es => exact absurd p2 id
      | att u =>
        rw [k2]
        rcases hb with hb | ⟨hb, hn⟩
        · rcases k3 with k3 | k3 <;>
          simp [hb, k1, k3, kind_att, typed_att, OrdTyped, promiseOf, Basic, Operand.atts, promise_eq]
        · rcases k3 with k3 | k3 <;>
          simp [hb, hn, k1, k3, kind_att, typed_att, EqTyped, promiseOf, Basic, Operand.atts, promise_eq]
      | atom u =>
        rcases hr with ⟨v, hv, _⟩ | ⟨m1, m2, m3⟩ | ⟨m1, m2, m3⟩ | ⟨m1, m2, m3⟩
        · cases hv
        all_goals
          rcases hb with hb | ⟨hb, hn⟩
          · simp [hb, k1, k2, m1, m2, OrdTyped]
          · simp [hb, hn, k1, k2, m1, m2, EqTyped]
    · cases r with
      | set b es => exact absurd p2 id
      | att u =>
        rw [k2]
        rcases hb with hb | ⟨hb, hn⟩
        · simp [hb, k1, OrdTyped]
        · simp [hb, hn, k1, k3, kind_att, typed_att, EqTyped, promiseOf, Basic, Operand.atts, promise_eq]
      | atom u =>
        rcases hr with ⟨v, hv, _⟩ | ⟨m1, m2, m3⟩ | ⟨m1, m2, m3⟩ | ⟨m1, m2, m3⟩
        · cases hv
        all_goals
          rcases hb with hb | ⟨hb, hn⟩
          · simp [hb, k1, k2, m1, m2, OrdTyped]
          · simp [hb, hn, k1, k2, m1, m2, EqTyped]
    · cases r with
      | set b es => exact absurd p2 id
      | att u => exact absurd k1 (p4 rfl)
      | atom u =>
        rcases hr with ⟨v, hv, _⟩ | ⟨m1, m2, m3⟩ | ⟨m1, m2, m3⟩ | ⟨m1, m2, m3⟩
        · cases hv
        all_goals
          rcases hb with hb | ⟨hb, hn⟩
          · simp [hb, k1, k2, m1, m2, OrdTyped]
          · simp [hb, hn, k1, k2, m1, m2, EqTyped]

theorem condTyped_iff {U : Uni} {Γ : Promises} (p : Policy) : CondTyped U Γ p ↔
    (∀ c ∈ p.cmps, CmpTyped c.o (c.l.typed U Γ) (c.r.typed U Γ)) ∧ (∀ t ∈ p.bare, Γ (attKey U t) = .truth) ∧
    ∀ t ∈ p.lits, litTri U t = .true := by
  induction p with
  | cmp l o r => simp [CondTyped, Policy.cmps, Policy.bare, Policy.lits]
  | lit t => simp [CondTyped, Policy.cmps, Policy.bare, Policy.lits]
  | att t => simp [CondTyped, Policy.cmps, Policy.bare, Policy.lits]
  | not n p ih => simpa [CondTyped, Policy.cmps, Policy.bare, Policy.lits] using ih
  | bin o p q ihp ihq =>
    simp only [CondTyped, ihp, ihq, Policy.cmps, Policy.bare, Policy.lits, List.mem_append]
    constructor
    · rintro ⟨⟨a, b, c⟩, a', b', c'⟩
      exact ⟨fun x hx => hx.elim (a x) (a' x), fun x hx => hx.elim (b x) (b' x), fun x hx => hx.elim (c x) (c' x)⟩
    · rintro ⟨a, b, c⟩
      exact ⟨⟨fun x hx => a x (.inl hx), fun x hx => b x (.inl hx), fun x hx => c x (.inl hx)⟩,
        fun x hx => a x (.inr hx), fun x hx => b x (.inr hx), fun x hx => c x (.inr hx)⟩

theorem wellTyped_iff {U : Uni} {Γ : Promises} {p : Policy} (h : ∀ t, p ≠ .lit t) : PromiseTyped U Γ p ↔ CondTyped U Γ p := by
  cases p with
  | lit t => exact absurd rfl (h t)
  | _ => exact Iff.rfl

/-- The inferred type comes from one of the comparisons. -/
theorem typeAt_from {U : Uni} {cs : List Cmp} {k : Str} (h : typeAt U cs k ≠ .unknown) :
    ∃ c ∈ cs, ∃ t, c.evidence = some (t, typeAt U cs k) ∧ attKey U t = k := by
  unfold typeAt at h ⊢
  cases hf : cs.findSome? fun c => c.evidence.bind fun e =>
    if attKey U e.1 = k ∧ e.2 ≠ .unknown then some e.2 else none with
  | none => rw [hf] at h; exact absurd rfl h
  | some ty =>
    obtain ⟨c, hc, he⟩ := List.exists_of_findSome?_eq_some hf
    refine ⟨c, hc, ?_⟩
    cases hv : c.evidence with
    | none => rw [hv] at he; cases he
    | some e =>
      rw [hv] at he
      obtain ⟨t, ty'⟩ := e
      simp only [Option.bind_some] at he
      split at he
      · rename_i hk
        cases he
        exact ⟨t, rfl, hk.1⟩
      · cases he

theorem typeAt_more {U : Uni} {a b : List Cmp} {k : Str} (h : typeAt U a k ≠ .unknown) : typeAt U (a ++ b) k = typeAt U a k := by
  unfold typeAt at h ⊢
  rw [List.findSome?_append]
  cases hf : a.findSome? fun c => c.evidence.bind fun e =>
    if attKey U e.1 = k ∧ e.2 ≠ .unknown then some e.2 else none with
  | none => rw [hf] at h; exact absurd rfl h
  | some ty => rfl

theorem typeAt_next {U : Uni} {a b : List Cmp} {c : Cmp} {t : Token} {ty : SymType} (h : typeAt U a (attKey U t) = .unknown)
    (he : c.evidence = some (t, ty)) (hn : ty ≠ .unknown) : typeAt U (a ++ c :: b) (attKey U t) = ty := by
  have hno : a.findSome? (fun c => c.evidence.bind fun e =>
      if attKey U e.1 = attKey U t ∧ e.2 ≠ .unknown then some e.2 else none) = none := by
    by_contra hx
    cases hf : a.findSome? fun c => c.evidence.bind fun e =>
      if attKey U e.1 = attKey U t ∧ e.2 ≠ .unknown then some e.2 else none with
    | none => exact hx hf
    | some x =>
      have : typeAt U a (attKey U t) = x := by unfold typeAt; rw [hf]; rfl
      rw [h] at this
      subst this
      obtain ⟨c', _, he'⟩ := List.exists_of_findSome?_eq_some hf
      cases hv : c'.evidence with
      | none => rw [hv] at he'; cases he'
      | some e =>
        rw [hv] at he'
        simp only [Option.bind_some] at he'
        split at he'
        · rename_i hk
          exact hk.2 (Option.some.inj he')
        · cases he'
  unfold typeAt
  rw [List.findSome?_append, hno]
  simp [he, hn]

/-- Types of the same promise can be compared. -/
theorem basic_compatible {a b : SymType} (ha : Basic a) (hb : Basic b) : Compatible a b ↔ promiseOf a = promiseOf b := by
  rcases ha with rfl | rfl | rfl <;> rcases hb with rfl | rfl | rfl <;> simp [Compatible, promiseOf]

theorem basic_known {a : SymType} (ha : Basic a) : a ≠ .unknown := by
  rcases ha with rfl | rfl | rfl <;> decide

/-- Doubts about a comparison with evidence are about the type of its attribute. -/
theorem doubtful_evidence {U : Uni} {prior : List Cmp} {c : Cmp} (hp : c.Plain) :
    c.doubtful U prior ↔ ∃ t ty, c.evidence = some (t, ty) ∧ typeAt U prior (attKey U t) ≠ .unknown ∧
      ¬ Compatible (typeAt U prior (attKey U t)) ty := by
  obtain ⟨l, o, r⟩ := c
  obtain ⟨ho, _, _, p3, _⟩ := hp
  unfold Cmp.doubtful Cmp.evidence
  by_cases hc : (⟨l, o, r⟩ : Cmp).clash
  · simp [hc]
  · cases l <;> cases r <;> simp [ho, hc]
    exact absurd rfl (p3 rfl).1

theorem report_none {U : Uni} {prior : List Cmp} {c : Cmp} : c.report U prior = none ↔ ¬ c.clash ∧ ¬ c.doubtful U prior := by
  unfold Cmp.report
  split
  · simp [*]
  · split <;> simp [*]

theorem reports_nil {U : Uni} {prior : List Cmp} {c : Cmp} {cs : List Cmp} :
    reports U prior (c :: cs) = [] ↔ (¬ c.clash ∧ ¬ c.doubtful U prior) ∧ reports U (prior ++ [c]) cs = [] := by
  rw [← report_none]
  simp only [reports, List.append_eq_nil_iff]
  cases c.report U prior <;> simp

/-- No reports: no clash, and all that is said of an attribute fits what is inferred. -/
theorem silent_fits {U : Uni} (cs : List Cmp) : ∀ prior, (∀ c ∈ cs, c.Plain ∧ Cmp.Read c) → reports U prior cs = [] →
    ∀ c ∈ cs, ¬ c.clash ∧ ∀ t ty, c.evidence = some (t, ty) → Compatible (typeAt U (prior ++ cs) (attKey U t)) ty := by
  induction cs with
  | nil => intro _ _ _ c hc; cases hc
  | cons a cs ih =>
    intro prior hp hr c hc
    obtain ⟨⟨h1, h2⟩, h3⟩ := reports_nil.mp hr
    rcases List.mem_cons.mp hc with rfl | hc
    · refine ⟨h1, fun t ty he => ?_⟩
      obtain ⟨hpl, hrd⟩ := hp _ (List.mem_cons_self ..)
      have hb := ((plain_typed (U := U) (Γ := fun _ => .truth) hrd hpl).2 t ty he).1
      by_cases hu : typeAt U prior (attKey U t) = .unknown
      · rw [typeAt_next hu he (basic_known hb)]
        exact .inl rfl
      · rw [typeAt_more hu]
        by_contra hn
        exact h2 ((doubtful_evidence hpl).mpr ⟨t, ty, he, hu, hn⟩)
    · have := ih (prior ++ [a]) (fun x hx => hp x (List.mem_cons_of_mem _ hx)) h3 c hc
      rwa [List.append_assoc] at this

/-- Well typed comparisons are not reported. -/
theorem typed_silent {U : Uni} {Γ : Promises} (cs : List Cmp) : ∀ prior,
    (∀ c ∈ prior ++ cs, c.Plain ∧ Cmp.Read c ∧ CmpTyped c.o (c.l.typed U Γ) (c.r.typed U Γ)) → reports U prior cs = [] := by
  induction cs with
  | nil => intro _ _; rfl
  | cons a cs ih =>
    intro prior h
    refine reports_nil.mpr ⟨?_, ih _ fun c hc => h c (by simpa using hc)⟩
    obtain ⟨hp, hr, ht⟩ := h a (by simp)
    obtain ⟨h1, h2⟩ := plain_typed (U := U) (Γ := Γ) hr hp
    obtain ⟨h3, h4⟩ := h1.mp ht
    refine ⟨h3, fun hd => ?_⟩
    obtain ⟨t, ty, he, hu, hn⟩ := (doubtful_evidence hp).mp hd
    obtain ⟨c, hc, u, hue, huk⟩ := typeAt_from hu
    obtain ⟨hcp, hcr, hct⟩ := h c (List.mem_append_left _ hc)
    obtain ⟨g1, g2⟩ := plain_typed (U := U) (Γ := Γ) hcr hcp
    have := (g1.mp hct).2 u _ hue
    rw [huk, ← h4 t ty he] at this
    exact hn ((basic_compatible (g2 u _ hue).1 (h2 t ty he).1).mpr this)

theorem policyOf_read {U : Uni} {text : Str} {p : Policy} (hp : PolicyOf U text p) : ∀ c ∈ p.cmps, Cmp.Read c := by
  intro c hc
  obtain ⟨h1, h2, h3, h4⟩ := cmp_parts (policyOf_ok hp).1 hc
  exact ⟨h1, h2, fun t ht => policyOf_vals hp t (h3 t ht), fun t ht => policyOf_vals hp t (h4 t ht)⟩

theorem silent_inferred {U : Uni} {text : Str} {p : Policy} (hp : PolicyOf U text p) (hpl : p.Plain U)
    (h : reports U [] p.cmps = []) : PromiseTyped U (inferred U p) p := by
  have hrd := policyOf_read hp
  rw [wellTyped_iff hpl.1, condTyped_iff]
  refine ⟨fun c hc => ?_, fun t ht => ?_, hpl.2.2.1⟩
  · obtain ⟨h1, h2⟩ := silent_fits p.cmps [] (fun c hc => ⟨hpl.2.1 c hc, hrd c hc⟩) h c hc
    obtain ⟨g1, g2⟩ := plain_typed (U := U) (Γ := inferred U p) (hrd c hc) (hpl.2.1 c hc)
    refine g1.mpr ⟨h1, fun t ty he => ?_⟩
    have hcomp := h2 t ty he
    rw [List.nil_append] at hcomp
    have hb := (g2 t ty he).1
    have hu : typeAt U p.cmps (attKey U t) ≠ .unknown := by
      intro hu
      rw [hu] at hcomp
      rcases hb with rfl | rfl | rfl <;> simp [Compatible] at hcomp
    obtain ⟨c', hc', u, hue, _⟩ := typeAt_from hu
    have hb' := ((plain_typed (U := U) (Γ := inferred U p) (hrd c' hc') (hpl.2.1 c' hc')).2 u _ hue).1
    exact ((basic_compatible hb' hb).mp hcomp).symm
  · have : typeAt U p.cmps (attKey U t) = .unknown := by
      by_contra hu
      obtain ⟨c, hc, u, hue, huk⟩ := typeAt_from hu
      have hm := ((plain_typed (U := U) (Γ := inferred U p) (hrd c hc) (hpl.2.1 c hc)).2 u _ hue).2
      exact hpl.2.2.2 t ht c hc u hm huk.symm
    unfold inferred
    rw [this]
    rfl

/-- Type checking a text gives PASS. -/
def Passes (U : Uni) (h : Heap) (r k : Nat) (level : Option Int) (text : Str) : Prop :=
  ∃ s o, checkText U h r k level text = .ok (s, o) ∧ s.getResult = .pass

theorem passes_iff {U : Uni} (hU : U.Lawful) (h : Heap) (r k : Nat) (level : Option Int) {text : Str} {p : Policy}
    (hp : PolicyOf U text p) (hf : FoldsAll U p) : Passes U h r k level text ↔ reports U [] p.cmps = [] := by
  obtain ⟨s, h1, h2, h3, _⟩ := (check_refines U hU h r k level text).2 p hp hf
  have hg : s.getResult = .pass ↔ reports U [] p.cmps = [] := by
    unfold TC.getResult
    rw [h2, h3]
    simp only [Bool.true_eq_false, if_false, List.length_map, List.length_eq_zero_iff]
    split
    · simp [*]
    · rename_i hne
      simp only [hne, iff_false]
      split <;> simp
  constructor
  · rintro ⟨s', o, h4, h5⟩
    rw [h1] at h4
    cases h4
    exact hg.mp h5
  · exact fun h => ⟨s, _, h1, hg.mpr h⟩

/-- **C145**: the type checker passes a plain policy exactly if there are promises under which it always decides, -/
theorem plain_passes {U : Uni} (hU : U.Lawful) (h : Heap) (r k : Nat) (level : Option Int) {text : Str} {p : Policy}
    (hp : PolicyOf U text p) (hf : FoldsAll U p) (hpl : p.Plain U) :
    Passes U h r k level text ↔ ∃ Γ, PromiseTyped U Γ p := by
  rw [passes_iff hU h r k level hp hf]
  constructor
  · exact fun hs => ⟨_, silent_inferred hp hpl hs⟩
  · rintro ⟨Γ, hw⟩
    rw [wellTyped_iff hpl.1, condTyped_iff] at hw
    exact typed_silent p.cmps [] fun c hc => ⟨hpl.2.1 c hc, policyOf_read hp c hc, hw.1 c hc⟩

/-- **C145**: and then it decides in every table in which the attributes hold what the checker inferred. -/
theorem plain_decides {U : Uni} (hU : U.Lawful) (h : Heap) (r k : Nat) (level : Option Int) {text : Str} {p : Policy}
    (hp : PolicyOf U text p) (hf : FoldsAll U p) (hpl : p.Plain U) (hpass : Passes U h r k level text)
    {E : SymEnv} (hE : SymEnv.SetsOk E) (hk : KeptBy U (inferred U p) (attsOf U E) p.atts) (level' : Option Int) (k' : Nat) :
    Decides U E level' k' text :=
  typed_decides hU hp (silent_inferred hp hpl ((passes_iff hU h r k level hp hf).mp hpass)) hE hk level' k'

/-! ### What the type checker misses -/

/-- **C145**: an attribute may be compared with a set literal by `=`, `!=` and the orderings, and with NULL by `=` and `!=`, without
a report, though no promise makes such a comparison a decision. -/
theorem missed {U : Uni} (hU : U.Lawful) (h : Heap) (r k : Nat) (level : Option Int) {text : Str} {t o : Token} {v : Operand}
    (hp : PolicyOf U text (.cmp (.att t) o v)) (hf : Folds U t) (hv : (∃ b es, v = .set b es) ∧
      ((⟨.att t, o, v⟩ : Cmp).ordering ∨ (⟨.att t, o, v⟩ : Cmp).equality) ∨
      (∃ u, v = .atom u ∧ u.type = .null) ∧ (⟨.att t, o, v⟩ : Cmp).equality) :
    Passes U h r k level text ∧ ∀ Γ, ¬ PromiseTyped U Γ (.cmp (.att t) o v) := by
  have hno : ∀ Γ b es, ∃ n, Operand.typed U Γ (.set b es) = .set n ∨ Operand.typed U Γ (.set b es) = .rejected := by
    intro Γ b es
    simp only [Operand.typed]
    split
    · exact ⟨false, .inr rfl⟩
    · exact ⟨_, .inl rfl⟩
  rw [passes_iff hU h r k level hp (by intro u hu; rcases hv with ⟨⟨b, es, rfl⟩, _⟩ | ⟨⟨u', rfl, _⟩, _⟩ <;>
    (simp only [Policy.attToks, Operand.attToks, List.append_nil, List.mem_singleton] at hu; exact hu ▸ hf))]
  show reports U [] [⟨.att t, o, v⟩] = [] ∧ _
  rw [reports_nil]
  have hd : ¬ (⟨.att t, o, v⟩ : Cmp).doubtful U [] := by
    rcases hv with ⟨⟨b, es, rfl⟩, _⟩ | ⟨⟨u', rfl, _⟩, _⟩ <;> simp [Cmp.doubtful, typeAt]
  refine ⟨⟨⟨?_, hd⟩, rfl⟩, fun Γ hw => ?_⟩
  · rcases hv with ⟨⟨b, es, rfl⟩, ho⟩ | ⟨⟨u, rfl, hu⟩, ho⟩
    · rcases ho with ho | ho
      · simp [Cmp.clash, ho, Operand.kind]
      · simp [Cmp.clash, ho, eq_not_ord ho, Operand.kind]
    · simp [Cmp.clash, ho, eq_not_ord ho, Operand.kind]
  · have hw : CmpTyped o (.att (Γ (attKey U t))) (v.typed U Γ) := hw
    rcases hv with ⟨⟨b, es, rfl⟩, ho⟩ | ⟨⟨u, rfl, hu⟩, ho⟩
    · obtain ⟨n, hn⟩ := hno Γ b es
      rcases ho with ho | ho
      · rw [cmpTyped_ord (c := ⟨.att t, o, .set b es⟩) ho] at hw
        rcases hn with hn | hn <;> simp [hn, OrdTyped] at hw
      · rw [cmpTyped_eq (c := ⟨.att t, o, .set b es⟩) ho] at hw
        rcases hn with hn | hn <;> simp [hn, EqTyped] at hw
    · rw [cmpTyped_eq (c := ⟨.att t, o, .atom u⟩) ho] at hw
      have : Operand.typed U Γ (.atom u) = .null := by simp [Operand.typed, constOf, hu, constType]
      simp [this, EqTyped] at hw

/-- An attribute and a set literal: no answer, by whatever value. -/
theorem set_unanswered {A : Atts} {t b : Token} {es : List Token} {o : Token} (U : Uni)
    (ho : (⟨.att t, o, .set b es⟩ : Cmp).ordering ∨ (⟨.att t, o, .set b es⟩ : Cmp).equality) :
    ¬ Decided (semPolicy U A (.cmp (.att t) o (.set b es))) := by
  have hne : ∀ w d, semAtt A t = (w, d) → ∃ x, d = .ok x ∧ ((∀ a, x ≠ .const a) ∧ ∀ l, x ≠ .lit l) := by
    intro w d h
    have hv : ∀ v, (∀ a, valueDen v ≠ .const a) ∧ ∀ l, valueDen v ≠ .lit l := by
      intro v
      cases v with
      | sc x => cases x <;> simp [valueDen]
      | set l => simp [valueDen]
      | list l => simp only [valueDen]; split <;> simp
    unfold semAtt at h
    split at h
    · cases h; exact ⟨_, rfl, by simp, by simp⟩
    · cases h; exact ⟨_, rfl, by simp, by simp⟩
    · dsimp only at h
      split at h
      · cases h; exact ⟨_, rfl, hv _⟩
      · cases h; exact ⟨_, rfl, by simp, by simp⟩
  rcases hs : semAtt A t with ⟨w, d⟩
  obtain ⟨x, rfl, h1, h2⟩ := hne w d hs
  have hcmp : ∀ l, ¬ Decided (semCmp o x (.lit l)) := by
    intro l
    unfold semCmp
    split
    · simp [Decided, Eff.pure]
    · simp only [Cmp.ordering, Cmp.equality, List.map_cons, List.map_nil, List.mem_cons, List.not_mem_nil, or_false] at ho
      rcases ho with (ho | ho | ho | ho) | (ho | ho)
      all_goals
        rw [ho]
        simp only [operators, List.find?, String.toList_inj, TVal.str.injEq, String.reduceEq, decide_true, decide_false]
        rw [answer_decided]
      · cases x <;> simp [semOrd, Den.number]
      · cases x <;> simp [semOrd, Den.number]
      · cases x <;> simp [semOrd, Den.number]
      · cases x <;> simp [semOrd, Den.number]
      · cases x <;> simp_all [semEq]
      · rw [neg_decided]
        cases x <;> simp_all [semEq]
  unfold semPolicy sem
  simp only [semOperand, hs]
  intro hd
  cases he : semElems es with
  | error e => rw [he] at hd; simp [Decided, Eff.bind, Except.map] at hd
  | ok l =>
    rw [he] at hd
    simp only [Eff.bind, Except.map] at hd
    refine hcmp l ?_
    rcases hc : semCmp o x (.lit l) with ⟨w', d'⟩
    rw [hc] at hd
    unfold Decided at hd ⊢
    simp only [List.nil_append, Prod.mk.injEq, List.append_eq_nil_iff] at hd
    rcases hd with ⟨⟨_, rfl⟩, rfl⟩ | ⟨⟨_, rfl⟩, rfl⟩
    · exact .inl rfl
    · exact .inr rfl

/-- **C145**: whatever the attributes are, an attribute compared with a set literal in this way gives no decision. -/
theorem set_never {U : Uni} (hU : U.Lawful) {text : Str} {t o b : Token} {es : List Token}
    (hp : PolicyOf U text (.cmp (.att t) o (.set b es)))
    (ho : (⟨.att t, o, .set b es⟩ : Cmp).ordering ∨ (⟨.att t, o, .set b es⟩ : Cmp).equality)
    {E : SymEnv} (hE : SymEnv.SetsOk E) (level : Option Int) (k : Nat) : ¬ Decides U E level k text :=
  fun h => set_unanswered U ho ((decides_iff hU hE hp).mp h)

/-- **C145**: an attribute compared by `=` with a number and afterwards with an attribute of which nothing is known gets a warning,
though the policy decides whenever both hold numbers. -/
theorem warned {U : Uni} (hU : U.Lawful) (h : Heap) (r k : Nat) (level : Option Int) {text : Str} {o o1 o2 t u w n : Token}
    (hp : PolicyOf U text (.bin o (.cmp (.att t) o1 (.atom n)) (.cmp (.att u) o2 (.att w))))
    (hf : Folds U t ∧ Folds U u ∧ Folds U w) (h1 : o1.value = .str "=".toList) (h2 : o2.value = .str "=".toList)
    (hn : n.type = .int) (hc : constOf n ≠ none) (hk : attKey U u = attKey U t) (hd : attKey U w ≠ attKey U t) :
    ¬ Passes U h r k level text ∧
    PromiseTyped U (fun _ => .number) (.bin o (.cmp (.att t) o1 (.atom n)) (.cmp (.att u) o2 (.att w))) := by
  rw [passes_iff hU h r k level hp (by
    intro x hx
    simp only [Policy.attToks, Operand.attToks, List.append_nil, List.mem_append, List.mem_singleton, List.cons_append,
      List.nil_append, List.mem_cons, List.not_mem_nil, or_false] at hx
    rcases hx with rfl | rfl | rfl
    · exact hf.1
    · exact hf.2.1
    · exact hf.2.2)]
  have e1 : (⟨.att t, o1, .atom n⟩ : Cmp).equality := by simp [Cmp.equality, h1]
  have e2 : (⟨.att u, o2, .att w⟩ : Cmp).equality := by simp [Cmp.equality, h2]
  have ev : (⟨.att t, o1, .atom n⟩ : Cmp).evidence = some (t, .int) := by
    simp [Cmp.evidence, e1, eq_not_ord e1, Cmp.clash, Operand.kind, Operand.litType, hn]
  constructor
  · show ¬ reports U [] [⟨.att t, o1, .atom n⟩, ⟨.att u, o2, .att w⟩] = []
    intro hr
    obtain ⟨_, hr⟩ := reports_nil.mp hr
    obtain ⟨⟨_, hr⟩, _⟩ := reports_nil.mp hr
    refine hr ⟨.inr e2, by simp [Cmp.clash, e2, eq_not_ord e2, Operand.kind], ?_⟩
    dsimp only
    rw [hk]
    simp [typeAt, ev, Ne.symm hd, Compatible]
  · obtain ⟨v1, _⟩ := policyOf_vals hp n (by simp [Policy.tokens, Operand.tokens])
    obtain ⟨i, hi⟩ := v1 hn
    refine ⟨(cmpTyped_eq e1 _ _).mpr ?_, (cmpTyped_eq e2 _ _).mpr ?_⟩
    · have : Operand.typed U (fun _ => .number) (.atom n) = .number := by
        obtain ⟨ty, ps, v⟩ := n
        dsimp only at hn hi
        subst hn; subst hi
        simp only [constOf, reduceCtorEq, if_false] at hc
        simp only [Operand.typed, constOf, reduceCtorEq, if_false]
        split
        · rename_i hx
          simp [hx] at hc
        · rfl
      show EqTyped (.att .number) _
      rw [this]
      exact .inl ⟨rfl, rfl⟩
    · exact .inr (.inr ⟨fun h => (by cases h), _, rfl, fun h => (by cases h)⟩)

/-! ### Instances -/

def typedAtt (pos : Int) (name : String) : Token := ⟨.usrAtt, pos, .str name.toList⟩
def typedOp (pos : Int) (op : String) : Token := ⟨.op, pos, .str op.toList⟩

def typedAnd (pos : Int) : Token := ⟨.boolOp, pos, .str "AND".toList⟩
def typedOne (pos : Int) : Token := ⟨.int, pos, .int 1⟩

/-- `user.a = 1 AND user.b` -/
def typedPlain : Policy :=
  .bin (typedAnd 11) (.cmp (.att (typedAtt 0 "a")) (typedOp 7 "=") (.atom (typedOne 9))) (.att (typedAtt 15 "b"))

theorem typedPlain_of : PolicyOf asciiUni "user.a = 1 AND user.b".toList typedPlain := by
  have h : lexTokens asciiUni "user.a = 1 AND user.b".toList = .ok (⟨.start, 0, .none⟩ :: ((([typedAtt 0 "a"] ++ typedOp 7 "=" ::
      [typedOne 9]) ++ typedAnd 11 :: [typedAtt 15 "b"]) ++ [⟨.«end», 21, .none⟩])) := by decide +kernel
  obtain ⟨ts, h1, h2⟩ := (lexer_refines_grammar asciiUni asciiUni_lawful _ _).1 h
  simp only [List.cons.injEq, true_and] at h1
  subst h1
  exact ⟨_, _, h2, .term (.and (.exp (.cmp (.att (by decide)) rfl (.atom (by decide)))) (by decide) (.att (by decide)))⟩

/-- It is plain. -/
example : typedPlain.Plain asciiUni := by
  refine ⟨fun t h => (by cases h), fun c hc => ?_, fun t ht => (by cases ht), ?_⟩
  · cases List.mem_singleton.mp hc
    exact ⟨.inr (by decide), trivial, (by show constOf _ ≠ none; decide), fun _ => (by decide), fun h => (by cases h)⟩
  · intro t ht c hc u hu
    cases List.mem_singleton.mp ht
    cases List.mem_singleton.mp hc
    cases List.mem_singleton.mp hu
    decide +kernel

/-- It passes, and decides where `user.a` is a number and `user.b` a truth value. -/
example : ((checkText asciiUni (fun _ => ⟨.unknown, .unkAtt, .sc .none, [], []⟩) 0 0 (some 4) "user.a = 1 AND user.b".toList).map
      fun x => x.1.getResult) = .ok .pass ∧
    (inferred asciiUni typedPlain "user.a".toList = .number ∧ inferred asciiUni typedPlain "user.b".toList = .truth) ∧
    ((evaluateText asciiUni (promiseEnv asciiUni (inferred asciiUni typedPlain) typedPlain) (some 3) 0
      "user.a = 1 AND user.b".toList).map fun x => (x.1.warnings, x.2)) = .ok ([], .ok (.tri .true)) := by decide +kernel

/-- With the promises the other way round it is not well typed, and gives no decision. -/
example : ¬ PromiseTyped asciiUni (fun k => if k = "user.a".toList then .truth else .number) typedPlain ∧
    ((evaluateText asciiUni (promiseEnv asciiUni (fun k => if k = "user.a".toList then .truth else .number) typedPlain) (some 3) 0
      "user.a = 1 AND user.b".toList).map fun x => (x.1.warnings.length, x.2)) ≠ .ok (0, .ok (.tri .true)) := by
  refine ⟨fun h => ?_, by decide +kernel⟩
  have h : Promise.number = .truth := h.2
  cases h

/-- `user.a = {1}` -/
theorem typedSet_of : PolicyOf asciiUni "user.a = {1}".toList
    (.cmp (.att (typedAtt 0 "a")) (typedOp 7 "=") (.set ⟨.lset, 9, .none⟩ [typedOne 10])) := by
  have h : lexTokens asciiUni "user.a = {1}".toList = .ok (⟨.start, 0, .none⟩ :: (([typedAtt 0 "a"] ++ typedOp 7 "=" ::
      (⟨.lset, 9, .none⟩ :: ([typedOne 10] ++ [⟨.rset, 11, .none⟩]))) ++ [⟨.«end», 12, .none⟩])) := by decide +kernel
  obtain ⟨ts, h1, h2⟩ := (lexer_refines_grammar asciiUni asciiUni_lawful _ _).1 h
  simp only [List.cons.injEq, true_and] at h1
  subst h1
  exact ⟨_, _, h2, .term (.exp (.cmp (.att (by decide)) rfl (.set rfl (.one (by decide)) rfl)))⟩

/-- It passes, and there are no promises for it. -/
example (h : Heap) (level : Option Int) : Passes asciiUni h 0 0 level "user.a = {1}".toList ∧
    ∀ Γ, ¬ PromiseTyped asciiUni Γ (.cmp (.att (typedAtt 0 "a")) (typedOp 7 "=") (.set ⟨.lset, 9, .none⟩ [typedOne 10])) :=
  missed asciiUni_lawful h 0 0 level typedSet_of (by unfold Folds; decide +kernel)
    (.inl ⟨⟨_, _, rfl⟩, .inr (by simp [Cmp.equality, typedOp])⟩)

/-- It does not decide where the attribute holds this very set either. -/
example (level : Option Int) : ¬ Decides asciiUni ⟨⟨[("user.a".toList, 0)]⟩, fun _ => ⟨.set, .usrAtt, .set [.atom (.int 1)], [], []⟩⟩ level 0
    "user.a = {1}".toList :=
  set_never asciiUni_lawful typedSet_of (.inr (by simp [Cmp.equality, typedOp])) (fun r l h => by cases h; decide) level 0

/-- `user.a = 1 AND user.a = user.b` -/
theorem typedPair_of : PolicyOf asciiUni "user.a = 1 AND user.a = user.b".toList
    (.bin (typedAnd 11) (.cmp (.att (typedAtt 0 "a")) (typedOp 7 "=") (.atom (typedOne 9)))
      (.cmp (.att (typedAtt 15 "a")) (typedOp 22 "=") (.att (typedAtt 24 "b")))) := by
  have h : lexTokens asciiUni "user.a = 1 AND user.a = user.b".toList = .ok (⟨.start, 0, .none⟩ :: ((([typedAtt 0 "a"] ++
      typedOp 7 "=" :: [typedOne 9]) ++ typedAnd 11 :: ([typedAtt 15 "a"] ++ typedOp 22 "=" :: [typedAtt 24 "b"])) ++
      [⟨.«end», 30, .none⟩])) := by decide +kernel
  obtain ⟨ts, h1, h2⟩ := (lexer_refines_grammar asciiUni asciiUni_lawful _ _).1 h
  simp only [List.cons.injEq, true_and] at h1
  subst h1
  exact ⟨_, _, h2, .term (.and (.exp (.cmp (.att (by decide)) rfl (.atom (by decide)))) (by decide)
    (.cmp (.att (by decide)) rfl (.att (by decide))))⟩

/-- It does not pass, and always decides if both are numbers. -/
example (h : Heap) (level : Option Int) : ¬ Passes asciiUni h 0 0 level "user.a = 1 AND user.a = user.b".toList :=
  (warned asciiUni_lawful h 0 0 level typedPair_of
    ⟨by unfold Folds; decide +kernel, by unfold Folds; decide +kernel, by unfold Folds; decide +kernel⟩ rfl rfl rfl (by decide)
    (by decide +kernel) (by decide +kernel)).1

end Verif.Props
