import Verif.Spec.Certain
import Verif.Props.Laws
import Verif.Props.Typing
/-!
# C156: policies that mention each attribute once decide as soon as the decision is certain
-/

namespace Verif.Props
open Verif Verif.Spec Verif.Proofs

/-- A truth value from an answer. -/
def triOf (b : Bool) : Tri := if b then .true else .false

theorem semCmp_answer {o : Token} {e : String × String × (Den → Den → Answer)} (he : e ∈ operators) (hv : o.value = .str e.1.toList)
    {x y : Den} (hx : x ≠ .truth .undef) (hy : y ≠ .truth .undef) {b : Bool} (h : e.2.2 x y = .ok (some b)) :
    semCmp o x y = ([], .ok (.truth (triOf b))) := by
  have hu : ¬ (x = .truth .undef ∨ y = .truth .undef) := fun h => h.elim hx hy
  unfold semCmp
  rw [if_neg hu]
  simp only [operators, List.mem_cons, List.not_mem_nil, or_false] at he
  rcases he with rfl | rfl | rfl | rfl | rfl | rfl | rfl | rfl
  all_goals
    rw [hv]
    simp only [operators, List.find?, String.toList_inj, TVal.str.injEq, String.reduceEq, decide_true, decide_false]
    dsimp only at h
    rw [h]
    cases b <;> rfl

/-! ### Values for missing attributes -/

/-- A value a symbol can have: sets hold hashable values. -/
def SetVal (v : PyVal) : Prop := ∀ l, v = .set l → l.all Scalar.hashable = true

/-- A value that keeps the promise and makes the comparison come out this way. -/
def Chosen (p : Promise) (f : Den → Eff Den) (b : Bool) : Prop :=
  ∃ ty val d, SetVal val ∧ p.Kept (some (ty, val)) ∧
    (∀ (A : Atts) t, A t.type (attName t) = some (ty, val) → semAtt A t = ([], .ok d)) ∧ f d = ([], .ok (.truth (triOf b)))

theorem chosen_number {f : Den → Eff Den} {b : Bool} (a : Atom) (hn : (Scalar.atom a).num.isSome = true)
    (h : f (.single (.atom a)) = ([], .ok (.truth (triOf b)))) : Chosen .number f b := by
  refine ⟨.float, .sc (.atom a), .single (.atom a), fun _ h => (by cases h), ⟨_, _, rfl, .inr rfl, hn⟩, fun A t ht => ?_, h⟩
  unfold semAtt
  rw [ht]
  dsimp only
  rw [if_pos (show fits .float (.sc (.atom a)) = true from hn)]
  rfl

theorem chosen_text {f : Den → Eff Den} {b : Bool} (s : Str)
    (h : f (.single (.atom (.str s))) = ([], .ok (.truth (triOf b)))) : Chosen .text f b := by
  refine ⟨.string, .sc (.atom (.str s)), _, fun _ h => (by cases h), ⟨_, rfl⟩, fun A t ht => ?_, h⟩
  unfold semAtt
  rw [ht]
  rfl

theorem chosen_truth (b : Bool) : Chosen .truth (fun d => ([], .ok d)) b := by
  cases b
  · exact ⟨.bool, .sc (.tri .false), .truth .false, fun _ h => (by cases h), .inr rfl, fun A t ht => by unfold semAtt; rw [ht]; rfl, rfl⟩
  · exact ⟨.bool, .sc (.tri .true), .truth .true, fun _ h => (by cases h), .inl rfl, fun A t ht => by unfold semAtt; rw [ht]; rfl, rfl⟩

theorem chosen_set {f : Den → Eff Den} {b : Bool} (l : List Scalar) (hl : l.all Scalar.hashable = true)
    (h : f (.many l) = ([], .ok (.truth (triOf b)))) : Chosen .collection f b := by
  refine ⟨.set, .set l, .many l, fun _ h => (by cases h; exact hl), .inl ⟨_, rfl⟩, fun A t ht => ?_, h⟩
  unfold semAtt
  rw [ht]
  rfl

/-- A number below and one above. -/
theorem number_around (q : Rat) : ((q.floor - 1 : Int) : Rat) < q ∧ q < ((q.floor + 1 : Int) : Rat) := by
  refine ⟨?_, Rat.lt_floor_add_one q⟩
  have h1 := Rat.floor_le q
  rw [Rat.intCast_sub]
  grind

theorem op_mem : (∀ e : String × String × (Den → Den → Answer), e ∈ operators ↔ e = ("=", "eq_op", semEq) ∨
    e = ("!=", "eq_op", fun l r => Answer.neg (semEq l r)) ∨ e = ("<", "lt_op", semOrd fun m n => decide (numLt m n)) ∨
    e = (">", "qt_op", semOrd fun m n => decide (numLt n m)) ∨ e = ("<=", "lte_op", semOrd fun m n => decide (¬ numLt n m)) ∨
    e = (">=", "gte_op", semOrd fun m n => decide (¬ numLt m n)) ∨ e = ("IN", "in_op", semIn) ∨
    e = ("SUBSET", "subset_op", semSubset)) := by
  intro e
  simp [operators]

theorem eq_rats {a c : Atom} {p q : Rat} (ha : (Scalar.atom a).num = some (.fin p)) (hc : (Scalar.atom c).num = some (.fin q)) :
    semEq (.single (.atom a)) (.const c) = .ok (some (decide (p = q))) ∧
    semEq (.const c) (.single (.atom a)) = .ok (some (decide (p = q))) := by
  cases a <;> cases c <;> simp_all [Scalar.num, semEq, sameKindEq, eq_comm]

theorem ord_numbers (f : PyFloat → PyFloat → Bool) {a c : Atom} {p q : Rat} (ha : (Scalar.atom a).num = some (.fin p))
    (hc : (Scalar.atom c).num = some (.fin q)) :
    semOrd f (.single (.atom a)) (.const c) = .ok (some (f (.fin p) (.fin q))) ∧
    semOrd f (.const c) (.single (.atom a)) = .ok (some (f (.fin q) (.fin p))) := by
  simp [semOrd, Den.number, ha, hc]

theorem number_finite {c : Atom} (hc : DenOf .number (.const c)) (hf : ∀ n, c ≠ .flt (.inf n)) :
    ∃ q, (Scalar.atom c).num = some (.fin q) := by
  cases hc with
  | int i => exact ⟨_, rfl⟩
  | flt f =>
    cases f with
    | fin q => exact ⟨_, rfl⟩
    | inf n => exact absurd rfl (hf n)

/-- Values for both answers to `=`. -/
theorem values_eq {a : OperandType} {c : Atom} {p : Promise} (hc : DenOf a (.const c)) (hf : ∀ n, c ≠ .flt (.inf n)) (b : Bool)
    (h : a = .number ∧ p = .number ∨ a = .text ∧ p = .text) :
    ∃ x : Atom, (∀ f, f (.single (.atom x)) = ([], .ok (.truth (triOf b))) → Chosen p f b) ∧
    (∀ f, f (.single (.atom x)) = ([], .ok (.truth (triOf !b))) → Chosen p f !b) ∧
      semEq (.single (.atom x)) (.const c) = .ok (some b) ∧ semEq (.const c) (.single (.atom x)) = .ok (some b) := by
  rcases h with ⟨rfl, rfl⟩ | ⟨rfl, rfl⟩
  · obtain ⟨q, hq⟩ := number_finite hc hf
    cases b
    · refine ⟨.int (q.floor + 1), fun f => chosen_number _ rfl, fun f => chosen_number _ rfl, ?_⟩
      obtain ⟨h1, h2⟩ := eq_rats (a := .int (q.floor + 1)) rfl hq
      rw [h1, h2, decide_eq_false (number_around q).2.ne']
      exact ⟨rfl, rfl⟩
    · refine ⟨c, fun f => chosen_number _ (by rw [hq]; rfl), fun f => chosen_number _ (by rw [hq]; rfl), ?_⟩
      obtain ⟨h1, h2⟩ := eq_rats hq hq
      rw [h1, h2, decide_eq_true rfl]
      exact ⟨rfl, rfl⟩
  · cases hc with
    | text s =>
      cases b
      · refine ⟨.str ('a' :: s), fun f => chosen_text _, fun f => chosen_text _, ?_⟩
        simp [semEq, sameKindEq]
      · refine ⟨.str s, fun f => chosen_text _, fun f => chosen_text _, ?_⟩
        simp [semEq, sameKindEq]

/-- A value for the missing attribute on the left, and on the right. -/
theorem chosen_cmp {o : Token} {a : OperandType} {c : Atom} {p : Promise} (ho : ∃ e ∈ operators, o.value = .str e.1.toList)
    (hc : DenOf a (.const c)) (hf : ∀ n, c ≠ .flt (.inf n)) (b : Bool) :
    (CmpTyped o (.att p) a → Chosen p (fun d => semCmp o d (.const c)) b) ∧
    (CmpTyped o a (.att p) → Chosen p (fun d => semCmp o (.const c) d) b) := by
  obtain ⟨e, he, hv⟩ := ho
  have hcu : Den.const c ≠ .truth .undef := fun h => (by cases h)
  have left : ∀ x : Atom, e.2.2 (.single (.atom x)) (.const c) = .ok (some b) →
      semCmp o (.single (.atom x)) (.const c) = ([], .ok (.truth (triOf b))) :=
    fun x h => semCmp_answer he hv (fun h => (by cases h)) hcu h
  have right : ∀ x : Atom, e.2.2 (.const c) (.single (.atom x)) = .ok (some b) →
      semCmp o (.const c) (.single (.atom x)) = ([], .ok (.truth (triOf b))) :=
    fun x h => semCmp_answer he hv hcu (fun h => (by cases h)) h
  have rightSet : ∀ l : List Scalar, e.2.2 (.const c) (.many l) = .ok (some b) →
      semCmp o (.const c) (.many l) = ([], .ok (.truth (triOf b))) :=
    fun x h => semCmp_answer he hv hcu (fun h => (by cases h)) h
  have eqL : EqTyped (.att p) a → a = .number ∧ p = .number ∨ a = .text ∧ p = .text := by
    intro h
    cases hc <;> simp_all [EqTyped]
  have eqR : EqTyped a (.att p) → a = .number ∧ p = .number ∨ a = .text ∧ p = .text := by
    intro h
    cases hc <;> simp_all [EqTyped]
  have ordL : OrdTyped (.att p) a → a = .number ∧ p = .number := by
    intro h
    cases hc <;> simp_all [OrdTyped]
  have ordR : OrdTyped a (.att p) → a = .number ∧ p = .number := by
    intro h
    cases hc <;> simp_all [OrdTyped]
  -- which of three numbers each ordering needs
  have ord : ∀ f : PyFloat → PyFloat → Bool, e.2.2 = semOrd f →
      (∀ q lo hi : Rat, lo < q → q < hi → ∃ x ∈ [lo, q, hi], f (.fin x) (.fin q) = b) →
      (∀ q lo hi : Rat, lo < q → q < hi → ∃ x ∈ [lo, q, hi], f (.fin q) (.fin x) = b) → a = .number → p = .number →
      Chosen p (fun d => semCmp o d (.const c)) b ∧ Chosen p (fun d => semCmp o (.const c) d) b := by
    rintro f hef h1 h2 rfl rfl
    obtain ⟨q, hq⟩ := number_finite hc hf
    obtain ⟨n1, n2⟩ := number_around q
    have value : ∀ x ∈ [((q.floor - 1 : Int) : Rat), q, ((q.floor + 1 : Int) : Rat)], ∃ y : Atom, (Scalar.atom y).num = some (.fin x) := by
      intro x hx
      simp only [List.mem_cons, List.not_mem_nil, or_false] at hx
      rcases hx with rfl | rfl | rfl
      · exact ⟨.int _, rfl⟩
      · exact ⟨c, hq⟩
      · exact ⟨.int _, rfl⟩
    constructor
    · obtain ⟨x, hx, hb⟩ := h1 _ _ _ n1 n2
      obtain ⟨y, hy⟩ := value x hx
      refine chosen_number y (by rw [hy]; rfl) (left y ?_)
      rw [hef, (ord_numbers f hy hq).1, hb]
    · obtain ⟨x, hx, hb⟩ := h2 _ _ _ n1 n2
      obtain ⟨y, hy⟩ := value x hx
      refine chosen_number y (by rw [hy]; rfl) (right y ?_)
      rw [hef, (ord_numbers f hy hq).2, hb]
  rw [op_mem] at he
  unfold CmpTyped Operates
  rw [hv]
  rcases he with rfl | rfl | rfl | rfl | rfl | rfl | rfl | rfl
  all_goals
    simp only [TVal.str.injEq, String.toList_inj, String.reduceEq, true_or, or_true, or_false, false_or, forall_const, true_and,
      and_true, IsEmpty.forall_iff, implies_true]
  · constructor
    · intro h
      obtain ⟨x, k, -, h1, -⟩ := values_eq hc hf b (eqL h)
      exact k _ (left x h1)
    · intro h
      obtain ⟨x, k, -, -, h1⟩ := values_eq hc hf b (eqR h)
      exact k _ (right x h1)
  · constructor
    · intro h
      obtain ⟨x, -, k, h1, -⟩ := values_eq hc hf (!b) (eqL h)
      rw [Bool.not_not] at k
      exact k _ (left x (by dsimp only; rw [h1]; simp [Answer.neg, Except.map]))
    · intro h
      obtain ⟨x, -, k, -, h1⟩ := values_eq hc hf (!b) (eqR h)
      rw [Bool.not_not] at k
      exact k _ (right x (by dsimp only; rw [h1]; simp [Answer.neg, Except.map]))
  · have := ord _ rfl (by intro q lo hi h1 h2; cases b <;> simp [numLt] <;> grind)
      (by intro q lo hi h1 h2; cases b <;> simp [numLt] <;> grind)
    exact ⟨fun h => (this (ordL h).1 (ordL h).2).1, fun h => (this (ordR h).1 (ordR h).2).2⟩
  · have := ord _ rfl (by intro q lo hi h1 h2; cases b <;> simp [numLt] <;> grind)
      (by intro q lo hi h1 h2; cases b <;> simp [numLt] <;> grind)
    exact ⟨fun h => (this (ordL h).1 (ordL h).2).1, fun h => (this (ordR h).1 (ordR h).2).2⟩
  · have := ord _ rfl (by intro q lo hi h1 h2; cases b <;> simp [numLt] <;> grind)
      (by intro q lo hi h1 h2; cases b <;> simp [numLt] <;> grind)
    exact ⟨fun h => (this (ordL h).1 (ordL h).2).1, fun h => (this (ordR h).1 (ordR h).2).2⟩
  · have := ord _ rfl (by intro q lo hi h1 h2; cases b <;> simp [numLt] <;> grind)
      (by intro q lo hi h1 h2; cases b <;> simp [numLt] <;> grind)
    exact ⟨fun h => (this (ordL h).1 (ordL h).2).1, fun h => (this (ordR h).1 (ordR h).2).2⟩
  · constructor
    · intro h
      cases hc <;> simp [InTyped] at h
    · intro h
      have hcol : p = .collection ∧ c ≠ .null := by cases hc <;> simp_all [InTyped]
      obtain ⟨rfl, hnull⟩ := hcol
      cases b
      · exact chosen_set [] rfl (rightSet _ (by simp [semIn, hnull, included]))
      · refine chosen_set [.atom c] (by cases c <;> first | rfl | exact absurd rfl hnull) (rightSet _ ?_)
        have : (Scalar.atom c).pyEq (.atom c) = true := by
          unfold Scalar.pyEq
          cases (Scalar.atom c).num <;> simp
        simp [semIn, hnull, included, this]
  · constructor
    · intro h
      cases hc <;> simp [SetTyped] at h
    · intro h
      cases hc <;> simp [SetTyped] at h

/-! ### Policies -/

/-- The missing attributes get values by full name in lower case. -/
def filled (U : Uni) (A : Atts) (G : Str → SymType × PyVal) : Atts := fun ty n =>
  match A ty n with
  | none => some (G (U.lower (fullPrefix (some ty) ++ n)))
  | some x => some x

theorem filled_missing {U : Uni} {A : Atts} {G : Str → SymType × PyVal} {t : Token} (h : A t.type (attName t) = none) :
    filled U A G t.type (attName t) = some (G (attKey U t)) := by
  unfold filled attKey
  rw [h]

theorem filled_present {U : Uni} {A : Atts} {G : Str → SymType × PyVal} {t : Token} (h : A t.type (attName t) ≠ none) :
    filled U A G t.type (attName t) = A t.type (attName t) := by
  unfold filled
  cases hx : A t.type (attName t) with
  | none => exact absurd hx h
  | some x => rfl

theorem semOperand_atts {A B : Atts} (x : Operand) (h : ∀ t ∈ x.atts, A t.type (attName t) = B t.type (attName t)) :
    semOperand A x = semOperand B x := by
  cases x with
  | att t => exact semAtt_congr (h t (List.mem_singleton.mpr rfl))
  | _ => rfl

theorem sem_atts {U : Uni} {A B : Atts} (p : Policy) (h : ∀ t ∈ p.atts, A t.type (attName t) = B t.type (attName t)) :
    sem U A p = sem U B p := by
  induction p with
  | cmp l o r =>
    unfold sem
    rw [semOperand_atts l fun t ht => h t (List.mem_append_left _ ht), semOperand_atts r fun t ht => h t (List.mem_append_right _ ht)]
  | lit t => rfl
  | att t => exact semAtt_congr (h t (List.mem_singleton.mpr rfl))
  | not n p ih =>
    unfold sem
    rw [ih h]
  | bin o p q ihp ihq =>
    unfold sem
    rw [ihp fun t ht => h t (List.mem_append_left _ ht), ihq fun t ht => h t (List.mem_append_right _ ht)]

/-- A value for every promise. -/
def anyValue : Promise → SymType × PyVal
  | .number => (.int, .sc (.atom (.int 1)))
  | .text => (.string, .sc (.atom (.str "a".toList)))
  | .truth => (.bool, .sc (.tri .true))
  | .collection => (.set, .set [])

theorem anyValue_kept (p : Promise) : p.Kept (some (anyValue p)) := by
  cases p with
  | number => exact ⟨_, _, rfl, .inl rfl, rfl⟩
  | text => exact ⟨_, rfl⟩
  | truth => exact .inl rfl
  | collection => exact .inl ⟨_, rfl⟩

theorem anyValue_set (p : Promise) : SetVal (anyValue p).2 := by
  cases p <;> intro l h <;> cases h
  rfl

theorem decided_truth {x : Eff Den} (h : Decided x) : ∃ b, x = ([], .ok (.truth (triOf b))) := by
  rcases h with h | h
  · exact ⟨true, h⟩
  · exact ⟨false, h⟩

theorem triOf_inj {a b : Bool} (h : triOf a = triOf b) : a = b := by
  cases a <;> cases b <;> first | rfl | cases h

theorem triOf_undef {a : Bool} : triOf a ≠ .undef := by
  cases a <;> exact fun h => by cases h

theorem bind_snd {α β : Type} {x : Eff α} {f : α → Eff β} {a : α} (h : x.2 = .ok a) : (x.bind f).2 = (f a).2 := by
  obtain ⟨w, o⟩ := x
  cases h
  rfl

theorem missing_undef {A : Atts} {t : Token} (h : A t.type (attName t) = none) : (semAtt A t).2 = .ok (.truth .undef) := by
  unfold semAtt
  rw [h]

/-- The constant of a literal in a typed comparison. -/
theorem finite_const {x : Operand} (hx : x.Finite) (U : Uni) (Γ : Promises) (hr : x.typed U Γ ≠ .rejected) :
    ∃ c, (∀ A, semOperand A x = ([], .ok (.const c))) ∧ DenOf (x.typed U Γ) (.const c) ∧ (∀ n, c ≠ .flt (.inf n)) ∧ x.atts = [] := by
  cases x with
  | att t => exact absurd hx id
  | set b es => exact absurd hx id
  | atom t =>
    rcases semOperand_typed (U := U) (Γ := Γ) (A := fun _ _ => none) (.atom t) (fun t ht => by cases ht) with ⟨h, -⟩ | ⟨d, h, hd, -⟩
    · exact absurd h hr
    · dsimp only [semOperand] at h
      cases hc : constOf t with
      | none => rw [hc] at h; cases h
      | some c =>
        rw [hc] at h
        cases h
        refine ⟨c, fun A => by dsimp only [semOperand]; rw [hc]; rfl, hd, fun n hn => ?_, rfl⟩
        subst hn
        unfold constOf at hc
        split at hc
        · cases hc
        · split at hc
          · cases hc
          · split at hc <;> cases hc
          · split at hc <;> cases hc
          · rename_i f hf
            split at hc
            · cases hc
            · cases hc
              exact hx n hf

/-- What a comparison or an attribute can be made of. -/
theorem atom_open {U : Uni} {Γ : Promises} {A : Atts} {t : Token} {p : Policy} {f : Den → Eff Den}
    (hs : ∀ A, sem U A p = (semAtt A t).bind f) (hu : (f (.truth .undef)).2 = .ok (.truth .undef)) (ha : p.atts = [t])
    (hd : ∀ A, KeptBy U Γ A p.atts → Decided (sem U A p)) (hc : ∀ b, Chosen (Γ (attKey U t)) f b)
    (hk : KeptOrMissing U Γ A p.atts) :
    ∃ w, (sem U A p).2 = .ok (.truth w) ∧ ∀ v, w = .undef ∨ w = triOf v →
      ∃ G, (∀ k, SetVal (G k).2) ∧ (∀ t ∈ p.atts, (Γ (attKey U t)).Kept (some (G (attKey U t)))) ∧
        (sem U (filled U A G) p).2 = .ok (.truth (triOf v)) := by
  rw [ha] at hk hd ⊢
  by_cases hm : A t.type (attName t) = none
  · refine ⟨.undef, ?_, fun v _ => ?_⟩
    · rw [hs, bind_snd (missing_undef hm), hu]
    · obtain ⟨ty, val, d, h0, h1, h2, h3⟩ := hc v
      refine ⟨fun _ => (ty, val), fun _ => h0, fun t' ht => ?_, ?_⟩
      · cases List.mem_singleton.mp ht
        exact h1
      · rw [hs, h2 _ _ (filled_missing hm), bind_pure, h3]
  · have hkept : KeptBy U Γ A [t] := by
      intro t' ht
      cases List.mem_singleton.mp ht
      exact (hk t (List.mem_singleton.mpr rfl)).resolve_left hm
    obtain ⟨b, hb⟩ := decided_truth (hd A hkept)
    refine ⟨triOf b, by rw [hb], fun v hv => ?_⟩
    have hv := triOf_inj (hv.resolve_left triOf_undef)
    subst hv
    refine ⟨fun _ => anyValue (Γ (attKey U t)), fun _ => anyValue_set _, fun t' ht => ?_, ?_⟩
    · cases List.mem_singleton.mp ht
      exact anyValue_kept _
    · rw [sem_atts (B := A) p, hb]
      intro t' ht
      rw [ha] at ht
      cases List.mem_singleton.mp ht
      exact filled_present hm

/-- Truth values of the operands that give the truth value of a connective. -/
theorem kleene_open (o : Token) (x y : Tri) (v : Bool) (h : kleene o x y = .undef ∨ kleene o x y = triOf v) :
    ∃ a b, (x = .undef ∨ x = triOf a) ∧ (y = .undef ∨ y = triOf b) ∧ kleene o (triOf a) (triOf b) = triOf v := by
  unfold kleene at h ⊢
  by_cases ho : o.value = .str "AND".toList
  · simp only [if_pos ho] at h ⊢
    revert h
    cases x <;> cases y <;> cases v <;> decide
  · simp only [if_neg ho] at h ⊢
    revert h
    cases x <;> cases y <;> cases v <;> decide

/-- The truth value, and values for the missing attributes with which it is TRUE or FALSE unless it is the other one. -/
theorem open_policy {U : Uni} {Γ : Promises} {A : Atts} (p : Policy) (ho : p.OpsOk) (hs : p.OneSided) (hr : ReadOnce U p)
    (ht : CondTyped U Γ p) (hk : KeptOrMissing U Γ A p.atts) :
    ∃ w, (sem U A p).2 = .ok (.truth w) ∧ ∀ v, w = .undef ∨ w = triOf v →
      ∃ G, (∀ k, SetVal (G k).2) ∧ (∀ t ∈ p.atts, (Γ (attKey U t)).Kept (some (G (attKey U t)))) ∧
        (sem U (filled U A G) p).2 = .ok (.truth (triOf v)) := by
  induction p with
  | cmp l o r =>
    have hl : l.typed U Γ ≠ .rejected := fun h => rejected_untyped ho (.inl h) ht
    have hr' : r.typed U Γ ≠ .rejected := fun h => rejected_untyped ho (.inr h) ht
    have hd : ∀ A, KeptBy U Γ A (Policy.cmp l o r).atts → Decided (sem U A (.cmp l o r)) := fun A hA => (cond_decided _ ho hA).1 ht
    cases l with
    | att t =>
      obtain ⟨c, h1, h2, h3, h4⟩ := finite_const (x := r) hs U Γ hr'
      refine atom_open (f := fun d => semCmp o d (.const c)) (t := t) (fun A => ?_) rfl ?_ hd (fun b => (chosen_cmp ho h2 h3 b).1 ht) hk
      · unfold sem
        congr 1
        funext d
        rw [h1, bind_pure]
      · show [t] ++ r.atts = [t]
        rw [h4]
        rfl
    | atom u =>
      cases r with
      | att t =>
        obtain ⟨c, h1, h2, h3, h4⟩ := finite_const (x := .atom u) hs U Γ hl
        refine atom_open (f := fun d => semCmp o (.const c) d) (t := t) (fun A => ?_) ?_ rfl hd (fun b => (chosen_cmp ho h2 h3 b).2 ht) hk
        · unfold sem
          rw [h1, bind_pure]
          rfl
        · unfold semCmp
          rw [if_pos (.inr rfl)]
          rfl
      | atom _ => exact absurd hs id
      | set _ _ => exact absurd hs id
    | set b es =>
      cases r with
      | att t => exact absurd hs id
      | atom _ => exact absurd hs id
      | set _ _ => exact absurd hs id
  | lit t =>
    have hl : ∀ A, sem U A (.lit t) = ([], .ok (.truth .true)) := fun A => by
      unfold sem
      rw [if_pos (show litTri U t = .true from ht)]
      rfl
    refine ⟨.true, by rw [hl], fun v hv => ⟨fun _ => (.unknown, .sc .none), fun _ _ h => (by cases h), fun t ht => (by cases ht), ?_⟩⟩
    rw [hl, ← hv.resolve_left (fun h => by cases h)]
  | att t =>
    refine atom_open (f := fun d => ([], .ok d)) (t := t) (fun A => ?_) rfl rfl (fun A hA => (cond_decided _ ho hA).1 ht) (fun b => ?_) hk
    · unfold sem
      generalize semAtt A t = x
      obtain ⟨w, o⟩ := x
      cases o with
      | error e => rfl
      | ok d =>
        show (w, Except.ok d) = (w ++ [], Except.ok d)
        rw [List.append_nil]
    · rw [show Γ (attKey U t) = .truth from ht]
      exact chosen_truth b
  | not n p ih =>
    obtain ⟨w, h1, h2⟩ := ih ho hs hr ht hk
    have hn : ∀ {B : Atts} {x : Tri}, (sem U B p).2 = .ok (.truth x) → (sem U B (.not n p)).2 = .ok (.truth (kleeneNot x)) := by
      intro B x h
      rw [sem_not, bind_snd h]
      rfl
    refine ⟨kleeneNot w, hn h1, fun v hv => ?_⟩
    obtain ⟨G, g0, g1, g2⟩ := h2 (!v) (by cases w <;> cases v <;> revert hv <;> decide)
    refine ⟨G, g0, g1, ?_⟩
    rw [hn g2]
    cases v <;> rfl
  | bin o p q ihp ihq =>
    have hr : (p.atts.map (attKey U) ++ q.atts.map (attKey U)).Nodup := by
      have : (p.atts ++ q.atts).map (attKey U) = _ := List.map_append
      rw [← this]
      exact hr
    obtain ⟨x, h1, h2⟩ := ihp ho.1 hs.1 (List.nodup_append.mp hr).1 ht.1 fun t ht => hk t (List.mem_append_left _ ht)
    obtain ⟨y, h3, h4⟩ := ihq ho.2 hs.2 (List.nodup_append.mp hr).2.1 ht.2 fun t ht => hk t (List.mem_append_right _ ht)
    have hb : ∀ {B : Atts} {x y : Tri}, (sem U B p).2 = .ok (.truth x) → (sem U B q).2 = .ok (.truth y) →
        (sem U B (.bin o p q)).2 = .ok (.truth (kleene o x y)) := by
      intro B x y h h'
      rw [sem_bin, bind_snd h, bind_snd h']
      rfl
    refine ⟨kleene o x y, hb h1 h3, fun v hv => ?_⟩
    obtain ⟨a, b, ha, hb', hab⟩ := kleene_open o x y v hv
    obtain ⟨G, g0, g1, g2⟩ := h2 a ha
    obtain ⟨H, k0, k1, k2⟩ := h4 b hb'
    have hne : ∀ t ∈ q.atts, attKey U t ∉ p.atts.map (attKey U) := fun t ht hm =>
      (List.nodup_append.mp hr).2.2 _ hm _ (List.mem_map_of_mem ht) rfl
    refine ⟨fun k => if k ∈ p.atts.map (attKey U) then G k else H k, fun k => ?_, fun t ht => ?_, ?_⟩
    · dsimp only
      split
      · exact g0 k
      · exact k0 k
    · rcases List.mem_append.mp ht with ht | ht
      · dsimp only
        rw [if_pos (List.mem_map_of_mem ht)]
        exact g1 t ht
      · dsimp only
        rw [if_neg (hne t ht)]
        exact k1 t ht
    · rw [← hab]
      refine hb ?_ ?_
      · rw [sem_atts (B := filled U A G) p, g2]
        intro t ht
        by_cases hm : A t.type (attName t) = none
        · rw [filled_missing hm, filled_missing hm, if_pos (List.mem_map_of_mem ht)]
        · rw [filled_present hm, filled_present hm]
      · rw [sem_atts (B := filled U A H) q, k2]
        intro t ht
        by_cases hm : A t.type (attName t) = none
        · rw [filled_missing hm, filled_missing hm, if_neg (hne t ht)]
        · rw [filled_present hm, filled_present hm]

/-! ### Tables -/

/-- The names of the attributes of a policy. -/
def keysOf (U : Uni) (p : Policy) : List Str := p.atts.map (attKey U)

/-- A table with values for the attributes of a policy. The symbols of the given table have even references. -/
def completed (U : Uni) (E : SymEnv) (p : Policy) (G : Str → SymType × PyVal) : SymEnv where
  tab := ⟨(E.tab.entries.map fun e => (e.1, 2 * e.2)) ++ (keysOf U p).map fun k => (k, 2 * (keysOf U p).idxOf k + 1)⟩
  heap r :=
    if r % 2 = 0 then E.heap (r / 2)
    else ⟨(G ((keysOf U p).getD (r / 2) [])).1, .usrAtt, (G ((keysOf U p).getD (r / 2) [])).2, [], []⟩

theorem find_pairs {α : Type} (l : List (Str × α)) (g : Str × α → α) (k : Str) :
    (l.map fun e => (e.1, g e)).find? (fun e => e.1 == k) = (l.find? fun e => e.1 == k).map fun e => (e.1, g e) := by
  induction l with
  | nil => rfl
  | cons a l ih =>
    rw [List.map_cons, List.find?_cons, List.find?_cons, ih]
    cases a.1 == k <;> rfl

theorem find_keys {α : Type} (l : List Str) (g : Str → α) {k : Str} (h : k ∈ l) :
    (l.map fun e => (e, g e)).find? (fun e => e.1 == k) = some (k, g k) := by
  induction l with
  | nil => cases h
  | cons a l ih =>
    rw [List.map_cons, List.find?_cons]
    by_cases ha : a = k
    · subst ha
      simp
    · rw [show (a == k) = false from beq_eq_false_iff_ne.mpr ha]
      exact ih ((List.mem_cons.mp h).resolve_left (fun h => ha h.symm))

theorem completed_has {U : Uni} {E : SymEnv} {p : Policy} {G : Str → SymType × PyVal} {name : Str} {r : Nat}
    (h : E.tab.lookup U name = some r) : (completed U E p G).tab.lookup U name = some (2 * r) := by
  unfold SymTab.lookup SymTab.get at h ⊢
  obtain ⟨e, he, rfl⟩ := Option.map_eq_some_iff.mp h
  unfold completed
  dsimp only
  rw [List.find?_append, find_pairs _ (fun e => 2 * e.2), he]
  rfl

theorem completed_adds {U : Uni} {E : SymEnv} {p : Policy} {G : Str → SymType × PyVal} {name : Str}
    (h : E.tab.lookup U name = none) (hk : U.lower name ∈ keysOf U p) :
    (completed U E p G).tab.lookup U name = some (2 * (keysOf U p).idxOf (U.lower name) + 1) := by
  unfold SymTab.lookup SymTab.get at h ⊢
  have he := Option.map_eq_none_iff.mp h
  unfold completed
  dsimp only
  rw [List.find?_append, find_pairs _ (fun e => 2 * e.2), he, Option.map_none, Option.none_or, find_keys _ _ hk]
  rfl

theorem completed_completes (U : Uni) (E : SymEnv) (p : Policy) (G : Str → SymType × PyVal) : Completes U E (completed U E p G) := by
  intro name r h
  refine ⟨_, completed_has h, ?_⟩
  unfold completed
  dsimp only
  rw [if_pos (Nat.mul_mod_right 2 r), Nat.mul_div_cancel_left r (by decide)]
  exact ⟨rfl, rfl⟩

theorem completed_atts {U : Uni} {E : SymEnv} {p : Policy} {G : Str → SymType × PyVal} {t : Token} (ht : t ∈ p.atts) :
    attsOf U (completed U E p G) t.type (attName t) = filled U (attsOf U E) G t.type (attName t) := by
  cases hl : E.tab.lookup U (attTypePrefix (some t.type) ++ attName t) with
  | some r =>
    rw [filled_present (by unfold attsOf; rw [hl]; exact fun h => by cases h)]
    unfold attsOf
    rw [completed_has hl, hl]
    unfold completed
    dsimp only [Option.map_some]
    rw [if_pos (Nat.mul_mod_right 2 r), Nat.mul_div_cancel_left r (by decide)]
  | none =>
    rw [filled_missing (by unfold attsOf; rw [hl]; rfl)]
    have hkey : U.lower (attTypePrefix (some t.type) ++ attName t) = attKey U t := by
      unfold attKey
      rw [prefix_eq]
    have hm : attKey U t ∈ keysOf U p := List.mem_map_of_mem ht
    unfold attsOf
    rw [completed_adds hl (by rw [hkey]; exact hm), hkey]
    have h1 : (2 * (keysOf U p).idxOf (attKey U t) + 1) % 2 = 1 := by omega
    have h2 : (2 * (keysOf U p).idxOf (attKey U t) + 1) / 2 = (keysOf U p).idxOf (attKey U t) := by omega
    have h3 : (keysOf U p).getD ((keysOf U p).idxOf (attKey U t)) [] = attKey U t := by
      rw [List.getD_eq_getElem?_getD, List.getElem?_eq_getElem (List.idxOf_lt_length_iff.mpr hm), List.getElem_idxOf]
      rfl
    dsimp only [Option.map_some]
    unfold completed
    dsimp only
    rw [h1, if_neg (by decide), h2, h3]

theorem completed_sets {U : Uni} {E : SymEnv} {p : Policy} {G : Str → SymType × PyVal} (hE : SymEnv.SetsOk E) (hG : ∀ k, SetVal (G k).2) :
    SymEnv.SetsOk (completed U E p G) := by
  intro r l h
  unfold completed at h
  dsimp only at h
  split at h
  · exact hE _ l h
  · exact hG _ l h

/-! ### Decisions -/

theorem gives_sem {U : Uni} (hU : U.Lawful) {E : SymEnv} (hE : SymEnv.SetsOk E) {m : Int} (hm : 2 < m) {text : Str} {p : Policy}
    (hp : PolicyOf U text p) (hl : ∀ x, p ≠ .lit x) (w : Tri) :
    Gives U E (some m) text w ↔ (sem U (attsOf U E) p).2 = .ok (.truth w) := by
  rw [gives_value hU hE hp hl]
  unfold Value
  rcases sem U (attsOf U E) p with ⟨ws, o⟩
  cases o with
  | error e => exact ⟨fun ⟨_, h, _⟩ => (by cases h), fun h => (by cases h)⟩
  | ok d =>
    constructor
    · rintro ⟨b, h, -⟩
      cases h
      rfl
    · intro h
      cases h
      exact ⟨_, rfl, .inr ⟨m, rfl, hm⟩⟩

theorem typed_noLit {U : Uni} {Γ : Promises} {p : Policy} (h : PromiseTyped U Γ p) : (∀ x, p ≠ .lit x) ∧ CondTyped U Γ p := by
  cases p with
  | lit t => exact absurd h id
  | cmp l o r => exact ⟨fun _ h => (by cases h), h⟩
  | att t => exact ⟨fun _ h => (by cases h), h⟩
  | not n p => exact ⟨fun _ h => (by cases h), h⟩
  | bin o p q => exact ⟨fun _ h => (by cases h), h⟩

section
variable {U : Uni} (hU : U.Lawful) {E : SymEnv} (hE : SymEnv.SetsOk E) {text : Str} {p : Policy} (hp : PolicyOf U text p)
  {Γ : Promises} (ht : PromiseTyped U Γ p) (hs : p.OneSided) (hr : ReadOnce U p) (hk : KeptOrMissing U Γ (attsOf U E) p.atts)
  {m : Int} (hm : 2 < m)
include hU hE hp ht hs hr hk hm

/-- There is a truth value, and a table without missing attributes that gives each other truth value it leaves open. -/
theorem completions : ∃ w, Gives U E (some m) text w ∧ ∀ v, w = .undef ∨ w = triOf v →
    ∃ F, SymEnv.SetsOk F ∧ Completes U E F ∧ KeptBy U Γ (attsOf U F) p.atts ∧ Gives U F (some m) text (triOf v) := by
  obtain ⟨hl, hc⟩ := typed_noLit ht
  obtain ⟨w, h1, h2⟩ := open_policy p (policyOf_ok hp).2.1 hs hr hc hk
  refine ⟨w, (gives_sem hU hE hm hp hl w).mpr h1, fun v hv => ?_⟩
  obtain ⟨G, g0, g1, g2⟩ := h2 v hv
  have hF := completed_sets (U := U) (p := p) hE g0
  refine ⟨_, hF, completed_completes U E p G, fun t ht => ?_, (gives_sem hU hF hm hp hl _).mpr ?_⟩
  · rw [completed_atts ht]
    by_cases hm : attsOf U E t.type (attName t) = none
    · rw [filled_missing hm]
      exact g1 t ht
    · rw [filled_present hm]
      exact (hk t ht).resolve_left hm
  · rw [sem_atts p fun t ht => completed_atts ht]
    exact g2

omit hs hr hk hE in
/-- In a table without missing attributes the policy gives what it gave before, unless that was UNDEF. -/
theorem completion_keeps (hE : SymEnv.SetsOk E) {F : SymEnv} (hF : SymEnv.SetsOk F) (hEF : Completes U E F)
    (hkF : KeptBy U Γ (attsOf U F) p.atts) {w : Tri} (hw : w ≠ .undef) (h : Gives U E (some m) text w) : Gives U F (some m) text w := by
  obtain ⟨hl, hc⟩ := typed_noLit ht
  obtain ⟨b, hb⟩ := decided_truth ((cond_decided p (policyOf_ok hp).2.1 hkF).1 hc)
  have hAB : Extends (attsOf U E) (attsOf U F) := by
    intro ty n
    simp only [attsOf]
    cases hl : E.tab.lookup U (attTypePrefix (some ty) ++ n) with
    | none => exact Or.inl rfl
    | some r =>
      obtain ⟨r', h1, h2, h3⟩ := hEF _ r hl
      exact Or.inr (by simp [h1, h2, h3])
  rw [gives_sem hU hF hm hp hl]
  rcases sem_mono hAB p ((gives_sem hU hE hm hp hl w).mp h) (congrArg Prod.snd hb) with h1 | h1
  · cases h1
    exact absurd rfl hw
  · rw [hb, h1]

/-- **C156**: there is a truth value. -/
theorem has_value : ∃ w, Gives U E (some m) text w :=
  (completions hU hE hp ht hs hr hk hm).imp fun _ h => h.1

/-- **C156**: the policy gives TRUE, or FALSE, exactly if every table that completes this one, and keeps the promises, gives it. -/
theorem certain_iff (v : Bool) : Gives U E (some m) text (triOf v) ↔
    ∀ F, SymEnv.SetsOk F → Completes U E F → KeptBy U Γ (attsOf U F) p.atts → Gives U F (some m) text (triOf v) := by
  obtain ⟨hl, -⟩ := typed_noLit ht
  constructor
  · exact fun h F hF hEF hkF => completion_keeps hU hp ht hm hE hF hEF hkF triOf_undef h
  · intro h
    obtain ⟨w, h1, h2⟩ := completions hU hE hp ht hs hr hk hm
    have hno : ¬ (w = .undef ∨ w = triOf !v) := by
      intro hw
      obtain ⟨F, f1, f2, f3, f4⟩ := h2 (!v) hw
      have := (gives_sem hU f1 hm hp hl _).mp (h F f1 f2 f3)
      rw [(gives_sem hU f1 hm hp hl _).mp f4] at this
      cases v <;> cases this
    have hw : w = triOf v := by
      cases w <;> cases v <;> first | rfl | exact absurd (.inl rfl) hno | exact absurd (.inr rfl) hno
    exact hw ▸ h1

/-- **C156**: it gives UNDEF exactly if one such table gives TRUE and another FALSE. -/
theorem undecided_iff : Gives U E (some m) text .undef ↔
    ∀ v, ∃ F, SymEnv.SetsOk F ∧ Completes U E F ∧ KeptBy U Γ (attsOf U F) p.atts ∧ Gives U F (some m) text (triOf v) := by
  obtain ⟨hl, -⟩ := typed_noLit ht
  obtain ⟨w, h1, h2⟩ := completions hU hE hp ht hs hr hk hm
  constructor
  · intro h v
    have := (gives_sem hU hE hm hp hl _).mp h
    rw [(gives_sem hU hE hm hp hl _).mp h1] at this
    cases this
    exact h2 v (.inl rfl)
  · intro h
    by_cases hw : w = .undef
    · exact hw ▸ h1
    · exfalso
      have key : ∀ v, w = triOf v := by
        intro v
        obtain ⟨F, f1, f2, f3, f4⟩ := h v
        have := (gives_sem hU f1 hm hp hl _).mp (completion_keeps hU hp ht hm hE f1 f2 f3 hw h1)
        rw [(gives_sem hU f1 hm hp hl _).mp f4] at this
        cases v <;> cases this <;> rfl
      exact absurd ((key true).symm.trans (key false)) (by decide)

end

/-! ### An attribute mentioned twice -/

/-- `user.a = 1 OR user.a != 1` -/
def twicePolicy : Policy :=
  .bin ⟨.boolOp, 11, .str "OR".toList⟩ (.cmp (.att (typedAtt 0 "a")) (typedOp 7 "=") (.atom (typedOne 9)))
    (.cmp (.att (typedAtt 14 "a")) (typedOp 21 "!=") (.atom (typedOne 24)))

theorem twice_of : PolicyOf asciiUni "user.a = 1 OR user.a != 1".toList twicePolicy := by
  have h : lexTokens asciiUni "user.a = 1 OR user.a != 1".toList = .ok (⟨.start, 0, .none⟩ :: ((([typedAtt 0 "a"] ++ typedOp 7 "=" ::
      [typedOne 9]) ++ ⟨.boolOp, 11, .str "OR".toList⟩ :: ([typedAtt 14 "a"] ++ typedOp 21 "!=" :: [typedOne 24])) ++
      [⟨.«end», 25, .none⟩])) := by decide +kernel
  obtain ⟨ts, h1, h2⟩ := (lexer_refines_grammar asciiUni asciiUni_lawful _ _).1 h
  simp only [List.cons.injEq, true_and] at h1
  subst h1
  exact ⟨_, _, h2, .or (.term (.exp (.cmp (.att (by decide)) rfl (.atom (by decide))))) (by decide)
    (.exp (.cmp (.att (by decide)) rfl (.atom (by decide))))⟩

theorem eq_op_typed {o : Token} (h : o.value = .str "=".toList ∨ o.value = .str "!=".toList) : CmpTyped o (.att .number) .number := by
  refine ⟨fun _ => .inl ⟨rfl, rfl⟩, fun _ => ⟨.inr rfl, .inl rfl⟩, fun k => ?_, fun k => ?_⟩
  all_goals
    unfold Operates at k
    rcases h with h | h <;> rw [h] at k <;> exact absurd k (by decide)

/-- A table with nothing in it. -/
def nothingEnv : SymEnv := ⟨⟨[]⟩, fun _ => ⟨.unknown, .unkAtt, .sc .none, [], []⟩⟩

/-- **C156**: a policy that mentions an attribute twice may give UNDEF although every table that completes this one gives TRUE. -/
theorem twice_open : PromiseTyped asciiUni (fun _ => .number) twicePolicy ∧ twicePolicy.OneSided ∧ ¬ ReadOnce asciiUni twicePolicy ∧
    Gives asciiUni nothingEnv (some 3) "user.a = 1 OR user.a != 1".toList .undef ∧
    ∀ F, SymEnv.SetsOk F → KeptBy asciiUni (fun _ => .number) (attsOf asciiUni F) twicePolicy.atts →
      Gives asciiUni F (some 3) "user.a = 1 OR user.a != 1".toList .true := by
  have hl : ∀ x, twicePolicy ≠ .lit x := fun x h => by cases h
  refine ⟨⟨?_, ?_⟩, ⟨fun b h => (by cases h), fun b h => (by cases h)⟩, ?_, ?_, fun F hF hk => ?_⟩
  · exact eq_op_typed (.inl rfl)
  · exact eq_op_typed (.inr rfl)
  · unfold ReadOnce
    decide +kernel
  · rw [gives_sem asciiUni_lawful (fun _ _ h => by cases h) (by decide) twice_of hl]
    rfl
  · rw [gives_sem asciiUni_lawful hF (by decide) twice_of hl]
    obtain ⟨d, h1, h2, -⟩ := semAtt_kept (U := asciiUni) (Γ := fun _ => .number) (t := typedAtt 0 "a") (hk _ (by simp [twicePolicy, Policy.atts, Operand.atts]))
    have h3 : semAtt (attsOf asciiUni F) (typedAtt 14 "a") = ([], .ok d) := by
      have hA : attsOf asciiUni F (typedAtt 14 "a").type (attName (typedAtt 14 "a")) =
        attsOf asciiUni F (typedAtt 0 "a").type (attName (typedAtt 0 "a")) := rfl
      unfold semAtt at h1 ⊢
      rw [hA]
      revert h1
      generalize attsOf asciiUni F (typedAtt 0 "a").type (attName (typedAtt 0 "a")) = x
      dsimp only
      split
      · exact fun h => by cases h
      · exact fun h => by cases h
      · split
        · exact id
        · exact fun h => by cases h
    obtain ⟨b, hb⟩ := (eq_typed h2 (DenOf.int 1)).mp (.inl ⟨rfl, rfl⟩)
    have hd : d ≠ .truth .undef := by
      rintro rfl
      cases h2
    have e1 : semCmp (typedOp 7 "=") d (.const (.int 1)) = ([], .ok (.truth (triOf b))) :=
      semCmp_answer (e := ("=", "eq_op", semEq)) (by simp [operators]) rfl hd (fun h => by cases h) hb
    have e2 : semCmp (typedOp 21 "!=") d (.const (.int 1)) = ([], .ok (.truth (triOf !b))) :=
      semCmp_answer (e := ("!=", "eq_op", fun l r => Answer.neg (semEq l r))) (by simp [operators]) rfl hd (fun h => by cases h)
        (by dsimp only; rw [hb]; rfl)
    have s1 : sem asciiUni (attsOf asciiUni F) (.cmp (.att (typedAtt 0 "a")) (typedOp 7 "=") (.atom (typedOne 9))) =
        ([], .ok (.truth (triOf b))) := by
      show (semAtt _ _).bind _ = _
      rw [h1, bind_pure]
      exact e1
    have s2 : sem asciiUni (attsOf asciiUni F) (.cmp (.att (typedAtt 14 "a")) (typedOp 21 "!=") (.atom (typedOne 24))) =
        ([], .ok (.truth (triOf !b))) := by
      show (semAtt _ _).bind _ = _
      rw [h3, bind_pure]
      exact e2
    unfold twicePolicy
    rw [sem_bin, s1, bind_pure, s2, bind_pure]
    cases b <;> rfl

/-! ### Concrete cases -/

/-- `user.b` has a truth value and `user.a` is missing. -/
def certainEnv (b : Tri) : SymEnv := ⟨⟨[("user.b".toList, 0)]⟩, fun _ => ⟨.bool, .usrAtt, .sc (.tri b), [], []⟩⟩

/-- The hypotheses hold for `user.a = 1 AND user.b`, which is FALSE if `user.b` is FALSE, and UNDEF if it is TRUE. -/
example : PromiseTyped asciiUni (inferred asciiUni typedPlain) typedPlain ∧ typedPlain.OneSided ∧ ReadOnce asciiUni typedPlain ∧
    (∀ b, b = Tri.true ∨ b = Tri.false → SymEnv.SetsOk (certainEnv b) ∧
      KeptOrMissing asciiUni (inferred asciiUni typedPlain) (attsOf asciiUni (certainEnv b)) typedPlain.atts) ∧
    ((evaluateText asciiUni (certainEnv .false) (some 3) 0 "user.a = 1 AND user.b".toList).map fun x => x.2) = .ok (.ok (.tri .false)) ∧
    ((evaluateText asciiUni (certainEnv .true) (some 3) 0 "user.a = 1 AND user.b".toList).map fun x => x.2) = .ok (.ok (.tri .undef)) := by
  refine ⟨⟨?_, ?_⟩, ⟨fun b h => (by cases h), trivial⟩, by unfold ReadOnce; decide +kernel, fun b hb => ⟨fun _ _ h => (by cases h), ?_⟩,
    by decide +kernel, by decide +kernel⟩
  · exact eq_op_typed (.inl rfl)
  · show inferred asciiUni typedPlain _ = _
    decide +kernel
  · intro t ht
    simp only [typedPlain, Policy.atts, Operand.atts, List.append_nil, List.singleton_append, List.mem_cons, List.not_mem_nil, or_false] at ht
    rcases ht with rfl | rfl
    · exact .inl (by rfl)
    · refine .inr ?_
      rw [show inferred asciiUni typedPlain (attKey asciiUni (typedAtt 15 "b")) = .truth by decide +kernel]
      rcases hb with rfl | rfl
      · exact .inl rfl
      · exact .inr rfl

end Verif.Props
