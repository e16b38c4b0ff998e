import Verif.Spec.Semantics
/-!
# The comparison operators refine their specification
-/

namespace Verif.Proofs
open Verif Verif.Spec

/-- Values a symbol referenced from a node can have after a fresh evaluation. -/
def Good : PyVal → Prop
  | .sc x => x.isNumStr = true
  | .set l => l.all Scalar.hashable = true
  | .list _ => True

/-- A stored result stands for a denotation. -/
def Rel (E : SymEnv) (x : Res) (d : Den) : Prop :=
  match x with
  | .none => False
  | .tri t => d = .truth t
  | .atom a => d = .const a
  | .list l => d = .lit l
  | .sym r => Good (E.heap r).value ∧ d = valueDen (E.heap r).value

/-- Operator results of the specification, in the shape of the model. -/
def conv (rule : String) (a : Answer) : OpOut :=
  match a with
  | .error e => .error e
  | .ok none => .ok (.undef, [⟨-1, rule⟩])
  | .ok (some b) => .ok (Tri.fromBool b, [])

theorem pyEq_symm (a b : Scalar) : a.pyEq b = b.pyEq a := by
  unfold Scalar.pyEq
  cases a.num <;> cases b.num <;> simp [eq_comm]

theorem pyEq_refl (a : Scalar) : a.pyEq a = true := by
  unfold Scalar.pyEq
  cases a.num <;> simp

theorem pyEq_trans {a b c : Scalar} (h1 : a.pyEq b = true) (h2 : b.pyEq c = true) :
    a.pyEq c = true := by
  unfold Scalar.pyEq at *
  cases ha : a.num <;> cases hb : b.num <;> cases hc : c.num <;> simp_all

theorem memL_iff (x : Scalar) (l : List Scalar) : x.memL l = true ↔ ∃ y ∈ l, x.pyEq y = true := by
  simp [Scalar.memL]

theorem subsetL_eq (a b : List Scalar) : subsetL a b = included a b := by
  rw [Bool.eq_iff_iff]
  simp [subsetL, included, memL_iff]

theorem memL_eq (x : Scalar) (b : List Scalar) : x.memL b = included [x] b := by
  rw [Bool.eq_iff_iff]
  simp [included, memL_iff]

theorem setEqL_eq (a b : List Scalar) : setEqL a b = sameElems a b := by
  rw [Bool.eq_iff_iff]
  simp [setEqL, subsetL, sameElems, memL_iff]

theorem anyL_eq (a b : List Scalar) : (a.any fun y => y.memL b) = overlap a b := by
  rw [Bool.eq_iff_iff]
  simp [overlap, memL_iff]

theorem sameElems_single (x y : Scalar) : sameElems [x] [y] = x.pyEq y := by
  rw [Bool.eq_iff_iff]
  simp [sameElems, pyEq_symm y x]

theorem null_hash (l : List Atom) : (atoms l).all Scalar.hashable = true ↔ ¬ Atom.null ∈ l := by
  simp only [atoms, List.all_map, List.all_eq_true, Function.comp_apply]
  constructor
  · intro h hn; exact absurd (h _ hn) (by decide)
  · intro h a ha
    cases a <;> first | rfl | exact absurd ha h

theorem good_hash {x : Scalar} (h : x.isNumStr = true) : x.hashable = true := by
  cases x with
  | atom a => cases a <;> first | rfl | exact absurd h (by decide)
  | tri t => simp [Scalar.isNumStr, Scalar.num] at h
  | obj b n => simp [Scalar.isNumStr, Scalar.num] at h
  | none => rfl
  | bool b => rfl

theorem good_not_tri {x : Scalar} (h : x.isNumStr = true) : valueDen (.sc x) = .single x := by
  cases x with
  | tri t => simp [Scalar.isNumStr, Scalar.num] at h
  | _ => rfl

theorem numLt_iff (a b : PyFloat) : a.lt b = decide (numLt a b) := by
  cases a <;> cases b <;> simp [PyFloat.lt, numLt]
  all_goals rename_i a b; cases a <;> cases b <;> rfl

theorem numLe_iff (a b : PyFloat) : a.le b = decide (¬ numLt b a) := by
  cases a <;> cases b
  · simp only [PyFloat.le, numLt, Rat.not_lt]
  all_goals rename_i a b
  · cases b <;> rfl
  · cases a <;> rfl
  · cases a <;> cases b <;> rfl

theorem mkSet_ok {l : List Scalar} (h : l.all Scalar.hashable = true) : mkSet l = .ok l := by
  unfold mkSet; rw [if_pos h]

theorem mkSet_bad {l : List Scalar} (h : l.all Scalar.hashable = false) :
    mkSet l = .error .typeError := by
  unfold mkSet; rw [if_neg (by simp [h])]

/-- Case analysis on related operands. -/
theorem rel_cases {E : SymEnv} {x : Res} {d : Den} (h : Rel E x d) :
    (∃ t, x = .tri t ∧ d = .truth t) ∨ (∃ a, x = .atom a ∧ d = .const a) ∨
    (∃ l, x = .list l ∧ d = .lit l) ∨
    (∃ r y, x = .sym r ∧ (E.heap r).value = .sc y ∧ y.isNumStr = true ∧
      mkSet [y] = .ok [y] ∧ d = .single y) ∨
    (∃ r l, x = .sym r ∧ (E.heap r).value = .set l ∧ l.all Scalar.hashable = true ∧ d = .many l) ∨
    (∃ r l, x = .sym r ∧ (E.heap r).value = .list l ∧ l.all Scalar.hashable = true ∧ d = .many l) ∨
    (∃ r l, x = .sym r ∧ (E.heap r).value = .list l ∧ l.all Scalar.hashable = false ∧
      d = .manyBad) := by
  cases x with
  | none => exact absurd h id
  | tri t => exact Or.inl ⟨t, rfl, h⟩
  | atom a => exact Or.inr (Or.inl ⟨a, rfl, h⟩)
  | list l => exact Or.inr (Or.inr (Or.inl ⟨l, rfl, h⟩))
  | sym r =>
    refine Or.inr (Or.inr (Or.inr ?_))
    obtain ⟨hg, rfl⟩ := h
    cases hv : (E.heap r).value with
    | sc y =>
      rw [hv] at hg
      exact Or.inl ⟨r, y, rfl, hv, hg, mkSet_ok (by simp [good_hash hg]), good_not_tri hg⟩
    | set l =>
      rw [hv] at hg
      exact Or.inr (Or.inl ⟨r, l, rfl, hv, hg, rfl⟩)
    | list l =>
      refine Or.inr (Or.inr ?_)
      by_cases hh : l.all Scalar.hashable = true
      · exact Or.inl ⟨r, l, rfl, hv, hh, by simp only [valueDen]; rw [if_pos hh]⟩
      · refine Or.inr ⟨r, l, rfl, hv, by simpa using hh, by simp only [valueDen]; rw [if_neg hh]⟩

theorem scalarEq (x y : Scalar) :
    (match x.num, y.num with
      | some m, some n => (.ok (Tri.fromBool (decide (m = n)), []) : OpOut)
      | _, _ =>
        match x, y with
        | .atom (.str s), .atom (.str t) => .ok (Tri.fromBool (decide (s = t)), [])
        | .atom .null, .atom .null => .ok (.true, [])
        | _, _ => undefOp "eq_op") = conv "eq_op" (.ok (sameKindEq x y)) := by
  cases x with
  | atom a =>
    cases y with
    | atom b => cases a <;> cases b <;> simp [Scalar.num, sameKindEq, conv, undefOp, Tri.fromBool]
    | _ => cases a <;> simp [Scalar.num, sameKindEq, conv, undefOp]
  | _ =>
    cases y with
    | atom b => cases b <;> simp [Scalar.num, sameKindEq, conv, undefOp]
    | _ => simp [Scalar.num, sameKindEq, conv, undefOp]

theorem mkSet_atoms (l : List Atom) : mkSet (List.map Scalar.atom l) =
    if Atom.null ∈ l then .error .typeError else .ok (atoms l) := by
  by_cases hl : Atom.null ∈ l
  · rw [if_pos hl]
    refine mkSet_bad ?_
    rw [← Bool.not_eq_true]
    exact fun h => (null_hash l).1 h hl
  · rw [if_neg hl]; exact mkSet_ok ((null_hash l).2 hl)

theorem eqOp_sem {E : SymEnv} {x y : Res} {a b : Den} (hx : Rel E x a) (hy : Rel E y b) :
    eqOp E x y = conv "eq_op" (semEq a b) := by
  rcases rel_cases hx with ⟨t, rfl, rfl⟩ | ⟨u, rfl, rfl⟩ | ⟨l, rfl, rfl⟩ |
    ⟨r, v, rfl, hv, hg, hm, rfl⟩ |
    ⟨r, l, rfl, hv, hh, rfl⟩ | ⟨r, l, rfl, hv, hh, rfl⟩ | ⟨r, l, rfl, hv, hh, rfl⟩ <;>
  rcases rel_cases hy with ⟨t', rfl, rfl⟩ | ⟨u', rfl, rfl⟩ | ⟨l', rfl, rfl⟩ |
    ⟨r', v', rfl, hv', hg', hm', rfl⟩ | ⟨r', l', rfl, hv', hh', rfl⟩ | ⟨r', l', rfl, hv', hh', rfl⟩ |
    ⟨r', l', rfl, hv', hh', rfl⟩ <;>
  (unfold eqOp
   simp only [operand, symbolToVal, Res.plain, Res.isColl, bind, Except.bind, pure, Except.pure,
     Except.map, semEq, if_true, Bool.false_eq_true, if_false, *, mkSet_ok, mkSet_bad,
     setEqL_eq, sameElems_single]
   try rfl
   try exact scalarEq _ _)
  · cases u <;> rfl
  · rw [mkSet_atoms, mkSet_atoms]
    by_cases h1 : Atom.null ∈ l
    · simp [h1, conv]
    · by_cases h2 : Atom.null ∈ l'
      · simp [h1, h2, conv]
      · simp [h1, h2, conv]
  · cases v.num <;> rfl

theorem neqOp_sem {E : SymEnv} {x y : Res} {a b : Den} (hx : Rel E x a) (hy : Rel E y b) :
    neqOp E x y = conv "eq_op" (Answer.neg (semEq a b)) := by
  unfold neqOp
  rw [eqOp_sem hx hy]
  rcases semEq a b with e | (_ | b)
  · rfl
  · rfl
  · cases b <;> rfl

theorem numOp_sem {E : SymEnv} {x y : Res} {a b : Den} (rule : String)
    (f : PyFloat → PyFloat → Bool) (hx : Rel E x a) (hy : Rel E y b) :
    numOp rule f E x y = conv rule (semOrd f a b) := by
  have key : ∀ {x : Res} {a : Den}, Rel E x a →
      (match rawOperand E x with | .sc z => z.num | _ => none) = a.number := by
    intro x a hx
    rcases rel_cases hx with ⟨t, rfl, rfl⟩ | ⟨u, rfl, rfl⟩ | ⟨l, rfl, rfl⟩ |
      ⟨r, v, rfl, hv, hg, hm, rfl⟩ |
      ⟨r, l, rfl, hv, hh, rfl⟩ | ⟨r, l, rfl, hv, hh, rfl⟩ | ⟨r, l, rfl, hv, hh, rfl⟩ <;>
    simp [rawOperand, Res.plain, Den.number, Scalar.num, *]
  have h1 := key hx
  have h2 := key hy
  unfold numOp semOrd
  rw [← h1, ← h2]
  cases rawOperand E x <;> cases rawOperand E y <;> try rfl
  · rename_i p q
    simp only
    cases p.num <;> cases q.num <;> rfl
  · rename_i p q
    simp only
    cases p.num <;> rfl
  · rename_i p q
    simp only
    cases p.num <;> rfl

theorem anyInSet_hash (l m : List Scalar) (h : m.all Scalar.hashable = true) :
    anyInSet l m = .ok (overlap m l) := by
  induction m with
  | nil => simp [anyInSet, overlap]
  | cons x xs ih =>
    simp only [List.all_cons, Bool.and_eq_true] at h
    simp only [anyInSet, Scalar.memS, h.1, if_true, bind, Except.bind, ih h.2]
    by_cases hx : x.memL l = true
    · simp only [hx, if_true, pure, Except.pure]
      congr 1
      symm
      rw [← anyL_eq]
      simp [hx]
    · simp only [hx, if_false]
      rw [← anyL_eq, ← anyL_eq]
      simp [hx]

theorem anyInSet_scan (l : List Scalar) (m : List Atom) :
    anyInSet l (m.map Scalar.atom) = (scan l m).map (fun o => o.getD false) := by
  induction m with
  | nil => rfl
  | cons a as ih =>
    simp only [List.map_cons, anyInSet, scan, bind, Except.bind]
    by_cases ha : a = .null
    · subst ha; rfl
    · have hh : (Scalar.atom a).hashable = true := by cases a <;> first | rfl | exact absurd rfl ha
      simp only [Scalar.memS, hh, if_true, if_neg ha]
      by_cases hm : (Scalar.atom a).memL l = true
      · rw [if_pos hm, if_pos ((memL_iff _ _).1 hm)]; rfl
      · rw [if_neg hm, if_neg (fun h => hm ((memL_iff _ _).2 h)), ih]

theorem scan_some (l : List Scalar) (m : List Atom) : scan l m ≠ .ok none := by
  induction m with
  | nil => simp [scan]
  | cons a as ih =>
    simp only [scan]
    split
    · simp
    · split
      · simp
      · exact ih

theorem inOp_sem {E : SymEnv} {x y : Res} {a b : Den} (hx : Rel E x a) (hy : Rel E y b) :
    inOp E x y = conv "in_op" (semIn a b) := by
  rcases rel_cases hx with ⟨t, rfl, rfl⟩ | ⟨u, rfl, rfl⟩ | ⟨l, rfl, rfl⟩ |
    ⟨r, v, rfl, hv, hg, hm, rfl⟩ |
    ⟨r, l, rfl, hv, hh, rfl⟩ | ⟨r, l, rfl, hv, hh, rfl⟩ | ⟨r, l, rfl, hv, hh, rfl⟩ <;>
  rcases rel_cases hy with ⟨t', rfl, rfl⟩ | ⟨u', rfl, rfl⟩ | ⟨l', rfl, rfl⟩ |
    ⟨r', v', rfl, hv', hg', hm', rfl⟩ | ⟨r', l', rfl, hv', hh', rfl⟩ | ⟨r', l', rfl, hv', hh', rfl⟩ |
    ⟨r', l', rfl, hv', hh', rfl⟩ <;>
  (unfold inOp
   simp only [operand, symbolToVal, Res.plain, Res.isColl, bind, Except.bind, pure, Except.pure,
     Except.map, semIn, if_true, Bool.false_eq_true, if_false, *, mkSet_ok, mkSet_bad,
     anyL_eq, memL_eq, anyInSet_hash, anyInSet_scan]
   try rfl)
  · cases u <;> rfl
  · cases u <;> rfl
  · cases u <;> rfl
  · simp only [← memL_eq, anyL_eq]; rfl
  · simp only [← memL_eq, anyL_eq]; rfl
  · simp only [← memL_eq, anyL_eq]; rfl
  · simp only [← memL_eq, anyL_eq]; rfl
  · rw [← memL_eq]; simp [Scalar.memL, conv]
  · have := scan_some l l'
    rcases h : scan l l' with e | (_ | b)
    · rfl
    · exact absurd h this
    · rfl
  · rw [anyInSet_hash l [v'] (by simp [good_hash hg'])]; rfl
  · have := scan_some l l'
    rcases h : scan l l' with e | (_ | b)
    · rfl
    · exact absurd h this
    · rfl
  · rw [anyInSet_hash l [v'] (by simp [good_hash hg'])]; rfl

theorem subsetOp_sem {E : SymEnv} {x y : Res} {a b : Den} (hx : Rel E x a) (hy : Rel E y b) :
    subsetOp E x y = conv "subset_op" (semSubset a b) := by
  rcases rel_cases hx with ⟨t, rfl, rfl⟩ | ⟨u, rfl, rfl⟩ | ⟨l, rfl, rfl⟩ |
    ⟨r, v, rfl, hv, hg, hm, rfl⟩ |
    ⟨r, l, rfl, hv, hh, rfl⟩ | ⟨r, l, rfl, hv, hh, rfl⟩ | ⟨r, l, rfl, hv, hh, rfl⟩ <;>
  rcases rel_cases hy with ⟨t', rfl, rfl⟩ | ⟨u', rfl, rfl⟩ | ⟨l', rfl, rfl⟩ |
    ⟨r', v', rfl, hv', hg', hm', rfl⟩ | ⟨r', l', rfl, hv', hh', rfl⟩ | ⟨r', l', rfl, hv', hh', rfl⟩ |
    ⟨r', l', rfl, hv', hh', rfl⟩ <;>
  (unfold subsetOp
   simp only [subsetOperand, symbolToVal, Res.plain, Res.isColl, bind, Except.bind, pure, Except.pure,
     Except.map, semSubset, if_true, Bool.false_eq_true, if_false, *, mkSet_ok, mkSet_bad,
     subsetL_eq, mkSet_atoms, Den.unsettable, Den.asSet, Bool.or_false, Bool.false_or, Bool.or_true,
     Bool.true_or, decide_eq_true_eq, Bool.or_eq_true]
   try rfl)
  all_goals
    first
    | by_cases h1 : Atom.null ∈ l <;> by_cases h2 : Atom.null ∈ l' <;> simp [h1, h2, conv]; done
    | by_cases h1 : Atom.null ∈ l <;> simp [h1, conv, undefOp]; done
    | by_cases h1 : Atom.null ∈ l' <;> simp [h1, conv, undefOp]; done

end Verif.Proofs
