import Verif.Proofs.InterpOps
import Verif.Spec.Printing
import Verif.Proofs.GrammarFacts
/-!
# Evaluation of fresh ASTs refines the semantics
-/

namespace Verif.Spec
open Verif

/-- What a symbol table says about attributes. -/
def attsOf (U : Uni) (E : SymEnv) : Atts := fun ty name =>
  (E.tab.lookup U (attTypePrefix (some ty) ++ name)).map fun r =>
    ((E.heap r).type, (E.heap r).value)

/-- Python sets hold hashable values only. -/
def SymEnv.SetsOk (E : SymEnv) : Prop :=
  ∀ r l, (E.heap r).value = .set l → l.all Scalar.hashable = true

end Verif.Spec

namespace Verif.Proofs
open Verif Verif.Spec

theorem applyOp_sem {U : Uni} (hU : U.Lawful) {E : SymEnv} {x y : Res} {a b : Den}
    (hx : Rel E x a) (hy : Rel E y b) {s rule : String} {f : Den → Den → Answer}
    (h : (s, rule, f) ∈ operators) :
    U.upper s.toList ∈ ["=", "!=", "<", ">", "<=", ">=", "IN", "SUBSET"].map String.toList ∧
      applyOp U E s.toList x y = some (conv rule (f a b)) := by
  simp only [operators, List.mem_cons, Prod.mk.injEq, List.not_mem_nil, or_false] at h
  rcases h with ⟨rfl, rfl, rfl⟩ | ⟨rfl, rfl, rfl⟩ | ⟨rfl, rfl, rfl⟩ | ⟨rfl, rfl, rfl⟩ |
    ⟨rfl, rfl, rfl⟩ | ⟨rfl, rfl, rfl⟩ | ⟨rfl, rfl, rfl⟩ | ⟨rfl, rfl, rfl⟩
  · refine ⟨by rw [hU.upper_ascii _ (by decide)]; decide, ?_⟩
    rw [← eqOp_sem hx hy]; rfl
  · refine ⟨by rw [hU.upper_ascii _ (by decide)]; decide, ?_⟩
    rw [← neqOp_sem hx hy]; rfl
  · refine ⟨by rw [hU.upper_ascii _ (by decide)]; decide, ?_⟩
    rw [← numOp_sem _ _ hx hy]
    have : (fun m n : PyFloat => decide (numLt m n)) = fun m n => m.lt n := by
      funext m n; rw [numLt_iff]
    rw [this]; rfl
  · refine ⟨by rw [hU.upper_ascii _ (by decide)]; decide, ?_⟩
    rw [← numOp_sem _ _ hx hy]
    have : (fun m n : PyFloat => decide (numLt n m)) = fun m n => n.lt m := by
      funext m n; rw [numLt_iff]
    rw [this]; rfl
  · refine ⟨by rw [hU.upper_ascii _ (by decide)]; decide, ?_⟩
    rw [← numOp_sem _ _ hx hy]
    have : (fun m n : PyFloat => decide (¬ numLt n m)) = fun m n => m.le n := by
      funext m n; rw [numLe_iff]
    rw [this]; rfl
  · refine ⟨by rw [hU.upper_ascii _ (by decide)]; decide, ?_⟩
    rw [← numOp_sem _ _ hx hy]
    have : (fun m n : PyFloat => decide (¬ numLt m n)) = fun m n => n.le m := by
      funext m n; rw [numLe_iff]
    rw [this]; rfl
  · refine ⟨by rw [hU.upper_ascii _ (by decide)]; decide, ?_⟩
    rw [← inOp_sem hx hy]
    have : U.upper "IN".toList = "IN".toList := by rw [hU.upper_ascii _ (by decide)]; decide
    unfold applyOp
    rw [if_neg (by decide), if_neg (by decide), if_neg (by decide), if_neg (by decide),
      if_neg (by decide), if_neg (by decide), if_pos this]
  · refine ⟨by rw [hU.upper_ascii _ (by decide)]; decide, ?_⟩
    rw [← subsetOp_sem hx hy]
    have : U.upper "SUBSET".toList = "SUBSET".toList := by
      rw [hU.upper_ascii _ (by decide)]; decide
    unfold applyOp
    rw [if_neg (by decide), if_neg (by decide), if_neg (by decide), if_neg (by decide),
      if_neg (by decide), if_neg (by decide), if_neg (by rw [this]; decide), if_pos this]

/-- Evaluation of a child: only when its result is falsy. -/
def evalChild (U : Uni) (E : SymEnv) (n : Node) : Node × List Warn × Option PyExc :=
  if n.res.truthy then (n, [], none) else evalNode U E n

/-- An evaluation agrees with a meaning. -/
def Agrees (E : SymEnv) (x : Node × List Warn × Option PyExc) (o : Eff Den) : Prop :=
  x.2.1 = o.1 ∧
    match x.2.2, o.2 with
    | some e, .error e' => e = e'
    | none, .ok d => Rel E x.1.res d
    | _, _ => False

theorem evalChildren_one (U : Uni) (E : SymEnv) (a : Node) :
    evalChildren U E [a] = ([(evalChild U E a).1], (evalChild U E a).2.1, (evalChild U E a).2.2) := by
  unfold evalChildren evalChild
  by_cases h : a.res.truthy = true
  · rw [if_pos h, if_pos h]; simp [evalChildren]
  · rw [if_neg h, if_neg h]
    rcases he : evalNode U E a with ⟨a', w, _ | e⟩ <;> simp [evalChildren]

theorem evalChildren_two (U : Uni) (E : SymEnv) (a b : Node) :
    evalChildren U E [a, b] =
      match evalChild U E a with
      | (a', w, some e) => ([a', b], w, some e)
      | (a', w, none) =>
        match evalChild U E b with
        | (b', w', e) => ([a', b'], w ++ w', e) := by
  rw [evalChildren, evalChildren_one]
  unfold evalChild
  by_cases h : a.res.truthy = true
  · rw [if_pos h, if_pos h]; simp
  · rw [if_neg h, if_neg h]
    rcases evalNode U E a with ⟨a', w, _ | e⟩ <;> rfl

theorem lookup_att {U : Uni} {t : Token} {s : Str} (ht : AttTok t) (hv : t.value = .str s) :
    attToSymbolName (attKind t.type) t = .ok (attTypePrefix (some t.type) ++ s) := by
  obtain ⟨ty, p, v⟩ := t
  simp only at hv
  subst hv
  unfold AttTok at ht
  simp only at ht
  rcases ht with h | h | h | h | h <;> subst h <;> rfl

theorem fits_checkValType (s : Symbol) : s.checkValType = fits s.type s.value := by
  unfold Symbol.checkValType
  cases hv : s.value with
  | sc x =>
    simp only
    cases x with
    | atom a => cases a <;> cases s.type <;> simp [fits, Scalar.num]
    | _ => cases s.type <;> simp [fits, Scalar.num]
  | set l => cases s.type <;> simp [fits]
  | list l => cases s.type <;> simp [fits]

theorem evalAtt_agrees {U : Uni} {E : SymEnv} (hE : SymEnv.SetsOk E) {t : Token} {s : Str} (k : Nat)
    (ht : AttTok t) (hv : t.value = .str s) :
    Agrees E (evalNode U E (attNode t k)) (semAtt (attsOf U E) t) := by
  have hn : attName t = s := by simp [attName, hv]
  simp only [attNode, evalNode, evalChildren, evalSelf, attKind_isAtt, if_true, evalAtt,
    lookup_att (U := U) ht hv, semAtt, hn, attsOf]
  cases hl : E.tab.lookup U (attTypePrefix (some t.type) ++ s) with
  | none => exact ⟨rfl, rfl⟩
  | some r =>
    simp only [Option.map_some]
    rw [fits_checkValType]
    generalize hy : (E.heap r).type = ty
    cases hw : (E.heap r).value with
    | set l =>
      have hs := hE r l hw
      have h0 : ¬ (PyVal.set l = .sc .none) := by simp
      simp only [if_neg h0]
      cases ty <;> simp [fits, Agrees, Rel, Node.res, valueDen, Good, hw, hs]
    | list l =>
      have h0 : ¬ (PyVal.list l = .sc .none) := by simp
      simp only [if_neg h0]
      cases ty <;> simp [fits, Agrees, Rel, Node.res, valueDen, Good, hw]
    | sc x =>
      cases x with
      | none => cases ty <;> simp [fits, Agrees, Rel, Node.res, Scalar.num]
      | atom a =>
        have h0 : ¬ (PyVal.sc (.atom a) = .sc .none) := by simp
        simp only [if_neg h0]
        cases a <;> cases ty <;>
          simp [fits, Agrees, Rel, Node.res, valueDen, Good, hw, Scalar.num, Scalar.isNumStr]
      | bool b =>
        have h0 : ¬ (PyVal.sc (.bool b) = .sc .none) := by simp
        simp only [if_neg h0]
        cases ty <;>
          simp [fits, Agrees, Rel, Node.res, valueDen, Good, hw, Scalar.num, Scalar.isNumStr]
      | tri b =>
        have h0 : ¬ (PyVal.sc (.tri b) = .sc .none) := by simp
        simp only [if_neg h0]
        cases ty <;>
          simp [fits, Agrees, Rel, Node.res, valueDen, Scalar.num]
      | obj b n =>
        have h0 : ¬ (PyVal.sc (.obj b n) = .sc .none) := by simp
        simp only [if_neg h0]
        cases ty <;>
          simp [fits, Agrees, Rel, Node.res, Scalar.num]

theorem evalChild_att {U : Uni} {E : SymEnv} (hE : SymEnv.SetsOk E) {t : Token} {s : Str} (k : Nat)
    (ht : AttTok t) (hv : t.value = .str s) :
    Agrees E (evalChild U E (attNode t k)) (semAtt (attsOf U E) t) := by
  have : evalChild U E (attNode t k) = evalNode U E (attNode t k) := by
    simp [evalChild, attNode, Node.res, Res.truthy]
  rw [this]
  exact evalAtt_agrees hE k ht hv

theorem atomRes_truthy (t : Token) :
    match constOf t with
    | some a => atomRes t = .atom a ∧ (atomRes t).truthy = true
    | none => (atomRes t).truthy = false := by
  unfold constOf atomRes
  by_cases h : t.type = .null
  · rw [if_pos h, if_pos h]; exact ⟨rfl, rfl⟩
  · rw [if_neg h, if_neg h]
    cases t.value with
    | none => rfl
    | str s => by_cases hs : s = [] <;> simp [hs, Res.truthy]
    | int i => by_cases hs : i = 0 <;> simp [hs, Res.truthy]
    | flt f => by_cases hs : f = .fin 0 <;> simp [hs, Res.truthy]

theorem atomKind_eval {U : Uni} {E : SymEnv} (t : Token) (k : Nat) :
    evalNode U E (atomNode t k) = (atomNode t k, [], some (badLiteral t)) := by
  unfold atomNode
  cases t.type <;> simp [atomKind, evalNode, evalChildren, evalSelf, Kind.isAtt, badLiteral]

theorem evalChild_atom {U : Uni} {E : SymEnv} (t : Token) (k : Nat) :
    Agrees E (evalChild U E (atomNode t k)) (semOperand (attsOf U E) (.atom t)) := by
  have h := atomRes_truthy t
  have hres : (atomNode t k).res = atomRes t := rfl
  simp only [evalChild, semOperand]
  rw [atomKind_eval, hres]
  cases hc : constOf t with
  | some a =>
    rw [hc] at h
    simp only at h
    rw [if_pos h.2]
    refine ⟨rfl, ?_⟩
    show Rel E (atomNode t k).res _
    rw [hres, h.1]; rfl
  | none =>
    rw [hc] at h
    simp only at h
    rw [h]
    exact ⟨rfl, rfl⟩

theorem evalChildren_atoms {U : Uni} {E : SymEnv} (es : List Token) (k : Nat) :
    (evalChildren U E (atomNodes es k)).1 = atomNodes es k ∧
    (evalChildren U E (atomNodes es k)).2.1 = [] ∧
    (evalChildren U E (atomNodes es k)).2.2 =
      (match semElems es with | .error e => some e | .ok _ => none) := by
  induction es generalizing k with
  | nil => simp [atomNodes, evalChildren, semElems]
  | cons t ts ih =>
    obtain ⟨i1, i2, i3⟩ := ih (k + 1)
    have h := atomRes_truthy t
    have hres : (atomNode t k).res = atomRes t := rfl
    simp only [atomNodes, evalChildren, hres, semElems]
    cases hc : constOf t with
    | some a =>
      rw [hc] at h
      simp only at h
      rw [if_pos h.2]
      simp only [i1, i2, i3]
      cases semElems ts <;> simp [Except.map]
    | none =>
      rw [hc] at h
      simp only at h
      rw [h, atomKind_eval]
      simp

theorem evalSetLoop_atoms (es : List Token) (k : Nat) (acc l : List Atom)
    (h : semElems es = .ok l) : evalSetLoop acc (atomNodes es k) = (acc ++ l, true) := by
  induction es generalizing k acc l with
  | nil =>
    simp only [semElems, Except.ok.injEq] at h
    subst h
    simp [atomNodes, evalSetLoop]
  | cons t ts ih =>
    have ht := atomRes_truthy t
    simp only [semElems] at h
    cases hc : constOf t with
    | none => rw [hc] at h; simp at h
    | some a =>
      rw [hc] at h ht
      simp only at h ht
      cases hs : semElems ts with
      | error e => rw [hs] at h; simp [Except.map] at h
      | ok l' =>
        rw [hs] at h
        simp only [Except.map, Except.ok.injEq] at h
        subst h
        have hres : (atomNode t k).res = .atom a := ht.1
        have htr : (Res.atom a).truthy = true := by rw [← ht.1]; exact ht.2
        simp only [atomNodes, evalSetLoop, hres, htr, if_true]
        rw [ih (k + 1) (acc ++ [a]) l' hs]
        simp

theorem evalChild_set {U : Uni} {E : SymEnv} (l : Token) (es : List Token) (k i : Nat) :
    Agrees E (evalChild U E (.mk .set l i .none (atomNodes es k)))
      (semOperand (attsOf U E) (.set l es)) := by
  have he : evalChild U E (.mk .set l i .none (atomNodes es k)) =
      evalNode U E (.mk .set l i .none (atomNodes es k)) := by
    simp [evalChild, Node.res, Res.truthy]
  rw [he, evalNode, semOperand]
  obtain ⟨i1, i2, i3⟩ := evalChildren_atoms (U := U) (E := E) es k
  generalize evalChildren U E (atomNodes es k) = x at i1 i2 i3
  obtain ⟨cs, w, e⟩ := x
  simp only at i1 i2 i3
  subst i1 i2
  cases hs : semElems es with
  | error e' =>
    rw [hs] at i3
    simp only at i3
    subst i3
    exact ⟨rfl, rfl⟩
  | ok l' =>
    rw [hs] at i3
    simp only at i3
    subst i3
    have hloop := evalSetLoop_atoms es k [] l' hs
    simp only [evalSelf, Kind.isAtt, Bool.false_eq_true, if_false, evalSet, hloop, List.nil_append]
    exact ⟨rfl, rfl⟩

theorem evalChild_operand {U : Uni} {E : SymEnv} (hE : SymEnv.SetsOk E) (v : Operand) (k : Nat)
    (hw : v.WF) (hn : v.NamesOk) :
    Agrees E (evalChild U E (v.build k).1) (semOperand (attsOf U E) v) := by
  cases v with
  | att t =>
    obtain ⟨s, hs⟩ := hn
    exact evalChild_att hE k hw hs
  | atom t => exact evalChild_atom t k
  | set l es => exact evalChild_set l es k _

theorem rel_ne_none {E : SymEnv} {x : Res} {d : Den} (h : Rel E x d) : x ≠ .none := by
  intro hx; subst hx; exact h

theorem rel_undef {E : SymEnv} {x : Res} {d : Den} (h : Rel E x d) :
    x = .tri .undef ↔ d = .truth .undef := by
  cases x with
  | none => exact absurd h id
  | tri t => simp only [Rel] at h; subst h; simp
  | atom a => simp only [Rel] at h; subst h; simp
  | list l => simp only [Rel] at h; subst h; simp
  | sym r =>
    rcases rel_cases h with ⟨t, h, _⟩ | ⟨t, h, _⟩ | ⟨t, h, _⟩ | ⟨_, _, _, _, _, _, rfl⟩ |
      ⟨_, _, _, _, _, rfl⟩ | ⟨_, _, _, _, _, rfl⟩ | ⟨_, _, _, _, _, rfl⟩ <;> simp_all

theorem rel_tri {E : SymEnv} {x : Res} {d : Den} (h : Rel E x d) (v : Tri) :
    x = .tri v ↔ d = .truth v := by
  cases x with
  | none => exact absurd h id
  | tri t => simp only [Rel] at h; subst h; simp
  | atom a => simp only [Rel] at h; subst h; simp
  | list l => simp only [Rel] at h; subst h; simp
  | sym r =>
    rcases rel_cases h with ⟨t, h, _⟩ | ⟨t, h, _⟩ | ⟨t, h, _⟩ | ⟨_, _, _, _, _, _, rfl⟩ |
      ⟨_, _, _, _, _, rfl⟩ | ⟨_, _, _, _, _, rfl⟩ | ⟨_, _, _, _, _, rfl⟩ <;> simp_all

/-- The operator of a comparison is found in the table. -/
theorem find_op {o : Token} (h : ∃ e ∈ operators, o.value = .str e.1.toList) :
    ∃ s rule f, (s, rule, f) ∈ operators ∧ o.value = .str s.toList ∧
      operators.find? (fun e => o.value = .str e.1.toList) = some (s, rule, f) := by
  obtain ⟨e, he, ho⟩ := h
  have : (operators.find? (fun e => decide (o.value = .str e.1.toList))).isSome = true := by
    rw [List.find?_isSome]
    exact ⟨e, he, by simpa using ho⟩
  obtain ⟨⟨s, rule, f⟩, hx⟩ := Option.isSome_iff_exists.1 this
  have h1 := List.mem_of_find?_eq_some hx
  have h2 := List.find?_some hx
  exact ⟨s, rule, f, h1, by simpa using h2, hx⟩

theorem evalOp_agrees {U : Uni} (hU : U.Lawful) {E : SymEnv} {o : Token} {a b : Node} {da db : Den}
    (i : Nat) (w : List Warn)
    (ho : ∃ e ∈ operators, o.value = .str e.1.toList) (ha : Rel E a.res da) (hb : Rel E b.res db) :
    Agrees E
      (match evalSelf U E .op o .none [a, b] with
        | (r', w', e) => (.mk .op o i r' [a, b], w ++ w', e))
      (w ++ (semCmp o da db).1, (semCmp o da db).2) := by
  obtain ⟨s, rule, f, h1, h2, h3⟩ := find_op ho
  obtain ⟨h4, h5⟩ := applyOp_sem hU ha hb h1
  have hn : ¬ (a.res = .none ∨ b.res = .none) := by
    rintro (h | h)
    · exact rel_ne_none ha h
    · exact rel_ne_none hb h
  simp only [evalSelf, Kind.isAtt, Bool.false_eq_true, if_false, evalOp, List.getElem?_cons_zero,
    List.getElem?_cons_succ, Option.map_some, h2, if_neg hn, if_pos h4, semCmp, rel_undef ha,
    rel_undef hb]
  by_cases hu : da = .truth .undef ∨ db = .truth .undef
  · rw [if_pos hu, if_pos hu]
    exact ⟨by simp [Eff.pure], rfl⟩
  · have h3' : operators.find? (fun e => decide (TVal.str s.toList = .str e.1.toList)) =
        some (s, rule, f) := by rw [← h2]; exact h3
    rw [if_neg hu, if_neg hu, h5, h3']
    simp only
    generalize f da db = ans
    rcases ans with e | (_ | _ | _) <;> exact ⟨rfl, rfl⟩

theorem tri_not_eq (v : Tri) : v.not = kleeneNot v := by cases v <;> rfl

/-- Meaning of NOT on a denotation. -/
def notOut (n : Token) (d : Den) : Eff Den :=
  match d with
  | .truth v => Eff.pure (.truth (kleeneNot v))
  | _ => Eff.fail (.interpreterError n.pos "evaluate_not_node")

/-- Meaning of AND and OR on denotations. -/
def binOut (o : Token) (a b : Den) : Eff Den :=
  match a, b with
  | .truth v, .truth w => Eff.pure (.truth (kleene o v w))
  | _, _ => Eff.fail (.interpreterError o.pos "evaluate_bool_op_node")

theorem sem_not (U : Uni) (A : Atts) (n : Token) (p : Policy) :
    sem U A (.not n p) = (sem U A p).bind (notOut n) := by
  rw [sem]; congr 1

theorem sem_bin (U : Uni) (A : Atts) (o : Token) (p q : Policy) :
    sem U A (.bin o p q) = (sem U A p).bind fun a => (sem U A q).bind fun b => binOut o a b := by
  rw [sem]; congr 1

theorem evalNot_agrees {U : Uni} {E : SymEnv} {n : Token} {a : Node} {da : Den}
    (i : Nat) (w : List Warn) (ha : Rel E a.res da) :
    Agrees E
      (match evalSelf U E .not n .none [a] with
        | (r', w', e) => (.mk .not n i r' [a], w ++ w', e))
      (w ++ (notOut n da).1, (notOut n da).2) := by
  simp only [evalSelf, Kind.isAtt, Bool.false_eq_true, if_false, evalNot,
    List.getElem?_cons_zero, Option.map_some]
  by_cases h : ∃ v, a.res = .tri v
  · obtain ⟨v, hv⟩ := h
    have hd := (rel_tri ha v).1 hv
    subst hd
    rw [hv]
    refine ⟨rfl, ?_⟩
    show Den.truth (kleeneNot v) = .truth v.not
    rw [tri_not_eq]
  · have hd : ¬ ∃ v, da = .truth v := by
      rintro ⟨v, hv⟩
      exact h ⟨v, (rel_tri ha v).2 hv⟩
    cases hr : a.res with
    | tri v => exact absurd ⟨v, hr⟩ h
    | none => rw [hr] at ha; exact absurd ha id
    | _ =>
      cases da with
      | truth v => exact absurd ⟨v, rfl⟩ hd
      | _ => exact ⟨rfl, rfl⟩

theorem evalBoolOp_agrees {U : Uni} (hU : U.Lawful) {E : SymEnv} {o : Token} {a b : Node}
    {da db : Den} (i : Nat) (w : List Warn) (ho : AndTok o ∨ OrTok o) (ha : Rel E a.res da)
    (hb : Rel E b.res db) :
    Agrees E
      (match evalSelf U E .boolOp o .none [a, b] with
        | (r', w', e) => (.mk .boolOp o i r' [a, b], w ++ w', e))
      (w ++ (binOut o da db).1, (binOut o da db).2) := by
  simp only [evalSelf, Kind.isAtt, Bool.false_eq_true, if_false, evalBoolOp,
    List.getElem?_cons_zero, List.getElem?_cons_succ, Option.map_some]
  by_cases h : ∃ v, a.res = .tri v
  · obtain ⟨v, hv⟩ := h
    have hd := (rel_tri ha v).1 hv
    subst hd
    by_cases h' : ∃ v, b.res = .tri v
    · obtain ⟨u, hu⟩ := h'
      have hd := (rel_tri hb u).1 hu
      subst hd
      rw [hv, hu]
      simp only [binOut]
      rcases ho with ho | ho
      · have hup : U.upper "AND".toList = "AND".toList := by
          rw [hU.upper_ascii _ (by decide)]; decide
        simp only [ho.2]
        rw [if_pos hup]
        refine ⟨rfl, ?_⟩
        show Den.truth _ = .truth _
        rw [kleene, if_pos ho.2]
        cases v <;> cases u <;> rfl
      · have hup : U.upper "OR".toList = "OR".toList := by
          rw [hU.upper_ascii _ (by decide)]; decide
        simp only [ho.2]
        rw [if_neg (by rw [hup]; decide), if_pos hup]
        refine ⟨rfl, ?_⟩
        show Den.truth _ = .truth _
        rw [kleene, if_neg (by rw [ho.2]; decide)]
        cases v <;> cases u <;> rfl
    · have hd : ¬ ∃ v, db = .truth v := by
        rintro ⟨u, hu⟩
        exact h' ⟨u, (rel_tri hb u).2 hu⟩
      rw [hv]
      cases hr : b.res with
      | tri v => exact absurd ⟨v, hr⟩ h'
      | none => rw [hr] at hb; exact absurd hb id
      | _ =>
        cases db with
        | truth v => exact absurd ⟨v, rfl⟩ hd
        | _ => exact ⟨rfl, rfl⟩
  · have hd : ¬ ∃ v, da = .truth v := by
      rintro ⟨v, hv⟩
      exact h ⟨v, (rel_tri ha v).2 hv⟩
    cases hr : a.res with
    | tri v => exact absurd ⟨v, hr⟩ h
    | none => rw [hr] at ha; exact absurd ha id
    | _ =>
      cases da with
      | truth v => exact absurd ⟨v, rfl⟩ hd
      | _ => exact ⟨rfl, rfl⟩

/-- A node with one child that is evaluated first. -/
theorem node_one {U : Uni} {E : SymEnv} {k : Kind} {t : Token} {i : Nat} {a : Node} {oa : Eff Den}
    {f : Den → Eff Den} (ha : Agrees E (evalChild U E a) oa)
    (hf : ∀ (a' : Node) (d : Den) (w : List Warn), Rel E a'.res d →
      Agrees E (match evalSelf U E k t .none [a'] with
        | (r', w', e) => (.mk k t i r' [a'], w ++ w', e)) (w ++ (f d).1, (f d).2)) :
    Agrees E (evalNode U E (.mk k t i .none [a])) (oa.bind f) := by
  rw [evalNode, evalChildren_one]
  obtain ⟨w, o⟩ := oa
  generalize evalChild U E a = xa at ha ⊢
  obtain ⟨a', w', _ | e⟩ := xa
  · obtain ⟨h1, h2⟩ := ha
    cases o with
    | error e => exact absurd h2 id
    | ok d =>
      simp only at h1 h2
      subst h1
      exact hf a' d w' h2
  · obtain ⟨h1, h2⟩ := ha
    cases o with
    | ok d => exact absurd h2 id
    | error e' => exact ⟨h1, h2⟩

/-- A node with two children that are evaluated first. -/
theorem node_two {U : Uni} {E : SymEnv} {k : Kind} {t : Token} {i : Nat} {a b : Node}
    {oa ob : Eff Den} {f : Den → Den → Eff Den} (ha : Agrees E (evalChild U E a) oa)
    (hb : Agrees E (evalChild U E b) ob)
    (hf : ∀ (a' b' : Node) (d d' : Den) (w : List Warn), Rel E a'.res d → Rel E b'.res d' →
      Agrees E (match evalSelf U E k t .none [a', b'] with
        | (r', w', e) => (.mk k t i r' [a', b'], w ++ w', e)) (w ++ (f d d').1, (f d d').2)) :
    Agrees E (evalNode U E (.mk k t i .none [a, b]))
      (oa.bind fun d => ob.bind fun d' => f d d') := by
  rw [evalNode, evalChildren_two]
  obtain ⟨w, o⟩ := oa
  obtain ⟨v, p⟩ := ob
  generalize evalChild U E a = xa at ha ⊢
  obtain ⟨a', w', _ | e⟩ := xa
  · obtain ⟨h1, h2⟩ := ha
    cases o with
    | error e => exact absurd h2 id
    | ok d =>
      simp only at h1 h2
      subst h1
      generalize evalChild U E b = xb at hb ⊢
      obtain ⟨b', v', _ | e⟩ := xb
      · obtain ⟨h3, h4⟩ := hb
        cases p with
        | error e => exact absurd h4 id
        | ok d' =>
          simp only at h3 h4
          subst h3
          have := hf a' b' d d' (w' ++ v') h2 h4
          simp only [Eff.bind, List.append_assoc] at this ⊢
          exact this
      · obtain ⟨h3, h4⟩ := hb
        cases p with
        | ok d => exact absurd h4 id
        | error e' =>
          simp only at h3 h4
          subst h3 h4
          exact ⟨rfl, rfl⟩
  · obtain ⟨h1, h2⟩ := ha
    cases o with
    | ok d => exact absurd h2 id
    | error e' => exact ⟨h1, h2⟩

/-- Nodes without a stored result are evaluated. -/
theorem evalChild_none {U : Uni} {E : SymEnv} (k : Kind) (t : Token) (i : Nat) (cs : List Node) :
    evalChild U E (.mk k t i .none cs) = evalNode U E (.mk k t i .none cs) := by
  simp [evalChild, Node.res, Res.truthy]

theorem evalNode_lit {U : Uni} {E : SymEnv} (t : Token) (k : Nat) (r : Res) :
    evalNode U E (.mk .boolVal t k r []) = (.mk .boolVal t k r [], [], some (badLiteral t)) := by
  simp [evalNode, evalChildren, evalSelf, Kind.isAtt, badLiteral]

/-- The subtree of a policy evaluates to its meaning. -/
theorem evalChild_policy {U : Uni} (hU : U.Lawful) {E : SymEnv} (hE : SymEnv.SetsOk E) (p : Policy)
    (k : Nat) (hw : p.WF) (ho : p.OpsOk) (hn : p.NamesOk) :
    Agrees E (evalChild U E (p.build U k).1) (sem U (attsOf U E) p) := by
  induction p generalizing k with
  | cmp l o r =>
    simp only [Policy.build, evalChild_none]
    exact node_two (f := semCmp o) (evalChild_operand hE l k hw.1 hn.1)
      (evalChild_operand hE r _ hw.2.2 hn.2)
      (fun a b d d' w h1 h2 => evalOp_agrees hU _ w ho h1 h2)
  | lit t =>
    simp only [Policy.build, evalChild, sem, Node.res, evalNode_lit]
    cases ht : litTri U t with
    | true => exact ⟨rfl, rfl⟩
    | false => exact ⟨rfl, rfl⟩
    | undef => exact ⟨rfl, rfl⟩
  | att t =>
    obtain ⟨s, hs⟩ := hn
    exact evalChild_att hE k hw hs
  | not n p ih =>
    simp only [Policy.build, evalChild_none]
    rw [sem_not]
    exact node_one (ih k hw.2 ho hn) (fun a d w h => evalNot_agrees (U := U) _ w h)
  | bin o p q ihp ihq =>
    simp only [Policy.build, evalChild_none]
    rw [sem_bin]
    exact node_two (ihp k hw.2.1 ho.1 hn.1) (ihq _ hw.2.2 ho.2 hn.2)
      (fun a b d d' w h1 h2 => evalBoolOp_agrees hU _ w hw.1 h1 h2)

/-- A whole policy evaluates to its meaning. -/
theorem evalNode_policy {U : Uni} (hU : U.Lawful) {E : SymEnv} (hE : SymEnv.SetsOk E) (p : Policy)
    (k : Nat) (hw : p.WF) (ho : p.OpsOk) (hn : p.NamesOk) :
    Agrees E (evalNode U E (p.build U k).1) (semPolicy U (attsOf U E) p) := by
  have h := evalChild_policy hU hE p k hw ho hn
  cases p with
  | lit t =>
    simp only [Policy.build, semPolicy, evalNode_lit]
    exact ⟨rfl, rfl⟩
  | att t =>
    simp only [Policy.build, attNode, evalChild_none] at h ⊢
    exact h
  | cmp l o r => simp only [Policy.build, evalChild_none] at h ⊢; exact h
  | not n p => simp only [Policy.build, evalChild_none] at h ⊢; exact h
  | bin o p q => simp only [Policy.build, evalChild_none] at h ⊢; exact h

end Verif.Proofs
