import Verif.Model.InterpMessages
import Verif.Spec.Warnings
import Verif.Proofs.InterpSem
/-!
# The interpreter with messages: forgetting them, and what they say
-/

namespace Verif.Proofs
open Verif Verif.Spec

/-- A warning with a message. -/
def withMsg (m : Str) (w : Warn) : WarnM := ⟨w.pos, w.rule, m⟩

/-- An outcome of an operator with a message for its warnings. -/
def liftOp (m : Str) (x : OpOut) : OpOutM := x.map fun v => (v.1, v.2.map (withMsg m))

theorem undefOpM_eq (rule : String) (m : Str) : undefOpM rule m = liftOp m (undefOp rule) := rfl

theorem liftOp_bind (m : Str) {α : Type} (x : Except PyExc α) (f : α → OpOut) :
    liftOp m (x >>= f) = x >>= fun a => liftOp m (f a) := by
  cases x <;> rfl

theorem liftOp_pure (m : Str) (v : Tri) : liftOp m (pure (v, [])) = pure (v, []) := rfl

theorem eqRest (x y : Scalar) :
    (match x, y with
      | .atom (.str s), .atom (.str t) => (pure (Tri.fromBool (decide (s = t)), []) : OpOutM)
      | .atom .null, .atom .null => pure (.true, [])
      | _, _ => undefOpM "eq_op" msgEqOp) =
    liftOp msgEqOp (match x, y with
      | .atom (.str s), .atom (.str t) => pure (Tri.fromBool (decide (s = t)), [])
      | .atom .null, .atom .null => pure (.true, [])
      | _, _ => undefOp "eq_op") := by
  cases x with
  | atom a =>
    cases y with
    | atom b => cases a <;> cases b <;> rfl
    | _ => cases a <;> rfl
  | _ => rfl

theorem eqOpM_eq (E : SymEnv) (l r : Res) : eqOpM E l r = liftOp msgEqOp (eqOp E l r) := by
  unfold eqOpM eqOp
  rw [liftOp_bind]
  congr 1; funext a
  rw [liftOp_bind]
  congr 1; funext b
  cases a with
  | sc x =>
    cases b with
    | sc y =>
      dsimp only
      cases x.num with
      | some m =>
        cases y.num with
        | some n => rfl
        | none => exact eqRest x y
      | none => exact eqRest x y
    | set y => rfl
    | list y => rfl
  | set x => cases b <;> rfl
  | list x =>
    cases b with
    | list y =>
      dsimp only
      rw [liftOp_bind]
      congr 1; funext x'
      rw [liftOp_bind]
      rfl
    | _ => rfl

theorem neqOpM_eq (E : SymEnv) (l r : Res) : neqOpM E l r = liftOp msgEqOp (neqOp E l r) := by
  unfold neqOpM neqOp
  rw [eqOpM_eq]
  cases eqOp E l r <;> rfl

theorem numOpM_eq (rule : String) (m : Str) (cmp : PyFloat → PyFloat → Bool) (E : SymEnv) (l r : Res) :
    numOpM rule m cmp E l r = liftOp m (numOp rule cmp E l r) := by
  unfold numOpM numOp
  cases rawOperand E l <;> cases rawOperand E r <;> try rfl
  rename_i x y
  dsimp only
  cases x.num <;> cases y.num <;> rfl

theorem inOpM_eq (E : SymEnv) (l r : Res) : inOpM E l r = liftOp msgInOp (inOp E l r) := by
  unfold inOpM inOp
  rw [liftOp_bind]
  congr 1; funext a
  rw [liftOp_bind]
  congr 1; funext b
  cases b with
  | sc y => rfl
  | set ys =>
    cases a with
    | sc x =>
      dsimp only
      by_cases h1 : x.isNumStr = true
      · rw [if_pos h1, if_pos h1]; rfl
      · rw [if_neg h1, if_neg h1]
        by_cases h2 : x = .atom .null
        · rw [if_pos h2, if_pos h2]; rfl
        · rw [if_neg h2, if_neg h2]; rfl
    | set xs => dsimp only; rw [liftOp_bind]; rfl
    | list xs => rfl
  | list ys =>
    cases a with
    | sc x =>
      dsimp only
      by_cases h1 : x.isNumStr = true
      · rw [if_pos h1, if_pos h1]; rfl
      · rw [if_neg h1, if_neg h1]
        by_cases h2 : x = .atom .null
        · rw [if_pos h2, if_pos h2]; rfl
        · rw [if_neg h2, if_neg h2]; rfl
    | set xs => dsimp only; rw [liftOp_bind]; rfl
    | list xs => rfl

theorem subsetOpM_eq (E : SymEnv) (l r : Res) : subsetOpM E l r = liftOp msgSubsetOp (subsetOp E l r) := by
  unfold subsetOpM subsetOp
  rw [liftOp_bind]
  congr 1; funext a
  rw [liftOp_bind]
  congr 1; funext b
  cases a <;> cases b <;> rfl

/-- The message of an operator. -/
def opMsg (U : Uni) (s : Str) : Str :=
  if s = "=".toList then msgEqOp
  else if s = "!=".toList then msgEqOp
  else if s = ">".toList then msgGtOp
  else if s = "<".toList then msgLtOp
  else if s = ">=".toList then msgGteOp
  else if s = "<=".toList then msgLteOp
  else if U.upper s = "IN".toList then msgInOp
  else msgSubsetOp

theorem applyOpM_eq (U : Uni) (E : SymEnv) (s : Str) (l r : Res) :
    applyOpM U E s l r = (applyOp U E s l r).map (liftOp (opMsg U s)) := by
  unfold applyOpM applyOp opMsg
  by_cases h1 : s = "=".toList
  · rw [if_pos h1, if_pos h1, if_pos h1, eqOpM_eq]; rfl
  rw [if_neg h1, if_neg h1, if_neg h1]
  by_cases h2 : s = "!=".toList
  · rw [if_pos h2, if_pos h2, if_pos h2, neqOpM_eq]; rfl
  rw [if_neg h2, if_neg h2, if_neg h2]
  by_cases h3 : s = ">".toList
  · rw [if_pos h3, if_pos h3, if_pos h3]; unfold gtOpM gtOp; rw [numOpM_eq]; rfl
  rw [if_neg h3, if_neg h3, if_neg h3]
  by_cases h4 : s = "<".toList
  · rw [if_pos h4, if_pos h4, if_pos h4]; unfold ltOpM ltOp; rw [numOpM_eq]; rfl
  rw [if_neg h4, if_neg h4, if_neg h4]
  by_cases h5 : s = ">=".toList
  · rw [if_pos h5, if_pos h5, if_pos h5]; unfold gteOpM gteOp; rw [numOpM_eq]; rfl
  rw [if_neg h5, if_neg h5, if_neg h5]
  by_cases h6 : s = "<=".toList
  · rw [if_pos h6, if_pos h6, if_pos h6]; unfold lteOpM lteOp; rw [numOpM_eq]; rfl
  rw [if_neg h6, if_neg h6, if_neg h6]
  by_cases h7 : U.upper s = "IN".toList
  · rw [if_pos h7, if_pos h7, if_pos h7, inOpM_eq]; rfl
  rw [if_neg h7, if_neg h7, if_neg h7]
  by_cases h8 : U.upper s = "SUBSET".toList
  · rw [if_pos h8, if_pos h8, subsetOpM_eq]; rfl
  rw [if_neg h8, if_neg h8]; rfl

/-! ### Forgetting messages -/

/-- An outcome without messages. -/
def quiet {α : Type} (x : α × List WarnM × Option EvalErr) : α × List Warn × Option PyExc :=
  (x.1, x.2.1.map WarnM.warn, x.2.2.map EvalErr.exc)

theorem warn_withMsg (m : Str) (w : List Warn) : (w.map (withMsg m)).map WarnM.warn = w := by
  induction w with
  | nil => rfl
  | cons a w ih => simp only [List.map_cons, ih]; rfl

theorem quiet_evalAtt (U : Uni) (E : SymEnv) (k : Kind) (t : Token) (r : Res) : quiet (evalAttM U E k t r) = evalAtt U E k t r := by
  unfold evalAttM evalAtt
  cases attToSymbolName k t with
  | error e => rfl
  | ok name =>
    dsimp only
    cases E.tab.lookup U name with
    | none => rfl
    | some ref =>
      dsimp only
      by_cases hv : (E.heap ref).value = .sc .none
      · rw [if_pos hv, if_pos hv]
        by_cases hc : (E.heap ref).checkValType = false
        · rw [if_pos hc, if_pos hc]; rfl
        · rw [if_neg hc, if_neg hc]
          by_cases hb : (E.heap ref).type = .bool
          · rw [if_pos hb, if_pos hb, hv]; rfl
          · rw [if_neg hb, if_neg hb]; rfl
      · rw [if_neg hv, if_neg hv]
        by_cases hc : (E.heap ref).checkValType = false
        · rw [if_pos hc, if_pos hc]; rfl
        · rw [if_neg hc, if_neg hc]
          by_cases hb : (E.heap ref).type = .bool
          · rw [if_pos hb, if_pos hb]
            cases (E.heap ref).value with
            | sc z => cases z <;> rfl
            | _ => rfl
          · rw [if_neg hb, if_neg hb]; rfl

theorem quiet_evalNot (t : Token) (r : Res) (cs : List Node) : quiet (evalNotM t r cs) = evalNot t r cs := by
  unfold evalNotM evalNot
  rcases cs[0]?.map Node.res with _ | x
  · rfl
  · cases x <;> rfl

theorem quiet_evalBoolOp (U : Uni) (t : Token) (r : Res) (cs : List Node) :
    quiet (evalBoolOpM U t r cs) = evalBoolOp U t r cs := by
  unfold evalBoolOpM evalBoolOp
  rcases cs[0]?.map Node.res with _ | x
  · rfl
  cases x with
  | tri a =>
    rcases cs[1]?.map Node.res with _ | y
    · rfl
    cases y with
    | tri b =>
      cases t.value with
      | str s =>
        dsimp only
        by_cases h1 : U.upper s = "AND".toList
        · rw [if_pos h1, if_pos h1]; rfl
        · rw [if_neg h1, if_neg h1]
          by_cases h2 : U.upper s = "OR".toList
          · rw [if_pos h2, if_pos h2]; rfl
          · rw [if_neg h2, if_neg h2]; rfl
      | _ => rfl
    | _ => rfl
  | _ => rfl

theorem quiet_evalOp (U : Uni) (E : SymEnv) (t : Token) (r : Res) (cs : List Node) :
    quiet (evalOpM U E t r cs) = evalOp U E t r cs := by
  unfold evalOpM evalOp
  rcases cs[0]?.map Node.res with _ | l
  · rfl
  rcases cs[1]?.map Node.res with _ | rr
  · rfl
  · dsimp only
    by_cases h1 : l = .none ∨ rr = .none
    · rw [if_pos h1, if_pos h1]; rfl
    rw [if_neg h1, if_neg h1]
    cases t.value with
    | str s =>
      dsimp only
      by_cases h2 : U.upper s ∈ ["=", "!=", "<", ">", "<=", ">=", "IN", "SUBSET"].map String.toList
      · rw [if_pos h2, if_pos h2]
        by_cases h3 : l = .tri .undef ∨ rr = .tri .undef
        · rw [if_pos h3, if_pos h3]; rfl
        rw [if_neg h3, if_neg h3, applyOpM_eq]
        cases applyOp U E s l rr with
        | none => rfl
        | some x =>
          cases x with
          | error e => rfl
          | ok v =>
            obtain ⟨v, w⟩ := v
            show (_, (w.map (withMsg _)).map WarnM.warn, _) = _
            rw [warn_withMsg]; rfl
      · rw [if_neg h2, if_neg h2]; rfl
    | _ => rfl

theorem quiet_evalSet (t : Token) (cs : List Node) : quiet (evalSetM t cs) = evalSet t cs := by
  unfold evalSetM evalSet
  rcases evalSetLoop [] cs with ⟨l, _ | _⟩ <;> rfl

theorem quiet_evalSelf (U : Uni) (E : SymEnv) (k : Kind) (t : Token) (r : Res) (cs : List Node) :
    quiet (evalSelfM U E k t r cs) = evalSelf U E k t r cs := by
  unfold evalSelfM evalSelf
  by_cases h : k.isAtt = true
  · rw [if_pos h, if_pos h, quiet_evalAtt]
  · rw [if_neg h, if_neg h]
    cases k <;> first | exact quiet_evalNot _ _ _ | exact quiet_evalSet _ _ | exact quiet_evalBoolOp _ _ _ _ |
      exact quiet_evalOp _ _ _ _ _ | rfl

mutual
theorem quiet_evalNode (U : Uni) (E : SymEnv) : ∀ n, quiet (evalNodeM U E n) = evalNode U E n
  | .mk k t i r cs => by
    have h := quiet_evalChildren U E cs
    rw [evalNodeM, evalNode, ← h]
    rcases evalChildrenM U E cs with ⟨cs', w, _ | e⟩
    · show _ = (match evalSelf U E k t r cs' with | (r', w', e) => (Node.mk k t i r' cs', w.map WarnM.warn ++ w', e))
      rw [← quiet_evalSelf]
      show (_, List.map WarnM.warn (_ ++ _), _) = _
      rw [List.map_append]; rfl
    · rfl
theorem quiet_evalChildren (U : Uni) (E : SymEnv) : ∀ ns, quiet (evalChildrenM U E ns) = evalChildren U E ns
  | [] => by rw [evalChildrenM, evalChildren]; rfl
  | n :: ns => by
    have h1 := quiet_evalNode U E n
    have h2 := quiet_evalChildren U E ns
    rw [evalChildrenM, evalChildren, ← h1, ← h2]
    by_cases h : n.res.truthy = true
    · rw [if_pos h, if_pos h]; rfl
    · rw [if_neg h, if_neg h]
      rcases evalNodeM U E n with ⟨n', w, _ | e⟩
      · show (_, List.map WarnM.warn (_ ++ _), _) = _
        rw [List.map_append]; rfl
      · rfl
end

theorem raiseWarningsM_exc (level : Option Int) (w : List WarnM) :
    (raiseWarningsM level w).map RaisedM.exc = raiseWarnings level (w.map WarnM.warn) := by
  induction w with
  | nil => rfl
  | cons a w ih =>
    cases level with
    | none => rfl
    | some m =>
      simp only [raiseWarningsM, raiseWarnings, List.map_cons]
      by_cases h : levelWARN ≥ m
      · rw [if_pos h, if_pos h]; rfl
      · rw [if_neg h, if_neg h]; exact ih

/-! ### What is said -/

/-- What the warnings of an evaluation say. -/
def said {α : Type} (x : α × List WarnM × Option EvalErr) : List (Int × Str) := x.2.1.map fun w => (w.pos, w.msg)

/-- Remarks as positions and messages. -/
def asSaid (l : List Remark) : List (Int × Str) := l.map fun r => (r.pos.getD (-1), r.text)

theorem asSaid_append (a b : List Remark) : asSaid (a ++ b) = asSaid a ++ asSaid b := List.map_append

/-- Evaluation of a child, with messages. -/
def evalChildM (U : Uni) (E : SymEnv) (n : Node) : Node × List WarnM × Option EvalErr :=
  if n.res.truthy then (n, [], none) else evalNodeM U E n

theorem quiet_evalChild (U : Uni) (E : SymEnv) (n : Node) : quiet (evalChildM U E n) = evalChild U E n := by
  unfold evalChildM evalChild
  by_cases h : n.res.truthy = true
  · rw [if_pos h, if_pos h]; rfl
  · rw [if_neg h, if_neg h, quiet_evalNode]

theorem evalChildrenM_one (U : Uni) (E : SymEnv) (a : Node) :
    evalChildrenM U E [a] = ([(evalChildM U E a).1], (evalChildM U E a).2.1, (evalChildM U E a).2.2) := by
  unfold evalChildrenM evalChildM
  by_cases h : a.res.truthy = true
  · rw [if_pos h, if_pos h]; simp [evalChildrenM]
  · rw [if_neg h, if_neg h]
    rcases he : evalNodeM U E a with ⟨a', w, _ | e⟩ <;> simp [evalChildrenM]

theorem evalChildrenM_two (U : Uni) (E : SymEnv) (a b : Node) :
    evalChildrenM U E [a, b] =
      match evalChildM U E a with
      | (a', w, some e) => ([a', b], w, some e)
      | (a', w, none) =>
        match evalChildM U E b with
        | (b', w', e) => ([a', b'], w ++ w', e) := by
  rw [evalChildrenM, evalChildrenM_one]
  unfold evalChildM
  by_cases h : a.res.truthy = true
  · rw [if_pos h, if_pos h]; simp
  · rw [if_neg h, if_neg h]
    rcases evalNodeM U E a with ⟨a', w, _ | e⟩ <;> rfl

/-- Agreement with a meaning and with remarks. -/
def Tells (E : SymEnv) (x : Node × List WarnM × Option EvalErr) (o : Eff Den) (l : List Remark) : Prop :=
  Agrees E (quiet x) o ∧ said x = asSaid l

theorem tells_one {U : Uni} {E : SymEnv} {k : Kind} {t : Token} {i : Nat} {a : Node} {oa : Eff Den} {l : List Remark}
    {g : Den → List Remark} (ha : Tells E (evalChildM U E a) oa l)
    (hf : ∀ (a' : Node) (d : Den), Rel E a'.res d →
      (evalSelfM U E k t .none [a']).2.1.map (fun w => (w.pos, w.msg)) = asSaid (g d)) :
    said (evalNodeM U E (.mk k t i .none [a])) = asSaid (l ++ after oa.2 g) := by
  rw [evalNodeM, evalChildrenM_one, asSaid_append, ← ha.2]
  have h2 := ha.1.2
  generalize evalChildM U E a = xa at h2 ⊢
  obtain ⟨a', w, _ | e⟩ := xa
  · obtain ⟨_, o⟩ := oa
    cases o with
    | error e => exact absurd h2 id
    | ok d =>
      show List.map _ (w ++ _) = _
      rw [List.map_append, hf a' d h2]; rfl
  · obtain ⟨_, o⟩ := oa
    cases o with
    | ok d => exact absurd h2 id
    | error e' => show _ = _ ++ asSaid []; simp [asSaid, said]

theorem tells_two {U : Uni} {E : SymEnv} {k : Kind} {t : Token} {i : Nat} {a b : Node} {oa ob : Eff Den}
    {la lb : List Remark} {g : Den → Den → List Remark} (ha : Tells E (evalChildM U E a) oa la)
    (hb : Tells E (evalChildM U E b) ob lb)
    (hf : ∀ (a' b' : Node) (d d' : Den), Rel E a'.res d → Rel E b'.res d' →
      (evalSelfM U E k t .none [a', b']).2.1.map (fun w => (w.pos, w.msg)) = asSaid (g d d')) :
    said (evalNodeM U E (.mk k t i .none [a, b])) =
      asSaid (la ++ after oa.2 fun d => lb ++ after ob.2 fun d' => g d d') := by
  rw [evalNodeM, evalChildrenM_two, asSaid_append, ← ha.2]
  have h2 := ha.1.2
  generalize evalChildM U E a = xa at h2 ⊢
  obtain ⟨a', w, _ | e⟩ := xa
  · obtain ⟨_, o⟩ := oa
    cases o with
    | error e => exact absurd h2 id
    | ok d =>
      show _ = _ ++ asSaid (lb ++ _)
      rw [asSaid_append, ← hb.2]
      have h4 := hb.1.2
      generalize evalChildM U E b = xb at h4 ⊢
      obtain ⟨b', w', _ | e⟩ := xb
      · obtain ⟨_, o⟩ := ob
        cases o with
        | error e => exact absurd h4 id
        | ok d' =>
          show List.map _ ((w ++ w') ++ _) = _
          rw [List.map_append, List.map_append, hf a' b' d d' h2 h4, List.append_assoc]; rfl
      · obtain ⟨_, o⟩ := ob
        cases o with
        | ok d => exact absurd h4 id
        | error e' =>
          show List.map _ (w ++ w') = _ ++ (_ ++ asSaid [])
          rw [List.map_append]
          simp [asSaid, said]
  · obtain ⟨_, o⟩ := oa
    cases o with
    | ok d => exact absurd h2 id
    | error e' => show _ = _ ++ asSaid []; simp [asSaid, said]

theorem classText_eq {t : Token} (ht : AttTok t) : attTypePrefix (some t.type) = classText t.type := by
  obtain ⟨ty, p, v⟩ := t
  unfold AttTok at ht
  simp only at ht
  rcases ht with h | h | h | h | h <;> subst h <;> rfl

theorem said_att {U : Uni} {E : SymEnv} {t : Token} {s : Str} (k : Nat) (ht : AttTok t) (hv : t.value = .str s) :
    said (evalNodeM U E (attNode t k)) = asSaid (remarksAtt (attsOf U E) t) := by
  have hn : attName t = s := by simp [attName, hv]
  have hl := lookup_att (U := U) ht hv
  unfold attNode
  rw [evalNodeM, evalChildrenM]
  show List.map _ ([] ++ (evalSelfM U E _ t .none []).2.1) = _
  unfold evalSelfM
  rw [List.nil_append, if_pos (attKind_isAtt _)]
  unfold evalAttM remarksAtt attsOf calledName
  rw [hl, hn, ← classText_eq ht]
  dsimp only
  cases E.tab.lookup U (attTypePrefix (some t.type) ++ s) with
  | none => rfl
  | some r =>
    dsimp only [Option.map]
    rw [fits_checkValType]
    by_cases h0 : (E.heap r).value = .sc .none
    · rw [if_pos h0, h0]
      rw [if_pos (by cases (E.heap r).type <;> rfl)]
      rfl
    · rw [if_neg h0]
      have e : ∀ (x y : List Remark), (match some ((E.heap r).type, (E.heap r).value) with
          | none => x
          | some (_, .sc .none) => y
          | some (ty, v) => if fits ty v = true then [] else
            [⟨some t.pos, msgBadType (attTypePrefix (some t.type) ++ s)⟩]) =
          if fits (E.heap r).type (E.heap r).value = true then [] else
            [⟨some t.pos, msgBadType (attTypePrefix (some t.type) ++ s)⟩] := by
        intro x y
        generalize (E.heap r).value = v at h0 ⊢
        cases v with
        | sc z => cases z <;> first | exact absurd rfl h0 | rfl
        | _ => rfl
      refine Eq.trans ?_ (congrArg asSaid (e _ _)).symm
      by_cases hf : fits (E.heap r).type (E.heap r).value = true
      · rw [hf, if_neg (by decide), if_pos rfl]
        by_cases hb : (E.heap r).type = .bool
        · rw [if_pos hb]; split <;> rfl
        · rw [if_neg hb]; rfl
      · rw [if_neg hf, if_pos (by simpa using hf)]; rfl

theorem tells_att {U : Uni} {E : SymEnv} (hE : SymEnv.SetsOk E) {t : Token} {s : Str} (k : Nat) (ht : AttTok t)
    (hv : t.value = .str s) : Tells E (evalChildM U E (attNode t k)) (semAtt (attsOf U E) t) (remarksAtt (attsOf U E) t) := by
  refine ⟨by rw [quiet_evalChild]; exact evalChild_att hE k ht hv, ?_⟩
  have : evalChildM U E (attNode t k) = evalNodeM U E (attNode t k) := by
    simp [evalChildM, attNode, Node.res, Res.truthy]
  rw [this]
  exact said_att k ht hv

theorem said_nil {x : Node × List WarnM × Option EvalErr} (h : (quiet x).2.1 = []) : said x = [] := by
  unfold quiet at h
  unfold said
  simp only [List.map_eq_nil_iff] at h ⊢
  exact h

theorem tells_operand {U : Uni} {E : SymEnv} (hE : SymEnv.SetsOk E) (v : Operand) (k : Nat) (hw : v.WF) (hn : v.NamesOk) :
    Tells E (evalChildM U E (v.build k).1) (semOperand (attsOf U E) v) (remarksOperand (attsOf U E) v) := by
  cases v with
  | att t =>
    obtain ⟨s, hs⟩ := hn
    exact tells_att hE k hw hs
  | atom t =>
    have h := evalChild_atom (U := U) (E := E) t k
    refine ⟨by rw [quiet_evalChild]; exact h, ?_⟩
    refine said_nil ?_
    rw [quiet_evalChild]
    refine h.1.trans ?_
    show (match constOf t with | none => Eff.fail (badLiteral t) | some a => Eff.pure (Den.const a)).1 = []
    cases constOf t <;> rfl
  | set l es =>
    have h := evalChild_operand (U := U) hE (.set l es) k hw hn
    refine ⟨by rw [quiet_evalChild]; exact h, ?_⟩
    refine said_nil ?_
    rw [quiet_evalChild]
    exact h.1

theorem opMsg_text {U : Uni} (hU : U.Lawful) {s rule : String} {f : Den → Den → Answer} (h : (s, rule, f) ∈ operators) :
    ∃ x, opText.find? (fun e => TVal.str s.toList = .str e.1.toList) = some (s, x) ∧
      opMsg U s.toList = "Interpreter Warning, invalid type used in ".toList ++ x.toList ++ " operation.".toList := by
  simp only [operators, List.mem_cons, Prod.mk.injEq, List.not_mem_nil, or_false] at h
  rcases h with ⟨rfl, rfl, rfl⟩ | ⟨rfl, rfl, rfl⟩ | ⟨rfl, rfl, rfl⟩ | ⟨rfl, rfl, rfl⟩ |
    ⟨rfl, rfl, rfl⟩ | ⟨rfl, rfl, rfl⟩ | ⟨rfl, rfl, rfl⟩ | ⟨rfl, rfl, rfl⟩
  · exact ⟨_, rfl, rfl⟩
  · exact ⟨_, rfl, rfl⟩
  · exact ⟨_, rfl, rfl⟩
  · exact ⟨_, rfl, rfl⟩
  · exact ⟨_, rfl, rfl⟩
  · exact ⟨_, rfl, rfl⟩
  · refine ⟨_, rfl, ?_⟩
    unfold opMsg
    rw [if_neg (by decide), if_neg (by decide), if_neg (by decide), if_neg (by decide),
      if_neg (by decide), if_neg (by decide), if_pos (by rw [hU.upper_ascii _ (by decide)]; decide)]
    rfl
  · refine ⟨_, rfl, ?_⟩
    unfold opMsg
    rw [if_neg (by decide), if_neg (by decide), if_neg (by decide), if_neg (by decide),
      if_neg (by decide), if_neg (by decide), if_neg (by rw [hU.upper_ascii _ (by decide)]; decide)]
    rfl

theorem said_op {U : Uni} (hU : U.Lawful) {E : SymEnv} {o : Token} {a b : Node} {da db : Den}
    (ho : ∃ e ∈ operators, o.value = .str e.1.toList) (ha : Rel E a.res da) (hb : Rel E b.res db) :
    (evalSelfM U E .op o .none [a, b]).2.1.map (fun w => (w.pos, w.msg)) = asSaid (remarksCmp o da db) := by
  obtain ⟨s, rule, f, h1, h2, h3⟩ := find_op ho
  obtain ⟨h4, h5⟩ := applyOp_sem hU ha hb h1
  have hn : ¬ (a.res = .none ∨ b.res = .none) := by
    rintro (h | h)
    · exact rel_ne_none ha h
    · exact rel_ne_none hb h
  unfold remarksCmp semCmp
  simp only [evalSelfM, Kind.isAtt, Bool.false_eq_true, if_false, evalOpM, List.getElem?_cons_zero,
    List.getElem?_cons_succ, Option.map_some, h2, if_neg hn, if_pos h4, rel_undef ha, rel_undef hb]
  by_cases hu : da = .truth .undef ∨ db = .truth .undef
  · rw [if_pos hu, if_pos hu]
    rfl
  · have h3' : operators.find? (fun e => decide (TVal.str s.toList = .str e.1.toList)) =
        some (s, rule, f) := by rw [← h2]; exact h3
    obtain ⟨x, h6, h7⟩ := opMsg_text hU h1
    rw [if_neg hu, if_neg hu, applyOpM_eq, h5, h3', h6, h7]
    dsimp only
    have hc : (∃ e, f da db = .error e) ∨ f da db = .ok none ∨ f da db = .ok (some true) ∨ f da db = .ok (some false) := by
      rcases f da db with e | (_ | _ | _) <;> simp
    rcases hc with ⟨e, hc⟩ | hc | hc | hc
    · rw [if_pos (by rw [hc]; rfl), hc]; rfl
    · rw [if_neg (by rw [hc]; exact List.cons_ne_nil _ _), hc]; rfl
    · rw [if_pos (by rw [hc]; rfl), hc]; rfl
    · rw [if_pos (by rw [hc]; rfl), hc]; rfl

theorem said_bool {U : Uni} {E : SymEnv} (o : Token) (a b : Node) :
    (evalSelfM U E .boolOp o .none [a, b]).2.1.map (fun w => (w.pos, w.msg)) = asSaid [] := by
  show (evalBoolOpM U o .none [a, b]).2.1.map _ = _
  unfold evalBoolOpM
  split
  · split
    · split
      · rfl
      · split <;> rfl
    · rfl
  · rfl

theorem said_not {U : Uni} {E : SymEnv} (o : Token) (a : Node) :
    (evalSelfM U E .not o .none [a]).2.1.map (fun w => (w.pos, w.msg)) = asSaid [] := by
  show (evalNotM o .none [a]).2.1.map _ = _
  unfold evalNotM
  split <;> rfl

theorem after_nil {α : Type} (x : Except PyExc α) : after x (fun _ => []) = [] := by cases x <;> rfl

theorem evalChildM_none {U : Uni} {E : SymEnv} (k : Kind) (t : Token) (i : Nat) (cs : List Node) :
    evalChildM U E (.mk k t i .none cs) = evalNodeM U E (.mk k t i .none cs) := by
  simp [evalChildM, Node.res, Res.truthy]

theorem tells_policy {U : Uni} (hU : U.Lawful) {E : SymEnv} (hE : SymEnv.SetsOk E) (p : Policy) (k : Nat)
    (hw : p.WF) (ho : p.OpsOk) (hn : p.NamesOk) :
    Tells E (evalChildM U E (p.build U k).1) (sem U (attsOf U E) p) (remarks U (attsOf U E) p) := by
  refine ⟨by rw [quiet_evalChild]; exact evalChild_policy hU hE p k hw ho hn, ?_⟩
  induction p generalizing k with
  | cmp l o r =>
    simp only [Policy.build, evalChildM_none]
    exact tells_two (tells_operand hE l k hw.1 hn.1) (tells_operand hE r _ hw.2.2 hn.2)
      (fun a b d d' h1 h2 => said_op hU ho h1 h2)
  | lit t =>
    refine said_nil ?_
    rw [quiet_evalChild]
    have h := (evalChild_policy hU hE (.lit t) k hw ho hn).1
    refine h.trans ?_
    unfold sem
    split <;> rfl
  | att t =>
    obtain ⟨s, hs⟩ := hn
    exact (tells_att hE k hw hs).2
  | not n p ih =>
    have hp : Tells E (evalChildM U E (p.build U k).1) (sem U (attsOf U E) p) (remarks U (attsOf U E) p) :=
      ⟨by rw [quiet_evalChild]; exact evalChild_policy hU hE p k hw.2 ho hn, ih k hw.2 ho hn⟩
    simp only [Policy.build, evalChildM_none]
    have := tells_one (k := .not) (t := n) (i := (p.build U k).2) (g := fun _ => []) hp
      (fun a d _ => said_not n a)
    rw [after_nil, List.append_nil] at this
    exact this
  | bin o p q ihp ihq =>
    have hp : Tells E (evalChildM U E (p.build U k).1) (sem U (attsOf U E) p) (remarks U (attsOf U E) p) :=
      ⟨by rw [quiet_evalChild]; exact evalChild_policy hU hE p k hw.2.1 ho.1 hn.1, ihp k hw.2.1 ho.1 hn.1⟩
    have hq : Tells E (evalChildM U E (q.build U (p.build U k).2).1) (sem U (attsOf U E) q) (remarks U (attsOf U E) q) :=
      ⟨by rw [quiet_evalChild]; exact evalChild_policy hU hE q _ hw.2.2 ho.2 hn.2, ihq _ hw.2.2 ho.2 hn.2⟩
    simp only [Policy.build, evalChildM_none]
    have := tells_two (k := .boolOp) (t := o) (i := (q.build U (p.build U k).2).2) (g := fun _ _ => []) hp hq
      (fun a b d d' _ _ => said_bool o a b)
    simp only [after_nil, List.append_nil] at this
    exact this

end Verif.Proofs
