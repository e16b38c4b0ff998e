import Verif.Model.Parser
import Verif.Spec.Grammar
/-!
# Closed forms of the non-recursive parser rules
-/

namespace Verif.Proofs
open Verif Verif.Spec

theorem isAtt_iff (t : Token) : t.isAtt = true ↔ AttTok t := by
  obtain ⟨ty, p, v⟩ := t
  cases ty <;> simp [Token.isAtt, AttTok]

theorem isAtomic_iff (t : Token) : t.isAtomic = true ↔ AtomTok false t := by
  simp [Token.isAtomic, AtomTok]

theorem mkNode_plain (U : Uni) (s : PState) (k : Kind) (t : Token) (ch : List Node)
    (hk : initRes U k t = .ok .none) :
    s.mkNode U k t ch = .ok (.mk k t s.nextId .none ch, ⟨s.toks, s.nextId + 1⟩) := by
  simp [PState.mkNode, hk, bind, Except.bind, pure, Except.pure]

/-! ### Attribute names -/

theorem attNameRule_nil (U : Uni) (k : Nat) :
    attNameRule U ⟨[], k⟩ = .error .attributeError := rfl

theorem attNameRule_ok (U : Uni) (t : Token) (ts : List Token) (k : Nat) (h : AttTok t) :
    attNameRule U ⟨t :: ts, k⟩ = .ok (attNode t k, ⟨ts, k + 1⟩) := by
  obtain ⟨ty, p, v⟩ := t
  unfold AttTok at h
  simp only at h
  rcases h with rfl | rfl | rfl | rfl | rfl <;>
  · simp [attNameRule, PState.cur, PState.eat, PState.mkNode, initRes, bind, Except.bind, pure,
      Except.pure, attNode, attKind]

theorem attNameRule_err (U : Uni) (t : Token) (ts : List Token) (k : Nat) (h : ¬ AttTok t) :
    attNameRule U ⟨t :: ts, k⟩ = .error (.parserError t.pos "att_name") := by
  obtain ⟨ty, p, v⟩ := t
  unfold AttTok at h
  simp only [not_or] at h
  simp [attNameRule, PState.cur, PState.eat, bind, Except.bind, h]

/-! ### Boolean variables -/

theorem boolVarRule_nil (U : Uni) (k : Nat) :
    boolVarRule U ⟨[], k⟩ = .error .attributeError := rfl

theorem boolVarRule_lit (U : Uni) (t : Token) (ts : List Token) (k : Nat) (h : BoolTok t) :
    boolVarRule U ⟨t :: ts, k⟩ = .ok (.mk .boolVal t k (.tri (litTri U t)) [], ⟨ts, k + 1⟩) := by
  obtain ⟨ty, p, v⟩ := t
  obtain ⟨h1, s, h2⟩ := h
  simp only at h1 h2
  subst h1; subst h2
  have : initRes U .boolVal ⟨.bool, p, .str s⟩ = .ok (.tri (litTri U ⟨.bool, p, .str s⟩)) := by
    simp only [initRes, litTri]
    split
    · rfl
    · split <;> rfl
  simp [boolVarRule, PState.cur, PState.eat, PState.mkNode, this, bind, Except.bind, pure,
      Except.pure]

theorem boolVarRule_bad (U : Uni) (t : Token) (ts : List Token) (k : Nat) (h1 : t.type = .bool)
    (h2 : ¬ BoolTok t) : boolVarRule U ⟨t :: ts, k⟩ = .error .attributeError := by
  obtain ⟨ty, p, v⟩ := t
  simp only at h1
  subst h1
  cases v with
  | str s => exact absurd ⟨rfl, s, rfl⟩ h2
  | none => rfl
  | int i => rfl
  | flt f => rfl

theorem boolVarRule_att (U : Uni) (t : Token) (ts : List Token) (k : Nat) (h : t.type ≠ .bool) :
    boolVarRule U ⟨t :: ts, k⟩ = attNameRule U ⟨t :: ts, k⟩ := by
  simp [boolVarRule, PState.cur, bind, Except.bind, h]

/-! ### Atomic constants -/

theorem atomicRule_nil (U : Uni) (k : Nat) :
    atomicRule U ⟨[], k⟩ = .error .attributeError := rfl

theorem atomicRule_ok (U : Uni) (t : Token) (ts : List Token) (k : Nat) (h : AtomTok false t) :
    atomicRule U ⟨t :: ts, k⟩ = .ok (atomNode t k, ⟨ts, k + 1⟩) := by
  obtain ⟨ty, p, v⟩ := t
  unfold AtomTok at h
  simp only [Bool.false_eq_true, false_and, or_false] at h
  rcases h with rfl | rfl | rfl | rfl <;> cases v <;>
  · simp [atomicRule, PState.cur, PState.eat, PState.mkNode, initRes, bind, Except.bind, pure,
      Except.pure, atomNode, atomKind, atomRes, TVal.toRes]

theorem atomicRule_err (U : Uni) (t : Token) (ts : List Token) (k : Nat) (h : ¬ AtomTok false t) :
    atomicRule U ⟨t :: ts, k⟩ = .error (.parserError t.pos "atomic") := by
  obtain ⟨ty, p, v⟩ := t
  unfold AtomTok at h
  simp only [Bool.false_eq_true, false_and, or_false, not_or] at h
  simp [atomicRule, PState.cur, PState.eat, bind, Except.bind, h]

/-! ### Sets -/

/-- The part of a set literal after its first element: `"," atomic` repeated. -/
inductive SetTail : List Token → List Token → Prop
  | nil : SetTail [] []
  | cons {c t ts es} (hc : c.type = .comma) (ht : AtomTok false t) (h : SetTail ts es) :
      SetTail (c :: t :: ts) (t :: es)

theorem dsetVal_iff (ts es : List Token) :
    DSetVal false ts es ↔
      ∃ t ts' es', ts = t :: ts' ∧ es = t :: es' ∧ AtomTok false t ∧ SetTail ts' es' := by
  constructor
  · intro h
    induction h with
    | one ht => exact ⟨_, _, _, rfl, rfl, ht, .nil⟩
    | cons ht hc _ ih =>
      obtain ⟨t', ts', es', rfl, rfl, h1, h2⟩ := ih
      exact ⟨_, _, _, rfl, rfl, ht, .cons hc h1 h2⟩
  · rintro ⟨t, ts', es', rfl, rfl, ht, h⟩
    induction h generalizing t with
    | nil => exact .one ht
    | cons hc ht' _ ih => exact .cons ht hc (ih _ ht')

/-- One unfolding of the loop. -/
theorem setLoop_succ (U : Uni) (n : Nat) (acc : List Node) (c : Token) (ts : List Token) (k : Nat) :
    setLoop U (n + 1) acc ⟨c :: ts, k⟩ =
      if c.type = .rset then .ok (acc, ⟨c :: ts, k⟩)
      else if c.type = .comma then
        (atomicRule U ⟨ts, k⟩).bind fun x => setLoop U n (acc ++ [x.1]) x.2
      else .error (.parserError c.pos "set") := by
  by_cases h1 : c.type = .rset
  · simp [setLoop, PState.cur, bind, Except.bind, pure, Except.pure, h1]
  · by_cases h2 : c.type = .comma
    · simp only [setLoop, PState.cur, bind, Except.bind, pure, Except.pure, h2, PState.eat]
      rw [if_pos (by simp)]
      simp
    · simp [setLoop, PState.cur, bind, Except.bind, h1, h2, PState.eat]

theorem setLoop_sound (U : Uni) (n : Nat) (acc acc' : List Node) (s s' : PState)
    (h : setLoop U n acc s = .ok (acc', s')) :
    ∃ us es r rs, s.toks = us ++ r :: rs ∧ SetTail us es ∧ r.type = .rset ∧
      acc' = acc ++ atomNodes es s.nextId ∧ s' = ⟨r :: rs, s.nextId + es.length⟩ := by
  induction n generalizing acc s with
  | zero => simp [setLoop] at h
  | succ n ih =>
    obtain ⟨toks, k⟩ := s
    cases toks with
    | nil => simp [setLoop, PState.cur, bind, Except.bind] at h
    | cons c ts =>
      rw [setLoop_succ] at h
      by_cases h1 : c.type = .rset
      · rw [if_pos h1] at h
        simp only [Except.ok.injEq, Prod.mk.injEq] at h
        obtain ⟨rfl, rfl⟩ := h
        exact ⟨[], [], c, ts, rfl, .nil, h1, by simp [atomNodes], rfl⟩
      · rw [if_neg h1] at h
        by_cases h2 : c.type = .comma
        · rw [if_pos h2] at h
          cases ts with
          | nil => simp [atomicRule_nil, Except.bind] at h
          | cons t ts =>
            by_cases h3 : AtomTok false t
            · rw [atomicRule_ok U t ts k h3] at h
              simp only [Except.bind] at h
              obtain ⟨us, es, r, rs, e1, e2, e3, e4, e5⟩ := ih _ _ h
              simp only at e1 e4 e5
              subst e1
              refine ⟨c :: t :: us, t :: es, r, rs, rfl, .cons h2 h3 e2, e3, ?_, ?_⟩
              · simp [e4, atomNodes]
              · rw [e5]; simp; omega
            · rw [atomicRule_err U t ts k h3] at h; simp [Except.bind] at h
        · rw [if_neg h2] at h; simp at h

theorem setLoop_complete (U : Uni) (us es : List Token) (h : SetTail us es) (r : Token)
    (rs : List Token) (hr : r.type = .rset) (n : Nat) (hn : us.length < n) (acc : List Node)
    (k : Nat) :
    setLoop U n acc ⟨us ++ r :: rs, k⟩ =
      .ok (acc ++ atomNodes es k, ⟨r :: rs, k + es.length⟩) := by
  induction h generalizing n acc k with
  | nil =>
    obtain ⟨n, rfl⟩ := Nat.exists_eq_succ_of_ne_zero (Nat.ne_of_gt hn)
    simp only [List.nil_append]
    rw [setLoop_succ, if_pos hr]
    simp [atomNodes]
  | @cons c t ts es hc ht _ ih =>
    obtain ⟨n, rfl⟩ := Nat.exists_eq_succ_of_ne_zero (Nat.ne_of_gt (Nat.lt_of_le_of_lt (Nat.zero_le _) hn))
    simp only [List.cons_append]
    rw [setLoop_succ, if_neg (by simp [hc]), if_pos hc, atomicRule_ok U t _ k ht]
    simp only [Except.bind]
    rw [ih n (by simp at hn; omega)]
    simp [atomNodes]; omega

/-- Where and how a rule fails: `us` has been accepted, `rest` is what remained. -/
inductive FailAt (e : PyExc) : List Token → Prop
  | parser {t r rule} (h : e = .parserError t.pos rule) : FailAt e (t :: r)
  | eof (h : e = .attributeError) : FailAt e []

theorem setLoop_error (U : Uni) (n : Nat) (acc : List Node) (s : PState) (e : PyExc)
    (hn : s.toks.length < n) (h : setLoop U n acc s = .error e) :
    ∃ us es rest vs ws, s.toks = us ++ rest ∧ SetTail (us ++ vs) (es ++ ws) ∧ FailAt e rest := by
  induction n generalizing acc s with
  | zero => simp at hn
  | succ n ih =>
    obtain ⟨toks, k⟩ := s
    cases toks with
    | nil =>
      simp [setLoop, PState.cur, bind, Except.bind] at h
      exact ⟨[], [], [], [], [], rfl, .nil, .eof h.symm⟩
    | cons c ts =>
      rw [setLoop_succ] at h
      by_cases h1 : c.type = .rset
      · rw [if_pos h1] at h
        simp at h
      · rw [if_neg h1] at h
        by_cases h2 : c.type = .comma
        · rw [if_pos h2] at h
          have hd : SetTail ([c] ++ [⟨.int, 0, .int 0⟩]) ([] ++ [⟨.int, 0, .int 0⟩]) :=
            .cons h2 (by simp [AtomTok]) .nil
          cases ts with
          | nil =>
            simp [atomicRule_nil, Except.bind] at h
            exact ⟨[c], [], [], _, _, rfl, hd, .eof h.symm⟩
          | cons t ts =>
            by_cases h3 : AtomTok false t
            · rw [atomicRule_ok U t ts k h3] at h
              simp only [Except.bind] at h
              obtain ⟨us, es, rest, vs, ws, e1, e2, e3⟩ :=
                ih _ _ (by simp at hn ⊢; omega) h
              simp only at e1
              subst e1
              exact ⟨c :: t :: us, t :: es, rest, vs, ws, rfl, .cons h2 h3 e2, e3⟩
            · rw [atomicRule_err U t ts k h3] at h; simp [Except.bind] at h
              exact ⟨[c], [], t :: ts, _, _, rfl, hd, .parser h.symm⟩
        · rw [if_neg h2] at h; simp at h
          exact ⟨[], [], c :: ts, [], [], rfl, .nil, .parser h.symm⟩

/-- `_set_rule` unfolded. -/
theorem setRule_cons (U : Uni) (l : Token) (ts : List Token) (k : Nat) (hl : l.type = .lset) :
    setRule U ⟨l :: ts, k⟩ =
      match ts with
      | [] => .error .attributeError
      | c :: cs =>
        if c.type = .rset then .ok (.mk .set l k .none [], ⟨cs, k + 1⟩)
        else (atomicRule U ⟨c :: cs, k⟩).bind fun x =>
          (setLoop U (x.2.toks.length + 1) [x.1] x.2).bind fun y =>
            match y.2.toks with
            | [] => .error .attributeError
            | r :: rs =>
              if r.type = .rset then .ok (.mk .set l y.2.nextId .none y.1, ⟨rs, y.2.nextId + 1⟩)
              else .error (.parserError r.pos "set") := by
  cases ts with
  | nil => simp [setRule, PState.eat, PState.cur, hl, bind, Except.bind]
  | cons c cs =>
    by_cases h : c.type = .rset
    · simp [setRule, PState.eat, PState.cur, hl, h, bind, Except.bind, pure, Except.pure,
        PState.mkNode, initRes]
    · simp only [setRule, PState.eat, PState.cur, hl, bind, Except.bind, pure, Except.pure,
        PState.mkNode, initRes, if_neg h, if_true]
      rw [if_pos h]
      cases atomicRule U ⟨c :: cs, k⟩ with
      | error e => rfl
      | ok x =>
        simp only
        cases setLoop U (x.2.toks.length + 1) [x.1] x.2 with
        | error e => rfl
        | ok y =>
          simp only
          cases hy : y.2.toks with
          | nil => rfl
          | cons r rs =>
            simp only
            by_cases hr : r.type = .rset
            · simp [hr]
            · simp [hr]

/-! ### Operands -/

theorem not_att_of_atom {t : Token} {b : Bool} (h : AtomTok b t) : ¬ AttTok t := by
  obtain ⟨ty, p, v⟩ := t
  unfold AtomTok at h
  unfold AttTok
  cases ty <;> simp_all

theorem varRule_nil (U : Uni) (k : Nat) : varRule U ⟨[], k⟩ = .error .attributeError := rfl

theorem varRule_att (U : Uni) (t : Token) (ts : List Token) (k : Nat) (h : AttTok t) :
    varRule U ⟨t :: ts, k⟩ = .ok (attNode t k, ⟨ts, k + 1⟩) := by
  simp only [varRule, PState.cur, bind, Except.bind]
  rw [if_pos ((isAtt_iff t).2 h), attNameRule_ok U t ts k h]

theorem varRule_atom (U : Uni) (t : Token) (ts : List Token) (k : Nat) (h : AtomTok false t) :
    varRule U ⟨t :: ts, k⟩ = .ok (atomNode t k, ⟨ts, k + 1⟩) := by
  simp only [varRule, PState.cur, bind, Except.bind]
  rw [if_neg (by rw [isAtt_iff]; exact not_att_of_atom h)]
  rw [if_pos (by simp [Token.isConst, (isAtomic_iff t).2 h])]
  simp only [constRule, PState.cur, bind, Except.bind]
  rw [if_pos ((isAtomic_iff t).2 h), atomicRule_ok U t ts k h]

theorem varRule_set (U : Uni) (t : Token) (ts : List Token) (k : Nat) (h : t.type = .lset) :
    varRule U ⟨t :: ts, k⟩ = setRule U ⟨t :: ts, k⟩ := by
  simp only [varRule, PState.cur, bind, Except.bind]
  rw [if_neg (by simp [Token.isAtt, h]), if_pos (by simp [Token.isConst, h])]
  simp only [constRule, PState.cur, bind, Except.bind]
  rw [if_neg (by simp [Token.isAtomic, h])]

theorem varRule_err (U : Uni) (t : Token) (ts : List Token) (k : Nat) (h1 : ¬ AttTok t)
    (h2 : ¬ AtomTok false t) (h3 : t.type ≠ .lset) :
    varRule U ⟨t :: ts, k⟩ = .error (.parserError t.pos "var") := by
  simp only [varRule, PState.cur, bind, Except.bind]
  rw [if_neg (by rwa [isAtt_iff]), if_neg (by simp [Token.isConst, h3, isAtomic_iff, h2])]

theorem varRule_sound (U : Uni) (s s' : PState) (n : Node) (h : varRule U s = .ok (n, s')) :
    ∃ us v, s.toks = us ++ s'.toks ∧ DVar false us v ∧ v.build s.nextId = (n, s'.nextId) := by
  obtain ⟨toks, k⟩ := s
  cases toks with
  | nil => simp [varRule_nil] at h
  | cons t ts =>
    by_cases h1 : AttTok t
    · rw [varRule_att U t ts k h1] at h
      simp only [Except.ok.injEq, Prod.mk.injEq] at h
      obtain ⟨rfl, rfl⟩ := h
      exact ⟨[t], _, rfl, .att h1, rfl⟩
    by_cases h2 : AtomTok false t
    · rw [varRule_atom U t ts k h2] at h
      simp only [Except.ok.injEq, Prod.mk.injEq] at h
      obtain ⟨rfl, rfl⟩ := h
      exact ⟨[t], _, rfl, .atom h2, rfl⟩
    by_cases h3 : t.type = .lset
    · rw [varRule_set U t ts k h3, setRule_cons U t ts k h3] at h
      cases ts with
      | nil => simp at h
      | cons c cs =>
        simp only at h
        by_cases h4 : c.type = .rset
        · rw [if_pos h4] at h
          simp only [Except.ok.injEq, Prod.mk.injEq] at h
          obtain ⟨rfl, rfl⟩ := h
          exact ⟨[t, c], _, rfl, .empty h3 h4, rfl⟩
        · rw [if_neg h4] at h
          by_cases h5 : AtomTok false c
          · rw [atomicRule_ok U c cs k h5] at h
            simp only [Except.bind] at h
            cases hl : setLoop U (cs.length + 1) [atomNode c k] ⟨cs, k + 1⟩ with
            | error e => rw [hl] at h; simp at h
            | ok y =>
              rw [hl] at h
              obtain ⟨acc, sy⟩ := y
              obtain ⟨us, es, r, rs, e1, e2, e3, e4, e5⟩ := setLoop_sound U _ _ _ _ _ hl
              simp only at e1 e4 e5
              subst e1 e4 e5
              simp only at h
              rw [if_pos e3] at h
              simp only [Except.ok.injEq, Prod.mk.injEq] at h
              obtain ⟨rfl, rfl⟩ := h
              refine ⟨t :: ((c :: us) ++ [r]), .set t (c :: es), by simp, .set h3 ?_ e3, ?_⟩
              · exact (dsetVal_iff _ _).2 ⟨c, us, es, rfl, rfl, h5, e2⟩
              · simp [Operand.build, atomNodes]; omega
          · rw [atomicRule_err U c cs k h5] at h; simp [Except.bind] at h
    · rw [varRule_err U t ts k h1 h2 h3] at h; simp at h

theorem varRule_complete (U : Uni) (us : List Token) (v : Operand) (h : DVar false us v)
    (rest : List Token) (k : Nat) :
    varRule U ⟨us ++ rest, k⟩ = .ok ((v.build k).1, ⟨rest, (v.build k).2⟩) := by
  cases h with
  | att ht => exact varRule_att U _ _ k ht
  | atom ht => exact varRule_atom U _ _ k ht
  | empty hl hr =>
    simp only [List.cons_append, List.nil_append]
    rw [varRule_set U _ _ k hl, setRule_cons U _ _ k hl]
    simp [hr, Operand.build, atomNodes]
  | @set l r ts es hl h hr =>
    obtain ⟨t, ts', es', rfl, rfl, ht, htail⟩ := (dsetVal_iff _ _).1 h
    simp only [List.cons_append]
    rw [varRule_set U _ _ k hl, setRule_cons U _ _ k hl]
    simp only
    have h4 : t.type ≠ .rset := by
      intro h'
      simp [AtomTok, h'] at ht
    rw [if_neg h4, atomicRule_ok U _ _ k ht]
    simp only [Except.bind]
    have e : ts' ++ [r] ++ rest = ts' ++ r :: rest := by simp
    rw [e, setLoop_complete U ts' es' htail r rest hr _ (by simp; omega)]
    simp only
    rw [if_pos hr]
    simp [Operand.build, atomNodes]; omega

/-- A failing operand: what was accepted can be completed to an operand. -/
theorem varRule_error (U : Uni) (s : PState) (e : PyExc) (h : varRule U s = .error e) :
    ∃ us rest vs v, s.toks = us ++ rest ∧ DVar false (us ++ vs) v ∧ FailAt e rest := by
  have hd : AtomTok false ⟨.int, 0, .int 0⟩ := by simp [AtomTok]
  obtain ⟨toks, k⟩ := s
  cases toks with
  | nil =>
    simp [varRule_nil] at h
    exact ⟨[], [], _, _, rfl, .atom hd, .eof h.symm⟩
  | cons t ts =>
    by_cases h1 : AttTok t
    · rw [varRule_att U t ts k h1] at h; simp at h
    by_cases h2 : AtomTok false t
    · rw [varRule_atom U t ts k h2] at h; simp at h
    by_cases h3 : t.type = .lset
    · have hset : DVar false ([t] ++ [⟨.rset, 0, .none⟩]) (.set t []) := .empty h3 rfl
      rw [varRule_set U t ts k h3, setRule_cons U t ts k h3] at h
      cases ts with
      | nil =>
        simp at h
        exact ⟨[t], [], _, _, rfl, hset, .eof h.symm⟩
      | cons c cs =>
        simp only at h
        by_cases h4 : c.type = .rset
        · rw [if_pos h4] at h; simp at h
        · rw [if_neg h4] at h
          by_cases h5 : AtomTok false c
          · rw [atomicRule_ok U c cs k h5] at h
            simp only [Except.bind] at h
            cases hl : setLoop U (cs.length + 1) [atomNode c k] ⟨cs, k + 1⟩ with
            | error e' =>
              rw [hl] at h
              simp only [Except.error.injEq] at h
              subst h
              obtain ⟨us, es, rest, vs, ws, e1, e2, e3⟩ :=
                setLoop_error U _ _ _ _ (by simp) hl
              simp only at e1
              subst e1
              refine ⟨t :: c :: us, rest, vs ++ [⟨.rset, 0, .none⟩], .set t (c :: (es ++ ws)), by simp,
                ?_, e3⟩
              have := DVar.set (b := false) (l := t) (r := ⟨.rset, 0, .none⟩) h3
                ((dsetVal_iff _ _).2 ⟨c, us ++ vs, es ++ ws, rfl, rfl, h5, e2⟩) rfl
              simpa using this
            | ok y =>
              rw [hl] at h
              obtain ⟨acc, sy⟩ := y
              obtain ⟨us, es, r, rs, e1, e2, e3, e4, e5⟩ := setLoop_sound U _ _ _ _ _ hl
              simp only at e1 e4 e5
              subst e1 e4 e5
              simp only at h
              rw [if_pos e3] at h
              simp at h
          · rw [atomicRule_err U c cs k h5] at h; simp [Except.bind] at h
            exact ⟨[t], c :: cs, _, _, rfl, hset, .parser h.symm⟩
    · rw [varRule_err U t ts k h1 h2 h3] at h; simp at h
      exact ⟨[], t :: ts, _, _, rfl, .atom hd, .parser h.symm⟩

end Verif.Proofs
