import Verif.Spec.Laws
import Verif.Props.Interpreter
import Verif.Props.Parser
/-!
# Laws of policies
-/

namespace Verif.Props
open Verif Spec Proofs

/-! ### Texts put together -/

/-- Characters that end every lexeme. -/
def Boundary (U : Uni) (c : Char) : Prop := U.isDigit c = false ∧ c ≠ '.' ∧ c ≠ '=' ∧ ¬ IdChar U c

theorem lexeme_before {U : Uni} {w : Str} {ty : TokenType} {v : TVal} {c : Char} (hc : Boundary U c) (h : Lexeme U w ty v none) :
    Lexeme U w ty v (some c) := by
  obtain ⟨h1, h2, h3, h4⟩ := hc
  cases h with
  | punct w ty v nx h => exact .punct w ty v _ h
  | gt _ h => exact .gt _ (by simpa using h3)
  | lt _ h => exact .lt _ (by simpa using h3)
  | string body _ h => exact .string body _ h
  | int neg ds n _ hne hd hv hl hx => exact .int neg ds n _ hne hd hv hl (by rintro d ⟨⟩; exact ⟨h1, h2⟩)
  | float neg ip fp a b _ hi hf hdi hdf ha hb hx => exact .float neg ip fp a b _ hi hf hdi hdf ha hb (by rintro d ⟨⟩; exact ⟨h1, h2⟩)
  | att pre ident kw ty _ hc hp hne hid hx => exact .att pre ident kw ty _ hc hp hne hid (by rintro d ⟨⟩; exact h4)
  | keyword w kw ty v _ hk hw hx => exact .keyword w kw ty v _ hk hw (by rintro d ⟨⟩; exact ⟨h4, h2⟩)

theorem tokenizes_space {U : Uni} {ws b : Str} {pos : Nat} {us : List Token} (hs : ∀ c ∈ ws, U.isSpace c = true)
    (h : Tokenizes U b (pos + ws.length) us) : Tokenizes U (ws ++ b) pos us := by
  generalize hp : pos + ws.length = q at h
  cases h with
  | done ws' _ h' =>
    have := Tokenizes.done (U := U) (ws ++ b) pos (fun c hc => (List.mem_append.1 hc).elim (hs c) (h' c))
    rw [List.length_append, ← Nat.add_assoc, hp] at this
    exact this
  | tok ws' w rest _ ty v toks h' hw hr =>
    have := Tokenizes.tok (U := U) (ws ++ ws') w rest pos ty v toks (fun c hc => (List.mem_append.1 hc).elim (hs c) (h' c)) hw
      (by rw [List.length_append, ← Nat.add_assoc, hp]; exact hr)
    rw [List.length_append, ← Nat.add_assoc, hp] at this
    simpa [List.append_assoc] using this

theorem tokenizes_join {U : Uni} {a b : Str} {c : Char} {pos : Nat} {ts us : List Token} {e : Token} (hc : Boundary U c)
    (h : Tokenizes U a pos (ts ++ [e])) (hb : Tokenizes U (c :: b) (pos + a.length) us) :
    Tokenizes U (a ++ c :: b) pos (ts ++ us) := by
  generalize hl : ts ++ [e] = l at h
  induction h generalizing ts with
  | done ws pos h =>
    have : ts = [] := by
      cases ts with
      | nil => rfl
      | cons t ts => simp at hl
    subst this
    exact tokenizes_space h hb
  | tok ws w rest pos ty v toks h hw hr ih =>
    cases ts with
    | nil =>
      simp only [List.nil_append, List.cons.injEq] at hl
      obtain ⟨_, rfl⟩ := hl
      cases hr
    | cons t ts =>
      simp only [List.cons_append, List.cons.injEq] at hl
      obtain ⟨rfl, hl⟩ := hl
      have h1 := ih (ts := ts) (by
        have : pos + ws.length + w.length + rest.length = pos + (ws ++ w ++ rest).length := by simp; omega
        rw [this]; exact hb) hl
      have h2 : Lexeme U w ty v (rest ++ c :: b).head? := by
        cases rest with
        | nil => exact lexeme_before hc hw
        | cons d rest => exact hw
      have := Tokenizes.tok ws w (rest ++ c :: b) pos ty v _ h h2 h1
      simpa [List.append_assoc] using this

/-- The tokens of a text, up to positions. -/
def Toks (U : Uni) (text : Str) (ts : List Token) : Prop :=
  ∀ pos, ∃ us e, Tokenizes U text pos (us ++ [e]) ∧ us.map Token.strip = ts.map Token.strip

theorem tokenizes_move {U : Uni} {text : Str} {pos : Nat} {l : List Token} (h : Tokenizes U text pos l) :
    ∀ ts e, l = ts ++ [e] → Toks U text ts := by
  induction h with
  | done ws pos h =>
    intro ts e hl q
    have : ts = [] := by
      cases ts with
      | nil => rfl
      | cons t ts => simp at hl
    subst this
    exact ⟨[], _, .done ws q h, rfl⟩
  | tok ws w rest pos ty v toks h hw hr ih =>
    intro ts e hl q
    cases ts with
    | nil =>
      simp only [List.nil_append, List.cons.injEq] at hl
      obtain ⟨_, rfl⟩ := hl
      cases hr
    | cons t ts =>
      simp only [List.cons_append, List.cons.injEq] at hl
      obtain ⟨rfl, rfl⟩ := hl
      obtain ⟨us, e', h1, h2⟩ := ih ts e rfl (q + ws.length + w.length)
      exact ⟨_ :: us, e', .tok ws w rest q ty v _ h hw h1, by simp [h2, Token.strip]⟩

theorem toks_join {U : Uni} {a b : Str} {c : Char} {ts us : List Token} (hc : Boundary U c) (h : Toks U a ts) (hb : Toks U (c :: b) us) :
    Toks U (a ++ c :: b) (ts ++ us) := by
  intro pos
  obtain ⟨ts', e, h1, h2⟩ := h pos
  obtain ⟨us', e', h3, h4⟩ := hb (pos + a.length)
  exact ⟨ts' ++ us', e', by rw [List.append_assoc]; exact tokenizes_join hc h1 h3, by simp [h2, h4]⟩

theorem toks_cons {U : Uni} {w b : Str} {ty : TokenType} {v : TVal} {us : List Token} (hw : Lexeme U w ty v b.head?) (hb : Toks U b us) :
    Toks U (w ++ b) (⟨ty, 0, v⟩ :: us) := by
  intro pos
  obtain ⟨us', e, h1, h2⟩ := hb (pos + w.length)
  exact ⟨_ :: us', e, .tok [] w b pos ty v _ (by simp) hw h1, by simp [h2, Token.strip]⟩

theorem toks_space {U : Uni} {b : Str} {us : List Token} (hU : U.Lawful) (hb : Toks U b us) : Toks U (' ' :: b) us := by
  intro pos
  obtain ⟨us', e, h1, h2⟩ := hb (pos + 1)
  refine ⟨us', e, tokenizes_space (ws := [' ']) ?_ h1, h2⟩
  intro c hc
  rw [List.mem_singleton.1 hc, hU.space_ascii _ (by decide)]
  decide

theorem toks_nil (U : Uni) : Toks U [] [] := fun pos => ⟨[], _, .done [] pos (by simp), rfl⟩

theorem boundary_of {U : Uni} (hU : U.Lawful) {c : Char} (ha : isAscii c = true) (h1 : asciiDigit c = false) (h2 : asciiAlpha c = false)
    (h3 : c ≠ '.') (h4 : c ≠ '=') (h5 : c ≠ '_') : Boundary U c := by
  refine ⟨by rw [hU.digit_ascii c ha, h1], h3, h4, ?_⟩
  rintro (h | h | h)
  · rw [hU.alpha_ascii c ha, h2] at h; cases h
  · rw [hU.digit_ascii c ha, h1] at h; cases h
  · exact h5 h

theorem boundary_rparn {U : Uni} (hU : U.Lawful) : Boundary U ')' := boundary_of hU (by decide) (by decide) (by decide) (by decide) (by decide) (by decide)
theorem boundary_blank {U : Uni} (hU : U.Lawful) : Boundary U ' ' := boundary_of hU (by decide) (by decide) (by decide) (by decide) (by decide) (by decide)

def lparn : Token := ⟨.lparn, 0, .none⟩
def rparn : Token := ⟨.rparn, 0, .none⟩
def notTok : Token := ⟨.notOp, 0, .str "NOT".toList⟩
def andTok : Token := ⟨.boolOp, 0, .str "AND".toList⟩
def orTok : Token := ⟨.boolOp, 0, .str "OR".toList⟩

theorem lex_lparn (U : Uni) (nx : Option Char) : Lexeme U "(".toList .lparn .none nx := .punct "(" .lparn none nx (by decide)
theorem lex_rparn (U : Uni) (nx : Option Char) : Lexeme U ")".toList .rparn .none nx := .punct ")" .rparn none nx (by decide)

theorem lex_word {U : Uni} (hU : U.Lawful) {kw : String} {ty : TokenType} {v : String} (w : Str) (hk : (kw, ty, v) ∈ keywords) (hw : Spells w kw)
    (b : Str) (hb : b = [] ∨ b.head? = some ' ') : Lexeme U w ty (.str v.toList) b.head? := by
  refine .keyword w kw ty v _ hk hw ?_
  intro c hc
  rcases hb with rfl | hb
  · cases hc
  · rw [hb] at hc
    cases hc
    have := boundary_blank hU
    exact ⟨this.2.2.2, this.2.1⟩

/-- A text that ends with a closing parenthesis. -/
theorem toks_close {U : Uni} (hU : U.Lawful) {a b : Str} {ts us : List Token} (h : Toks U a ts) (hb : Toks U b us) :
    Toks U (a ++ (")".toList ++ b)) (ts ++ (rparn :: us)) :=
  toks_join (boundary_rparn hU) h (toks_cons (lex_rparn U _) hb)

/-! ### Policies up to positions -/

/-- The text is a policy that is the given one up to positions. -/
def Reads (U : Uni) (text : Str) (p : Policy) : Prop := ∃ ts, Toks U text ts ∧ DPolicy false ts p

theorem reads_policy {U : Uni} {text : Str} {p : Policy} (h : Reads U text p) : ∃ q, PolicyOf U text q ∧ q.strip = p.strip := by
  obtain ⟨ts, h1, h2⟩ := h
  obtain ⟨us, e, h3, h4⟩ := h1 0
  obtain ⟨q, h5, h6⟩ := dpolicy_strip (dpolicy_map h2) us h4
  exact ⟨q, ⟨us, e, h3, h5⟩, h6⟩

theorem policy_reads {U : Uni} {text : Str} {p : Policy} (h : PolicyOf U text p) : Reads U text p := by
  obtain ⟨ts, e, h1, h2⟩ := h
  exact ⟨ts, tokenizes_move h1 ts e rfl, h2⟩

theorem reads_not {U : Uni} (hU : U.Lawful) {a : Str} {p : Policy} (h : Reads U a p) :
    Reads U ("NOT (".toList ++ a ++ ")".toList) (.not notTok p) := by
  obtain ⟨ts, h1, h2⟩ := h
  refine ⟨notTok :: lparn :: (ts ++ [rparn]), ?_, .term (.exp (.notParen rfl rfl h2 rfl))⟩
  have e : "NOT (".toList ++ a ++ ")".toList = "NOT".toList ++ (' ' :: ("(".toList ++ (a ++ (")".toList ++ [])))) := by simp
  rw [e]
  exact toks_cons (lex_word hU _ (kw := "not") (v := "NOT") (by decide) (by unfold Spells; decide) _ (Or.inr rfl))
    (toks_space hU (toks_cons (lex_lparn U _) (toks_close hU h1 (toks_nil U))))

theorem reads_and {U : Uni} (hU : U.Lawful) {a b : Str} {p q : Policy} (h : Reads U a p) (h' : Reads U b q) :
    Reads U ("(".toList ++ a ++ ") AND (".toList ++ b ++ ")".toList) (.bin andTok p q) := by
  obtain ⟨ts, h1, h2⟩ := h
  obtain ⟨us, h3, h4⟩ := h'
  refine ⟨(lparn :: (ts ++ [rparn])) ++ andTok :: (lparn :: (us ++ [rparn])), ?_,
    .term (.and (.exp (.paren rfl h2 rfl)) ⟨rfl, rfl⟩ (.paren rfl h4 rfl))⟩
  have e : "(".toList ++ a ++ ") AND (".toList ++ b ++ ")".toList =
    "(".toList ++ (a ++ (")".toList ++ (' ' :: ("AND".toList ++ (' ' :: ("(".toList ++ (b ++ (")".toList ++ [])))))))) := by simp
  have e2 : (lparn :: (ts ++ [rparn])) ++ andTok :: (lparn :: (us ++ [rparn])) =
    lparn :: (ts ++ (rparn :: (andTok :: (lparn :: (us ++ (rparn :: [])))))) := by simp
  rw [e, e2]
  exact toks_cons (lex_lparn U _) (toks_close hU h1 (toks_space hU
    (toks_cons (lex_word hU _ (kw := "and") (v := "AND") (by decide) (by unfold Spells; decide) _ (Or.inr rfl))
      (toks_space hU (toks_cons (lex_lparn U _) (toks_close hU h3 (toks_nil U)))))))

theorem reads_or {U : Uni} (hU : U.Lawful) {a b : Str} {p q : Policy} (h : Reads U a p) (h' : Reads U b q) :
    Reads U ("(".toList ++ a ++ ") OR (".toList ++ b ++ ")".toList) (.bin orTok p q) := by
  obtain ⟨ts, h1, h2⟩ := h
  obtain ⟨us, h3, h4⟩ := h'
  refine ⟨(lparn :: (ts ++ [rparn])) ++ orTok :: (lparn :: (us ++ [rparn])), ?_,
    .or (.term (.exp (.paren rfl h2 rfl))) ⟨rfl, rfl⟩ (.exp (.paren rfl h4 rfl))⟩
  have e : "(".toList ++ a ++ ") OR (".toList ++ b ++ ")".toList =
    "(".toList ++ (a ++ (")".toList ++ (' ' :: ("OR".toList ++ (' ' :: ("(".toList ++ (b ++ (")".toList ++ [])))))))) := by simp
  have e2 : (lparn :: (ts ++ [rparn])) ++ orTok :: (lparn :: (us ++ [rparn])) =
    lparn :: (ts ++ (rparn :: (orTok :: (lparn :: (us ++ (rparn :: [])))))) := by simp
  rw [e, e2]
  exact toks_cons (lex_lparn U _) (toks_close hU h1 (toks_space hU
    (toks_cons (lex_word hU _ (kw := "or") (v := "OR") (by decide) (by unfold Spells; decide) _ (Or.inr rfl))
      (toks_space hU (toks_cons (lex_lparn U _) (toks_close hU h3 (toks_nil U)))))))

/-- The syntax tree of a filled template. -/
def instanceOf (P : Nat → Policy) : Template → Policy
  | .place i => P i
  | .neg f => .not notTok (instanceOf P f)
  | .conj f g => .bin andTok (instanceOf P f) (instanceOf P g)
  | .disj f g => .bin orTok (instanceOf P f) (instanceOf P g)

theorem reads_fill {U : Uni} (hU : U.Lawful) {T : Nat → Str} {P : Nat → Policy} (f : Template) (h : ∀ i ∈ f.places, Reads U (T i) (P i)) :
    Reads U (f.fill T) (instanceOf P f) := by
  induction f with
  | place i => exact h i (by simp [Template.places])
  | neg f ih => exact reads_not hU (ih h)
  | conj f g ih1 ih2 => exact reads_and hU (ih1 fun i hi => h i (by simp [Template.places, hi])) (ih2 fun i hi => h i (by simp [Template.places, hi]))
  | disj f g ih1 ih2 => exact reads_or hU (ih1 fun i hi => h i (by simp [Template.places, hi])) (ih2 fun i hi => h i (by simp [Template.places, hi]))

/-! ### Meanings up to positions -/

/-- A meaning without positions: the value, and whether there were warnings. -/
def core {α : Type} : Eff α → Option (α × Bool)
  | (_, .error _) => none
  | (w, .ok a) => some (a, w.isEmpty)

theorem core_bind {α β : Type} (x : Eff α) (f : α → Eff β) :
    core (x.bind f) = (core x).bind fun p => (core (f p.1)).map fun q => (q.1, p.2 && q.2) := by
  obtain ⟨w, x⟩ := x
  cases x with
  | error e => rfl
  | ok a =>
    show core (w ++ (f a).1, (f a).2) = (core (f a)).map _
    generalize f a = y
    obtain ⟨w', y⟩ := y
    cases y with
    | error e => rfl
    | ok b => cases w <;> simp [core]

theorem core_bind_congr {α β : Type} {x y : Eff α} {f g : α → Eff β} (h : core x = core y) (hf : ∀ a, core (f a) = core (g a)) :
    core (x.bind f) = core (y.bind g) := by
  rw [core_bind, core_bind, h]
  congr 1
  funext p
  rw [hf]

theorem core_semAtt (A : Atts) (t : Token) : core (semAtt A (Token.strip t)) = core (semAtt A t) := by
  unfold semAtt
  have e : attName (Token.strip t) = attName t := rfl
  dsimp only
  rw [e, strip_type]
  split
  · rfl
  · rfl
  · split <;> rfl

theorem core_semElems (es : List Token) : core (([], (semElems (es.map Token.strip)).map Den.lit) : Eff Den) = core ([], (semElems es).map Den.lit) := by
  have key : (semElems (es.map Token.strip)).toOption = (semElems es).toOption := by
    induction es with
    | nil => rfl
    | cons t ts ih =>
      rw [List.map_cons, semElems, semElems]
      have e : constOf (Token.strip t) = constOf t := rfl
      rw [e]
      cases constOf t with
      | none => rfl
      | some a =>
        dsimp only
        cases h1 : semElems (ts.map Token.strip) <;> cases h2 : semElems ts <;> rw [h1, h2] at ih <;>
          simp only [Except.toOption, reduceCtorEq, Option.some.injEq] at ih
        · rfl
        · subst ih; rfl
  cases h1 : semElems (es.map Token.strip) <;> cases h2 : semElems es <;> rw [h1, h2] at key <;>
    simp only [Except.toOption, reduceCtorEq, Option.some.injEq] at key
  · rfl
  · subst key; rfl

theorem core_semOperand (A : Atts) (v : Operand) : core (semOperand A v.strip) = core (semOperand A v) := by
  cases v with
  | att t => exact core_semAtt A t
  | atom t =>
    show core (match constOf (Token.strip t) with | none => _ | some a => _) = core (match constOf t with | none => _ | some a => _)
    have e : constOf (Token.strip t) = constOf t := rfl
    rw [e]
    cases constOf t <;> rfl
  | set l es => exact core_semElems es

theorem core_semCmp (o : Token) (a b : Den) : core (semCmp (Token.strip o) a b) = core (semCmp o a b) := by
  unfold semCmp
  rw [strip_value]
  split
  · rfl
  · split <;> rfl

theorem core_sem (U : Uni) (A : Atts) (p : Policy) : core (sem U A p.strip) = core (sem U A p) := by
  induction p with
  | cmp l o r =>
    exact core_bind_congr (core_semOperand A l) fun a => core_bind_congr (core_semOperand A r) fun b => core_semCmp o a b
  | lit t =>
    show core (if litTri U (Token.strip t) = .true then _ else _) = core (if litTri U t = .true then _ else _)
    rw [litTri_strip]
    split <;> rfl
  | att t => exact core_semAtt A t
  | not n p ih =>
    refine core_bind_congr ih fun a => ?_
    cases a <;> rfl
  | bin o p q ih1 ih2 =>
    refine core_bind_congr ih1 fun a => core_bind_congr ih2 fun b => ?_
    cases a <;> cases b <;> rfl

/-- Warnings, if there are any, are not raised. -/
def Unraised (level : Option Int) (quiet : Bool) : Prop := quiet = true ∨ ∃ m, level = some m ∧ 2 < m

theorem unraised_and {level : Option Int} {b c : Bool} : Unraised level (b && c) ↔ Unraised level b ∧ Unraised level c := by
  unfold Unraised
  rw [Bool.and_eq_true]
  tauto

/-- The policy has the truth value, and no warning that is raised. -/
def Value (U : Uni) (A : Atts) (level : Option Int) (p : Policy) (t : Tri) : Prop :=
  ∃ b, core (sem U A p) = some (.truth t, b) ∧ Unraised level b

theorem value_strip {U : Uni} {A : Atts} {level : Option Int} {p q : Policy} {t : Tri} (h : p.strip = q.strip) :
    Value U A level p t ↔ Value U A level q t := by
  unfold Value
  rw [← core_sem U A p, ← core_sem U A q, h]

theorem value_unique {U : Uni} {A : Atts} {level : Option Int} {p : Policy} {t u : Tri} (h : Value U A level p t) (h' : Value U A level p u) :
    t = u := by
  obtain ⟨b, h1, _⟩ := h
  obtain ⟨c, h2, _⟩ := h'
  rw [h1] at h2
  simp only [Option.some.injEq, Prod.mk.injEq, Den.truth.injEq] at h2
  exact h2.1

theorem rank_inj {t u : Tri} (h : rank t = rank u) : t = u := by
  cases t <;> cases u <;> simp_all [rank]

theorem value_not {U : Uni} {A : Atts} {level : Option Int} {n : Token} {p : Policy} {t : Tri} :
    Value U A level (.not n p) t ↔ ∃ v, Value U A level p v ∧ rank t = 2 - rank v := by
  unfold Value
  rw [sem, core_bind]
  cases hc : core (sem U A p) with
  | none => simp
  | some x =>
    obtain ⟨d, b⟩ := x
    cases d with
    | truth v =>
      have e : rank (kleeneNot v) = 2 - rank v := by cases v <;> rfl
      simp only [Option.bind_some, core, Eff.pure, List.isEmpty_nil, Option.map_some, Bool.and_true, Option.some.injEq, Prod.mk.injEq,
        Den.truth.injEq]
      constructor
      · rintro ⟨c, ⟨rfl, rfl⟩, h⟩
        exact ⟨v, ⟨b, ⟨rfl, rfl⟩, h⟩, e⟩
      · rintro ⟨u, ⟨c, ⟨rfl, rfl⟩, h⟩, h'⟩
        exact ⟨b, ⟨rank_inj (e.trans h'.symm), rfl⟩, h⟩
    | _ => simp [core, Eff.fail]

theorem value_bin {U : Uni} {A : Atts} {level : Option Int} {o : Token} {p q : Policy} {t : Tri} {f : Nat → Nat → Nat}
    (hk : ∀ v w, rank (kleene o v w) = f (rank v) (rank w)) :
    Value U A level (.bin o p q) t ↔ ∃ v w, Value U A level p v ∧ Value U A level q w ∧ rank t = f (rank v) (rank w) := by
  unfold Value
  rw [sem, core_bind]
  cases hc : core (sem U A p) with
  | none => simp
  | some x =>
    obtain ⟨d, b⟩ := x
    simp only [Option.bind_some, core_bind]
    cases hd : core (sem U A q) with
    | none => simp
    | some y =>
      obtain ⟨d', c⟩ := y
      cases d <;> cases d' <;> try (simp [core, Eff.fail]; done)
      rename_i v w
      simp only [Option.bind_some, core, Eff.pure, List.isEmpty_nil, Option.map_some, Bool.and_true, Option.some.injEq, Prod.mk.injEq,
        Den.truth.injEq]
      constructor
      · rintro ⟨c', ⟨rfl, rfl⟩, h⟩
        rw [unraised_and] at h
        exact ⟨v, w, ⟨b, ⟨rfl, rfl⟩, h.1⟩, ⟨c, ⟨rfl, rfl⟩, h.2⟩, hk v w⟩
      · rintro ⟨v', w', ⟨b', ⟨rfl, rfl⟩, h1⟩, ⟨c', ⟨rfl, rfl⟩, h2⟩, h⟩
        exact ⟨_, ⟨rank_inj ((hk _ _).trans h.symm), rfl⟩, unraised_and.2 ⟨h1, h2⟩⟩

theorem kleene_and (v w : Tri) : rank (kleene andTok v w) = min (rank v) (rank w) := by cases v <;> cases w <;> decide
theorem kleene_or (v w : Tri) : rank (kleene orTok v w) = max (rank v) (rank w) := by cases v <;> cases w <;> decide

theorem truth_local (h : Template) {ρ τ : Nat → Tri} (he : ∀ i ∈ h.places, ρ i = τ i) : h.truth ρ = h.truth τ := by
  induction h with
  | place i => simp [Template.truth, he i (by simp [Template.places])]
  | neg f ih => simp only [Template.truth, ih he]
  | conj f g ih1 ih2 =>
    simp only [Template.truth, ih1 fun i hi => he i (by simp [Template.places, hi]), ih2 fun i hi => he i (by simp [Template.places, hi])]
  | disj f g ih1 ih2 =>
    simp only [Template.truth, ih1 fun i hi => he i (by simp [Template.places, hi]), ih2 fun i hi => he i (by simp [Template.places, hi])]

/-- The truth value of a template. -/
theorem truth_rank (f : Template) (ρ : Nat → Tri) : ∃ v, rank v = f.truth ρ := by
  have h : f.truth ρ ≤ 2 := by
    induction f with
    | place i => simp only [Template.truth]; cases ρ i <;> decide
    | neg f ih => simp only [Template.truth]; omega
    | conj f g ih1 ih2 => simp only [Template.truth]; omega
    | disj f g ih1 ih2 => simp only [Template.truth]; omega
  rcases (show f.truth ρ = 0 ∨ f.truth ρ = 1 ∨ f.truth ρ = 2 by omega) with h | h | h <;> rw [h]
  · exact ⟨.false, rfl⟩
  · exact ⟨.undef, rfl⟩
  · exact ⟨.true, rfl⟩

/-- Truth values of the places of two templates. -/
theorem truth_glue {V : Nat → Tri → Prop} (hV : ∀ i t u, V i t → V i u → t = u) (f g : Template) {ρ σ : Nat → Tri}
    (h1 : ∀ i ∈ f.places, V i (ρ i)) (h2 : ∀ i ∈ g.places, V i (σ i)) :
    ∃ τ : Nat → Tri, (∀ i ∈ f.places ++ g.places, V i (τ i)) ∧ f.truth ρ = f.truth τ ∧ g.truth σ = g.truth τ := by
  refine ⟨fun i => if i ∈ f.places then ρ i else σ i, ?_, ?_, ?_⟩
  · intro i hi
    by_cases hf : i ∈ f.places
    · simpa [hf] using h1 i hf
    · simpa [hf] using h2 i ((List.mem_append.1 hi).resolve_left hf)
  · exact truth_local f fun i hi => by simp [hi]
  · refine truth_local g fun i hi => ?_
    by_cases hf : i ∈ f.places
    · simpa [hf] using hV i _ _ (h2 i hi) (h1 i hf)
    · simp [hf]

/-- A template has a truth value exactly if the policies in its places have one. -/
theorem value_instance {U : Uni} {A : Atts} {level : Option Int} {P : Nat → Policy} (f : Template) {t : Tri} :
    Value U A level (instanceOf P f) t ↔ ∃ ρ : Nat → Tri, (∀ i ∈ f.places, Value U A level (P i) (ρ i)) ∧ rank t = f.truth ρ := by
  induction f generalizing t with
  | place i =>
    simp only [instanceOf, Template.places, List.mem_singleton, forall_eq, Template.truth]
    constructor
    · intro h; exact ⟨fun _ => t, h, rfl⟩
    · rintro ⟨ρ, h, h'⟩; rw [rank_inj h']; exact h
  | neg f ih =>
    simp only [instanceOf, value_not, ih, Template.places, Template.truth]
    constructor
    · rintro ⟨v, ⟨ρ, h1, h2⟩, h3⟩; exact ⟨ρ, h1, by rw [h3, h2]⟩
    · rintro ⟨ρ, h1, h2⟩
      obtain ⟨v, hv⟩ := truth_rank f ρ
      exact ⟨v, ⟨ρ, h1, hv⟩, by rw [h2, hv]⟩
  | conj f g ih1 ih2 =>
    simp only [instanceOf, value_bin kleene_and, ih1, ih2, Template.places, Template.truth]
    constructor
    · rintro ⟨v, w, ⟨ρ, h1, h2⟩, ⟨σ, h3, h4⟩, h5⟩
      obtain ⟨τ, h6, h7, h8⟩ := truth_glue (V := fun i t => Value U A level (P i) t) (fun i t u h h' => value_unique h h') f g h1 h3
      exact ⟨τ, h6, by rw [h5, h2, h4, h7, h8]⟩
    · rintro ⟨ρ, h1, h2⟩
      obtain ⟨v, hv⟩ := truth_rank f ρ
      obtain ⟨w, hw⟩ := truth_rank g ρ
      exact ⟨v, w, ⟨ρ, fun i hi => h1 i (by simp [hi]), hv⟩, ⟨ρ, fun i hi => h1 i (by simp [hi]), hw⟩, by rw [h2, hv, hw]⟩
  | disj f g ih1 ih2 =>
    simp only [instanceOf, value_bin kleene_or, ih1, ih2, Template.places, Template.truth]
    constructor
    · rintro ⟨v, w, ⟨ρ, h1, h2⟩, ⟨σ, h3, h4⟩, h5⟩
      obtain ⟨τ, h6, h7, h8⟩ := truth_glue (V := fun i t => Value U A level (P i) t) (fun i t u h h' => value_unique h h') f g h1 h3
      exact ⟨τ, h6, by rw [h5, h2, h4, h7, h8]⟩
    · rintro ⟨ρ, h1, h2⟩
      obtain ⟨v, hv⟩ := truth_rank f ρ
      obtain ⟨w, hw⟩ := truth_rank g ρ
      exact ⟨v, w, ⟨ρ, fun i hi => h1 i (by simp [hi]), hv⟩, ⟨ρ, fun i hi => h1 i (by simp [hi]), hw⟩, by rw [h2, hv, hw]⟩

/-! ### Evaluation -/

theorem outcome_truth {level : Option Int} {x : Eff Den} {t : Tri} :
    outcome level x = .ok (.truth t) ↔ ∃ b, core x = some (.truth t, b) ∧ Unraised level b := by
  obtain ⟨w, x⟩ := x
  cases x with
  | error e => cases w <;> simp [outcome, core]
  | ok d =>
    cases w with
    | nil => simp [outcome, core, Unraised]
    | cons w ws =>
      cases level with
      | none => simp [outcome, core, Unraised]
      | some m =>
        by_cases hm : m ≤ 2
        · simp only [outcome, core, Unraised, hm, if_true]
          simp
          omega
        · simp only [outcome, core, Unraised, hm, if_false]
          simp
          omega

theorem resultDen_truth_iff {E : SymEnv} {r : Res} {t : Tri} : resultDen E r = some (.truth t) ↔ r = .tri t := by
  cases r with
  | none => simp [resultDen]
  | tri u => simp [resultDen]
  | atom a => simp [resultDen]
  | list l => simp [resultDen]
  | sym r =>
    simp only [resultDen, reduceCtorEq, iff_false]
    split
    · simp
    · rename_i v hv
      cases h : (E.heap r).value with
      | sc x =>
        cases x with
        | tri t => exact absurd h (hv t)
        | _ => simp [valueDen]
      | set l => simp [valueDen]
      | list l => simp only [valueDen]; split <;> simp

/-- A policy that is no literal gives a truth value exactly if it has it. -/
theorem gives_value {U : Uni} (hU : U.Lawful) {E : SymEnv} (hE : SymEnv.SetsOk E) {level : Option Int} {text : Str} {p : Policy} {t : Tri}
    (hp : PolicyOf U text p) (hl : ∀ x, p ≠ .lit x) : Gives U E level text t ↔ Value U (attsOf U E) level p t := by
  have hs : semPolicy U (attsOf U E) p = sem U (attsOf U E) p := by
    cases p with
    | lit x => exact absurd rfl (hl x)
    | _ => rfl
  have key : ∀ k, (∃ s, evaluateText U E level k text = .ok (s, .ok (.tri t))) ↔ Value U (attsOf U E) level p t := by
    intro k
    obtain ⟨s, r, h1, _, h2⟩ := (evaluate_refines U hU E hE level k text).2 p hp
    rw [hs] at h2
    unfold Value
    rw [← outcome_truth]
    rw [h1]
    constructor
    · rintro ⟨s', h⟩
      simp only [Except.ok.injEq, Prod.mk.injEq] at h
      obtain ⟨rfl, rfl⟩ := h
      cases ho : outcome level (sem U (attsOf U E) p) with
      | error e => rw [ho] at h2; cases h2
      | ok d =>
        rw [ho] at h2
        simp only [Except.map, resultDen, Except.ok.injEq, Option.some.injEq] at h2
        rw [← h2]
    · intro h
      rw [h] at h2
      cases r with
      | error e => cases h2
      | ok r =>
        simp only [Except.map, Except.ok.injEq] at h2
        exact ⟨s, by rw [resultDen_truth_iff.1 h2]⟩
  constructor
  · rintro ⟨k, s, h⟩; exact (key k).1 ⟨s, h⟩
  · intro h; obtain ⟨s, h⟩ := (key 0).2 h; exact ⟨0, s, h⟩

theorem instance_no_lit {P : Nat → Policy} {f : Template} (h : f.Proper) (x : Token) : instanceOf P f ≠ .lit x := by
  cases f <;> first | exact absurd h id | simp [instanceOf]

theorem strip_no_lit {p q : Policy} (h : p.strip = q.strip) (hq : ∀ x, q ≠ .lit x) (x : Token) : p ≠ .lit x := by
  rintro rfl
  cases q with
  | lit y => exact hq y rfl
  | _ => simp [Policy.strip] at h

/-- The texts in the places are policies. -/
def Policies (U : Uni) (T : Nat → Str) : Prop := ∀ i, ∃ p, PolicyOf U (T i) p

theorem fill_value {U : Uni} (hU : U.Lawful) {E : SymEnv} (hE : SymEnv.SetsOk E) {level : Option Int} {T : Nat → Str} {P : Nat → Policy}
    (hT : ∀ i, PolicyOf U (T i) (P i)) {f : Template} (hf : f.Proper) {t : Tri} :
    Gives U E level (f.fill T) t ↔ ∃ ρ : Nat → Tri, (∀ i ∈ f.places, Value U (attsOf U E) level (P i) (ρ i)) ∧ rank t = f.truth ρ := by
  obtain ⟨q, h1, h2⟩ := reads_policy (reads_fill hU f fun i _ => policy_reads (hT i))
  rw [gives_value hU hE h1 (strip_no_lit h2 (instance_no_lit hf)), value_strip h2, value_instance]

/-- C138: a filled template is a policy, and what it gives is composed of what the policies in its places give under NOT: it gives a truth
value exactly if each of these does, and then the truth value of Kleene's logic. -/
theorem template_gives {U : Uni} (hU : U.Lawful) {E : SymEnv} (hE : SymEnv.SetsOk E) {level : Option Int} {T : Nat → Str}
    (hT : Policies U T) {f : Template} (hf : f.Proper) (t : Tri) :
    (∃ p, PolicyOf U (f.fill T) p) ∧
    (Gives U E level (f.fill T) t ↔
      ∃ ρ : Nat → Tri, (∀ i ∈ f.places, Gives U E level ((Template.neg (.place i)).fill T) (kleeneNot (ρ i))) ∧ rank t = f.truth ρ) := by
  choose P hP using hT
  constructor
  · obtain ⟨q, h1, _⟩ := reads_policy (reads_fill hU f fun i _ => policy_reads (hP i))
    exact ⟨q, h1⟩
  rw [fill_value hU hE hP hf]
  have key : ∀ i v, Gives U E level ((Template.neg (.place i)).fill T) (kleeneNot v) ↔ Value U (attsOf U E) level (P i) v := by
    intro i v
    rw [fill_value hU hE hP (f := .neg (.place i)) trivial]
    simp only [Template.places, List.mem_singleton, forall_eq, Template.truth]
    constructor
    · rintro ⟨ρ, h1, h2⟩
      have : ρ i = v := by
        revert h2
        generalize ρ i = x
        cases x <;> cases v <;> simp [rank, kleeneNot]
      rw [← this]; exact h1
    · intro h
      exact ⟨fun _ => v, h, by cases v <;> rfl⟩
  simp only [key]

/-- C138: simplifying by the laws of Kleene's logic, without new places, keeps every truth value that is given. -/
theorem law_sound {U : Uni} (hU : U.Lawful) {E : SymEnv} (hE : SymEnv.SetsOk E) {level : Option Int} {T : Nat → Str} (hT : Policies U T)
    {f g : Template} (hf : f.Proper) (hg : g.Proper) (hs : f.Simplifies g) (t : Tri) (h : Gives U E level (f.fill T) t) :
    Gives U E level (g.fill T) t := by
  obtain ⟨ρ, h1, h2⟩ := (template_gives hU hE hT hf t).2.1 h
  exact (template_gives hU hE hT hg t).2.2 ⟨ρ, fun i hi => h1 i (hs.1 i hi), by rw [h2, hs.2]⟩

/-! ### No other laws -/

theorem reads_true {U : Uni} (hU : U.Lawful) : Reads U "TRUE".toList (.lit ⟨.bool, 0, .str "TRUE".toList⟩) :=
  ⟨_, toks_cons (lex_word hU "TRUE".toList (kw := "true") (ty := .bool) (v := "TRUE") (by decide) (by unfold Spells; decide) [] (Or.inl rfl))
    (toks_nil U), .term (.exp (.lit ⟨rfl, _, rfl⟩))⟩

theorem reads_false {U : Uni} (hU : U.Lawful) : Reads U "FALSE".toList (.lit ⟨.bool, 0, .str "FALSE".toList⟩) :=
  ⟨_, toks_cons (lex_word hU "FALSE".toList (kw := "false") (ty := .bool) (v := "FALSE") (by decide) (by unfold Spells; decide) [] (Or.inl rfl))
    (toks_nil U), .term (.exp (.lit ⟨rfl, _, rfl⟩))⟩

theorem reads_att {U : Uni} (hU : U.Lawful) : Reads U "user.a".toList (.att ⟨.usrAtt, 0, .str "a".toList⟩) :=
  ⟨_, toks_cons (w := "user.a".toList) (b := []) (.att "user".toList "a".toList "user" .usrAtt _ (by decide) (by unfold Spells; decide) (by decide)
    (fun c hc => by
      have : c = 'a' := by simpa using hc
      subst this
      exact Or.inl (by rw [hU.alpha_ascii _ (by decide)]; decide)) (by simp)) (toks_nil U), .term (.exp (.att (Or.inl rfl)))⟩

/-- A symbol table without symbols. -/
def voidEnv (U : Uni) : SymEnv := ⟨{}, fun _ => Symbol.new U [] none none (.sc .none)⟩

theorem voidEnv_ok (U : Uni) : SymEnv.SetsOk (voidEnv U) := fun r l h => by cases h

/-- Texts for the truth values, and one for none. -/
def textFor : Option Tri → Str
  | some .true => "TRUE".toList
  | some .false => "NOT (TRUE)".toList
  | some .undef => "user.a".toList
  | none => "FALSE".toList

theorem textFor_value {U : Uni} (hU : U.Lawful) (o : Option Tri) : ∃ p, PolicyOf U (textFor o) p ∧
    ∀ t, Value U (attsOf U (voidEnv U)) (some 3) p t ↔ o = some t := by
  have finish : ∀ q, Reads U (textFor o) q → (∀ t, Value U (attsOf U (voidEnv U)) (some 3) q t ↔ o = some t) →
      ∃ p, PolicyOf U (textFor o) p ∧ ∀ t, Value U (attsOf U (voidEnv U)) (some 3) p t ↔ o = some t := by
    intro q h1 h2
    obtain ⟨p, h3, h4⟩ := reads_policy h1
    exact ⟨p, h3, fun t => by rw [value_strip h4, h2 t]⟩
  have hup : ∀ w : String, w.toList.all isAscii = true → U.upper w.toList = w.toList.map asciiUpper := fun w h => hU.upper_ascii _ h
  have ht : litTri U ⟨.bool, 0, .str "TRUE".toList⟩ = .true := by
    simp only [litTri, hup "TRUE" (by decide)]
    decide
  have hf : litTri U ⟨.bool, 0, .str "FALSE".toList⟩ = .false := by
    simp only [litTri, hup "FALSE" (by decide)]
    decide
  have hun : Unraised (some 3) true := Or.inl rfl
  have ct : core (sem U (attsOf U (voidEnv U)) (.lit ⟨.bool, 0, .str "TRUE".toList⟩)) = some (.truth .true, true) := by
    rw [sem, if_pos ht]; rfl
  have cf : core (sem U (attsOf U (voidEnv U)) (.lit ⟨.bool, 0, .str "FALSE".toList⟩)) = none := by
    rw [sem, if_neg (by rw [hf]; decide)]; rfl
  cases o with
  | none =>
    refine finish _ (reads_false hU) fun t => ?_
    rw [Value, cf]
    simp
  | some v =>
    cases v with
    | true =>
      refine finish _ (reads_true hU) fun t => ?_
      rw [Value, ct]
      simp only [Option.some.injEq, Prod.mk.injEq, Den.truth.injEq]
      exact ⟨fun ⟨_, h, _⟩ => h.1, fun h => ⟨true, ⟨h, rfl⟩, hun⟩⟩
    | false =>
      refine finish _ (reads_not hU (reads_true hU)) fun t => ?_
      rw [value_not]
      simp only [Value, ct, Option.some.injEq, Prod.mk.injEq, Den.truth.injEq]
      constructor
      · rintro ⟨v, ⟨b, ⟨rfl, _⟩, _⟩, h⟩
        exact rank_inj (t := .false) h.symm
      · rintro rfl
        exact ⟨.true, ⟨true, ⟨rfl, rfl⟩, hun⟩, rfl⟩
    | undef =>
      refine finish _ (reads_att hU) fun t => ?_
      have ha : attsOf U (voidEnv U) .usrAtt "a".toList = none := rfl
      have h3 : ∀ b, Unraised (some 3) b := fun b => Or.inr ⟨3, rfl, by decide⟩
      have hn : attName ⟨.usrAtt, 0, .str "a".toList⟩ = "a".toList := rfl
      simp only [Value, sem, semAtt, hn, ha, core]
      simp [h3]

/-- C138: the laws are those of Kleene's logic without new places, and no others: a replacement that keeps all truth values given, for all
policies in the places, is a simplification in this sense. -/
theorem law_complete {U : Uni} (hU : U.Lawful) {f g : Template} (hf : f.Proper) (hg : g.Proper) :
    (∀ T, Policies U T → ∀ E, SymEnv.SetsOk E → ∀ level t, Gives U E level (f.fill T) t → Gives U E level (g.fill T) t) ↔
      f.Simplifies g := by
  constructor
  · intro h
    have hE : SymEnv.SetsOk (voidEnv U) := fun r l h => by cases h
    have hT : ∀ o : Nat → Option Tri, Policies U fun i => textFor (o i) := fun o i => ⟨_, (textFor_value hU (o i)).choose_spec.1⟩
    have hv : ∀ (o : Nat → Option Tri) (f : Template), f.Proper → ∀ t, Gives U (voidEnv U) (some 3) (f.fill fun i => textFor (o i)) t ↔
        ∃ ρ : Nat → Tri, (∀ i ∈ f.places, o i = some (ρ i)) ∧ rank t = f.truth ρ := by
      intro o f hf t
      rw [fill_value hU hE (fun i => (textFor_value hU (o i)).choose_spec.1) hf]
      simp only [(textFor_value hU _).choose_spec.2]
    constructor
    · intro i hi
      by_contra hc
      let o : Nat → Option Tri := fun j => if j = i then none else some .true
      obtain ⟨t, ht⟩ := truth_rank f fun _ => .true
      have h1 := h _ (hT o) _ hE (some 3) t ((hv o f hf t).2 ⟨fun _ => .true, fun j hj => by
        have : j ≠ i := fun e => hc (e ▸ hj)
        simp [o, this], ht⟩)
      obtain ⟨ρ, h2, _⟩ := (hv o g hg t).1 h1
      have := h2 i hi
      simp [o] at this
    · intro ρ
      obtain ⟨t, ht⟩ := truth_rank f ρ
      have h1 := h _ (hT fun i => some (ρ i)) _ hE (some 3) t ((hv _ f hf t).2 ⟨ρ, fun _ _ => rfl, ht⟩)
      obtain ⟨σ, h2, h3⟩ := (hv _ g hg t).1 h1
      rw [← ht, h3]
      exact truth_local g fun i hi => (Option.some.inj (h2 i hi)).symm
  · intro hs T hT E hE level t h
    exact law_sound hU hE hT hf hg hs t h

/-- C138: two templates can replace each other exactly if they have the same places and the same truth values. -/
theorem law_iff {U : Uni} (hU : U.Lawful) {f g : Template} (hf : f.Proper) (hg : g.Proper) :
    (∀ T, Policies U T → ∀ E, SymEnv.SetsOk E → ∀ level t, Gives U E level (f.fill T) t ↔ Gives U E level (g.fill T) t) ↔
      (∀ i, i ∈ f.places ↔ i ∈ g.places) ∧ ∀ ρ, f.truth ρ = g.truth ρ := by
  constructor
  · intro h
    have h1 := (law_complete hU hf hg).1 fun T hT E hE level t => (h T hT E hE level t).1
    have h2 := (law_complete hU hg hf).1 fun T hT E hE level t => (h T hT E hE level t).2
    exact ⟨fun i => ⟨h2.1 i, h1.1 i⟩, h1.2⟩
  · intro h T hT E hE level t
    exact ⟨law_sound hU hE hT hf hg ⟨fun i => (h.1 i).2, h.2⟩ t, law_sound hU hE hT hg hf ⟨fun i => (h.1 i).1, fun ρ => (h.2 ρ).symm⟩ t⟩

/-- C138: simplifying to one of the policies keeps the truth values given, unless that policy is a literal, which does not stand alone. -/
theorem law_place {U : Uni} (hU : U.Lawful) {E : SymEnv} (hE : SymEnv.SetsOk E) {level : Option Int} {T : Nat → Str} (hT : Policies U T)
    {f : Template} (hf : f.Proper) {i : Nat} (hs : f.Simplifies (.place i)) (hl : ∀ x, ¬ PolicyOf U (T i) (.lit x)) (t : Tri)
    (h : Gives U E level (f.fill T) t) : Gives U E level (T i) t := by
  choose P hP using hT
  obtain ⟨ρ, h1, h2⟩ := (fill_value hU hE hP hf).1 h
  rw [hs.2 ρ] at h2
  rw [gives_value hU hE (hP i) (fun x e => hl x (e ▸ hP i)), rank_inj h2]
  exact h1 i (hs.1 i (by simp [Template.places]))

/-- C138: what stands alone can be replaced by a template that simplifies to it and has no other places. -/
theorem law_expand {U : Uni} (hU : U.Lawful) {E : SymEnv} (hE : SymEnv.SetsOk E) {level : Option Int} {T : Nat → Str} (hT : Policies U T)
    {f : Template} (hf : f.Proper) {i : Nat} (hp : ∀ j ∈ f.places, j = i) (ht : ∀ ρ, f.truth ρ = rank (ρ i)) (t : Tri)
    (h : Gives U E level (T i) t) : Gives U E level (f.fill T) t := by
  choose P hP using hT
  have hl : ∀ x, P i ≠ .lit x := by
    intro x e
    obtain ⟨k, s, h⟩ := h
    obtain ⟨s', r, h1, _, h2⟩ := (evaluate_refines U hU E hE level k (T i)).2 _ (hP i)
    rw [h] at h1
    simp only [Except.ok.injEq, Prod.mk.injEq] at h1
    rw [← h1.2, e] at h2
    simp [semPolicy, Eff.fail, outcome, Except.map] at h2
  rw [gives_value hU hE (hP i) hl] at h
  exact (fill_value hU hE hP hf).2 ⟨fun _ => t, fun j hj => by rw [hp j hj]; exact h, (ht fun _ => t).symm⟩

/-- C138: policies that give the same truth values under NOT can replace each other in every template. -/
theorem law_congr {U : Uni} (hU : U.Lawful) {E : SymEnv} (hE : SymEnv.SetsOk E) {level : Option Int} {T T' : Nat → Str} (hT : Policies U T)
    (hT' : Policies U T') {f : Template} (hf : f.Proper)
    (h : ∀ i ∈ f.places, ∀ t, Gives U E level ((Template.neg (.place i)).fill T) t ↔ Gives U E level ((Template.neg (.place i)).fill T') t)
    (t : Tri) : Gives U E level (f.fill T) t ↔ Gives U E level (f.fill T') t := by
  rw [(template_gives hU hE hT hf t).2, (template_gives hU hE hT' hf t).2]
  constructor
  · rintro ⟨ρ, h1, h2⟩; exact ⟨ρ, fun i hi => (h i hi _).1 (h1 i hi), h2⟩
  · rintro ⟨ρ, h1, h2⟩; exact ⟨ρ, fun i hi => (h i hi _).2 (h1 i hi), h2⟩

/-! ### The laws by name -/

section
open Template

/-- The first, second and third place. -/
def pa : Template := .place 0
def pb : Template := .place 1
def pc : Template := .place 2

/-- The laws of the connectives of Kleene's logic that hold in both directions. -/
def namedLaws : List (Template × Template) :=
  [(neg (conj pa pb), disj (neg pa) (neg pb)),
   (neg (disj pa pb), conj (neg pa) (neg pb)),
   (conj pa pb, conj pb pa),
   (disj pa pb, disj pb pa),
   (conj pa (conj pb pc), conj (conj pa pb) pc),
   (disj pa (disj pb pc), disj (disj pa pb) pc),
   (conj pa (disj pb pc), disj (conj pa pb) (conj pa pc)),
   (disj pa (conj pb pc), conj (disj pa pb) (disj pa pc)),
   (neg (neg (neg pa)), neg pa)]

/-- C138: De Morgan's laws and the laws of commutativity, associativity and distributivity hold for all policies. -/
theorem named_laws {U : Uni} (hU : U.Lawful) : ∀ l ∈ namedLaws, ∀ T, Policies U T → ∀ E, SymEnv.SetsOk E → ∀ level t,
    Gives U E level (l.1.fill T) t ↔ Gives U E level (l.2.fill T) t := by
  intro l hl
  simp only [namedLaws, List.mem_cons, List.not_mem_nil, or_false] at hl
  rcases hl with rfl | rfl | rfl | rfl | rfl | rfl | rfl | rfl | rfl <;>
    refine (law_iff hU (by trivial) (by trivial)).2 ⟨fun i => ?_, fun ρ => ?_⟩ <;>
    simp only [places, pa, pb, pc, truth, List.mem_append, List.mem_singleton] <;>
    first | tauto | (rcases ρ 0 <;> rcases ρ 1 <;> rcases ρ 2 <;> decide)

/-- C138: double negations can be dropped, and `p AND p`, `p OR p`, `p AND (p OR q)` and `p OR (p AND q)` shortened, unless that leaves a literal. -/
theorem shortening_laws {U : Uni} (hU : U.Lawful) {E : SymEnv} (hE : SymEnv.SetsOk E) {level : Option Int} {T : Nat → Str} (hT : Policies U T)
    (hl : ∀ x, ¬ PolicyOf U (T 0) (.lit x)) (t : Tri) :
    (Gives U E level ((neg (neg pa)).fill T) t ↔ Gives U E level (T 0) t) ∧
    (Gives U E level ((conj pa pa).fill T) t ↔ Gives U E level (T 0) t) ∧
    (Gives U E level ((disj pa pa).fill T) t ↔ Gives U E level (T 0) t) ∧
    (Gives U E level ((conj pa (disj pa pb)).fill T) t → Gives U E level (T 0) t) ∧
    (Gives U E level ((disj pa (conj pa pb)).fill T) t → Gives U E level (T 0) t) := by
  have dn : ∀ v : Tri, 2 - (2 - rank v) = rank v := by intro v; cases v <;> rfl
  refine ⟨⟨law_place hU hE hT (by trivial) ⟨by simp [places, pa], fun ρ => by exact dn _⟩ hl t,
      law_expand hU hE hT (by trivial) (by simp [places, pa]) (fun ρ => by exact dn _) t⟩,
    ⟨law_place hU hE hT (by trivial) ⟨by simp [places, pa], fun ρ => Nat.min_self _⟩ hl t,
      law_expand hU hE hT (by trivial) (by simp [places, pa]) (fun ρ => Nat.min_self _) t⟩,
    ⟨law_place hU hE hT (by trivial) ⟨by simp [places, pa], fun ρ => Nat.max_self _⟩ hl t,
      law_expand hU hE hT (by trivial) (by simp [places, pa]) (fun ρ => Nat.max_self _) t⟩,
    law_place hU hE hT (by trivial) ⟨by simp [places, pa], fun ρ => ?_⟩ hl t,
    law_place hU hE hT (by trivial) ⟨by simp [places, pa], fun ρ => ?_⟩ hl t⟩
  · show min (rank (ρ 0)) (max (rank (ρ 0)) (rank (ρ 1))) = rank (ρ 0); omega
  · show max (rank (ρ 0)) (min (rank (ρ 0)) (rank (ρ 1))) = rank (ρ 0); omega

/-- Absorption read backwards is no law: the policy brought in may raise. Nor is the excluded middle: `p OR NOT p` is not always TRUE. -/
theorem not_laws {U : Uni} (hU : U.Lawful) :
    (∃ T, Policies U T ∧ ∃ E, SymEnv.SetsOk E ∧ ∃ level t, Gives U E level ((conj pa pa).fill T) t ∧
      ¬ Gives U E level ((conj pa (disj pa pb)).fill T) t) ∧
    (∃ T, Policies U T ∧ ∃ E, SymEnv.SetsOk E ∧ ∃ level, Gives U E level ((disj pa (neg pa)).fill T) .undef) := by
  constructor
  · by_contra hc
    have h : (conj pa pa).Simplifies (conj pa (disj pa pb)) := by
      refine (law_complete hU (by trivial) (by trivial)).1 fun T hT E hE level t h => ?_
      by_contra h'
      exact hc ⟨T, hT, E, hE, level, t, h, h'⟩
    have := h.1 1 (by simp [places, pa, pb])
    simp [places, pa] at this
  · by_contra hc
    obtain ⟨p, h1, h2⟩ := textFor_value hU (some .undef)
    refine hc ⟨fun _ => textFor (some .undef), fun _ => ⟨p, h1⟩, voidEnv U, voidEnv_ok U, some 3, ?_⟩
    exact (fill_value hU (voidEnv_ok U) (P := fun _ => p) (fun _ => h1) (f := disj pa (neg pa)) trivial).2
      ⟨fun _ => .undef, fun i _ => (h2 .undef).2 rfl, rfl⟩

end

/-! ### Concrete cases -/

/-- Policies in the places. -/
def lawTexts : Nat → Str
  | 0 => "user.a > 3 OR 1 = 2".toList
  | _ => " TRUE".toList

example : (Template.neg (.conj pa pb)).fill lawTexts = "NOT ((user.a > 3 OR 1 = 2) AND ( TRUE))".toList := by decide

theorem sample_policies : Policies asciiUni lawTexts := by
  have h : ∀ i, (parseText asciiUni 0 (lawTexts i)).isOk = true := by
    intro i
    cases i with
    | zero => decide +kernel
    | succ i => show (parseText asciiUni 0 " TRUE".toList).isOk = true; decide +kernel
  intro i
  have := h i
  cases hp : parseText asciiUni 0 (lawTexts i) with
  | error e => rw [hp] at this; cases this
  | ok x => obtain ⟨p, h1, _⟩ := (parseText_iff asciiUni_lawful 0 x.2 (lawTexts i) x.1).1 hp; exact ⟨p, h1⟩

example : (evaluateText asciiUni (voidEnv asciiUni) (some 3) 0 ((Template.neg (.conj pa pb)).fill lawTexts)).map Prod.snd = .ok (.ok (.tri .undef)) := by
  decide +kernel
example : (evaluateText asciiUni (voidEnv asciiUni) (some 3) 0 ((Template.disj (.neg pa) (.neg pb)).fill lawTexts)).map Prod.snd = .ok (.ok (.tri .undef)) := by
  decide +kernel

/-- A literal does not stand alone: the double negation of TRUE gives TRUE, TRUE gives nothing. -/
example : (evaluateText asciiUni (voidEnv asciiUni) (some 3) 0 "NOT (NOT (TRUE))".toList).map Prod.snd = .ok (.ok (.tri .true)) := by
  decide +kernel
example : ((evaluateText asciiUni (voidEnv asciiUni) (some 3) 0 "TRUE".toList).map fun r => r.2.isOk) = .ok false := by
  decide +kernel

end Verif.Props
