import Verif.Proofs.TextsNode
import Verif.Props.AST
import Verif.Props.Parser
import Verif.Props.Encoder
import Verif.Tests.Basic
/-!
# C118: `repr` of tokens and trees
-/

namespace Verif.Props
open Verif Verif.Spec Verif.Proofs

/-! ### A lawful choice of texts of floats -/

/-- Numerator and denominator with a point between them. -/
def sampleTexts : Texts where
  printable _ := false
  flt q := intText q.num ++ '.' :: intText q.den
  null := "<hgpl.ast.ASTNullVal object at 0x0>".toList
  obj _ n := "<object ".toList ++ intText n ++ ">".toList
  set l := "{".toList ++ joinComma (l.map fun
    | .atom (.int i) => intText i
    | _ => "x".toList) ++ "}".toList

/-- Its reader. -/
def sampleReader : FloatReader := fun s =>
  let a := s.takeWhile (· ≠ '.')
  let b := (s.dropWhile (· ≠ '.')).drop 1
  (intOf a).bind fun n => (intOf b).map fun d => mkRat n d.toNat

theorem intText_point (i : Int) : ∀ c ∈ intText i, decide (c ≠ '.') = true := by
  intro c hc
  rw [intText_eq] at hc
  have key : ∀ n : Nat, ∀ c ∈ Nat.toDigits 10 n, decide (c ≠ '.') = true := by
    intro n c hc
    have := toDigits_digit n c hc
    rw [decide_eq_true_eq]
    rintro rfl
    revert this; decide
  split at hc
  · exact key _ c hc
  · rcases List.mem_cons.1 hc with rfl | hc
    · decide
    · exact key _ c hc

theorem sample_lawful : Lawful sampleTexts sampleReader where
  chars q c hc := by
    simp only [sampleTexts, List.mem_append, List.mem_cons] at hc
    rcases hc with hc | rfl | hc
    · exact intText_num _ c hc
    · decide
    · exact intText_num _ c hc
  notInt q := by
    have hp : ∀ a b : Str, ¬ ((a ++ '.' :: b).all Char.isDigit = true) := by
      intro a b h
      rw [List.all_eq_true] at h
      have := h '.' (by simp)
      revert this; decide
    simp only [sampleTexts]
    unfold intOf
    split
    · rename_i ds e
      rw [if_neg]
      rintro ⟨_, h⟩
      rw [intText_eq] at e
      split at e
      · cases hd : Nat.toDigits 10 q.num.toNat with
        | nil => exact absurd hd (toDigits_ne _)
        | cons x xs =>
          rw [hd] at e
          have hx := toDigits_digit _ x (by rw [hd]; simp)
          have : x = '-' := (List.cons.inj e).1
          subst this
          revert hx; decide
      · have : ds = Nat.toDigits 10 (-q.num).toNat ++ '.' :: intText q.den := (List.cons.inj e).2.symm
        rw [this] at h
        exact hp _ _ h
    · rw [if_neg]
      rintro ⟨_, h⟩
      exact hp _ _ h
  digit q := by
    simp only [sampleTexts, List.any_append, List.any_cons, Bool.or_eq_true]
    right; right
    rw [intText_eq, if_pos (by omega), List.any_eq_true]
    cases hd : Nat.toDigits 10 (q.den : Int).toNat with
    | nil => exact absurd hd (toDigits_ne _)
    | cons x xs => exact ⟨x, by simp, toDigits_digit (q.den : Int).toNat x (by rw [hd]; simp)⟩
  read q := by
    simp only [sampleTexts, sampleReader]
    rw [(takeWhile_stop (intText_point q.num) (by decide)).1, (takeWhile_stop (intText_point q.num) (by decide)).2]
    simp only [List.drop_succ_cons, List.drop_zero]
    rw [intOf_intText, intOf_intText]
    simp [Rat.mkRat_self]

/-! ### Tokens -/

/-- **C118**: evaluating `repr(token)` gives the token, but a value 0, 0.0 or `""` is lost and an infinite float fails. -/
theorem token_repr {T : Texts} {R : FloatReader} (h : Lawful T R) (t : Token) (hp : -1 ≤ t.pos) :
    evalToken R (t.repr T) = if infinite t then none else some (blank t) := by
  have := readToken_repr h t hp []
  rw [List.append_nil] at this
  unfold evalToken
  rw [this]
  cases infinite t <;> rfl

theorem falsy_iff (t : Token) : Falsy t ↔ blank t ≠ t := by
  obtain ⟨ty, pos, v⟩ := t
  rw [blank_eq]
  unfold Falsy
  simp only
  cases v with
  | none => simp [TVal.truthy]
  | str s => cases s <;> simp [TVal.truthy]
  | int i => by_cases hi : i = 0 <;> simp [TVal.truthy, hi]
  | flt f => by_cases hf : f = .fin 0 <;> simp [TVal.truthy, hf]

/-- **C118**: `eval(repr(token)) == token` exactly for tokens whose value is not 0, 0.0, `""` or infinite. -/
theorem token_repr_exact {T : Texts} {R : FloatReader} (h : Lawful T R) (t : Token) (hp : -1 ≤ t.pos) :
    evalToken R (t.repr T) = some t ↔ infinite t = false ∧ ¬ Falsy t := by
  rw [token_repr h t hp, falsy_iff]
  cases infinite t <;> simp

example : (Token.mk .string 3 (.str "it's".toList)).repr sampleTexts = "Token(TokenType.STRING, 3, \"it's\")".toList ∧
    (Token.mk .int 3 (.int 0)).repr sampleTexts = "Token(TokenType.INT, 3)".toList ∧
    (Token.mk .float (-1) (.flt (.inf true))).repr sampleTexts = "Token(TokenType.FLOAT, value=-inf)".toList ∧
    (Token.mk .int (-1) (.int (-17))).repr sampleTexts = "Token(TokenType.INT, value=-17)".toList := by decide +kernel

example : evalToken sampleReader "Token(TokenType.INT, 3)".toList = some ⟨.int, 3, .none⟩ ∧
    evalToken sampleReader "Token(TokenType.FLOAT, value=-inf)".toList = none ∧
    evalToken sampleReader "Token(TokenType.STRING, 3, \"it's\")".toList = some ⟨.string, 3, .str "it's".toList⟩ := by
  decide +kernel

/-! ### Trees -/

theorem token_repr_length (T : Texts) (t : Token) : 3 ≤ (t.repr T).length := by
  have e : "Token(TokenType.".toList.length = 16 := by decide +kernel
  unfold Token.repr
  repeat' split
  all_goals simp only [List.length_append, e]; omega

theorem joinComma_length (xs : List Str) : (xs.map List.length).sum ≤ (joinComma xs).length := by
  induction xs with
  | nil => simp [joinComma]
  | cons x xs ih =>
    cases xs with
    | nil => simp [joinComma]
    | cons y ys =>
      rw [joinComma]
      simp only [List.map_cons, List.sum_cons, List.length_append] at ih ⊢
      omega

theorem cost_le (T : Texts) (ends : Nat → Option Token) (n : Node) : cost n ≤ (n.repr T ends).length := by
  refine nodeCases (P := fun n => cost n ≤ (n.repr T ends).length) ?_ n
  intro k t i r cs ih
  have hsum : costs cs ≤ ((Node.reprs T ends cs).map List.length).sum := by
    clear n
    induction cs with
    | nil => simp [costs, Node.reprs]
    | cons a as iha =>
      rw [costs, Node.reprs, List.map_cons, List.sum_cons]
      have := ih a (by simp)
      have := iha (fun c hc => ih c (by simp [hc]))
      omega
  have ht := token_repr_length T t
  rw [cost]
  by_cases hk : k = .set
  · subst hk
    rw [repr_set]
    have := joinComma_length (Node.reprs T ends cs)
    simp only [List.length_append]
    omega
  · match cs, hsum with
    | [], hsum =>
      rw [repr_leaf T ends hk]
      simp only [List.length_append, costs]
      omega
    | [a], hsum =>
      rw [repr_one T ends hk]
      simp only [Node.reprs, List.map_cons, List.map_nil, List.sum_cons, List.sum_nil] at hsum
      simp only [List.length_append]
      omega
    | [a, b], hsum =>
      rw [repr_two T ends hk]
      simp only [Node.reprs, List.map_cons, List.map_nil, List.sum_cons, List.sum_nil] at hsum
      simp only [List.length_append]
      omega
    | a :: b :: c :: cs, hsum =>
      rw [repr_many T ends hk]
      have := joinComma_length (Node.reprs T ends (a :: b :: c :: cs))
      simp only [List.length_append]
      omega

/-- **C118**: evaluating `repr(node)` makes the same tree, but values 0, 0.0 and `""` are lost, and an infinite float anywhere makes
it fail. -/
theorem node_repr {T : Texts} {R : FloatReader} (h : Lawful T R) (ends : Nat → Option Token) (n : Node) (hc : Callable n)
    (hp : ∀ t ∈ tokensOf ends n, -1 ≤ t.pos) :
    evalTree R (n.repr T ends) = if (tokensOf ends n).any infinite then none else some (made blank ends n) := by
  have hl := cost_le T ends n
  have := readNode_repr h ends n hc hp (3 * (n.repr T ends).length + 3) (by omega) []
  rw [List.append_nil] at this
  unfold evalTree
  rw [this]
  cases (tokensOf ends n).any infinite <;> rfl

mutual
theorem made_same (g g' : Token → Token) (ends : Nat → Option Token) (n : Node) :
    made g ends n = made g' ends n ↔ ∀ t ∈ tokensOf ends n, g t = g' t := by
  obtain ⟨k, t, i, r, cs⟩ := n
  rw [made, made, tokensOf]
  have := mades_same g g' ends cs
  simp only [Made.mk.injEq, true_and, List.mem_cons, List.mem_append, this]
  by_cases hk : k = .set
  · subst hk
    cases he : ends i with
    | none =>
      simp
    | some e =>
      simp only [if_true, Option.map_some, Option.some.injEq, Option.toList, List.mem_singleton]
      constructor
      · rintro ⟨h1, h2, h3⟩ x (rfl | rfl | hx)
        · exact h1
        · exact h2
        · exact h3 x hx
      · intro h
        exact ⟨h t (Or.inl rfl), h e (Or.inr (Or.inl rfl)), fun x hx => h x (Or.inr (Or.inr hx))⟩
  · simp only [if_neg hk, true_and, List.not_mem_nil, false_or]
    constructor
    · rintro ⟨h1, h3⟩ x (rfl | hx)
      · exact h1
      · exact h3 x hx
    · intro h
      exact ⟨h t (Or.inl rfl), fun x hx => h x (Or.inr hx)⟩
theorem mades_same (g g' : Token → Token) (ends : Nat → Option Token) (ns : List Node) :
    mades g ends ns = mades g' ends ns ↔ ∀ t ∈ tokensOfs ends ns, g t = g' t := by
  match ns with
  | [] => simp [mades, tokensOfs]
  | n :: ns =>
    rw [mades, mades, tokensOfs, List.cons.injEq, made_same g g' ends n, mades_same g g' ends ns]
    simp only [List.mem_append]
    constructor
    · rintro ⟨h1, h2⟩ t (ht | ht)
      · exact h1 t ht
      · exact h2 t ht
    · intro h
      exact ⟨fun t ht => h t (Or.inl ht), fun t ht => h t (Or.inr ht)⟩
end

/-- **C118**: the exact condition. -/
theorem node_repr_exact {T : Texts} {R : FloatReader} (h : Lawful T R) (ends : Nat → Option Token) (n : Node) (hc : Callable n)
    (hp : ∀ t ∈ tokensOf ends n, -1 ≤ t.pos) :
    evalTree R (n.repr T ends) = some (made id ends n) ↔ ∀ t ∈ tokensOf ends n, infinite t = false ∧ ¬ Falsy t := by
  rw [node_repr h ends n hc hp]
  cases hi : (tokensOf ends n).any infinite with
  | true =>
    rw [List.any_eq_true] at hi
    obtain ⟨t, ht, hf⟩ := hi
    simp only [if_true, reduceCtorEq, false_iff]
    intro hall
    have := (hall t ht).1
    rw [hf] at this
    exact Bool.noConfusion this
  | false =>
    simp only [Bool.false_eq_true, if_false, Option.some.injEq]
    rw [made_same]
    rw [List.any_eq_false] at hi
    constructor
    · intro hall t ht
      refine ⟨by simpa using hi t ht, fun hf => (falsy_iff t).1 hf (hall t ht)⟩
    · intro hall t ht
      exact Classical.byContradiction fun hne => (hall t ht).2 ((falsy_iff t).2 hne)

mutual
theorem made_tree {ends ends' : Nat → Option Token} {n m : Node} (h : made id ends n = made id ends' m) : treeOf n = treeOf m := by
  obtain ⟨k, t, i, r, cs⟩ := n
  obtain ⟨k', t', i', r', cs'⟩ := m
  rw [made, made] at h
  simp only [Made.mk.injEq, id_eq] at h
  rw [treeOf, treeOf, h.2.1, mades_tree h.2.2.2]
theorem mades_tree {ends ends' : Nat → Option Token} {ns ms : List Node} (h : mades id ends ns = mades id ends' ms) :
    treesOf ns = treesOf ms := by
  match ns, ms with
  | [], [] => rfl
  | [], _ :: _ => simp [mades] at h
  | _ :: _, [] => simp [mades] at h
  | n :: ns, m :: ms =>
    rw [mades, mades, List.cons.injEq] at h
    rw [treesOf, treesOf, made_tree h.1, mades_tree h.2]
end

theorem blank_typed {t t' : Token} (h : WellTyped t) (h' : WellTyped t') (e : blank t = blank t') : t = t' := by
  obtain ⟨ty, pos, v⟩ := t
  obtain ⟨ty', pos', v'⟩ := t'
  rw [blank_eq, blank_eq] at e
  simp only at e
  have hty : ty = ty' ∧ pos = pos' := by
    split at e <;> split at e <;> simp only [Token.mk.injEq] at e <;> exact ⟨e.1, e.2.1⟩
  obtain ⟨rfl, rfl⟩ := hty
  by_cases hv : v.truthy = true
  · rw [if_pos hv] at e
    by_cases hv' : v'.truthy = true
    · rw [if_pos hv'] at e; exact e
    · rw [if_neg hv'] at e
      simp only [Token.mk.injEq] at e
      rw [e.2.2] at hv
      simp [TVal.truthy] at hv
  · rw [if_neg hv] at e
    by_cases hv' : v'.truthy = true
    · rw [if_pos hv'] at e
      simp only [Token.mk.injEq] at e
      rw [← e.2.2] at hv'
      simp [TVal.truthy] at hv'
    · have : v = v' := by
        cases ty <;> simp only [WellTyped] at h h' <;>
          first
          | (obtain ⟨s, hs, rfl⟩ := h; simp [TVal.truthy, hs] at hv)
          | (rw [h, h'])
          | (obtain ⟨x, rfl⟩ := h; obtain ⟨y, rfl⟩ := h'
             simp only [TVal.truthy, decide_eq_true_eq, Decidable.not_not] at hv hv'
             rw [hv, hv'])
      rw [this]

mutual
theorem made_blank {ends ends' : Nat → Option Token} {n m : Node} (hn : ∀ t ∈ tokensOf ends n, WellTyped t)
    (hm : ∀ t ∈ tokensOf ends' m, WellTyped t) (h : made blank ends n = made blank ends' m) :
    made id ends n = made id ends' m := by
  obtain ⟨k, t, i, r, cs⟩ := n
  obtain ⟨k', t', i', r', cs'⟩ := m
  rw [tokensOf] at hn hm
  rw [made, made] at h ⊢
  simp only [Made.mk.injEq] at h ⊢
  obtain ⟨rfl, h1, h2, h3⟩ := h
  refine ⟨rfl, blank_typed (hn t (by simp)) (hm t' (by simp)) h1, ?_,
    mades_blank (fun x hx => hn x (by simp [hx])) (fun x hx => hm x (by simp [hx])) h3⟩
  by_cases hk : k = .set
  · subst hk
    simp only [if_true, Option.some.injEq] at h2 ⊢
    cases he : ends i with
    | none =>
      cases he' : ends' i' with
      | none => rfl
      | some e' => rw [he, he'] at h2; simp at h2
    | some e =>
      cases he' : ends' i' with
      | none => rw [he, he'] at h2; simp at h2
      | some e' =>
        rw [he, he'] at h2
        simp only [Option.map_some, Option.some.injEq] at h2 ⊢
        exact blank_typed (hn e (by simp [he])) (hm e' (by simp [he'])) h2
  · simp only [if_neg hk]
theorem mades_blank {ends ends' : Nat → Option Token} {ns ms : List Node} (hn : ∀ t ∈ tokensOfs ends ns, WellTyped t)
    (hm : ∀ t ∈ tokensOfs ends' ms, WellTyped t) (h : mades blank ends ns = mades blank ends' ms) :
    mades id ends ns = mades id ends' ms := by
  match ns, ms with
  | [], [] => rfl
  | [], _ :: _ => simp [mades] at h
  | _ :: _, [] => simp [mades] at h
  | n :: ns, m :: ms =>
    rw [tokensOfs] at hn hm
    rw [mades, mades, List.cons.injEq] at h
    rw [mades, mades, made_blank (fun x hx => hn x (by simp [hx])) (fun x hx => hm x (by simp [hx])) h.1,
      mades_blank (fun x hx => hn x (by simp [hx])) (fun x hx => hm x (by simp [hx])) h.2]
end

/-- **C118**: although `repr` leaves out some values, trees of well typed tokens without infinite floats have the same `repr` only if
they are equal, with the same classes and end tokens. -/
theorem node_repr_injective {T : Texts} {R : FloatReader} (h : Lawful T R) (ends ends' : Nat → Option Token) (n m : Node)
    (hn : Callable n) (hm : Callable m) (hpn : ∀ t ∈ tokensOf ends n, -1 ≤ t.pos ∧ WellTyped t ∧ infinite t = false)
    (hpm : ∀ t ∈ tokensOf ends' m, -1 ≤ t.pos ∧ WellTyped t ∧ infinite t = false)
    (e : n.repr T ends = m.repr T ends') : made id ends n = made id ends' m ∧ n.eq m = true := by
  have h1 := node_repr h ends n hn (fun t ht => (hpn t ht).1)
  have h2 := node_repr h ends' m hm (fun t ht => (hpm t ht).1)
  rw [show (tokensOf ends n).any infinite = false by
    rw [List.any_eq_false]; intro t ht; rw [(hpn t ht).2.2]; decide] at h1
  rw [show (tokensOf ends' m).any infinite = false by
    rw [List.any_eq_false]; intro t ht; rw [(hpm t ht).2.2]; decide] at h2
  rw [e, h2] at h1
  simp only [Bool.false_eq_true, if_false, Option.some.injEq] at h1
  have := made_blank (fun t ht => (hpn t ht).2.1) (fun t ht => (hpm t ht).2.1) h1.symm
  exact ⟨this, (ast_eq_structural n m).2 (made_tree this)⟩

/-! ### Parsed policies -/

theorem lexeme_typed {U : Uni} {w : Str} {ty : TokenType} {v : TVal} {nx : Option Char} (h : Lexeme U w ty v nx) (p : Int) :
    WellTyped ⟨ty, p, v⟩ := by
  cases h with
  | punct w ty v nx h =>
    simp only [punctuation, List.mem_cons, Prod.mk.injEq, List.not_mem_nil, or_false] at h
    rcases h with ⟨_, rfl, rfl⟩ | ⟨_, rfl, rfl⟩ | ⟨_, rfl, rfl⟩ | ⟨_, rfl, rfl⟩ | ⟨_, rfl, rfl⟩ |
      ⟨_, rfl, rfl⟩ | ⟨_, rfl, rfl⟩ | ⟨_, rfl, rfl⟩ | ⟨_, rfl, rfl⟩
    all_goals first | rfl | exact ⟨_, by decide, rfl⟩
  | gt => exact ⟨_, by decide, rfl⟩
  | lt => exact ⟨_, by decide, rfl⟩
  | string body nx h => exact ⟨_, rfl⟩
  | int neg ds n nx => exact ⟨_, rfl⟩
  | float => exact ⟨_, rfl⟩
  | att pre ident kw ty nx hc hp hne =>
    simp only [attClasses, List.mem_cons, Prod.mk.injEq, List.not_mem_nil, or_false] at hc
    rcases hc with ⟨_, rfl⟩ | ⟨_, rfl⟩ | ⟨_, rfl⟩ | ⟨_, rfl⟩ | ⟨_, rfl⟩ <;> exact ⟨_, hne, rfl⟩
  | keyword w kw ty v nx hk =>
    simp only [keywords, List.mem_cons, Prod.mk.injEq, List.not_mem_nil, or_false] at hk
    rcases hk with ⟨_, rfl, rfl⟩ | ⟨_, rfl, rfl⟩ | ⟨_, rfl, rfl⟩ | ⟨_, rfl, rfl⟩ | ⟨_, rfl, rfl⟩ | ⟨_, rfl, rfl⟩ |
      ⟨_, rfl, rfl⟩ | ⟨_, rfl, rfl⟩ | ⟨_, rfl, rfl⟩ <;> exact ⟨_, by decide, rfl⟩

/-- The tokens the lexer makes are well typed and have positions. -/
theorem lexed_typed (U : Uni) (hU : U.Lawful) (text : Str) (toks : List Token) (h : lexTokens U text = .ok toks) :
    ∀ t ∈ toks, 0 ≤ t.pos ∧ WellTyped t := by
  obtain ⟨ts, rfl, h2⟩ := (lexer_refines_grammar U hU text toks).1 h
  have key : ∀ text pos ts, Tokenizes U text pos ts → ∀ t ∈ ts, 0 ≤ t.pos ∧ WellTyped t := by
    intro text pos ts h
    induction h with
    | done ws pos h =>
      intro t ht
      simp only [List.mem_singleton] at ht
      subst ht
      exact ⟨Int.natCast_nonneg _, rfl⟩
    | tok ws w rest pos ty v toks h hw hr ih =>
      intro t ht
      rcases List.mem_cons.1 ht with rfl | ht
      · exact ⟨by simp; omega, lexeme_typed hw _⟩
      · exact ih t ht
  intro t ht
  rcases List.mem_cons.1 ht with rfl | ht
  · exact ⟨by simp, rfl⟩
  · exact key _ _ _ h2 t ht

theorem callable_atoms (es : List Token) (k : Nat) : Callables (atomNodes es k) := by
  induction es generalizing k with
  | nil => trivial
  | cons t ts ih =>
    rw [atomNodes, Callables, atomNode, Callable]
    exact ⟨⟨Or.inr (Or.inl (by simp)), trivial⟩, ih _⟩

theorem callable_operand (v : Operand) (k : Nat) : Callable (v.build k).1 := by
  cases v with
  | att t => rw [Operand.build, attNode, Callable]; exact ⟨Or.inr (Or.inl (by simp)), trivial⟩
  | atom t => rw [Operand.build, atomNode, Callable]; exact ⟨Or.inr (Or.inl (by simp)), trivial⟩
  | set l es => rw [Operand.build, Callable]; exact ⟨Or.inl rfl, callable_atoms es k⟩

theorem callable_build (U : Uni) (p : Policy) (k : Nat) : Callable (p.build U k).1 := by
  induction p generalizing k with
  | cmp l o r =>
    simp only [Policy.build, Callable, Callables]
    exact ⟨Or.inr (Or.inl (by simp [maxArgs])), callable_operand l k, callable_operand r _, trivial⟩
  | lit t => rw [Policy.build, Callable]; exact ⟨Or.inr (Or.inl (by simp)), trivial⟩
  | att t => rw [Policy.build, attNode, Callable]; exact ⟨Or.inr (Or.inl (by simp)), trivial⟩
  | not n p ih =>
    simp only [Policy.build, Callable, Callables]
    exact ⟨Or.inr (Or.inl (by simp [maxArgs])), ih k, trivial⟩
  | bin o p q ihp ihq =>
    simp only [Policy.build, Callable, Callables]
    exact ⟨Or.inr (Or.inl (by simp [maxArgs])), ihp k, ihq _, trivial⟩

mutual
theorem tokensOf_mem (ends : Nat → Option Token) (n : Node) :
    ∀ t ∈ tokensOf ends n, t ∈ inorder n ∨ ∃ i, ends i = some t := by
  obtain ⟨k, t, i, r, cs⟩ := n
  intro x hx
  rw [tokensOf] at hx
  have hin : ∀ y, y = t ∨ y ∈ inorderList cs → y ∈ inorder (.mk k t i r cs) := by
    intro y hy
    have hp := preorder_toks (.mk k t i r cs)
    rw [← hp.mem_iff, preorder, List.map_cons, List.mem_cons]
    rcases hy with rfl | hy
    · exact Or.inl rfl
    · right
      rw [(preorderList_toks cs).mem_iff]
      exact hy
  rcases List.mem_cons.1 hx with rfl | hx
  · exact Or.inl (hin _ (Or.inl rfl))
  · rcases List.mem_append.1 hx with hx | hx
    · split at hx
      · refine Or.inr ⟨i, ?_⟩
        simpa using hx
      · simp at hx
    · rcases tokensOfs_mem ends cs x hx with h | h
      · exact Or.inl (hin _ (Or.inr h))
      · exact Or.inr h
theorem tokensOfs_mem (ends : Nat → Option Token) (ns : List Node) :
    ∀ t ∈ tokensOfs ends ns, t ∈ inorderList ns ∨ ∃ i, ends i = some t := by
  match ns with
  | [] => intro t ht; simp [tokensOfs] at ht
  | n :: ns =>
    intro t ht
    rw [tokensOfs, List.mem_append] at ht
    rw [inorderList, List.mem_append]
    rcases ht with ht | ht
    · rcases tokensOf_mem ends n t ht with h | h
      · exact Or.inl (Or.inl h)
      · exact Or.inr h
    · rcases tokensOfs_mem ends ns t ht with h | h
      · exact Or.inl (Or.inr h)
      · exact Or.inr h
end

mutual
theorem inorder_sub (ends : Nat → Option Token) (n : Node) : ∀ t ∈ inorder n, t ∈ tokensOf ends n := by
  obtain ⟨k, t, i, r, cs⟩ := n
  intro x hx
  rw [tokensOf]
  have hp := preorder_toks (.mk k t i r cs)
  rw [← hp.mem_iff, preorder, List.map_cons, List.mem_cons] at hx
  rcases hx with rfl | hx
  · exact List.mem_cons_self
  · rw [(preorderList_toks cs).mem_iff] at hx
    exact List.mem_cons_of_mem _ (List.mem_append_right _ (inorders_sub ends cs x hx))
theorem inorders_sub (ends : Nat → Option Token) (ns : List Node) : ∀ t ∈ inorderList ns, t ∈ tokensOfs ends ns := by
  match ns with
  | [] => intro t ht; simp [inorderList] at ht
  | n :: ns =>
    intro t ht
    rw [inorderList, List.mem_append] at ht
    rw [tokensOfs, List.mem_append]
    rcases ht with ht | ht
    · exact Or.inl (inorder_sub ends n t ht)
    · exact Or.inr (inorders_sub ends ns t ht)
end

/-- The end tokens of sets are tokens the lexer made for closing braces. -/
def EndsOk (ends : Nat → Option Token) : Prop := ∀ i t, ends i = some t → t.type = .rset ∧ 0 ≤ t.pos ∧ t.value = .none

theorem parsed_facts (U : Uni) (hU : U.Lawful) (k k' : Nat) (text : Str) (n : Node) (ends : Nat → Option Token)
    (he : EndsOk ends) (h : parseText U k text = .ok (n, k')) :
    Callable n ∧ ∀ t ∈ tokensOf ends n, 0 ≤ t.pos ∧ WellTyped t := by
  unfold parseText at h
  cases hl : lexTokens U text with
  | error e => rw [hl] at h; simp [bind, Except.bind] at h
  | ok toks =>
    rw [hl] at h
    replace h : parseTokens U k toks = .ok (n, k') := h
    have ht := lexed_typed U hU text toks hl
    obtain ⟨b, ts, e, rfl, hb, hee, hts, _⟩ := lexed_shape U hU text toks hl
    have hin := parse_tokens U k k' b e ts n hb hee (fun t ht => (hts t ht).1) h
    obtain ⟨p, _, h2⟩ := (parse_lexed U k k' b e ts n hb hee (fun t ht => (hts t ht).1)).1 h
    refine ⟨?_, ?_⟩
    · have := callable_build U p k
      rw [h2] at this
      exact this
    · intro t hm
      rcases tokensOf_mem ends n t hm with hm | ⟨i, hi⟩
      · rw [hin] at hm
        exact ht t (by have := (List.mem_filter.1 hm).1; simp [this])
      · obtain ⟨h1, h2, h3⟩ := he i t hi
        exact ⟨h2, by unfold WellTyped; rw [h1]; exact h3⟩

/-- **C118**: for a parsed policy `eval(repr(ast))` is the tree again exactly if the policy contains no literal 0, 0.0 or `""` and no
number too large for a float; it is then equal to it. -/
theorem parsed_repr {T : Texts} {R : FloatReader} (h : Lawful T R) (U : Uni) (hU : U.Lawful) (k k' : Nat) (text : Str) (n : Node)
    (ends : Nat → Option Token) (he : EndsOk ends) (hp : parseText U k text = .ok (n, k')) :
    (evalTree R (n.repr T ends) = some (made id ends n) ↔ ∀ t ∈ inorder n, infinite t = false ∧ ¬ Falsy t) ∧
    (evalTree R (n.repr T ends) = none ↔ ∃ t ∈ inorder n, infinite t = true) := by
  obtain ⟨hc, ht⟩ := parsed_facts U hU k k' text n ends he hp
  have hpos : ∀ t ∈ tokensOf ends n, -1 ≤ t.pos := fun t h => by have := (ht t h).1; omega
  have hend : ∀ i t, ends i = some t → infinite t = false ∧ ¬ Falsy t := by
    intro i t hi
    have := (he i t hi).2.2
    refine ⟨by unfold infinite; rw [this], ?_⟩
    unfold Falsy
    rw [this]
    simp
  refine ⟨?_, ?_⟩
  · rw [node_repr_exact h ends n hc hpos]
    constructor
    · intro hall t hm
      exact hall t (inorder_sub ends n t hm)
    · intro hall t hm
      rcases tokensOf_mem ends n t hm with hm | ⟨i, hi⟩
      · exact hall t hm
      · exact hend i t hi
  · rw [node_repr h ends n hc hpos]
    constructor
    · intro hn
      cases hi : (tokensOf ends n).any infinite with
      | false => rw [hi] at hn; simp at hn
      | true =>
        rw [List.any_eq_true] at hi
        obtain ⟨t, hm, hf⟩ := hi
        rcases tokensOf_mem ends n t hm with hm | ⟨i, hi⟩
        · exact ⟨t, hm, hf⟩
        · rw [(hend i t hi).1] at hf; exact absurd hf (by decide)
    · rintro ⟨t, hm, hf⟩
      rw [if_pos (List.any_eq_true.2 ⟨t, inorder_sub ends n t hm, hf⟩)]

/-- **C118**: two policies whose trees have the same `repr` have equal trees. -/
theorem parsed_repr_injective {T : Texts} {R : FloatReader} (h : Lawful T R) (U : Uni) (hU : U.Lawful) (k k1 j j1 : Nat)
    (text text' : Str) (n m : Node) (ends ends' : Nat → Option Token) (he : EndsOk ends) (he' : EndsOk ends')
    (hp : parseText U k text = .ok (n, k1)) (hp' : parseText U j text' = .ok (m, j1))
    (hi : ∀ t ∈ inorder n, infinite t = false) (hi' : ∀ t ∈ inorder m, infinite t = false)
    (e : n.repr T ends = m.repr T ends') : n.eq m = true := by
  have fin : ∀ (n : Node) (ends : Nat → Option Token), EndsOk ends → (∀ t ∈ inorder n, infinite t = false) →
      ∀ t ∈ tokensOf ends n, infinite t = false := by
    intro n ends he hi t hm
    rcases tokensOf_mem ends n t hm with hm | ⟨i, h⟩
    · exact hi t hm
    · unfold infinite; rw [(he i t h).2.2]
  obtain ⟨hc, ht⟩ := parsed_facts U hU k k1 text n ends he hp
  obtain ⟨hc', ht'⟩ := parsed_facts U hU j j1 text' m ends' he' hp'
  exact (node_repr_injective h ends ends' n m hc hc'
    (fun t hm => ⟨by have := (ht t hm).1; omega, (ht t hm).2, fin n ends he hi t hm⟩)
    (fun t hm => ⟨by have := (ht' t hm).1; omega, (ht' t hm).2, fin m ends' he' hi' t hm⟩) e).2

/-- The tree of `NOT user.a IN {1, "b"}`. -/
def reprTree : Node :=
  .mk .not ⟨.notOp, 0, .str txt!"NOT"⟩ 5 .none [
    .mk .op ⟨.op, 11, .str txt!"IN"⟩ 4 .none [
      .mk .usrAtt ⟨.usrAtt, 4, .str txt!"a"⟩ 0 .none [],
      .mk .set ⟨.lset, 14, .none⟩ 3 .none [
        .mk .intVal ⟨.int, 15, .int 1⟩ 1 (.atom (.int 1)) [],
        .mk .stringVal ⟨.string, 18, .str txt!"b"⟩ 2 (.atom (.str txt!"b")) []]]]

def reprEnds (i : Nat) : Option Token := if i = 3 then some ⟨.rset, 21, .none⟩ else none

set_option linter.style.longLine false in
theorem reprTree_text : reprTree.repr sampleTexts reprEnds =
    txt!"NotNode(Token(TokenType.NOT_OP, 0, 'NOT'), OpNode(Token(TokenType.OP, 11, 'IN'), UsrAttNode(Token(TokenType.USR_ATT, 4, 'a')), SetNode(Token(TokenType.LSET, 14), Token(TokenType.RSET, 21), [IntValNode(Token(TokenType.INT, 15, 1)), StringValNode(Token(TokenType.STRING, 18, 'b'))])))" := by
  decide +kernel

theorem reprEnds_ok : EndsOk reprEnds := by
  intro i t h
  unfold reprEnds at h
  split at h
  · simp only [Option.some.injEq] at h
    subst h
    decide
  · simp at h

/-- The literal, the attribute and the operators are kept: evaluating the text gives the tree. -/
example : evalTree sampleReader (reprTree.repr sampleTexts reprEnds) = some (made id reprEnds reprTree) := by
  refine (node_repr_exact sample_lawful reprEnds reprTree ?_ ?_).2 ?_
  · refine ⟨Or.inr (Or.inl (by decide)), ⟨Or.inr (Or.inl (by decide)), ⟨Or.inr (Or.inl (by decide)), trivial⟩, ?_, trivial⟩, trivial⟩
    exact ⟨Or.inl rfl, ⟨Or.inr (Or.inl (by decide)), trivial⟩, ⟨Or.inr (Or.inl (by decide)), trivial⟩, trivial⟩
  · decide
  · unfold Falsy; decide

/-- The node of the `0` in `user.a > 0`. -/
def zeroNode : Node := .mk .intVal ⟨.int, 9, .int 0⟩ 1 (.atom (.int 0)) []

/-- The `0` is lost: the text is that of a node whose token has no value. -/
example : zeroNode.repr sampleTexts reprEnds = txt!"IntValNode(Token(TokenType.INT, 9))" := by decide +kernel

example : evalTree sampleReader (zeroNode.repr sampleTexts reprEnds) = some (.mk .intVal ⟨.int, 9, .none⟩ none []) := by
  rw [node_repr sample_lawful reprEnds zeroNode ⟨Or.inr (Or.inl (by decide)), trivial⟩ (by decide)]
  rfl

end Verif.Props
