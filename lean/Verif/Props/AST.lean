import Verif.Props.Parser
import Verif.Spec.Shape
/-!
# Node ids and equality of ASTs (C59, C60)
-/

namespace Verif.Props
open Verif Verif.Spec

/-! ### C60: `ASTNode.__eq__` -/

theorem token_eq_iff (a b : Token) : a.eq b = true ↔ a = b := by
  obtain ⟨t, p, v⟩ := a
  obtain ⟨t', p', v'⟩ := b
  simp only [Token.eq, Bool.and_eq_true, beq_iff_eq, Token.mk.injEq]
  constructor
  · rintro ⟨⟨h1, h2⟩, h3⟩; exact ⟨h1, h3, h2⟩
  · rintro ⟨h1, h3, h2⟩; exact ⟨⟨h1, h2⟩, h3⟩

mutual
theorem node_eq_tree (a b : Node) : a.eq b = true ↔ treeOf a = treeOf b := by
  match a, b with
  | .mk k t i r cs, .mk k' t' i' r' cs' =>
    simp only [Node.eq, treeOf, Tree.node.injEq]
    by_cases ht : t = t'
    · by_cases hl : cs.length = cs'.length
      · have h1 : (t.eq t' && cs.length == cs'.length) = true := by
          rw [(token_eq_iff t t').2 ht]; simp [hl]
        rw [if_pos h1, node_eqList_trees cs cs' hl]
        simp [ht]
      · have h1 : ¬ (t.eq t' && cs.length == cs'.length) = true := by simp [hl]
        rw [if_neg h1]
        have h2 : treesOf cs ≠ treesOf cs' := fun h => hl (treesOf_length cs cs' h)
        simp [h2]
    · have h1 : ¬ (t.eq t' && cs.length == cs'.length) = true := by
        have : ¬ t.eq t' = true := fun h => ht ((token_eq_iff _ _).1 h)
        simp [this]
      rw [if_neg h1]
      simp [ht]
theorem node_eqList_trees (as bs : List Node) (h : as.length = bs.length) :
    Node.eqList as bs = true ↔ treesOf as = treesOf bs := by
  match as, bs with
  | [], [] => simp [Node.eqList, treesOf]
  | [], b :: bs => simp at h
  | a :: as, [] => simp at h
  | a :: as, b :: bs =>
    simp only [Node.eqList, treesOf, List.cons.injEq]
    have ih := node_eqList_trees as bs (by simpa using h)
    by_cases hh : a.eq b = true
    · rw [if_pos hh, ih]
      simp [(node_eq_tree a b).1 hh]
    · rw [if_neg hh]
      have : ¬ treeOf a = treeOf b := fun e => hh ((node_eq_tree a b).2 e)
      simp [this]
theorem treesOf_length (as bs : List Node) (h : treesOf as = treesOf bs) : as.length = bs.length := by
  match as, bs with
  | [], [] => rfl
  | [], b :: bs => simp [treesOf] at h
  | a :: as, [] => simp [treesOf] at h
  | a :: as, b :: bs =>
    simp only [treesOf, List.cons.injEq] at h
    simp [treesOf_length as bs h.2]
end

/-- C60: `==` on ASTs holds exactly when the trees of tokens are equal; ids, results and node classes
do not matter. -/
theorem ast_eq_structural (a b : Node) : a.eq b = true ↔ treeOf a = treeOf b := node_eq_tree a b

/-- C60: it is an equivalence. -/
theorem ast_eq_equivalence : Equivalence (fun a b : Node => a.eq b = true) where
  refl a := (node_eq_tree a a).2 rfl
  symm h := (node_eq_tree _ _).2 ((node_eq_tree _ _).1 h).symm
  trans h1 h2 := (node_eq_tree _ _).2 (((node_eq_tree _ _).1 h1).trans ((node_eq_tree _ _).1 h2))

/-! ### C59: ids -/

theorem postIds_atoms (es : List Token) (k : Nat) :
    postIdsList (atomNodes es k) = List.range' k es.length := by
  induction es generalizing k with
  | nil => rfl
  | cons e es ih =>
    simp only [atomNodes, atomNode, postIdsList, postIds, ih, List.nil_append, List.length_cons,
      List.range'_succ, List.cons_append]

theorem postIds_operand (v : Operand) (k : Nat) :
    k ≤ (v.build k).2 ∧ postIds (v.build k).1 = List.range' k ((v.build k).2 - k) := by
  cases v with
  | att t => simp [Operand.build, attNode, postIds, postIdsList]
  | atom t => simp [Operand.build, atomNode, postIds, postIdsList]
  | set l es =>
    refine ⟨by simp [Operand.build]; omega, ?_⟩
    simp only [Operand.build, postIds, postIds_atoms]
    have : k + es.length + 1 - k = es.length + 1 := by omega
    rw [this, List.range'_concat]
    simp

theorem range'_glue {a b c : Nat} (h1 : a ≤ b) (h2 : b ≤ c) :
    List.range' a (b - a) ++ List.range' b (c - b) = List.range' a (c - a) := by
  have h := @List.range'_append_1 a (b - a) (c - b)
  have e1 : a + (b - a) = b := by omega
  have e2 : b - a + (c - b) = c - a := by omega
  rw [e1, e2] at h
  exact h

theorem range'_snoc {a b : Nat} (h1 : a ≤ b) :
    List.range' a (b - a) ++ [b] = List.range' a (b + 1 - a) := by
  have := range'_glue h1 (Nat.le_succ b)
  simpa using this

theorem postIds_build (U : Uni) (p : Policy) (k : Nat) :
    k ≤ (p.build U k).2 ∧ postIds (p.build U k).1 = List.range' k ((p.build U k).2 - k) := by
  induction p generalizing k with
  | cmp l o r =>
    obtain ⟨a1, a2⟩ := postIds_operand l k
    obtain ⟨b1, b2⟩ := postIds_operand r (l.build k).2
    refine ⟨by simp only [Policy.build]; omega, ?_⟩
    simp only [Policy.build, postIds, postIdsList, a2, b2, List.append_nil]
    rw [range'_glue a1 b1, range'_snoc (by omega)]
  | lit t => simp [Policy.build, postIds, postIdsList]
  | att t => simp [Policy.build, attNode, postIds, postIdsList]
  | not n p ih =>
    obtain ⟨a1, a2⟩ := ih k
    refine ⟨by simp only [Policy.build]; omega, ?_⟩
    simp only [Policy.build, postIds, postIdsList, a2, List.append_nil]
    rw [range'_snoc a1]
  | bin o p q ihp ihq =>
    obtain ⟨a1, a2⟩ := ihp k
    obtain ⟨b1, b2⟩ := ihq (p.build U k).2
    refine ⟨by simp only [Policy.build]; omega, ?_⟩
    simp only [Policy.build, postIds, postIdsList, a2, b2, List.append_nil]
    rw [range'_glue a1 b1, range'_snoc (by omega)]

/-- C59: with the process-wide counter at `k`, the nodes of a parsed AST have the ids `k, k+1, …,
k'-1` in the order of creation, and `k'` is the counter afterwards. -/
theorem parse_ids (U : Uni) (k k' : Nat) (toks : List Token) (n : Node)
    (h : parseTokens U k toks = .ok (n, k')) :
    k < k' ∧ postIds n = List.range' k (k' - k) ∧ n.id = k' - 1 := by
  obtain ⟨p, h1, h2⟩ := parse_tree U k k' toks n h
  have h3 := postIds_build U p k
  rw [h2] at h3
  obtain ⟨h4, h5⟩ := h3
  obtain ⟨kd, t, i, r, cs⟩ := n
  have hlen := congrArg List.length h5
  simp only [postIds, List.length_append, List.length_cons, List.length_nil, List.length_range'] at hlen
  have hlt : k < k' := by omega
  refine ⟨hlt, h5, ?_⟩
  have hl := congrArg List.getLast? h5
  have e : List.range' k (k' - k) = List.range' k (k' - 1 - k) ++ [k' - 1] := by
    rw [range'_snoc (by omega)]; congr 1; omega
  rw [e] at hl
  simp only [postIds, List.getLast?_append, List.getLast?_singleton, Option.some_or,
    Option.some.injEq] at hl
  exact hl

/-- Ids used by a list of ASTs parsed one after the other; failed parses may use up ids as well. -/
inductive History (U : Uni) : Nat → List Node → Nat → Prop
  | nil (k : Nat) : History U k [] k
  | parse {k k' k'' toks n ns} (h : parseTokens U k toks = .ok (n, k')) (hr : History U k' ns k'') :
      History U k (n :: ns) k''
  | other {k k' k'' ns} (h : k ≤ k') (hr : History U k' ns k'') : History U k ns k''

/-- C59: over any history of parses (and of other node creations between them), all ids of all
returned ASTs are distinct and increase in the order of creation. -/
theorem ids_increase (U : Uni) (k k' : Nat) (ns : List Node) (h : History U k ns k') :
    k ≤ k' ∧ (postIdsList ns).Pairwise (· < ·) ∧ ∀ i ∈ postIdsList ns, k ≤ i ∧ i < k' := by
  induction h with
  | nil k => simp [postIdsList]
  | @parse k k1 k2 toks n ns h hr ih =>
    obtain ⟨h1, h2, -⟩ := parse_ids U k k1 toks n h
    obtain ⟨i1, i2, i3⟩ := ih
    refine ⟨by omega, ?_, ?_⟩
    · simp only [postIdsList, List.pairwise_append]
      refine ⟨by rw [h2]; exact List.pairwise_lt_range', i2, ?_⟩
      intro a ha b hb
      rw [h2, List.mem_range'_1] at ha
      have := i3 b hb
      omega
    · intro i hi
      simp only [postIdsList, List.mem_append] at hi
      rcases hi with hi | hi
      · rw [h2, List.mem_range'_1] at hi
        omega
      · have := i3 i hi
        omega
  | other h hr ih =>
    obtain ⟨i1, i2, i3⟩ := ih
    refine ⟨by omega, i2, ?_⟩
    intro i hi
    have := i3 i hi
    omega

mutual
theorem postIds_length (n : Node) : (postIds n).length = n.calcNum := by
  match n with
  | .mk k t i r cs =>
    simp only [postIds, List.length_append, List.length_cons, List.length_nil, Node.calcNum,
      postIdsList_length cs]
    omega
theorem postIdsList_length (ns : List Node) : (postIdsList ns).length = Node.calcNumList ns := by
  match ns with
  | [] => rfl
  | n :: ns =>
    simp only [postIdsList, List.length_append, Node.calcNumList, postIds_length n,
      postIdsList_length ns]
end

/-- C59: a parse uses up exactly as many ids as the AST has nodes (`calc_num_nodes`). -/
theorem parse_num_nodes (U : Uni) (k k' : Nat) (toks : List Token) (n : Node)
    (h : parseTokens U k toks = .ok (n, k')) : k' = k + n.calcNum := by
  obtain ⟨h1, h2, -⟩ := parse_ids U k k' toks n h
  rw [← postIds_length, h2, List.length_range']
  omega

/-- C60 for users: parsing the same tokens twice, at whatever counter values, gives ASTs that are
`==`, and the ids differ. -/
theorem parse_same_eq (U : Uni) (k k' j j' : Nat) (toks : List Token) (n m : Node)
    (h : parseTokens U k toks = .ok (n, k')) (h' : parseTokens U j toks = .ok (m, j')) :
    n.eq m = true := by
  have e : ∀ (p : Policy) k j, treeOf (p.build U k).1 = treeOf (p.build U j).1 := by
    have ea : ∀ (es : List Token) k j, treesOf (atomNodes es k) = treesOf (atomNodes es j) := by
      intro es
      induction es with
      | nil => intro k j; rfl
      | cons e es ih =>
        intro k j
        simp only [atomNodes, atomNode, treesOf, treeOf, ih (k + 1) (j + 1)]
    have eo : ∀ (v : Operand) k j, treeOf (v.build k).1 = treeOf (v.build j).1 := by
      intro v k j
      cases v with
      | att t => rfl
      | atom t => rfl
      | set l es => simp only [Operand.build, treeOf, ea es k j]
    intro p
    induction p with
    | cmp l o r =>
      intro k j
      simp only [Policy.build, treeOf, treesOf]
      rw [eo l k j, eo r _ (l.build j).2]
    | lit t => intro k j; rfl
    | att t => intro k j; rfl
    | not n p ih => intro k j; simp only [Policy.build, treeOf, treesOf]; rw [ih k j]
    | bin o p q ihp ihq =>
      intro k j
      simp only [Policy.build, treeOf, treesOf]
      rw [ihp k j, ihq _ (p.build U j).2]
  obtain ⟨b, ts, e1, rest, p, h1, h2, h3, h4, h5⟩ := (parse_refines_grammar U k k' toks n).1 h
  have h6 := (parse_refines_grammar U j (p.build U j).2 toks (p.build U j).1).2
    ⟨b, ts, e1, rest, p, h1, h2, h3, h4, rfl⟩
  rw [h'] at h6
  simp only [Except.ok.injEq, Prod.mk.injEq] at h6
  rw [node_eq_tree, h6.1, ← e p k j, h5]

/-- Two parses in one process: the ids are 0–2 and 3–5, and the ASTs are equal. -/
example : ∃ n m, parseText asciiUni 0 "user.a > 2".toList = .ok (n, 3) ∧
    parseText asciiUni 3 "user.a > 2".toList = .ok (m, 6) ∧ n ≠ m ∧ n.eq m = true ∧
    postIds n = [0, 1, 2] ∧ postIds m = [3, 4, 5] :=
  ⟨.mk .op ⟨.op, 7, .str ['>']⟩ 2 .none [.mk .usrAtt ⟨.usrAtt, 0, .str ['a']⟩ 0 .none [],
      .mk .intVal ⟨.int, 9, .int 2⟩ 1 (.atom (.int 2)) []],
   .mk .op ⟨.op, 7, .str ['>']⟩ 5 .none [.mk .usrAtt ⟨.usrAtt, 0, .str ['a']⟩ 3 .none [],
      .mk .intVal ⟨.int, 9, .int 2⟩ 4 (.atom (.int 2)) []],
   by decide +kernel, by decide +kernel, by decide +kernel, by decide +kernel, rfl, rfl⟩

/-- Position, value and number of children matter. -/
example : (Node.mk .op ⟨.op, 7, .str ['>']⟩ 0 .none []).eq (.mk .op ⟨.op, 8, .str ['>']⟩ 0 .none [])
    = false := by decide

end Verif.Props
