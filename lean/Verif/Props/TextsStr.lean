import Verif.Props.Texts
import Verif.Spec.Outline
/-!
# C119, C120: `str` of trees, tokens and symbol tables
-/

namespace Verif.Props
open Verif Verif.Spec Verif.Proofs

/-! ### Rows -/

/-- A row of `str(ast)`: indentation, token type, token value and text of the result. -/
structure Row where
  indent : Nat
  type : TokenType
  value : TVal
  result : Str

/-- The text of a row. -/
def Row.text (T : Texts) (x : Row) : Str :=
  List.replicate x.indent ' ' ++
    (x.type.name ++ (": ".toList ++ (x.value.repr T ++ (" -> ".toList ++ (x.result ++ "\n".toList)))))

theorem spaces_stop {i j : Nat} {a b : Str} (ha : ∀ c, a.head? = some c → c ≠ ' ') (hb : ∀ c, b.head? = some c → c ≠ ' ')
    (h : List.replicate i ' ' ++ a = List.replicate j ' ' ++ b) : i = j ∧ a = b := by
  induction i generalizing j with
  | zero =>
    cases j with
    | zero => exact ⟨rfl, h⟩
    | succ j =>
      rw [List.replicate_succ] at h
      simp only [List.replicate_zero, List.nil_append] at h
      exact absurd rfl (ha ' ' (by rw [h]; rfl))
  | succ i ih =>
    cases j with
    | zero =>
      rw [List.replicate_succ] at h
      simp only [List.replicate_zero, List.nil_append] at h
      exact absurd rfl (hb ' ' (by rw [← h]; rfl))
    | succ j =>
      rw [List.replicate_succ, List.replicate_succ, List.cons_append, List.cons_append, List.cons.injEq] at h
      obtain ⟨rfl, h2⟩ := ih h.2
      exact ⟨rfl, h2⟩

theorem name_head (ty : TokenType) (r : Str) : ∀ c, (ty.name ++ r).head? = some c → c ≠ ' ' := by
  have : ∀ ty : TokenType, ty.name.head?.isSome = true ∧ ty.name.head? ≠ some ' ' := by
    intro ty; cases ty <;> decide +kernel
  obtain ⟨h1, h2⟩ := this ty
  intro c hc
  cases hn : ty.name with
  | nil => rw [hn] at h1; simp at h1
  | cons x xs =>
    rw [hn] at hc h2
    simp only [List.cons_append, List.head?_cons, Option.some.injEq] at hc
    subst hc
    rintro rfl
    exact h2 rfl

/-- The text of a value before a space determines the value. -/
theorem repr_space {T : Texts} {R : FloatReader} (h : Lawful T R) {v w : TVal} {a b : Str} (d : Char) (hd : numChar d = false)
    (e : v.repr T ++ d :: a = w.repr T ++ d :: b) : v = w ∧ a = b := by
  have h1 := readLit_repr h v (d := d) (r := a) hd
  have h2 := readLit_repr h w (d := d) (r := b) hd
  rw [e, h2] at h1
  cases hv : TInf v with
  | false =>
    cases hw : TInf w with
    | false =>
      rw [hv, hw] at h1
      simp only [Bool.false_eq_true, if_false, Option.some.injEq, Prod.mk.injEq, List.cons.injEq, true_and] at h1
      exact ⟨h1.1.symm, h1.2.symm⟩
    | true => rw [hv, hw] at h1; simp at h1
  | true =>
    cases hw : TInf w with
    | false => rw [hv, hw] at h1; simp at h1
    | true =>
      match v, w, hv, hw with
      | .flt (.inf s), .flt (.inf s'), _, _ =>
        cases s <;> cases s' <;> simp only [TVal.repr, fltText] at e
        · exact ⟨rfl, by simpa using e⟩
        · exact absurd (congrArg List.head? e) (by simp)
        · exact absurd (congrArg List.head? e) (by simp)
        · exact ⟨rfl, by simpa using e⟩

theorem row_text {T : Texts} {R : FloatReader} (h : Lawful T R) {x y : Row} (hx : '\n' ∉ x.result) (hy : '\n' ∉ y.result)
    {a b : Str} (e : x.text T ++ a = y.text T ++ b) : x = y ∧ a = b := by
  obtain ⟨i, t, v, s⟩ := x
  obtain ⟨j, u, w, r⟩ := y
  simp only [Row.text, List.append_assoc] at e hx hy
  obtain ⟨rfl, e'⟩ := spaces_stop (name_head _ _) (name_head _ _) e
  clear e
  have c : ": ".toList = [':', ' '] := by decide
  have c2 : " -> ".toList = [' ', '-', '>', ' '] := by decide
  have c3 : "\n".toList = ['\n'] := by decide
  rw [c, c2, c3] at e'
  simp only [List.cons_append, List.nil_append] at e'
  have h1 := readName_type t ':' (' ' :: (v.repr T ++ ' ' :: '-' :: '>' :: ' ' :: (s ++ '\n' :: a))) (Or.inr (Or.inr rfl))
  rw [e', readName_type u ':' _ (Or.inr (Or.inr rfl))] at h1
  simp only [Option.some.injEq, Prod.mk.injEq, List.cons.injEq, true_and] at h1
  obtain ⟨rfl, h2⟩ := h1
  obtain ⟨rfl, h3⟩ := repr_space h ' ' (by decide) h2
  simp only [List.cons.injEq, true_and] at h3
  have ps : ∀ c ∈ s, decide (c ≠ '\n') = true := fun c hc => by
    rw [decide_eq_true_eq]; rintro rfl; exact hx hc
  have pr : ∀ c ∈ r, decide (c ≠ '\n') = true := fun c hc => by
    rw [decide_eq_true_eq]; rintro rfl; exact hy hc
  have k1 := takeWhile_stop (d := '\n') (r := a) ps (by decide)
  have k2 := takeWhile_stop (d := '\n') (r := b) pr (by decide)
  rw [h3] at k2
  have e1 : s = r := k1.1.symm.trans k2.1
  have e2 : '\n' :: a = '\n' :: b := k1.2.symm.trans k2.2
  exact ⟨by rw [e1], (List.cons.inj e2).2⟩

theorem rows_text {T : Texts} {R : FloatReader} (h : Lawful T R) (xs ys : List Row) (hx : ∀ x ∈ xs, '\n' ∉ x.result)
    (hy : ∀ y ∈ ys, '\n' ∉ y.result) (e : xs.flatMap (Row.text T) = ys.flatMap (Row.text T)) : xs = ys := by
  have ne : ∀ (x : Row) (a : Str), x.text T ++ a ≠ [] := by
    intro x a hh
    have c3 : "\n".toList = ['\n'] := by decide
    simp [Row.text, c3] at hh
  induction xs generalizing ys with
  | nil =>
    cases ys with
    | nil => rfl
    | cons y ys => rw [List.flatMap_cons] at e; exact absurd e.symm (ne _ _)
  | cons x xs ih =>
    cases ys with
    | nil => rw [List.flatMap_cons] at e; exact absurd e (ne _ _)
    | cons y ys =>
      rw [List.flatMap_cons, List.flatMap_cons] at e
      obtain ⟨rfl, e2⟩ := row_text h (hx x (by simp)) (hy y (by simp)) e
      rw [ih ys (fun z hz => hx z (by simp [hz])) (fun z hz => hy z (by simp [hz])) e2]

/-! ### Trees of rows -/

/-- A tree whose results have texts. -/
inductive Shown where
  | mk (type : TokenType) (value : TVal) (result : Str) (children : List Shown)

mutual
def Shown.rows (i : Nat) : Shown → List Row
  | .mk t v s cs => ⟨i, t, v, s⟩ :: Shown.rowsList (i + 3) cs
def Shown.rowsList (i : Nat) : List Shown → List Row
  | [] => []
  | x :: xs => Shown.rows i x ++ Shown.rowsList i xs
end

mutual
def Shown.outline : Shown → Outline
  | .mk t v s cs => .mk t v (.ok s) (Shown.outlineList cs)
def Shown.outlineList : List Shown → List Outline
  | [] => []
  | x :: xs => Shown.outline x :: Shown.outlineList xs
end

/-- The next row, if any, is not below `i`. -/
def Above (i : Nat) (r : List Row) : Prop := ∀ x, r.head? = some x → x.indent < i

theorem rows_head (i : Nat) (x : Shown) (r : List Row) : ∃ y, (x.rows i ++ r).head? = some y ∧ y.indent = i := by
  obtain ⟨t, v, s, cs⟩ := x
  exact ⟨⟨i, t, v, s⟩, by rw [Shown.rows]; rfl, rfl⟩

mutual
theorem rows_tree (i : Nat) (x y : Shown) (a b : List Row) (ha : Above (i + 1) a) (hb : Above (i + 1) b)
    (e : x.rows i ++ a = y.rows i ++ b) : x = y ∧ a = b := by
  obtain ⟨t, v, s, cs⟩ := x
  obtain ⟨u, w, r, ds⟩ := y
  rw [Shown.rows, Shown.rows] at e
  simp only [List.cons_append, List.cons.injEq, Row.mk.injEq, true_and] at e
  obtain ⟨⟨rfl, rfl, rfl⟩, e⟩ := e
  obtain ⟨rfl, e2⟩ := rows_trees (i + 3) cs ds a b (fun z hz => by have := ha z hz; omega)
    (fun z hz => by have := hb z hz; omega) e
  exact ⟨rfl, e2⟩
theorem rows_trees (i : Nat) (xs ys : List Shown) (a b : List Row) (ha : Above i a) (hb : Above i b)
    (e : Shown.rowsList i xs ++ a = Shown.rowsList i ys ++ b) : xs = ys ∧ a = b := by
  match xs, ys with
  | [], [] => exact ⟨rfl, by simpa [Shown.rowsList] using e⟩
  | [], y :: ys =>
    rw [Shown.rowsList, Shown.rowsList, List.nil_append, List.append_assoc] at e
    obtain ⟨z, h1, h2⟩ := rows_head i y (Shown.rowsList i ys ++ b)
    have := ha z (by rw [e]; exact h1)
    omega
  | x :: xs, [] =>
    rw [Shown.rowsList, Shown.rowsList, List.nil_append, List.append_assoc] at e
    obtain ⟨z, h1, h2⟩ := rows_head i x (Shown.rowsList i xs ++ a)
    have := hb z (by rw [← e]; exact h1)
    omega
  | x :: xs, y :: ys =>
    rw [Shown.rowsList, Shown.rowsList, List.append_assoc, List.append_assoc] at e
    have above : ∀ (zs : List Shown) (c : List Row), Above i c → Above (i + 1) (Shown.rowsList i zs ++ c) := by
      intro zs c hc z hz
      cases zs with
      | nil =>
        rw [Shown.rowsList, List.nil_append] at hz
        have := hc z hz
        omega
      | cons w ws =>
        rw [Shown.rowsList, List.append_assoc] at hz
        obtain ⟨q, h1, h2⟩ := rows_head i w (Shown.rowsList i ws ++ c)
        rw [h1] at hz
        have := Option.some.inj hz
        subst this
        omega
    obtain ⟨rfl, e2⟩ := rows_tree i x y _ _ (above xs a ha) (above ys b hb) e
    obtain ⟨rfl, e3⟩ := rows_trees i xs ys a b ha hb e2
    exact ⟨rfl, e3⟩
end

/-! ### The text of a tree is that of its rows -/

mutual
theorem print_rows (T : Texts) (H : Heap) (i : Nat) (n : Node) (s : Str) (h : n.printTree T H i = .ok s) :
    ∃ x : Shown, s = (x.rows i).flatMap (Row.text T) ∧ outline (Res.str T H) n = x.outline ∧
      ∀ y ∈ x.rows i, ∃ r ∈ results n, r.str T H = .ok y.result := by
  obtain ⟨k, t, j, r, cs⟩ := n
  rw [Node.printTree] at h
  cases hr : r.str T H with
  | error e => rw [hr] at h; simp [bind, Except.bind] at h
  | ok q =>
    rw [hr] at h
    cases hc : Node.printTrees T H (i + 3) cs with
    | error e => rw [hc] at h; simp [bind, Except.bind] at h
    | ok below =>
      rw [hc] at h
      simp only [bind, Except.bind, pure, Except.pure, Except.ok.injEq] at h
      obtain ⟨xs, h1, h2, h3⟩ := prints_rows T H (i + 3) cs below hc
      refine ⟨.mk t.type t.value q xs, ?_, ?_, ?_⟩
      · rw [Shown.rows, List.flatMap_cons, ← h, ← h1]
        rfl
      · rw [outline, Shown.outline, hr, h2]
      · intro y hy
        rw [Shown.rows] at hy
        rw [results]
        rcases List.mem_cons.1 hy with rfl | hy
        · exact ⟨r, List.mem_cons_self, hr⟩
        · obtain ⟨r', hr', hy'⟩ := h3 y hy
          exact ⟨r', List.mem_cons_of_mem _ hr', hy'⟩
theorem prints_rows (T : Texts) (H : Heap) (i : Nat) (ns : List Node) (s : Str) (h : Node.printTrees T H i ns = .ok s) :
    ∃ xs : List Shown, s = (Shown.rowsList i xs).flatMap (Row.text T) ∧ outlines (Res.str T H) ns = Shown.outlineList xs ∧
      ∀ y ∈ Shown.rowsList i xs, ∃ r ∈ resultsList ns, r.str T H = .ok y.result := by
  match ns with
  | [] =>
    rw [Node.printTrees] at h
    simp only [pure, Except.pure, Except.ok.injEq] at h
    exact ⟨[], h.symm, rfl, by intro y hy; simp [Shown.rowsList] at hy⟩
  | n :: ns =>
    rw [Node.printTrees] at h
    cases ha : Node.printTree T H i n with
    | error e => rw [ha] at h; simp [bind, Except.bind] at h
    | ok a =>
      rw [ha] at h
      cases hb : Node.printTrees T H i ns with
      | error e => rw [hb] at h; simp [bind, Except.bind] at h
      | ok b =>
        rw [hb] at h
        simp only [bind, Except.bind, pure, Except.pure, Except.ok.injEq] at h
        obtain ⟨x, h1, h2, h3⟩ := print_rows T H i n a ha
        obtain ⟨xs, g1, g2, g3⟩ := prints_rows T H i ns b hb
        refine ⟨x :: xs, ?_, ?_, ?_⟩
        · rw [Shown.rowsList, List.flatMap_append, ← h, ← h1, ← g1]
        · rw [outlines, Shown.outlineList, h2, g2]
        · intro y hy
          rw [Shown.rowsList] at hy
          rw [resultsList]
          rcases List.mem_append.1 hy with hy | hy
          · obtain ⟨r, hr, hy⟩ := h3 y hy
            exact ⟨r, List.mem_append_left _ hr, hy⟩
          · obtain ⟨r, hr, hy⟩ := g3 y hy
            exact ⟨r, List.mem_append_right _ hr, hy⟩
end

mutual
theorem print_congr (T : Texts) (H H' : Heap) (i : Nat) (n m : Node)
    (h : outline (Res.str T H) n = outline (Res.str T H') m) : n.printTree T H i = m.printTree T H' i := by
  obtain ⟨k, t, j, r, cs⟩ := n
  obtain ⟨k', t', j', r', cs'⟩ := m
  rw [outline, outline] at h
  simp only [Outline.mk.injEq] at h
  rw [Node.printTree, Node.printTree, h.1, h.2.1, h.2.2.1, prints_congr T H H' (i + 3) cs cs' h.2.2.2]
theorem prints_congr (T : Texts) (H H' : Heap) (i : Nat) (ns ms : List Node)
    (h : outlines (Res.str T H) ns = outlines (Res.str T H') ms) : Node.printTrees T H i ns = Node.printTrees T H' i ms := by
  match ns, ms with
  | [], [] => rfl
  | [], _ :: _ => simp [outlines] at h
  | _ :: _, [] => simp [outlines] at h
  | n :: ns, m :: ms =>
    rw [outlines, outlines, List.cons.injEq] at h
    rw [Node.printTrees, Node.printTrees, print_congr T H H' i n m h.1, prints_congr T H H' i ns ms h.2]
end

/-- **C119**: if the texts of results contain no line breaks, `str(ast)` shows exactly the shape of the tree, the types and values of
the tokens and the texts of the results. -/
theorem tree_str_same {T : Texts} {R : FloatReader} (h : Lawful T R) (H H' : Heap) (n m : Node) (s s' : Str)
    (hn : n.str T H = .ok s) (hm : m.str T H' = .ok s')
    (ln : ∀ r ∈ results n, ∀ q, r.str T H = .ok q → '\n' ∉ q) (lm : ∀ r ∈ results m, ∀ q, r.str T H' = .ok q → '\n' ∉ q) :
    s = s' ↔ outline (Res.str T H) n = outline (Res.str T H') m := by
  constructor
  · rintro rfl
    obtain ⟨x, h1, h2, h3⟩ := print_rows T H 0 n s hn
    obtain ⟨y, g1, g2, g3⟩ := print_rows T H' 0 m s hm
    have := rows_text h (x.rows 0) (y.rows 0)
      (fun z hz => by obtain ⟨r, hr, e⟩ := h3 z hz; exact ln r hr _ e)
      (fun z hz => by obtain ⟨r, hr, e⟩ := g3 z hz; exact lm r hr _ e) (h1.symm.trans g1)
    have := (rows_tree 0 x y [] [] (by intro z hz; simp at hz) (by intro z hz; simp at hz) (by rw [this])).1
    rw [h2, g2, this]
  · intro e
    have := print_congr T H H' 0 n m e
    unfold Node.str at hn hm
    rw [hn, hm] at this
    exact Except.ok.inj this

theorem res_str (T : Texts) (H : Heap) (r : Res) :
    (r.str T H = .error .attributeError ∧ ∃ i, r = .sym i ∧ (H i).type = .pyNone) ∨
    ((∃ s, r.str T H = .ok s) ∧ ∀ i, r = .sym i → (H i).type ≠ .pyNone) := by
  cases r with
  | sym i =>
    simp only [Res.str, Symbol.str]
    cases h : (H i).type with
    | pyNone => exact Or.inl ⟨rfl, i, rfl, h⟩
    | _ =>
      refine Or.inr ⟨⟨_, rfl⟩, ?_⟩
      intro j hj
      cases hj
      rw [h]
      decide
  | _ => exact Or.inr ⟨⟨_, rfl⟩, by intro i hi; cases hi⟩

mutual
theorem print_error (T : Texts) (H : Heap) (i : Nat) (n : Node) :
    (n.printTree T H i = .error .attributeError ∧ ∃ r ∈ results n, ∃ j, r = .sym j ∧ (H j).type = .pyNone) ∨
    ((∃ s, n.printTree T H i = .ok s) ∧ ∀ r ∈ results n, ∀ j, r = .sym j → (H j).type ≠ .pyNone) := by
  obtain ⟨k, t, j, r, cs⟩ := n
  rw [Node.printTree, results]
  rcases res_str T H r with ⟨h1, h2⟩ | ⟨⟨q, h1⟩, h2⟩
  · exact Or.inl ⟨by rw [h1]; rfl, r, List.mem_cons_self, h2⟩
  · rw [h1]
    rcases prints_error T H (i + 3) cs with ⟨g1, r', hr', g2⟩ | ⟨⟨q', g1⟩, g2⟩
    · exact Or.inl ⟨by rw [g1]; rfl, r', List.mem_cons_of_mem _ hr', g2⟩
    · refine Or.inr ⟨⟨_, by rw [g1]; rfl⟩, ?_⟩
      intro r' hr'
      rcases List.mem_cons.1 hr' with rfl | hr'
      · exact h2
      · exact g2 r' hr'
theorem prints_error (T : Texts) (H : Heap) (i : Nat) (ns : List Node) :
    (Node.printTrees T H i ns = .error .attributeError ∧ ∃ r ∈ resultsList ns, ∃ j, r = .sym j ∧ (H j).type = .pyNone) ∨
    ((∃ s, Node.printTrees T H i ns = .ok s) ∧ ∀ r ∈ resultsList ns, ∀ j, r = .sym j → (H j).type ≠ .pyNone) := by
  match ns with
  | [] => exact Or.inr ⟨⟨_, rfl⟩, by intro r hr; simp [resultsList] at hr⟩
  | n :: ns =>
    rw [Node.printTrees, resultsList]
    rcases print_error T H i n with ⟨h1, r, hr, h2⟩ | ⟨⟨q, h1⟩, h2⟩
    · exact Or.inl ⟨by rw [h1]; rfl, r, List.mem_append_left _ hr, h2⟩
    · rw [h1]
      rcases prints_error T H i ns with ⟨g1, r', hr', g2⟩ | ⟨⟨q', g1⟩, g2⟩
      · exact Or.inl ⟨by rw [g1]; rfl, r', List.mem_append_right _ hr', g2⟩
      · refine Or.inr ⟨⟨_, by rw [g1]; rfl⟩, ?_⟩
        intro r' hr'
        rcases List.mem_append.1 hr' with hr' | hr'
        · exact h2 r' hr'
        · exact g2 r' hr'
end

/-- **C119**: it fails only with AttributeError, and exactly if a result is a symbol whose type is `None`. -/
theorem tree_str_error (T : Texts) (H : Heap) (n : Node) :
    (∀ e, n.str T H = .error e → e = .attributeError) ∧
    ((∃ s, n.str T H = .ok s) ↔ ∀ r ∈ results n, ∀ i, r = .sym i → (H i).type ≠ .pyNone) := by
  unfold Node.str
  rcases print_error T H 0 n with ⟨h1, r, hr, j, hj, h2⟩ | ⟨⟨q, h1⟩, h2⟩
  · refine ⟨?_, ?_⟩
    · intro e he
      rw [h1] at he
      exact (Except.error.inj he).symm
    · rw [h1]
      constructor
      · rintro ⟨s, hs⟩; cases hs
      · intro h; exact absurd h2 (h r hr j hj)
  · refine ⟨?_, ?_⟩
    · intro e he
      rw [h1] at he
      cases he
    · exact ⟨fun _ => h2, fun _ => ⟨q, h1⟩⟩

/-- The evaluated tree of `user.a = user.b`. -/
def strTree : Node :=
  .mk .op ⟨.op, 7, .str txt!"="⟩ 2 (.tri .false) [
    .mk .usrAtt ⟨.usrAtt, 0, .str txt!"a"⟩ 0 (.sym 0) [],
    .mk .usrAtt ⟨.usrAtt, 9, .str txt!"b"⟩ 1 (.sym 1) []]

/-- Symbols with two strings as values. -/
def strHeap (a b : Str) : Heap := fun i =>
  { name := if i = 0 then txt!"user.a" else txt!"user.b", type := .string,
    value := .sc (.atom (.str (if i = 0 then a else b))), attType := .usrAtt, attName := if i = 0 then txt!"a" else txt!"b" }

set_option linter.style.longLine false in
theorem strTree_text : strTree.str sampleTexts (strHeap txt!"1" txt!"2") =
    .ok txt!"OP: '=' -> FALSE\n   USR_ATT: 'a' -> <user.a, STRING, 1>\n   USR_ATT: 'b' -> <user.b, STRING, 2>\n" := by
  rfl

/-- **C119**: with line breaks in attribute values two different pairs of values have the same text. -/
theorem tree_str_forged :
    strTree.str sampleTexts (strHeap txt!"1>\n   USR_ATT: 'b' -> <user.b, STRING, 2" txt!"3") =
      strTree.str sampleTexts (strHeap txt!"1" txt!"2>\n   USR_ATT: 'b' -> <user.b, STRING, 3") ∧
    outline (Res.str sampleTexts (strHeap txt!"1>\n   USR_ATT: 'b' -> <user.b, STRING, 2" txt!"3")) strTree ≠
      outline (Res.str sampleTexts (strHeap txt!"1" txt!"2>\n   USR_ATT: 'b' -> <user.b, STRING, 3")) strTree := by
  refine ⟨rfl, ?_⟩
  intro h
  simp [strTree, outline, outlines, Res.str, Symbol.str, SymType.memberName, strHeap, PyVal.str, Scalar.str, Atom.text, Except.map]
    at h

/-! ### Tokens -/

theorem flt_inj {T : Texts} {R : FloatReader} (h : Lawful T R) {f g : PyFloat} (e : fltText T f = fltText T g) : f = g := by
  have := @repr_space T R h (.flt f) (.flt g) [] [] ' ' (by decide) (by simp only [TVal.repr]; rw [e])
  exact TVal.flt.inj this.1

theorem repr_inj {T : Texts} {R : FloatReader} (h : Lawful T R) {v w : TVal} (e : v.repr T = w.repr T) : v = w :=
  (@repr_space T R h v w [] [] ' ' (by decide) (by rw [e])).1

theorem text_ne {T : Texts} {R : FloatReader} (h : Lawful T R) {v : TVal} (hv : v.truthy = true) : v.text T ≠ [] := by
  cases v with
  | str s => simpa [TVal.truthy, TVal.text] using hv
  | none => simp [TVal.truthy] at hv
  | int i => exact repr_ne h (.int i)
  | flt f => exact repr_ne h (.flt f)

theorem token_str_eq {T : Texts} {R : FloatReader} (h : Lawful T R) (t : Token) :
    t.str T = if t.value.truthy = true then
      "Token(".toList ++ (t.type.name ++ ',' :: ' ' ::
        ((if t.type = .string then t.value.repr T else t.value.text T) ++ [')']))
    else "Token(".toList ++ (t.type.name ++ ')' :: []) := by
  have c : ", ".toList = [',', ' '] := by decide
  have c2 : ")".toList = [')'] := by decide
  unfold Token.str
  rw [c, c2]
  by_cases hv : t.value.truthy = true
  · rw [if_pos hv, if_pos (by simp [hv, text_ne h hv])]
    split <;> rfl
  · rw [if_neg hv, if_neg (by simp [hv])]

/-- **C120**: for tokens with values as the lexer makes them, `str(token)` shows exactly type and value. -/
theorem token_str_same {T : Texts} {R : FloatReader} (h : Lawful T R) (t t' : Token) (ht : WellTyped t) (ht' : WellTyped t') :
    t.str T = t'.str T ↔ t.type = t'.type ∧ t.value = t'.value := by
  constructor
  · intro e
    rw [token_str_eq h, token_str_eq h] at e
    have key : t.type = t'.type ∧ blank { t with pos := 0 } = blank { t' with pos := 0 } := by
      rw [blank_eq, blank_eq]
      simp only
      by_cases hv : t.value.truthy = true <;> by_cases hv' : t'.value.truthy = true
      · rw [if_pos hv, if_pos hv'] at e
        have e1 := congrArg (readName typeNames) (List.append_cancel_left e)
        rw [readName_type _ _ _ (Or.inr (Or.inl rfl)), readName_type _ _ _ (Or.inr (Or.inl rfl))] at e1
        simp only [Option.some.injEq, Prod.mk.injEq, List.cons.injEq, true_and, List.append_cancel_right_eq] at e1
        obtain ⟨e1, e2⟩ := e1
        refine ⟨e1, ?_⟩
        rw [if_pos hv, if_pos hv']
        have : t.value = t'.value := by
          rw [← e1] at e2
          have ht2 := ht'
          unfold WellTyped at ht ht2
          rw [← e1] at ht2
          cases hty : t.type with
          | string =>
            rw [if_pos hty, if_pos hty] at e2
            exact repr_inj h e2
          | _ =>
            rw [hty] at ht ht2 e2
            simp only [reduceCtorEq, if_false] at e2 ht ht2
            first
            | (rw [ht, ht2])
            | (obtain ⟨a, _, ha⟩ := ht
               obtain ⟨b, _, hb⟩ := ht2
               rw [ha, hb] at e2 ⊢
               exact congrArg TVal.str e2)
            | (obtain ⟨a, ha⟩ := ht
               obtain ⟨b, hb⟩ := ht2
               rw [ha, hb] at e2 ⊢
               exact repr_inj h e2)
        rw [e1, this]
      · rw [if_pos hv, if_neg hv'] at e
        have e1 := congrArg (readName typeNames) (List.append_cancel_left e)
        rw [readName_type _ _ _ (Or.inr (Or.inl rfl)), readName_type _ _ _ (Or.inl rfl)] at e1
        simp at e1
      · rw [if_neg hv, if_pos hv'] at e
        have e1 := congrArg (readName typeNames) (List.append_cancel_left e)
        rw [readName_type _ _ _ (Or.inl rfl), readName_type _ _ _ (Or.inr (Or.inl rfl))] at e1
        simp at e1
      · rw [if_neg hv, if_neg hv'] at e
        have e1 := congrArg (readName typeNames) (List.append_cancel_left e)
        rw [readName_type _ _ _ (Or.inl rfl), readName_type _ _ _ (Or.inl rfl)] at e1
        simp only [Option.some.injEq, Prod.mk.injEq, and_true] at e1
        rw [if_neg hv, if_neg hv', e1]
        exact ⟨rfl, rfl⟩
    have := blank_typed (t := { t with pos := 0 }) (t' := { t' with pos := 0 }) ht ht' key.2
    simp only [Token.mk.injEq] at this
    exact ⟨this.1, this.2.2⟩
  · rintro ⟨h1, h2⟩
    unfold Token.str
    rw [h1, h2]

/-- Values of other types can have the text of an attribute name. -/
example : (Token.mk .usrAtt 0 (.int 7)).str sampleTexts = (Token.mk .usrAtt 0 (.str txt!"7")).str sampleTexts := by decide +kernel

example : (Token.mk .string 3 (.str txt!"a\nb")).str sampleTexts = txt!"Token(STRING, 'a\\nb')" ∧
    (Token.mk .int 3 (.int 0)).str sampleTexts = txt!"Token(INT)" := by decide +kernel

/-- **C120**: the tokens of a text are told apart by `str` up to positions. -/
theorem lexed_str_same {T : Texts} {R : FloatReader} (h : Lawful T R) (U : Uni) (hU : U.Lawful) (text text' : Str)
    (ts ts' : List Token) (hl : lexTokens U text = .ok ts) (hl' : lexTokens U text' = .ok ts') :
    ts.map (Token.str T) = ts'.map (Token.str T) ↔
      ts.map (fun t => (t.type, t.value)) = ts'.map (fun t => (t.type, t.value)) := by
  have h1 := lexed_typed U hU text ts hl
  have h2 := lexed_typed U hU text' ts' hl'
  clear hl hl'
  induction ts generalizing ts' with
  | nil => cases ts' <;> simp
  | cons t ts ih =>
    cases ts' with
    | nil => simp
    | cons t' ts' =>
      have e2 := ih ts' (fun x hx => h1 x (List.mem_cons_of_mem _ hx)) (fun x hx => h2 x (List.mem_cons_of_mem _ hx))
      simp only [List.map_cons, List.cons.injEq, Prod.mk.injEq]
      exact and_congr (token_str_same h t t' (h1 t (by simp)).2 (h2 t' (by simp)).2) e2

/-! ### Symbol tables -/

/-- **C120**: `str(symbol_table)` works exactly for the table without symbols. -/
theorem table_str (t : SymTab) :
    (t.entries = [] → t.str = .ok "Name\t\tSymbol Type\t\tValue\t\tAtt Type\n".toList) ∧
    (t.entries ≠ [] → t.str = .error .attributeError) := by
  unfold SymTab.str
  cases t.entries with
  | nil => exact ⟨fun _ => rfl, fun h => absurd rfl h⟩
  | cons x xs => exact ⟨fun h => (by simp at h), fun _ => rfl⟩

/-! ### Results -/

/-- The names of the types of symbols, as written in `hgpl/symbols.py:7-15`. -/
def typeNames : List (SymType × String) :=
  [(.int, "INT"), (.float, "FLOAT"), (.string, "STRING"), (.bool, "BOOL"), (.unknown, "UNKNOWN"), (.set, "SET"), (.custom, "CUSTOM")]

/-- **C119**: the texts of the results of nodes: truth values by name, lists of constants in brackets, symbols by name, type and
value. -/
theorem result_texts (T : Texts) (H : Heap) :
    Res.str T H .none = .ok "None".toList ∧
    Res.str T H (.tri .true) = .ok "TRUE".toList ∧ Res.str T H (.tri .false) = .ok "FALSE".toList ∧
    Res.str T H (.tri .undef) = .ok "UNDEF".toList ∧
    (∀ l : List Atom, Res.str T H (.list l) = .ok ('[' :: (joinComma (l.map (Atom.repr T)) ++ [']']))) ∧
    (∀ s : Str, Res.str T H (.atom (.str s)) = .ok s) ∧
    (∀ a : Atom, (∀ s, a ≠ .str s) → Res.str T H (.atom a) = .ok (a.repr T)) ∧
    ∀ r, ∀ p ∈ typeNames, (H r).type = p.1 → Res.str T H (.sym r) =
      .ok ('<' :: ((H r).name ++ [',', ' '] ++ p.2.toList ++ [',', ' '] ++ (H r).value.str T ++ ['>'])) := by
  refine ⟨rfl, rfl, rfl, rfl, fun l => rfl, fun s => rfl, fun a ha => ?_, fun r p hp h => ?_⟩
  · cases a with
    | str s => exact absurd rfl (ha s)
    | _ => rfl
  · have e1 : "<".toList = ['<'] := by decide
    have e2 : ", ".toList = [',', ' '] := by decide
    have e3 : ">".toList = ['>'] := by decide
    rw [Res.str, Symbol.str, h, e1, e2, e3]
    simp only [typeNames, List.mem_cons, List.not_mem_nil, or_false] at hp
    rcases hp with rfl | rfl | rfl | rfl | rfl | rfl | rfl <;> simp [SymType.memberName, Except.map]

end Verif.Props
