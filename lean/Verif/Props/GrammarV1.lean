import Verif.Spec.GrammarV1
import Verif.Props.Laws
/-!
# The grammars of version 1 and version 2
-/

namespace Verif.Props
open Verif Spec Proofs

/-! ### Both grammars derive rows -/

theorem leaf_exp {ts : List Token} {p : Policy} (h : DLeaf ts p) : DExp false ts p := by
  cases h with
  | cmp hl ho hr => exact .cmp hl ho hr
  | lit ht => exact .lit ht
  | att ht => exact .att ht
  | notLit hn ht => exact .notLit hn ht
  | notAtt hn ht => exact .notAtt hn ht

mutual
theorem item_d1 : ∀ e : Piece, e.Ok → D1Exp e.tokens e.tree1
  | .leaf _ _, h => .leaf h
  | .group _ c _, h => .paren h.1 (row_d1 c h.2.1) h.2.2
  | .negGroup _ _ c _, h => .notParen h.1 h.2.1 (row_d1 c h.2.2.1) h.2.2.2
theorem row_d1 : ∀ c : OpRow, c.Ok → D1Policy c.tokens c.tree1
  | .one e, h => .exp (item_d1 e h)
  | .more e _ c, h => .more (item_d1 e h.1) h.2.1 (row_d1 c h.2.2)
end

mutual
theorem d1_item : ∀ {ts : List Token} {p : Policy}, D1Exp ts p → ∃ e : Piece, e.Ok ∧ e.tokens = ts ∧ e.tree1 = p
  | _, _, .leaf h => ⟨.leaf _ _, h, rfl, rfl⟩
  | _, _, .paren (l := l) (r := r) hl h hr => by
    obtain ⟨c, h1, h2, h3⟩ := d1_row h
    exact ⟨.group l c r, ⟨hl, h1, hr⟩, by rw [Piece.tokens, h2], by rw [Piece.tree1, h3]⟩
  | _, _, .notParen (n := n) (l := l) (r := r) hn hl h hr => by
    obtain ⟨c, h1, h2, h3⟩ := d1_row h
    exact ⟨.negGroup n l c r, ⟨hn, hl, h1, hr⟩, by rw [Piece.tokens, h2], by rw [Piece.tree1, h3]⟩
theorem d1_row : ∀ {ts : List Token} {p : Policy}, D1Policy ts p → ∃ c : OpRow, c.Ok ∧ c.tokens = ts ∧ c.tree1 = p
  | _, _, .exp h => by
    obtain ⟨e, h1, h2, h3⟩ := d1_item h
    exact ⟨.one e, h1, h2, h3⟩
  | _, _, .more (o := o) hp ho hq => by
    obtain ⟨e, h1, h2, h3⟩ := d1_item hp
    obtain ⟨c, h4, h5, h6⟩ := d1_row hq
    exact ⟨.more e o c, ⟨h1, ho, h4⟩, by rw [OpRow.tokens, h2, h5], by rw [OpRow.tree1, h3, h6]⟩
  | _, _, .paren (l := l) (r := r) hl h hr => by
    obtain ⟨c, h1, h2, h3⟩ := d1_row h
    exact ⟨.one (.group l c r), ⟨hl, h1, hr⟩, by rw [OpRow.tokens, Piece.tokens, h2], by rw [OpRow.tree1, Piece.tree1, h3]⟩
end

/-- C143: version 1 derives exactly the rows, with their first tree. -/
theorem v1_rows (ts : List Token) (p : Policy) : D1Policy ts p ↔ ∃ c : OpRow, c.Ok ∧ c.tokens = ts ∧ c.tree1 = p :=
  ⟨d1_row, fun ⟨c, h1, h2, h3⟩ => h2 ▸ h3 ▸ row_d1 c h1⟩

/-- What has been read of a disjunction. -/
def DoneOr (d : Option (Policy × Token)) (us : List Token) : Prop :=
  (d = none ∧ us = []) ∨ ∃ p o ts, d = some (p, o) ∧ us = ts ++ [o] ∧ OrTok o ∧ DPolicy false ts p

/-- What has been read of a conjunction. -/
def DoneAnd (t : Option (Policy × Token)) (us : List Token) : Prop :=
  (t = none ∧ us = []) ∨ ∃ p o ts, t = some (p, o) ∧ us = ts ++ [o] ∧ AndTok o ∧ DTerm false ts p

theorem attach_term {t : Option (Policy × Token)} {us ts : List Token} {p : Policy} (ht : DoneAnd t us) (h : DExp false ts p) :
    DTerm false (us ++ ts) (attach t p) := by
  rcases ht with ⟨rfl, rfl⟩ | ⟨q, o, vs, rfl, rfl, ho, hq⟩
  · exact .exp h
  · rw [List.append_assoc]; exact .and hq ho h

theorem attach_policy {d : Option (Policy × Token)} {us ts : List Token} {p : Policy} (hd : DoneOr d us) (h : DTerm false ts p) :
    DPolicy false (us ++ ts) (attach d p) := by
  rcases hd with ⟨rfl, rfl⟩ | ⟨q, o, vs, rfl, rfl, ho, hq⟩
  · exact .term h
  · rw [List.append_assoc]; exact .or hq ho h

theorem or_not_and {o : Token} (h : OrTok o) : o.value ≠ .str "AND".toList := by
  rw [h.2]; decide

mutual
theorem item_d2 : ∀ e : Piece, e.Ok → DExp false e.tokens e.tree2
  | .leaf _ _, h => leaf_exp h
  | .group _ c _, h => .paren h.1 (row_d2 c h.2.1 (us := []) (vs := []) (.inl ⟨rfl, rfl⟩) (.inl ⟨rfl, rfl⟩)) h.2.2
  | .negGroup _ _ c _, h => .notParen h.1 h.2.1 (row_d2 c h.2.2.1 (us := []) (vs := []) (.inl ⟨rfl, rfl⟩) (.inl ⟨rfl, rfl⟩)) h.2.2.2
theorem row_d2 : ∀ (c : OpRow), c.Ok → ∀ {d t : Option (Policy × Token)} {us vs : List Token}, DoneOr d us → DoneAnd t vs →
    DPolicy false (us ++ (vs ++ c.tokens)) (c.grow d t)
  | .one e, h, d, t, us, vs, hd, ht => by
    rw [OpRow.grow, OpRow.tokens]
    exact attach_policy hd (attach_term ht (item_d2 e h))
  | .more e o c, h, d, t, us, vs, hd, ht => by
    obtain ⟨h1, h2, h3⟩ := h
    have hx := attach_term ht (item_d2 e h1)
    rw [OpRow.grow, OpRow.tokens]
    rcases h2 with h2 | h2
    · rw [if_pos h2.2]
      have := row_d2 c h3 hd (t := some (attach t e.tree2, o)) (vs := (vs ++ e.tokens) ++ [o]) (.inr ⟨_, o, _, rfl, rfl, h2, hx⟩)
      simpa [List.append_assoc] using this
    · rw [if_neg (or_not_and h2)]
      have := row_d2 c h3 (d := some (attach d (attach t e.tree2), o)) (us := (us ++ (vs ++ e.tokens)) ++ [o])
        (.inr ⟨_, o, _, rfl, rfl, h2, attach_policy hd hx⟩) (t := none) (vs := []) (.inl ⟨rfl, rfl⟩)
      simpa [List.append_assoc] using this
end

/-- A row, an operator and a row. -/
def joinRow (o : Token) (b : OpRow) : OpRow → OpRow
  | .one e => .more e o b
  | .more e o' c => .more e o' (joinRow o b c)

theorem append_ok {o : Token} {b : OpRow} (ho : BoolOpTok o) (hb : b.Ok) : ∀ {a : OpRow}, a.Ok → (joinRow o b a).Ok
  | .one _, h => ⟨h, ho, hb⟩
  | .more _ _ _, h => ⟨h.1, h.2.1, append_ok ho hb h.2.2⟩

theorem append_tokens {o : Token} {b : OpRow} : ∀ {a : OpRow}, (joinRow o b a).tokens = a.tokens ++ o :: b.tokens
  | .one _ => rfl
  | .more e o' c => by rw [joinRow, OpRow.tokens, OpRow.tokens, append_tokens]; simp

theorem append_or {o : Token} {b : OpRow} (ho : OrTok o) : ∀ (a : OpRow) (d t : Option (Policy × Token)),
    (joinRow o b a).grow d t = b.grow (some (a.grow d t, o)) none
  | .one e, d, t => by simp only [joinRow, OpRow.grow, if_neg (or_not_and ho)]
  | .more e o' c, d, t => by
    rw [joinRow, OpRow.grow, OpRow.grow]
    split <;> exact append_or ho _ _ _

theorem append_and {o : Token} {e : Piece} (ho : AndTok o) : ∀ (a : OpRow) (d t : Option (Policy × Token)), false ∉ a.ops →
    (joinRow o (.one e) a).grow d t = attach d (.bin o (a.grow none t) e.tree2) ∧ a.grow d t = attach d (a.grow none t)
  | .one x, d, t, _ => by
    simp only [joinRow, OpRow.grow, if_pos ho.2]
    exact ⟨rfl, rfl⟩
  | .more x o' c, d, t, h => by
    simp only [OpRow.ops, List.mem_cons, not_or] at h
    have h1 : o'.value = .str "AND".toList := by
      by_contra hn
      exact h.1 (decide_eq_false hn).symm
    rw [joinRow, OpRow.grow, OpRow.grow, OpRow.grow, if_pos h1, if_pos h1, if_pos h1]
    exact append_and ho c d _ h.2

theorem append_ops {o : Token} {b : OpRow} : ∀ {a : OpRow}, (joinRow o b a).ops = a.ops ++ decide (o.value = .str "AND".toList) :: b.ops
  | .one _ => rfl
  | .more e o' c => by rw [joinRow, OpRow.ops, OpRow.ops, append_ops]; rfl

mutual
theorem d2_item : ∀ {ts : List Token} {p : Policy}, DExp false ts p → ∃ e : Piece, e.Ok ∧ e.tokens = ts ∧ e.tree2 = p
  | _, _, .cmp hl ho hr => ⟨.leaf _ _, .cmp hl ho hr, rfl, rfl⟩
  | _, _, .lit ht => ⟨.leaf _ _, .lit ht, rfl, rfl⟩
  | _, _, .att ht => ⟨.leaf _ _, .att ht, rfl, rfl⟩
  | _, _, .notLit hn ht => ⟨.leaf _ _, .notLit hn ht, rfl, rfl⟩
  | _, _, .notAtt hn ht => ⟨.leaf _ _, .notAtt hn ht, rfl, rfl⟩
  | _, _, .paren (l := l) (r := r) hl h hr => by
    obtain ⟨c, h1, h2, h3⟩ := d2_row h
    exact ⟨.group l c r, ⟨hl, h1, hr⟩, by rw [Piece.tokens, h2], by rw [Piece.tree2]; exact h3⟩
  | _, _, .notParen (n := n) (l := l) (r := r) hn hl h hr => by
    obtain ⟨c, h1, h2, h3⟩ := d2_row h
    exact ⟨.negGroup n l c r, ⟨hn, hl, h1, hr⟩, by rw [Piece.tokens, h2], by rw [Piece.tree2]; exact congrArg _ h3⟩
theorem d2_term : ∀ {ts : List Token} {p : Policy}, DTerm false ts p → ∃ c : OpRow, c.Ok ∧ c.tokens = ts ∧ c.tree2 = p ∧ false ∉ c.ops
  | _, _, .exp h => by
    obtain ⟨e, h1, h2, h3⟩ := d2_item h
    exact ⟨.one e, h1, h2, by rw [OpRow.tree2, OpRow.grow]; exact h3, by simp [OpRow.ops]⟩
  | _, _, .and (o := o) hp ho hq => by
    obtain ⟨c, h1, h2, h3, h4⟩ := d2_term hp
    obtain ⟨e, h5, h6, h7⟩ := d2_item hq
    refine ⟨joinRow o (.one e) c, append_ok (b := .one e) (.inl ho) h5 h1, by rw [append_tokens, h2, OpRow.tokens, h6], ?_, ?_⟩
    · rw [OpRow.tree2, (append_and ho c none none h4).1]
      rw [OpRow.tree2] at h3
      rw [h3, h7]; rfl
    · rw [append_ops, OpRow.ops]
      simp [h4, ho.2]
theorem d2_row : ∀ {ts : List Token} {p : Policy}, DPolicy false ts p → ∃ c : OpRow, c.Ok ∧ c.tokens = ts ∧ c.tree2 = p
  | _, _, .term h => by
    obtain ⟨c, h1, h2, h3, _⟩ := d2_term h
    exact ⟨c, h1, h2, h3⟩
  | _, _, .or (o := o) hp ho hq => by
    obtain ⟨c, h1, h2, h3⟩ := d2_row hp
    obtain ⟨b, h4, h5, h6, h7⟩ := d2_term hq
    refine ⟨joinRow o b c, append_ok (.inr ho) h4 h1, by rw [append_tokens, h2, h5], ?_⟩
    rw [OpRow.tree2] at h3 h6
    have := (append_and (o := ⟨.boolOp, 0, .str "AND".toList⟩) (e := .leaf [] (.lit o)) ⟨rfl, rfl⟩ b
      (some (c.grow none none, o)) none h7).2
    rw [OpRow.tree2, append_or ho, this, h3, h6]; rfl
end

/-- C143: version 2, as the code implements it, derives exactly the rows too, with their second tree. -/
theorem v2_rows (ts : List Token) (q : Policy) : DPolicy false ts q ↔ ∃ c : OpRow, c.Ok ∧ c.tokens = ts ∧ c.tree2 = q :=
  ⟨d2_row, fun ⟨c, h1, h2, h3⟩ => h2 ▸ h3 ▸ row_d2 c h1 (us := []) (vs := []) (.inl ⟨rfl, rfl⟩) (.inl ⟨rfl, rfl⟩)⟩

/-- C143: the two versions have the same policies. -/
theorem v1_texts (U : Uni) (text : Str) : (∃ p, PolicyV1 U text p) ↔ ∃ q, PolicyOf U text q := by
  constructor
  · rintro ⟨p, ts, e, h1, h2⟩
    obtain ⟨c, h3, h4, h5⟩ := (v1_rows _ _).1 h2
    exact ⟨c.tree2, ts, e, h1, (v2_rows _ _).2 ⟨c, h3, h4, rfl⟩⟩
  · rintro ⟨p, ts, e, h1, h2⟩
    obtain ⟨c, h3, h4, h5⟩ := (v2_rows _ _).1 h2
    exact ⟨c.tree1, ts, e, h1, (v1_rows _ _).2 ⟨c, h3, h4, rfl⟩⟩

/-! ### A text is written as one row -/

/-- Tokens of operands: no operators between them and no parentheses. -/
def OperandTok (t : Token) : Prop := t.type ≠ .boolOp ∧ t.type ≠ .lparn ∧ t.type ≠ .rparn

theorem att_plain {t : Token} (h : AttTok t) : OperandTok t ∧ t.type ≠ .notOp := by
  rcases h with h | h | h | h | h <;> simp [OperandTok, h]

theorem atom_plain {t : Token} (h : AtomTok false t) : OperandTok t ∧ t.type ≠ .notOp := by
  rcases h with h | h | h | h | h <;> simp_all [OperandTok]

theorem setval_plain {ts es : List Token} (h : DSetVal false ts es) : ∀ t ∈ ts, OperandTok t := by
  induction h with
  | one ht => intro t h; rw [List.mem_singleton.1 h]; exact (atom_plain ht).1
  | cons ht hc _ ih =>
    intro t h
    rcases List.mem_cons.1 h with rfl | h
    · exact (atom_plain ht).1
    · rcases List.mem_cons.1 h with rfl | h
      · simp [OperandTok, hc]
      · exact ih t h

theorem var_plain {ts : List Token} {v : Operand} (h : DVar false ts v) : (∀ t ∈ ts, OperandTok t) ∧ ∃ t r, ts = t :: r ∧ t.type ≠ .notOp := by
  cases h with
  | att ht => exact ⟨fun t h => by rw [List.mem_singleton.1 h]; exact (att_plain ht).1, _, _, rfl, (att_plain ht).2⟩
  | atom ht => exact ⟨fun t h => by rw [List.mem_singleton.1 h]; exact (atom_plain ht).1, _, _, rfl, (atom_plain ht).2⟩
  | empty hl hr =>
    refine ⟨fun t h => ?_, _, _, rfl, by simp [hl]⟩
    rcases List.mem_cons.1 h with rfl | h
    · simp [OperandTok, hl]
    · rw [List.mem_singleton.1 h]; simp [OperandTok, hr]
  | set hl h hr =>
    refine ⟨fun t ht => ?_, _, _, rfl, by simp [hl]⟩
    rcases List.mem_cons.1 ht with rfl | ht
    · simp [OperandTok, hl]
    · rcases List.mem_append.1 ht with ht | ht
      · exact setval_plain h t ht
      · rw [List.mem_singleton.1 ht]; simp [OperandTok, hr]

theorem leaf_plain {ts : List Token} {p : Policy} (h : DLeaf ts p) :
    (∀ t ∈ ts, OperandTok t) ∧ ((∃ t r, ts = t :: r ∧ t.type ≠ .notOp) ∨ ∃ n t, ts = [n, t]) := by
  cases h with
  | cmp hl ho hr =>
    obtain ⟨h1, t, r, rfl, h2⟩ := var_plain hl
    refine ⟨fun x hx => ?_, .inl ⟨t, _, rfl, h2⟩⟩
    rcases List.mem_append.1 hx with hx | hx
    · exact h1 x hx
    · rcases List.mem_cons.1 hx with rfl | hx
      · simp [OperandTok, ho]
      · exact (var_plain hr).1 x hx
  | lit ht => exact ⟨fun x hx => by rw [List.mem_singleton.1 hx]; simp [OperandTok, ht.1], .inl ⟨_, _, rfl, by simp [ht.1]⟩⟩
  | att ht => exact ⟨fun x hx => by rw [List.mem_singleton.1 hx]; exact (att_plain ht).1, .inl ⟨_, _, rfl, (att_plain ht).2⟩⟩
  | notLit hn ht =>
    refine ⟨fun x hx => ?_, .inr ⟨_, _, rfl⟩⟩
    rcases List.mem_cons.1 hx with rfl | hx
    · simp [OperandTok, hn]
    · rw [List.mem_singleton.1 hx]; simp [OperandTok, ht.1]
  | notAtt hn ht =>
    refine ⟨fun x hx => ?_, .inr ⟨_, _, rfl⟩⟩
    rcases List.mem_cons.1 hx with rfl | hx
    · simp [OperandTok, hn]
    · rw [List.mem_singleton.1 hx]; exact (att_plain ht).1

/-- Nothing follows, or something that is in no operand. -/
def Stops (us : List Token) : Prop := ∀ t r, us = t :: r → ¬ OperandTok t

theorem plain_split {us us' : List Token} (hu : Stops us) (hu' : Stops us') : ∀ {ts ts' : List Token}, (∀ t ∈ ts, OperandTok t) → (∀ t ∈ ts', OperandTok t) →
    ts ++ us = ts' ++ us' → ts = ts' ∧ us = us'
  | [], [], _, _, h => ⟨rfl, h⟩
  | [], t :: ts', _, h', h => absurd (h' t List.mem_cons_self) (hu t _ h)
  | t :: ts, [], h', _, h => absurd (h' t List.mem_cons_self) (hu' t _ h.symm)
  | t :: ts, t' :: ts', h1, h2, h => by
    simp only [List.cons_append, List.cons.injEq] at h
    obtain ⟨rfl, h⟩ := h
    obtain ⟨rfl, h3⟩ := plain_split hu hu' (fun x hx => h1 x (List.mem_cons_of_mem _ hx)) (fun x hx => h2 x (List.mem_cons_of_mem _ hx)) h
    exact ⟨rfl, h3⟩

/-- Nothing follows, or no operator. -/
def Ends (us : List Token) : Prop := ∀ t r, us = t :: r → t.type = .rparn

theorem ends_stops {us : List Token} (h : Ends us) : Stops us := fun t r e => by simp [OperandTok, h t r e]

theorem ends_rparn {r : Token} {us : List Token} (h : r.type = .rparn) : Ends (r :: us) := by
  rintro t r ⟨⟩; exact h

theorem op_stops {o : Token} {us : List Token} (h : BoolOpTok o) : Stops (o :: us) := by
  rintro t r ⟨⟩
  rcases h with h | h <;> simp [OperandTok, h.1]

/-- Parentheses do not begin like operands. -/
theorem leaf_no_group {ts us vs : List Token} {p : Policy} {l : Token} (h : DLeaf ts p) (hl : l.type = .lparn) : ts ++ us ≠ l :: vs := by
  obtain ⟨h1, h2⟩ := leaf_plain h
  intro e
  have hx : l ∈ ts := by
    rcases h2 with ⟨t, r, rfl, _⟩ | ⟨n, t, rfl⟩ <;> simp only [List.cons_append, List.cons.injEq] at e <;> simp [e.1]
  exact (h1 l hx).2.1 hl

theorem leaf_no_neg {ts us vs : List Token} {p : Policy} {n l : Token} (h : DLeaf ts p) (hn : n.type = .notOp) (hl : l.type = .lparn) :
    ts ++ us ≠ n :: l :: vs := by
  obtain ⟨h1, h2⟩ := leaf_plain h
  intro e
  rcases h2 with ⟨t, r, rfl, h2⟩ | ⟨m, t, rfl⟩
  · simp only [List.cons_append, List.cons.injEq] at e
    exact h2 (e.1 ▸ hn)
  · simp only [List.cons_append, List.cons.injEq, List.nil_append] at e
    exact (h1 t (by simp)).2.1 (e.2.1 ▸ hl)

mutual
theorem piece_unique : ∀ (e e' : Piece), e.Ok → e'.Ok → ∀ {us us' : List Token}, Stops us → Stops us' → e.tokens ++ us = e'.tokens ++ us' →
    e = e' ∧ us = us'
  | .leaf ts p, .leaf ts' p', h, h', us, us', hu, hu', he => by
    obtain ⟨h1, h2⟩ := plain_split hu hu' (leaf_plain h).1 (leaf_plain h').1 he
    subst h1
    have := grammar_unambiguous ts p p' (.term (.exp (leaf_exp h))) (.term (.exp (leaf_exp h')))
    exact ⟨by rw [this], h2⟩
  | .leaf ts p, .group l c r, h, h', us, us', _, _, he => absurd he (leaf_no_group h h'.1)
  | .leaf ts p, .negGroup n l c r, h, h', us, us', _, _, he => absurd he (leaf_no_neg h h'.1 h'.2.1)
  | .group l c r, .leaf ts p, h, h', us, us', _, _, he => absurd he.symm (leaf_no_group h' h.1)
  | .negGroup n l c r, .leaf ts p, h, h', us, us', _, _, he => absurd he.symm (leaf_no_neg h' h.1 h.2.1)
  | .group l c r, .negGroup n' l' c' r', h, h', us, us', _, _, he => by
    simp only [Piece.tokens, List.cons_append, List.cons.injEq] at he
    have := h.1
    rw [he.1, h'.1] at this
    cases this
  | .negGroup n l c r, .group l' c' r', h, h', us, us', _, _, he => by
    simp only [Piece.tokens, List.cons_append, List.cons.injEq] at he
    have := h.1
    rw [he.1, h'.1] at this
    cases this
  | .group l c r, .group l' c' r', h, h', us, us', _, _, he => by
    simp only [Piece.tokens, List.cons_append, List.cons.injEq, List.append_assoc, List.nil_append] at he
    obtain ⟨rfl, he⟩ := he
    obtain ⟨rfl, h2⟩ := row_unique c c' h.2.1 h'.2.1 (ends_rparn h.2.2) (ends_rparn h'.2.2) he
    simp only [List.cons.injEq] at h2
    exact ⟨by rw [h2.1], h2.2⟩
  | .negGroup n l c r, .negGroup n' l' c' r', h, h', us, us', _, _, he => by
    simp only [Piece.tokens, List.cons_append, List.cons.injEq, List.append_assoc, List.nil_append] at he
    obtain ⟨rfl, rfl, he⟩ := he
    obtain ⟨rfl, h2⟩ := row_unique c c' h.2.2.1 h'.2.2.1 (ends_rparn h.2.2.2) (ends_rparn h'.2.2.2) he
    simp only [List.cons.injEq] at h2
    exact ⟨by rw [h2.1], h2.2⟩
theorem row_unique : ∀ (c c' : OpRow), c.Ok → c'.Ok → ∀ {us us' : List Token}, Ends us → Ends us' → c.tokens ++ us = c'.tokens ++ us' →
    c = c' ∧ us = us'
  | .one e, .one e', h, h', us, us', hu, hu', he => by
    obtain ⟨rfl, h2⟩ := piece_unique e e' h h' (ends_stops hu) (ends_stops hu') he
    exact ⟨rfl, h2⟩
  | .one e, .more e' o' c', h, h', us, us', hu, hu', he => by
    simp only [OpRow.tokens, List.append_assoc, List.cons_append] at he
    obtain ⟨_, h2⟩ := piece_unique e e' h h'.1 (ends_stops hu) (op_stops h'.2.1) he
    have := hu _ _ h2
    rcases h'.2.1 with h | h <;> rw [h.1] at this <;> cases this
  | .more e o c, .one e', h, h', us, us', hu, hu', he => by
    simp only [OpRow.tokens, List.append_assoc, List.cons_append] at he
    obtain ⟨_, h2⟩ := piece_unique e e' h.1 h' (op_stops h.2.1) (ends_stops hu') he
    have := hu' _ _ h2.symm
    rcases h.2.1 with h | h <;> rw [h.1] at this <;> cases this
  | .more e o c, .more e' o' c', h, h', us, us', hu, hu', he => by
    simp only [OpRow.tokens, List.append_assoc, List.cons_append] at he
    obtain ⟨rfl, h2⟩ := piece_unique e e' h.1 h'.1 (op_stops h.2.1) (op_stops h'.2.1) he
    simp only [List.cons.injEq] at h2
    obtain ⟨rfl, h2⟩ := h2
    obtain ⟨rfl, h3⟩ := row_unique c c' h.2.2 h'.2.2 hu hu' h2
    exact ⟨rfl, h3⟩
end

/-- C143: tokens are the tokens of one row at most. -/
theorem row_tokens_inj {c c' : OpRow} (h : c.Ok) (h' : c'.Ok) (he : c.tokens = c'.tokens) : c = c' :=
  (row_unique c c' h h' (us := []) (us' := []) (fun t r e => by cases e) (fun t r e => by cases e) (by simpa using he)).1

/-- C143: version 1 gives a token list one syntax tree at most. -/
theorem v1_unambiguous {ts : List Token} {p q : Policy} (hp : D1Policy ts p) (hq : D1Policy ts q) : p = q := by
  obtain ⟨c, h1, h2, rfl⟩ := (v1_rows _ _).1 hp
  obtain ⟨d, h3, h4, rfl⟩ := (v1_rows _ _).1 hq
  rw [row_tokens_inj h1 h3 (h2.trans h4.symm)]

/-! ### Truth values -/

/-- Both values together, if there are two. -/
def both (f : Nat → Nat → Nat) : Option Nat → Option Nat → Option Nat
  | some a, some b => some (f a b)
  | _, _ => none

open Classical in
/-- The rank of the truth value a policy gives. -/
noncomputable def valueOf (U : Uni) (A : Atts) (level : Option Int) (p : Policy) : Option Nat :=
  if h : ∃ t, Value U A level p t then some (rank h.choose) else none

variable {U : Uni} {A : Atts} {level : Option Int}

theorem valueOf_some {p : Policy} {t : Tri} : valueOf U A level p = some (rank t) ↔ Value U A level p t := by
  unfold valueOf
  split
  · rename_i h
    simp only [Option.some.injEq]
    constructor
    · intro e; rw [← rank_inj e]; exact h.choose_spec
    · intro h'; rw [value_unique h.choose_spec h']
  · rename_i h
    simp only [reduceCtorEq, false_iff]
    exact fun h' => h ⟨t, h'⟩

theorem valueOf_cases (U : Uni) (A : Atts) (level : Option Int) (p : Policy) :
    (valueOf U A level p = none ∧ ∀ t, ¬ Value U A level p t) ∨ ∃ t, valueOf U A level p = some (rank t) ∧ Value U A level p t := by
  by_cases h : ∃ t, Value U A level p t
  · obtain ⟨t, h⟩ := h
    exact .inr ⟨t, valueOf_some.2 h, h⟩
  · left
    refine ⟨?_, fun t ht => h ⟨t, ht⟩⟩
    unfold valueOf
    rw [dif_neg h]

theorem valueOf_eq {p : Policy} {x : Option Nat} (h : ∀ t, Value U A level p t ↔ x = some (rank t)) (hx : ∀ n, x = some n → ∃ t, n = rank t) :
    valueOf U A level p = x := by
  rcases valueOf_cases U A level p with ⟨h1, h2⟩ | ⟨t, h1, h2⟩
  · rw [h1]
    cases x with
    | none => rfl
    | some n =>
      obtain ⟨t, rfl⟩ := hx n rfl
      exact absurd ((h t).2 rfl) (h2 t)
  · rw [h1, (h t).1 h2]

theorem valueOf_bin {o : Token} {p q : Policy} {f : Nat → Nat → Nat} (hk : ∀ v w, rank (kleene o v w) = f (rank v) (rank w)) :
    valueOf U A level (.bin o p q) = both f (valueOf U A level p) (valueOf U A level q) := by
  refine valueOf_eq (fun t => ?_) ?_
  · rw [value_bin hk]
    rcases valueOf_cases U A level p with ⟨h1, h2⟩ | ⟨v, h1, h2⟩
    · rw [h1]
      simp only [both, reduceCtorEq, iff_false]
      rintro ⟨v, w, h3, _⟩; exact h2 v h3
    · rcases valueOf_cases U A level q with ⟨h3, h4⟩ | ⟨w, h3, h4⟩
      · rw [h1, h3]
        simp only [both, reduceCtorEq, iff_false]
        rintro ⟨v, w, _, h5, _⟩; exact h4 w h5
      · rw [h1, h3]
        simp only [both, Option.some.injEq]
        constructor
        · rintro ⟨v', w', h5, h6, h7⟩
          rw [h7, value_unique h2 h5, value_unique h4 h6]
        · intro h; exact ⟨v, w, h2, h4, h.symm⟩
  · intro n hn
    rcases valueOf_cases U A level p with ⟨h1, h2⟩ | ⟨v, h1, h2⟩
    · rw [h1] at hn; cases hn
    · rcases valueOf_cases U A level q with ⟨h3, h4⟩ | ⟨w, h3, h4⟩
      · rw [h1, h3] at hn; cases hn
      · rw [h1, h3] at hn
        simp only [both, Option.some.injEq] at hn
        exact ⟨kleene o v w, by rw [hk, hn]⟩

theorem valueOf_and {o : Token} {p q : Policy} (ho : o.value = .str "AND".toList) :
    valueOf U A level (.bin o p q) = both min (valueOf U A level p) (valueOf U A level q) := by
  refine valueOf_bin fun v w => ?_
  unfold kleene
  rw [if_pos ho]
  cases v <;> cases w <;> decide

theorem valueOf_or {o : Token} {p q : Policy} (ho : o.value ≠ .str "AND".toList) :
    valueOf U A level (.bin o p q) = both max (valueOf U A level p) (valueOf U A level q) := by
  refine valueOf_bin fun v w => ?_
  unfold kleene
  rw [if_neg ho]
  cases v <;> cases w <;> decide

theorem valueOf_not {n : Token} {p : Policy} : valueOf U A level (.not n p) = (valueOf U A level p).map (2 - ·) := by
  refine valueOf_eq (fun t => ?_) ?_
  · rw [value_not]
    rcases valueOf_cases U A level p with ⟨h1, h2⟩ | ⟨v, h1, h2⟩
    · rw [h1]
      simp only [Option.map_none, reduceCtorEq, iff_false]
      rintro ⟨v, h3, _⟩; exact h2 v h3
    · rw [h1]
      simp only [Option.map_some, Option.some.injEq]
      constructor
      · rintro ⟨w, h3, h4⟩; rw [h4, value_unique h2 h3]
      · intro h; exact ⟨v, h2, h.symm⟩
  · intro n hn
    rcases valueOf_cases U A level p with ⟨h1, h2⟩ | ⟨v, h1, h2⟩
    · rw [h1] at hn; cases hn
    · rw [h1] at hn
      simp only [Option.map_some, Option.some.injEq] at hn
      exact ⟨kleeneNot v, by rw [← hn]; cases v <;> rfl⟩

/-! ### The value of a row -/

/-- A value behind an unfinished operation. -/
def behind (f : Nat → Nat → Nat) : Option (Option Nat) → Option Nat → Option Nat
  | none, x => x
  | some z, x => both f z x

/-- The value of the second tree behind an unfinished conjunction. -/
noncomputable def runValue (U : Uni) (A : Atts) (level : Option Int) (pre : Option (Option Nat)) : OpRow → Option Nat
  | .one e => behind min pre (valueOf U A level e.tree2)
  | .more e o c =>
    if o.value = .str "AND".toList then runValue U A level (some (behind min pre (valueOf U A level e.tree2))) c
    else both max (behind min pre (valueOf U A level e.tree2)) (runValue U A level none c)

theorem both_assoc {f : Nat → Nat → Nat} (hf : ∀ a b c, f (f a b) c = f a (f b c)) (x y z : Option Nat) :
    both f (both f x y) z = both f x (both f y z) := by
  cases x <;> cases y <;> cases z <;> simp [both, hf]

theorem value_attach_and {t : Option (Policy × Token)} {p : Policy} (ht : ∀ p o, t = some (p, o) → o.value = .str "AND".toList) :
    valueOf U A level (attach t p) = behind min (t.map fun x => valueOf U A level x.1) (valueOf U A level p) := by
  rcases t with _ | ⟨q, o⟩
  · rfl
  · exact valueOf_and (ht q o rfl)

theorem value_attach_or {t : Option (Policy × Token)} {p : Policy} (ht : ∀ p o, t = some (p, o) → o.value ≠ .str "AND".toList) :
    valueOf U A level (attach t p) = behind max (t.map fun x => valueOf U A level x.1) (valueOf U A level p) := by
  rcases t with _ | ⟨q, o⟩
  · rfl
  · exact valueOf_or (ht q o rfl)

theorem value_grow : ∀ (c : OpRow) (d t : Option (Policy × Token)), (∀ p o, d = some (p, o) → o.value ≠ .str "AND".toList) →
    (∀ p o, t = some (p, o) → o.value = .str "AND".toList) →
    valueOf U A level (c.grow d t) =
      behind max (d.map fun x => valueOf U A level x.1) (runValue U A level (t.map fun x => valueOf U A level x.1) c)
  | .one e, d, t, hd, ht => by rw [OpRow.grow, runValue, value_attach_or hd, value_attach_and ht]
  | .more e o c, d, t, hd, ht => by
    rw [OpRow.grow, runValue]
    split
    · rename_i ho
      rw [value_grow c _ _ hd (by rintro p o' ⟨⟩; exact ho), Option.map_some, value_attach_and ht]
    · rename_i ho
      rw [value_grow c _ none (by rintro p o' ⟨⟩; exact ho) (by simp), Option.map_some, value_attach_or hd, value_attach_and ht]
      cases d with
      | none => rfl
      | some d => exact both_assoc (fun a b c => Nat.max_assoc a b c) _ _ _

theorem value_tree2 (c : OpRow) : valueOf U A level c.tree2 = runValue U A level none c :=
  value_grow c none none (by simp) (by simp)

/-- Both or neither has a value, and the first is not above the second. -/
def Below : Option Nat → Option Nat → Prop
  | none, none => True
  | some a, some b => a ≤ b
  | _, _ => False

theorem below_both {f : Nat → Nat → Nat} (hf : ∀ a b c d, a ≤ b → c ≤ d → f a c ≤ f b d) {x y z w : Option Nat} (h : Below x y) (h' : Below z w) :
    Below (both f x z) (both f y w) := by
  cases x <;> cases y <;> cases z <;> cases w <;> simp_all [Below, both]

theorem below_refl (x : Option Nat) : Below x x := by cases x <;> simp [Below]

theorem below_trans {x y z : Option Nat} (h : Below x y) (h' : Below y z) : Below x z := by
  cases x <;> cases y <;> cases z <;> simp_all [Below]
  omega

theorem min_mono (a b c d : Nat) (h : a ≤ b) (h' : c ≤ d) : min a c ≤ min b d := by omega
theorem max_mono (a b c d : Nat) (h : a ≤ b) (h' : c ≤ d) : max a c ≤ max b d := by omega

/-- An unfinished conjunction with one more operand in front. -/
def front (z : Option Nat) : Option (Option Nat) → Option Nat
  | none => z
  | some w => both min z w

theorem front_behind (z x : Option Nat) (pre : Option (Option Nat)) :
    both min z (behind min pre x) = behind min (some (front z pre)) x := by
  cases pre with
  | none => rfl
  | some w => exact (both_assoc (fun a b c => Nat.min_assoc a b c) _ _ _).symm

/-- Version 2 takes an operand in front into the first conjunction only, which gives no less. -/
theorem run_front : ∀ (c : OpRow) (z : Option Nat) (pre : Option (Option Nat)),
    Below (both min z (runValue U A level pre c)) (runValue U A level (some (front z pre)) c)
  | .one e, z, pre => by
    rw [runValue, runValue, front_behind]
    exact below_refl _
  | .more e o c, z, pre => by
    rw [runValue, runValue]
    split
    · rw [← front_behind]
      exact run_front c z (some _)
    · rw [← front_behind]
      generalize behind min pre _ = x
      generalize runValue U A level none c = y
      cases x <;> cases y <;> cases z <;> simp [Below, both]
      omega

theorem run_front_eq : ∀ (c : OpRow) (z : Option Nat) (pre : Option (Option Nat)), false ∉ c.ops →
    both min z (runValue U A level pre c) = runValue U A level (some (front z pre)) c
  | .one e, z, pre, _ => by rw [runValue, runValue, front_behind]
  | .more e o c, z, pre, h => by
    simp only [OpRow.ops, List.mem_cons, not_or] at h
    have h1 : o.value = .str "AND".toList := by
      by_contra hn
      exact h.1 (decide_eq_false hn).symm
    rw [runValue, runValue, if_pos h1, if_pos h1, ← front_behind]
    exact run_front_eq c z (some _) h.2

mutual
theorem piece_calm : ∀ e : Piece, e.Calm → valueOf U A level e.tree1 = valueOf U A level e.tree2
  | .leaf _ _, _ => rfl
  | .group _ c _, h => by
    rw [Piece.tree1, Piece.tree2, row_calm c h.1 h.2]
    exact (value_tree2 c).symm
  | .negGroup n _ c _, h => by
    rw [Piece.tree1, Piece.tree2, valueOf_not, valueOf_not, row_calm c h.1 h.2]
    exact congrArg _ (value_tree2 c).symm
theorem row_calm : ∀ c : OpRow, c.Calm → Sorted c.ops → valueOf U A level c.tree1 = runValue U A level none c
  | .one e, h, _ => piece_calm e h
  | .more e o c, h, hs => by
    have ih := row_calm c h.2 hs.2
    rw [OpRow.tree1, runValue]
    split
    · rename_i ho
      rw [valueOf_and ho, ih, piece_calm e h.1]
      exact run_front_eq c _ none (hs.1 (decide_eq_true ho))
    · rename_i ho
      rw [valueOf_or ho, ih, piece_calm e h.1]
      rfl
end

mutual
theorem piece_below : ∀ e : Piece, e.Positive → Below (valueOf U A level e.tree1) (valueOf U A level e.tree2)
  | .leaf _ _, _ => below_refl _
  | .group _ c _, h => by
    have := row_below c h
    rw [← value_tree2] at this
    exact this
  | .negGroup n _ c _, h => by
    have := piece_calm (U := U) (A := A) (level := level) (.negGroup n n c n) h
    simp only [Piece.tree1, Piece.tree2] at this
    rw [Piece.tree1, Piece.tree2, this]
    exact below_refl _
theorem row_below : ∀ c : OpRow, c.Positive → Below (valueOf U A level c.tree1) (runValue U A level none c)
  | .one e, h => piece_below e h
  | .more e o c, h => by
    have ih := row_below c h.2
    have ie := piece_below e h.1
    rw [OpRow.tree1, runValue]
    split
    · rename_i ho
      rw [valueOf_and ho]
      exact below_trans (below_both min_mono ie ih) (run_front c _ none)
    · rename_i ho
      rw [valueOf_or ho]
      exact below_both max_mono ie ih
end

/-- Both or neither has a value. -/
def Like (x y : Option Nat) : Prop := x = none ↔ y = none

theorem below_like {x y : Option Nat} (h : Below x y) : Like x y := by
  cases x <;> cases y <;> simp_all [Below, Like]

theorem like_both {f : Nat → Nat → Nat} {x y z w : Option Nat} (h : Like x y) (h' : Like z w) : Like (both f x z) (both f y w) := by
  cases x <;> cases y <;> cases z <;> cases w <;> simp_all [Like, both]

mutual
theorem piece_like : ∀ e : Piece, Like (valueOf U A level e.tree1) (valueOf U A level e.tree2)
  | .leaf _ _ => Iff.rfl
  | .group _ c _ => by
    have := row_like c
    rw [← value_tree2] at this
    exact this
  | .negGroup n _ c _ => by
    have := row_like c
    rw [← value_tree2] at this
    simp only [Piece.tree1, Piece.tree2, valueOf_not, Like, Option.map_eq_none_iff]
    exact this
theorem row_like : ∀ c : OpRow, Like (valueOf U A level c.tree1) (runValue U A level none c)
  | .one e => piece_like e
  | .more e o c => by
    have ih := row_like c
    have ie := piece_like e
    rw [OpRow.tree1, runValue]
    split
    · rename_i ho
      rw [valueOf_and ho]
      exact (like_both ie ih).trans (below_like (run_front c _ none))
    · rename_i ho
      rw [valueOf_or ho]
      exact like_both ie ih
end

/-! ### Literals alone -/

theorem grow_no_lit : ∀ (c : OpRow) (d t : Option (Policy × Token)) (x : Token), (d.isSome ∨ t.isSome) → c.grow d t ≠ .lit x
  | .one e, d, t, x, h => by
    rw [OpRow.grow]
    rcases d with _ | ⟨q, o⟩
    · rcases t with _ | ⟨q, o⟩
      · simp at h
      · simp [attach]
    · simp [attach]
  | .more e o c, d, t, x, h => by
    rw [OpRow.grow]
    split
    · exact grow_no_lit c _ _ x (.inr rfl)
    · exact grow_no_lit c _ _ x (.inl rfl)

mutual
theorem piece_lit : ∀ (e : Piece) (x : Token), e.tree1 = .lit x ↔ e.tree2 = .lit x
  | .leaf _ _, _ => Iff.rfl
  | .group _ c _, x => row_lit c x
  | .negGroup n _ c _, x => by simp [Piece.tree1, Piece.tree2]
theorem row_lit : ∀ (c : OpRow) (x : Token), c.tree1 = .lit x ↔ c.grow none none = .lit x
  | .one e, x => piece_lit e x
  | .more e o c, x => by
    rw [OpRow.grow]
    split
    · exact iff_of_false (by simp [OpRow.tree1]) (grow_no_lit c none (some _) x (.inr rfl))
    · exact iff_of_false (by simp [OpRow.tree1]) (grow_no_lit c (some _) none x (.inl rfl))
end

/-! ### Texts -/

theorem written_of {text : Str} {c : OpRow} (h : WrittenAs U text c) : PolicyV1 U text c.tree1 ∧ PolicyOf U text c.tree2 := by
  obtain ⟨h1, e, h2⟩ := h
  exact ⟨⟨_, e, h2, (v1_rows _ _).2 ⟨c, h1, rfl, rfl⟩⟩, ⟨_, e, h2, (v2_rows _ _).2 ⟨c, h1, rfl, rfl⟩⟩⟩

/-- C143: every policy text is written as a row. -/
theorem written_row {text : Str} {q : Policy} (h : PolicyOf U text q) : ∃ c, WrittenAs U text c ∧ c.tree2 = q := by
  obtain ⟨ts, e, h1, h2⟩ := h
  obtain ⟨c, h3, h4, h5⟩ := (v2_rows _ _).1 h2
  exact ⟨c, ⟨h3, e, by rw [h4]; exact h1⟩, h5⟩

/-- C143: and as one row only. -/
theorem written_unique (hU : U.Lawful) {text : Str} {c c' : OpRow} (h : WrittenAs U text c) (h' : WrittenAs U text c') : c = c' := by
  obtain ⟨h1, e, h2⟩ := h
  obtain ⟨h3, e', h4⟩ := h'
  have k1 := (lexer_refines_grammar U hU text _).2 ⟨_, rfl, h2⟩
  rw [(lexer_refines_grammar U hU text _).2 ⟨_, rfl, h4⟩] at k1
  simp only [Except.ok.injEq, List.cons.injEq, true_and] at k1
  exact row_tokens_inj h1 h3 (List.append_inj_left' k1 rfl).symm

theorem gives1_value {c : OpRow} (hl : ∀ x, c.tree1 ≠ .lit x) {t : Tri} :
    Gives1 U A level c t ↔ valueOf U A level c.tree1 = some (rank t) := by
  have hs : semPolicy U A c.tree1 = sem U A c.tree1 := by
    cases h : c.tree1 with
    | lit x => exact absurd h (hl x)
    | _ => rfl
  rw [valueOf_some, Gives1, hs]
  exact outcome_truth

theorem gives1_lit {c : OpRow} {x : Token} (h : c.tree1 = .lit x) (t : Tri) : ¬ Gives1 U A level c t := by
  rw [Gives1, h]
  simp [semPolicy, Eff.fail, outcome]

theorem gives_lit (hU : U.Lawful) {E : SymEnv} (hE : SymEnv.SetsOk E) {text : Str} {x : Token} (h : PolicyOf U text (.lit x)) (t : Tri) :
    ¬ Gives U E level text t := by
  rintro ⟨k, s, hk⟩
  obtain ⟨s', r, h1, _, h2⟩ := (evaluate_refines U hU E hE level k text).2 _ h
  rw [h1] at hk
  simp only [Except.ok.injEq, Prod.mk.injEq] at hk
  rw [hk.2] at h2
  simp [semPolicy, Eff.fail, outcome, Except.map] at h2

/-- Both readings have literals alone, or their values are the values of the trees. -/
theorem written_values (hU : U.Lawful) {E : SymEnv} (hE : SymEnv.SetsOk E) {text : Str} {c : OpRow} (h : WrittenAs U text c) :
    ((∀ t, ¬ Gives1 U (attsOf U E) level c t) ∧ ∀ t, ¬ Gives U E level text t) ∨
    ∀ t, (Gives1 U (attsOf U E) level c t ↔ valueOf U (attsOf U E) level c.tree1 = some (rank t)) ∧
      (Gives U E level text t ↔ runValue U (attsOf U E) level none c = some (rank t)) := by
  by_cases hl : ∃ x, c.tree1 = .lit x
  · obtain ⟨x, hx⟩ := hl
    left
    refine ⟨gives1_lit hx, gives_lit hU hE (x := x) ?_⟩
    rw [← (row_lit c x).1 hx]
    exact (written_of h).2
  · right
    intro t
    have h1 : ∀ x, c.tree1 ≠ .lit x := fun x hx => hl ⟨x, hx⟩
    have h2 : ∀ x, c.tree2 ≠ .lit x := fun x hx => h1 x ((row_lit c x).2 hx)
    refine ⟨gives1_value h1, ?_⟩
    rw [gives_value hU hE (written_of h).2 h2, ← valueOf_some, value_tree2]

/-- C143: a text gives some truth value exactly if it gives one when it is read by version 1. -/
theorem v1_defined (hU : U.Lawful) {E : SymEnv} (hE : SymEnv.SetsOk E) {text : Str} {c : OpRow} (h : WrittenAs U text c) :
    (∃ t, Gives1 U (attsOf U E) level c t) ↔ ∃ t, Gives U E level text t := by
  rcases written_values (level := level) hU hE h with ⟨h1, h2⟩ | h1
  · exact ⟨fun ⟨t, ht⟩ => absurd ht (h1 t), fun ⟨t, ht⟩ => absurd ht (h2 t)⟩
  · have hk := row_like (U := U) (A := attsOf U E) (level := level) c
    constructor
    · rintro ⟨t, ht⟩
      rw [(h1 t).1] at ht
      rw [← value_tree2] at hk
      rcases valueOf_cases U (attsOf U E) level c.tree2 with ⟨h3, _⟩ | ⟨u, h3, _⟩
      · rw [hk.2 h3] at ht; cases ht
      · exact ⟨u, (h1 u).2.2 (by rw [← value_tree2]; exact h3)⟩
    · rintro ⟨t, ht⟩
      rw [(h1 t).2] at ht
      rcases valueOf_cases U (attsOf U E) level c.tree1 with ⟨h3, _⟩ | ⟨u, h3, _⟩
      · rw [hk.1 h3] at ht; cases ht
      · exact ⟨u, (h1 u).1.2 h3⟩

/-- C143: if nowhere an OR stands behind an AND, both versions give the same. -/
theorem v1_same (hU : U.Lawful) {E : SymEnv} (hE : SymEnv.SetsOk E) {text : Str} {c : OpRow} (h : WrittenAs U text c) (hc : c.Calm)
    (hs : Sorted c.ops) (t : Tri) : Gives1 U (attsOf U E) level c t ↔ Gives U E level text t := by
  rcases written_values (level := level) hU hE h with ⟨h1, h2⟩ | h1
  · exact iff_of_false (h1 t) (h2 t)
  · rw [(h1 t).1, (h1 t).2, row_calm c hc hs]

/-- C143: unless an OR stands behind an AND within negated parentheses, the code gives no less than version 1 would. -/
theorem v1_below (hU : U.Lawful) {E : SymEnv} (hE : SymEnv.SetsOk E) {text : Str} {c : OpRow} (h : WrittenAs U text c) (hc : c.Positive)
    (t u : Tri) (ht : Gives1 U (attsOf U E) level c t) (hu : Gives U E level text u) : rank t ≤ rank u := by
  rcases written_values (level := level) hU hE h with ⟨h1, h2⟩ | h1
  · exact absurd ht (h1 t)
  · rw [(h1 t).1] at ht
    rw [(h1 u).2] at hu
    have := row_below (U := U) (A := attsOf U E) (level := level) c hc
    rw [ht, hu] at this
    exact this

/-- C143: in particular a request that version 1 would allow is allowed. -/
theorem v1_allows (hU : U.Lawful) {E : SymEnv} (hE : SymEnv.SetsOk E) {text : Str} {c : OpRow} (h : WrittenAs U text c) (hc : c.Positive)
    (ht : Gives1 U (attsOf U E) level c .true) : Gives U E level text .true := by
  obtain ⟨u, hu⟩ := (v1_defined hU hE h).1 ⟨_, ht⟩
  have := v1_below hU hE h hc _ _ ht hu
  cases u
  · exact hu
  · simp [rank] at this
  · simp [rank] at this

/-! ### Every other order of operators makes a difference -/

/-- `TRUE` or `NOT TRUE`, each word behind a blank. -/
def flagText (b : Bool) : Str := if b then " TRUE".toList else " NOT TRUE".toList

/-- Flags with operators between them. -/
def flagsText : Bool → List (Bool × Bool) → Str
  | f, [] => flagText f
  | f, (o, g) :: l => flagText f ++ ((if o then " AND".toList else " OR".toList) ++ flagsText g l)

theorem tok_word (hU : U.Lawful) {kw : String} {ty : TokenType} {v : String} (w : Str) (hk : (kw, ty, v) ∈ keywords) (hw : Spells w kw)
    {b : Str} (hb : b = [] ∨ b.head? = some ' ') {pos : Nat} {us : List Token} (h : Tokenizes U b (pos + 1 + w.length) us) :
    Tokenizes U (' ' :: (w ++ b)) pos (⟨ty, ((pos + 1 : Nat) : Int), .str v.toList⟩ :: us) := by
  refine Tokenizes.tok [' '] w b pos ty (.str v.toList) us ?_ (lex_word hU w hk hw b hb) h
  intro c hc
  rw [List.mem_singleton.1 hc, hU.space_ascii _ (by decide)]
  decide

/-- The rank of a flag. -/
def flagRank (b : Bool) : Nat := if b then 2 else 0

/-- What version 1 makes of flags. -/
def flags1 : Bool → List (Bool × Bool) → Nat
  | f, [] => flagRank f
  | f, (o, g) :: l => if o then min (flagRank f) (flags1 g l) else max (flagRank f) (flags1 g l)

/-- What version 2 makes of flags behind a conjunction. -/
def flags2 : Nat → List (Bool × Bool) → Nat
  | z, [] => z
  | z, (o, g) :: l => if o then flags2 (min z (flagRank g)) l else max z (flags2 (flagRank g) l)

theorem flag_piece (hU : U.Lawful) (f : Bool) {b : Str} (hb : b = [] ∨ b.head? = some ' ') (pos : Nat) :
    ∃ e : Piece, ∃ n, (e.Ok ∧ e.Calm) ∧ (∀ us, Tokenizes U b n us → Tokenizes U (flagText f ++ b) pos (e.tokens ++ us)) ∧ e.tree1 = e.tree2 ∧
      ∀ A level, valueOf U A level e.tree2 = some (flagRank f) := by
  have hl : ∀ x, litTri U ⟨.bool, x, .str "TRUE".toList⟩ = .true := by
    intro x
    simp only [litTri, hU.upper_ascii "TRUE".toList (by decide)]
    decide
  have hv : ∀ (A : Atts) (level : Option Int) x, valueOf U A level (.lit ⟨.bool, x, .str "TRUE".toList⟩) = some (rank .true) := by
    intro A level x
    rw [valueOf_some]
    exact ⟨true, by rw [sem, if_pos (hl x)]; rfl, .inl rfl⟩
  cases f with
  | true =>
    exact ⟨.leaf [⟨.bool, ((pos + 1 : Nat) : Int), .str "TRUE".toList⟩] (.lit ⟨.bool, ((pos + 1 : Nat) : Int), .str "TRUE".toList⟩), _,
      ⟨.lit ⟨rfl, _, rfl⟩, trivial⟩, fun us h => tok_word hU "TRUE".toList (kw := "true") (ty := .bool) (v := "TRUE") (by decide) (by unfold Spells; decide) hb h,
      rfl, fun A level => hv A level _⟩
  | false =>
    refine ⟨.leaf [⟨.notOp, ((pos + 1 : Nat) : Int), .str "NOT".toList⟩, ⟨.bool, ((pos + 1 + "NOT".toList.length + 1 : Nat) : Int), .str "TRUE".toList⟩]
      (.not ⟨.notOp, ((pos + 1 : Nat) : Int), .str "NOT".toList⟩ (.lit ⟨.bool, ((pos + 1 + "NOT".toList.length + 1 : Nat) : Int), .str "TRUE".toList⟩)),
      pos + 1 + "NOT".toList.length + 1 + "TRUE".toList.length, ⟨.notLit rfl ⟨rfl, _, rfl⟩, trivial⟩, fun us h => ?_, rfl, fun A level => ?_⟩
    · exact tok_word hU "NOT".toList (kw := "not") (ty := .notOp) (v := "NOT") (by decide) (by unfold Spells; decide) (.inr rfl)
        (tok_word hU "TRUE".toList (kw := "true") (ty := .bool) (v := "TRUE") (by decide) (by unfold Spells; decide) hb h)
    · show valueOf U A level (.not _ (.lit _)) = _
      rw [valueOf_not, hv]
      rfl

theorem flagsText_head (f : Bool) (l : List (Bool × Bool)) : (flagsText f l).head? = some ' ' := by
  cases l with
  | nil => cases f <;> rfl
  | cons x l => cases f <;> rfl

theorem flags_row (hU : U.Lawful) : ∀ (l : List (Bool × Bool)) (f : Bool) (pos : Nat), ∃ c : OpRow, ∃ e, (c.Ok ∧ c.Calm) ∧
    Tokenizes U (flagsText f l) pos (c.tokens ++ [e]) ∧ c.ops = l.map Prod.fst ∧
    ∀ A level, valueOf U A level c.tree1 = some (flags1 f l) ∧ runValue U A level none c = some (flags2 (flagRank f) l) ∧
      ∀ z, runValue U A level (some (some z)) c = some (flags2 (min z (flagRank f)) l)
  | [], f, pos => by
    obtain ⟨x, n, h1, h2, h3, h4⟩ := flag_piece hU f (b := []) (.inl rfl) pos
    refine ⟨.one x, ⟨.«end», ((n + ([] : Str).length : Nat) : Int), .none⟩, h1, ?_, rfl, fun A level => ?_⟩
    · have := h2 _ (Tokenizes.done [] n (by simp))
      rw [List.append_nil] at this
      exact this
    · simp [OpRow.tree1, runValue, h3, h4, behind, both, flags1, flags2]
  | (o, g) :: l, f, pos => by
    obtain ⟨x, n, h1, h2, h3, h4⟩ := flag_piece hU f (b := (if o then " AND".toList else " OR".toList) ++ flagsText g l)
      (.inr (by cases o <;> rfl)) pos
    have hb : flagsText g l = [] ∨ (flagsText g l).head? = some ' ' := .inr (flagsText_head g l)
    cases o with
    | true =>
      obtain ⟨c, e, h5, h6, h7, h8⟩ := flags_row hU l g (n + 1 + "AND".toList.length)
      refine ⟨.more x ⟨.boolOp, ((n + 1 : Nat) : Int), .str "AND".toList⟩ c, e, ⟨⟨h1.1, .inl ⟨rfl, rfl⟩, h5.1⟩, h1.2, h5.2⟩, ?_, ?_, fun A level => ?_⟩
      · have := h2 _ (tok_word hU "AND".toList (kw := "and") (ty := .boolOp) (v := "AND") (by decide) (by unfold Spells; decide) hb h6)
        rw [OpRow.tokens, List.append_assoc, List.cons_append]
        exact this
      · rw [OpRow.ops, h7]; rfl
      · obtain ⟨h9, h10, h11⟩ := h8 A level
        refine ⟨?_, ?_, fun z => ?_⟩
        · rw [OpRow.tree1, valueOf_and rfl, h3, h4, h9]; rfl
        · rw [runValue, if_pos rfl, h4]
          exact h11 _
        · rw [runValue, if_pos rfl, h4]
          exact h11 _
    | false =>
      obtain ⟨c, e, h5, h6, h7, h8⟩ := flags_row hU l g (n + 1 + "OR".toList.length)
      have hn : (TVal.str "OR".toList) ≠ .str "AND".toList := by decide
      refine ⟨.more x ⟨.boolOp, ((n + 1 : Nat) : Int), .str "OR".toList⟩ c, e, ⟨⟨h1.1, .inr ⟨rfl, rfl⟩, h5.1⟩, h1.2, h5.2⟩, ?_, ?_, fun A level => ?_⟩
      · have := h2 _ (tok_word hU "OR".toList (kw := "or") (ty := .boolOp) (v := "OR") (by decide) (by unfold Spells; decide) hb h6)
        rw [OpRow.tokens, List.append_assoc, List.cons_append]
        exact this
      · rw [OpRow.ops, h7]; rfl
      · obtain ⟨h9, h10, h11⟩ := h8 A level
        refine ⟨?_, ?_, fun z => ?_⟩
        · rw [OpRow.tree1, valueOf_or hn, h3, h4, h9]; rfl
        · rw [runValue, if_neg hn, h4, h10]; rfl
        · rw [runValue, if_neg hn, h4, h10]; rfl

/-- Flags that tell the versions apart: false up to the first AND, true behind it. -/
def split : List Bool → List (Bool × Bool)
  | [] => []
  | true :: l => (true, true) :: l.map (·, true)
  | false :: l => (false, false) :: split l

theorem split_ops : ∀ l : List Bool, (split l).map Prod.fst = l
  | [] => rfl
  | true :: l => by simp [split, Function.comp_def]
  | false :: l => by simp [split, split_ops l]

theorem flags2_true : ∀ l : List Bool, flags2 2 (l.map (·, true)) = 2
  | [] => rfl
  | true :: l => flags2_true l
  | false :: l => by
    show max 2 (flags2 2 (l.map (·, true))) = 2
    rw [flags2_true l]; rfl

theorem split_values : ∀ l : List Bool, ¬ Sorted l → flags1 false (split l) = 0 ∧ flags2 0 (split l) = 2
  | [], h => absurd trivial h
  | false :: l, h => by
    have h' : ¬ Sorted l := fun hs => h ⟨by simp, hs⟩
    obtain ⟨h1, h2⟩ := split_values l h'
    refine ⟨?_, ?_⟩
    · show max 0 (flags1 false (split l)) = 0
      rw [h1]; rfl
    · show max 0 (flags2 0 (split l)) = 2
      rw [h2]; rfl
  | true :: l, h => by
    have hm : ∀ l : List Bool, ¬ Sorted l → false ∈ l := by
      intro l
      induction l with
      | nil => intro h; exact absurd trivial h
      | cons o l ih =>
        intro h
        cases o with
        | false => exact List.mem_cons_self
        | true =>
          by_contra hn
          have hn' : false ∉ l := fun hl => hn (List.mem_cons_of_mem _ hl)
          exact h ⟨fun _ => hn', by_contra fun hs => hn' (ih hs)⟩
    have hl : false ∈ l := by simpa using hm _ h
    refine ⟨?_, ?_⟩
    · show min 0 _ = 0
      exact Nat.zero_min _
    · show flags2 (min 0 2) (l.map (·, true)) = 2
      have : ∀ (l : List Bool) z, z ≤ 2 → false ∈ l → flags2 z (l.map (·, true)) = 2 := by
        intro l
        induction l with
        | nil => intro z _ h; cases h
        | cons o l ih =>
          intro z hz h
          cases o with
          | false =>
            show max z (flags2 2 (l.map (·, true))) = 2
            rw [flags2_true]; omega
          | true =>
            show flags2 (min z 2) (l.map (·, true)) = 2
            exact ih _ (by omega) (by simpa using h)
      exact this l _ (by omega) hl

/-- C143: whatever the operators, if an OR stands behind an AND there is a text with these operators that gives TRUE, but would give FALSE by
version 1, with all symbols and levels. -/
theorem v1_differs (hU : U.Lawful) (ops : List Bool) (h : ¬ Sorted ops) :
    ∃ text c, WrittenAs U text c ∧ c.ops = ops ∧ c.Calm ∧ ∀ E, SymEnv.SetsOk E → ∀ level,
      Gives1 U (attsOf U E) level c .false ∧ Gives U E level text .true := by
  obtain ⟨c, e, h1, h2, h3, h4⟩ := flags_row hU (split ops) false 0
  obtain ⟨h5, h6⟩ := split_values ops h
  have hw : WrittenAs U (flagsText false (split ops)) c := ⟨h1.1, e, h2⟩
  refine ⟨_, c, hw, by rw [h3, split_ops], h1.2, fun E hE level => ?_⟩
  obtain ⟨h7, h8, _⟩ := h4 (attsOf U E) level
  have hl : ∀ x, c.tree1 ≠ .lit x := by
    intro x hx
    cases c with
    | one x => rw [split_ops] at h3; rw [← h3] at h; exact h trivial
    | more => simp [OpRow.tree1] at hx
  rcases written_values (level := level) hU hE hw with ⟨g1, _⟩ | g
  · exact absurd ((gives1_value (t := .false) hl).2 (by rw [h7, h5]; rfl)) (g1 _)
  · exact ⟨(g .false).1.2 (by rw [h7, h5]; rfl), (g .true).2.2 (by rw [h8]; exact congrArg some h6)⟩

/-- C143: within negated parentheses it is the other way round, so that `v1_below` needs its hypothesis: then a text gives FALSE that would give
TRUE by version 1. -/
theorem v1_negated (hU : U.Lawful) (ops : List Bool) (h : ¬ Sorted ops) :
    ∃ text n l c r, WrittenAs U text (.one (.negGroup n l c r)) ∧ c.ops = ops ∧ c.Calm ∧ ∀ E, SymEnv.SetsOk E → ∀ level,
      Gives1 U (attsOf U E) level (.one (.negGroup n l c r)) .true ∧ Gives U E level text .false := by
  obtain ⟨c, e, h1, h2, h3, h4⟩ := flags_row hU (split ops) false 6
  obtain ⟨h5, h6⟩ := split_values ops h
  have t1 := tokenizes_join (c := ')') (b := []) (boundary_rparn hU) h2
    (Tokenizes.tok (U := U) [] ")".toList [] _ .rparn .none _ (by simp) (lex_rparn U _) (Tokenizes.done [] _ (by simp)))
  have t2 := Tokenizes.tok (U := U) [' '] "(".toList _ 4 .lparn .none _ (by
    intro c hc
    rw [List.mem_singleton.1 hc, hU.space_ascii _ (by decide)]
    decide) (lex_lparn U _) t1
  have t3 := tok_word hU "NOT".toList (kw := "not") (ty := .notOp) (v := "NOT") (by decide) (by unfold Spells; decide) (pos := 0) (.inr rfl) t2
  have hw : ∃ text n l r, WrittenAs U text (.one (.negGroup n l c r)) :=
    ⟨_, _, _, _, ⟨rfl, rfl, h1.1, rfl⟩, _, by
      simp only [OpRow.tokens, Piece.tokens, List.cons_append, List.append_assoc, List.nil_append]
      exact t3⟩
  obtain ⟨text, n, l, r, hw⟩ := hw
  refine ⟨text, n, l, c, r, hw, by rw [h3, split_ops], h1.2, fun E hE level => ?_⟩
  obtain ⟨h7, h8, _⟩ := h4 (attsOf U E) level
  have k1 : valueOf U (attsOf U E) level (OpRow.one (.negGroup n l c r)).tree1 = some (rank .true) := by
    rw [OpRow.tree1, Piece.tree1, valueOf_not, h7, h5]; rfl
  have k2 : runValue U (attsOf U E) level none (.one (.negGroup n l c r)) = some (rank .false) := by
    rw [runValue, Piece.tree2, valueOf_not]
    show Option.map _ (valueOf U (attsOf U E) level c.tree2) = _
    rw [value_tree2, h8]
    exact congrArg (Option.map (2 - ·) <| some ·) h6
  rcases written_values (level := level) hU hE hw with ⟨g1, _⟩ | g
  · exact absurd ((gives1_value (t := .true) (by simp [OpRow.tree1, Piece.tree1])).2 k1) (g1 _)
  · exact ⟨(g .true).1.2 k1, (g .false).2.2 k2⟩

/-! ### Examples -/

/-- The smallest mix, and a longer one that is calm. -/
example : ¬ Sorted [true, false] ∧ Sorted [false, false, true, true] := by simp [Sorted]

example : flagsText false (split [true, false]) = " NOT TRUE AND TRUE OR TRUE".toList := by decide

example (level : Option Int) : ∃ text c, WrittenAs asciiUni text c ∧ c.ops = [true, false] ∧
    Gives1 asciiUni (attsOf asciiUni (voidEnv asciiUni)) level c .false ∧ Gives asciiUni (voidEnv asciiUni) level text .true := by
  obtain ⟨text, c, h1, h2, _, h3⟩ := v1_differs asciiUni_lawful [true, false] (by simp [Sorted])
  exact ⟨text, c, h1, h2, h3 _ (voidEnv_ok _) level⟩

/-- A text that is calm and positive, and that gives a truth value. -/
example : ∃ c, WrittenAs asciiUni (flagsText false [(false, true), (true, true)]) c ∧ c.Calm ∧ Sorted c.ops ∧
    Gives asciiUni (voidEnv asciiUni) none (flagsText false [(false, true), (true, true)]) .true := by
  obtain ⟨c, e, h1, h2, h3, h4⟩ := flags_row asciiUni_lawful [(false, true), (true, true)] false 0
  have hw : WrittenAs asciiUni (flagsText false [(false, true), (true, true)]) c := ⟨h1.1, e, h2⟩
  refine ⟨c, hw, h1.2, by rw [h3]; simp [Sorted], ?_⟩
  rcases written_values (level := none) asciiUni_lawful (voidEnv_ok _) hw with ⟨g, _⟩ | g
  · refine absurd ((gives1_value (t := .true) ?_).2 ((h4 _ _).1)) (g _)
    intro x hx
    cases c with
    | one x => cases h3
    | more => simp [OpRow.tree1] at hx
  · exact (g .true).2.2 (h4 _ _).2.1

end Verif.Props
