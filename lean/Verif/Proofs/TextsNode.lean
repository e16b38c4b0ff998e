import Verif.Proofs.Texts
/-!
# Reading back the texts of nodes
-/

namespace Verif.Proofs
open Verif Verif.Spec

mutual
theorem nodeCases {P : Node → Prop} (h : ∀ k t i r cs, (∀ c ∈ cs, P c) → P (.mk k t i r cs)) : ∀ n : Node, P n
  | .mk k t i r cs => h k t i r cs (nodesCases h cs)
theorem nodesCases {P : Node → Prop} (h : ∀ k t i r cs, (∀ c ∈ cs, P c) → P (.mk k t i r cs)) :
    ∀ cs : List Node, ∀ c ∈ cs, P c
  | [], _, hc => by simp at hc
  | n :: ns, c, hc => by
    rcases List.mem_cons.1 hc with e | hc
    · rw [e]; exact nodeCases h n
    · exact nodesCases h ns c hc
end

/-! ### The equations of `Node.repr` -/

section
variable (T : Texts) (ends : Nat → Option Token)

theorem repr_leaf {k : Kind} (hk : k ≠ .set) (t : Token) (i : Nat) (r : Res) :
    Node.repr T ends (.mk k t i r []) = k.className ++ ("(".toList ++ (t.repr T ++ ")".toList)) := by
  rw [Node.repr, Node.reprs, nodeText, if_neg hk]

theorem repr_one {k : Kind} (hk : k ≠ .set) (t : Token) (i : Nat) (r : Res) (a : Node) :
    Node.repr T ends (.mk k t i r [a]) =
      k.className ++ ("(".toList ++ (t.repr T ++ (", ".toList ++ (Node.repr T ends a ++ ")".toList)))) := by
  rw [Node.repr, Node.reprs, Node.reprs, nodeText, if_neg hk]

theorem repr_two {k : Kind} (hk : k ≠ .set) (t : Token) (i : Nat) (r : Res) (a b : Node) :
    Node.repr T ends (.mk k t i r [a, b]) =
      k.className ++ ("(".toList ++ (t.repr T ++ (", ".toList ++ (Node.repr T ends a ++ (", ".toList ++
        (Node.repr T ends b ++ ")".toList)))))) := by
  rw [Node.repr, Node.reprs, Node.reprs, Node.reprs, nodeText, if_neg hk]

theorem repr_many {k : Kind} (hk : k ≠ .set) (t : Token) (i : Nat) (r : Res) (a b c : Node) (cs : List Node) :
    Node.repr T ends (.mk k t i r (a :: b :: c :: cs)) =
      k.className ++ ("(".toList ++ (t.repr T ++ (",[".toList ++ (joinComma (Node.reprs T ends (a :: b :: c :: cs)) ++
        "])".toList)))) := by
  rw [Node.repr, Node.reprs, Node.reprs, Node.reprs]
  unfold nodeText
  rw [if_neg hk]

theorem repr_set (t : Token) (i : Nat) (r : Res) (cs : List Node) :
    Node.repr T ends (.mk .set t i r cs) =
      Kind.className .set ++ ("(".toList ++ (t.repr T ++ (", ".toList ++ (endRepr T (ends i) ++ (", [".toList ++
        (joinComma (Node.reprs T ends cs) ++ "])".toList)))))) := by
  rw [Node.repr]
  unfold nodeText
  rw [if_pos rfl]

/-! ### Parts -/

theorem readName_class (k : Kind) (r : Str) : readName classNames (k.className ++ '(' :: r) = some (k, '(' :: r) := by
  have hs : ∀ c ∈ k.className, nameChar c = true := by
    have : ∀ k : Kind, k.className.all nameChar = true := by intro k; cases k <;> decide +kernel
    exact List.all_eq_true.1 (this k)
  unfold readName
  rw [(takeWhile_stop hs (by decide)).1, (takeWhile_stop hs (by decide)).2]
  have : classNames.find? (fun e => e.1.toList == k.className) = some (String.ofList k.className, k) := by
    cases k <;> decide +kernel
  rw [this]
  rfl

theorem repr_head (n : Node) : ∃ c s, n.repr T ends = c :: s ∧ nameChar c = true := by
  obtain ⟨k, t, i, r, cs⟩ := n
  have hk : ∀ k : Kind, ∃ c s, k.className = c :: s ∧ nameChar c = true := by
    intro k
    cases k <;> exact ⟨_, _, rfl, by decide⟩
  have main : ∀ s : Str, ∃ c s', k.className ++ s = c :: s' ∧ nameChar c = true := by
    intro s
    obtain ⟨c, s', e, hc⟩ := hk k
    exact ⟨c, s' ++ s, by rw [e]; rfl, hc⟩
  by_cases h : k = .set
  · subst h
    rw [repr_set]
    exact main _
  · match cs with
    | [] => rw [repr_leaf T ends h]; exact main _
    | [a] => rw [repr_one T ends h]; exact main _
    | [a, b] => rw [repr_two T ends h]; exact main _
    | a :: b :: c :: cs => rw [repr_many T ends h]; exact main _

theorem open_text : "(".toList = ['('] := by decide +kernel
theorem list_text : ",[".toList = [',', '['] := by decide +kernel
theorem set_text : ", [".toList = [',', ' ', '['] := by decide +kernel
theorem close_text : "])".toList = [']', ')'] := by decide +kernel
theorem bracket_text : "]".toList = [']'] := by decide +kernel

end

mutual
/-- Steps the reader needs for the text of a node. -/
def cost : Node → Nat
  | .mk _ _ _ _ cs => 3 + costs cs
/-- Companion of `cost`. -/
def costs : List Node → Nat
  | [] => 0
  | n :: ns => cost n + costs ns
end

theorem cost_pos (n : Node) : 3 ≤ cost n := by cases n; rw [cost]; omega

/-- All positions can be told from the default. -/
def Placed (ts : List Token) : Prop := ∀ t ∈ ts, -1 ≤ t.pos

section
variable {T : Texts} {R : FloatReader} (h : Lawful T R) (ends : Nat → Option Token)
include h

theorem readOptToken_repr (o : Option Token) (hp : ∀ t, o = some t → -1 ≤ t.pos) (r : Str) :
    readOptToken R (endRepr T o ++ r) = if o.any infinite then none else some (o.map blank, r) := by
  cases o with
  | none =>
    simp only [endRepr, readOptToken, expect_append]
    rfl
  | some t =>
    have h1 : expect "None".toList (t.repr T ++ r) = none := by
      have : ∃ s, t.repr T = 'T' :: s := by
        have e : "Token(TokenType.".toList = 'T' :: "oken(TokenType.".toList := by decide +kernel
        unfold Token.repr
        rw [e]
        repeat' split
        all_goals exact ⟨_, rfl⟩
      obtain ⟨s, e⟩ := this
      rw [e, none_text]
      exact expect_ne (by decide) _ _
    simp only [endRepr, readOptToken]
    rw [h1]
    simp only
    rw [readToken_repr h t (hp t rfl)]
    cases hi : infinite t <;> simp [hi]

theorem readItems_reprs (n : Node) (ns : List Node)
    (ih : ∀ c ∈ n :: ns, ∀ f r, cost c ≤ f →
      readNode R f (c.repr T ends ++ r) = if (tokensOf ends c).any infinite then none else some (made blank ends c, r))
    (f : Nat) (hf : costs (n :: ns) + 1 ≤ f) (r : Str) :
    readItems R f (joinComma (Node.reprs T ends (n :: ns)) ++ ("])".toList ++ r)) =
      if (tokensOfs ends (n :: ns)).any infinite then none else some (mades blank ends (n :: ns), ')' :: r) := by
  induction ns generalizing n f with
  | nil =>
    cases f with
    | zero => simp at hf
    | succ f =>
      rw [Node.reprs, Node.reprs, joinComma, readItems, ih n (by simp) f _ (by simp only [costs] at hf; omega)]
      cases hi : (tokensOf ends n).any infinite with
      | true => simp [tokensOfs, hi]
      | false =>
        simp only [Bool.false_eq_true, if_false, Option.bind_some, tokensOfs, List.append_nil, hi, mades]
        rw [close_text, comma_text, bracket_text]
        simp only [List.cons_append, List.nil_append]
        rw [expect_ne (by decide)]
        rfl
  | cons m ns ihl =>
    cases f with
    | zero => simp at hf
    | succ f =>
      have hm := cost_pos m
      have hn := cost_pos n
      rw [Node.reprs, Node.reprs, joinComma, ← Node.reprs, readItems, List.append_assoc, ih n (by simp) f _ (by simp only [costs] at hf; omega)]
      cases hi : (tokensOf ends n).any infinite with
      | true => simp [tokensOfs, hi]
      | false =>
        simp only [Bool.false_eq_true, if_false, Option.bind_some]
        rw [List.append_assoc, expect_append]
        simp only
        rw [ihl m (fun c hc => ih c (List.mem_cons_of_mem _ hc)) f (by simp only [costs] at hf ⊢; omega)]
        rw [show tokensOfs ends (n :: m :: ns) = tokensOf ends n ++ tokensOfs ends (m :: ns) from by rw [tokensOfs],
          List.any_append, hi, Bool.false_or]
        cases (tokensOfs ends (m :: ns)).any infinite with
        | true => rfl
        | false => simp [mades]

theorem readList_reprs (ns : List Node)
    (ih : ∀ c ∈ ns, ∀ f r, cost c ≤ f →
      readNode R f (c.repr T ends ++ r) = if (tokensOf ends c).any infinite then none else some (made blank ends c, r))
    (f : Nat) (hf : costs ns + 2 ≤ f) (r : Str) :
    readList R f (joinComma (Node.reprs T ends ns) ++ ("])".toList ++ r)) =
      if (tokensOfs ends ns).any infinite then none else some (mades blank ends ns, ')' :: r) := by
  cases f with
  | zero => omega
  | succ f =>
    cases ns with
    | nil =>
      rw [Node.reprs, joinComma, readList, close_text, bracket_text]
      rfl
    | cons n ns =>
      have h1 : expect "]".toList (joinComma (Node.reprs T ends (n :: ns)) ++ ("])".toList ++ r)) = none := by
        have : ∃ c s, joinComma (Node.reprs T ends (n :: ns)) = c :: s ∧ nameChar c = true := by
          obtain ⟨c, s, e, hc⟩ := repr_head T ends n
          cases ns with
          | nil => exact ⟨c, s, by rw [Node.reprs, Node.reprs, joinComma, e], hc⟩
          | cons m ms => exact ⟨c, _, by rw [Node.reprs, Node.reprs, joinComma, e]; rfl, hc⟩
        obtain ⟨c, s, e, hc⟩ := this
        rw [e, bracket_text]
        refine expect_ne ?_ _ _
        rintro rfl; revert hc; decide
      rw [readList, h1]
      simp only
      exact readItems_reprs h ends n ns ih f (by omega) r

theorem readNode_repr (n : Node) (hc : Callable n) (hp : Placed (tokensOf ends n)) (f : Nat) (hf : cost n ≤ f) (r : Str) :
    readNode R f (n.repr T ends ++ r) =
      if (tokensOf ends n).any infinite then none else some (made blank ends n, r) := by
  revert hc hp f r
  refine nodeCases (P := fun n => Callable n → Placed (tokensOf ends n) → ∀ f, cost n ≤ f → ∀ r,
    readNode R f (n.repr T ends ++ r) =
      if (tokensOf ends n).any infinite then none else some (made blank ends n, r)) ?_ n
  intro k t i res cs ih hc hp f hf r
  rw [cost] at hf
  obtain ⟨f, rfl⟩ : ∃ g, f = g + 1 := ⟨f - 1, by omega⟩
  rw [Callable] at hc
  rw [tokensOf] at hp ⊢
  have hpt : -1 ≤ t.pos := hp t (by simp)
  have hcall : ∀ cs : List Node, Callables cs → ∀ c ∈ cs, Callable c := by
    intro cs
    induction cs with
    | nil => intro _ c hc; simp at hc
    | cons a as iha =>
      intro hcs c hc
      rw [Callables] at hcs
      rcases List.mem_cons.1 hc with rfl | hc
      · exact hcs.1
      · exact iha hcs.2 c hc
  have hsub : ∀ cs : List Node, ∀ c ∈ cs, ∀ x ∈ tokensOf ends c, x ∈ tokensOfs ends cs := by
    intro cs
    induction cs with
    | nil => intro c hc; simp at hc
    | cons a as iha =>
      intro c hc x hx
      rw [tokensOfs, List.mem_append]
      rcases List.mem_cons.1 hc with rfl | hc
      · exact Or.inl hx
      · exact Or.inr (iha c hc x hx)
  have ih' : ∀ c ∈ cs, ∀ f r, cost c ≤ f →
      readNode R f (c.repr T ends ++ r) = if (tokensOf ends c).any infinite then none else some (made blank ends c, r) := by
    intro c hm f r hf
    refine ih c hm (hcall cs hc.2 c hm) ?_ f hf r
    intro x hx
    exact hp x (by simp [hsub cs c hm x hx])
  have hpar : ∀ s : Str, expect ")".toList (')' :: s) = some s := fun s => by
    rw [paren_text]; exact expect_append [')'] s
  have hcom : ∀ s : Str, expect ")".toList (',' :: s) = none := fun s => by
    rw [paren_text]; exact expect_ne (by decide) _ _
  have start : ∀ s : Str, readNode R (f + 1) (k.className ++ ("(".toList ++ (t.repr T ++ s))) =
      if infinite t then none else
        if k = .set then
          (expect ", ".toList s).bind fun s =>
          (readOptToken R s).bind fun ⟨e, s⟩ =>
          (expect ", [".toList s).bind fun s =>
          (readList R f s).bind fun ⟨cs, s⟩ =>
          (expect ")".toList s).bind fun s => some (.mk k (blank t) (some e) cs, s)
        else
          match expect ")".toList s with
          | some s => some (.mk k (blank t) none [], s)
          | none =>
            if maxArgs k = 0 then none
            else
              match expect ",[".toList s with
              | some s =>
                (readList R f s).bind fun ⟨cs, s⟩ =>
                (expect ")".toList s).bind fun s => some (.mk k (blank t) none cs, s)
              | none =>
                (expect ", ".toList s).bind fun s =>
                (readNode R f s).bind fun ⟨a, s⟩ =>
                match expect ")".toList s with
                | some s => some (.mk k (blank t) none [a], s)
                | none =>
                  if maxArgs k = 1 then none
                  else
                    (expect ", ".toList s).bind fun s =>
                    (readNode R f s).bind fun ⟨b, s⟩ =>
                    (expect ")".toList s).bind fun s => some (.mk k (blank t) none [a, b], s) := by
    intro s
    rw [readNode, open_text]
    simp only [List.cons_append, List.nil_append]
    rw [readName_class]
    simp only [Option.bind_some]
    rw [show ∀ x : Str, expect ['('] ('(' :: x) = some x from fun x => expect_append ['('] x]
    simp only [Option.bind_some]
    rw [readToken_repr h t hpt]
    cases infinite t with
    | true => rfl
    | false =>
      simp only [Bool.false_eq_true, if_false, Option.bind_some]
      rfl
  by_cases hk : k = .set
  · subst hk
    rw [repr_set]
    simp only [List.append_assoc]
    rw [start, made]
    simp only [if_true, List.any_cons, List.any_append]
    cases hi : infinite t with
    | true => rfl
    | false =>
      simp only [Bool.false_eq_true, if_false, Bool.false_or]
      rw [expect_append]
      simp only [Option.bind_some]
      rw [readOptToken_repr h (ends i) (fun x hx => hp x (by simp [hx]))]
      have e : (ends i).any infinite = (ends i).toList.any infinite := by cases ends i <;> simp
      rw [e]
      cases (ends i).toList.any infinite with
      | true => rfl
      | false =>
        simp only [Bool.false_eq_true, if_false, Option.bind_some, Bool.false_or]
        rw [expect_append]
        simp only [Option.bind_some]
        rw [readList_reprs h ends cs ih' f (by omega)]
        cases (tokensOfs ends cs).any infinite with
        | true => rfl
        | false =>
          simp only [Bool.false_eq_true, if_false, Option.bind_some]
          rw [hpar]
          rfl
  · have hlen : cs.length ≤ maxArgs k ∨ 2 < cs.length ∧ 0 < maxArgs k := by
      rcases hc.1 with h | h
      · exact absurd h hk
      · exact h
    rw [made]
    simp only [if_neg hk, List.nil_append, List.any_cons]
    match cs, hlen, ih', hf with
    | [], _, _, _ =>
      rw [repr_leaf T ends hk]
      simp only [List.append_assoc]
      rw [start]
      cases hi : infinite t with
      | true => rfl
      | false =>
        simp only [Bool.false_eq_true, if_false, if_neg hk, tokensOfs, List.any_nil, Bool.or_self, mades]
        rw [expect_append]
    | [a], hlen, ih', hf =>
      rw [repr_one T ends hk]
      simp only [List.append_assoc]
      rw [start]
      simp only [costs] at hf
      have h0 : maxArgs k ≠ 0 := by simp at hlen; omega
      cases hi : infinite t with
      | true => rfl
      | false =>
        simp only [Bool.false_eq_true, if_false, if_neg hk, tokensOfs, List.append_nil, mades, Bool.false_or, if_neg h0]
        rw [comma_text]
        simp only [List.cons_append, List.nil_append]
        rw [hcom, list_text]
        simp only
        rw [show ∀ x : Str, expect [',', '['] (',' :: ' ' :: x) = none from fun x => rfl]
        simp only
        rw [show ∀ x : Str, expect [',', ' '] (',' :: ' ' :: x) = some x from fun x => expect_append [',', ' '] x]
        simp only [Option.bind_some]
        rw [ih' a (by simp) f _ (by omega)]
        cases (tokensOf ends a).any infinite with
        | true => rfl
        | false =>
          simp only [Bool.false_eq_true, if_false, Option.bind_some]
          rw [expect_append]
    | [a, b], hlen, ih', hf =>
      rw [repr_two T ends hk]
      simp only [List.append_assoc]
      rw [start]
      simp only [costs] at hf
      have h0 : maxArgs k ≠ 0 := by simp at hlen; omega
      have h1 : maxArgs k ≠ 1 := by simp at hlen; omega
      cases hi : infinite t with
      | true => rfl
      | false =>
        simp only [Bool.false_eq_true, if_false, if_neg hk, tokensOfs, List.append_nil, mades, Bool.false_or, if_neg h0, if_neg h1,
          List.any_append]
        rw [comma_text]
        simp only [List.cons_append, List.nil_append]
        rw [hcom, list_text]
        simp only
        rw [show ∀ x : Str, expect [',', '['] (',' :: ' ' :: x) = none from fun x => rfl]
        simp only
        rw [show ∀ x : Str, expect [',', ' '] (',' :: ' ' :: x) = some x from fun x => expect_append [',', ' '] x]
        simp only [Option.bind_some]
        rw [ih' a (by simp) f _ (by omega)]
        cases (tokensOf ends a).any infinite with
        | true => rfl
        | false =>
          simp only [Bool.false_eq_true, if_false, Option.bind_some, Bool.false_or]
          rw [hcom]
          simp only
          rw [show ∀ x : Str, expect [',', ' '] (',' :: ' ' :: x) = some x from fun x => expect_append [',', ' '] x]
          simp only [Option.bind_some]
          rw [ih' b (by simp) f _ (by omega)]
          cases (tokensOf ends b).any infinite with
          | true => rfl
          | false =>
            simp only [Bool.false_eq_true, if_false, Option.bind_some]
            rw [expect_append]
            rfl
    | a :: b :: c :: cs, hlen, ih', hf =>
      rw [repr_many T ends hk]
      simp only [List.append_assoc]
      rw [start]
      have h0 : maxArgs k ≠ 0 := by simp at hlen; omega
      cases hi : infinite t with
      | true => rfl
      | false =>
        simp only [Bool.false_eq_true, if_false, if_neg hk, Bool.false_or, if_neg h0]
        have e1 : ∀ x : Str, expect ")".toList (",[".toList ++ x) = none := fun x => by
          rw [list_text]; exact hcom _
        rw [e1, expect_append]
        simp only
        rw [readList_reprs h ends _ ih' f (by omega)]
        cases (tokensOfs ends (a :: b :: c :: cs)).any infinite with
        | true => rfl
        | false =>
          simp only [Bool.false_eq_true, if_false, Option.bind_some]
          rw [hpar]
          rfl

end

end Verif.Proofs
