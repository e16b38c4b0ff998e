import Verif.Model.NodeCount
import Mathlib.Tactic.Common
/-!
# The counter over parsing and decoding
-/

namespace Verif.Proofs
open Verif

/-- Tokens a node may be made of. -/
def realTok (t : Token) : Bool := t.type != .start && t.type != .«end»

/-- The counter if all tokens left became nodes. -/
def potential (s : PState) : Nat := s.nextId + (s.toks.filter realTok).length

/-- The same outcome, with the counter between two bounds. -/
def CountAgrees {α : Type} (lo hi : Nat) (x : Counted (α × PState)) (y : Except PyExc (α × PState)) : Prop :=
  match x, y with
  | .ok (a, s), .ok b => (a, s) = b ∧ lo ≤ s.nextId ∧ potential s ≤ hi
  | .error (e, k), .error e' => e = e' ∧ lo ≤ k ∧ k ≤ hi
  | _, _ => False

theorem le_potential (s : PState) : s.nextId ≤ potential s := Nat.le_add_right _ _

theorem countAgrees_bind {α β : Type} {lo hi hi' : Nat} {x : Counted (α × PState)} {y : Except PyExc (α × PState)}
    {f : α × PState → Counted (β × PState)} {g : α × PState → Except PyExc (β × PState)} (h : CountAgrees lo hi x y) (hh : hi ≤ hi')
    (k : ∀ a s, lo ≤ s.nextId → potential s ≤ hi → CountAgrees lo hi' (f (a, s)) (g (a, s))) : CountAgrees lo hi' (x >>= f) (y >>= g) := by
  cases x with
  | ok p =>
    cases y with
    | error e => exact absurd h id
    | ok q =>
      obtain ⟨rfl, h2, h3⟩ := h
      exact k p.1 p.2 h2 h3
  | error p =>
    cases y with
    | ok q => exact absurd h id
    | error e =>
      obtain ⟨rfl, h2, h3⟩ := h
      exact ⟨rfl, h2, by omega⟩

theorem countAgrees_cur {β : Type} {lo hi : Nat} {s : PState} {f : Token → Counted (β × PState)} {g : Token → Except PyExc (β × PState)}
    (h1 : lo ≤ s.nextId) (h2 : s.nextId ≤ hi) (k : ∀ t, CountAgrees lo hi (f t) (g t)) :
    CountAgrees lo hi (counted s.nextId s.cur >>= f) (s.cur >>= g) := by
  unfold PState.cur
  cases s.toks with
  | nil => exact ⟨rfl, h1, h2⟩
  | cons t ts => exact k t

theorem countAgrees_eat {β : Type} {lo hi : Nat} {s : PState} {ty : TokenType} {r : String} {f : Token × PState → Counted (β × PState)}
    {g : Token × PState → Except PyExc (β × PState)} (h1 : lo ≤ s.nextId) (h2 : s.nextId ≤ hi)
    (k : ∀ t s', s'.nextId = s.nextId → potential s' + (if ty = .start ∨ ty = .«end» then 0 else 1) = potential s →
      CountAgrees lo hi (f (t, s')) (g (t, s'))) :
    CountAgrees lo hi (counted s.nextId (s.eat ty r) >>= f) (s.eat ty r >>= g) := by
  unfold PState.eat
  cases hs : s.toks with
  | nil => exact ⟨rfl, h1, h2⟩
  | cons t ts =>
    dsimp only
    by_cases ht : t.type = ty
    · rw [if_pos ht]
      refine k t { s with toks := ts } rfl ?_
      unfold potential
      rw [hs]
      subst ht
      by_cases hr : t.type = .start ∨ t.type = .«end»
      · have : realTok t = false := by unfold realTok; rcases hr with h | h <;> simp [h]
        rw [List.filter_cons, this, if_pos hr]
        simp
      · have : realTok t = true := by
          unfold realTok
          rw [not_or] at hr
          simp [hr.1, hr.2]
        rw [List.filter_cons, this, if_neg hr]
        simp only [if_true, List.length_cons]
        omega
    · rw [if_neg ht]
      exact ⟨rfl, h1, h2⟩

theorem countAgrees_mkNode (U : Uni) {lo hi : Nat} {s : PState} (k : Kind) (t : Token) (ch : List Node) (h1 : lo ≤ s.nextId)
    (h2 : potential s + 1 ≤ hi) : CountAgrees lo hi (s.mkNodeC U k t ch) (s.mkNode U k t ch) := by
  have := le_potential s
  unfold PState.mkNodeC PState.mkNode
  cases initRes U k t with
  | error e => exact ⟨rfl, by omega, by omega⟩
  | ok r =>
    refine ⟨rfl, ?_, ?_⟩
    · show lo ≤ s.nextId + 1; omega
    · unfold potential at *; show s.nextId + 1 + (s.toks.filter realTok).length ≤ hi; omega

/-- Rules that take one token and make one node. -/
theorem countAgrees_leaf (U : Uni) {lo hi : Nat} {s : PState} {ty : TokenType} {r : String} {k : Kind} (hk : k ≠ .boolVal)
    (hty : ¬ (ty = .start ∨ ty = .«end»)) (h1 : lo ≤ s.nextId) (h2 : potential s ≤ hi) :
    CountAgrees lo hi (counted s.nextId (do let (t, s) ← s.eat ty r; s.mkNode U k t [])) (do let (t, s) ← s.eat ty r; s.mkNode U k t []) := by
  have := le_potential s
  unfold PState.eat
  cases hs : s.toks with
  | nil => exact ⟨rfl, h1, by omega⟩
  | cons t ts =>
    dsimp only
    by_cases ht : t.type = ty
    · rw [if_pos ht]
      have hr : realTok t = true := by
        unfold realTok
        rw [not_or] at hty
        simp [ht, hty.1, hty.2]
      have hi' : ∃ x, initRes U k t = .ok x := by
        cases k <;> first | exact ⟨_, rfl⟩ | exact absurd rfl hk
      obtain ⟨x, hx⟩ := hi'
      simp only [bind, Except.bind, PState.mkNode, hx, pure, Except.pure, counted]
      refine ⟨rfl, ?_, ?_⟩
      · show lo ≤ s.nextId + 1; omega
      · unfold potential at *
        rw [hs, List.filter_cons, hr] at h2
        simp only [if_true, List.length_cons] at h2
        show s.nextId + 1 + (ts.filter realTok).length ≤ hi
        omega
    · rw [if_neg ht]
      exact ⟨rfl, h1, by omega⟩

theorem countAgrees_att (U : Uni) {lo hi : Nat} {s : PState} (h1 : lo ≤ s.nextId) (h2 : potential s ≤ hi) :
    CountAgrees lo hi (counted s.nextId (attNameRule U s)) (attNameRule U s) := by
  have := le_potential s
  unfold attNameRule
  cases hc : s.cur with
  | error e => exact ⟨rfl, h1, by omega⟩
  | ok c =>
    show CountAgrees lo hi (counted s.nextId (if c.type = .usrAtt then _ else _)) (if c.type = .usrAtt then _ else _)
    by_cases c1 : c.type = .usrAtt
    · simp only [if_pos c1]; exact countAgrees_leaf U (by decide) (by decide) h1 h2
    simp only [if_neg c1]
    by_cases c1 : c.type = .objAtt
    · simp only [if_pos c1]; exact countAgrees_leaf U (by decide) (by decide) h1 h2
    simp only [if_neg c1]
    by_cases c1 : c.type = .admAtt
    · simp only [if_pos c1]; exact countAgrees_leaf U (by decide) (by decide) h1 h2
    simp only [if_neg c1]
    by_cases c1 : c.type = .envAtt
    · simp only [if_pos c1]; exact countAgrees_leaf U (by decide) (by decide) h1 h2
    simp only [if_neg c1]
    exact countAgrees_leaf U (by decide) (by decide) h1 h2

theorem countAgrees_atomic (U : Uni) {lo hi : Nat} {s : PState} (h1 : lo ≤ s.nextId) (h2 : potential s ≤ hi) :
    CountAgrees lo hi (counted s.nextId (atomicRule U s)) (atomicRule U s) := by
  have := le_potential s
  unfold atomicRule
  cases hc : s.cur with
  | error e => exact ⟨rfl, h1, by omega⟩
  | ok c =>
    show CountAgrees lo hi (counted s.nextId (if c.type = .int then _ else _)) (if c.type = .int then _ else _)
    by_cases c1 : c.type = .int
    · simp only [if_pos c1]; exact countAgrees_leaf U (by decide) (by decide) h1 h2
    simp only [if_neg c1]
    by_cases c1 : c.type = .float
    · simp only [if_pos c1]; exact countAgrees_leaf U (by decide) (by decide) h1 h2
    simp only [if_neg c1]
    by_cases c1 : c.type = .string
    · simp only [if_pos c1]; exact countAgrees_leaf U (by decide) (by decide) h1 h2
    simp only [if_neg c1]
    exact countAgrees_leaf U (by decide) (by decide) h1 h2

theorem countAgrees_boolVar (U : Uni) {lo hi : Nat} {s : PState} (h1 : lo ≤ s.nextId) (h2 : potential s ≤ hi) :
    CountAgrees lo hi (boolVarRuleC U s) (boolVarRule U s) := by
  have := le_potential s
  unfold boolVarRuleC boolVarRule
  refine countAgrees_cur h1 (by omega) fun c => ?_
  by_cases c1 : c.type = .bool
  · rw [if_pos c1, if_pos c1]
    refine countAgrees_eat h1 (by omega) fun t s' e1 e2 => ?_
    exact countAgrees_mkNode U _ _ _ (by omega) (by simp at e2; omega)
  · rw [if_neg c1, if_neg c1]
    exact countAgrees_att U h1 h2

theorem countAgrees_setLoop (U : Uni) (n : Nat) (acc : List Node) {lo hi : Nat} {s : PState} (h1 : lo ≤ s.nextId) (h2 : potential s ≤ hi) :
    CountAgrees lo hi (setLoopC U n acc s) (setLoop U n acc s) := by
  induction n generalizing acc s with
  | zero => have := le_potential s; exact ⟨rfl, h1, by omega⟩
  | succ n ih =>
    have := le_potential s
    unfold setLoopC setLoop
    refine countAgrees_cur h1 (by omega) fun c => ?_
    by_cases c1 : c.type ≠ .rset
    · rw [if_pos c1, if_pos c1]
      refine countAgrees_eat h1 (by omega) fun t s' e1 e2 => ?_
      refine countAgrees_bind (countAgrees_atomic U (hi := hi) (by omega) (by simp at e2; omega)) (by omega) fun a s2 g1 g2 => ?_
      exact ih _ g1 g2
    · rw [if_neg c1, if_neg c1]
      exact ⟨rfl, h1, h2⟩

theorem countAgrees_set (U : Uni) {lo hi : Nat} {s : PState} (h1 : lo ≤ s.nextId) (h2 : potential s ≤ hi) :
    CountAgrees lo hi (setRuleC U s) (setRule U s) := by
  have := le_potential s
  unfold setRuleC setRule
  refine countAgrees_eat h1 (by omega) fun t s1 e1 e2 => ?_
  simp at e2
  have := le_potential s1
  refine countAgrees_cur (by omega) (by omega) fun c => ?_
  have tail : ∀ (nodes : List Node) (s2 : PState), lo ≤ s2.nextId → potential s2 + 1 ≤ hi →
      CountAgrees lo hi (do let (_, s) ← counted s2.nextId (s2.eat .rset "set"); s.mkNodeC U .set t nodes)
        (do let (_, s) ← s2.eat .rset "set"; s.mkNode U .set t nodes) := by
    intro nodes s2 g1 g2
    have := le_potential s2
    refine countAgrees_eat g1 (by omega) fun t' s3 e3 e4 => ?_
    simp at e4
    exact countAgrees_mkNode U _ _ _ (by omega) (by omega)
  dsimp only
  by_cases c1 : c.type ≠ .rset
  · rw [if_pos c1, if_pos c1]
    refine countAgrees_bind (countAgrees_atomic U (lo := lo) (hi := hi - 1) (by omega) (by omega)) (by omega) fun a s2 g1 g2 => ?_
    exact countAgrees_bind (countAgrees_setLoop U _ _ g1 g2) (by omega) fun nodes s3 g3 g4 => tail nodes s3 g3 (by omega)
  · rw [if_neg c1, if_neg c1]
    exact tail [] s1 (by omega) (by omega)

theorem countAgrees_var (U : Uni) {lo hi : Nat} {s : PState} (h1 : lo ≤ s.nextId) (h2 : potential s ≤ hi) :
    CountAgrees lo hi (varRuleC U s) (varRule U s) := by
  have := le_potential s
  unfold varRuleC varRule
  refine countAgrees_cur h1 (by omega) fun c => ?_
  by_cases c1 : c.isAtt = true
  · rw [if_pos c1, if_pos c1]
    exact countAgrees_att U h1 h2
  rw [if_neg c1, if_neg c1]
  by_cases c2 : c.isConst = true
  · rw [if_pos c2, if_pos c2]
    unfold constRuleC constRule
    refine countAgrees_cur h1 (by omega) fun d => ?_
    by_cases c3 : d.isAtomic = true
    · rw [if_pos c3, if_pos c3]
      exact countAgrees_atomic U h1 h2
    · rw [if_neg c3, if_neg c3]
      exact countAgrees_set U h1 h2
  · rw [if_neg c2, if_neg c2]
    exact ⟨rfl, h1, by omega⟩

theorem countAgrees_rules (U : Uni) (n : Nat) :
    (∀ lo hi s, lo ≤ s.nextId → potential s ≤ hi → CountAgrees lo hi (expRuleC U n s) (expRule U n s)) ∧
    (∀ lo hi a s, lo ≤ s.nextId → potential s ≤ hi → CountAgrees lo hi (termLoopC U n a s) (termLoop U n a s)) ∧
    (∀ lo hi s, lo ≤ s.nextId → potential s ≤ hi → CountAgrees lo hi (termRuleC U n s) (termRule U n s)) ∧
    (∀ lo hi a s, lo ≤ s.nextId → potential s ≤ hi → CountAgrees lo hi (policyLoopC U n a s) (policyLoop U n a s)) ∧
    (∀ lo hi s, lo ≤ s.nextId → potential s ≤ hi → CountAgrees lo hi (policyRuleC U n s) (policyRule U n s)) := by
  induction n with
  | zero =>
    have key : ∀ lo hi (s : PState), lo ≤ s.nextId → potential s ≤ hi →
        CountAgrees (α := Node) lo hi (.error (.outOfFuel, s.nextId)) (.error .outOfFuel) :=
      fun lo hi s h1 h2 => ⟨rfl, h1, Nat.le_trans (le_potential s) h2⟩
    refine ⟨fun lo hi s h1 h2 => ?_, fun lo hi a s h1 h2 => ?_, fun lo hi s h1 h2 => ?_, fun lo hi a s h1 h2 => ?_, fun lo hi s h1 h2 => ?_⟩
    · unfold expRuleC expRule; exact key lo hi s h1 h2
    · unfold termLoopC termLoop; exact key lo hi s h1 h2
    · unfold termRuleC termRule; exact key lo hi s h1 h2
    · unfold policyLoopC policyLoop; exact key lo hi s h1 h2
    · unfold policyRuleC policyRule; exact key lo hi s h1 h2
  | succ n ih =>
    obtain ⟨i1, i2, i3, i4, i5⟩ := ih
    refine ⟨fun lo hi s h1 h2 => ?_, fun lo hi a s h1 h2 => ?_, fun lo hi s h1 h2 => ?_, fun lo hi a s h1 h2 => ?_, fun lo hi s h1 h2 => ?_⟩
    · have := le_potential s
      unfold expRuleC expRule
      refine countAgrees_cur h1 (by omega) fun c => ?_
      by_cases c1 : c.type = .notOp
      · rw [if_pos c1, if_pos c1]
        refine countAgrees_eat h1 (by omega) fun t s1 e1 e2 => ?_
        simp at e2
        have := le_potential s1
        refine countAgrees_cur (by omega) (by omega) fun d => ?_
        by_cases c2 : d.type = .lparn
        · rw [if_pos c2, if_pos c2]
          refine countAgrees_eat (by omega) (by omega) fun t' s2 e3 e4 => ?_
          simp at e4
          refine countAgrees_bind (i5 lo (hi - 1) s2 (by omega) (by omega)) (by omega) fun sub s3 g1 g2 => ?_
          have := le_potential s3
          refine countAgrees_eat g1 (by omega) fun t'' s4 e5 e6 => ?_
          simp at e6
          exact countAgrees_mkNode U _ _ _ (by omega) (by omega)
        · rw [if_neg c2, if_neg c2]
          refine countAgrees_bind (countAgrees_boolVar U (lo := lo) (hi := hi - 1) (by omega) (by omega)) (by omega) fun sub s3 g1 g2 => ?_
          exact countAgrees_mkNode U _ _ _ (by omega) (by omega)
      rw [if_neg c1, if_neg c1]
      by_cases c2 : c.type = .lparn
      · rw [if_pos c2, if_pos c2]
        refine countAgrees_eat h1 (by omega) fun t s1 e1 e2 => ?_
        simp at e2
        refine countAgrees_bind (i5 lo hi s1 (by omega) (by omega)) (by omega) fun sub s3 g1 g2 => ?_
        have := le_potential s3
        refine countAgrees_eat g1 (by omega) fun t'' s4 e5 e6 => ?_
        simp at e6
        exact ⟨rfl, by omega, by omega⟩
      rw [if_neg c2, if_neg c2]
      cases hc : isComparison s c with
      | error e => exact ⟨rfl, h1, by omega⟩
      | ok b =>
        show CountAgrees lo hi (if b = true then _ else _) (if b = true then _ else _)
        by_cases hb : b = true
        · rw [if_pos hb, if_pos hb]
          refine countAgrees_bind (countAgrees_var U (lo := lo) (hi := hi) h1 h2) (by omega) fun l s1 g1 g2 => ?_
          have := le_potential s1
          refine countAgrees_eat g1 (by omega) fun t s2 e1 e2 => ?_
          simp at e2
          refine countAgrees_bind (countAgrees_var U (lo := lo) (hi := hi - 1) (by omega) (by omega)) (by omega) fun r s3 g3 g4 => ?_
          exact countAgrees_mkNode U _ _ _ (by omega) (by omega)
        · rw [if_neg hb, if_neg hb]
          by_cases c3 : c.type = .bool ∨ c.isAtt = true
          · rw [if_pos c3, if_pos c3]
            exact countAgrees_boolVar U h1 h2
          · rw [if_neg c3, if_neg c3]
            exact ⟨rfl, h1, by omega⟩
    · have := le_potential s
      unfold termLoopC termLoop
      refine countAgrees_cur h1 (by omega) fun c => ?_
      by_cases c1 : c.type = .boolOp ∧ c.value = .str "AND".toList
      · rw [if_pos c1, if_pos c1]
        refine countAgrees_eat h1 (by omega) fun t s1 e1 e2 => ?_
        simp at e2
        refine countAgrees_bind (i1 lo (hi - 1) s1 (by omega) (by omega)) (by omega) fun r s2 g1 g2 => ?_
        have hm := countAgrees_mkNode U (lo := lo) (hi := hi) .boolOp t [a, r] g1 (by omega)
        exact countAgrees_bind hm (Nat.le_refl _) fun b s3 g3 g4 => i2 lo hi b s3 g3 g4
      · rw [if_neg c1, if_neg c1]
        exact ⟨rfl, h1, h2⟩
    · unfold termRuleC termRule
      exact countAgrees_bind (i1 lo hi s h1 h2) (Nat.le_refl _) fun b s3 g3 g4 => i2 lo hi b s3 g3 g4
    · have := le_potential s
      unfold policyLoopC policyLoop
      refine countAgrees_cur h1 (by omega) fun c => ?_
      by_cases c1 : c.type = .boolOp ∧ c.value = .str "OR".toList
      · rw [if_pos c1, if_pos c1]
        refine countAgrees_eat h1 (by omega) fun t s1 e1 e2 => ?_
        simp at e2
        refine countAgrees_bind (i3 lo (hi - 1) s1 (by omega) (by omega)) (by omega) fun r s2 g1 g2 => ?_
        have hm := countAgrees_mkNode U (lo := lo) (hi := hi) .boolOp t [a, r] g1 (by omega)
        exact countAgrees_bind hm (Nat.le_refl _) fun b s3 g3 g4 => i4 lo hi b s3 g3 g4
      · rw [if_neg c1, if_neg c1]
        exact ⟨rfl, h1, h2⟩
    · unfold policyRuleC policyRule
      exact countAgrees_bind (i3 lo hi s h1 h2) (Nat.le_refl _) fun b s3 g3 g4 => i4 lo hi b s3 g3 g4

theorem countAgrees_parse (U : Uni) (s : PState) : CountAgrees s.nextId (potential s) (s.parseC U) (s.parse U) := by
  have := le_potential s
  unfold PState.parseC PState.parse
  refine countAgrees_eat (Nat.le_refl _) this fun t s1 e1 e2 => ?_
  simp at e2
  refine countAgrees_bind ((countAgrees_rules U _).2.2.2.2 s.nextId (potential s) s1 (by omega) (by omega)) (Nat.le_refl _) fun r s2 g1 g2 => ?_
  have := le_potential s2
  refine countAgrees_eat g1 (by omega) fun t s3 e3 e4 => ?_
  simp at e4
  exact ⟨rfl, by omega, by omega⟩

end Verif.Proofs
