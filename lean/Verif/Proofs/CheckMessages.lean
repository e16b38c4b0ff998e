import Verif.Model.CheckMessages
import Verif.Spec.CheckErrors
import Verif.Proofs.Checking
import Verif.Proofs.MessagesParse
/-!
# The messages of the type checker
-/

namespace Verif.Proofs
open Verif Verif.Spec

/-! ### Forgetting the messages -/

/-- The checker of a result. -/
def tcOf (x : Except PyExc TCM) : Except PyExc TC := x.map TCM.tc

theorem tc_attCheck (U : Uni) (s : TCM) (n : Node) : tcOf (s.attCheck U n) = s.tc.attCheck U n := by
  unfold TCM.attCheck TC.attCheck
  cases n.left with
  | none => rfl
  | some l =>
    cases n.right with
    | none => rfl
    | some r =>
      simp only
      by_cases h : (l.kind.isAtt && r.kind.isAtt) = true
      · rw [if_pos h, if_pos h]
        cases attToSymbolName l.kind l.tok with
        | error e => rfl
        | ok ln =>
          cases attToSymbolName r.kind r.tok with
          | error e => rfl
          | ok rn =>
            simp only [bind, Except.bind]
            cases s.tc.tab.lookup U ln with
            | none => rfl
            | some a =>
              cases s.tc.tab.lookup U rn with
              | none => rfl
              | some b =>
                simp only
                have ha : ¬ ((s.tc.heap a).type = .unknown ∧ (s.tc.heap a).type ≠ .unknown) := fun h => h.2 h.1
                have hb : ¬ ((s.tc.heap b).type = .unknown ∧ (s.tc.heap b).type ≠ .unknown) := fun h => h.2 h.1
                simp only [if_neg ha, if_neg hb]
                split <;> rfl
      · rw [if_neg h, if_neg h]
        generalize (if l.kind.isAtt then (l, r) else (r, l)) = av
        obtain ⟨a, v⟩ := av
        simp only
        cases attToSymbolName a.kind a.tok with
        | error e => rfl
        | ok name =>
          simp only [bind, Except.bind]
          cases s.tc.tab.lookup U name with
          | none => rfl
          | some x =>
            simp only
            by_cases hu : (s.tc.heap x).type = .unknown
            · rw [if_pos hu, if_pos hu]
              cases s.tc.tab.switchType U s.tc.heap (s.tc.heap x).name (SymType.convertTokenType v.tok.type) <;> rfl
            · rw [if_neg hu, if_neg hu]
              split <;> rfl

theorem tc_numCheck (U : Uni) (s : TCM) (n : Node) : tcOf (s.numCheck U n) = s.tc.numCheck U n := by
  unfold TCM.numCheck TC.numCheck
  cases n.left with
  | none => rfl
  | some l =>
    cases n.right with
    | none => rfl
    | some r =>
      simp only
      split
      · rfl
      split
      · rfl
      split
      · exact tc_attCheck U s n
      split <;> rfl

theorem tc_eqCheck (U : Uni) (s : TCM) (n : Node) : tcOf (s.eqCheck U n) = s.tc.eqCheck U n := by
  unfold TCM.eqCheck TC.eqCheck
  cases n.left with
  | none => rfl
  | some l =>
    cases n.right with
    | none => rfl
    | some r =>
      simp only
      split
      · exact tc_attCheck U s n
      split
      · rfl
      split
      · rfl
      split <;> rfl

theorem tc_inCheck (s : TCM) (n : Node) : tcOf (s.inCheck n) = s.tc.inCheck n := by
  unfold TCM.inCheck TC.inCheck
  cases n.left with
  | none => rfl
  | some l =>
    cases n.right with
    | none => rfl
    | some r =>
      simp only
      repeat' split
      all_goals rfl

theorem tc_subsetCheck (s : TCM) (n : Node) : tcOf (s.subsetCheck n) = s.tc.subsetCheck n := by
  unfold TCM.subsetCheck TC.subsetCheck
  cases n.left with
  | none => rfl
  | some l =>
    cases n.right with
    | none => rfl
    | some r => simp only; split <;> rfl

theorem tc_opNode (U : Uni) (s : TCM) (n : Node) : tcOf (s.opNode U n) = s.tc.opNode U n := by
  unfold TCM.opNode TC.opNode
  cases n.tok.value with
  | str v =>
    simp only
    split
    · exact tc_numCheck U s n
    split
    · exact tc_eqCheck U s n
    split
    · exact tc_inCheck s n
    split
    · exact tc_subsetCheck s n
    · rfl
  | _ => rfl

theorem tc_visit (U : Uni) (s : TCM) (n : Node) : tcOf (s.visit U n) = s.tc.visit U n := by
  unfold TCM.visit TC.visit
  split
  · cases s.tc.attNode U n.tok <;> rfl
  split
  · exact tc_opNode U s n
  · rfl

mutual
theorem tc_scan (U : Uni) : (n : Node) → (s : TCM) →
    ((TCM.scan U n s).1.tc, (TCM.scan U n s).2) = TC.scan U n s.tc
  | .mk k t i r cs, s => by
    have ih := tc_scanList U cs s
    rw [TCM.scan, TC.scan]
    rw [← ih]
    rcases TCM.scanList U cs s with ⟨s1, _ | e⟩
    · simp only
      rw [← tc_visit]
      cases s1.visit U (.mk k t i r cs) <;> rfl
    · rfl
theorem tc_scanList (U : Uni) : (ns : List Node) → (s : TCM) →
    ((TCM.scanList U ns s).1.tc, (TCM.scanList U ns s).2) = TC.scanList U ns s.tc
  | [], s => by rw [TCM.scanList, TC.scanList]
  | n :: ns, s => by
    rw [TCM.scanList, TC.scanList]
    by_cases h : TC.skipped n = true
    · rw [if_pos h, if_pos h]; exact tc_scanList U ns s
    · rw [if_neg h, if_neg h, ← tc_scan U n s]
      rcases TCM.scan U n s with ⟨s1, _ | e⟩
      · exact tc_scanList U ns s1
      · rfl
end

/-! ### What the messages say -/

/-- The class of the nodes made for tokens of a type. -/
def kindOf : TokenType → Option Kind
  | .usrAtt => some .usrAtt | .objAtt => some .objAtt | .admAtt => some .admAtt | .envAtt => some .envAtt | .conAtt => some .conAtt
  | .int => some .intVal | .float => some .floatVal | .string => some .stringVal | .null => some .nullVal | .bool => some .boolVal
  | .lset => some .set | .op => some .op | .boolOp => some .boolOp | .notOp => some .not
  | _ => none

/-- The classes of the nodes fit their tokens. -/
inductive Kinded : Node → Prop
  | mk (k : Kind) (t : Token) (i : Nat) (r : Res) (cs : List Node) (hk : kindOf t.type = some k)
      (hc : ∀ c ∈ cs, Kinded c) : Kinded (.mk k t i r cs)

theorem Kinded.kind {n : Node} (h : Kinded n) : kindOf n.tok.type = some n.kind := by
  cases h; assumption

theorem Kinded.isAtt {n : Node} (h : Kinded n) : n.kind.isAtt = true ↔ AttTok n.tok := by
  have := h.kind
  unfold AttTok
  revert this
  generalize n.tok.type = ty
  generalize n.kind = k
  cases ty <;> intro h <;> cases h <;> simp [Kind.isAtt]

theorem Kinded.attKind {n : Node} (h : Kinded n) (ha : AttTok n.tok) : n.kind = attKind n.tok.type := by
  have := h.kind
  rcases ha with e | e | e | e | e <;> rw [e] at this ⊢ <;> exact (Option.some.inj this).symm

/-- The symbols have the names of the first attributes seen, and issues have messages that fit. -/
structure Spoken (U : Uni) (A : List Token) (s : TCM) : Prop where
  tab : ∀ k, match s.tc.tab.get k with
    | none => A.find? (fun u => decide (U.lower (shownName U u) = k)) = none
    | some a => a < s.tc.next ∧ ∃ u, A.find? (fun u => decide (U.lower (shownName U u) = k)) = some u ∧
        (s.tc.heap a).name = shownName U u
  len : s.msgs.length = s.tc.issues.length
  says : ∀ e ∈ s.tc.issues.zip s.msgs, Says U A e.1.warn e.1.check e.1.left e.1.right e.2

theorem shown_mono {U : Uni} {A B : List Token} {t : Token} {n : Str} (h : Shown U A t n) : Shown U (A ++ B) t n := by
  obtain ⟨u, h1, h2⟩ := h
  exact ⟨u, by rw [List.find?_append, h1]; rfl, h2⟩

theorem says_mono {U : Uni} {A B : List Token} {w : Bool} {c : String} {l r : Token} {m : Str} (h : Says U A w c l r m) :
    Says U (A ++ B) w c l r m := by
  unfold Says at h ⊢
  split
  · rename_i hw
    rw [if_pos hw] at h
    rcases h with ⟨h1, h2, a, b, h3, h4, h5⟩ | ⟨t, h1, h2, a, h3, h4⟩
    · exact Or.inl ⟨h1, h2, a, b, shown_mono h3, shown_mono h4, h5⟩
    · exact Or.inr ⟨t, h1, h2, a, shown_mono h3, h4⟩
  · rename_i hw
    rw [if_neg hw] at h
    exact h

theorem spoken_heap {U : Uni} {A : List Token} {s : TCM} (h : Spoken U A s) (h' : Heap) (hh : ∀ a, (h' a).name = (s.tc.heap a).name) :
    Spoken U A { s with tc := { s.tc with heap := h' } } := by
  refine ⟨?_, h.len, h.says⟩
  intro k
  have := h.tab k
  revert this
  cases hg : s.tc.tab.get k with
  | none => intro h; simpa [hg] using h
  | some a => intro h; simpa [hg, hh] using h

theorem spoken_error {U : Uni} {A : List Token} {s : TCM} (h : Spoken U A s) (n l r : Node) (m : Str) (check : String)
    (hm : Says U A (check == "att_check") check l.tok r.tok m) : Spoken U A (s.typeError n m check l r) := by
  have hlen := h.len
  refine ⟨h.tab, ?_, ?_⟩
  · show (s.msgs ++ [m]).length = (s.tc.issues ++ [_]).length
    simp [hlen]
  · intro e he
    change e ∈ (s.tc.issues ++ [_]).zip (s.msgs ++ [m]) at he
    rw [List.zip_append hlen.symm] at he
    simp only [List.mem_append, List.zip_cons_cons, List.zip_nil_left, List.mem_singleton] at he
    rcases he with he | rfl
    · exact h.says e he
    · exact hm

theorem lookup_shown {U : Uni} {A : List Token} {s : TCM} (h : Spoken U A s) {t : Token} (ht : AttTok t) {name : Str} {a : Nat}
    (hn : attToSymbolName (attKind t.type) t = .ok name) (hl : s.tc.tab.lookup U name = some a) :
    Shown U A t (s.tc.heap a).name := by
  have hv : ∃ v, t.value = .str v := by
    cases hv : t.value with
    | str v => exact ⟨v, rfl⟩
    | _ =>
      unfold attToSymbolName at hn
      rw [hv] at hn
      rcases ht with e | e | e | e | e <;> rw [e] at hn <;> cases hn
  rw [attSymName ht hv] at hn
  cases hn
  have h1 := h.tab (attKey U t)
  change s.tc.tab.get (attKey U t) = some a at hl
  rw [hl] at h1
  obtain ⟨_, u, h2, h3⟩ := h1
  exact ⟨u, h2, h3⟩

theorem write_name (h : Heap) (a : Nat) (ty : SymType) (b : Nat) : (h.write a { h a with type := ty } b).name = (h b).name := by
  unfold Heap.write
  split
  · rename_i e; rw [e]
  · rfl

theorem spoken_attNode {U : Uni} {A : List Token} {s : TCM} (h : Spoken U A s) {t : Token} {tc : TC}
    (hr : s.tc.attNode U t = .ok tc) : Spoken U (A ++ [t]) ⟨tc, s.msgs⟩ := by
  unfold TC.attNode at hr
  cases hv : t.value with
  | str v =>
    rw [hv] at hr
    cases hr
    refine ⟨?_, h.len, fun e he => says_mono (h.says e he)⟩
    intro k
    have hk := h.tab k
    have hn := h.tab (U.lower (shownName U t))
    have new : (s.tc.heap.write s.tc.next (Symbol.new U v (some t.type) (some .unknown) (.sc .none)) s.tc.next).name =
        shownName U t := by
      unfold Heap.write
      rw [if_pos rfl]
      unfold Symbol.new shownName attName
      rw [hv]
      simp only
      rcases t with ⟨_ | _, _, _⟩ <;> rfl
    have old : ∀ a, a < s.tc.next →
        s.tc.heap.write s.tc.next (Symbol.new U v (some t.type) (some .unknown) (.sc .none)) a = s.tc.heap a := by
      intro a ha
      unfold Heap.write
      rw [if_neg (by omega)]
    simp only
    have hget : (s.tc.tab.define U (s.tc.heap.write s.tc.next (Symbol.new U v (some t.type) (some .unknown) (.sc .none)))
        s.tc.next).1.get k = (s.tc.tab.get k).or (if U.lower (shownName U t) = k then some s.tc.next else none) := by
      unfold SymTab.define
      rw [new]
      split
      · rename_i hnone
        unfold SymTab.get
        rw [List.find?_append]
        cases List.find? (fun e => e.1 == k) s.tc.tab.entries with
        | some e => rfl
        | none =>
          simp only [Option.none_or, List.find?_cons, List.find?_nil, Option.map_none]
          by_cases hk : U.lower (shownName U t) = k
          · simp [hk]
          · have : (U.lower (shownName U t) == k) = false := by simpa using hk
            simp [hk, this]
      · rename_i hsome
        by_cases hk : U.lower (shownName U t) = k
        · rw [if_pos hk, ← hk]
          cases hg : s.tc.tab.get (U.lower (shownName U t)) with
          | none => rw [hg] at hsome; exact absurd rfl hsome
          | some a => rfl
        · rw [if_neg hk, Option.or_none]
    rw [hget, List.find?_append]
    cases hg : s.tc.tab.get k with
    | some a =>
      rw [hg] at hk
      obtain ⟨h1, u, h2, h3⟩ := hk
      simp only [Option.some_or]
      exact ⟨by omega, u, by rw [h2]; rfl, by rw [old a h1]; exact h3⟩
    | none =>
      rw [hg] at hk
      simp only at hk
      rw [hk]
      simp only [Option.none_or, List.find?_cons, List.find?_nil]
      by_cases hk : U.lower (shownName U t) = k
      · simp only [hk, if_true, decide_true]
        exact ⟨by omega, t, rfl, new⟩
      · simp [hk]
  | _ => rw [hv] at hr; cases hr

theorem spoken_attCheck {U : Uni} {A : List Token} {s s' : TCM} (h : Spoken U A s) {n l r : Node} (hl : n.left = some l)
    (hr : n.right = some r) (kl : Kinded l) (kr : Kinded r) (hx : s.attCheck U n = .ok s')
    (hsome : (l.kind.isAtt || r.kind.isAtt) = true) : Spoken U A s' := by
  unfold TCM.attCheck at hx
  rw [hl, hr] at hx
  simp only at hx
  by_cases hb : (l.kind.isAtt && r.kind.isAtt) = true
  · rw [if_pos hb] at hx
    rw [Bool.and_eq_true] at hb
    have al := kl.isAtt.1 hb.1
    have ar := kr.isAtt.1 hb.2
    rw [kl.attKind al, kr.attKind ar] at hx
    cases h1 : attToSymbolName (attKind l.tok.type) l.tok with
    | error e => rw [h1] at hx; cases hx
    | ok ln =>
      cases h2 : attToSymbolName (attKind r.tok.type) r.tok with
      | error e => rw [h1, h2] at hx; cases hx
      | ok rn =>
        rw [h1, h2] at hx
        simp only [bind, Except.bind] at hx
        cases h3 : s.tc.tab.lookup U ln with
        | none => rw [h3] at hx; cases hx
        | some a =>
          cases h4 : s.tc.tab.lookup U rn with
          | none => rw [h3, h4] at hx; cases hx
          | some b =>
            rw [h3, h4] at hx
            simp only at hx
            rw [if_neg (fun h => h.2 h.1), if_neg (fun h => h.2 h.1)] at hx
            split at hx
            · cases hx
              refine spoken_error h n l r _ _ ?_
              unfold Says
              rw [if_pos (by decide)]
              refine Or.inl ⟨al, ar, _, _, lookup_shown h al h1 h3, lookup_shown h ar h2 h4, ?_⟩
              rw [say_say]
              rfl
            · cases hx; exact h
  · rw [if_neg hb] at hx
    have key : ∀ (a v : Node), Kinded a → a.kind.isAtt = true → v.kind.isAtt = false → Kinded v →
        ((a.tok = l.tok ∧ v.tok = r.tok) ∨ (a.tok = r.tok ∧ v.tok = l.tok)) →
        (do
          let name ← attToSymbolName a.kind a.tok
          match s.tc.tab.lookup U name with
          | some x =>
            if (s.tc.heap x).type = .unknown then do
              let (h, _) ← s.tc.tab.switchType U s.tc.heap (s.tc.heap x).name (SymType.convertTokenType v.tok.type)
              return { s with tc := { s.tc with heap := h } }
            else if (s.tc.heap x).type ≠ SymType.convertTokenType v.tok.type ∧
                ((s.tc.heap x).type.isNum && (SymType.convertTokenType v.tok.type).isNum) = false then
              return s.typeError n (msgAttLit (s.tc.heap x).name) "att_check" l r
            else return s
          | none => .error (.exception "") : Except PyExc TCM) = .ok s' → Spoken U A s' := by
      intro a v ka ha hv kv hav hx
      have aa := ka.isAtt.1 ha
      have vv : ¬ AttTok v.tok := fun x => by rw [kv.isAtt.2 x] at hv; cases hv
      rw [ka.attKind aa] at hx
      cases h1 : attToSymbolName (attKind a.tok.type) a.tok with
      | error e => rw [h1] at hx; cases hx
      | ok name =>
        rw [h1] at hx
        simp only [bind, Except.bind] at hx
        cases h3 : s.tc.tab.lookup U name with
        | none => rw [h3] at hx; cases hx
        | some x =>
          rw [h3] at hx
          simp only at hx
          split at hx
          · unfold SymTab.switchType at hx
            cases hg : s.tc.tab.get (U.lower (s.tc.heap x).name) with
            | none => rw [hg] at hx; cases hx
            | some y =>
              rw [hg] at hx
              cases hx
              exact spoken_heap h _ (fun b => write_name _ _ _ _)
          · split at hx
            · cases hx
              refine spoken_error h n l r _ _ ?_
              unfold Says
              rw [if_pos (by decide)]
              refine Or.inr ⟨a.tok, ?_, aa, _, lookup_shown h aa h1 h3, ?_⟩
              · rcases hav with ⟨e1, e2⟩ | ⟨e1, e2⟩
                · exact Or.inl ⟨e1, by rw [← e2]; exact vv⟩
                · exact Or.inr ⟨e1, by rw [← e2]; exact vv⟩
              · rw [say_def]
                rfl
            · cases hx; exact h
    by_cases hla : l.kind.isAtt = true
    · have hra : r.kind.isAtt = false := by
        cases hra : r.kind.isAtt with
        | false => rfl
        | true => rw [hla, hra] at hb; exact absurd rfl hb
      rw [if_pos hla] at hx
      exact key l r kl hla hra kr (Or.inl ⟨rfl, rfl⟩) hx
    · have hra : r.kind.isAtt = true := by
        rw [Bool.or_eq_true] at hsome
        exact hsome.resolve_left hla
      rw [if_neg hla] at hx
      exact key r l kr hra (by simpa using hla) kl (Or.inr ⟨rfl, rfl⟩) hx

theorem Kinded.types {n : Node} (h : Kinded n) :
    (n.kind = .stringVal ↔ n.tok.type = .string) ∧ (n.kind = .nullVal ↔ n.tok.type = .null) ∧
    (n.kind = .set ↔ n.tok.type = .lset) ∧ (n.kind = .intVal ↔ n.tok.type = .int) ∧
    (n.kind = .floatVal ↔ n.tok.type = .float) := by
  have := h.kind
  revert this
  generalize n.tok.type = ty
  generalize n.kind = k
  cases ty <;> intro h <;> cases h <;> simp

theorem spoken_clash {U : Uni} {A : List Token} {s : TCM} (h : Spoken U A s) (n l r : Node) (m : Str) (check : String)
    (hc : (check == "att_check") = false) (hm : m = clashText check l.tok.type r.tok.type) :
    Spoken U A (s.typeError n m check l r) := by
  refine spoken_error h n l r m check ?_
  rw [hc]
  unfold Says
  rw [if_neg (by decide)]
  exact hm

theorem clash_num (l r : TokenType) : clashText "num_check" l r =
    if l = .string ∨ r = .string then msgNumString else if l = .null ∨ r = .null then msgNumNull else msgNumSet := by
  unfold clashText
  rw [if_pos rfl]
  rfl

theorem clash_eq (l r : TokenType) : clashText "eq_check" l r =
    if l = .null ∨ r = .null then msgEqNull else if l = .string ∨ r = .string then msgEqString else msgEqSet := by
  unfold clashText
  rw [if_neg (by decide), if_pos rfl]
  rfl

theorem clash_in (l r : TokenType) : clashText "in_check" l r =
    if r = .null then msgInNull else if l = .lset then msgInSet else if r = .string then msgInString
    else if r = .int then msgInInt else msgInFloat := by
  unfold clashText
  rw [if_neg (by decide), if_neg (by decide), if_pos rfl]
  rfl

theorem clash_subset (l r : TokenType) : clashText "subset_check" l r = msgSubset := by
  unfold clashText
  rw [if_neg (by decide), if_neg (by decide), if_neg (by decide)]
  rfl

theorem spoken_numCheck {U : Uni} {A : List Token} {s s' : TCM} (h : Spoken U A s) {n l r : Node} (hl : n.left = some l)
    (hr : n.right = some r) (kl : Kinded l) (kr : Kinded r) (hx : s.numCheck U n = .ok s') : Spoken U A s' := by
  unfold TCM.numCheck at hx
  rw [hl, hr] at hx
  simp only at hx
  by_cases h1 : l.kind = .stringVal ∨ r.kind = .stringVal
  · rw [if_pos h1] at hx
    cases hx
    refine spoken_clash h _ _ _ _ _ (by decide) ?_
    rw [clash_num, if_pos (by rwa [kl.types.1, kr.types.1] at h1)]
  rw [if_neg h1] at hx
  have t1 : ¬ (l.tok.type = .string ∨ r.tok.type = .string) := by rwa [kl.types.1, kr.types.1] at h1
  by_cases h2 : l.kind = .nullVal ∨ r.kind = .nullVal
  · rw [if_pos h2] at hx
    cases hx
    refine spoken_clash h _ _ _ _ _ (by decide) ?_
    rw [clash_num, if_neg t1, if_pos (by rwa [kl.types.2.1, kr.types.2.1] at h2)]
  rw [if_neg h2] at hx
  have t2 : ¬ (l.tok.type = .null ∨ r.tok.type = .null) := by rwa [kl.types.2.1, kr.types.2.1] at h2
  by_cases h3 : (l.kind.isAtt || r.kind.isAtt) = true
  · rw [if_pos h3] at hx
    exact spoken_attCheck h hl hr kl kr hx h3
  rw [if_neg h3] at hx
  split at hx
  · cases hx
    refine spoken_clash h _ _ _ _ _ (by decide) ?_
    rw [clash_num, if_neg t1, if_neg t2]
  · cases hx; exact h

theorem spoken_eqCheck {U : Uni} {A : List Token} {s s' : TCM} (h : Spoken U A s) {n l r : Node} (hl : n.left = some l)
    (hr : n.right = some r) (kl : Kinded l) (kr : Kinded r) (hx : s.eqCheck U n = .ok s') : Spoken U A s' := by
  unfold TCM.eqCheck at hx
  rw [hl, hr] at hx
  simp only at hx
  by_cases h3 : (l.kind.isAtt || r.kind.isAtt) = true
  · rw [if_pos h3] at hx
    exact spoken_attCheck h hl hr kl kr hx h3
  rw [if_neg h3] at hx
  by_cases h1 : (l.kind = .nullVal ∧ r.kind ≠ .nullVal) ∨ (l.kind ≠ .nullVal ∧ r.kind = .nullVal)
  · rw [if_pos h1] at hx
    cases hx
    refine spoken_clash h _ _ _ _ _ (by decide) ?_
    rw [clash_eq, if_pos]
    rcases h1 with h1 | h1
    · exact Or.inl (kl.types.2.1.1 h1.1)
    · exact Or.inr (kr.types.2.1.1 h1.2)
  rw [if_neg h1] at hx
  by_cases h2 : (l.kind = .stringVal ∧ r.kind ≠ .stringVal) ∨ (l.kind ≠ .stringVal ∧ r.kind = .stringVal)
  · rw [if_pos h2] at hx
    cases hx
    refine spoken_clash h _ _ _ _ _ (by decide) ?_
    rw [clash_eq, if_neg, if_pos]
    · rcases h2 with h2 | h2
      · exact Or.inl (kl.types.1.1 h2.1)
      · exact Or.inr (kr.types.1.1 h2.2)
    · rw [← kl.types.2.1, ← kr.types.2.1]
      intro hn
      rcases h2 with ⟨h2, _⟩ | ⟨_, h2⟩
      · rcases hn with hn | hn
        · rw [h2] at hn; cases hn
        · exact h1 (Or.inr ⟨by rw [h2]; decide, hn⟩)
      · rcases hn with hn | hn
        · exact h1 (Or.inl ⟨hn, by rw [h2]; decide⟩)
        · rw [h2] at hn; cases hn
  rw [if_neg h2] at hx
  split at hx
  · rename_i h4
    cases hx
    refine spoken_clash h _ _ _ _ _ (by decide) ?_
    rw [clash_eq, if_neg, if_neg]
    · rw [← kl.types.1, ← kr.types.1]
      intro hn
      rcases h4 with ⟨h4, _⟩ | ⟨_, h4⟩
      · rcases hn with hn | hn
        · rw [h4] at hn; cases hn
        · exact h2 (Or.inr ⟨by rw [h4]; decide, hn⟩)
      · rcases hn with hn | hn
        · exact h2 (Or.inl ⟨hn, by rw [h4]; decide⟩)
        · rw [h4] at hn; cases hn
    · rw [← kl.types.2.1, ← kr.types.2.1]
      intro hn
      rcases h4 with ⟨h4, _⟩ | ⟨_, h4⟩
      · rcases hn with hn | hn
        · rw [h4] at hn; cases hn
        · exact h1 (Or.inr ⟨by rw [h4]; decide, hn⟩)
      · rcases hn with hn | hn
        · exact h1 (Or.inl ⟨hn, by rw [h4]; decide⟩)
        · rw [h4] at hn; cases hn
  · cases hx; exact h

theorem spoken_inCheck {U : Uni} {A : List Token} {s s' : TCM} (h : Spoken U A s) {n l r : Node} (hl : n.left = some l)
    (hr : n.right = some r) (kl : Kinded l) (kr : Kinded r) (hx : s.inCheck n = .ok s') : Spoken U A s' := by
  unfold TCM.inCheck at hx
  rw [hl, hr] at hx
  simp only at hx
  by_cases h1 : r.kind = .nullVal
  · rw [if_pos h1] at hx
    cases hx
    refine spoken_clash h _ _ _ _ _ (by decide) ?_
    rw [clash_in, if_pos (kr.types.2.1.1 h1)]
  rw [if_neg h1] at hx
  rw [kr.types.2.1] at h1
  by_cases h2 : l.kind = .set
  · rw [if_pos h2] at hx
    cases hx
    refine spoken_clash h _ _ _ _ _ (by decide) ?_
    rw [clash_in, if_neg h1, if_pos (kl.types.2.2.1.1 h2)]
  rw [if_neg h2] at hx
  rw [kl.types.2.2.1] at h2
  by_cases h3 : r.kind = .stringVal
  · rw [if_pos h3] at hx
    cases hx
    refine spoken_clash h _ _ _ _ _ (by decide) ?_
    rw [clash_in, if_neg h1, if_neg h2, if_pos (kr.types.1.1 h3)]
  rw [if_neg h3] at hx
  rw [kr.types.1] at h3
  by_cases h4 : r.kind = .intVal
  · rw [if_pos h4] at hx
    cases hx
    refine spoken_clash h _ _ _ _ _ (by decide) ?_
    rw [clash_in, if_neg h1, if_neg h2, if_neg h3, if_pos (kr.types.2.2.2.1.1 h4)]
  rw [if_neg h4] at hx
  rw [kr.types.2.2.2.1] at h4
  split at hx
  · cases hx
    refine spoken_clash h _ _ _ _ _ (by decide) ?_
    rw [clash_in, if_neg h1, if_neg h2, if_neg h3, if_neg h4]
  · cases hx; exact h

theorem spoken_subsetCheck {U : Uni} {A : List Token} {s s' : TCM} (h : Spoken U A s) {n l r : Node} (hl : n.left = some l)
    (hr : n.right = some r) (hx : s.subsetCheck n = .ok s') : Spoken U A s' := by
  unfold TCM.subsetCheck at hx
  rw [hl, hr] at hx
  simp only at hx
  split at hx
  · cases hx
    refine spoken_clash h _ _ _ _ _ (by decide) ?_
    rw [clash_subset]
  · cases hx; exact h

theorem child_mem {n l : Node} (hl : n.left = some l) : l ∈ n.children := by
  cases n with
  | mk k t i r cs =>
    change cs[0]? = some l at hl
    exact List.mem_of_getElem? hl

theorem child_mem_right {n l : Node} (hl : n.right = some l) : l ∈ n.children := by
  cases n with
  | mk k t i r cs =>
    change cs[1]? = some l at hl
    exact List.mem_of_getElem? hl

theorem Kinded.child {n c : Node} (h : Kinded n) (hc : c ∈ n.children) : Kinded c := by
  cases h with
  | mk k t i r cs hk h => exact h c hc

theorem spoken_opNode {U : Uni} {A : List Token} {s s' : TCM} (h : Spoken U A s) {n : Node} (hn : Kinded n)
    (hx : s.opNode U n = .ok s') : Spoken U A s' := by
  have both : ∃ l r, n.left = some l ∧ n.right = some r := by
    unfold TCM.opNode TCM.numCheck TCM.eqCheck TCM.inCheck TCM.subsetCheck at hx
    cases hl : n.left with
    | none =>
      rw [hl] at hx
      simp only at hx
      repeat' split at hx
      all_goals cases hx
    | some l =>
      cases hr : n.right with
      | none =>
        rw [hl, hr] at hx
        simp only at hx
        repeat' split at hx
        all_goals cases hx
      | some r => exact ⟨l, r, rfl, rfl⟩
  obtain ⟨l, r, hl, hr⟩ := both
  have kl := hn.child (child_mem hl)
  have kr := hn.child (child_mem_right hr)
  unfold TCM.opNode at hx
  split at hx
  · split at hx
    · exact spoken_numCheck h hl hr kl kr hx
    split at hx
    · exact spoken_eqCheck h hl hr kl kr hx
    split at hx
    · exact spoken_inCheck h hl hr kl kr hx
    split at hx
    · exact spoken_subsetCheck h hl hr hx
    · cases hx
  · cases hx

mutual
/-- The attributes `_scan_tree` comes to, in that order. -/
def nodeAtts : Node → List Token
  | .mk k t _ _ cs => nodeAttsList cs ++ if k.isAtt then [t] else []
def nodeAttsList : List Node → List Token
  | [] => []
  | n :: ns => (if TC.skipped n then [] else nodeAtts n) ++ nodeAttsList ns
end

theorem spoken_visit {U : Uni} {A : List Token} {s s' : TCM} (h : Spoken U A s) {n : Node} (hn : Kinded n)
    (hx : s.visit U n = .ok s') : Spoken U (A ++ if n.kind.isAtt then [n.tok] else []) s' := by
  unfold TCM.visit at hx
  by_cases ha : n.kind.isAtt = true
  · rw [if_pos ha] at hx ⊢
    cases hr : s.tc.attNode U n.tok with
    | error e => rw [hr] at hx; cases hx
    | ok tc =>
      rw [hr] at hx
      cases hx
      exact spoken_attNode h hr
  rw [if_neg ha] at hx ⊢
  rw [List.append_nil]
  split at hx
  · exact spoken_opNode h hn hx
  · cases hx; exact h

mutual
theorem spoken_scan {U : Uni} : (n : Node) → (hn : Kinded n) → (A : List Token) → (s : TCM) → Spoken U A s →
    (TCM.scan U n s).2 = none → Spoken U (A ++ nodeAtts n) (TCM.scan U n s).1
  | .mk k t i r cs, hn, A, s, h => by
    have ih := spoken_scanList (U := U) cs (fun c hc => hn.child hc) A s h
    rw [TCM.scan, nodeAtts]
    rcases hs : TCM.scanList U cs s with ⟨s1, _ | e⟩
    · rw [hs] at ih
      simp only
      cases hv : s1.visit U (.mk k t i r cs) with
      | error e => intro h; cases h
      | ok s2 =>
        intro _
        rw [← List.append_assoc]
        exact spoken_visit (ih rfl) hn hv
    · intro h; cases h
theorem spoken_scanList {U : Uni} : (ns : List Node) → (hn : ∀ n ∈ ns, Kinded n) → (A : List Token) → (s : TCM) → Spoken U A s →
    (TCM.scanList U ns s).2 = none → Spoken U (A ++ nodeAttsList ns) (TCM.scanList U ns s).1
  | [], _, A, s, h => by rw [TCM.scanList, nodeAttsList, List.append_nil]; exact fun _ => h
  | n :: ns, hn, A, s, h => by
    rw [TCM.scanList, nodeAttsList]
    by_cases hs : TC.skipped n = true
    · rw [if_pos hs, if_pos hs]
      exact spoken_scanList ns (fun c hc => hn c (List.mem_cons_of_mem _ hc)) A s h
    · rw [if_neg hs, if_neg hs]
      have ih := spoken_scan (U := U) n (hn n List.mem_cons_self) A s h
      rcases hs : TCM.scan U n s with ⟨s1, _ | e⟩
      · rw [hs] at ih
        rw [← List.append_assoc]
        exact spoken_scanList ns (fun c hc => hn c (List.mem_cons_of_mem _ hc)) _ s1 (ih rfl)
      · intro h; cases h
end

theorem spoken_start (U : Uni) (h : Heap) (r : Nat) : Spoken U [] ⟨{ heap := h, next := r }, []⟩ :=
  ⟨fun _ => rfl, rfl, by simp⟩

/-! ### Trees of the parser -/

theorem kinded_att {t : Token} (ht : AttTok t) (k : Nat) : Kinded (attNode t k) ∧ nodeAtts (attNode t k) = [t] ∧
    TC.skipped (attNode t k) = false := by
  refine ⟨.mk _ _ _ _ _ ?_ (by simp), ?_, ?_⟩
  · rcases ht with e | e | e | e | e <;> rw [e] <;> rfl
  · unfold attNode
    rw [nodeAtts, nodeAttsList]
    rcases ht with e | e | e | e | e <;> rw [e] <;> rfl
  · unfold attNode TC.skipped
    rcases ht with e | e | e | e | e <;> rw [e] <;> rfl

theorem kinded_atom {t : Token} (ht : AtomTok false t) (k : Nat) : Kinded (atomNode t k) ∧ TC.skipped (atomNode t k) = true := by
  refine ⟨.mk _ _ _ _ _ ?_ (by simp), ?_⟩
  · rcases ht with e | e | e | e | ⟨e, _⟩
    iterate 4 (· rw [e]; rfl)
    · cases e
  · unfold atomNode TC.skipped
    rcases ht with e | e | e | e | ⟨e, _⟩
    iterate 4 (· rw [e]; rfl)
    · cases e

theorem kinded_atoms : ∀ (ts : List Token) (_ : ∀ t ∈ ts, AtomTok false t) (k : Nat), ∀ n ∈ atomNodes ts k, Kinded n
  | [], _, _, _, h => by cases h
  | t :: ts, ht, k, n, h => by
    simp only [atomNodes, List.mem_cons] at h
    rcases h with rfl | h
    · exact (kinded_atom (ht t List.mem_cons_self) k).1
    · exact kinded_atoms ts (fun u hu => ht u (List.mem_cons_of_mem _ hu)) (k + 1) n h

theorem kinded_operand {v : Operand} (hw : v.WF) (k : Nat) :
    Kinded (v.build k).1 ∧ (if TC.skipped (v.build k).1 then [] else nodeAtts (v.build k).1) = v.attToks := by
  cases v with
  | att t =>
    obtain ⟨h1, h2, h3⟩ := kinded_att hw k
    refine ⟨h1, ?_⟩
    show (if TC.skipped (attNode t k) then [] else nodeAtts (attNode t k)) = [t]
    rw [h3, h2]
    rfl
  | atom t =>
    obtain ⟨h1, h2⟩ := kinded_atom hw k
    refine ⟨h1, ?_⟩
    show (if TC.skipped (atomNode t k) then [] else nodeAtts (atomNode t k)) = []
    rw [h2]
    rfl
  | set l es =>
    refine ⟨.mk _ _ _ _ _ ?_ (kinded_atoms es hw.2 k), rfl⟩
    rw [hw.1]; rfl

theorem kinded_build (U : Uni) : ∀ (p : Policy) (_ : p.WF) (k : Nat),
    Kinded (p.build U k).1 ∧ nodeAtts (p.build U k).1 = p.attToks ∧
      (TC.skipped (p.build U k).1 = true → p.attToks = [])
  | .cmp l o r, hw, k => by
    have h1 := kinded_operand hw.1 k
    have h2 := kinded_operand hw.2.2 (l.build k).2
    refine ⟨.mk _ _ _ _ _ (by rw [hw.2.1]; rfl) (by simpa using ⟨h1.1, h2.1⟩), ?_, fun h => by cases h⟩
    rw [Policy.build]
    simp only
    rw [nodeAtts, nodeAttsList, nodeAttsList, nodeAttsList, h1.2, h2.2]
    simp [Policy.attToks, Kind.isAtt]
  | .lit t, hw, k => ⟨.mk _ _ _ _ _ (by rw [hw.1]; rfl) (by simp), rfl, fun _ => rfl⟩
  | .att t, hw, k => by
    obtain ⟨h1, h2, h3⟩ := kinded_att hw k
    refine ⟨h1, h2, fun h => ?_⟩
    change TC.skipped (attNode t k) = true at h
    rw [h3] at h
    cases h
  | .not n p, hw, k => by
    obtain ⟨h1, h2, h3⟩ := kinded_build U p hw.2 k
    refine ⟨.mk _ _ _ _ _ (by rw [hw.1]; rfl) (by simpa using h1), ?_, fun h => by cases h⟩
    rw [Policy.build]
    simp only
    rw [nodeAtts, nodeAttsList, nodeAttsList]
    by_cases hs : TC.skipped (p.build U k).1 = true
    · rw [if_pos hs]
      simp [Policy.attToks, Kind.isAtt, h3 hs]
    · rw [if_neg hs, h2]
      simp [Policy.attToks, Kind.isAtt]
  | .bin o p q, hw, k => by
    obtain ⟨h1, h2, h3⟩ := kinded_build U p hw.2.1 k
    obtain ⟨g1, g2, g3⟩ := kinded_build U q hw.2.2 (p.build U k).2
    have ho : o.type = .boolOp := hw.1.elim (·.1) (·.1)
    refine ⟨.mk _ _ _ _ _ (by rw [ho]; rfl) (by simpa using ⟨h1, g1⟩), ?_, fun h => by cases h⟩
    rw [Policy.build]
    simp only
    rw [nodeAtts, nodeAttsList, nodeAttsList, nodeAttsList]
    have e1 : (if TC.skipped (p.build U k).1 then [] else nodeAtts (p.build U k).1) = p.attToks := by
      by_cases hs : TC.skipped (p.build U k).1 = true
      · rw [if_pos hs, h3 hs]
      · rw [if_neg hs, h2]
    have e2 : (if TC.skipped (q.build U (p.build U k).2).1 then [] else nodeAtts (q.build U (p.build U k).2).1) = q.attToks := by
      by_cases hs : TC.skipped (q.build U (p.build U k).2).1 = true
      · rw [if_pos hs, g3 hs]
      · rw [if_neg hs, g2]
    rw [e1, e2]
    simp [Policy.attToks, Kind.isAtt]

/-! ### The result of `check` -/

/-- The result without messages. -/
def excOf {α : Type} : Except CheckErr α → Except PyExc α
  | .ok a => .ok a
  | .error e => .error e.exc

theorem raiseIssuesM_exc (level : Option Int) : ∀ (is : List Issue) (ms : List Str), ms.length = is.length →
    (raiseIssuesM level (is.zip ms)).map CheckErr.exc = TC.raiseIssues level is
  | [], _, _ => by rw [List.zip_nil_left]; rfl
  | i :: is, [], h => by cases h
  | i :: is, m :: ms, h => by
    rw [List.zip_cons_cons]
    cases level with
    | none => rfl
    | some l =>
      rw [raiseIssuesM, TC.raiseIssues]
      split
      · rfl
      · exact raiseIssuesM_exc (some l) is ms (by simpa using h)

theorem raiseIssuesM_mem {l : Int} : ∀ {es : List (Issue × Str)} {x : CheckErr}, raiseIssuesM (some l) es = some x →
    ∃ pre i m post, es = pre ++ (i, m) :: post ∧ x = .issue i m ∧ i.type ≥ l ∧ ∀ e ∈ pre, ¬ e.1.type ≥ l
  | [], _, h => by cases h
  | (i, m) :: es, x, h => by
    rw [raiseIssuesM] at h
    split at h
    · rename_i hl
      cases h
      exact ⟨[], i, m, es, rfl, rfl, hl, by simp⟩
    · rename_i hl
      obtain ⟨pre, i', m', post, h1, h2, h3, h4⟩ := raiseIssuesM_mem h
      refine ⟨(i, m) :: pre, i', m', post, by rw [h1]; rfl, h2, h3, ?_⟩
      intro e he
      rcases List.mem_cons.1 he with rfl | he
      · exact hl
      · exact h4 e he

theorem check_forget (U : Uni) (level : Option Int) {A : List Token} {n : Node} (hn : Kinded n) {s : TCM} (hs : Spoken U A s) :
    ((TCM.check U level n s).1.tc, excOf (TCM.check U level n s).2) = TC.check U level n s.tc ∧
    ((TC.scan U n s.tc).2 = none → Spoken U (A ++ nodeAtts n) (TCM.check U level n s).1 ∧
      ∀ x, (TCM.check U level n s).2 = .error x →
        raiseIssuesM level ((TCM.check U level n s).1.tc.issues.zip (TCM.check U level n s).1.msgs) = some x) := by
  have h1 := tc_scan U n s
  have h2 := spoken_scan (U := U) n hn A s hs
  unfold TCM.check TC.check
  rw [← h1]
  rcases hr : TCM.scan U n s with ⟨s1, _ | e⟩
  · rw [hr] at h2
    simp only at h2 ⊢
    have h2 := h2 trivial
    have h3 := raiseIssuesM_exc level s1.tc.issues s1.msgs h2.len
    have h4 : Spoken U (A ++ nodeAtts n) { s1 with tc := { s1.tc with checked := true } } := ⟨h2.tab, h2.len, h2.says⟩
    rw [← h3]
    cases hq : raiseIssuesM level (s1.tc.issues.zip s1.msgs) with
    | none => exact ⟨rfl, fun _ => ⟨h4, fun x hx => by cases hx⟩⟩
    | some e => exact ⟨rfl, fun _ => ⟨h4, fun x hx => by cases hx; exact hq⟩⟩
  · exact ⟨rfl, fun h => by cases h⟩

end Verif.Proofs
