import Verif.Proofs.Depth
/-!
# Recursion limits: functions on trees
-/

namespace Verif.Proofs
open Verif Verif.Spec

mutual
/-- The longest path down through children `p` keeps. -/
def pathLen (p : Node → Bool) : Node → Nat
  | .mk _ _ _ _ cs => pathLens p cs + 1
/-- The longest of the paths of the children `p` keeps. -/
def pathLens (p : Node → Bool) : List Node → Nat
  | [] => 0
  | n :: ns => max (if p n then pathLen p n else 0) (pathLens p ns)
end

mutual
theorem path_le (p : Node → Bool) (n : Node) (j : Nat) (h : Path p n j) : j ≤ pathLen p n := by
  cases n with
  | mk k t i r cs =>
    cases h with
    | here => simp only [pathLen]; omega
    | down hc hp h =>
      simp only [pathLen]
      have := paths_le p cs _ _ hc hp h
      omega
theorem paths_le (p : Node → Bool) (ns : List Node) (c : Node) (j : Nat) (hc : c ∈ ns) (hp : p c = true)
    (h : Path p c j) : j ≤ pathLens p ns := by
  cases ns with
  | nil => simp at hc
  | cons n ns =>
    simp only [pathLens]
    by_cases hn : c = n
    · subst hn
      rw [if_pos hp]
      have := path_le p c j h
      omega
    · have hc' : c ∈ ns := by
        rcases List.mem_cons.1 hc with rfl | h'
        · exact absurd rfl hn
        · exact h'
      have := paths_le p ns c j hc' hp h
      omega
end

mutual
theorem path_reached (p : Node → Bool) (n : Node) : Path p n (pathLen p n) := by
  cases n with
  | mk k t i r cs =>
    simp only [pathLen]
    rcases paths_reached p cs with h | ⟨c, hc, hp, h⟩
    · rw [h]; exact .here _
    · exact .down hc hp h
theorem paths_reached (p : Node → Bool) (ns : List Node) :
    pathLens p ns = 0 ∨ ∃ c ∈ ns, p c = true ∧ Path p c (pathLens p ns) := by
  cases ns with
  | nil => exact Or.inl rfl
  | cons n ns =>
    simp only [pathLens]
    by_cases hp : p n = true
    · rw [if_pos hp]
      by_cases hl : pathLens p ns ≤ pathLen p n
      · rw [Nat.max_eq_left hl]
        exact Or.inr ⟨n, List.mem_cons_self .., hp, path_reached p n⟩
      · rw [Nat.max_eq_right (by omega)]
        rcases paths_reached p ns with h | ⟨c, hc, hp', h⟩
        · omega
        · exact Or.inr ⟨c, List.mem_cons_of_mem _ hc, hp', h⟩
    · rw [if_neg hp, Nat.max_eq_right (by omega)]
      rcases paths_reached p ns with h | ⟨c, hc, hp', h⟩
      · exact Or.inl h
      · exact Or.inr ⟨c, List.mem_cons_of_mem _ hc, hp', h⟩
end

theorem height_iff (p : Node → Bool) (n : Node) (m : Nat) : Height p n m ↔ m = pathLen p n := by
  constructor
  · rintro ⟨h1, h2⟩
    have a := path_le p n m h1
    have b := h2 _ (path_reached p n)
    omega
  · rintro rfl
    exact ⟨path_reached p n, path_le p n⟩

theorem pathLen_pos (p : Node → Bool) (n : Node) : 0 < pathLen p n := by
  cases n with
  | mk k t i r cs => simp [pathLen]

theorem pathLens_kept {p : Node → Bool} {n : Node} (ns : List Node) (h : p n = true) :
    pathLens p (n :: ns) = max (pathLen p n) (pathLens p ns) := by simp [pathLens, h]

theorem pathLens_dropped {p : Node → Bool} {n : Node} (ns : List Node) (h : p n = false) :
    pathLens p (n :: ns) = pathLens p ns := by simp [pathLens, h]

/-! ### Evaluation -/

/-- The children `_evaluate_node` descends into. -/
def unevaluated (n : Node) : Bool := !n.res.truthy

mutual
theorem evalNodeD_enough (U : Uni) (E : SymEnv) (d : Nat) (n : Node) (h : pathLen unevaluated n ≤ d) :
    evalNodeD U E d n = ((evalNode U E n).1, (evalNode U E n).2.1, (evalNode U E n).2.2.map .py) := by
  cases n with
  | mk k t i r cs =>
    cases d with
    | zero => simp [pathLen] at h
    | succ d =>
      have ih := evalChildrenD_enough U E d cs (by simp only [pathLen] at h; omega)
      rw [evalNodeD, ih, evalNode]
      rcases evalChildren U E cs with ⟨cs', w, e⟩
      cases e <;> rfl
theorem evalChildrenD_enough (U : Uni) (E : SymEnv) (d : Nat) (ns : List Node) (h : pathLens unevaluated ns ≤ d) :
    evalChildrenD U E d ns =
      ((evalChildren U E ns).1, (evalChildren U E ns).2.1, (evalChildren U E ns).2.2.map .py) := by
  cases ns with
  | nil => simp [evalChildrenD, evalChildren]
  | cons n ns =>
    rw [evalChildrenD, evalChildren]
    by_cases ht : n.res.truthy = true
    · rw [if_pos ht, if_pos ht]
      rw [pathLens_dropped ns (by simp [unevaluated, ht])] at h
      rw [evalChildrenD_enough U E d ns h]
    · rw [if_neg ht, if_neg ht]
      rw [pathLens_kept ns (by simp [unevaluated, ht])] at h
      rw [evalNodeD_enough U E d n (by omega), evalChildrenD_enough U E d ns (by omega)]
      rcases evalNode U E n with ⟨n', w, e⟩
      cases e <;> rfl
end

mutual
theorem evalNodeD_short (U : Uni) (E : SymEnv) (d : Nat) (n : Node) (h : d < pathLen unevaluated n) :
    (evalNodeD U E d n).2.2 = some .recursion ∨
      ∃ e, (evalNodeD U E d n).2.2 = some (.py e) ∧ (evalNode U E n).2.2 = some e := by
  cases n with
  | mk k t i r cs =>
    cases d with
    | zero => exact Or.inl (by rw [evalNodeD])
    | succ d =>
      have ih := evalChildrenD_short U E d cs (by simp only [pathLen] at h; omega)
      rw [evalNodeD, evalNode]
      rcases ih with h1 | ⟨e, h1, h2⟩
      · rcases hc : evalChildrenD U E d cs with ⟨cs', w, e'⟩
        rw [hc] at h1
        simp only at h1
        subst h1
        exact Or.inl rfl
      · rcases hc : evalChildrenD U E d cs with ⟨cs', w, e'⟩
        rcases hc2 : evalChildren U E cs with ⟨cs2, w2, e2⟩
        rw [hc] at h1
        rw [hc2] at h2
        simp only at h1 h2
        subst h1 h2
        exact Or.inr ⟨e, rfl, rfl⟩
theorem evalChildrenD_short (U : Uni) (E : SymEnv) (d : Nat) (ns : List Node) (h : d < pathLens unevaluated ns) :
    (evalChildrenD U E d ns).2.2 = some .recursion ∨
      ∃ e, (evalChildrenD U E d ns).2.2 = some (.py e) ∧ (evalChildren U E ns).2.2 = some e := by
  cases ns with
  | nil => simp [pathLens] at h
  | cons n ns =>
    rw [evalChildrenD, evalChildren]
    by_cases ht : n.res.truthy = true
    · rw [if_pos ht, if_pos ht]
      rw [pathLens_dropped ns (by simp [unevaluated, ht])] at h
      exact evalChildrenD_short U E d ns h
    · rw [if_neg ht, if_neg ht]
      rw [pathLens_kept ns (by simp [unevaluated, ht])] at h
      by_cases hn : d < pathLen unevaluated n
      · rcases evalNodeD_short U E d n hn with h1 | ⟨e, h1, h2⟩
        · rcases hc : evalNodeD U E d n with ⟨n', w, e'⟩
          rw [hc] at h1
          simp only at h1
          subst h1
          exact Or.inl rfl
        · rcases hc : evalNodeD U E d n with ⟨n', w, e'⟩
          rcases hc2 : evalNode U E n with ⟨n2, w2, e2⟩
          rw [hc] at h1
          rw [hc2] at h2
          simp only at h1 h2
          subst h1 h2
          exact Or.inr ⟨e, rfl, rfl⟩
      · rw [evalNodeD_enough U E d n (by omega)]
        rcases evalNode U E n with ⟨n', w, e⟩
        cases e with
        | some e => exact Or.inr ⟨e, rfl, rfl⟩
        | none => exact evalChildrenD_short U E d ns (by omega)
end

/-! ### The type checker -/

/-- The children `_scan_tree` descends into. -/
def scanned (n : Node) : Bool := !TC.skipped n

mutual
theorem scanD_enough (U : Uni) (d : Nat) (n : Node) (s : TC) (h : pathLen scanned n ≤ d) :
    TC.scanD U d n s = ((TC.scan U n s).1, (TC.scan U n s).2.map .py) := by
  cases n with
  | mk k t i r cs =>
    cases d with
    | zero => simp [pathLen] at h
    | succ d =>
      have ih := scanListD_enough U d cs s (by simp only [pathLen] at h; omega)
      rw [TC.scanD, ih, TC.scan]
      rcases TC.scanList U cs s with ⟨s1, e⟩
      cases e with
      | some e => rfl
      | none =>
        simp only [Option.map]
        cases s1.visit U (.mk k t i r cs) <;> rfl
theorem scanListD_enough (U : Uni) (d : Nat) (ns : List Node) (s : TC) (h : pathLens scanned ns ≤ d) :
    TC.scanListD U d ns s = ((TC.scanList U ns s).1, (TC.scanList U ns s).2.map .py) := by
  cases ns with
  | nil => simp [TC.scanListD, TC.scanList]
  | cons n ns =>
    rw [TC.scanListD, TC.scanList]
    by_cases ht : TC.skipped n = true
    · rw [if_pos ht, if_pos ht]
      rw [pathLens_dropped ns (by simp [scanned, ht])] at h
      rw [scanListD_enough U d ns s h]
    · rw [if_neg ht, if_neg ht]
      rw [pathLens_kept ns (by simp [scanned, ht])] at h
      rw [scanD_enough U d n s (by omega)]
      rcases TC.scan U n s with ⟨s1, e⟩
      cases e with
      | some e => rfl
      | none =>
        simp only [Option.map]
        rw [scanListD_enough U d ns s1 (by omega)]
        rfl
end

mutual
theorem scanD_short (U : Uni) (d : Nat) (n : Node) (s : TC) (h : d < pathLen scanned n) :
    (TC.scanD U d n s).2 = some .recursion ∨
      ∃ e, (TC.scanD U d n s).2 = some (.py e) ∧ (TC.scan U n s).2 = some e := by
  cases n with
  | mk k t i r cs =>
    cases d with
    | zero => exact Or.inl (by rw [TC.scanD])
    | succ d =>
      have ih := scanListD_short U d cs s (by simp only [pathLen] at h; omega)
      rw [TC.scanD, TC.scan]
      rcases ih with h1 | ⟨e, h1, h2⟩
      · rcases hc : TC.scanListD U d cs s with ⟨s1, e'⟩
        rw [hc] at h1
        simp only at h1
        subst h1
        exact Or.inl rfl
      · rcases hc : TC.scanListD U d cs s with ⟨s1, e'⟩
        rcases hc2 : TC.scanList U cs s with ⟨s2, e2⟩
        rw [hc] at h1
        rw [hc2] at h2
        simp only at h1 h2
        subst h1 h2
        exact Or.inr ⟨e, rfl, rfl⟩
theorem scanListD_short (U : Uni) (d : Nat) (ns : List Node) (s : TC) (h : d < pathLens scanned ns) :
    (TC.scanListD U d ns s).2 = some .recursion ∨
      ∃ e, (TC.scanListD U d ns s).2 = some (.py e) ∧ (TC.scanList U ns s).2 = some e := by
  cases ns with
  | nil => simp [pathLens] at h
  | cons n ns =>
    rw [TC.scanListD, TC.scanList]
    by_cases ht : TC.skipped n = true
    · rw [if_pos ht, if_pos ht]
      rw [pathLens_dropped ns (by simp [scanned, ht])] at h
      exact scanListD_short U d ns s h
    · rw [if_neg ht, if_neg ht]
      rw [pathLens_kept ns (by simp [scanned, ht])] at h
      by_cases hn : d < pathLen scanned n
      · rcases scanD_short U d n s hn with h1 | ⟨e, h1, h2⟩
        · rcases hc : TC.scanD U d n s with ⟨n', e'⟩
          rw [hc] at h1
          simp only at h1
          subst h1
          exact Or.inl rfl
        · rcases hc : TC.scanD U d n s with ⟨n', e'⟩
          rcases hc2 : TC.scan U n s with ⟨n2, e2⟩
          rw [hc] at h1
          rw [hc2] at h2
          simp only at h1 h2
          subst h1 h2
          exact Or.inr ⟨e, rfl, rfl⟩
      · rw [scanD_enough U d n s (by omega)]
        rcases TC.scan U n s with ⟨n', e⟩
        cases e with
        | some e => exact Or.inr ⟨e, rfl, rfl⟩
        | none => exact scanListD_short U d ns n' (by omega)
end

/-! ### The encoder -/

/-- Every child. -/
def anyNode (_ : Node) : Bool := true

mutual
theorem encodeNodeD_enough (U : Uni) (d : Nat) (n : Node) (h : pathLen anyNode n ≤ d) :
    encodeNodeD U d n = liftR (encodeNode U n) := by
  cases n with
  | mk k t i r cs =>
    cases d with
    | zero => simp [pathLen] at h
    | succ d =>
      rw [encodeNodeD, encodeNode, encodeNodesD_enough U d cs (by simp only [pathLen] at h; omega)]
      cases encodeRec U k t i (cs.map Node.id) with
      | error e => rfl
      | ok a => cases encodeNodes U cs <;> rfl
theorem encodeNodesD_enough (U : Uni) (d : Nat) (ns : List Node) (h : pathLens anyNode ns ≤ d) :
    encodeNodesD U d ns = liftR (encodeNodes U ns) := by
  cases ns with
  | nil => rw [encodeNodesD, encodeNodes]; rfl
  | cons n ns =>
    rw [pathLens_kept ns rfl] at h
    rw [encodeNodesD, encodeNodes, encodeNodeD_enough U d n (by omega), encodeNodesD_enough U d ns (by omega)]
    cases encodeNode U n with
    | error e => rfl
    | ok a => cases encodeNodes U ns <;> rfl
end

mutual
theorem encodeNodeD_short (U : Uni) (d : Nat) (n : Node) (h : d < pathLen anyNode n) :
    encodeNodeD U d n = .error .recursion ∨
      ∃ e, encodeNodeD U d n = .error (.py e) ∧ encodeNode U n = .error e := by
  cases n with
  | mk k t i r cs =>
    cases d with
    | zero => exact Or.inl (by rw [encodeNodeD])
    | succ d =>
      have ih := encodeNodesD_short U d cs (by simp only [pathLen] at h; omega)
      rw [encodeNodeD, encodeNode]
      cases encodeRec U k t i (cs.map Node.id) with
      | error e => exact Or.inr ⟨e, rfl, rfl⟩
      | ok a =>
        rcases ih with h1 | ⟨e, h1, h2⟩
        · rw [h1]; exact Or.inl rfl
        · rw [h1, h2]; exact Or.inr ⟨e, rfl, rfl⟩
theorem encodeNodesD_short (U : Uni) (d : Nat) (ns : List Node) (h : d < pathLens anyNode ns) :
    encodeNodesD U d ns = .error .recursion ∨
      ∃ e, encodeNodesD U d ns = .error (.py e) ∧ encodeNodes U ns = .error e := by
  cases ns with
  | nil => simp [pathLens] at h
  | cons n ns =>
    rw [pathLens_kept ns rfl] at h
    rw [encodeNodesD, encodeNodes]
    by_cases hn : d < pathLen anyNode n
    · rcases encodeNodeD_short U d n hn with h1 | ⟨e, h1, h2⟩
      · rw [h1]; exact Or.inl rfl
      · rw [h1, h2]; exact Or.inr ⟨e, rfl, rfl⟩
    · rw [encodeNodeD_enough U d n (by omega)]
      cases encodeNode U n with
      | error e => exact Or.inr ⟨e, rfl, rfl⟩
      | ok a =>
        rcases encodeNodesD_short U d ns (by omega) with h1 | ⟨e, h1, h2⟩
        · rw [h1]; exact Or.inl rfl
        · rw [h1, h2]; exact Or.inr ⟨e, rfl, rfl⟩
end

/-! ### Comparison of trees -/

mutual
theorem eqD_enough (d : Nat) (n m : Node) (h : pathLen anyNode n ≤ d) : Node.eqD d n m = some (n.eq m) := by
  cases n with
  | mk k t i r cs =>
    cases m with
    | mk k' t' i' r' cs' =>
      cases d with
      | zero => simp [pathLen] at h
      | succ d =>
        rw [Node.eqD, Node.eq, eqListD_enough d cs cs' (by simp only [pathLen] at h; omega)]
        split <;> rfl
theorem eqListD_enough (d : Nat) (ns ms : List Node) (h : pathLens anyNode ns ≤ d) :
    Node.eqListD d ns ms = some (Node.eqList ns ms) := by
  cases ns with
  | nil => simp [Node.eqListD, Node.eqList]
  | cons n ns =>
    rw [pathLens_kept ns rfl] at h
    cases ms with
    | nil => simp [Node.eqListD, Node.eqList]
    | cons m ms =>
      rw [Node.eqListD, Node.eqList, eqD_enough d n m (by omega)]
      cases n.eq m with
      | true => exact eqListD_enough d ns ms (by omega)
      | false => rfl
end

mutual
theorem eqD_short (d : Nat) (n m : Node) (h : d < pathLen anyNode n) :
    Node.eqD d n m = none ∨ Node.eqD d n m = some false ∧ n.eq m = false := by
  cases n with
  | mk k t i r cs =>
    cases m with
    | mk k' t' i' r' cs' =>
      cases d with
      | zero => exact Or.inl (by rw [Node.eqD])
      | succ d =>
        rw [Node.eqD, Node.eq]
        by_cases hc : (t.eq t' && cs.length == cs'.length) = true
        · rw [if_pos hc, if_pos hc]
          exact eqListD_short d cs cs' (by simp only [pathLen] at h; omega)
        · rw [if_neg hc, if_neg hc]
          exact Or.inr ⟨rfl, rfl⟩
theorem eqListD_short (d : Nat) (ns ms : List Node) (h : d < pathLens anyNode ns) :
    Node.eqListD d ns ms = none ∨ Node.eqListD d ns ms = some false ∧ Node.eqList ns ms = false := by
  cases ns with
  | nil => simp [pathLens] at h
  | cons n ns =>
    rw [pathLens_kept ns rfl] at h
    cases ms with
    | nil => exact Or.inr (by simp [Node.eqListD, Node.eqList])
    | cons m ms =>
      rw [Node.eqListD, Node.eqList]
      by_cases hn : d < pathLen anyNode n
      · rcases eqD_short d n m hn with h1 | ⟨h1, h2⟩
        · rw [h1]; exact Or.inl rfl
        · rw [h1, h2]; exact Or.inr ⟨rfl, rfl⟩
      · rw [eqD_enough d n m (by omega)]
        cases n.eq m with
        | true => exact eqListD_short d ns ms (by omega)
        | false => exact Or.inr ⟨rfl, rfl⟩
end

end Verif.Proofs
