import Verif.Props.Evaluation
import Verif.Proofs.Again
/-!
# C122: evaluating a policy again with other symbol tables
-/

namespace Verif.Props
open Verif Verif.Spec Verif.Proofs

theorem rel_heap {E E' : SymEnv} (h : E.heap = E'.heap) : Rel E = Rel E' := by
  funext x d
  cases x <;> simp only [Rel, h]

theorem holdsOperand_heap {E E' : SymEnv} (h : E.heap = E'.heap) : HoldsOperand E = HoldsOperand E' := by
  have hr := rel_heap h
  funext v l n
  cases v <;> simp only [HoldsOperand, HeldRes, Keeps, hr]

theorem stays_heap {E E' : SymEnv} (h : E.heap = E'.heap) (U : Uni) (p : Policy) : Stays U E p = Stays U E' p := by
  have ho := holdsOperand_heap h
  induction p with
  | cmp l o r => funext k n; simp only [Stays, ho]
  | lit t => rfl
  | att t => funext k n; simp only [Stays, ho]
  | not m p ih => funext k n; simp only [Stays, ih]
  | bin o p q ihp ihq => funext k n; simp only [Stays, ihp, ihq]

theorem holdsRoot_heap {E E' : SymEnv} (h : E.heap = E'.heap) (U : Uni) (p : Policy) :
    HoldsRoot U E p = HoldsRoot U E' p := by
  have ho := holdsOperand_heap h
  cases p with
  | cmp l o r => funext k n; simp only [HoldsRoot, ho]
  | lit t => rfl
  | att t => rfl
  | not m p => funext k n; simp only [HoldsRoot, stays_heap h]
  | bin o p q => funext k n; simp only [HoldsRoot, stays_heap h]

/-- What the tables of earlier calls say, the latest first. -/
def historyOf (U : Uni) (H : Heap) (calls : List (SymTab × Option Int)) : List Atts :=
  (calls.map fun c => attsOf U ⟨c.1, H⟩).reverse

/-- The interpreter after the calls, over one heap of symbol objects. -/
def afterTables (U : Uni) (H : Heap) (s : Interp) (calls : List (SymTab × Option Int)) : Interp :=
  afterCalls U s (calls.map fun c => (⟨c.1, H⟩, c.2))

theorem afterTables_holds {U : Uni} (hU : U.Lawful) {H : Heap} (hH : ∀ tab, SymEnv.SetsOk ⟨tab, H⟩) {p : Policy} (k : Nat)
    (hw : p.WF) (ho : p.OpsOk) (hn : p.NamesOk) (calls : List (SymTab × Option Int)) (tab : SymTab) :
    HoldsRoot U ⟨tab, H⟩ p (historyOf U H calls) (afterTables U H ⟨(p.build U k).1, []⟩ calls).ast ∧
    (afterTables U H ⟨(p.build U k).1, []⟩ calls).warnings = warningsAgain U p (historyOf U H calls) := by
  induction calls using List.reverseRecOn generalizing tab with
  | nil => exact ⟨holdsRoot_build U _ p k, rfl⟩
  | append_singleton cs c ih =>
    obtain ⟨h1, h2⟩ := ih c.1
    have e1 : historyOf U H (cs ++ [c]) = attsOf U ⟨c.1, H⟩ :: historyOf U H cs := by simp [historyOf]
    have e2 : afterTables U H ⟨(p.build U k).1, []⟩ (cs ++ [c]) =
        (Interp.evaluate U ⟨c.1, H⟩ c.2 (afterTables U H ⟨(p.build U k).1, []⟩ cs)).1 := by
      simp [afterTables, afterCalls, List.foldl_append]
    obtain ⟨g1, g2⟩ := root_step hU (hH c.1) p _ _ hw ho hn h1
    rw [e1, e2, evaluate_state]
    refine ⟨?_, ?_⟩
    · rw [holdsRoot_heap (E := ⟨tab, H⟩) (E' := ⟨c.1, H⟩) rfl]
      exact g2
    · simp only [warningsAgain, h2, g1.1]

/-- **C122**: whatever tables an interpreter was called with before, at whatever levels, and whatever these calls raised, one
more call gives exactly what `policyAgain` says: parts that were TRUE and attributes that were found are kept. -/
theorem reevaluate_exact (U : Uni) (hU : U.Lawful) (H : Heap) (hH : ∀ tab, SymEnv.SetsOk ⟨tab, H⟩) (text : Str) (p : Policy)
    (hp : PolicyOf U text p) (k : Nat) (calls : List (SymTab × Option Int)) (tab : SymTab) (level : Option Int) :
    ∃ n k', parseText U k text = .ok (n, k') ∧
      (Interp.evaluate U ⟨tab, H⟩ level (afterTables U H ⟨n, []⟩ calls)).1.warnings =
        warningsAgain U p (attsOf U ⟨tab, H⟩ :: historyOf U H calls) ∧
      (Interp.evaluate U ⟨tab, H⟩ level (afterTables U H ⟨n, []⟩ calls)).2.map (resultDen ⟨tab, H⟩) =
        (outcome level (warningsAgain U p (attsOf U ⟨tab, H⟩ :: historyOf U H calls),
          (policyAgain U p (attsOf U ⟨tab, H⟩ :: historyOf U H calls)).2)).map some := by
  obtain ⟨hw, ho, hn⟩ := policyOf_ok hp
  refine ⟨_, _, (parseText_iff hU k _ text _).2 ⟨p, hp, rfl⟩, ?_⟩
  obtain ⟨h1, h2⟩ := afterTables_holds hU hH k hw ho hn calls tab
  obtain ⟨⟨g1, g2⟩, -⟩ := root_step hU (hH tab) p _ _ hw ho hn h1
  refine ⟨?_, ?_⟩
  · rw [evaluate_state]
    simp only [warningsAgain, h2, g1]
  · simp only [warningsAgain]
    generalize policyAgain U p _ = o at g1 g2 ⊢
    obtain ⟨ow, oo⟩ := o
    unfold Interp.evaluate
    rw [h2]
    generalize evalNode U ⟨tab, H⟩ _ = x at g1 g2 ⊢
    obtain ⟨n, w, e⟩ := x
    simp only at g1
    subst g1
    rw [← outcome_again (E := ⟨tab, H⟩) (n := n) (w := w) (e := e) (acc := warningsAgain U p (historyOf U H calls))
      (o := (warningsAgain U p (historyOf U H calls) ++ w, oo)) ⟨fun v hv => List.mem_append_right _ hv, g2⟩ ⟨[], by simp, fun _ => rfl⟩]
    cases e with
    | some e => rfl
    | none => simp only; cases raiseWarnings level _ <;> rfl

/-! ### What the exact answer means -/

theorem attAgain_one (t : Token) (A : Atts) : attAgain t [A] = semAtt A t := rfl

theorem operandAgain_one (v : Operand) (A : Atts) : operandAgain v [A] = semOperand A v := by
  cases v <;> rfl

theorem both_one {F G : List Atts → Eff Den} {c : Den → Den → Eff Den} {A : Atts} :
    both F G c [A] = (F [A]).bind fun a => (G [A]).bind fun b => c a b := by
  unfold both
  simp only [visits]
  cases h : F [A] with
  | mk w o => cases o <;> rfl

theorem again_one_table (U : Uni) (p : Policy) (A : Atts) : again U p [A] = sem U A p := by
  have hs : ∀ body : List Atts → Eff Den, stick body [A] = body [A] := by
    intro body
    rw [stick, if_neg (by simp [stick, Eff.fail])]
  induction p with
  | cmp l o r =>
    rw [again, hs, both_one, sem]
    simp only [operandAgain_one]
  | lit t => rfl
  | att t => rfl
  | not n p ih => rw [again, hs, sem_not, ih, notAgain_eq]
  | bin o p q ihp ihq => rw [again, hs, both_one, sem_bin, ihp, ihq, binAgain_eq]

/-- **C122**: the first evaluation is the meaning of the policy. -/
theorem policyAgain_one (U : Uni) (p : Policy) (A : Atts) : policyAgain U p [A] = semPolicy U A p := by
  cases p with
  | cmp l o r =>
    rw [policyAgain, both_one]
    simp only [operandAgain_one]
    rfl
  | lit t => rfl
  | att t => rfl
  | not n p => simp only [policyAgain]; rw [again_one_table, notAgain_eq]; exact (sem_not U A n p).symm
  | bin o p q => rw [policyAgain, both_one, again_one_table, again_one_table, binAgain_eq]; exact (sem_bin U A o p q).symm

/-- **C122**: below the root, TRUE stays TRUE. -/
theorem true_kept (U : Uni) (p : Policy) (h : List Atts) (A : Atts) (ht : (again U p h).2 = .ok (.truth .true)) :
    (again U p (A :: h)).2 = .ok (.truth .true) := by
  have hs : ∀ body : List Atts → Eff Den, (stick body h).2 = .ok (.truth .true) →
      (stick body (A :: h)).2 = .ok (.truth .true) := by
    intro body hb
    rw [stick, if_pos hb]
    rfl
  cases p with
  | cmp l o r => exact hs _ ht
  | lit t => exact ht
  | att t =>
    cases h with
    | nil => simp [again, attAgain, Eff.fail] at ht
    | cons B h =>
      simp only [again, attAgain] at ht ⊢
      simp only [held]
      cases hh : held t h with
      | some d => rw [hh] at ht; exact ht
      | none =>
        rw [hh] at ht
        simp only at ht
        simp only [ht]
        rfl
  | not n p => exact hs _ ht
  | bin o p q => exact hs _ ht

theorem both_inv {F G : List Atts → Eff Den} {c : Den → Den → Eff Den} {h : List Atts} {d : Den}
    (hd : (both F G c h).2 = .ok d) :
    ∃ a b, (F h).2 = .ok a ∧ (G (visits F h)).2 = .ok b ∧ (c a b).2 = .ok d := by
  unfold both at hd
  obtain ⟨a, ha, hd⟩ := bind_ok hd
  obtain ⟨b, hb, hd⟩ := bind_ok hd
  exact ⟨a, b, ha, hb, hd⟩

/-- **C122**: a conjunction that was TRUE stays TRUE, whatever tables follow. -/
theorem and_kept (U : Uni) (o : Token) (ho : o.value = .str "AND".toList) (p q : Policy) (h : List Atts) (A : Atts)
    (ht : (policyAgain U (.bin o p q) h).2 = .ok (.truth .true)) :
    (policyAgain U (.bin o p q) (A :: h)).2 = .ok (.truth .true) := by
  obtain ⟨a, b, h1, h2, h3⟩ := both_inv ht
  rw [binAgain_eq] at h3
  have hab : a = .truth .true ∧ b = .truth .true := by
    cases a <;> cases b <;> simp [binOut, Eff.pure, Eff.fail] at h3
    rename_i v w
    rw [kleene, if_pos ho] at h3
    cases v <;> cases w <;> first | exact ⟨rfl, rfl⟩ | exact absurd h3 (by decide)
  obtain ⟨rfl, rfl⟩ := hab
  have k1 := true_kept U p h A h1
  have k2 := true_kept U q _ A h2
  rw [policyAgain, both, eff_bind_ok k1]
  simp only [visits, k1]
  rw [eff_bind_ok k2, binAgain, kleene, if_pos ho]
  rfl

/-- **C122**: a disjunction that was TRUE is never FALSE or UNDEF again; it can only raise. -/
theorem or_kept (U : Uni) (o : Token) (ho : o.value = .str "OR".toList) (p q : Policy) (h : List Atts) (A : Atts)
    (ht : (policyAgain U (.bin o p q) h).2 = .ok (.truth .true)) (d : Den)
    (hd : (policyAgain U (.bin o p q) (A :: h)).2 = .ok d) : d = .truth .true := by
  have hne : ¬ o.value = .str "AND".toList := by rw [ho]; decide
  obtain ⟨a, b, h1, h2, h3⟩ := both_inv ht
  obtain ⟨a', b', g1, g2, g3⟩ := both_inv hd
  rw [binAgain_eq] at h3 g3
  cases a <;> cases b <;> simp [binOut, Eff.pure, Eff.fail] at h3
  cases a' <;> cases b' <;> simp [binOut, Eff.pure, Eff.fail] at g3
  rename_i v w v' w'
  rw [kleene, if_neg hne] at h3 g3
  have hvw : v = .true ∨ w = .true := by
    cases v <;> cases w <;> first | exact Or.inl rfl | exact Or.inr rfl | exact absurd h3 (by decide)
  rcases hvw with rfl | rfl
  · have k1 := true_kept U p h A h1
    rw [g1] at k1
    simp only [Except.ok.injEq, Den.truth.injEq] at k1
    subst k1
    rw [← g3]
    cases w' <;> rfl
  · have k2 := true_kept U q _ A h2
    rw [visits, g1] at g2
    simp only at g2
    rw [g2] at k2
    simp only [Except.ok.injEq, Den.truth.injEq] at k2
    subst k2
    rw [← g3]
    cases v' <;> rfl

/-- **C122**: a negation that was FALSE stays FALSE. -/
theorem not_kept (U : Uni) (n : Token) (p : Policy) (h : List Atts) (A : Atts)
    (hf : (policyAgain U (.not n p) h).2 = .ok (.truth .false)) :
    (policyAgain U (.not n p) (A :: h)).2 = .ok (.truth .false) := by
  simp only [policyAgain, notAgain_eq] at hf ⊢
  obtain ⟨a, h1, h3⟩ := bind_ok hf
  have ha : a = .truth .true := by
    cases a <;> simp [notOut, Eff.pure, Eff.fail] at h3
    rename_i v
    cases v <;> first | rfl | exact absurd h3 (by decide)
  subst ha
  rw [eff_bind_ok (true_kept U p h A h1)]
  rfl

/-- **C122**: a comparison whose attributes were all found the first time, none of them FALSE, gives the first answer for ever. -/
theorem cmp_kept (U : Uni) (l r : Operand) (o : Token) (A : Atts) (h : List Atts)
    (hl : ∀ t, l = .att t → ∃ d, (semAtt A t).2 = .ok d ∧ Lasting d)
    (hr : ∀ t, r = .att t → ∃ d, (semAtt A t).2 = .ok d ∧ Lasting d) :
    (policyAgain U (.cmp l o r) (h ++ [A])).2 = (semPolicy U A (.cmp l o r)).2 := by
  have hheld : ∀ t d, (semAtt A t).2 = .ok d → Lasting d → ∀ h : List Atts, held t (h ++ [A]) = some d := by
    intro t d hd hL h
    induction h with
    | nil => simp [held, hd, hL]
    | cons B h ih => simp only [List.cons_append, held, ih]
  have hop : ∀ v : Operand, (∀ t, v = .att t → ∃ d, (semAtt A t).2 = .ok d ∧ Lasting d) → ∀ h : List Atts,
      (operandAgain v (h ++ [A])).2 = (semOperand A v).2 := by
    intro v hv h
    cases v with
    | att t =>
      obtain ⟨d, hd, hL⟩ := hv t rfl
      cases h with
      | nil => rfl
      | cons B h =>
        simp only [operandAgain, List.cons_append, attAgain, hheld t d hd hL h, semOperand, hd]
        rfl
    | atom t => rfl
    | set b es => rfl
  have hb : ∀ {x y : Eff Den} {f g : Den → Eff Den}, x.2 = y.2 → (∀ a, x.2 = .ok a → (f a).2 = (g a).2) →
      (x.bind f).2 = (y.bind g).2 := by
    rintro ⟨w, a⟩ ⟨w', b⟩ f g hxy hfg
    simp only at hxy
    subst hxy
    cases a with
    | error e => rfl
    | ok a => exact hfg a rfl
  have hvis : ∀ a, (semOperand A l).2 = .ok a → ∀ h : List Atts, ∃ h', visits (operandAgain l) (h ++ [A]) = h' ++ [A] := by
    intro a ha h
    induction h with
    | nil =>
      refine ⟨[], ?_⟩
      have := hop l hl []
      simp only [List.nil_append] at this ⊢
      simp only [visits, this, ha]
    | cons B h ih =>
      obtain ⟨h', hh'⟩ := ih
      have := hop l hl (B :: h)
      simp only [List.cons_append] at this ⊢
      simp only [visits, this, ha, hh']
      exact ⟨B :: h', rfl⟩
  show (both _ _ _ _).2 = ((semOperand A l).bind fun a => (semOperand A r).bind fun b => semCmp o a b).2
  unfold both
  refine hb (hop l hl h) fun a ha => ?_
  rw [hop l hl h] at ha
  obtain ⟨h', hh'⟩ := hvis a ha h
  rw [hh']
  exact hb (hop r hr h') fun b _ => rfl

/-! ### Instances -/

/-- The last result of calls over `sampleHeap` with one interpreter. -/
def lastOf (text : String) (tabs : List (List (String × Nat))) (tab : List (String × Nat)) : Option (Except PyExc Res) :=
  match parseText asciiUni 0 text.toList with
  | .ok (n, _) => some (Interp.evaluate asciiUni (sampleEnv tab) (some 3)
      (afterCalls asciiUni ⟨n, []⟩ (tabs.map fun t => (sampleEnv t, some 3)))).2
  | .error _ => none

theorem sampleHeap_setsOk (tab : SymTab) : SymEnv.SetsOk ⟨tab, sampleHeap⟩ := by
  intro r m h
  exact sampleEnv_setsOk [] r m h

/-- `reevaluate_exact`: the heap, and a policy. -/
example : (∀ tab, SymEnv.SetsOk ⟨tab, sampleHeap⟩) ∧ ∃ p, PolicyOf asciiUni "user.a = 1 AND user.s = \"x\"".toList p :=
  ⟨sampleHeap_setsOk, policyOf_parsed (by decide +kernel)⟩

/-- `and_kept`: TRUE for ever, although a new interpreter says UNDEF. -/
example : lastOf "user.a = 1 AND user.s = \"x\"" [] [("user.a", 0), ("user.s", 2)] = some (.ok (.tri .true)) ∧
    lastOf "user.a = 1 AND user.s = \"x\"" [[("user.a", 0), ("user.s", 2)]] [] = some (.ok (.tri .true)) ∧
    lastOf "user.a = 1 AND user.s = \"x\"" [] [] = some (.ok (.tri .undef)) := by decide +kernel

/-- `or_kept`: TRUE, then an exception. -/
example : lastOf "user.b OR NOT user.a" [] [("user.b", 3)] = some (.ok (.tri .true)) ∧
    lastOf "user.b OR NOT user.a" [[("user.b", 3)]] [] = some (.ok (.tri .true)) ∧
    lastOf "user.b OR NOT user.a" [[("user.b", 3)]] [("user.a", 0)] =
      some (.error (.interpreterError 10 "evaluate_not_node")) := by decide +kernel

/-- `not_kept`: a refusal for ever. TRUE is not kept at a NOT. -/
example : lastOf "NOT (user.a = 1)" [[("user.a", 0)]] [("user.a", 1)] = some (.ok (.tri .false)) ∧
    lastOf "NOT (user.a = 1)" [] [("user.a", 1)] = some (.ok (.tri .true)) ∧
    lastOf "NOT user.b" [[("user.b", 3)]] [] = some (.ok (.tri .false)) := by decide +kernel

/-- `cmp_kept`: the attribute found first counts; one that was missing is looked up again. -/
example : lastOf "user.a = 1" [[("user.a", 0)], [("user.a", 1)]] [("user.a", 1)] = some (.ok (.tri .true)) ∧
    lastOf "user.a = 1" [[], []] [("user.a", 0)] = some (.ok (.tri .true)) ∧
    (semAtt (attsOf asciiUni (sampleEnv [("user.a", 0)])) ⟨.usrAtt, 0, .str "a".toList⟩).2 = .ok (.single (.atom (.int 1))) := by
  decide +kernel

/-! ### Sets in trees that do not come from the parser -/

/-- The element `n` of a set has the value `a` and it counts. -/
def Usable (n : Node) (a : Atom) : Prop := n.res = .atom a ∧ n.res.truthy = true

theorem evalSetLoop_usable (pre : List Node) (l : List Atom) (h : List.Forall₂ Usable pre l) (acc : List Atom) (post : List Node) :
    evalSetLoop acc (pre ++ post) = evalSetLoop (acc ++ l) post := by
  induction h generalizing acc with
  | nil => simp
  | cons hn _ ih =>
    rw [List.cons_append, evalSetLoop, hn.1]
    have := hn.2
    rw [hn.1] at this
    simp only [this, if_true]
    rw [ih]
    simp

/-- Evaluating a set keeps the elements before the first one that does not count, and raises exactly if there is one. -/
theorem set_exact (t : Token) (cs : List Node) (r : Res) (w : List Warn) (e : Option PyExc) :
    evalSet t cs = (r, w, e) ↔ w = [] ∧ ∃ pre l post, cs = pre ++ post ∧ List.Forall₂ Usable pre l ∧ r = .list l ∧
      ((post = [] ∧ e = none) ∨
        ∃ n post', post = n :: post' ∧ (∀ a, ¬ Usable n a) ∧ e = some (.interpreterError t.pos "evaluate_set_node")) := by
  have key : ∀ (pre : List Node) (l : List Atom) (post : List Node), List.Forall₂ Usable pre l →
      (post = [] → evalSet t (pre ++ post) = (.list l, [], none)) ∧
      (∀ n post', post = n :: post' → (∀ a, ¬ Usable n a) →
        evalSet t (pre ++ post) = (.list l, [], some (.interpreterError t.pos "evaluate_set_node"))) := by
    intro pre l post h
    refine ⟨?_, ?_⟩
    · rintro rfl
      unfold evalSet
      rw [evalSetLoop_usable pre l h]
      simp [evalSetLoop]
    · rintro n post' rfl hn
      unfold evalSet
      rw [evalSetLoop_usable pre l h]
      have : evalSetLoop ([] ++ l) (n :: post') = (l, false) := by
        rw [evalSetLoop]
        cases hr : n.res with
        | atom a =>
          have : ¬ (Res.atom a).truthy = true := fun ht => hn a ⟨hr, by rw [hr]; exact ht⟩
          simp [this]
        | _ => simp
      rw [this]
  have ex : ∀ cs : List Node, ∃ pre l post, cs = pre ++ post ∧ List.Forall₂ Usable pre l ∧
      (post = [] ∨ ∃ n post', post = n :: post' ∧ ∀ a, ¬ Usable n a) := by
    intro cs
    induction cs with
    | nil => exact ⟨[], [], [], rfl, .nil, Or.inl rfl⟩
    | cons n cs ih =>
      by_cases hn : ∃ a, Usable n a
      · obtain ⟨a, ha⟩ := hn
        obtain ⟨pre, l, post, rfl, h, hp⟩ := ih
        exact ⟨n :: pre, a :: l, post, rfl, .cons ha h, hp⟩
      · exact ⟨[], [], n :: cs, rfl, .nil, Or.inr ⟨n, cs, rfl, fun a ha => hn ⟨a, ha⟩⟩⟩
  constructor
  · intro h
    obtain ⟨pre, l, post, rfl, hl, hp⟩ := ex cs
    rcases hp with rfl | ⟨n, post', rfl, hn⟩
    · rw [(key pre l [] hl).1 rfl] at h
      cases h
      exact ⟨rfl, pre, l, [], rfl, hl, rfl, Or.inl ⟨rfl, rfl⟩⟩
    · rw [(key pre l _ hl).2 n post' rfl hn] at h
      cases h
      exact ⟨rfl, pre, l, _, rfl, hl, rfl, Or.inr ⟨n, post', rfl, hn, rfl⟩⟩
  · rintro ⟨rfl, pre, l, post, rfl, hl, rfl, ⟨rfl, rfl⟩ | ⟨n, post', rfl, hn, rfl⟩⟩
    · exact (key pre l [] hl).1 rfl
    · exact (key pre l _ hl).2 n post' rfl hn

/-- A set that raised at an element after the first is taken in later calls as the set of the elements before: a tree `1 IN {1, TRUE}`,
which the parser does not make, raises in the first call and is TRUE in the second. -/
theorem set_cut :
    let one : Nat → Node := fun i => .mk .intVal ⟨.int, 0, .int 1⟩ i (.atom (.int 1)) []
    let tree : Node := .mk .op ⟨.op, 2, .str "IN".toList⟩ 5 .none
      [one 1, .mk .set ⟨.lset, 5, .none⟩ 4 .none [one 2, .mk .boolVal ⟨.bool, 9, .str "TRUE".toList⟩ 3 (.tri .true) []]]
    let E : SymEnv := sampleEnv []
    (Interp.evaluate asciiUni E (some 3) ⟨tree, []⟩).2 = .error (.interpreterError 5 "evaluate_set_node") ∧
      (Interp.evaluate asciiUni E (some 3) (Interp.evaluate asciiUni E (some 3) ⟨tree, []⟩).1).2 = .ok (.tri .true) := by
  decide +kernel

end Verif.Props
