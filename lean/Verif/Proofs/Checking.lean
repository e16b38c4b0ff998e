import Verif.Spec.Checking
import Verif.Model.TypeChecker
import Verif.Props.Symbols
/-!
# The type checker follows `Spec/Checking.lean`
-/

namespace Verif.Proofs
open Verif Verif.Spec Verif.Props

/-! ### The abstract table -/

theorem firsts_snoc (acc ks : List Str) (k : Str) :
    firsts acc (ks ++ [k]) = if k ∈ firsts acc ks then firsts acc ks else firsts acc ks ++ [k] := by
  induction ks generalizing acc with
  | nil => rfl
  | cons j ks ih => rw [List.cons_append, firsts, firsts, ih]

theorem mem_firsts (acc ks : List Str) (x : Str) : x ∈ firsts acc ks ↔ x ∈ acc ∨ x ∈ ks := by
  induction ks generalizing acc with
  | nil => simp [firsts]
  | cons j ks ih =>
    rw [firsts, ih]
    by_cases h : j ∈ acc
    · rw [if_pos h, List.mem_cons]
      constructor
      · rintro (h1 | h1)
        · exact Or.inl h1
        · exact Or.inr (Or.inr h1)
      · rintro (h1 | rfl | h1)
        · exact Or.inl h1
        · exact Or.inl h
        · exact Or.inr h1
    · rw [if_neg h]; simp [or_assoc]

theorem find_key {U : Uni} {atts : List Token} {t : Token} (h : t ∈ atts) :
    ∃ u ∈ atts, attKey U u = attKey U t ∧ atts.find? (fun x => attKey U x = attKey U t) = some u := by
  cases hf : atts.find? (fun x => attKey U x = attKey U t) with
  | none =>
    have := List.find?_eq_none.1 hf t h
    simp at this
  | some u =>
    have h1 := List.find?_some hf
    exact ⟨u, List.mem_of_find?_eq_some hf, by simpa using h1, rfl⟩

/-- The evidence a comparison gives on the type filed under a key. -/
def evidenceFor (U : Uni) (c : Cmp) (k : Str) : Option SymType :=
  c.evidence.bind fun e => if attKey U e.1 = k ∧ e.2 ≠ .unknown then some e.2 else none

theorem typeAt_snoc (U : Uni) (prior : List Cmp) (c : Cmp) (k : Str) :
    typeAt U (prior ++ [c]) k =
      if typeAt U prior k = .unknown then (evidenceFor U c k).getD .unknown else typeAt U prior k := by
  have hne : ∀ l : List Cmp, ∀ x, (l.findSome? fun c => evidenceFor U c k) = some x → x ≠ .unknown := by
    intro l x h
    obtain ⟨c, _, h1⟩ := List.exists_of_findSome?_eq_some h
    unfold evidenceFor at h1
    rw [Option.bind_eq_some_iff] at h1
    obtain ⟨e, _, h2⟩ := h1
    by_cases hh : attKey U e.1 = k ∧ e.2 ≠ .unknown
    · rw [if_pos hh] at h2; cases h2; exact hh.2
    · rw [if_neg hh] at h2; cases h2
  unfold typeAt
  change (List.findSome? (fun c => evidenceFor U c k) (prior ++ [c])).getD .unknown =
    if (List.findSome? (fun c => evidenceFor U c k) prior).getD .unknown = .unknown then _ else
      (List.findSome? (fun c => evidenceFor U c k) prior).getD .unknown
  rw [List.findSome?_append]
  cases hp : List.findSome? (fun c => evidenceFor U c k) prior with
  | none =>
    simp only [Option.none_or, Option.getD_none, if_true, List.findSome?_cons, List.findSome?_nil]
    cases evidenceFor U c k <;> rfl
  | some x =>
    simp only [Option.some_or, Option.getD_some]
    rw [if_neg (hne _ _ hp)]

/-- What holds between two steps of the scan. -/
structure Inv (U : Uni) (atts : List Token) (prior : List Cmp) (s : TC) : Prop where
  sim : Sim U ⟨s.heap, s.next, s.tab⟩ (checkedMap U atts prior)
  rest : ∀ k, (∀ t ∈ atts, attKey U t ≠ k) → typeAt U prior k = .unknown

/-- A checker that has seen nothing. -/
theorem inv_start (U : Uni) (h : Heap) (r : Nat) : Inv U [] [] { heap := h, next := r } where
  sim := { order := rfl, content := fun _ => rfl, filed := fun e he => absurd he (by simp),
           nodup := by simp [SymTab.names] }
  rest := fun _ _ => rfl

theorem define_map (U : Uni) (atts : List Token) (prior : List Cmp) (t : Token) (hf : Folds U t)
    (hr : ∀ k, (∀ t ∈ atts, attKey U t ≠ k) → typeAt U prior k = .unknown) :
    ((checkedMap U atts prior).step U (.define (attName t) (some t.type) (some .unknown) (.sc .none))).1 =
      checkedMap U (atts ++ [t]) prior := by
  unfold SymMap.step
  dsimp only
  rw [show U.lower (fullPrefix (some t.type) ++ U.lower (attName t)) = attKey U t from hf]
  cases hc : (checkedMap U atts prior).content (attKey U t) with
  | some x =>
    dsimp only
    have hm : ∃ u ∈ atts, attKey U u = attKey U t := by
      unfold checkedMap at hc
      simp only [Option.map_eq_some_iff] at hc
      obtain ⟨u, h1, _⟩ := hc
      exact ⟨u, List.mem_of_find?_eq_some h1, by simpa using List.find?_some h1⟩
    obtain ⟨u, hu, hk⟩ := hm
    unfold checkedMap
    congr 1
    · rw [List.map_append, List.map_singleton, firsts_snoc, if_pos]
      rw [mem_firsts]
      exact Or.inr (hk ▸ List.mem_map_of_mem hu)
    · funext k
      rw [List.find?_append]
      by_cases h : attKey U t = k
      · obtain ⟨v, _, _, hv⟩ := find_key (U := U) hu
        rw [hk, h] at hv
        rw [hv]; rfl
      · simp [h]
  | none =>
    dsimp only
    have hm : ∀ u ∈ atts, attKey U u ≠ attKey U t := by
      intro u hu hk
      obtain ⟨v, _, _, hv⟩ := find_key (U := U) hu
      rw [hk] at hv
      unfold checkedMap at hc
      simp [hv] at hc
    unfold checkedMap SymMap.set
    dsimp only
    congr 1
    · rw [List.map_append, List.map_singleton, firsts_snoc, if_neg]
      rw [mem_firsts]
      rintro (h | h)
      · simp at h
      · obtain ⟨u, hu, hk⟩ := List.mem_map.1 h
        exact hm u hu hk
    · funext k
      by_cases h : k = attKey U t
      · subst h
        rw [if_pos rfl, List.find?_append]
        have : List.find? (fun x => decide (attKey U x = attKey U t)) atts = none := by
          rw [List.find?_eq_none]; simpa using hm
        rw [this]
        simp only [Option.none_or, List.find?_cons, decide_true, Option.map_some, Option.getD_some]
        rw [hr _ hm]
        rfl
      · rw [if_neg h, List.find?_append]
        have h' : attKey U t ≠ k := fun e => h e.symm
        simp [h']

theorem attNode_step {U : Uni} {atts : List Token} {prior : List Cmp} {s : TC} (hi : Inv U atts prior s) {t : Token}
    (hf : Folds U t) (hn : ∃ v, t.value = .str v) :
    ∃ s', s.attNode U t = .ok s' ∧ Inv U (atts ++ [t]) prior s' ∧ s'.issues = s.issues ∧ s'.checked = s.checked := by
  obtain ⟨v, hv⟩ := hn
  have hv' : attName t = v := by unfold attName; rw [hv]
  have e : s.attNode U t = .ok { s with
      heap := s.heap.write s.next (Symbol.new U v (some t.type) (some .unknown) (.sc .none)), next := s.next + 1,
      tab := (s.tab.define U (s.heap.write s.next (Symbol.new U v (some t.type) (some .unknown) (.sc .none)))
        s.next).1 } := by unfold TC.attNode; rw [hv]
  refine ⟨_, e, ⟨?_, ?_⟩, rfl, rfl⟩
  · have h := (sim_step hi.sim (.define (attName t) (some t.type) (some .unknown) (.sc .none))).2
    rw [define_map U atts prior t hf hi.rest, hv'] at h
    exact h
  · intro k hk
    exact hi.rest k (fun u hu => hk u (by simp [hu]))

/-! ### Looking at operands -/

theorem attSymName {t : Token} (ht : AttTok t) (hn : ∃ v, t.value = .str v) :
    attToSymbolName (attKind t.type) t = .ok (fullPrefix (some t.type) ++ attName t) := by
  obtain ⟨v, hv⟩ := hn
  unfold attToSymbolName attName
  rw [hv]
  rcases ht with h | h | h | h | h <;> rw [h] <;> rfl

theorem known_att {U : Uni} {atts : List Token} {prior : List Cmp} {s : TC} (hi : Inv U atts prior s) {t : Token}
    (h : t ∈ atts) :
    ∃ r x, s.tab.lookup U (fullPrefix (some t.type) ++ attName t) = some r ∧
      (checkedMap U atts prior).content (attKey U t) = some x ∧ s.heap r = x ∧
      x.type = typeAt U prior (attKey U t) ∧ s.tab.get (U.lower x.name) = some r ∧
      s.tab.get (attKey U t) = some r := by
  obtain ⟨u, _, hk, hu⟩ := find_key (U := U) h
  have hc : (checkedMap U atts prior).content (attKey U t) =
      some ⟨typeAt U prior (attKey U t), u.type, .sc .none, U.lower (attName u),
        fullPrefix (some u.type) ++ U.lower (attName u)⟩ := by
    unfold checkedMap; simp only [hu, Option.map_some]
  have h2 := hi.sim.content (attKey U t)
  rw [hc] at h2
  cases hg : s.tab.get (attKey U t) with
  | none => simp only [hg, Option.map_none] at h2; cases h2
  | some r =>
    simp only [hg, Option.map_some, Option.some.injEq] at h2
    have hfl := (hi.sim.filed _ (get_mem hg)).1
    simp only at hfl
    refine ⟨r, _, hg, hc, h2.symm, rfl, ?_, rfl⟩
    rw [h2, ← hfl, hg]

/-- Kinds of operands and classes of their nodes. -/
theorem build_kind {v : Operand} (hw : v.WF) (k : Nat) :
    ((v.build k).1.kind.isAtt = true ↔ v.kind = .att) ∧
    ((v.build k).1.kind = .stringVal ↔ v.kind = .string) ∧
    ((v.build k).1.kind = .nullVal ↔ v.kind = .null) ∧
    ((v.build k).1.kind = .set ↔ v.kind = .set) ∧
    (((v.build k).1.kind = .intVal ∨ (v.build k).1.kind = .floatVal) ↔ v.kind = .number) ∧
    (v.build k).1.tok = v.first ∧
    (v.kind ≠ .att → SymType.convertTokenType (v.build k).1.tok.type = v.litType) := by
  cases v with
  | att t =>
    rcases hw with h | h | h | h | h <;>
      simp [Operand.build, attNode, attKind, Node.kind, Kind.isAtt, Operand.kind, h, Node.tok, Operand.first]
  | atom t =>
    rcases hw with h | h | h | h | h
    · simp [Operand.build, atomNode, atomKind, Node.kind, Kind.isAtt, Operand.kind, h, Node.tok, Operand.first,
        SymType.convertTokenType, Operand.litType]
    · simp [Operand.build, atomNode, atomKind, Node.kind, Kind.isAtt, Operand.kind, h, Node.tok, Operand.first,
        SymType.convertTokenType, Operand.litType]
    · simp [Operand.build, atomNode, atomKind, Node.kind, Kind.isAtt, Operand.kind, h, Node.tok, Operand.first,
        SymType.convertTokenType, Operand.litType]
    · simp [Operand.build, atomNode, atomKind, Node.kind, Kind.isAtt, Operand.kind, h, Node.tok, Operand.first,
        SymType.convertTokenType, Operand.litType]
    · simp at h
  | set l es =>
    simp [Operand.build, Node.kind, Kind.isAtt, Operand.kind, Node.tok, Operand.first, hw.1,
        SymType.convertTokenType, Operand.litType]

theorem compatible_iff (a b : SymType) : ¬ Compatible a b ↔ a ≠ b ∧ (a.isNum && b.isNum) = false := by
  cases a <;> cases b <;> decide

/-- The issue of a report. -/
def issueOf (r : Report) : Issue := ⟨r.warn, r.pos, r.check, r.tok, r.left, r.right⟩

/-- No evidence, no change. -/
theorem inv_noEvidence {U : Uni} {atts : List Token} {prior : List Cmp} {s : TC} (hi : Inv U atts prior s) {c : Cmp}
    (h : ∀ k, typeAt U prior k = .unknown → evidenceFor U c k = none) : Inv U atts (prior ++ [c]) s := by
  have ht : ∀ k, typeAt U (prior ++ [c]) k = typeAt U prior k := by
    intro k
    rw [typeAt_snoc]
    by_cases hk : typeAt U prior k = .unknown
    · rw [if_pos hk, h k hk, hk]; rfl
    · rw [if_neg hk]
  constructor
  · have : checkedMap U atts (prior ++ [c]) = checkedMap U atts prior := by
      unfold checkedMap; simp only [ht]
    rw [this]; exact hi.sim
  · intro k hk; rw [ht]; exact hi.rest k hk

theorem inv_issues {U : Uni} {atts : List Token} {prior : List Cmp} {s : TC} (hi : Inv U atts prior s)
    (is : List Issue) : Inv U atts prior { s with issues := is } := ⟨hi.sim, hi.rest⟩

/-- Evidence about an attribute of unknown type: the type is switched. -/
theorem inv_switch {U : Uni} {atts : List Token} {prior : List Cmp} {s : TC} (hi : Inv U atts prior s) {c : Cmp}
    {t : Token} {vt : SymType} (hc : c.evidence = some (t, vt)) (ht : t ∈ atts) {r : Nat}
    (hr : s.tab.get (attKey U t) = some r) (hu : typeAt U prior (attKey U t) = .unknown) :
    Inv U atts (prior ++ [c]) { s with heap := s.heap.write r { s.heap r with type := vt } } := by
  have hty : ∀ k, typeAt U (prior ++ [c]) k = if k = attKey U t then vt else typeAt U prior k := by
    intro k
    rw [typeAt_snoc]
    unfold evidenceFor
    rw [hc, Option.bind_some]
    dsimp only
    by_cases hk : k = attKey U t
    · subst hk
      rw [if_pos hu, if_pos rfl]
      by_cases hv : vt = .unknown
      · rw [if_neg (by simp [hv]), hv]; rfl
      · rw [if_pos ⟨rfl, hv⟩]; rfl
    · rw [if_neg (fun h : attKey U t = k ∧ _ => hk h.1.symm), if_neg hk]
      by_cases hx : typeAt U prior k = .unknown
      · rw [if_pos hx, hx]; rfl
      · rw [if_neg hx]
  constructor
  · have h := sim_write hi.sim hr { s.heap r with type := vt } rfl
    have hm : (checkedMap U atts prior).set (attKey U t) { s.heap r with type := vt } =
        checkedMap U atts (prior ++ [c]) := by
      have hcont := hi.sim.content (attKey U t)
      rw [hr, Option.map_some] at hcont
      unfold SymMap.set
      have e : checkedMap U atts (prior ++ [c]) =
        { order := (checkedMap U atts prior).order, content := (checkedMap U atts (prior ++ [c])).content } := rfl
      rw [e]
      congr 1
      funext k
      by_cases hk : k = attKey U t
      · subst hk
        rw [if_pos rfl]
        simp only [checkedMap, Option.map_eq_some_iff] at hcont ⊢
        obtain ⟨a, h1, h2⟩ := hcont
        rw [h1, Option.map_some, hty, if_pos rfl, ← h2]
      · rw [if_neg hk]
        simp only [checkedMap]
        rw [hty, if_neg hk]
    rw [hm] at h
    exact h
  · intro k hk
    rw [hty, if_neg (fun e => hk t ht e.symm)]
    exact hi.rest k hk

/-! ### Comparisons -/

/-- What a step for a comparison has to achieve. -/
def Reported (U : Uni) (atts : List Token) (prior : List Cmp) (c : Cmp) (s : TC) (x : Except PyExc TC) : Prop :=
  ∃ s', x = .ok s' ∧ Inv U atts (prior ++ [c]) s' ∧
    s'.issues = s.issues ++ ((c.report U prior).map issueOf).toList ∧ s'.checked = s.checked

/-- An attribute operand. -/
theorem operand_att {v : Operand} (h : v.kind = .att) : ∃ t, v = .att t := by
  cases v with
  | att t => exact ⟨t, rfl⟩
  | atom t => simp only [Operand.kind] at h; split at h <;> cases h
  | set l es => cases h

theorem report_clash {U : Uni} {prior : List Cmp} {c : Cmp} (h : c.clash) :
    c.report U prior = some ⟨false, c.o.pos, c.checkName, c.o, c.l.first, c.r.first⟩ := by
  unfold Cmp.report; rw [if_pos h]

theorem evidence_clash {c : Cmp} (h : c.clash) : c.evidence = none := by
  unfold Cmp.evidence; rw [if_neg (fun x => x.2 h)]

/-- A clash is reported by the check of the operator. -/
theorem reported_clash {U : Uni} {atts : List Token} {prior : List Cmp} {s : TC} (hi : Inv U atts prior s) {c : Cmp}
    (h : c.clash) (n l r : Node) (hn : n.tok = c.o) (hl : l.tok = c.l.first) (hr : r.tok = c.r.first)
    (check : String) (hc : c.checkName = check) (ha : check ≠ "att_check") :
    Reported U atts prior c s (.ok (s.typeError n check l r)) := by
  refine ⟨_, rfl, ?_, ?_, rfl⟩
  · exact inv_issues (inv_noEvidence hi (fun k _ => by unfold evidenceFor; rw [evidence_clash h]; rfl)) _
  · rw [report_clash h]
    simp only [TC.typeError, issueOf, Option.map_some, Option.toList_some, hn, hl, hr, hc]
    rw [beq_eq_false_iff_ne.2 ha]

/-- Nothing to report and nothing learnt. -/
theorem reported_none {U : Uni} {atts : List Token} {prior : List Cmp} {s : TC} (hi : Inv U atts prior s) {c : Cmp}
    (h : ¬ c.clash) (hd : ¬ c.doubtful U prior)
    (he : ∀ k, typeAt U prior k = .unknown → evidenceFor U c k = none) :
    Reported U atts prior c s (.ok s) := by
  refine ⟨_, rfl, inv_noEvidence hi he, ?_, rfl⟩
  unfold Cmp.report; rw [if_neg h, if_neg hd]; simp

/-- Doubtful types are reported by `_att_check`. -/
theorem reported_doubtful {U : Uni} {atts : List Token} {prior : List Cmp} {s : TC} (hi : Inv U atts prior s) {c : Cmp}
    (h : ¬ c.clash) (hd : c.doubtful U prior)
    (he : ∀ k, typeAt U prior k = .unknown → evidenceFor U c k = none)
    (n l r : Node) (hn : n.tok = c.o) (hl : l.tok = c.l.first) (hr : r.tok = c.r.first) :
    Reported U atts prior c s (.ok (s.typeError n "att_check" l r)) := by
  refine ⟨_, rfl, inv_issues (inv_noEvidence hi he) _, ?_, rfl⟩
  unfold Cmp.report; rw [if_neg h, if_pos hd]
  simp only [TC.typeError, issueOf, Option.map_some, Option.toList_some, hn, hl, hr]
  rfl

/-- An attribute beside a literal. -/
theorem attCheck_lit {U : Uni} {atts : List Token} {prior : List Cmp} {s : TC} (hi : Inv U atts prior s) {c : Cmp}
    (hop : c.ordering ∨ c.equality) (hcl : ¬ c.clash) {t : Token} {vt : SymType} (ht : t ∈ atts)
    (hev : c.evidence = some (t, vt))
    (hdb : c.doubtful U prior ↔
      typeAt U prior (attKey U t) ≠ .unknown ∧ ¬ Compatible (typeAt U prior (attKey U t)) vt)
    (n l r : Node) (hn : n.tok = c.o) (hl : l.tok = c.l.first) (hr : r.tok = c.r.first) :
    Reported U atts prior c s
      (match s.tab.lookup U (fullPrefix (some t.type) ++ attName t) with
      | some x =>
        if (s.heap x).type = .unknown then do
          let (h, _) ← s.tab.switchType U s.heap (s.heap x).name vt
          return { s with heap := h }
        else if (s.heap x).type ≠ vt ∧ ((s.heap x).type.isNum && vt.isNum) = false then
          return s.typeError n "att_check" l r
        else return s
      | none => .error (.exception "")) := by
  obtain ⟨x, y, h1, h2, h3, h4, h5, h6⟩ := known_att hi ht
  rw [h1]
  dsimp only
  have hty : (s.heap x).type = typeAt U prior (attKey U t) := by rw [h3, h4]
  rw [hty]
  have hname : s.tab.get (U.lower (s.heap x).name) = some x := by rw [h3]; exact h5
  by_cases hu : typeAt U prior (attKey U t) = .unknown
  · rw [if_pos hu]
    unfold SymTab.switchType
    rw [hname]
    refine ⟨_, rfl, inv_switch hi hev ht h6 hu, ?_, rfl⟩
    unfold Cmp.report; rw [if_neg hcl, if_neg (fun h => (hdb.1 h).1 hu)]; simp
  · rw [if_neg hu]
    have he : ∀ k, typeAt U prior k = .unknown → evidenceFor U c k = none := by
      intro k hk
      unfold evidenceFor
      rw [hev, Option.bind_some]
      apply if_neg
      rintro ⟨h, _⟩
      dsimp only at h
      rw [h] at hu
      exact hu hk
    by_cases hc : Compatible (typeAt U prior (attKey U t)) vt
    · rw [if_neg (fun h => (compatible_iff _ _).2 h hc)]
      exact reported_none hi hcl (fun h => (hdb.1 h).2 hc) he
    · rw [if_pos ((compatible_iff _ _).1 hc)]
      exact reported_doubtful hi hcl (hdb.2 ⟨hu, hc⟩) he n l r hn hl hr

theorem attCheck_step {U : Uni} {atts : List Token} {prior : List Cmp} {s : TC} (hi : Inv U atts prior s) {l r : Operand}
    {o : Token} (hl : l.WF) (hr : r.WF) (hln : l.NamesOk) (hrn : r.NamesOk) (hla : ∀ t ∈ l.attToks, t ∈ atts)
    (hra : ∀ t ∈ r.attToks, t ∈ atts) (i j k : Nat) (hop : (Cmp.mk l o r).ordering ∨ (Cmp.mk l o r).equality)
    (hcl : ¬ (Cmp.mk l o r).clash) (hatt : l.kind = .att ∨ r.kind = .att) :
    Reported U atts prior ⟨l, o, r⟩ s (s.attCheck U (.mk .op o i .none [(l.build j).1, (r.build k).1])) := by
  have kl := build_kind hl j
  have kr := build_kind hr k
  unfold TC.attCheck
  simp only [Node.left, Node.right, Node.children, List.getElem?_cons_zero, List.getElem?_cons_succ]
  by_cases h1 : l.kind = .att
  · obtain ⟨t, rfl⟩ := operand_att h1
    have ht : t ∈ atts := hla t (by simp [Operand.attToks])
    have e1 : attToSymbolName ((Operand.att t).build j).1.kind ((Operand.att t).build j).1.tok = _ := attSymName hl hln
    by_cases h2 : r.kind = .att
    · obtain ⟨u, rfl⟩ := operand_att h2
      have hu : u ∈ atts := hra u (by simp [Operand.attToks])
      have e2 : attToSymbolName ((Operand.att u).build k).1.kind ((Operand.att u).build k).1.tok = _ :=
        attSymName hr hrn
      rw [kl.1.2 rfl, kr.1.2 rfl]
      simp only [Bool.and_self, if_true]
      rw [e1, e2]
      obtain ⟨x, _, a1, _, a3, a4, _, _⟩ := known_att hi ht
      obtain ⟨y, _, b1, _, b3, b4, _, _⟩ := known_att hi hu
      simp only [bind, Except.bind]
      rw [a1, b1]
      dsimp only
      rw [if_neg (fun h => h.2 h.1), if_neg (fun h => h.2 h.1)]
      rw [a3, b3, a4, b4]
      have hev : ∀ k, typeAt U prior k = .unknown → evidenceFor U ⟨.att t, o, .att u⟩ k = none := by
        intro k _
        unfold evidenceFor Cmp.evidence
        simp
      by_cases hc : Compatible (typeAt U prior (attKey U t)) (typeAt U prior (attKey U u))
      · rw [if_neg (fun h => (compatible_iff _ _).2 h hc)]
        exact reported_none hi hcl (fun h => h.2.2 hc) hev
      · rw [if_pos ((compatible_iff _ _).1 hc)]
        exact reported_doubtful hi hcl ⟨hop, hcl, hc⟩ hev _ _ _ rfl kl.2.2.2.2.2.1 kr.2.2.2.2.2.1
    · have hr0 : (r.build k).1.kind.isAtt = false := by
        cases h : (r.build k).1.kind.isAtt with
        | false => rfl
        | true => exact absurd (kr.1.1 h) h2
      rw [kl.1.2 rfl, hr0]
      simp only [Bool.and_false, Bool.false_eq_true, if_false, if_true]
      rw [e1]
      simp only [bind, Except.bind]
      rw [kr.2.2.2.2.2.2 h2]
      have hev : (Cmp.mk (.att t) o r).evidence = some (t, r.litType) := by
        unfold Cmp.evidence
        rw [if_pos ⟨hop, hcl⟩]
        cases r with
        | att u => exact absurd rfl h2
        | atom u => rfl
        | set a b => rfl
      have hdb : (Cmp.mk (.att t) o r).doubtful U prior ↔
          typeAt U prior (attKey U t) ≠ .unknown ∧ ¬ Compatible (typeAt U prior (attKey U t)) r.litType := by
        unfold Cmp.doubtful
        cases r with
        | att u => exact absurd rfl h2
        | atom u => exact ⟨fun h => h.2.2, fun h => ⟨hop, hcl, h⟩⟩
        | set a b => exact ⟨fun h => h.2.2, fun h => ⟨hop, hcl, h⟩⟩
      exact attCheck_lit hi hop hcl ht hev hdb _ _ _ rfl kl.2.2.2.2.2.1 kr.2.2.2.2.2.1
  · have h2 : r.kind = .att := hatt.resolve_left h1
    obtain ⟨u, rfl⟩ := operand_att h2
    have hu : u ∈ atts := hra u (by simp [Operand.attToks])
    have e2 : attToSymbolName ((Operand.att u).build k).1.kind ((Operand.att u).build k).1.tok = _ :=
      attSymName hr hrn
    have hl0 : (l.build j).1.kind.isAtt = false := by
      cases h : (l.build j).1.kind.isAtt with
      | false => rfl
      | true => exact absurd (kl.1.1 h) h1
    rw [hl0]
    simp only [Bool.false_and, Bool.false_eq_true, if_false]
    rw [e2]
    simp only [bind, Except.bind]
    rw [kl.2.2.2.2.2.2 h1]
    have hev : (Cmp.mk l o (.att u)).evidence = some (u, l.litType) := by
      unfold Cmp.evidence
      rw [if_pos ⟨hop, hcl⟩]
      cases l with
      | att u => exact absurd rfl h1
      | atom u => rfl
      | set a b => rfl
    have hdb : (Cmp.mk l o (.att u)).doubtful U prior ↔
        typeAt U prior (attKey U u) ≠ .unknown ∧ ¬ Compatible (typeAt U prior (attKey U u)) l.litType := by
      unfold Cmp.doubtful
      cases l with
      | att u => exact absurd rfl h1
      | atom u => exact ⟨fun h => h.2.2, fun h => ⟨hop, hcl, h⟩⟩
      | set a b => exact ⟨fun h => h.2.2, fun h => ⟨hop, hcl, h⟩⟩
    exact attCheck_lit hi hop hcl hu hev hdb _ _ _ rfl kl.2.2.2.2.2.1 kr.2.2.2.2.2.1

/-- Literal operands teach nothing and raise no doubts. -/
theorem lits_quiet {U : Uni} {prior : List Cmp} {c : Cmp} (h1 : c.l.kind ≠ .att) (h2 : c.r.kind ≠ .att) :
    ¬ c.doubtful U prior ∧ c.evidence = none := by
  obtain ⟨l, o, r⟩ := c
  cases l with
  | att t => exact absurd rfl h1
  | atom t =>
    cases r with
    | att t => exact absurd rfl h2
    | atom t => exact ⟨fun h => h.2.2, by simp [Cmp.evidence]⟩
    | set a b => exact ⟨fun h => h.2.2, by simp [Cmp.evidence]⟩
  | set a b =>
    cases r with
    | att t => exact absurd rfl h2
    | atom t => exact ⟨fun h => h.2.2, by simp [Cmp.evidence]⟩
    | set a b => exact ⟨fun h => h.2.2, by simp [Cmp.evidence]⟩

theorem evidenceFor_none {U : Uni} {c : Cmp} (h : c.evidence = none) (k : Str) : evidenceFor U c k = none := by
  unfold evidenceFor; rw [h]; rfl

/-- Other operators teach nothing and raise no doubts. -/
theorem other_quiet {U : Uni} {prior : List Cmp} {c : Cmp} (h1 : ¬ c.ordering) (h2 : ¬ c.equality) :
    ¬ c.doubtful U prior ∧ c.evidence = none := by
  constructor
  · exact fun h => h.1.elim h1 h2
  · unfold Cmp.evidence; rw [if_neg]; exact fun h => h.1.elim h1 h2

section Steps
variable {U : Uni} {atts : List Token} {prior : List Cmp} {s : TC} {l r : Operand} {o : Token}

theorem numCheck_step (hi : Inv U atts prior s) (hl : l.WF) (hr : r.WF) (hln : l.NamesOk) (hrn : r.NamesOk)
    (hla : ∀ t ∈ l.attToks, t ∈ atts) (hra : ∀ t ∈ r.attToks, t ∈ atts) (i j k : Nat)
    (hop : (Cmp.mk l o r).ordering) :
    Reported U atts prior ⟨l, o, r⟩ s (s.numCheck U (.mk .op o i .none [(l.build j).1, (r.build k).1])) := by
  have kl := build_kind hl j
  have kr := build_kind hr k
  unfold TC.numCheck
  simp only [Node.left, Node.right, Node.children, List.getElem?_cons_zero, List.getElem?_cons_succ]
  simp only [kl.2.1, kr.2.1, kl.2.2.1, kr.2.2.1, kl.2.2.2.1, kr.2.2.2.1, Bool.or_eq_true, kl.1, kr.1]
  have hcl : ∀ h : l.kind = .string ∨ r.kind = .string ∨ l.kind = .null ∨ r.kind = .null ∨
      (l.kind ≠ .att ∧ r.kind ≠ .att ∧ (l.kind = .set ∨ r.kind = .set)), (Cmp.mk l o r).clash := by
    intro h; unfold Cmp.clash; dsimp only; rw [if_pos hop]; exact h
  have hcl' : (Cmp.mk l o r).clash → l.kind = .string ∨ r.kind = .string ∨ l.kind = .null ∨ r.kind = .null ∨
      (l.kind ≠ .att ∧ r.kind ≠ .att ∧ (l.kind = .set ∨ r.kind = .set)) := by
    intro h; unfold Cmp.clash at h; dsimp only at h; rw [if_pos hop] at h; exact h
  have hname : (Cmp.mk l o r).checkName = "num_check" := by unfold Cmp.checkName; rw [if_pos hop]
  have clash := fun h => reported_clash hi (c := ⟨l, o, r⟩) (hcl h)
    (.mk .op o i .none [(l.build j).1, (r.build k).1]) _ _ rfl kl.2.2.2.2.2.1 kr.2.2.2.2.2.1 _ hname (by decide)
  by_cases h1 : l.kind = .string ∨ r.kind = .string
  · rw [if_pos h1]; exact clash (h1.elim Or.inl (fun h => Or.inr (Or.inl h)))
  rw [if_neg h1]
  by_cases h2 : l.kind = .null ∨ r.kind = .null
  · rw [if_pos h2]; exact clash (h2.elim (fun h => Or.inr (Or.inr (Or.inl h))) (fun h => Or.inr (Or.inr (Or.inr (Or.inl h)))))
  rw [if_neg h2]
  by_cases h3 : l.kind = .att ∨ r.kind = .att
  · rw [if_pos h3]
    refine attCheck_step hi hl hr hln hrn hla hra i j k (Or.inl hop) ?_ h3
    intro h
    rcases hcl' h with h | h | h | h | h
    · exact h1 (Or.inl h)
    · exact h1 (Or.inr h)
    · exact h2 (Or.inl h)
    · exact h2 (Or.inr h)
    · exact h3.elim h.1 h.2.1
  rw [if_neg h3]
  have h3' := not_or.1 h3
  by_cases h4 : l.kind = .set ∨ r.kind = .set
  · rw [if_pos h4]; exact clash (Or.inr (Or.inr (Or.inr (Or.inr ⟨h3'.1, h3'.2, h4⟩))))
  rw [if_neg h4]
  obtain ⟨q1, q2⟩ := lits_quiet (U := U) (prior := prior) (c := ⟨l, o, r⟩) h3'.1 h3'.2
  refine reported_none hi ?_ q1 (fun k _ => evidenceFor_none q2 k)
  intro h
  rcases hcl' h with h | h | h | h | h
  · exact h1 (Or.inl h)
  · exact h1 (Or.inr h)
  · exact h2 (Or.inl h)
  · exact h2 (Or.inr h)
  · exact h4 h.2.2

theorem eqCheck_step (hi : Inv U atts prior s) (hl : l.WF) (hr : r.WF) (hln : l.NamesOk) (hrn : r.NamesOk)
    (hla : ∀ t ∈ l.attToks, t ∈ atts) (hra : ∀ t ∈ r.attToks, t ∈ atts) (i j k : Nat)
    (hno : ¬ (Cmp.mk l o r).ordering) (hop : (Cmp.mk l o r).equality) :
    Reported U atts prior ⟨l, o, r⟩ s (s.eqCheck U (.mk .op o i .none [(l.build j).1, (r.build k).1])) := by
  have kl := build_kind hl j
  have kr := build_kind hr k
  unfold TC.eqCheck
  simp only [Node.left, Node.right, Node.children, List.getElem?_cons_zero, List.getElem?_cons_succ, ne_eq]
  simp only [kl.2.1, kr.2.1, kl.2.2.1, kr.2.2.1, kl.2.2.2.1, kr.2.2.2.1, Bool.or_eq_true, kl.1, kr.1]
  have hcl : (Cmp.mk l o r).clash ↔ l.kind ≠ .att ∧ r.kind ≠ .att ∧ l.kind ≠ r.kind := by
    unfold Cmp.clash; dsimp only; rw [if_neg hno, if_pos hop]
  have hname : (Cmp.mk l o r).checkName = "eq_check" := by unfold Cmp.checkName; rw [if_neg hno, if_pos hop]
  by_cases h3 : l.kind = .att ∨ r.kind = .att
  · rw [if_pos h3]
    exact attCheck_step hi hl hr hln hrn hla hra i j k (Or.inr hop) (fun h => h3.elim (hcl.1 h).1 (hcl.1 h).2.1) h3
  rw [if_neg h3]
  have h3' := not_or.1 h3
  have clash := fun h => reported_clash hi (c := ⟨l, o, r⟩) (hcl.2 ⟨h3'.1, h3'.2, h⟩)
    (.mk .op o i .none [(l.build j).1, (r.build k).1]) _ _ rfl kl.2.2.2.2.2.1 kr.2.2.2.2.2.1 _ hname (by decide)
  obtain ⟨q1, q2⟩ := lits_quiet (U := U) (prior := prior) (c := ⟨l, o, r⟩) h3'.1 h3'.2
  have quiet := fun (h : ¬ l.kind ≠ r.kind) =>
    reported_none hi (fun x => h (hcl.1 x).2.2) q1 (fun k _ => evidenceFor_none q2 k)
  cases hka : l.kind <;> cases hkb : r.kind <;> first
    | exact absurd hka h3'.1
    | exact absurd hkb h3'.2
    | (simp only [reduceCtorEq, not_true_eq_false, not_false_eq_true, and_true, and_false, true_and, false_and, or_self,
        or_false, false_or, if_true, if_false]
       first
        | exact clash (by rw [hka, hkb]; decide)
        | exact quiet (by rw [hka, hkb]; decide))

theorem inCheck_step (hU : U.Lawful) (hi : Inv U atts prior s) (hl : l.WF) (hr : r.WF) (i j k : Nat)
    (hop : (Cmp.mk l o r).membership) :
    Reported U atts prior ⟨l, o, r⟩ s (s.inCheck (.mk .op o i .none [(l.build j).1, (r.build k).1])) := by
  have kl := build_kind hl j
  have kr := build_kind hr k
  have hno : ¬ (Cmp.mk l o r).ordering := by
    unfold Cmp.membership at hop; unfold Cmp.ordering; rw [hop]; decide
  have hne : ¬ (Cmp.mk l o r).equality := by
    unfold Cmp.membership at hop; unfold Cmp.equality; rw [hop]; decide
  unfold TC.inCheck
  simp only [Node.left, Node.right, Node.children, List.getElem?_cons_zero, List.getElem?_cons_succ]
  have hcl : (Cmp.mk l o r).clash ↔ l.kind = .set ∨ (r.kind ≠ .set ∧ r.kind ≠ .att) := by
    unfold Cmp.clash; dsimp only; rw [if_neg hno, if_neg hne, if_pos hop]
  have hname : (Cmp.mk l o r).checkName = "in_check" := by
    unfold Cmp.checkName; rw [if_neg hno, if_neg hne, if_pos hop]
  have clash := fun h => reported_clash hi (c := ⟨l, o, r⟩) (hcl.2 h)
    (.mk .op o i .none [(l.build j).1, (r.build k).1]) _ _ rfl kl.2.2.2.2.2.1 kr.2.2.2.2.2.1 _ hname (by decide)
  obtain ⟨q1, q2⟩ := other_quiet (U := U) (prior := prior) hno hne
  have quiet := fun (h : ¬ (l.kind = .set ∨ (r.kind ≠ .set ∧ r.kind ≠ .att))) =>
    reported_none hi (fun x => h (hcl.1 x)) q1 (fun k _ => evidenceFor_none q2 k)
  by_cases h1 : (r.build k).1.kind = .nullVal
  · rw [if_pos h1]; exact clash (Or.inr (by rw [kr.2.2.1.1 h1]; decide))
  rw [if_neg h1]
  by_cases h2 : (l.build j).1.kind = .set
  · rw [if_pos h2]; exact clash (Or.inl (kl.2.2.2.1.1 h2))
  rw [if_neg h2]
  by_cases h3 : (r.build k).1.kind = .stringVal
  · rw [if_pos h3]; exact clash (Or.inr (by rw [kr.2.1.1 h3]; decide))
  rw [if_neg h3]
  by_cases h4 : (r.build k).1.kind = .intVal
  · rw [if_pos h4]; exact clash (Or.inr (by rw [kr.2.2.2.2.1.1 (Or.inl h4)]; decide))
  rw [if_neg h4]
  by_cases h5 : (r.build k).1.kind = .floatVal
  · rw [if_pos h5]; exact clash (Or.inr (by rw [kr.2.2.2.2.1.1 (Or.inr h5)]; decide))
  rw [if_neg h5]
  apply quiet
  rintro (h | ⟨ha, hb⟩)
  · exact h2 (kl.2.2.2.1.2 h)
  · cases hk : r.kind with
    | att => exact hb hk
    | set => exact ha hk
    | null => exact h1 (kr.2.2.1.2 hk)
    | string => exact h3 (kr.2.1.2 hk)
    | number => exact (kr.2.2.2.2.1.2 hk).elim h4 h5

theorem subsetCheck_step (hi : Inv U atts prior s) (hl : l.WF) (hr : r.WF) (i j k : Nat)
    (hop : (Cmp.mk l o r).inclusion) :
    Reported U atts prior ⟨l, o, r⟩ s (s.subsetCheck (.mk .op o i .none [(l.build j).1, (r.build k).1])) := by
  have kl := build_kind hl j
  have kr := build_kind hr k
  have hno : ¬ (Cmp.mk l o r).ordering := by
    unfold Cmp.inclusion at hop; unfold Cmp.ordering; rw [hop]; decide
  have hne : ¬ (Cmp.mk l o r).equality := by
    unfold Cmp.inclusion at hop; unfold Cmp.equality; rw [hop]; decide
  have hnm : ¬ (Cmp.mk l o r).membership := by
    unfold Cmp.inclusion at hop; unfold Cmp.membership; rw [hop]; decide
  unfold TC.subsetCheck
  simp only [Node.left, Node.right, Node.children, List.getElem?_cons_zero, List.getElem?_cons_succ]
  have hcl : (Cmp.mk l o r).clash ↔ (l.kind ≠ .set ∧ l.kind ≠ .att) ∨ (r.kind ≠ .set ∧ r.kind ≠ .att) := by
    unfold Cmp.clash; dsimp only; rw [if_neg hno, if_neg hne, if_neg hnm]
  have hname : (Cmp.mk l o r).checkName = "subset_check" := by
    unfold Cmp.checkName; rw [if_neg hno, if_neg hne, if_neg hnm]
  have clash := fun h => reported_clash hi (c := ⟨l, o, r⟩) (hcl.2 h)
    (.mk .op o i .none [(l.build j).1, (r.build k).1]) _ _ rfl kl.2.2.2.2.2.1 kr.2.2.2.2.2.1 _ hname (by decide)
  obtain ⟨q1, q2⟩ := other_quiet (U := U) (prior := prior) hno hne
  have quiet := fun (h : ¬ ((l.kind ≠ .set ∧ l.kind ≠ .att) ∨ (r.kind ≠ .set ∧ r.kind ≠ .att))) =>
    reported_none hi (fun x => h (hcl.1 x)) q1 (fun k _ => evidenceFor_none q2 k)
  have e : (((l.build j).1.kind == .set || (l.build j).1.kind.isAtt) &&
      ((r.build k).1.kind == .set || (r.build k).1.kind.isAtt)) = true ↔
      (l.kind = .set ∨ l.kind = .att) ∧ (r.kind = .set ∨ r.kind = .att) := by
    rw [Bool.and_eq_true, Bool.or_eq_true, Bool.or_eq_true, beq_iff_eq, beq_iff_eq, kl.1, kr.1, kl.2.2.2.1, kr.2.2.2.1]
  by_cases h : (l.kind = .set ∨ l.kind = .att) ∧ (r.kind = .set ∨ r.kind = .att)
  · rw [if_neg (by rw [e.2 h]; simp)]
    apply quiet
    rintro (⟨a, b⟩ | ⟨a, b⟩)
    · exact h.1.elim a b
    · exact h.2.elim a b
  · rw [if_pos (by rw [← Bool.not_eq_true, e]; exact h)]
    apply clash
    by_cases h1 : l.kind = .set ∨ l.kind = .att
    · exact Or.inr (not_or.1 (fun h2 => h ⟨h1, h2⟩))
    · exact Or.inl (not_or.1 h1)

/-- The check of a comparison. -/
theorem opNode_step (hU : U.Lawful) (hi : Inv U atts prior s) (hl : l.WF) (hr : r.WF) (hln : l.NamesOk) (hrn : r.NamesOk)
    (hla : ∀ t ∈ l.attToks, t ∈ atts) (hra : ∀ t ∈ r.attToks, t ∈ atts) (i j k : Nat)
    (ho : ∃ e ∈ operators, o.value = .str e.1.toList) :
    Reported U atts prior ⟨l, o, r⟩ s (s.opNode U (.mk .op o i .none [(l.build j).1, (r.build k).1])) := by
  obtain ⟨e, he, hv⟩ := ho
  unfold TC.opNode
  simp only [Node.tok, hv]
  have hin : U.upper "IN".toList = "IN".toList := by rw [hU.upper_ascii _ (by decide)]; decide
  have hsu : U.upper "SUBSET".toList = "SUBSET".toList := by rw [hU.upper_ascii _ (by decide)]; decide
  simp only [operators, List.mem_cons, List.not_mem_nil, or_false] at he
  have num := numCheck_step (o := o) hi hl hr hln hrn hla hra i j k
  have eq := eqCheck_step (o := o) hi hl hr hln hrn hla hra i j k
  rcases he with rfl | rfl | rfl | rfl | rfl | rfl | rfl | rfl
  · rw [if_neg (by decide), if_pos (by decide)]
    exact eq (by unfold Cmp.ordering; rw [hv]; decide) (by unfold Cmp.equality; rw [hv]; decide)
  · rw [if_neg (by decide), if_pos (by decide)]
    exact eq (by unfold Cmp.ordering; rw [hv]; decide) (by unfold Cmp.equality; rw [hv]; decide)
  · rw [if_pos (by decide)]; exact num (by unfold Cmp.ordering; rw [hv]; decide)
  · rw [if_pos (by decide)]; exact num (by unfold Cmp.ordering; rw [hv]; decide)
  · rw [if_pos (by decide)]; exact num (by unfold Cmp.ordering; rw [hv]; decide)
  · rw [if_pos (by decide)]; exact num (by unfold Cmp.ordering; rw [hv]; decide)
  · rw [if_neg (by decide), if_neg (by decide), if_pos hin]
    exact inCheck_step hU hi hl hr i j k hv
  · rw [if_neg (by decide), if_neg (by decide), if_neg (by rw [hsu]; decide), if_pos hsu]
    exact subsetCheck_step hi hl hr i j k hv

end Steps

/-! ### The scan -/

theorem reports_append (U : Uni) (prior cs ds : List Cmp) :
    reports U prior (cs ++ ds) = reports U prior cs ++ reports U (prior ++ cs) ds := by
  induction cs generalizing prior with
  | nil => simp [reports]
  | cons c cs ih => simp [reports, ih, List.append_assoc]

/-- What scanning a part of the AST has to achieve. -/
def Scanned (U : Uni) (atts : List Token) (prior : List Cmp) (as : List Token) (cs : List Cmp) (s : TC)
    (x : TC × Option PyExc) : Prop :=
  x.2 = none ∧ Inv U (atts ++ as) (prior ++ cs) x.1 ∧ x.1.issues = s.issues ++ (reports U prior cs).map issueOf ∧
    x.1.checked = s.checked

theorem attKind_isAtt (ty : TokenType) : (attKind ty).isAtt = true := by cases ty <;> rfl

theorem scan_att {U : Uni} {atts : List Token} {prior : List Cmp} {s : TC} (hi : Inv U atts prior s) {t : Token} (k : Nat)
    (hf : Folds U t) (hn : ∃ v, t.value = .str v) : Scanned U atts prior [t] [] s (TC.scan U (attNode t k) s) := by
  obtain ⟨s', h1, h2, h3, h4⟩ := attNode_step hi hf hn
  unfold attNode TC.scan TC.scanList TC.visit
  simp only [Node.kind, attKind_isAtt, if_true, Node.tok, h1]
  exact ⟨rfl, by simpa using h2, by simp [reports, h3], h4⟩

/-- Children that `_scan_tree` visits or skips. -/
theorem scan_operand {U : Uni} {atts : List Token} {prior : List Cmp} {s : TC} (hi : Inv U atts prior s) {v : Operand}
    (hw : v.WF) (hn : v.NamesOk) (hf : ∀ t ∈ v.attToks, Folds U t) (k : Nat) :
    (TC.skipped (v.build k).1 = true ∧ v.attToks = []) ∨
    (TC.skipped (v.build k).1 = false ∧ Scanned U atts prior v.attToks [] s (TC.scan U (v.build k).1 s)) := by
  cases v with
  | att t =>
    right
    refine ⟨?_, scan_att hi k (hf t (by simp [Operand.attToks])) hn⟩
    rcases hw with h | h | h | h | h <;>
      simp [Operand.build, TC.skipped, attNode, attKind, Node.kind, Kind.isVal, h]
  | atom t =>
    left
    refine ⟨?_, rfl⟩
    rcases hw with h | h | h | h | h
    · simp [Operand.build, TC.skipped, atomNode, atomKind, Node.kind, Kind.isVal, h]
    · simp [Operand.build, TC.skipped, atomNode, atomKind, Node.kind, Kind.isVal, h]
    · simp [Operand.build, TC.skipped, atomNode, atomKind, Node.kind, Kind.isVal, h]
    · simp [Operand.build, TC.skipped, atomNode, atomKind, Node.kind, Kind.isVal, h]
    · simp at h
  | set l es => left; exact ⟨rfl, rfl⟩

theorem scanList_operand {U : Uni} {atts : List Token} {prior : List Cmp} {s : TC} (hi : Inv U atts prior s) {v : Operand}
    (hw : v.WF) (hn : v.NamesOk) (hf : ∀ t ∈ v.attToks, Folds U t) (k : Nat) (ns : List Node) :
    ∃ s', TC.scanList U ((v.build k).1 :: ns) s = TC.scanList U ns s' ∧
      Inv U (atts ++ v.attToks) prior s' ∧ s'.issues = s.issues ∧ s'.checked = s.checked := by
  rw [TC.scanList]
  rcases scan_operand hi hw hn hf k with ⟨h1, h2⟩ | ⟨h1, h2, h3, h4, h5⟩
  · rw [if_pos h1]
    exact ⟨s, rfl, by rw [h2, List.append_nil]; exact hi, rfl, rfl⟩
  · rw [if_neg (by rw [h1]; simp)]
    generalize TC.scan U (v.build k).1 s = x at *
    obtain ⟨s', e⟩ := x
    dsimp only at h2
    subst h2
    exact ⟨s', rfl, by simpa using h3, by simpa [reports] using h4, h5⟩

theorem build_skipped (U : Uni) (p : Policy) (hw : p.WF) (k : Nat) :
    TC.skipped (p.build U k).1 = true ↔ ∃ t, p = .lit t := by
  cases p with
  | cmp l o r => simp [Policy.build, TC.skipped, Node.kind, Kind.isVal]
  | lit t => simp [Policy.build, TC.skipped, Node.kind, Kind.isVal]
  | att t =>
    rcases hw with h | h | h | h | h <;>
      simp [Policy.build, TC.skipped, attNode, attKind, Node.kind, Kind.isVal, h]
  | not n p => simp [Policy.build, TC.skipped, Node.kind, Kind.isVal]
  | bin o p q => simp [Policy.build, TC.skipped, Node.kind, Kind.isVal]

/-- The loop passes a child that scans well. -/
theorem scanList_policy {U : Uni} {atts : List Token} {prior : List Cmp} {s : TC} {p : Policy} (hw : p.WF)
    {k : Nat} (hi : Inv U atts prior s) (h : Scanned U atts prior p.attToks p.cmps s (TC.scan U (p.build U k).1 s))
    (ns : List Node) :
    ∃ s', TC.scanList U ((p.build U k).1 :: ns) s = TC.scanList U ns s' ∧
      Inv U (atts ++ p.attToks) (prior ++ p.cmps) s' ∧
      s'.issues = s.issues ++ (reports U prior p.cmps).map issueOf ∧ s'.checked = s.checked := by
  rw [TC.scanList]
  by_cases hs : TC.skipped (p.build U k).1 = true
  · rw [if_pos hs]
    obtain ⟨t, rfl⟩ := (build_skipped U p hw k).1 hs
    exact ⟨s, rfl, by simpa [Policy.attToks, Policy.cmps] using hi, by simp [Policy.cmps, reports], rfl⟩
  · rw [if_neg hs]
    obtain ⟨h1, h2, h3, h4⟩ := h
    generalize TC.scan U (p.build U k).1 s = x at *
    obtain ⟨s', e⟩ := x
    dsimp only at h1
    subst h1
    exact ⟨s', rfl, h2, h3, h4⟩

theorem visit_op (U : Uni) (s : TC) (t : Token) (i : Nat) (r : Res) (cs : List Node) :
    s.visit U (.mk .op t i r cs) = s.opNode U (.mk .op t i r cs) := rfl
theorem visit_not (U : Uni) (s : TC) (t : Token) (i : Nat) (r : Res) (cs : List Node) :
    s.visit U (.mk .not t i r cs) = .ok s := rfl
theorem visit_boolOp (U : Uni) (s : TC) (t : Token) (i : Nat) (r : Res) (cs : List Node) :
    s.visit U (.mk .boolOp t i r cs) = .ok s := rfl

/-- Scanning the AST of a policy reports what the specification says. -/
theorem scan_policy {U : Uni} (hU : U.Lawful) (p : Policy) (hw : p.WF) (ho : p.OpsOk) (hn : p.NamesOk)
    (hf : ∀ t ∈ p.attToks, Folds U t) (k : Nat) {atts : List Token} {prior : List Cmp} {s : TC}
    (hi : Inv U atts prior s) : Scanned U atts prior p.attToks p.cmps s (TC.scan U (p.build U k).1 s) := by
  induction p generalizing k atts prior s with
  | cmp l o r =>
    simp only [Policy.attToks, List.mem_append] at hf
    simp only [Policy.build]
    generalize hk1 : (l.build k).2 = k1
    generalize hk2 : (r.build k1).2 = k2
    rw [TC.scan]
    obtain ⟨s1, a1, a2, a3, a4⟩ := scanList_operand hi hw.1 hn.1 (fun t ht => hf t (Or.inl ht)) k [(r.build k1).1]
    obtain ⟨s2, b1, b2, b3, b4⟩ := scanList_operand a2 hw.2.2 hn.2 (fun t ht => hf t (Or.inr ht)) k1 []
    rw [a1, b1, TC.scanList]
    dsimp only
    have := opNode_step hU b2 hw.1 hw.2.2 hn.1 hn.2 (fun t ht => by simp [ht]) (fun t ht => by simp [ht]) k2 k k1 ho
    obtain ⟨s3, c1, c2, c3, c4⟩ := this
    rw [visit_op, c1]
    refine ⟨rfl, ?_, ?_, ?_⟩
    · simpa [Policy.attToks, Policy.cmps, List.append_assoc] using c2
    · dsimp only
      rw [c3, b3, a3]
      simp only [Policy.cmps, reports, List.append_nil]
      cases Cmp.report U prior ⟨l, o, r⟩ <;> rfl
    · dsimp only; rw [c4, b4, a4]
  | lit t =>
    refine ⟨rfl, ?_, ?_, rfl⟩
    · have : (TC.scan U ((Policy.lit t).build U k).1 s).1 = s := rfl
      rw [this]
      simpa [Policy.attToks, Policy.cmps] using hi
    · simp [Policy.cmps, reports, Policy.build, TC.scan, TC.scanList, TC.visit, Node.kind, Kind.isAtt]
  | att t => exact scan_att hi k (hf t (by simp [Policy.attToks])) hn
  | not n p ih =>
    simp only [Policy.build]
    rw [TC.scan]
    obtain ⟨s1, a1, a2, a3, a4⟩ := scanList_policy hw.2 hi (ih hw.2 ho hn hf k hi) []
    rw [a1, TC.scanList]
    dsimp only
    rw [visit_not]
    exact ⟨rfl, a2, a3, a4⟩
  | bin o p q ihp ihq =>
    simp only [Policy.attToks, List.mem_append] at hf
    simp only [Policy.build]
    generalize hk1 : (p.build U k).2 = k1
    rw [TC.scan]
    obtain ⟨s1, a1, a2, a3, a4⟩ := scanList_policy hw.2.1 hi
      (ihp hw.2.1 ho.1 hn.1 (fun t ht => hf t (Or.inl ht)) k hi) [(q.build U k1).1]
    obtain ⟨s2, b1, b2, b3, b4⟩ := scanList_policy hw.2.2 a2
      (ihq hw.2.2 ho.2 hn.2 (fun t ht => hf t (Or.inr ht)) k1 a2) []
    rw [a1, b1, TC.scanList]
    dsimp only
    rw [visit_boolOp]
    refine ⟨rfl, ?_, ?_, ?_⟩
    · simpa [Policy.attToks, Policy.cmps, List.append_assoc] using b2
    · dsimp only
      rw [b3, a3, Policy.cmps, reports_append, List.map_append, List.append_assoc]
    · dsimp only; rw [b4, a4]

end Verif.Proofs
