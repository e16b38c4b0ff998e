import Mathlib.Data.List.Induction
import Verif.Props.PolicyGui
import Verif.Props.Marks
import Verif.Proofs.PolicyTrees
import Verif.Spec.PolicyTrees
/-!
# The trees of the policy demo (C134, C135)
-/

namespace Verif.Props
open Verif Proofs Spec PolicyGui

variable {U : Uni} {toFloat : Str → Except PyExc PyFloat}

/-! ### Rows of nodes -/

theorem cell_shows {E : SymEnv} {k : Kind} {t : Token} {x : Res} {d : Option Den}
    (hk : ∀ n, attToSymbolName k t = .ok n → n = attTypePrefix (some t.type) ++ attName t)
    (hx : ∀ r, x = .sym r → ∃ n, attToSymbolName k t = .ok n ∧ E.tab.lookup U n = some r) (h : Proofs.Stored E x d) :
    CellShows U E t (cellOf E.heap x) d := by
  cases d with
  | none => cases h; rfl
  | some d =>
    cases x with
    | none => exact absurd h id
    | tri v => exact congrArg some h
    | atom a => exact congrArg some h
    | list l => exact congrArg some h
    | sym r =>
      obtain ⟨n, h1, h2⟩ := hx r rfl
      have := hk n h1
      subst this
      refine ⟨?_, congrArg some h.2⟩
      unfold symbolFor
      rw [prefix_eq, h2]
      rfl

mutual
theorem draw_shows {E : SymEnv} : ∀ (n : Node) {m : Marked}, Found U E n → HoldsMarks E n m → RowsShow U E (drawNode E.heap n) m
  | .mk _ _ _ _ cs, _, .mk hk hx hf, .mk hr hcs => by
    rw [drawNode]
    exact .mk (cell_shows hk hx hr) (draws_show cs hf hcs)

theorem draws_show {E : SymEnv} : ∀ (ns : List Node) {ms : List Marked}, (∀ n ∈ ns, Found U E n) →
    List.Forall₂ (HoldsMarks E) ns ms → List.Forall₂ (RowsShow U E) (drawNodes E.heap ns) ms
  | [], _, _, .nil => .nil
  | n :: ns, _, hf, .cons h hs => by
    rw [drawNodes]
    exact .cons (draw_shows n (hf n (by simp)) h) (draws_show ns (fun m hm => hf m (by simp [hm])) hs)
end

theorem cell_atom (H H' : Heap) (t : Token) : cellOf H (atomRes t) = cellOf H' (atomRes t) := by
  have := atomRes_plain t
  cases h : atomRes t with
  | sym r => exact absurd h (this r)
  | _ => rfl

theorem draw_atoms (H H' : Heap) (ts : List Token) (k : Nat) : drawNodes H (atomNodes ts k) = drawNodes H' (atomNodes ts k) := by
  induction ts generalizing k with
  | nil => rfl
  | cons t ts ih =>
    simp only [atomNodes, drawNodes, atomNode, drawNode]
    rw [ih, cell_atom H H']

theorem draw_operand (H H' : Heap) (v : Operand) (k : Nat) : drawNode H (v.build k).1 = drawNode H' (v.build k).1 := by
  cases v with
  | att t => rfl
  | atom t => simp only [Operand.build, atomNode, drawNode]; rw [cell_atom H H']; rfl
  | set l es => simp only [Operand.build, drawNode]; rw [draw_atoms H H']; rfl

/-- Before evaluation no symbol is shown. -/
theorem draw_build (H H' : Heap) (p : Policy) (k : Nat) : drawNode H (p.build U k).1 = drawNode H' (p.build U k).1 := by
  induction p generalizing k with
  | cmp l o r =>
    simp only [Policy.build, drawNode, drawNodes]
    rw [draw_operand H H', draw_operand H H']; rfl
  | lit t => rfl
  | att t => rfl
  | not n p ih => simp only [Policy.build, drawNode, drawNodes]; rw [ih]; rfl
  | bin o p q ihp ihq => simp only [Policy.build, drawNode, drawNodes]; rw [ihp, ihq]; rfl

/-! ### Rows of symbols -/

/-- The rows of a checked policy, with the values of a table or without. -/
theorem rows_of_sim {p : Policy} (hf : FoldsAll U p) {s : TC}
    (h : Sim U ⟨s.heap, s.next, s.tab⟩ (checkedMap U p.attToks p.cmps)) (E : SymEnv) {H : Heap}
    (hH : ∀ r, H r = if r ∈ s.tab.symbols then copied U E (s.heap r) else s.heap r) :
    symbolRows s.heap s.tab = attributeRows U p none ∧ symbolRows H s.tab = attributeRows U p (some E) := by
  have key : ∀ (F : Option SymEnv) (G : Heap), (∀ e ∈ s.tab.entries, ∀ t ∈ p.attToks, attKey U t = e.1 →
        (p.attToks.find? (fun t => attKey U t = e.1)) = some t →
        ((G e.2).name, (G e.2).type, (G e.2).value) = symbolRow U p F t) →
      symbolRows G s.tab = attributeRows U p F := by
    intro F G hG
    unfold symbolRows attributeRows
    have ho : firsts [] (p.attToks.map (attKey U)) = s.tab.names := h.order.symm
    rw [ho]
    unfold SymTab.symbols SymTab.names
    have hc : ∀ e ∈ s.tab.entries, (p.attToks.find? (fun t => attKey U t = e.1)).isSome = true := by
      intro e he
      have h1 := h.content e.1
      rw [get_of_mem h.nodup he] at h1
      simp only [checkedMap, Option.map_some] at h1
      cases hfi : p.attToks.find? (fun t => attKey U t = e.1) with
      | none => rw [hfi] at h1; cases h1
      | some t => rfl
    generalize s.tab.entries = l at hG hc
    induction l with
    | nil => rfl
    | cons e l ih =>
      have he := hc e (by simp)
      cases hfi : p.attToks.find? (fun t => attKey U t = e.1) with
      | none => rw [hfi] at he; cases he
      | some t =>
        have ht : attKey U t = e.1 := by simpa using List.find?_some hfi
        have hm := List.mem_of_find?_eq_some hfi
        simp only [List.map_cons, List.filterMap_cons, hfi, Option.map_some]
        rw [← hG e (by simp) t hm ht hfi, ih (fun e he => hG e (by simp [he])) (fun e he => hc e (by simp [he]))]
  have hent : ∀ e ∈ s.tab.entries, ∀ t, p.attToks.find? (fun t => attKey U t = e.1) = some t →
      s.heap e.2 = ⟨typeAt U p.cmps e.1, t.type, .sc .none, U.lower (attName t), fullPrefix (some t.type) ++ U.lower (attName t)⟩ := by
    intro e he t ht
    have h1 := h.content e.1
    rw [get_of_mem h.nodup he] at h1
    simp only [checkedMap, Option.map_some, ht] at h1
    exact (Option.some.inj h1).symm
  refine ⟨key none s.heap ?_, key (some E) H ?_⟩
  · intro e he t ht hk hfi
    rw [hent e he t hfi, symbolRow, ← hk]
    rfl
  · intro e he t ht hk hfi
    rw [hH, if_pos (show e.2 ∈ s.tab.symbols from List.mem_map.2 ⟨e, he, rfl⟩), symbolRow]
    have hn : (s.heap e.2).name = fullPrefix (some t.type) ++ U.lower (attName t) := by rw [hent e he t hfi]
    have hl : U.lower (s.heap e.2).name = attKey U t := by rw [hn]; exact hf t ht
    unfold copied
    rw [hl]
    have hs : symbolFor U E t = (E.tab.get (attKey U t)).map E.heap := rfl
    simp only [Option.bind_some, hs]
    cases hq : E.tab.get (attKey U t) with
    | none => rw [hent e he t hfi, ← hk]; rfl
    | some q => simp only [Option.map_some, hn, stored_eq]

/-! ### The window -/

/-- Interpret finds a value. -/
def HasMeaning (U : Uni) (g : PolicyGui) : Prop :=
  ∃ p d, PolicyOf U g.text p ∧ (semPolicy U (attsOf U g.env) p).2 = .ok d

/-- The table with which Interpret last found a value, since the last Reset. -/
inductive LastTable (U : Uni) (toFloat : Str → Except PyExc PyFloat) (g : PolicyGui) : List Event → Option SymEnv → Prop
  | start : LastTable U toFloat g [] none
  | reset {es} : LastTable U toFloat g (es ++ [.reset]) none
  | found {es E} : LastTable U toFloat g es E → (g.run U toFloat es).interpretOn = true → HasMeaning U (g.run U toFloat es) →
      LastTable U toFloat g (es ++ [.interpret]) (some (g.run U toFloat es).env)
  | none {es E} : LastTable U toFloat g es E → ¬ ((g.run U toFloat es).interpretOn = true ∧ HasMeaning U (g.run U toFloat es)) →
      LastTable U toFloat g (es ++ [.interpret]) E
  | other {es E e} : LastTable U toFloat g es E → e ≠ .reset → e ≠ .interpret → LastTable U toFloat g (es ++ [e]) E

/-- What was drawn, in terms of the fields of the frame. -/
structure Drew (U : Uni) (w : Window) (E : Option SymEnv) : Prop where
  tokens : w.trees.tokens = match w.gui.tokens with | none => [] | some ts => tokenRows ts
  noAst : w.gui.ast = none → w.trees.ast = none
  blank : ∀ n, w.gui.ast = some n → E = none → ∃ H, w.trees.ast = some (drawNode H n)
  evaluated : ∀ n F, w.gui.ast = some n → E = some F →
    w.trees.ast = some (drawNode F.heap (Interp.evaluate U F (some levelERROR) ⟨n, []⟩).1.ast)
  noSymbols : w.gui.checked = none → w.trees.symbols = []
  symbols : ∀ s, w.gui.checked = some s → E = none → w.trees.symbols = symbolRows s.heap s.tab
  copies : ∀ s F, w.gui.checked = some s → E = some F →
    ∃ H, copySymbols U F s.tab s.heap s.tab.symbols = .ok H ∧ w.trees.symbols = symbolRows H s.tab
  past : E ≠ none → w.gui.interpretOn = true
  table : ∀ s, w.gui.checked = some s → ∃ n is, w.gui.ast = some n ∧ TC.check U (some levelCRIT) n (newChecker U) = (s, .ok is)

theorem gui_run (es : List Event) : ∀ w : Window, (w.run U toFloat es).gui = w.gui.run U toFloat es := by
  induction es with
  | nil => exact fun _ => rfl
  | cons e es ih => exact fun w => ih _

theorem window_append (w : Window) (es : List Event) (e : Event) :
    w.run U toFloat (es ++ [e]) = (w.run U toFloat es).step U toFloat e := by
  induction es generalizing w with
  | nil => rfl
  | cons x es ih => exact ih _

theorem fail_fields (g : PolicyGui) (e : PyExc) :
    (g.fail e).1.tokens = g.tokens ∧ (g.fail e).1.ast = g.ast ∧ (g.fail e).1.checked = g.checked ∧
    (g.fail e).1.interpretOn = g.interpretOn := by
  rw [fail_eq]; exact ⟨rfl, rfl, rfl, rfl⟩

/-- Interpret changes neither stages nor buttons. -/
theorem interpret_same {g : PolicyGui} (h : AtInterpret U g) : SameStage g (g.interpret U).1 := by
  obtain ⟨hb, -⟩ := h
  unfold PolicyGui.interpret
  rw [disabled_eq (Prod.mk.inj hb).1 (Prod.mk.inj (Prod.mk.inj hb).2).1 (Prod.mk.inj (Prod.mk.inj (Prod.mk.inj hb).2).2).1]
  dsimp only
  split
  · exact fail_same _ _
  · split
    · exact fail_same _ _
    · split
      · exact fail_same _ _
      · split <;> rfl

theorem drew_same {w w' : Window} {E : Option SymEnv} (hg : SameStage w.gui w'.gui)
    (ht : w'.trees.tokens = w.trees.tokens ∧ w'.trees.ast = w.trees.ast ∧ w'.trees.symbols = w.trees.symbols) (h : Drew U w E) :
    Drew U w' E := by
  unfold SameStage at hg
  have h1 : w'.gui.tokens = w.gui.tokens := by rw [hg]
  have h2 : w'.gui.ast = w.gui.ast := by rw [hg]
  have h3 : w'.gui.checked = w.gui.checked := by rw [hg]
  have h4 : w'.gui.interpretOn = w.gui.interpretOn := by rw [hg]
  obtain ⟨t1, t2, t3⟩ := ht
  refine ⟨?_, ?_, ?_, ?_, ?_, ?_, ?_, ?_, ?_⟩
  · rw [t1, h1]; exact h.tokens
  · rw [t2, h2]; exact h.noAst
  · rw [t2, h2]; exact h.blank
  · rw [t2, h2]; exact h.evaluated
  · rw [t3, h3]; exact h.noSymbols
  · rw [t3, h3]; exact h.symbols
  · rw [t3, h3]; exact h.copies
  · rw [h4]; exact h.past
  · rw [h2, h3]; exact h.table

theorem drew_step {w : Window} {E : Option SymEnv} (hs : Staged U w.gui) (h : Drew U w E) (e : Event) (hr : e ≠ .reset)
    (hi : e ≠ .interpret) : Drew U (w.step U toFloat e) E := by
  have hoff : w.gui.interpretOn = false → E = none := by
    intro h0
    cases E with
    | none => rfl
    | some F => have := h.past (by simp); rw [h0] at this; cases this
  cases e with
  | reset => exact absurd rfl hr
  | interpret => exact absurd rfl hi
  | setText t =>
    dsimp only [Window.step, PolicyGui.step]
    by_cases ht : w.gui.combo = true
    · rw [if_pos ht]
      exact ⟨h.tokens, h.noAst, h.blank, h.evaluated, h.noSymbols, h.symbols, h.copies, h.past, h.table⟩
    · rw [if_neg ht]; exact h
  | edit row value =>
    refine drew_same ?_ ?_ h
    · dsimp only [Window.step, PolicyGui.step]
      split
      · exact edit_same _ _ _
      · rfl
    · dsimp only [Window.step]
      split
      · unfold Window.edit
        split <;> exact ⟨rfl, rfl, rfl⟩
      · exact ⟨rfl, rfl, rfl⟩
  | tokenize =>
    dsimp only [Window.step, PolicyGui.step]
    by_cases ht : w.gui.tokenizeOn = true
    · rw [if_pos ht, if_pos ht]
      have h0 : w.gui.interpretOn = false := by
        rcases hs with h | h | h | h <;> have := h.1 <;> simp only [Prod.mk.injEq] at this
        · exact this.2.2.2
        all_goals rw [this.1] at ht; cases ht
      have hE := hoff h0
      subst hE
      unfold PolicyGui.tokenize Window.tokenize
      dsimp only
      cases hl : lexTokens U w.gui.text with
      | error e =>
        dsimp only
        rw [fail_eq]
        refine ⟨rfl, fun _ => rfl, fun n hn => (by cases hn), fun n F _ hF => (by cases hF), fun _ => rfl, fun s hs => (by cases hs),
          fun s F _ hF => (by cases hF), fun hn => absurd rfl hn, fun s hs => (by cases hs)⟩
      | ok ts =>
        refine ⟨rfl, fun _ => rfl, fun n hn => (by cases hn), fun n F _ hF => (by cases hF), fun _ => rfl, fun s hs => (by cases hs),
          fun s F _ hF => (by cases hF), fun hn => absurd rfl hn, fun s hs => (by cases hs)⟩
    · rw [if_neg ht, if_neg ht]; exact h
  | parse =>
    dsimp only [Window.step, PolicyGui.step]
    by_cases ht : w.gui.parseOn = true
    · rw [if_pos ht, if_pos ht]
      have h0 : w.gui.interpretOn = false := by
        rcases hs with h | h | h | h <;> have := h.1 <;> simp only [Prod.mk.injEq] at this
        · exact this.2.2.2
        · exact this.2.2.2
        · exact this.2.2.2
        · rw [this.2.1] at ht; cases ht
      have hE := hoff h0
      subst hE
      unfold PolicyGui.parse Window.parse
      dsimp only
      have htk := h.tokens
      cases hl : w.gui.tokens with
      | none =>
        rw [hl] at htk
        dsimp only
        rw [fail_eq]
        refine ⟨?_, fun _ => rfl, fun n hn => (by cases hn), fun n F _ hF => (by cases hF), fun _ => rfl, fun s hs => (by cases hs),
          fun s F _ hF => (by cases hF), fun hn => absurd rfl hn, fun s hs => (by cases hs)⟩
        exact htk
      | some ts =>
        rw [hl] at htk
        dsimp only
        cases hp : parseTokens U w.gui.nextId ts with
        | error e =>
          dsimp only
          rw [fail_eq]
          refine ⟨?_, fun _ => rfl, fun n hn => (by cases hn), fun n F _ hF => (by cases hF), fun _ => rfl, fun s hs => (by cases hs),
            fun s F _ hF => (by cases hF), fun hn => absurd rfl hn, fun s hs => (by cases hs)⟩
          exact htk
        | ok x =>
          obtain ⟨n, k⟩ := x
          refine ⟨?_, fun hn => (by cases hn), fun m hm _ => ?_, fun n F _ hF => (by cases hF), fun _ => rfl, fun s hs => (by cases hs),
            fun s F _ hF => (by cases hF), fun hn => absurd rfl hn, fun s hs => (by cases hs)⟩
          · exact htk
          · cases hm; exact ⟨_, rfl⟩
    · rw [if_neg ht, if_neg ht]; exact h
  | typeCheck =>
    dsimp only [Window.step, PolicyGui.step]
    by_cases ht : w.gui.checkOn = true
    · rw [if_pos ht, if_pos ht]
      have h0 : w.gui.interpretOn = false := by
        rcases hs with h | h | h | h <;> have := h.1 <;> simp only [Prod.mk.injEq] at this
        · exact this.2.2.2
        · exact this.2.2.2
        · exact this.2.2.2
        · rw [this.2.2.1] at ht; cases ht
      have hE := hoff h0
      subst hE
      unfold PolicyGui.typeCheck Window.typeCheck
      dsimp only
      cases hl : w.gui.ast with
      | none =>
        dsimp only
        rw [fail_eq]
        refine ⟨h.tokens, fun _ => h.noAst hl, fun n hn => ?_, fun n F _ hF => (by cases hF), fun _ => rfl, fun s hs => (by cases hs),
          fun s F _ hF => (by cases hF), fun hn => absurd rfl hn, fun s hs => (by cases hs)⟩
        cases hn
      | some n =>
        dsimp only
        rcases hc : TC.check U (some levelCRIT) n (newChecker U) with ⟨s, e | is⟩
        · dsimp only
          rw [fail_eq]
          refine ⟨h.tokens, fun hn => ?_, fun m hm _ => ?_, fun n F _ hF => (by cases hF), fun _ => rfl, fun s hs => (by cases hs),
            fun s F _ hF => (by cases hF), fun hn => absurd rfl hn, fun s hs => (by cases hs)⟩
          · cases hn
          · exact h.blank m (hl.trans hm) rfl
        · dsimp only
          split
          all_goals
            refine ⟨h.tokens, fun hn => ?_, fun m hm _ => ?_, fun n F _ hF => (by cases hF), fun hn => (by cases hn), fun s hs _ => (by cases hs; rfl),
              fun s F _ hF => (by cases hF), fun hn => absurd rfl hn, fun s hs => (by cases hs; exact ⟨n, is, rfl, hc⟩)⟩
            · cases hn
            · exact h.blank m (hl.trans hm) rfl
    · rw [if_neg ht, if_neg ht]; exact h

/-- Interpret draws what it found; otherwise it leaves the trees. -/
theorem drew_interpret (hU : U.Lawful) {w : Window} {E : Option SymEnv} (hs : Staged U w.gui) (h : Drew U w E)
    (hE : SymEnv.SetsOk w.gui.env) :
    (w.gui.interpretOn = true ∧ HasMeaning U w.gui → Drew U (w.step U toFloat .interpret) (some w.gui.env)) ∧
    (¬ (w.gui.interpretOn = true ∧ HasMeaning U w.gui) → Drew U (w.step U toFloat .interpret) E) := by
  by_cases hi : w.gui.interpretOn = true
  swap
  · refine ⟨fun x => absurd x.1 hi, fun _ => ?_⟩
    dsimp only [Window.step, PolicyGui.step]
    rw [if_neg hi, if_neg hi]
    exact h
  have ht : AtInterpret U w.gui := by
    rcases hs with h | h | h | h
    · rw [(Prod.mk.inj (Prod.mk.inj (Prod.mk.inj h.1).2).2).2] at hi; cases hi
    · rw [(Prod.mk.inj (Prod.mk.inj (Prod.mk.inj h.1).2).2).2] at hi; cases hi
    · rw [(Prod.mk.inj (Prod.mk.inj (Prod.mk.inj h.1).2).2).2] at hi; cases hi
    · exact h
  have hsame := interpret_same ht
  obtain ⟨hb, hpd, s, n, is, hch, ha, hck, hres⟩ := ht
  obtain ⟨p, k, hp, hast⟩ := hpd.policy hU
  rw [ha] at hast
  cases hast
  obtain ⟨hw, ho, hn⟩ := policyOf_ok hp
  have hstep : w.step U toFloat .interpret = ⟨(w.gui.interpret U).1, w.interpret U⟩ := by
    dsimp only [Window.step, PolicyGui.step]; rw [if_pos hi, if_pos hi]
  obtain ⟨h1, h2⟩ := evaluate_policy U hU w.gui.env hE p k hw ho hn (some levelERROR)
  rw [outcome_error] at h2
  rw [hstep]
  rcases hx : Interp.evaluate U w.gui.env (some levelERROR) ⟨(p.build U k).1, []⟩ with ⟨i, e | x⟩
  · rw [hx] at h2
    dsimp only [Except.map] at h2
    have hno : ¬ HasMeaning U w.gui := by
      rintro ⟨q, d, hq, hd⟩
      rw [policyOf_unique hU hq hp] at hd
      rw [hd] at h2
      cases h2
    refine ⟨fun y => absurd y.2 hno, fun _ => drew_same hsame ?_ h⟩
    unfold Window.interpret
    rw [ha, hch]
    dsimp only
    rw [hx]
    exact ⟨rfl, rfl, rfl⟩
  · rw [hx] at h2
    dsimp only [Except.map] at h2
    cases ho' : (semPolicy U (attsOf U w.gui.env) p).2 with
    | error e => rw [ho'] at h2; cases h2
    | ok d =>
    have hyes : HasMeaning U w.gui := ⟨p, d, hp, ho'⟩
    refine ⟨fun _ => ?_, fun y => absurd ⟨hi, hyes⟩ y⟩
    have hname : ∃ name, resultName w.gui.env x = some name := by
      have ht : evaluateText U w.gui.env (some levelERROR) k w.gui.text = .ok (i, .ok x) := by
        unfold evaluateText
        rw [(parseText_iff hU k (p.build U k).2 w.gui.text (p.build U k).1).2 ⟨p, hp, rfl⟩, ← hx]
        rfl
      rcases evaluate_returns U hU w.gui.env hE (some levelERROR) k w.gui.text p hp i x ht with ⟨v, rfl⟩ | ⟨t, _, _, r, _, rfl, _⟩
      · cases v <;> exact ⟨_, rfl⟩
      · exact ⟨_, rfl⟩
    obtain ⟨name, hname⟩ := hname
    have hok : TableOk U s := by
      have := tableOk_check (level := some 4) (n := (p.build U k).1) (tableOk_new U)
      rw [hck] at this
      exact this
    obtain ⟨H, hH, -⟩ := copySymbols_eq (U := U) (E := w.gui.env) (tab := s.tab) s.tab.symbols s.heap (fun r hr => tableOk_get hok hr)
    have hg : ∀ {α} (f : PolicyGui → α), (∀ g env console nextId, f { g with env := env, console := console, nextId := nextId } = f g) →
        f (w.gui.interpret U).1 = f w.gui := by
      intro α f hf
      have := hsame
      unfold SameStage at this
      rw [this, hf]
    have g1 : (w.gui.interpret U).1.tokens = w.gui.tokens := hg (·.tokens) fun _ _ _ _ => rfl
    have g2 : (w.gui.interpret U).1.ast = w.gui.ast := hg (·.ast) fun _ _ _ _ => rfl
    have g3 : (w.gui.interpret U).1.checked = w.gui.checked := hg (·.checked) fun _ _ _ _ => rfl
    have g4 : (w.gui.interpret U).1.interpretOn = w.gui.interpretOn := hg (·.interpretOn) fun _ _ _ _ => rfl
    have htr : w.interpret U =
        { w.trees with symbols := symbolRows H s.tab, ast := some (drawNode w.gui.env.heap i.ast) } := by
      unfold Window.interpret
      rw [ha, hch]
      dsimp only
      rw [hx]
      dsimp only
      rw [hH, hname]
    rw [htr]
    refine ⟨?_, ?_, ?_, ?_, ?_, ?_, ?_, fun _ => g4.trans hi, by rw [g2, g3]; exact h.table⟩
    · exact h.tokens.trans (by rw [g1])
    · intro h0; rw [g2, ha] at h0; cases h0
    · intro _ _ h0; cases h0
    · intro m F hm hF
      rw [g2, ha] at hm
      cases hm
      cases hF
      rw [hx]
    · intro h0; rw [g3, hch] at h0; cases h0
    · intro _ _ h0; cases h0
    · intro s' F hs' hF
      rw [g3, hch] at hs'
      cases hs'
      cases hF
      exact ⟨H, hH, rfl⟩

theorem drew_reset (w : Window) : Drew U (w.step U toFloat .reset) none := by
  refine ⟨rfl, fun _ => rfl, ?_, ?_, fun _ => rfl, ?_, ?_, fun h => absurd rfl h, fun _ h => by cases h⟩
  · intro _ h; cases h
  · intro _ _ h; cases h
  · intro _ h; cases h
  · intro _ _ h; cases h

theorem drew_make {g : PolicyGui} (hg : Opened g) : Drew U (Window.make g) none := by
  obtain ⟨t, env, k, rfl⟩ := hg
  refine ⟨rfl, fun _ => rfl, ?_, ?_, fun _ => rfl, ?_, ?_, fun h => absurd rfl h, fun _ h => by cases h⟩
  · intro _ h; cases h
  · intro _ _ h; cases h
  · intro _ h; cases h
  · intro _ _ h; cases h

/-- The invariant, after any events. -/
theorem run_drew (hU : U.Lawful) {g : PolicyGui} (hg : Opened g) (hE : SymEnv.SetsOk g.env) {es : List Event} {E : Option SymEnv}
    (h : LastTable U toFloat g es E) : Drew U ((Window.make g).run U toFloat es) E ∧ ∀ F, E = some F → SymEnv.SetsOk F := by
  have hstaged : ∀ es, Staged U ((Window.make g).run U toFloat es).gui := fun es => by rw [gui_run]; exact opened_staged hg es
  have hsets : ∀ es, SymEnv.SetsOk (g.run U toFloat es).env := fun es => run_setsOk hU es g hE
  induction h with
  | start => exact ⟨drew_make hg, fun F h => by cases h⟩
  | reset => rw [window_append]; exact ⟨drew_reset _, fun F h => by cases h⟩
  | @found es E _ hi hm ih =>
    rw [window_append]
    have := (drew_interpret (toFloat := toFloat) hU (hstaged es) ih.1 (by rw [gui_run]; exact hsets es)).1
    rw [gui_run] at this
    exact ⟨this ⟨hi, hm⟩, fun F h => by cases h; exact hsets es⟩
  | @none es E _ hn ih =>
    rw [window_append]
    have := (drew_interpret (toFloat := toFloat) hU (hstaged es) ih.1 (by rw [gui_run]; exact hsets es)).2
    rw [gui_run] at this
    exact ⟨this hn, ih.2⟩
  | @other es E e _ h1 h2 ih =>
    rw [window_append]
    exact ⟨drew_step (hstaged es) ih.1 e h1 h2, ih.2⟩

/-- There is always exactly one such table, or none. -/
theorem lastTable_unique (g : PolicyGui) (es : List Event) : ∃! E, LastTable U toFloat g es E := by
  induction es using List.reverseRecOn with
  | nil =>
    refine ⟨none, .start, fun E h => ?_⟩
    generalize hes : ([] : List Event) = es at h
    cases h with
    | start => rfl
    | _ => simp at hes
  | append_singleton es e ih =>
    obtain ⟨E, hE, hu⟩ := ih
    have inv : ∀ {E'}, LastTable U toFloat g (es ++ [e]) E' →
        (e = .reset ∧ E' = none) ∨
        (e = .interpret ∧ (g.run U toFloat es).interpretOn = true ∧ HasMeaning U (g.run U toFloat es) ∧
          E' = some (g.run U toFloat es).env) ∨
        (e = .interpret ∧ ¬ ((g.run U toFloat es).interpretOn = true ∧ HasMeaning U (g.run U toFloat es)) ∧ E' = E) ∨
        (e ≠ .reset ∧ e ≠ .interpret ∧ E' = E) := by
      intro E' h
      generalize hes : es ++ [e] = l at h
      cases h with
      | start => simp at hes
      | reset => exact .inl ⟨(List.append_inj' hes rfl).2 |> List.singleton_inj.1, rfl⟩
      | @found es' E0 h hi hm =>
        obtain ⟨rfl, h2⟩ := List.append_inj' hes rfl
        exact .inr (.inl ⟨List.singleton_inj.1 h2, hi, hm, rfl⟩)
      | @none es' E0 h hn =>
        obtain ⟨rfl, h2⟩ := List.append_inj' hes rfl
        exact .inr (.inr (.inl ⟨List.singleton_inj.1 h2, hn, hu _ h⟩))
      | @other es' E0 e' h h1 h2 =>
        obtain ⟨rfl, h3⟩ := List.append_inj' hes rfl
        cases h3
        exact .inr (.inr (.inr ⟨h1, h2, hu _ h⟩))
    by_cases h1 : e = .reset
    · subst h1
      exact ⟨none, .reset, fun E' h => by
        rcases inv h with h | h | h | h
        · exact h.2
        · cases h.1
        · cases h.1
        · exact absurd rfl h.1⟩
    by_cases h2 : e = .interpret
    · subst h2
      by_cases h3 : (g.run U toFloat es).interpretOn = true ∧ HasMeaning U (g.run U toFloat es)
      · exact ⟨_, .found hE h3.1 h3.2, fun E' h => by
          rcases inv h with h | h | h | h
          · cases h.1
          · exact h.2.2.2
          · exact absurd h3 h.2.1
          · exact absurd rfl h.2.1⟩
      · exact ⟨_, .none hE h3, fun E' h => by
          rcases inv h with h | h | h | h
          · cases h.1
          · exact absurd ⟨h.2.1, h.2.2.1⟩ h3
          · exact h.2.2
          · exact absurd rfl h.2.1⟩
    · exact ⟨_, .other hE h1 h2, fun E' h => by
        rcases inv h with h | h | h | h
        · exact absurd h.1 h1
        · exact absurd h.1 h2
        · exact absurd h.1 h2
        · exact h.2.2⟩

/-! ### C134: what the trees show -/

theorem blank_shows (F : SymEnv) {p : Policy} (hw : p.WF) (hn : p.NamesOk) (k : Nat) (H : Heap) :
    RowsShow U F (drawNode H (p.build U k).1) (blankPolicy U p) := by
  rw [draw_build H F.heap]
  exact draw_shows _ (build_found p hw hn k) (holds_blank p k)

theorem marks_show (hU : U.Lawful) {F : SymEnv} (hF : SymEnv.SetsOk F) {p : Policy} (hw : p.WF) (ho : p.OpsOk) (hn : p.NamesOk)
    (k : Nat) : RowsShow U F (drawNode F.heap (Interp.evaluate U F (some levelERROR) ⟨(p.build U k).1, []⟩).1.ast)
      (marks U (attsOf U F) p) := by
  rw [evaluate_state]
  exact draw_shows _ (evalNode_found _ (build_found p hw hn k)) (holds_root hU hF p k hw ho hn)

/-- The rows of the symbol tree after the type check of a policy. -/
theorem checked_rows (hU : U.Lawful) {text : Str} {p : Policy} (hp : PolicyOf U text p) (hf : FoldsAll U p) (k : Nat) {s : TC}
    {is : List Issue} (h : TC.check U (some 4) (p.build U k).1 (newChecker U) = (s, .ok is)) :
    symbolRows s.heap s.tab = attributeRows U p none ∧
    ∀ F H, copySymbols U F s.tab s.heap s.tab.symbols = .ok H → symbolRows H s.tab = attributeRows U p (some F) := by
  obtain ⟨s', h1, _, _, hsim⟩ := (check_refines U hU (newChecker U).heap 0 k (some 4) text).2 p hp hf
  have hs : s' = s := by
    unfold checkText at h1
    rw [(parseText_iff hU k (p.build U k).2 text (p.build U k).1).2 ⟨p, hp, rfl⟩] at h1
    simp only [bind, Except.bind, pure, Except.pure] at h1
    have h2 : TC.check U (some 4) (p.build U k).1 { heap := (newChecker U).heap, next := 0 } = (s, .ok is) := h
    exact congrArg Prod.fst ((Except.ok.inj h1).symm.trans h2)
  subst hs
  have hok : TableOk U s' := by
    have := tableOk_check (level := some 4) (n := (p.build U k).1) (tableOk_new U)
    rw [h] at this
    exact this
  refine ⟨?_, fun F H hH => ?_⟩
  · obtain ⟨H, _, hH⟩ := copySymbols_eq (U := U) (E := ⟨⟨[]⟩, s'.heap⟩) (tab := s'.tab) s'.tab.symbols s'.heap (fun r hr => tableOk_get hok hr)
    exact (rows_of_sim hf hsim _ hH).1
  · obtain ⟨H', h2, hH'⟩ := copySymbols_eq (U := U) (E := F) (tab := s'.tab) s'.tab.symbols s'.heap (fun r hr => tableOk_get hok hr)
    rw [h2] at hH
    cases hH
    exact (rows_of_sim hf hsim _ hH').2

/-- **C134**: the trees show the tokens, the AST and the attributes of the policy in the combo box as far as it was processed. Once
Interpret found a value, they show the values of all subexpressions and the attributes for the table with which it last found one,
which later edits do not change. -/
theorem trees_show (hU : U.Lawful) {g : PolicyGui} (hg : Opened g) (hE : SymEnv.SetsOk g.env) {es : List Event} {E : Option SymEnv}
    (h : LastTable U toFloat g es E) :
    let g' := g.run U toFloat es
    let t := ((Window.make g).run U toFloat es).trees
    (g'.tokenizeOn = true → t.tokens = [] ∧ t.ast = none ∧ t.symbols = []) ∧
    (g'.tokenizeOn = false → ∃ ts, lexTokens U g'.text = .ok ts ∧ t.tokens = ts.map fun t => (t.type, t.value, t.pos)) ∧
    (g'.parseOn = true → t.ast = none ∧ t.symbols = []) ∧
    (g'.checkOn = true → ∃ p d, PolicyOf U g'.text p ∧ t.ast = some d ∧ (∀ F, RowsShow U F d (blankPolicy U p)) ∧
      (t.symbols = [] ∨ (FoldsAll U p → t.symbols = attributeRows U p none))) ∧
    (g'.interpretOn = true → ∃ p d, PolicyOf U g'.text p ∧ t.ast = some d ∧ (FoldsAll U p → t.symbols = attributeRows U p E) ∧
      (E = none → ∀ F, RowsShow U F d (blankPolicy U p)) ∧ ∀ F, E = some F → RowsShow U F d (marks U (attsOf U F) p)) := by
  obtain ⟨hd, hset⟩ := run_drew hU hg hE h
  have hst : Staged U (g.run U toFloat es) := opened_staged hg es
  have hgr := gui_run (U := U) (toFloat := toFloat) es (Window.make g)
  generalize (Window.make g).run U toFloat es = w at hd hgr ⊢
  change w.gui = g.run U toFloat es at hgr
  rw [← hgr] at hst ⊢
  dsimp only
  have hoff : w.gui.interpretOn = false → E = none := by
    intro h0
    cases E with
    | none => rfl
    | some F => have := hd.past (by simp); rw [h0] at this; cases this
  rcases hst with h | h | h | h
  · obtain ⟨hb, h1, h2, h3, _⟩ := h
    simp only [Prod.mk.injEq] at hb
    obtain ⟨b1, b2, b3, b4⟩ := hb
    rw [b1, b2, b3, b4]
    have := hd.tokens
    rw [h1] at this
    refine ⟨fun _ => ⟨this, hd.noAst h2, hd.noSymbols h3⟩, ?_, ?_, ?_, ?_⟩ <;> intro h <;> cases h
  · obtain ⟨hb, _, h2, h3, ts, h1, hl⟩ := h
    simp only [Prod.mk.injEq] at hb
    obtain ⟨b1, b2, b3, b4⟩ := hb
    rw [b1, b2, b3, b4]
    have := hd.tokens
    rw [h1] at this
    refine ⟨?_, fun _ => ⟨ts, hl, this⟩, fun _ => ⟨hd.noAst h2, hd.noSymbols h3⟩, ?_, ?_⟩ <;> intro h <;> cases h
  · obtain ⟨hb, hp, hck⟩ := h
    obtain ⟨p, k, hpo, hast⟩ := hp.policy hU
    obtain ⟨_, ⟨ts, h1, hl⟩, _⟩ := hp
    simp only [Prod.mk.injEq] at hb
    obtain ⟨b1, b2, b3, b4⟩ := hb
    have hE0 := hoff b4
    rw [b1, b2, b3, b4]
    have := hd.tokens
    rw [h1] at this
    obtain ⟨hw, ho, hn⟩ := policyOf_ok hpo
    obtain ⟨H, hH⟩ := hd.blank _ hast hE0
    refine ⟨?_, fun _ => ⟨ts, hl, this⟩, ?_, fun _ => ⟨p, _, hpo, hH, fun F => blank_shows F hw hn k H, ?_⟩, ?_⟩
    · intro h; cases h
    · intro h; cases h
    · cases hc : w.gui.checked with
      | none => exact .inl (hd.noSymbols hc)
      | some s =>
        right
        intro hf
        rw [hd.symbols s hc hE0]
        obtain ⟨n, is, h1, h2⟩ := hd.table s hc
        rw [hast] at h1
        cases h1
        exact (checked_rows hU hpo hf k h2).1
    · intro h; cases h
  · obtain ⟨hb, hp, s, n, is, hch, ha, hck, _⟩ := h
    obtain ⟨p, k, hpo, hast⟩ := hp.policy hU
    rw [ha] at hast
    cases hast
    obtain ⟨_, ⟨ts, h1, hl⟩, _⟩ := hp
    simp only [Prod.mk.injEq] at hb
    obtain ⟨b1, b2, b3, b4⟩ := hb
    rw [b1, b2, b3, b4]
    have := hd.tokens
    rw [h1] at this
    obtain ⟨hw, ho, hn⟩ := policyOf_ok hpo
    refine ⟨?_, fun _ => ⟨ts, hl, this⟩, ?_, ?_, fun _ => ?_⟩
    · intro h; cases h
    · intro h; cases h
    · intro h; cases h
    · cases hE' : E with
      | none =>
        obtain ⟨H, hH⟩ := hd.blank _ ha hE'
        refine ⟨p, _, hpo, hH, fun hf => ?_, fun _ F => blank_shows F hw hn k H, fun F h => by cases h⟩
        rw [hd.symbols s hch hE']
        exact (checked_rows hU hpo hf k hck).1
      | some F =>
        refine ⟨p, _, hpo, hd.evaluated _ F ha hE', fun hf => ?_, fun h => (by cases h), fun F' h => ?_⟩
        · obtain ⟨H, h1, h2⟩ := hd.copies s F hch hE'
          rw [h2]
          exact (checked_rows hU hpo hf k hck).2 F H h1
        · cases h
          exact marks_show hU (hset F hE') hw ho hn k

/-! ### C135: what the rows of attributes show -/

theorem step_atts (w : Window) (e : Event) : (w.step U toFloat e).trees.atts = w.trees.atts ∨
    ∃ row s v, e = .edit row s ∧ row ∈ w.gui.env.tab.symbols ∧ newValue U toFloat (w.gui.env.heap row).type s = .ok (some v) ∧
      (w.step U toFloat e).trees.atts = fun r => if r = row then v else w.trees.atts r := by
  cases e with
  | setText t => exact .inl rfl
  | reset => exact .inl rfl
  | tokenize =>
    left
    dsimp only [Window.step]
    split
    · unfold Window.tokenize; split <;> rfl
    · rfl
  | parse =>
    left
    dsimp only [Window.step]
    split
    · unfold Window.parse
      dsimp only
      split
      · rfl
      · split <;> rfl
    · rfl
  | typeCheck =>
    left
    dsimp only [Window.step]
    split
    · unfold Window.typeCheck
      dsimp only
      split
      · rfl
      · split <;> rfl
    · rfl
  | interpret =>
    left
    dsimp only [Window.step]
    split
    · unfold Window.interpret
      dsimp only
      split
      · split
        · rfl
        · split <;> rfl
      · rfl
    · rfl
  | edit row s =>
    dsimp only [Window.step]
    by_cases hr : row ∈ w.gui.env.tab.symbols
    · rw [if_pos hr]
      unfold Window.edit
      rcases hn : newValue U toFloat (w.gui.env.heap row).type s with e | _ | v
      · exact .inl rfl
      · exact .inl rfl
      · exact .inr ⟨row, s, v, rfl, hr, hn, rfl⟩
    · rw [if_neg hr]; exact .inl rfl

/-- **C135**: a text that is a value of the type of the attribute shows in its row, of whatever class it is, and in no other row. -/
theorem row_edited (hU : U.Lawful) {w : Window} {row : Nat} {s : Str} {v : PyVal} (hr : row ∈ w.gui.env.tab.symbols)
    (hv : EditedTo U toFloat s (w.gui.env.heap row).type v) :
    stored ((w.step U toFloat (.edit row s)).trees.atts row) = v ∧
    ∀ r, r ≠ row → (w.step U toFloat (.edit row s)).trees.atts r = w.trees.atts r := by
  obtain ⟨x, hx, rfl⟩ := (newValue_iff hU).mpr hv
  dsimp only [Window.step]
  rw [if_pos hr]
  unfold Window.edit
  rw [hx]
  dsimp only
  refine ⟨?_, fun r h => if_neg h⟩
  rw [if_pos rfl, stored_eq]

/-- **C135**: nothing else changes the rows. -/
theorem rows_kept (hU : U.Lawful) {w : Window} {e : Event}
    (h : ∀ row s v, e = .edit row s → row ∈ w.gui.env.tab.symbols → ¬ EditedTo U toFloat s (w.gui.env.heap row).type v) :
    (w.step U toFloat e).trees.atts = w.trees.atts := by
  rcases step_atts (U := U) (toFloat := toFloat) w e with h' | ⟨row, s, v, he, hr, hn, _⟩
  · exact h'
  · exact absurd ((newValue_iff hU).mp ⟨v, hn, rfl⟩) (h row s _ he hr)

/-- No attribute outside the classes listed has the full name of another as its name. -/
def Unmistaken (U : Uni) (E : SymEnv) : Prop :=
  ∀ r ∈ E.tab.symbols, (E.heap r).attType ∉ listedClasses → E.tab.lookup U (E.heap r).attName = none

theorem step_agrees (hU : U.Lawful) {w : Window} (hF : Filed U w.gui.env) (hm : Unmistaken U w.gui.env)
    (h : ∀ r ∈ w.gui.env.tab.symbols, (w.gui.env.heap r).attType ∈ listedClasses →
      stored (w.trees.atts r) = stored (w.gui.env.heap r).value) (e : Event) :
    ∀ r ∈ w.gui.env.tab.symbols, (w.gui.env.heap r).attType ∈ listedClasses →
      stored ((w.step U toFloat e).trees.atts r) = stored ((w.step U toFloat e).gui.env.heap r).value := by
  intro r hr hc
  have hst : ∀ v, stored (setterVal v) = setterVal v := by
    intro v
    rw [← stored_eq]
    unfold stored
    cases v with
    | sc x =>
      cases x with
      | bool b => cases b <;> rfl
      | _ => rfl
    | _ => rfl
  by_cases he : ∃ row s v, e = .edit row s ∧ row ∈ w.gui.env.tab.symbols ∧ EditedTo U toFloat s (w.gui.env.heap row).type v
  · obtain ⟨row, s, v, rfl, hrow, hv⟩ := he
    obtain ⟨h1, h2⟩ := row_edited hU hrow hv
    have hg : (w.step U toFloat (.edit row s)).gui = (w.gui.step U toFloat (.edit row s)).1 := rfl
    rw [hg]
    by_cases hl : (w.gui.env.heap row).attType ∈ listedClasses
    · rw [edit_value hU hF hrow hl hv]
      dsimp only [withValue, Heap.write]
      by_cases hrr : r = row
      · subst hrr
        rw [h1, if_pos rfl]
        obtain ⟨x, _, rfl⟩ := (newValue_iff hU).mpr hv
        exact (hst x).symm
      · rw [h2 r hrr, if_neg hrr]
        exact h r hr hc
    · rw [edit_unlisted hU hrow hl (hm row hrow hl) hv]
      have hrr : r ≠ row := by rintro rfl; exact hl hc
      rw [h2 r hrr]
      exact h r hr hc
  · have hk := rows_kept (w := w) (e := e) (toFloat := toFloat) hU (fun row s v h1 h2 h3 => he ⟨row, s, v, h1, h2, h3⟩)
    rw [hk]
    have henv : (w.step U toFloat e).gui.env = w.gui.env := by
      show (w.gui.step U toFloat e).1.env = _
      rcases step_env (U := U) (toFloat := toFloat) w.gui e with h' | ⟨row, s, v, r', rfl, hv, _⟩
      · exact h'
      · have : row ∉ w.gui.env.tab.symbols := fun hrow => he ⟨row, s, _, rfl, hrow, (newValue_iff hU).mp ⟨v, hv, rfl⟩⟩
        dsimp only [step]
        rw [if_neg this]
    rw [henv]
    exact h r hr hc

/-- **C135**: whatever the user does, the row of an attribute of one of the classes listed shows the value of the attribute, where
True and TRUE count as the same. -/
theorem rows_agree (hU : U.Lawful) {g : PolicyGui} (hF : Filed U g.env) (hm : Unmistaken U g.env) (es : List Event) {r : Nat}
    (hr : r ∈ g.env.tab.symbols) (hc : (g.env.heap r).attType ∈ listedClasses) :
    stored (((Window.make g).run U toFloat es).trees.atts r) = stored ((g.run U toFloat es).env.heap r).value := by
  have key : ∀ (es : List Event) (w : Window), Filed U w.gui.env → Unmistaken U w.gui.env →
      (∀ r ∈ w.gui.env.tab.symbols, (w.gui.env.heap r).attType ∈ listedClasses →
        stored (w.trees.atts r) = stored (w.gui.env.heap r).value) →
      ∀ r ∈ w.gui.env.tab.symbols, (w.gui.env.heap r).attType ∈ listedClasses →
        stored ((w.run U toFloat es).trees.atts r) = stored ((w.run U toFloat es).gui.env.heap r).value := by
    intro es
    induction es with
    | nil => exact fun w _ _ h => h
    | cons e es ih =>
      intro w hF hm h r hr hc
      obtain ⟨h1, h2, h3⟩ := run_filed (U := U) (toFloat := toFloat) [e] w.gui
      change (w.step U toFloat e).gui.env.tab = w.gui.env.tab at h1
      change ∀ r, { (w.step U toFloat e).gui.env.heap r with value := .sc .none } = _ at h2
      have h4 : ∀ r, ((w.step U toFloat e).gui.env.heap r).attType = (w.gui.env.heap r).attType := fun r => by
        have := congrArg Symbol.attType (h2 r); exact this
      have h5 : ∀ r, ((w.step U toFloat e).gui.env.heap r).attName = (w.gui.env.heap r).attName := fun r => by
        have := congrArg Symbol.attName (h2 r); exact this
      refine ih (w.step U toFloat e) (h3 hF) ?_ ?_ r (by rw [h1]; exact hr) (by rw [h4]; exact hc)
      · intro r hr hc
        rw [h1] at hr ⊢
        rw [h4] at hc
        rw [h5]
        exact hm r hr hc
      · intro r hr hc
        rw [h1] at hr
        rw [h4] at hc
        exact step_agrees hU hF hm h e r hr hc
  have := key es (Window.make g) hF hm (fun _ _ _ => rfl) r hr hc
  rw [gui_run] at this
  exact this

/-- **C135**: the row of any other attribute shows a value the attribute does not get. -/
theorem row_unlisted (hU : U.Lawful) {w : Window} {row : Nat} {s : Str} {v : PyVal} (hr : row ∈ w.gui.env.tab.symbols)
    (hc : (w.gui.env.heap row).attType ∉ listedClasses) (hm : Unmistaken U w.gui.env)
    (hv : EditedTo U toFloat s (w.gui.env.heap row).type v) :
    stored ((w.step U toFloat (.edit row s)).trees.atts row) = v ∧ (w.step U toFloat (.edit row s)).gui = w.gui ∧
    (w.gui.step U toFloat (.edit row s)).2 = some (.exception "") := by
  refine ⟨(row_edited hU hr hv).1, ?_, ?_⟩
  · show (w.gui.step U toFloat (.edit row s)).1 = _
    rw [edit_unlisted hU hr hc (hm row hr hc) hv]
  · rw [edit_unlisted hU hr hc (hm row hr hc) hv]

/-! ### Examples -/

def demoTrees (text : String) (es : List Event) : Trees := ((Window.make (demoGui text)).run asciiUni noFloats es).trees

theorem demo_unmistaken (t : String) : Unmistaken asciiUni (demoGui t).env := by
  show Unmistaken asciiUni (demoGui "").env
  intro r hr
  have hr : r ∈ [0, 1, 2, 3] := hr
  simp only [List.mem_cons, List.not_mem_nil, or_false] at hr
  rcases hr with rfl | rfl | rfl | rfl <;> decide

/-- a way to find that a policy has a meaning -/
theorem hasMeaning_of (hU : U.Lawful) {g : PolicyGui} (hE : SymEnv.SetsOk g.env)
    (h : (match evaluateText U g.env (some levelERROR) 0 g.text with | .ok (_, .ok _) => true | _ => false) = true) :
    HasMeaning U g := by
  cases ht : evaluateText U g.env (some levelERROR) 0 g.text with
  | error e => rw [ht] at h; cases h
  | ok x =>
    obtain ⟨i, e | x⟩ := x
    · rw [ht] at h; cases h
    · unfold evaluateText at ht
      cases hp : parseText U 0 g.text with
      | error e => rw [hp] at ht; cases ht
      | ok y =>
        obtain ⟨n, k'⟩ := y
        rw [hp] at ht
        obtain ⟨p, hpo, hb⟩ := (parseText_iff hU 0 k' g.text n).mp hp
        obtain ⟨hw, ho, hn⟩ := policyOf_ok hpo
        have h2 := (evaluate_policy U hU g.env hE p 0 hw ho hn (some levelERROR)).2
        have hn' : n = (p.build U 0).1 := by rw [hb]
        have ht' : Interp.evaluate U g.env (some levelERROR) ⟨n, []⟩ = (i, .ok x) := Except.ok.inj ht
        rw [← hn', ht', outcome_error] at h2
        cases hd : (semPolicy U (attsOf U g.env) p).2 with
        | error e => rw [hd] at h2; cases h2
        | ok d => exact ⟨p, d, hpo, hd⟩

/-- the table with which Interpret last found a value is kept after an edit -/
example : ∃ F, LastTable asciiUni noFloats (demoGui "user.admin") (clicks ++ [.edit 0 "no".toList]) (some F) ∧
    (F.heap 0).value = .sc (.tri .true) := by
  obtain ⟨E, hE, -⟩ := lastTable_unique (U := asciiUni) (toFloat := noFloats) (demoGui "user.admin") [.tokenize, .parse, .typeCheck]
  refine ⟨_, .other (.found hE (by decide +kernel) ?_) (by simp) (by simp), by decide +kernel⟩
  exact hasMeaning_of asciiUni_lawful (run_setsOk asciiUni_lawful _ _ (demo_setsOk _)) (by decide +kernel)

mutual
/-- The cells of a tree, from top to bottom. -/
def cells : Drawn → List Cell
  | .mk _ _ c rows => c :: cellsList rows

def cellsList : List Drawn → List Cell
  | [] => []
  | d :: ds => cells d ++ cellsList ds
end

/-- before Interpret there are no results but those of constants; the type of an attribute compared with an integer is inferred -/
example : (demoTrees "user.level = 1" [.tokenize, .parse, .typeCheck]).ast.map cells =
      some [.nothing, .nothing, .const (.int 1)] ∧
    (demoTrees "user.level = 1" [.tokenize, .parse, .typeCheck]).symbols = [("user.level".toList, .int, .sc .none)] ∧
    (demoTrees "user.level = 1" [.tokenize]).tokens =
      [(.start, .none, 0), (.usrAtt, .str "level".toList, 0), (.op, .str "=".toList, 11), (.int, .int 1, 13), (.end, .none, 14)] := by decide +kernel
/-- Interpret shows TRUE and the value; an edit does not change that, the next Interpret does -/
example : (demoTrees "NOT user.admin" clicks).ast.map cells = some [.truth .false, .truth .true] ∧
    (demoTrees "NOT user.admin" clicks).symbols = [("user.admin".toList, .bool, .sc (.tri .true))] ∧
    (demoTrees "NOT user.admin" (clicks ++ [.edit 0 "no".toList])).ast.map cells = some [.truth .false, .truth .true] ∧
    (demoTrees "NOT user.admin" (clicks ++ [.edit 0 "no".toList])).symbols = [("user.admin".toList, .bool, .sc (.tri .true))] ∧
    (demoTrees "NOT user.admin" (clicks ++ [.edit 0 "no".toList, .interpret])).ast.map cells = some [.truth .true, .truth .false] ∧
    (demoTrees "NOT user.admin" (clicks ++ [.edit 0 "no".toList, .interpret])).symbols =
      [("user.admin".toList, .bool, .sc (.tri .false))] := by decide +kernel
/-- rows of attributes; the last one is of no class, and its value stays as it was -/
example : (demoTrees "" [.edit 0 "no".toList]).atts 0 = .sc (.bool false) ∧
    ((demoGui "").run asciiUni noFloats [.edit 0 "no".toList]).env.heap 0 = { (demoGui "").env.heap 0 with value := .sc (.tri .false) } ∧
    (demoTrees "" [.edit 3 "v".toList]).atts 3 = .sc (.atom (.str "v".toList)) ∧
    ((demoGui "").run asciiUni noFloats [.edit 3 "v".toList]).env.heap 3 = (demoGui "").env.heap 3 ∧
    ((demoGui "").env.heap 3).value ≠ .sc (.atom (.str "v".toList)) := by decide +kernel

/-- An attribute of no class can have the full name of another as its name. Editing it changes the other, whose row does not show
that: this is why `rows_agree` asks for `Unmistaken`. -/
def mistakenEnv : SymEnv where
  tab := ⟨[("user.a".toList, 0), ("unkown.user.a".toList, 1)]⟩
  heap := fun r => if r = 0 then Symbol.new asciiUni "a".toList (some .usrAtt) (some .string) (.sc (.atom (.str "x".toList)))
    else Symbol.new asciiUni "user.a".toList none (some .string) (.sc (.atom (.str "y".toList)))

theorem mistaken : Filed asciiUni mistakenEnv ∧ ¬ Unmistaken asciiUni mistakenEnv ∧
    let g : PolicyGui := { text := [], env := mistakenEnv }
    ((Window.make g).run asciiUni noFloats [.edit 1 "z".toList]).trees.atts 0 = .sc (.atom (.str "x".toList)) ∧
    ((g.run asciiUni noFloats [.edit 1 "z".toList]).env.heap 0).value = .sc (.atom (.str "z".toList)) := by
  refine ⟨⟨fun r hr => ?_, fun r hr => ?_⟩, fun h => ?_, by decide +kernel, by decide +kernel⟩
  · have hr : r ∈ [0, 1] := hr
    simp only [List.mem_cons, List.not_mem_nil, or_false] at hr
    rcases hr with rfl | rfl <;> decide
  · have hr : r ∈ [0, 1] := hr
    simp only [List.mem_cons, List.not_mem_nil, or_false] at hr
    rcases hr with rfl | rfl <;> decide
  · exact absurd (h 1 (by decide) (by decide)) (by decide)

end Verif.Props
