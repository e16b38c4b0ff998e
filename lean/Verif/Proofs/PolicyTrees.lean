import Verif.Model.PolicyTrees
import Verif.Props.Symbols
import Verif.Proofs.Marks
import Verif.Proofs.Checking
/-!
# Tables of the type checker, and symbols found by the interpreter
-/

namespace Verif.Proofs
open Verif Verif.Spec Verif.Props

/-! ### The table of the type checker -/

/-- Symbols are filed under their lower-cased names, once. -/
structure TableOk (U : Uni) (s : TC) : Prop where
  filed : ∀ e ∈ s.tab.entries, e.1 = U.lower (s.heap e.2).name ∧ e.2 < s.next
  nodup : s.tab.names.Nodup

theorem tableOk_get {U : Uni} {s : TC} (h : TableOk U s) {r : Nat} (hr : r ∈ s.tab.symbols) :
    s.tab.get (U.lower (s.heap r).name) = some r := by
  obtain ⟨e, he, rfl⟩ := List.mem_map.1 hr
  rw [← (h.filed e he).1]
  exact get_of_mem h.nodup he

theorem tableOk_names {U : Uni} {s s' : TC} (h : TableOk U s) (ht : s'.tab = s.tab) (hn : s'.next = s.next)
    (hh : ∀ r, (s'.heap r).name = (s.heap r).name) : TableOk U s' := by
  refine ⟨?_, by rw [ht]; exact h.nodup⟩
  rw [ht, hn]
  intro e he
  rw [hh]
  exact h.filed e he

theorem tableOk_attNode {U : Uni} {s s' : TC} (h : TableOk U s) {t : Token} (hs : s.attNode U t = .ok s') : TableOk U s' := by
  unfold TC.attNode at hs
  cases hv : t.value with
  | str v =>
    rw [hv] at hs
    cases hs
    unfold SymTab.define
    have hold : ∀ e ∈ s.tab.entries, ∀ x, (s.heap.write s.next x e.2) = s.heap e.2 := by
      intro e he x
      unfold Heap.write
      rw [if_neg (by have := (h.filed e he).2; omega)]
    by_cases hg : (s.tab.get (U.lower ((s.heap.write s.next (Symbol.new U v (some t.type) (some .unknown) (.sc .none))) s.next).name)).isNone = true
    · rw [if_pos hg]
      refine ⟨?_, ?_⟩
      · intro e he
        simp only [List.mem_append, List.mem_singleton] at he
        rcases he with he | rfl
        · refine ⟨?_, by have := (h.filed e he).2; show e.2 < s.next + 1; omega⟩
          show e.1 = U.lower ((s.heap.write s.next _) e.2).name
          rw [hold e he]
          exact (h.filed e he).1
        · exact ⟨rfl, Nat.lt_succ_self _⟩
      · have := get_none (Option.isNone_iff_eq_none.1 hg)
        show (s.tab.entries ++ [_]).map Prod.fst |>.Nodup
        rw [List.map_append, List.nodup_append]
        refine ⟨h.nodup, by simp, ?_⟩
        intro a ha b hb hab
        simp only [List.map_cons, List.map_nil, List.mem_singleton] at hb
        subst hab
        rw [hb] at ha
        exact this ha
    · rw [if_neg hg]
      refine ⟨?_, h.nodup⟩
      intro e he
      refine ⟨?_, by have := (h.filed e he).2; show e.2 < s.next + 1; omega⟩
      show e.1 = U.lower ((s.heap.write s.next _) e.2).name
      rw [hold e he]
      exact (h.filed e he).1
  | none => rw [hv] at hs; cases hs
  | int i => rw [hv] at hs; cases hs
  | flt f => rw [hv] at hs; cases hs

theorem write_type_name (h : Heap) (a : Nat) (ty : SymType) (b : Nat) : ((h.write a { h a with type := ty }) b).name = (h b).name := by
  unfold Heap.write
  split
  · rename_i e; rw [e]
  · rfl

theorem switchType_name {U : Uni} {h h' : Heap} {t : SymTab} {n : Str} {ty old : SymType} (hs : t.switchType U h n ty = .ok (h', old))
    (b : Nat) : (h' b).name = (h b).name := by
  unfold SymTab.switchType at hs
  split at hs
  · cases hs; exact write_type_name ..
  · cases hs

theorem tableOk_attCheck {U : Uni} {s s' : TC} (h : TableOk U s) {n : Node} (hs : s.attCheck U n = .ok s') : TableOk U s' := by
  unfold TC.attCheck at hs
  simp only [bind, Except.bind, pure, Except.pure] at hs
  repeat' split at hs
  all_goals first
    | (cases hs; exact h)
    | (cases hs; exact ⟨h.filed, h.nodup⟩)
    | (rename_i hc; exact absurd hc.1 hc.2)
    | (cases hs; rename_i hx; exact tableOk_names h rfl rfl (switchType_name hx))
    | (rename_i hc _ _ _; exact absurd hc.1 hc.2)
    | (rename_i hc _ _; exact absurd hc.1 hc.2)
    | cases hs

theorem tableOk_visit {U : Uni} {s s' : TC} (h : TableOk U s) {n : Node} (hs : s.visit U n = .ok s') : TableOk U s' := by
  unfold TC.visit at hs
  split at hs
  · exact tableOk_attNode h hs
  · unfold TC.opNode TC.numCheck TC.eqCheck TC.inCheck TC.subsetCheck at hs
    repeat' split at hs
    all_goals first
      | exact tableOk_attCheck h hs
      | (cases hs; exact ⟨h.filed, h.nodup⟩)
      | cases hs

mutual
theorem tableOk_scan {U : Uni} (n : Node) (s : TC) (h : TableOk U s) : TableOk U (TC.scan U n s).1 := by
  obtain ⟨k, t, i, r, cs⟩ := n
  rw [TC.scan]
  have h' := tableOk_scanList cs s h
  generalize TC.scanList U cs s = x at h' ⊢
  obtain ⟨s1, e⟩ := x
  cases e with
  | some e => exact h'
  | none =>
    dsimp only
    cases hv : s1.visit U (.mk k t i r cs) with
    | ok s2 => exact tableOk_visit h' hv
    | error e => exact h'

theorem tableOk_scanList {U : Uni} (ns : List Node) (s : TC) (h : TableOk U s) : TableOk U (TC.scanList U ns s).1 := by
  cases ns with
  | nil => rw [TC.scanList]; exact h
  | cons n ns =>
    rw [TC.scanList]
    split
    · exact tableOk_scanList ns s h
    · have h' := tableOk_scan n s h
      generalize TC.scan U n s = x at h' ⊢
      obtain ⟨s1, e⟩ := x
      cases e with
      | some e => exact h'
      | none => exact tableOk_scanList ns s1 h'
end

theorem tableOk_check {U : Uni} {level : Option Int} {n : Node} {s : TC} (h : TableOk U s) : TableOk U (TC.check U level n s).1 := by
  have h' := tableOk_scan n s h
  unfold TC.check
  generalize TC.scan U n s = x at h' ⊢
  obtain ⟨s1, e⟩ := x
  cases e with
  | some e => exact h'
  | none =>
    dsimp only
    split <;> exact ⟨h'.filed, h'.nodup⟩

theorem tableOk_new (U : Uni) : TableOk U (PolicyGui.newChecker U) := ⟨by simp [PolicyGui.newChecker], by simp [PolicyGui.newChecker, SymTab.names]⟩

/-! ### Copying values and types -/

/-- A symbol with value and type of a table. -/
def copied (U : Uni) (E : SymEnv) (s : Symbol) : Symbol :=
  match E.tab.get (U.lower s.name) with
  | some q => { s with type := (E.heap q).type, value := setterVal (E.heap q).value }
  | none => s

theorem copied_name (U : Uni) (E : SymEnv) (s : Symbol) : (copied U E s).name = s.name := by
  unfold copied
  split <;> rfl

theorem copied_idem (U : Uni) (E : SymEnv) (s : Symbol) : copied U E (copied U E s) = copied U E s := by
  rw [copied, copied_name]
  cases h : E.tab.get (U.lower s.name) with
  | none => rfl
  | some q => simp only [copied, h]

theorem copySymbols_eq {U : Uni} {E : SymEnv} {tab : SymTab} : ∀ (rs : List Nat) (H : Heap),
    (∀ r ∈ rs, tab.get (U.lower (H r).name) = some r) →
    ∃ H', copySymbols U E tab H rs = .ok H' ∧ ∀ r, H' r = if r ∈ rs then copied U E (H r) else H r
  | [], H, _ => ⟨H, rfl, fun r => by simp⟩
  | r :: rs, H, h => by
    have hr := h r (by simp)
    rw [copySymbols]
    cases hq : E.tab.get (U.lower (H r).name) with
    | none =>
      have hc : copied U E (H r) = H r := by simp [copied, hq]
      rw [if_neg (by simp [SymTab.exists, hq])]
      obtain ⟨H', h1, h2⟩ := copySymbols_eq rs H (fun x hx => h x (by simp [hx]))
      refine ⟨H', h1, fun x => ?_⟩
      rw [h2]
      by_cases hx : x = r
      · subst hx; simp [hc]
      · simp [hx]
    | some q =>
      rw [if_pos (by simp [SymTab.exists, hq])]
      have e1 : E.tab.lookupValue U E.heap (H r).name = .ok (E.heap q).value := by simp [SymTab.lookupValue, hq]
      have e2 : tab.setValue U H (H r).name (E.heap q).value = .ok (H.write r { H r with value := setterVal (E.heap q).value }) := by
        simp [SymTab.setValue, hr]
      have e3 : ((H.write r { H r with value := setterVal (E.heap q).value }) r).name = (H r).name := by simp [Heap.write]
      have e4 : E.tab.lookupType U E.heap (H r).name = some (E.heap q).type := by simp [SymTab.lookupType, hq]
      simp only [e1, e2, e3, e4, bind, Except.bind, Option.getD_some]
      have e5 : tab.switchType U (H.write r { H r with value := setterVal (E.heap q).value }) (H r).name (E.heap q).type =
          .ok (H.write r (copied U E (H r)), (H r).type) := by
        simp only [SymTab.switchType, hr, copied, hq]
        congr 2
        · funext x
          unfold Heap.write
          by_cases hx : x = r
          · simp [hx]
          · simp [hx]
        · simp [Heap.write]
      rw [e5]
      dsimp only
      have hn : ∀ x, ((H.write r (copied U E (H r))) x).name = (H x).name := by
        intro x
        unfold Heap.write
        split
        · rename_i hx; rw [hx, copied_name]
        · rfl
      obtain ⟨H', h1, h2⟩ := copySymbols_eq rs (H.write r (copied U E (H r))) (fun x hx => by rw [hn]; exact h x (by simp [hx]))
      refine ⟨H', h1, fun x => ?_⟩
      rw [h2]
      unfold Heap.write
      by_cases hx : x = r
      · subst hx
        simp [copied_idem]
      · simp [hx]

/-! ### Symbols in evaluated trees -/

/-- A symbol is stored at its attribute only. -/
inductive Found (U : Uni) (E : SymEnv) : Node → Prop
  | mk {k : Kind} {t : Token} {i : Nat} {x : Res} {cs : List Node}
      (hk : ∀ n, attToSymbolName k t = .ok n → n = attTypePrefix (some t.type) ++ attName t)
      (hx : ∀ r, x = .sym r → ∃ n, attToSymbolName k t = .ok n ∧ E.tab.lookup U n = some r)
      (hcs : ∀ c ∈ cs, Found U E c) : Found U E (.mk k t i x cs)

theorem evalSelf_found {U : Uni} {E : SymEnv} {k : Kind} {t : Token} {x : Res} {cs : List Node}
    (hx : ∀ r, x = .sym r → ∃ n, attToSymbolName k t = .ok n ∧ E.tab.lookup U n = some r) (r : Nat)
    (h : (evalSelf U E k t x cs).1 = .sym r) : ∃ n, attToSymbolName k t = .ok n ∧ E.tab.lookup U n = some r := by
  unfold evalSelf at h
  by_cases hk : k.isAtt = true
  · rw [if_pos hk] at h
    unfold evalAtt at h
    cases hn : attToSymbolName k t with
    | error e =>
      rw [hn] at h
      obtain ⟨n, h1, _⟩ := hx r h
      rw [hn] at h1
      cases h1
    | ok n =>
      rw [hn] at h
      dsimp only at h
      cases hl : E.tab.lookup U n with
      | none => rw [hl] at h; cases h
      | some q =>
        rw [hl] at h
        dsimp only at h
        refine ⟨n, rfl, ?_⟩
        split at h
        · cases h
        · split at h
          · split at h
            · cases h
            · obtain ⟨n', h1, h2⟩ := hx r h
              rw [hn] at h1
              cases h1
              exact h2
          · cases h; rw [hl]
  · rw [if_neg hk] at h
    refine hx r ?_
    unfold evalNot evalSet evalBoolOp evalOp at h
    repeat' split at h
    all_goals first
      | exact h
      | cases h

mutual
theorem evalNode_found {U : Uni} {E : SymEnv} : ∀ (n : Node), Found U E n → Found U E (evalNode U E n).1
  | .mk k t i x cs, .mk hk hx hcs => by
    have h := evalChildren_found cs hcs
    rw [evalNode]
    generalize evalChildren U E cs = y at h ⊢
    obtain ⟨cs', w, _ | e⟩ := y
    · dsimp only at h ⊢
      have hf := evalSelf_found (E := E) (U := U) (cs := cs') hx
      generalize evalSelf U E k t x cs' = z at hf ⊢
      obtain ⟨x', w', e⟩ := z
      exact .mk hk hf h
    · exact .mk hk hx h

theorem evalChildren_found {U : Uni} {E : SymEnv} : ∀ (ns : List Node), (∀ n ∈ ns, Found U E n) →
    ∀ n ∈ (evalChildren U E ns).1, Found U E n
  | [], _ => by rw [evalChildren]; intro n hn; cases hn
  | n :: ns, h => by
    have h1 := evalNode_found n (h n (by simp))
    have h2 := evalChildren_found ns (fun m hm => h m (by simp [hm]))
    rw [evalChildren]
    split
    · generalize evalChildren U E ns = y at h2 ⊢
      obtain ⟨ns', w, e⟩ := y
      intro m hm
      rcases List.mem_cons.1 hm with rfl | hm
      · exact h m (by simp)
      · exact h2 m hm
    · generalize evalNode U E n = z at h1 ⊢
      obtain ⟨n', w, _ | e⟩ := z
      · generalize evalChildren U E ns = y at h2 ⊢
        obtain ⟨ns', w', e⟩ := y
        intro m hm
        rcases List.mem_cons.1 hm with rfl | hm
        · exact h1
        · exact h2 m hm
      · intro m hm
        rcases List.mem_cons.1 hm with rfl | hm
        · exact h1
        · exact h m (by simp [hm])
end

theorem atomRes_plain (t : Token) (r : Nat) : atomRes t ≠ .sym r := by
  unfold atomRes
  split
  · simp
  · split <;> simp

theorem unnamed {k : Kind} (hk : k.isAtt = false) {t : Token} (n : Str) (h : attToSymbolName k t = .ok n) :
    n = attTypePrefix (some t.type) ++ attName t := by
  cases k <;> first | exact absurd hk (by decide) | cases h

theorem att_found {U : Uni} {E : SymEnv} {t : Token} (ht : AttTok t) (hv : ∃ s, t.value = .str s) (k : Nat) :
    Found U E (attNode t k) := by
  refine .mk (fun n h => ?_) (fun r h => by cases h) (by simp)
  rw [attSymName ht hv] at h
  cases h
  rw [prefix_eq]

theorem atom_found {U : Uni} {E : SymEnv} (t : Token) (k : Nat) : Found U E (atomNode t k) := by
  refine .mk (fun n => unnamed ?_ n) (fun r h => absurd h (atomRes_plain t r)) (by simp)
  unfold atomKind
  cases t.type <;> rfl

theorem atoms_found {U : Uni} {E : SymEnv} : ∀ (ts : List Token) (k : Nat), ∀ n ∈ atomNodes ts k, Found U E n
  | [], _, _, hn => by cases hn
  | t :: ts, k, n, hn => by
    rcases List.mem_cons.1 hn with rfl | hn
    · exact atom_found t k
    · exact atoms_found ts _ n hn

theorem operand_found {U : Uni} {E : SymEnv} (v : Operand) (hw : v.WF) (hn : v.NamesOk) (k : Nat) : Found U E (v.build k).1 := by
  cases v with
  | att t => exact att_found hw hn k
  | atom t => exact atom_found t k
  | set l es => exact .mk (unnamed rfl) (fun r h => by cases h) (atoms_found es k)

theorem build_found {U : Uni} {E : SymEnv} (p : Policy) (hw : p.WF) (hn : p.NamesOk) (k : Nat) : Found U E (p.build U k).1 := by
  induction p generalizing k with
  | cmp l o r =>
    refine .mk (unnamed rfl) (fun r h => by cases h) ?_
    intro c hc
    simp only [List.mem_cons, List.not_mem_nil, or_false] at hc
    rcases hc with rfl | rfl
    · exact operand_found l hw.1 hn.1 _
    · exact operand_found r hw.2.2 hn.2 _
  | lit t => exact .mk (unnamed rfl) (fun r h => by cases h) (by simp)
  | att t => exact att_found hw hn k
  | not n p ih =>
    refine .mk (unnamed rfl) (fun r h => by cases h) ?_
    intro c hc
    simp only [List.mem_cons, List.not_mem_nil, or_false] at hc
    rw [hc]; exact ih hw.2 hn _
  | bin o p q ihp ihq =>
    refine .mk (unnamed rfl) (fun r h => by cases h) ?_
    intro c hc
    simp only [List.mem_cons, List.not_mem_nil, or_false] at hc
    rcases hc with rfl | rfl
    · exact ihp hw.2.1 hn.1 _
    · exact ihq hw.2.2 hn.2 _

end Verif.Proofs
