import Verif.Model.DemoData
import Verif.Spec.DemoData
import Verif.Props.Typing
import Verif.Props.PolicyGui
import Verif.Props.Numbers
/-!
# C146: the example policies of the demo always decide
-/

namespace Verif.Props
open Verif Verif.Spec Verif.Proofs Verif.PolicyGui

variable {U : Uni} {toFloat : Str → Except PyExc PyFloat}

/-- Values entered for a type keep its promise. -/
theorem edited_kept {s : Str} {ty : SymType} {v : PyVal} (h : EditedTo U toFloat s ty v) :
    (promiseOf ty).Kept (some (ty, v)) := by
  cases h with
  | int _ => exact ⟨_, _, rfl, .inl rfl, rfl⟩
  | float _ => exact ⟨_, _, rfl, .inr rfl, rfl⟩
  | string => exact ⟨_, rfl⟩
  | set _ => exact .inl ⟨_, rfl⟩
  | yes _ _ => exact .inl rfl
  | no _ _ => exact .inr rfl

/-- One event. -/
theorem step_furnished (hU : U.Lawful) {g : PolicyGui} (hF : Filed U g.env) (hg : Furnished g.env) (e : Event) :
    Furnished (g.step U toFloat e).1.env := by
  by_cases hed : ∃ row s, e = .edit row s
  · obtain ⟨row, s, rfl⟩ := hed
    by_cases hr : row ∈ g.env.tab.symbols
    · by_cases hv : ∃ v, EditedTo U toFloat s (g.env.heap row).type v
      · obtain ⟨v, hv⟩ := hv
        rw [edit_value hU hF hr (hg row hr).1 hv]
        intro r hr'
        dsimp only [withValue, Heap.write]
        split
        · exact ⟨(hg row hr).1, edited_kept hv⟩
        · exact hg r hr'
      · rw [(edit_no_value hU (not_exists.mp hv)).1]
        exact hg
    · have : (g.step U toFloat (.edit row s)).1 = g := by
        dsimp only [step]
        rw [if_neg hr]
      rw [this]
      exact hg
  · rcases step_env (U := U) (toFloat := toFloat) g e with h | ⟨row, s, v, r, he, _⟩
    · rw [h]; exact hg
    · exact absurd ⟨row, s, he⟩ hed

/-- **C146**: whatever is done in the window, each attribute has a value of its type. -/
theorem run_furnished (hU : U.Lawful) (es : List Event) : ∀ g : PolicyGui, Filed U g.env → Furnished g.env →
    Furnished (g.run U toFloat es).env := by
  induction es with
  | nil => exact fun _ _ h => h
  | cons e es ih =>
    intro g hF hg
    exact ih _ ((run_filed [e] g).2.2 hF) (step_furnished hU hF hg e)

/-- The promises of the types do not change. -/
theorem run_declared (es : List Event) (g : PolicyGui) : declared (g.run U toFloat es).env = declared g.env := by
  obtain ⟨h1, h2, _⟩ := run_filed (U := U) (toFloat := toFloat) es g
  funext k
  unfold declared
  rw [h1]
  split
  · rename_i r _
    have := congrArg Symbol.type (h2 r)
    dsimp only at this
    rw [this]
  · rfl

theorem furnished_kept {E : SymEnv} (h : Furnished E) {p : Policy} (hk : Known U E p) : KeptBy U (declared E) (attsOf U E) p.atts := by
  intro t ht
  obtain ⟨r, hr⟩ := Option.isSome_iff_exists.mp (hk t ht)
  unfold declared attsOf
  have hl : E.tab.lookup U (attTypePrefix (some t.type) ++ attName t) = some r := by
    unfold SymTab.lookup
    rw [← prefix_eq]
    exact hr
  rw [hr, hl]
  refine (h r ?_).2
  unfold SymTab.get at hr
  cases hf : E.tab.entries.find? (fun e => e.1 == attKey U t) with
  | none => rw [hf] at hr; cases hr
  | some e =>
    rw [hf] at hr
    cases hr
    exact List.mem_map.mpr ⟨e, List.mem_of_find?_eq_some hf, rfl⟩

/-- **C146**: if the attributes have values of their types when the window is opened, then a policy that is well typed for these types
is shown to be TRUE or FALSE, without warnings, by Interpret after whatever was done in the window. -/
theorem demo_decides (hU : U.Lawful) {g₀ : PolicyGui} (ho : Opened g₀) (hE : SymEnv.SetsOk g₀.env) (hF : Filed U g₀.env)
    (hf : Furnished g₀.env) (es : List Event) {g : PolicyGui} (hg : g = g₀.run U toFloat es) (hi : g.interpretOn = true)
    {p : Policy} (hp : PolicyOf U g.text p) (hk : Known U g₀.env p) (ht : PromiseTyped U (declared g₀.env) p) :
    ∃ name ∈ ["TRUE".toList, "FALSE".toList],
      g.step U toFloat .interpret = ({ g with console := g.console ++ [.interpreted [] name] }, none) := by
  obtain ⟨q, hq, h1, _⟩ := opened_interpret hU ho hE es hg hi
  cases policyOf_unique hU hp hq
  have hk' : Known U g.env p := by
    intro t ht
    rw [hg, (run_filed es g₀).1]
    exact hk t ht
  have hkept := furnished_kept (hg ▸ run_furnished hU es g₀ hF hf) hk'
  have hd : Decided (semPolicy U (attsOf U g.env) p) := by
    refine (policy_decided p (policyOf_ok hp).2.1 hkept).1 ?_
    rw [hg, run_declared]
    exact ht
  rcases hd with hd | hd
  · exact ⟨_, List.mem_cons_self .., by simpa [hd, triText] using h1 .true (by rw [hd])⟩
  · exact ⟨_, List.mem_cons_of_mem _ (List.mem_cons_self ..), by simpa [hd, triText] using h1 .false (by rw [hd])⟩

/-- Reset, the policy and the buttons lead to Interpret from everywhere. -/
theorem clicked (hU : U.Lawful) (g : PolicyGui) {text : Str} (ha : text.all isAscii = true) {p : Policy} (hp : PolicyOf U text p)
    (hc : ∀ c ∈ p.cmps, ¬ c.clash) :
    (g.run U toFloat [.reset, .setText text, .tokenize, .parse, .typeCheck]).interpretOn = true ∧
    (g.run U toFloat [.reset, .setText text, .tokenize, .parse, .typeCheck]).text = text := by
  have e : g.run U toFloat [.reset, .setText text, .tokenize, .parse, .typeCheck] =
      ({ g.reset with text := text } : PolicyGui).run U toFloat [.tokenize, .parse, .typeCheck] := rfl
  rw [e]
  have hat : AtTokenize U ({ g.reset with text := text } : PolicyGui) := ⟨rfl, rfl, rfl, rfl, .inl rfl⟩
  have hi := (pipeline (toFloat := toFloat) hU hat ha).mpr ⟨p, hp, hc⟩
  refine ⟨hi, ?_⟩
  have htok : ∀ h : PolicyGui, (h.tokenize U).1.text = h.text ∧ (h.tokenize U).1.combo = false := by
    intro h
    unfold PolicyGui.tokenize
    dsimp only
    split
    · rw [fail_eq]; exact ⟨rfl, rfl⟩
    · exact ⟨rfl, rfl⟩
  obtain ⟨h1, h2⟩ := htok ({ g.reset with text := text } : PolicyGui)
  have e2 : ({ g.reset with text := text } : PolicyGui).run U toFloat [.tokenize, .parse, .typeCheck] =
      (({ g.reset with text := text } : PolicyGui).tokenize U).1.run U toFloat [.parse, .typeCheck] := rfl
  rw [e2]
  refine ((text_locked [.parse, .typeCheck] ?_ _ h2).1).trans h1
  intro e he
  simp only [List.mem_cons, List.not_mem_nil, or_false] at he
  rcases he with rfl | rfl <;> simp

theorem gui_run_append (g : PolicyGui) (es fs : List Event) : g.run U toFloat (es ++ fs) = (g.run U toFloat es).run U toFloat fs := by
  induction es generalizing g with
  | nil => rfl
  | cons e es ih => exact ih _

/-! ### The example data -/

/-- `user.id IN {5, 72, 4, 6, 4} OR user.id = object.owner` -/
def firstPolicy : Policy :=
  .bin ⟨.boolOp, 28, .str "OR".toList⟩
    (.cmp (.att ⟨.usrAtt, 0, .str "id".toList⟩) ⟨.op, 8, .str "IN".toList⟩
      (.set ⟨.lset, 11, .none⟩ [⟨.int, 12, .int 5⟩, ⟨.int, 15, .int 72⟩, ⟨.int, 19, .int 4⟩, ⟨.int, 22, .int 6⟩, ⟨.int, 25, .int 4⟩]))
    (.cmp (.att ⟨.usrAtt, 31, .str "id".toList⟩) ⟨.op, 39, .str "=".toList⟩ (.att ⟨.objAtt, 41, .str "owner".toList⟩))

/-- `object.required_perms SUBSET user.perms AND user.age >= 18` -/
def secondPolicy : Policy :=
  .bin ⟨.boolOp, 40, .str "AND".toList⟩
    (.cmp (.att ⟨.objAtt, 0, .str "required_perms".toList⟩) ⟨.op, 22, .str "SUBSET".toList⟩ (.att ⟨.usrAtt, 29, .str "perms".toList⟩))
    (.cmp (.att ⟨.usrAtt, 44, .str "age".toList⟩) ⟨.op, 53, .str ">=".toList⟩ (.atom ⟨.int, 56, .int 18⟩))

/-- `user.admin OR (user.role = "doctor" AND user.id != object.patient)` -/
def thirdPolicy : Policy :=
  .bin ⟨.boolOp, 11, .str "OR".toList⟩ (.att ⟨.usrAtt, 0, .str "admin".toList⟩)
    (.bin ⟨.boolOp, 36, .str "AND".toList⟩
      (.cmp (.att ⟨.usrAtt, 15, .str "role".toList⟩) ⟨.op, 25, .str "=".toList⟩ (.atom ⟨.string, 27, .str "doctor".toList⟩))
      (.cmp (.att ⟨.usrAtt, 40, .str "id".toList⟩) ⟨.op, 48, .str "!=".toList⟩ (.att ⟨.objAtt, 51, .str "patient".toList⟩)))

/-- The policies of the demo. -/
theorem default_policies : DemoData.policies.length = 3 ∧
    PolicyOf cpythonUni (DemoData.policies[0]!) firstPolicy ∧ PolicyOf cpythonUni (DemoData.policies[1]!) secondPolicy ∧
    PolicyOf cpythonUni (DemoData.policies[2]!) thirdPolicy := by
  refine ⟨rfl, ?_, ?_, ?_⟩
  · have h : lexTokens cpythonUni (DemoData.policies[0]!) = .ok (⟨.start, 0, .none⟩ ::
        ((([⟨.usrAtt, 0, .str "id".toList⟩] ++ ⟨.op, 8, .str "IN".toList⟩ :: (⟨.lset, 11, .none⟩ ::
          ([⟨.int, 12, .int 5⟩, ⟨.comma, 13, .none⟩, ⟨.int, 15, .int 72⟩, ⟨.comma, 17, .none⟩, ⟨.int, 19, .int 4⟩, ⟨.comma, 20, .none⟩,
            ⟨.int, 22, .int 6⟩, ⟨.comma, 23, .none⟩, ⟨.int, 25, .int 4⟩] ++ [⟨.rset, 26, .none⟩]))) ++
          ⟨.boolOp, 28, .str "OR".toList⟩ :: ([⟨.usrAtt, 31, .str "id".toList⟩] ++ ⟨.op, 39, .str "=".toList⟩ ::
            [⟨.objAtt, 41, .str "owner".toList⟩])) ++ [⟨.«end», 53, .none⟩])) := by decide +kernel
    obtain ⟨ts, h1, h2⟩ := (lexer_refines_grammar cpythonUni cpythonUni_lawful _ _).1 h
    simp only [List.cons.injEq, true_and] at h1
    subst h1
    exact ⟨_, _, h2, .or (.term (.exp (.cmp (.att (by decide)) rfl (.set rfl (.cons (by decide) rfl (.cons (by decide) rfl
      (.cons (by decide) rfl (.cons (by decide) rfl (.one (by decide)))))) rfl)))) (by decide)
      (.exp (.cmp (.att (by decide)) rfl (.att (by decide))))⟩
  · have h : lexTokens cpythonUni (DemoData.policies[1]!) = .ok (⟨.start, 0, .none⟩ ::
        ((([⟨.objAtt, 0, .str "required_perms".toList⟩] ++ ⟨.op, 22, .str "SUBSET".toList⟩ :: [⟨.usrAtt, 29, .str "perms".toList⟩]) ++
          ⟨.boolOp, 40, .str "AND".toList⟩ :: ([⟨.usrAtt, 44, .str "age".toList⟩] ++ ⟨.op, 53, .str ">=".toList⟩ ::
            [⟨.int, 56, .int 18⟩])) ++ [⟨.«end», 58, .none⟩])) := by decide +kernel
    obtain ⟨ts, h1, h2⟩ := (lexer_refines_grammar cpythonUni cpythonUni_lawful _ _).1 h
    simp only [List.cons.injEq, true_and] at h1
    subst h1
    exact ⟨_, _, h2, .term (.and (.exp (.cmp (.att (by decide)) rfl (.att (by decide)))) (by decide)
      (.cmp (.att (by decide)) rfl (.atom (by decide))))⟩
  · have h : lexTokens cpythonUni (DemoData.policies[2]!) = .ok (⟨.start, 0, .none⟩ ::
        (([⟨.usrAtt, 0, .str "admin".toList⟩] ++ ⟨.boolOp, 11, .str "OR".toList⟩ :: (⟨.lparn, 14, .none⟩ ::
          ((([⟨.usrAtt, 15, .str "role".toList⟩] ++ ⟨.op, 25, .str "=".toList⟩ :: [⟨.string, 27, .str "doctor".toList⟩]) ++
            ⟨.boolOp, 36, .str "AND".toList⟩ :: ([⟨.usrAtt, 40, .str "id".toList⟩] ++ ⟨.op, 48, .str "!=".toList⟩ ::
              [⟨.objAtt, 51, .str "patient".toList⟩])) ++ [⟨.rparn, 65, .none⟩]))) ++ [⟨.«end», 66, .none⟩])) := by decide +kernel
    obtain ⟨ts, h1, h2⟩ := (lexer_refines_grammar cpythonUni cpythonUni_lawful _ _).1 h
    simp only [List.cons.injEq, true_and] at h1
    subst h1
    exact ⟨_, _, h2, .or (.term (.exp (.att (by decide)))) (by decide) (.exp (.paren rfl (.term (.and
      (.exp (.cmp (.att (by decide)) rfl (.atom (by decide)))) (by decide) (.cmp (.att (by decide)) rfl (.att (by decide))))) rfl))⟩

/-- What holds of the symbols made holds of all. -/
theorem defineAll_heap {Q : Symbol → Prop} (ss : List Symbol) : ∀ (h : Heap) (t : SymTab) (r : Nat), (∀ i, Q (h i)) → (∀ s ∈ ss, Q s) →
    ∀ i, Q ((defineAll U h t r ss).1 i) := by
  induction ss with
  | nil => exact fun h t r hQ _ => hQ
  | cons s ss ih =>
    intro h t r hQ hs
    refine ih _ _ _ (fun i => ?_) fun x hx => hs x (List.mem_cons_of_mem _ hx)
    unfold Heap.write
    split
    · exact hs s (List.mem_cons_self ..)
    · exact hQ i

/-- A set in a symbol has hashable elements. -/
def hashed (s : Symbol) : Bool := match s.value with | .set l => l.all Scalar.hashable | _ => true

/-- The promise of its type kept by a value, as a program. -/
def keptB : SymType → PyVal → Bool
  | .int, .sc v | .float, .sc v => v.num.isSome
  | .string, .sc (.atom (.str _)) => true
  | .bool, .sc (.tri .true) | .bool, .sc (.tri .false) => true
  | .set, .set _ => true
  | _, _ => false

theorem keptB_kept {ty : SymType} {v : PyVal} (h : keptB ty v = true) : (promiseOf ty).Kept (some (ty, v)) := by
  unfold keptB at h
  split at h
  · exact ⟨_, _, rfl, .inl rfl, h⟩
  · exact ⟨_, _, rfl, .inr rfl, h⟩
  · exact ⟨_, rfl⟩
  · exact .inl rfl
  · exact .inr rfl
  · exact .inl ⟨_, rfl⟩
  · cases h

/-- **C146**: the table of the demo has a value of its type for each of its 30 attributes. -/
theorem default_table : SymEnv.SetsOk (DemoData.table cpythonUni) ∧ Filed cpythonUni (DemoData.table cpythonUni) ∧
    Furnished (DemoData.table cpythonUni) ∧ (DemoData.table cpythonUni).tab.symbols.length = DemoData.types.length ∧
    (({ types := DemoData.types } : Builder).load DemoData.values).2 = none := by
  refine ⟨?_, ⟨?_, ?_⟩, ?_, ?_, ?_⟩
  · intro r l hl
    have key : ∀ i, hashed ((DemoData.table cpythonUni).heap i) = true := by
      unfold DemoData.table Builder.build
      dsimp only
      refine fun i => defineAll_heap (Q := fun s => hashed s = true) _ _ _ _ ?_ ?_ i
      · exact fun _ => rfl
      · decide +kernel
    have := key r
    unfold hashed at this
    rw [hl] at this
    exact this
  · decide +kernel
  · decide +kernel
  · intro r hr
    have key : ∀ r ∈ (DemoData.table cpythonUni).tab.symbols, ((DemoData.table cpythonUni).heap r).attType ∈ listedClasses ∧
      keptB ((DemoData.table cpythonUni).heap r).type ((DemoData.table cpythonUni).heap r).value = true := by decide +kernel
    exact ⟨(key r hr).1, keptB_kept (key r hr).2⟩
  · decide +kernel
  · decide +kernel

/-- The policies of the demo are well typed for its types, and nothing in them clashes. -/
theorem default_typed : ∀ p ∈ [firstPolicy, secondPolicy, thirdPolicy],
    Known cpythonUni (DemoData.table cpythonUni) p ∧ PromiseTyped cpythonUni (declared (DemoData.table cpythonUni)) p ∧
    ∀ c ∈ p.cmps, ¬ c.clash := by
  have num : ∀ t : Token, declared (DemoData.table cpythonUni) (attKey cpythonUni t) = .number →
      Operand.typed cpythonUni (declared (DemoData.table cpythonUni)) (.att t) = .att .number := fun t h => by rw [typed_att, h]
  intro p hp
  simp only [List.mem_cons, List.not_mem_nil, or_false] at hp
  rcases hp with rfl | rfl | rfl
  · refine ⟨by unfold Known; decide +kernel, ⟨?_, ?_⟩, by decide +kernel⟩
    · have h1 := num ⟨.usrAtt, 0, .str "id".toList⟩ (by decide +kernel)
      show CmpTyped _ (Operand.typed _ _ (.att _)) _
      rw [h1]
      simp [CmpTyped, Operates, InTyped, Operand.typed, constOf, Promise.comparable]
    · have h1 := num ⟨.usrAtt, 31, .str "id".toList⟩ (by decide +kernel)
      have h2 := num ⟨.objAtt, 41, .str "owner".toList⟩ (by decide +kernel)
      show CmpTyped _ (Operand.typed _ _ (.att _)) (Operand.typed _ _ (.att _))
      rw [h1, h2]
      simp [CmpTyped, Operates, EqTyped, Promise.comparable]
  · refine ⟨by unfold Known; decide +kernel, ⟨?_, ?_⟩, by decide +kernel⟩
    · have h1 : Operand.typed cpythonUni (declared (DemoData.table cpythonUni)) (.att ⟨.objAtt, 0, .str "required_perms".toList⟩) =
        .att .collection := by decide +kernel
      have h2 : Operand.typed cpythonUni (declared (DemoData.table cpythonUni)) (.att ⟨.usrAtt, 29, .str "perms".toList⟩) =
        .att .collection := by decide +kernel
      show CmpTyped _ (Operand.typed _ _ (.att _)) (Operand.typed _ _ (.att _))
      rw [h1, h2]
      simp [CmpTyped, Operates, SetTyped, Promise.comparable]
    · have h1 := num ⟨.usrAtt, 44, .str "age".toList⟩ (by decide +kernel)
      show CmpTyped _ (Operand.typed _ _ (.att _)) _
      rw [h1]
      simp [CmpTyped, Operates, OrdTyped, Operand.typed, constOf, constType]
  · refine ⟨by unfold Known; decide +kernel, ⟨by show _ = Promise.truth; decide +kernel, ?_, ?_⟩, by decide +kernel⟩
    · have h1 : Operand.typed cpythonUni (declared (DemoData.table cpythonUni)) (.att ⟨.usrAtt, 15, .str "role".toList⟩) =
        .att .text := by decide +kernel
      show CmpTyped _ (Operand.typed _ _ (.att _)) _
      rw [h1]
      simp [CmpTyped, Operates, EqTyped, Operand.typed, constOf, constType]
    · have h1 := num ⟨.usrAtt, 40, .str "id".toList⟩ (by decide +kernel)
      have h2 := num ⟨.objAtt, 51, .str "patient".toList⟩ (by decide +kernel)
      show CmpTyped _ (Operand.typed _ _ (.att _)) (Operand.typed _ _ (.att _))
      rw [h1, h2]
      simp [CmpTyped, Operates, EqTyped, Promise.comparable]

/-- The tree of a policy of the demo. -/
theorem default_tree {t : Str} (ht : t ∈ DemoData.policies) : ∃ p ∈ [firstPolicy, secondPolicy, thirdPolicy], PolicyOf cpythonUni t p := by
  obtain ⟨_, h1, h2, h3⟩ := default_policies
  have : DemoData.policies = [DemoData.policies[0]!, DemoData.policies[1]!, DemoData.policies[2]!] := rfl
  rw [this] at ht
  simp only [List.mem_cons, List.not_mem_nil, or_false] at ht
  rcases ht with rfl | rfl | rfl
  · exact ⟨_, by simp, h1⟩
  · exact ⟨_, by simp, h2⟩
  · exact ⟨_, by simp, h3⟩

/-- **C146**: in the demo with its own data, whatever was typed and clicked before, Interpret shows TRUE or FALSE and no warning for
each of the three policies, -/
theorem defaults_decide (text : Str) (es : List Event) {g : PolicyGui}
    (hg : g = (DemoData.opened cpythonUni text).run cpythonUni toFloat es) (hi : g.interpretOn = true)
    (ht : g.text ∈ DemoData.policies) : ∃ name ∈ ["TRUE".toList, "FALSE".toList],
      g.step cpythonUni toFloat .interpret = ({ g with console := g.console ++ [.interpreted [] name] }, none) := by
  obtain ⟨p, hp, hpo⟩ := default_tree ht
  obtain ⟨h1, h2, _⟩ := default_typed p hp
  obtain ⟨t1, t2, t3, _⟩ := default_table
  exact demo_decides cpythonUni_lawful ⟨_, _, _, rfl⟩ t1 t2 t3 es hg hi hpo h1 h2

/-- **C146**: and Reset, the policy, Tokenize, Parse and Type Check lead there. -/
theorem defaults_reached (text : Str) (es : List Event) {t : Str} (ht : t ∈ DemoData.policies) {g : PolicyGui}
    (hg : g = (DemoData.opened cpythonUni text).run cpythonUni toFloat (es ++ [.reset, .setText t, .tokenize, .parse, .typeCheck])) :
    g.interpretOn = true ∧ g.text = t := by
  obtain ⟨p, hp, hpo⟩ := default_tree ht
  rw [gui_run_append] at hg
  rw [hg]
  have ha : ∀ t ∈ DemoData.policies, t.all isAscii = true := by decide +kernel
  exact clicked cpythonUni_lawful _ (ha t ht) hpo (default_typed p hp).2.2

/-! ### What the policies say -/

theorem semAtt_of {A : Atts} {cl : TokenType} {n : Str} {ty : SymType} {v : PyVal} (h : A cl n = some (ty, v)) (hv : v ≠ .sc .none)
    (hf : fits ty v = true) (pos : Int) : semOperand A (.att ⟨cl, pos, .str n⟩) = ([], .ok (valueDen v)) := by
  unfold semOperand semAtt
  dsimp only [attName]
  rw [h]
  cases v with
  | sc x => cases x <;> simp_all
  | set l => simp [hf]
  | list l => simp [hf]

/-- A comparison with an answer. -/
theorem cmp_says {U : Uni} {A : Atts} {l r : Operand} {o : Token} {x y : Den} {name rule : String} {f : Den → Den → Answer} {b : Bool}
    (hl : semOperand A l = ([], .ok x)) (hr : semOperand A r = ([], .ok y)) (ho : o.value = .str name.toList)
    (hx : x ≠ .truth .undef) (hy : y ≠ .truth .undef) (hf : operators.find? (fun e => name = e.1) = some (name, rule, f))
    (ha : f x y = .ok (some b)) : sem U A (.cmp l o r) = ([], .ok (.truth (Tri.fromBool b))) := by
  have hf' : operators.find? (fun e => o.value = .str e.1.toList) = some (name, rule, f) := by
    rw [ho]
    simpa only [TVal.str.injEq, String.toList_inj] using hf
  unfold sem
  rw [hl, hr]
  simp only [Eff.bind, List.nil_append]
  unfold semCmp
  rw [if_neg (by simp [hx, hy]), hf']
  dsimp only
  rw [ha]
  cases b <;> rfl

theorem bin_says {U : Uni} {A : Atts} {p q : Policy} {o : Token} {a b : Bool}
    (hp : sem U A p = ([], .ok (.truth (Tri.fromBool a)))) (hq : sem U A q = ([], .ok (.truth (Tri.fromBool b)))) :
    sem U A (.bin o p q) = ([], .ok (.truth (Tri.fromBool (if o.value = .str "AND".toList then a && b else a || b)))) := by
  unfold sem
  rw [hp, hq]
  simp only [Eff.bind, List.nil_append, Eff.pure]
  congr 3
  unfold kleene
  split <;> cases a <;> cases b <;> rfl

/-- The first policy for numbers of users and owners. -/
theorem first_says (U : Uni) {A : Atts} {i j : Int} (hi : A .usrAtt "id".toList = some (.int, .sc (.atom (.int i))))
    (hj : A .objAtt "owner".toList = some (.int, .sc (.atom (.int j)))) :
    semPolicy U A firstPolicy = ([], .ok (.truth (Tri.fromBool (decide (i ∈ [4, 5, 6, 72] ∨ i = j))))) := by
  have h1 : ∀ pos, semOperand A (.att ⟨.usrAtt, pos, .str "id".toList⟩) = ([], .ok (.single (.atom (.int i)))) :=
    semAtt_of hi (by simp) rfl
  have h2 : semOperand A (.att ⟨.objAtt, 41, .str "owner".toList⟩) = ([], .ok (.single (.atom (.int j)))) := semAtt_of hj (by simp) rfl _
  refine (bin_says (a := decide (i ∈ [4, 5, 6, 72])) (b := decide (i = j)) ?_ ?_).trans ?_
  · refine cmp_says (name := "IN") (h1 0) (y := .lit [.int 5, .int 72, .int 4, .int 6, .int 4]) rfl rfl (by simp) (by simp) rfl ?_
    simp only [semIn, included, atoms, List.map_cons, List.map_nil, List.mem_cons, List.not_mem_nil, or_false, forall_eq, Scalar.pyEq,
      Scalar.num, exists_eq_or_imp, exists_eq_left, decide_eq_true_eq, PyFloat.fin.injEq, Int.cast_inj]
    congr 3
    refine propext ?_
    omega
  · refine cmp_says (name := "=") (h1 31) h2 rfl (by simp) (by simp) rfl ?_
    simp [semEq, Scalar.pyEq, Scalar.num]
  · simp

/-- The second policy for sets and an age. -/
theorem second_says (U : Uni) {A : Atts} {l m : List Scalar} {i : Int} (hl : A .objAtt "required_perms".toList = some (.set, .set l))
    (hm : A .usrAtt "perms".toList = some (.set, .set m)) (hi : A .usrAtt "age".toList = some (.int, .sc (.atom (.int i)))) :
    semPolicy U A secondPolicy =
      ([], .ok (.truth (Tri.fromBool (decide ((∀ x ∈ l, ∃ y ∈ m, x.pyEq y = true) ∧ 18 ≤ i))))) := by
  have h1 : semOperand A (.att ⟨.objAtt, 0, .str "required_perms".toList⟩) = ([], .ok (.many l)) := semAtt_of hl (by simp) rfl _
  have h2 : semOperand A (.att ⟨.usrAtt, 29, .str "perms".toList⟩) = ([], .ok (.many m)) := semAtt_of hm (by simp) rfl _
  have h3 : semOperand A (.att ⟨.usrAtt, 44, .str "age".toList⟩) = ([], .ok (.single (.atom (.int i)))) := semAtt_of hi (by simp) rfl _
  refine (bin_says (a := included l m) (b := decide (18 ≤ i)) ?_ ?_).trans ?_
  · refine cmp_says (name := "SUBSET") h1 h2 rfl (by simp) (by simp) rfl ?_
    simp [semSubset, Den.unsettable, Den.asSet]
  · refine cmp_says (name := ">=") h3 (y := .const (.int 18)) rfl rfl (by simp) (by simp) rfl ?_
    simp only [semOrd, Den.number, Scalar.num, numLt]
    congr 3
    refine propext ?_
    rw [not_lt]
    exact_mod_cast Iff.rfl
  · simp [included]

/-- The third policy. -/
theorem third_says (U : Uni) {A : Atts} {b : Bool} {s : Str} {i j : Int}
    (hb : A .usrAtt "admin".toList = some (.bool, .sc (.tri (Tri.fromBool b))))
    (hs : A .usrAtt "role".toList = some (.string, .sc (.atom (.str s))))
    (hi : A .usrAtt "id".toList = some (.int, .sc (.atom (.int i))))
    (hj : A .objAtt "patient".toList = some (.int, .sc (.atom (.int j)))) :
    semPolicy U A thirdPolicy =
      ([], .ok (.truth (Tri.fromBool (decide (b = true ∨ (s = "doctor".toList ∧ i ≠ j)))))) := by
  have h1 : semOperand A (.att ⟨.usrAtt, 15, .str "role".toList⟩) = ([], .ok (.single (.atom (.str s)))) := semAtt_of hs (by simp) rfl _
  have h2 : semOperand A (.att ⟨.usrAtt, 40, .str "id".toList⟩) = ([], .ok (.single (.atom (.int i)))) := semAtt_of hi (by simp) rfl _
  have h3 : semOperand A (.att ⟨.objAtt, 51, .str "patient".toList⟩) = ([], .ok (.single (.atom (.int j)))) := semAtt_of hj (by simp) rfl _
  refine (bin_says (a := b) (b := decide (s = "doctor".toList ∧ i ≠ j)) ?_ ?_).trans ?_
  · exact semAtt_of hb (by simp) rfl 0
  · refine (bin_says (a := decide (s = "doctor".toList)) (b := decide (i ≠ j)) ?_ ?_).trans ?_
    · refine cmp_says (name := "=") h1 (y := .const (.str "doctor".toList)) rfl rfl (by simp) (by simp) rfl ?_
      simp [semEq, sameKindEq]
    · refine cmp_says (name := "!=") h2 h3 rfl (by simp) (by simp) rfl ?_
      simp [semEq, Scalar.pyEq, Scalar.num, Answer.neg, Except.map]
    · simp
  · simp

/-- Without edits the table stays as it is. -/
theorem run_unedited (es : List Event) (he : ∀ row s, Event.edit row s ∉ es) : ∀ g : PolicyGui, (g.run U toFloat es).env = g.env := by
  induction es with
  | nil => exact fun _ => rfl
  | cons e es ih =>
    intro g
    refine (ih (fun row s h => he row s (List.mem_cons_of_mem _ h)) _).trans ?_
    rcases step_env (U := U) (toFloat := toFloat) g e with h | ⟨row, s, v, r, h, _⟩
    · exact h
    · exact absurd (h ▸ List.mem_cons_self ..) (he row s)

/-- **C146**: as long as no value is edited the three policies are shown to be TRUE. -/
theorem defaults_true (text : Str) (es : List Event) (he : ∀ row s, Event.edit row s ∉ es) {g : PolicyGui}
    (hg : g = (DemoData.opened cpythonUni text).run cpythonUni toFloat es) (hi : g.interpretOn = true)
    (ht : g.text ∈ DemoData.policies) :
    g.step cpythonUni toFloat .interpret = ({ g with console := g.console ++ [.interpreted [] "TRUE".toList] }, none) := by
  obtain ⟨p, hp, hpo⟩ := default_tree ht
  obtain ⟨q, hq, h1, _⟩ := opened_interpret cpythonUni_lawful ⟨_, _, _, rfl⟩ default_table.1 es hg hi
  cases policyOf_unique cpythonUni_lawful hpo hq
  have hE : g.env = DemoData.table cpythonUni := by rw [hg, run_unedited es he]; rfl
  have hd : semPolicy cpythonUni (attsOf cpythonUni g.env) p = ([], .ok (.truth .true)) := by
    rw [hE]
    simp only [List.mem_cons, List.not_mem_nil, or_false] at hp
    rcases hp with rfl | rfl | rfl
    · exact (first_says _ (i := 1337) (j := 1337) (by decide +kernel) (by decide +kernel)).trans (by decide)
    · refine (second_says _ (l := [1, 5, 3].map fun i => .atom (.int i)) (m := [2, 5, 4, 3, 0, 1].map fun i => .atom (.int i)) (i := 30)
        (by decide +kernel) (by decide +kernel) (by decide +kernel)).trans (by decide)
    · exact (third_says _ (b := true) (s := "admin".toList) (i := 1337) (j := 1337) (by decide +kernel) (by decide +kernel)
        (by decide +kernel) (by decide +kernel)).trans (by decide)
  simpa [hd, triText] using h1 .true (by rw [hd])

/-! ### Examples -/

/-- A doctor who is not the patient, by the third policy. -/
example : semPolicy cpythonUni (fun cl n => match cl, String.ofList n with
    | .usrAtt, "admin" => some (.bool, .sc (.tri .false)) | .usrAtt, "role" => some (.string, .sc (.atom (.str "doctor".toList)))
    | .usrAtt, "id" => some (.int, .sc (.atom (.int 7))) | .objAtt, "patient" => some (.int, .sc (.atom (.int 8)))
    | _, _ => none) thirdPolicy = ([], .ok (.truth .true)) :=
  (third_says _ (b := false) (s := "doctor".toList) (i := 7) (j := 8) rfl rfl rfl rfl).trans (by decide)

/-- Too young for the second policy. -/
example : semPolicy cpythonUni (fun cl n => match cl, String.ofList n with
    | .usrAtt, "perms" => some (.set, .set []) | .objAtt, "required_perms" => some (.set, .set [])
    | .usrAtt, "age" => some (.int, .sc (.atom (.int 17))) | _, _ => none) secondPolicy = ([], .ok (.truth .false)) :=
  (second_says _ (l := []) (m := []) (i := 17) rfl rfl rfl).trans (by decide)

/-- The window opened on the first policy and clicked through. -/
example : ∃ name ∈ ["TRUE".toList, "FALSE".toList],
    (((DemoData.opened cpythonUni []).run cpythonUni toFloat ([.edit 0 "6".toList] ++
        [.reset, .setText (DemoData.policies[0]!), .tokenize, .parse, .typeCheck])).step cpythonUni toFloat .interpret).1.console.getLast? =
      some (.interpreted [] name) := by
  obtain ⟨h1, h2⟩ := defaults_reached (toFloat := toFloat) [] [.edit 0 "6".toList] (t := DemoData.policies[0]!) (by decide) rfl
  obtain ⟨name, hn, h⟩ := defaults_decide (toFloat := toFloat) [] _ rfl h1 (by rw [h2]; decide)
  exact ⟨name, hn, by rw [h]; simp⟩

end Verif.Props
