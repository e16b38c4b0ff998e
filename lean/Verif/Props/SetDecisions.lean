import Verif.Props.Thresholds
/-!
# Decisions on a set of texts (C169)

A decision on a set of texts can be written exactly if it depends only on which of finitely many texts that can be written are in the set,
and on whether the set has other elements.
-/

namespace Verif.Props
open Verif.Spec Proofs

section
variable {U : Uni} (hU : U.Lawful)
include hU

open Classical in
/-- What depends only on tests that can be written can be written. -/
theorem writes_tests {ι : Type} {H : Atts → ι → Prop} : ∀ (ts : List (ι → Bool)) (P : ι → Bool), (∀ f ∈ ts, Writes U H f) →
    (∀ a b, (∀ f ∈ ts, f a = f b) → P a = P b) → Writes U H P
  | [], P, _, hP => by
    by_cases h : ∃ a, P a = true
    · obtain ⟨a, ha⟩ := h
      refine cast (congrArg _ (funext fun b => ?_)) (writes_const (H := H) hU true)
      exact (ha.symm.trans (hP a b fun f hf => by cases hf))
    · refine cast (congrArg _ (funext fun b => ?_)) (writes_const (H := H) hU false)
      exact (Bool.eq_false_iff.mpr fun hb => h ⟨b, hb⟩).symm
  | f :: ts, P, hw, hP => by
    have part := fun v : Bool => writes_tests ts (fun a => decide (∃ b, f b = v ∧ (∀ g ∈ ts, g b = g a) ∧ P b = true))
      (fun g hg => hw g (List.mem_cons_of_mem _ hg)) fun a a' h => by
        refine decide_eq_decide.mpr ⟨?_, ?_⟩
        · rintro ⟨b, h1, h2, h3⟩
          exact ⟨b, h1, fun g hg => (h2 g hg).trans (h g hg), h3⟩
        · rintro ⟨b, h1, h2, h3⟩
          exact ⟨b, h1, fun g hg => (h2 g hg).trans (h g hg).symm, h3⟩
    have same : ∀ v a, f a = v → decide (∃ b, f b = v ∧ (∀ g ∈ ts, g b = g a) ∧ P b = true) = P a := fun v a ha => by
      rw [Bool.eq_iff_iff, decide_eq_true_iff]
      constructor
      · rintro ⟨b, h1, h2, h3⟩
        rw [← h3]
        refine hP a b fun g hg => ?_
        rcases List.mem_cons.mp hg with rfl | hg
        · exact ha.trans h1.symm
        · exact (h2 g hg).symm
      · exact fun h => ⟨a, ha, fun _ _ => rfl, h⟩
    refine cast (congrArg _ (funext fun a => ?_)) (writes_case hU (hw f List.mem_cons_self) (part true) (part false))
    cases hf : f a with
    | true =>
      rw [if_pos rfl]
      exact same true a hf
    | false =>
      rw [if_neg (by simp)]
      exact same false a hf

/-- The user attribute is the set of these texts. -/
def IsTexts (name : Str) (A : Atts) (s : List Str) : Prop := A .usrAtt name = some (.set, .set (s.map textual))

omit hU in
theorem att_texts {A : Atts} {name : Str} {s : List Str} (h : IsTexts name A s) :
    semAtt A ⟨.usrAtt, 0, .str name⟩ = ([], .ok (.many (s.map textual))) := by
  have hname : attName ⟨.usrAtt, 0, .str name⟩ = name := rfl
  unfold semAtt
  dsimp only
  rw [hname, h]
  rfl

omit hU in
theorem textual_eq (a b : Str) : (textual a).pyEq (textual b) = decide (a = b) := by
  show decide (textual a = textual b) = _
  refine decide_eq_decide.mpr ⟨fun h => ?_, fun h => by rw [h]⟩
  cases h
  rfl

omit hU in
theorem included_texts (s t : List Str) : included (s.map textual) (t.map textual) = decide (∀ x ∈ s, x ∈ t) := by
  unfold included
  refine decide_eq_decide.mpr ?_
  simp [textual_eq]

/-- The token of a text. -/
def strTok (s : Str) : Token := ⟨.string, 0, .str s⟩

/-- The tokens of a list of texts. -/
def listToks : List Str → List Token
  | [] => []
  | [s] => [strTok s]
  | s :: t :: l => strTok s :: ⟨.comma, 0, .none⟩ :: listToks (t :: l)

omit hU in
theorem list_toks : ∀ {l : List Str}, (∀ s ∈ l, ∀ c ∈ s, StrChar c) → ∀ {b : Str} {us : List Token}, Toks U b us → ∃ w, Toks U (w ++ b) (listToks l ++ us)
  | [], _, b, us, hb => ⟨[], hb⟩
  | [s], h, b, us, hb => ⟨_, toks_cons (.string s _ (h s (by simp))) hb⟩
  | s :: t :: l, h, b, us, hb => by
    obtain ⟨w, hw⟩ := list_toks (l := t :: l) (fun x hx => h x (List.mem_cons_of_mem _ hx)) hb
    have h1 := toks_cons (.punct "," .comma none _ (by decide)) hw
    have h2 := toks_cons (.string s _ (h s (by simp))) h1
    refine ⟨('"' :: s ++ ['"']) ++ (",".toList ++ w), ?_⟩
    have e : ('"' :: s ++ ['"']) ++ (",".toList ++ w) ++ b = ('"' :: s ++ ['"']) ++ (",".toList ++ (w ++ b)) := by simp
    rw [e]
    exact h2

omit hU in
theorem list_derives : ∀ {l : List Str}, l ≠ [] → DSetVal false (listToks l) (l.map strTok)
  | [], h => absurd rfl h
  | [s], _ => .one (.inr (.inr (.inl rfl)))
  | s :: t :: l, _ => .cons (.inr (.inr (.inl rfl))) rfl (list_derives (l := t :: l) (by simp))

omit hU in
theorem list_elems : ∀ {l : List Str}, (∀ s ∈ l, s ≠ []) → semElems (l.map strTok) = .ok (l.map .str)
  | [], _ => rfl
  | s :: l, h => by
    have h1 : constOf (strTok s) = some (.str s) := by
      simp [constOf, strTok, h s (by simp)]
    rw [List.map_cons, semElems, h1, list_elems fun x hx => h x (List.mem_cons_of_mem _ hx)]
    rfl

variable {name : Str} (hn : name ≠ []) (hc : ∀ c ∈ name, IdChar U c)
include hn hc

/-- `"t" IN user.x` -/
theorem writes_member {t : Str} (ht : t ≠ []) (htc : ∀ c ∈ t, StrChar c) : Writes U (IsTexts name) fun s => decide (t ∈ s) := by
  have hr : Reads U (('"' :: t ++ ['"']) ++ ' ' :: ("IN".toList ++ ' ' :: (("user".toList ++ '.' :: name) ++ [])))
      (.cmp (.atom (strTok t)) ⟨.op, 0, .str "IN".toList⟩ (.att ⟨.usrAtt, 0, .str name⟩)) := by
    refine ⟨_, ?_, .term (.exp (.cmp (ts := [strTok t]) (us := [⟨.usrAtt, 0, .str name⟩]) (.atom (.inr (.inr (.inl rfl)))) rfl (.att (Or.inl rfl))))⟩
    exact toks_cons (.string t _ htc) (toks_space hU (toks_cons (lex_word hU "IN".toList (kw := "in") (v := "IN") (by decide) (by unfold Spells; decide) _ (.inr rfl))
      (toks_space hU (toks_cons (b := []) (.att "user".toList name "user" .usrAtt _ (by decide) (by unfold Spells; decide) hn hc (by simp)) (toks_nil U)))))
  refine ⟨_, _, hr, fun A s hA => ?_⟩
  have hop : semOperand A (.atom (strTok t)) = Eff.pure (.const (.str t)) := by
    have hconst : constOf (strTok t) = some (.str t) := by
      simp [constOf, strTok, ht]
    unfold semOperand
    dsimp only
    rw [hconst]
  show ((semOperand A (.atom (strTok t))).bind fun x => (semAtt A ⟨.usrAtt, 0, .str name⟩).bind fun y => semCmp _ x y).2 = _
  rw [att_texts hA, hop]
  show (semCmp ⟨.op, 0, .str "IN".toList⟩ (.const (.str t)) (.many (s.map textual))).2 = _
  show (answerOut "in_op" (.ok (some (included ([t].map textual) (s.map textual))))).2 = _
  rw [included_texts]
  have e : decide (∀ x ∈ [t], x ∈ s) = decide (t ∈ s) := decide_eq_decide.mpr (by simp)
  rw [e]
  show _ = Except.ok (Den.truth (triOf (decide (t ∈ s))))
  cases decide (t ∈ s) <;> rfl

/-- `user.x SUBSET {…}` -/
theorem writes_subset {l : List Str} (hl : ∀ s ∈ l, s ≠ [] ∧ ∀ c ∈ s, StrChar c) : Writes U (IsTexts name) fun s => decide (∀ x ∈ s, x ∈ l) := by
  obtain ⟨w, hw⟩ := list_toks (U := U) (fun s hs => (hl s hs).2) (toks_cons (b := []) (.punct "}" .rset none _ (by decide)) (toks_nil U))
  have hv : DVar false (⟨.lset, 0, .none⟩ :: (listToks l ++ [⟨.rset, 0, .none⟩])) (.set ⟨.lset, 0, .none⟩ (l.map strTok)) := by
    by_cases h : l = []
    · rw [h]
      exact .empty rfl rfl
    · exact .set rfl (list_derives h) rfl
  have hr : Reads U (("user".toList ++ '.' :: name) ++ ' ' :: ("SUBSET".toList ++ ' ' :: ("{".toList ++ (w ++ ("}".toList ++ [])))))
      (.cmp (.att ⟨.usrAtt, 0, .str name⟩) ⟨.op, 0, .str "SUBSET".toList⟩ (.set ⟨.lset, 0, .none⟩ (l.map strTok))) := by
    refine ⟨_, ?_, .term (.exp (.cmp (ts := [⟨.usrAtt, 0, .str name⟩]) (.att (Or.inl rfl)) rfl hv))⟩
    refine toks_cons (.att "user".toList name "user" .usrAtt _ (by decide) (by unfold Spells; decide) hn hc ?_)
      (toks_space hU (toks_cons (lex_word hU "SUBSET".toList (kw := "subset") (v := "SUBSET") (by decide) (by unfold Spells; decide) _ (.inr rfl))
        (toks_space hU (toks_cons (.punct "{" .lset none _ (by decide)) hw))))
    intro c h
    cases h
    exact (boundary_blank hU).2.2.2
  refine ⟨_, _, hr, fun A s hA => ?_⟩
  have hop : semOperand A (.set ⟨.lset, 0, .none⟩ (l.map strTok)) = Eff.pure (.lit (l.map .str)) := by
    show (([], (semElems (l.map strTok)).map Den.lit) : Eff Den) = _
    rw [list_elems fun s hs => (hl s hs).1]
    rfl
  show ((semAtt A ⟨.usrAtt, 0, .str name⟩).bind fun x => (semOperand A (.set ⟨.lset, 0, .none⟩ (l.map strTok))).bind fun y => semCmp _ x y).2 = _
  rw [att_texts hA, hop]
  show (semCmp ⟨.op, 0, .str "SUBSET".toList⟩ (.many (s.map textual)) (.lit (l.map .str))).2 = _
  show (answerOut "subset_op" (semSubset (.many (s.map textual)) (.lit (l.map .str)))).2 = _
  have hs : semSubset (.many (s.map textual)) (.lit (l.map .str)) = .ok (some (decide (∀ x ∈ s, x ∈ l))) := by
    have ha : atoms (l.map .str) = l.map textual := by
      unfold atoms
      rw [List.map_map]
      rfl
    unfold semSubset
    rw [if_neg (by simp [Den.unsettable])]
    show Except.ok (some (included (s.map textual) (atoms (l.map .str)))) = _
    rw [ha, included_texts]
  rw [hs]
  show _ = Except.ok (Den.truth (triOf (decide (∀ x ∈ s, x ∈ l))))
  cases decide (∀ x ∈ s, x ∈ l) <;> rfl

/-- **C169**: a decision on a set of texts can be written if it depends only on which of finitely many texts that can be written are in
the set and on whether it has other elements. -/
theorem sets_writable {m : Int} (hm : 2 < m) {l : List Str} (hl : ∀ s ∈ l, s ≠ [] ∧ ∀ c ∈ s, StrChar c) {P : List Str → Bool}
    (hP : ∀ a b, (∀ t ∈ l, t ∈ a ↔ t ∈ b) → ((∀ t ∈ a, t ∈ l) ↔ ∀ t ∈ b, t ∈ l) → P a = P b) :
    ∃ text p, PolicyOf U text p ∧ ∀ E, SymEnv.SetsOk E → ∀ s, attsOf U E .usrAtt name = some (.set, .set (s.map fun t => .atom (.str t))) →
      Gives U E (some m) text (if P s then .true else .false) := by
  refine writes_gives hU (H := IsTexts name) (writes_tests hU ((fun s => decide (∀ x ∈ s, x ∈ l)) :: l.map fun t s => decide (t ∈ s)) P ?_ ?_) hm
  · intro f hf
    rcases List.mem_cons.mp hf with rfl | hf
    · exact writes_subset hU hn hc hl
    · obtain ⟨t, ht, rfl⟩ := List.mem_map.mp hf
      exact writes_member hU hn hc (hl t ht).1 (hl t ht).2
  · intro a b h
    refine hP a b (fun t ht => ?_) (decide_eq_decide.mp (h _ List.mem_cons_self))
    exact decide_eq_decide.mp (h _ (List.mem_cons_of_mem _ (List.mem_map.mpr ⟨t, ht, rfl⟩)))

end

/-! ### The converse -/

/-- The two sets have the same of the listed texts, and both or neither have others. -/
def SameListed (l a b : List Str) : Prop := (∀ t ∈ l, t ∈ a ↔ t ∈ b) ∧ ((∀ t ∈ a, t ∈ l) ↔ ∀ t ∈ b, t ∈ l)

theorem SameListed.symm {l a b : List Str} (h : SameListed l a b) : SameListed l b a := ⟨fun t ht => (h.1 t ht).symm, h.2.symm⟩

/-- A literal, whose texts are listed, or UNDEF. -/
def Listed (l : List Str) : Den → Prop
  | .const c => ∀ t, c = .str t → t ∈ l
  | .lit m => ∀ t, .str t ∈ m → t ∈ l
  | .truth _ => True
  | _ => False

theorem exists_map {α β : Type} (f : α → β) (l : List α) (p : β → Prop) : (∃ y ∈ l.map f, p y) ↔ ∃ x ∈ l, p (f x) := by
  simp

theorem atom_textual (c : Atom) (s : Str) : (Scalar.atom c).pyEq (textual s) = decide (c = .str s) ∧
    (textual s).pyEq (.atom c) = decide (c = .str s) := by
  cases c with
  | str t =>
    constructor
    · exact (textual_eq t s).trans (decide_eq_decide.mpr (by simp))
    · exact (textual_eq s t).trans (decide_eq_decide.mpr (by simp [eq_comm]))
  | null => exact ⟨by simp [Scalar.pyEq, Scalar.num, textual], by simp [Scalar.pyEq, Scalar.num, textual]⟩
  | int i => exact ⟨by simp [Scalar.pyEq, Scalar.num, textual], by simp [Scalar.pyEq, Scalar.num, textual]⟩
  | flt f => exact ⟨by simp [Scalar.pyEq, Scalar.num, textual], by simp [Scalar.pyEq, Scalar.num, textual]⟩

section
variable {l a b : List Str} (h : SameListed l a b)
include h

theorem listed_atom {c : Atom} (hc : ∀ t, c = .str t → t ∈ l) : (∃ s ∈ a, c = .str s) ↔ ∃ s ∈ b, c = .str s := by
  constructor
  · rintro ⟨s, hs, rfl⟩
    exact ⟨s, (h.1 s (hc s rfl)).mp hs, rfl⟩
  · rintro ⟨s, hs, rfl⟩
    exact ⟨s, (h.1 s (hc s rfl)).mpr hs, rfl⟩

theorem listed_nil : a = [] → b = [] := by
  rintro rfl
  have h2 := h.2.mp (by simp)
  cases b with
  | nil => rfl
  | cons t b => exact absurd ((h.1 t (h2 t List.mem_cons_self)).mpr List.mem_cons_self) (by simp)

theorem listed_subset {m : List Atom} (hm : ∀ t, .str t ∈ m → t ∈ l) (ha : ∀ t ∈ a, Atom.str t ∈ m) : ∀ t ∈ b, Atom.str t ∈ m := by
  intro t ht
  have h1 := h.2.mp (fun t ht => hm t (ha t ht)) t ht
  exact ha t ((h.1 t h1).mpr ht)

theorem listed_scan : ∀ {m : List Atom}, (∀ t, .str t ∈ m → t ∈ l) → scan (a.map textual) m = scan (b.map textual) m
  | [], _ => rfl
  | c :: m, hm => by
    have h1 : (∃ y ∈ a.map textual, (Scalar.atom c).pyEq y = true) ↔ ∃ y ∈ b.map textual, (Scalar.atom c).pyEq y = true := by
      simp only [exists_map, atom_textual, decide_eq_true_iff]
      exact listed_atom h fun t ht => hm t (by simp [ht])
    rw [scan, scan, listed_scan fun t ht => hm t (List.mem_cons_of_mem _ ht)]
    simp only [h1]

theorem listed_in {d : Den} (hd : Listed l d) : semIn (.many (a.map textual)) d = semIn (.many (b.map textual)) d ∧
    semIn d (.many (a.map textual)) = semIn d (.many (b.map textual)) := by
  cases d with
  | const c =>
    refine ⟨rfl, ?_⟩
    have h1 : included [.atom c] (a.map textual) = included [.atom c] (b.map textual) := by
      unfold included
      refine decide_eq_decide.mpr ?_
      simp only [List.mem_singleton, forall_eq, exists_map, atom_textual, decide_eq_true_iff]
      exact listed_atom h hd
    simp only [semIn, h1]
  | lit m =>
    refine ⟨listed_scan h hd, ?_⟩
    have h1 : overlap (a.map textual) (atoms m) = overlap (b.map textual) (atoms m) := by
      unfold overlap atoms
      refine decide_eq_decide.mpr ?_
      simp only [exists_map, atom_textual, decide_eq_true_iff]
      constructor
      · rintro ⟨s, hs, c, hc, rfl⟩
        exact ⟨s, (h.1 s (hd s hc)).mp hs, _, hc, rfl⟩
      · rintro ⟨s, hs, c, hc, rfl⟩
        exact ⟨s, (h.1 s (hd s hc)).mpr hs, _, hc, rfl⟩
    simp only [semIn, h1]
  | truth v => exact ⟨rfl, rfl⟩
  | _ => cases hd

theorem listed_included {d : Den} (hd : Listed l d) : semSubset (.many (a.map textual)) d = semSubset (.many (b.map textual)) d ∧
    semSubset d (.many (a.map textual)) = semSubset d (.many (b.map textual)) := by
  cases d with
  | const c => exact ⟨rfl, rfl⟩
  | lit m =>
    have h1 : included (a.map textual) (atoms m) = included (b.map textual) (atoms m) := by
      have e : ∀ s : List Str, included (s.map textual) (atoms m) = decide (∀ t ∈ s, Atom.str t ∈ m) := fun s => by
        unfold included atoms
        refine decide_eq_decide.mpr ?_
        simp [atom_textual]
      rw [e, e]
      exact decide_eq_decide.mpr ⟨listed_subset h hd, listed_subset h.symm hd⟩
    have h2 : included (atoms m) (a.map textual) = included (atoms m) (b.map textual) := by
      unfold included atoms
      refine decide_eq_decide.mpr ?_
      simp only [List.forall_mem_map, exists_map, atom_textual, decide_eq_true_iff]
      exact forall₂_congr fun c hc => listed_atom h fun t ht => hd t (ht ▸ hc)
    constructor
    · unfold semSubset
      dsimp only [Den.asSet]
      rw [h1]
      rfl
    · unfold semSubset
      dsimp only [Den.asSet]
      rw [h2]
      rfl
  | truth v => exact ⟨rfl, rfl⟩
  | _ => cases hd

theorem listed_eq {d : Den} (hd : Listed l d) : semEq (.many (a.map textual)) d = semEq (.many (b.map textual)) d ∧
    semEq d (.many (a.map textual)) = semEq d (.many (b.map textual)) := by
  cases d with
  | const c => exact ⟨rfl, rfl⟩
  | lit m => exact ⟨rfl, rfl⟩
  | truth v => exact ⟨rfl, rfl⟩
  | _ => cases hd

omit h in
theorem self_eq (s : List Str) : sameElems (s.map textual) (s.map textual) = true ∧ included (s.map textual) (s.map textual) = true ∧
    overlap (s.map textual) (s.map textual) = decide (s ≠ []) := by
  refine ⟨?_, ?_, ?_⟩
  · unfold sameElems
    simp [textual_eq]
  · rw [included_texts]
    exact decide_eq_true fun _ h => h
  · unfold overlap
    refine decide_eq_decide.mpr ?_
    simp only [exists_map, textual_eq, decide_eq_true_iff]
    constructor
    · rintro ⟨x, hx, -⟩ rfl
      cases hx
    · intro h
      cases s with
      | nil => exact absurd rfl h
      | cons t s => exact ⟨t, List.mem_cons_self, t, List.mem_cons_self, rfl⟩

theorem listed_operator {e : String × String × (Den → Den → Answer)} (he : e ∈ operators) :
    (∀ d, Listed l d → e.2.2 (.many (a.map textual)) d = e.2.2 (.many (b.map textual)) d ∧
      e.2.2 d (.many (a.map textual)) = e.2.2 d (.many (b.map textual))) ∧
    e.2.2 (.many (a.map textual)) (.many (a.map textual)) = e.2.2 (.many (b.map textual)) (.many (b.map textual)) := by
  have ord : ∀ f : PyFloat → PyFloat → Bool, (∀ d, Listed l d → semOrd f (.many (a.map textual)) d = semOrd f (.many (b.map textual)) d ∧
      semOrd f d (.many (a.map textual)) = semOrd f d (.many (b.map textual))) ∧
      semOrd f (.many (a.map textual)) (.many (a.map textual)) = semOrd f (.many (b.map textual)) (.many (b.map textual)) :=
    fun f => ⟨fun d _ => ⟨rfl, by simp only [semOrd_eq]; rfl⟩, rfl⟩
  have he1 : semEq (.many (a.map textual)) (.many (a.map textual)) = semEq (.many (b.map textual)) (.many (b.map textual)) := by
    simp only [semEq, (self_eq _).1]
  rcases (op_mem e).mp he with rfl | rfl | rfl | rfl | rfl | rfl | rfl | rfl
  · exact ⟨fun d hd => listed_eq h hd, he1⟩
  · exact ⟨fun d hd => ⟨congrArg Answer.neg (listed_eq h hd).1, congrArg Answer.neg (listed_eq h hd).2⟩, congrArg Answer.neg he1⟩
  · exact ord _
  · exact ord _
  · exact ord _
  · exact ord _
  · refine ⟨fun d hd => listed_in h hd, ?_⟩
    have h1 : decide (a ≠ []) = decide (b ≠ []) := decide_eq_decide.mpr (not_congr ⟨listed_nil h, listed_nil h.symm⟩)
    simp only [semIn, (self_eq _).2.2, h1]
  · refine ⟨fun d hd => listed_included h hd, ?_⟩
    simp only [semSubset, Den.unsettable, Den.asSet, (self_eq _).2.1]

theorem listed_cmp (o : Token) : (∀ d, Listed l d → semCmp o (.many (a.map textual)) d = semCmp o (.many (b.map textual)) d ∧
      semCmp o d (.many (a.map textual)) = semCmp o d (.many (b.map textual))) ∧
    semCmp o (.many (a.map textual)) (.many (a.map textual)) = semCmp o (.many (b.map textual)) (.many (b.map textual)) := by
  have hne : ∀ s : List Str, Den.many (s.map textual) ≠ .truth .undef := fun _ h => by cases h
  unfold semCmp
  simp only [hne, false_or, or_false, if_false]
  cases hf : operators.find? (fun e => o.value = .str e.1.toList) with
  | none => exact ⟨fun _ _ => ⟨rfl, rfl⟩, rfl⟩
  | some e =>
    obtain ⟨h1, h2⟩ := listed_operator h (List.mem_of_find?_eq_some hf)
    refine ⟨fun d hd => ?_, ?_⟩
    · dsimp only
      rw [(h1 d hd).1, (h1 d hd).2]
      exact ⟨rfl, rfl⟩
    · dsimp only
      rw [h2]

/-- What can be seen of a policy is the same for both. -/
theorem listed_sem {U : Uni} {A B : Atts} {key : Str} (hd : DifferOnly U key A B)
    (hA : ∀ t, attKey U t = key → (semAtt A t).2 = .ok (.many (a.map textual)))
    (hB : ∀ t, attKey U t = key → (semAtt B t).2 = .ok (.many (b.map textual)))
    {G : Operand → Prop} (hG : ∀ z, G z → (∀ t ∈ z.atts, attKey U t ≠ key) → ∀ d, (semOperand A z).2 = .ok d → Listed l d)
    (p : Policy) (hp : ∀ c ∈ p.cmps, G c.l ∧ G c.r) : seen (sem U A p).2 = seen (sem U B p).2 := by
  have cases' : ∀ z : Operand, ((semOperand A z).2 = .ok (.many (a.map textual)) ∧ (semOperand B z).2 = .ok (.many (b.map textual))) ∨
      ((∀ t ∈ z.atts, attKey U t ≠ key) ∧ semOperand A z = semOperand B z) := fun z => by
    by_cases hk : ∀ t ∈ z.atts, attKey U t ≠ key
    · exact .inr ⟨hk, operand_same hd hk⟩
    · refine .inl ?_
      cases z with
      | att t =>
        have ht : attKey U t = key := by
          by_contra hne
          exact hk fun u hu => by rw [List.mem_singleton.mp hu]; exact hne
        exact ⟨hA t ht, hB t ht⟩
      | _ => exact absurd (fun t ht => by cases ht) hk
  induction p with
  | cmp x o y =>
    show seen ((semOperand A x).bind fun u => (semOperand A y).bind fun v => semCmp o u v).2 =
      seen ((semOperand B x).bind fun u => (semOperand B y).bind fun v => semCmp o u v).2
    obtain ⟨gl, gr⟩ := hp ⟨x, o, y⟩ (List.mem_singleton.mpr rfl)
    obtain ⟨h1, h2⟩ := listed_cmp h o
    rcases cases' x with ⟨xa, xb⟩ | ⟨hx, ex⟩ <;> rcases cases' y with ⟨ya, yb⟩ | ⟨hy, ey⟩
    · simp only [bind_result, xa, xb, ya, yb, h2]
    · rw [← ey]
      simp only [bind_result, xa, xb]
      cases he : (semOperand A y).2 with
      | error e => rfl
      | ok d => dsimp only; rw [(h1 d (hG y gr hy d he)).1]
    · rw [← ex]
      simp only [bind_result, ya, yb]
      cases he : (semOperand A x).2 with
      | error e => rfl
      | ok d => dsimp only; rw [(h1 d (hG x gl hx d he)).2]
    · rw [ex, ey]
  | lit t => rfl
  | att t =>
    show seen (semOperand A (.att t)).2 = seen (semOperand B (.att t)).2
    rcases cases' (.att t) with ⟨ha, hb⟩ | ⟨-, e⟩
    · rw [ha, hb]
      rfl
    · rw [e]
  | not n p ih =>
    rw [sem_not_seen, sem_not_seen, ih hp]
  | bin o p q ihp ihq =>
    rw [sem_bin_seen, sem_bin_seen, ihp fun c hc => hp c (List.mem_append_left _ hc), ihq fun c hc => hp c (List.mem_append_right _ hc)]

end

/-- A table with one attribute, which is a set of texts. -/
def textsEnv (U : Uni) (name : Str) (s : List Str) : SymEnv :=
  ⟨⟨[(U.lower ("user.".toList ++ name), 0)]⟩, fun _ => ⟨.set, .usrAtt, .set (s.map textual), [], []⟩⟩

theorem textsEnv_sets (U : Uni) (name : Str) (s : List Str) : SymEnv.SetsOk (textsEnv U name s) := by
  intro r l h
  cases h
  simp [textual, Scalar.hashable]

theorem textsEnv_atts (U : Uni) (name : Str) (s : List Str) (t : TokenType) (n : Str) : attsOf U (textsEnv U name s) t n =
    if U.lower (fullPrefix (some t) ++ n) = U.lower ("user.".toList ++ name) then some (.set, .set (s.map textual)) else none := by
  unfold attsOf SymTab.lookup SymTab.get textsEnv
  rw [← prefix_eq]
  dsimp only [List.find?]
  by_cases h1 : U.lower (fullPrefix (some t) ++ n) = U.lower ("user.".toList ++ name)
  · rw [if_pos h1, h1]
    simp
  · rw [if_neg h1, beq_eq_false_iff_ne.mpr (Ne.symm h1)]
    rfl

open Classical in
/-- **C169**: exactly these decisions on a set of texts can be written. -/
theorem set_decisions {U : Uni} (hU : U.Lawful) {name : Str} (hn : name ≠ []) (hc : ∀ c ∈ name, IdChar U c) {m : Int} (hm : 2 < m)
    (P : List Str → Bool) :
    (∃ text p, PolicyOf U text p ∧ ∀ E, SymEnv.SetsOk E → ∀ s, attsOf U E .usrAtt name = some (.set, .set (s.map fun t => .atom (.str t))) →
      Gives U E (some m) text (if P s then .true else .false)) ↔
    ∃ l : List Str, (∀ s ∈ l, s ≠ [] ∧ ∀ c ∈ s, StrChar c) ∧
      ∀ a b, (∀ t ∈ l, t ∈ a ↔ t ∈ b) → ((∀ t ∈ a, t ∈ l) ↔ ∀ t ∈ b, t ∈ l) → P a = P b := by
  constructor
  · rintro ⟨text, p, hp, h⟩
    have hw : p.WF := by
      obtain ⟨ts, e, -, h2⟩ := hp
      exact dpolicy_wf h2
    have hown : ∀ s, attsOf U (textsEnv U name s) .usrAtt name = some (.set, .set (s.map textual)) := fun s => by
      rw [textsEnv_atts]
      exact if_pos rfl
    by_cases hlit : ∃ x, p = .lit x
    · obtain ⟨x, rfl⟩ := hlit
      exact absurd (h _ (textsEnv_sets U name []) [] (hown [])) (lit_gives hU (textsEnv_sets U name []) hp)
    have hlit : ∀ x, p ≠ .lit x := fun x hx => hlit ⟨x, hx⟩
    let word : Token → Option Str := fun t => match constOf t with | some (.str s) => if Writable s then some s else none | _ => none
    have hword : ∀ t ∈ p.tokens, AtomTok false t → ∀ s, constOf t = some (.str s) → s ∈ p.tokens.filterMap word := fun t ht ha s hs => by
      refine List.mem_filterMap.mpr ⟨t, ht, ?_⟩
      have := const_writable ha (policyOf_textOk hp t ht) hs (s := s) rfl
      simp only [word, hs, if_pos this]
    refine ⟨p.tokens.filterMap word, fun s hs => ?_, fun a b h1 h2 => ?_⟩
    · obtain ⟨t, -, ht⟩ := List.mem_filterMap.mp hs
      simp only [word] at ht
      split at ht
      · split at ht
        · next hwr =>
          cases ht
          exact hwr
        · cases ht
      · cases ht
    · have hsem := listed_sem (l := p.tokens.filterMap word) (a := a) (b := b) ⟨h1, h2⟩ (U := U) (A := attsOf U (textsEnv U name a))
        (B := attsOf U (textsEnv U name b)) (key := U.lower ("user.".toList ++ name))
        (fun t n hne => by rw [textsEnv_atts, textsEnv_atts, if_neg hne, if_neg hne])
        (fun t ht => by
          have ht : U.lower (fullPrefix (some t.type) ++ attName t) = U.lower ("user.".toList ++ name) := ht
          unfold semAtt
          rw [textsEnv_atts, if_pos ht]
          rfl)
        (fun t ht => by
          have ht : U.lower (fullPrefix (some t.type) ++ attName t) = U.lower ("user.".toList ++ name) := ht
          unfold semAtt
          rw [textsEnv_atts, if_pos ht]
          rfl)
        (G := fun z => z.WF ∧ ∀ t ∈ z.tokens, t ∈ p.tokens)
        (fun z hz hk d hd => by
          obtain ⟨hz, ht⟩ := hz
          cases z with
          | att t =>
            have hk : ¬ U.lower (fullPrefix (some t.type) ++ attName t) = U.lower ("user.".toList ++ name) := hk t List.mem_cons_self
            have hd : (semAtt (attsOf U (textsEnv U name a)) t).2 = .ok d := hd
            unfold semAtt at hd
            rw [textsEnv_atts, if_neg hk] at hd
            cases hd
            trivial
          | atom t =>
            have hd : (semOperand (attsOf U (textsEnv U name a)) (.atom t)).2 = .ok d := hd
            unfold semOperand at hd
            dsimp only at hd
            cases hco : constOf t with
            | none => rw [hco] at hd; cases hd
            | some c =>
              rw [hco] at hd
              cases hd
              rintro s rfl
              exact hword t (ht t List.mem_cons_self) hz s hco
          | set b es =>
            have hd : (semElems es).map Den.lit = .ok d := hd
            cases hse : semElems es with
            | error e => rw [hse] at hd; cases hd
            | ok k =>
              rw [hse] at hd
              cases hd
              intro s hs
              obtain ⟨t, h1, h2⟩ := elems_const hse _ hs
              exact hword t (ht t (List.mem_cons_of_mem _ h1)) (hz.2 t h1) s h2)
        p (fun c hc => by
          obtain ⟨g1, g2, g3, g4⟩ := cmp_parts hw hc
          exact ⟨⟨g1, g3⟩, ⟨g2, g4⟩⟩)
      have g1 := h _ (textsEnv_sets U name a) a (hown a)
      have g2 := h _ (textsEnv_sets U name b) b (hown b)
      rw [gives_sem hU (textsEnv_sets U name a) hm hp hlit, seen_truth] at g1
      rw [gives_sem hU (textsEnv_sets U name b) hm hp hlit, seen_truth] at g2
      rw [hsem, g2] at g1
      revert g1
      cases P a <;> cases P b <;> simp
  · rintro ⟨l, hl, hP⟩
    exact sets_writable hU hn hc hm hl hP

/-- **C169**: so no policy tells whether a set has more than one element. -/
theorem size_untestable {U : Uni} (hU : U.Lawful) {name : Str} (hn : name ≠ []) (hc : ∀ c ∈ name, IdChar U c) {m : Int} (hm : 2 < m) :
    ¬ ∃ text p, PolicyOf U text p ∧ ∀ E, SymEnv.SetsOk E → ∀ s : List Str, attsOf U E .usrAtt name = some (.set, .set (s.map fun t => .atom (.str t))) →
      Gives U E (some m) text (if decide (∃ t ∈ s, ∃ u ∈ s, t ≠ u) then .true else .false) := by
  intro h
  obtain ⟨l, hl, hP⟩ := (set_decisions hU hn hc hm fun s => decide (∃ t ∈ s, ∃ u ∈ s, t ≠ u)).mp h
  have h1 : ∀ s : Str, '"' ∈ s → s ∉ l := fun s hq hs => ((hl s hs).2 '"' hq).2.2 rfl
  have h2 := h1 ['"'] (by simp)
  have h3 := h1 ['"', '"'] (by simp)
  have := decide_eq_decide.mp (hP [['"']] [['"'], ['"', '"']] (fun t ht => ?_) ?_)
  · exact absurd (this.mpr ⟨['"'], by simp, ['"', '"'], by simp, by decide⟩) (by simp)
  · constructor
    · intro e
      rw [List.mem_singleton.mp e] at ht
      exact absurd ht h2
    · intro e
      simp only [List.mem_cons, List.not_mem_nil, or_false] at e
      rcases e with rfl | rfl
      · exact absurd ht h2
      · exact absurd ht h3
  · exact ⟨fun e => absurd (e _ (by simp)) h2, fun e => absurd (e _ (by simp)) h2⟩

/-! ### Concrete cases -/

/-- Being exactly the set of two roles. -/
example : ∃ text p, PolicyOf asciiUni text p ∧ ∀ E, SymEnv.SetsOk E → ∀ s : List Str,
    attsOf asciiUni E .usrAtt "a".toList = some (.set, .set (s.map fun t => .atom (.str t))) →
    Gives asciiUni E (some 3) text (if decide ("doctor".toList ∈ s ∧ "nurse".toList ∈ s ∧ ∀ t ∈ s, t ∈ ["doctor".toList, "nurse".toList]) then .true
      else .false) := by
  refine sets_writable asciiUni_lawful (name_a asciiUni_lawful).1 (name_a asciiUni_lawful).2 (by decide) (l := ["doctor".toList, "nurse".toList]) ?_
    (P := fun s => decide ("doctor".toList ∈ s ∧ "nurse".toList ∈ s ∧ ∀ t ∈ s, t ∈ ["doctor".toList, "nurse".toList]))
    fun a b h1 h2 => decide_eq_decide.mpr ?_
  · unfold StrChar
    decide
  · rw [h2, h1 _ (by simp), h1 _ (by simp)]

end Verif.Props
