import Verif.Props.LargeNumbers

/-!
# Decisions on a number or a text that can be written (C166, C167)

Decisions on a number that no longer change for large and for small numbers are exactly those that can be written. Decisions on a text
can be written exactly if they depend only on which of finitely many texts that can be written it is.
-/

namespace Verif.Props

open Verif.Spec Proofs

/-- There is a text whose policy gives the truth value for each index, for attributes that fit the index. -/
def Writes {ι : Type} (U : Uni) (H : Atts → ι → Prop) (f : ι → Bool) : Prop :=
  ∃ text p, Reads U text p ∧ ∀ A a, H A a → (sem U A p).2 = .ok (.truth (triOf (f a)))

section
variable {U : Uni} (hU : U.Lawful) {ι : Type} {H : Atts → ι → Prop} {f g h : ι → Bool}
include hU

theorem writes_not (hf : Writes U H f) : Writes U H fun a => !f a := by
  obtain ⟨t, p, h1, h2⟩ := hf
  refine ⟨_, _, reads_not hU h1, fun A a hA => ?_⟩
  show ((sem U A p).bind _).2 = Except.ok (Den.truth (triOf (!f a)))
  rw [bind_result, h2 A a hA]
  cases f a <;> rfl

theorem writes_and (hf : Writes U H f) (hg : Writes U H g) : Writes U H fun a => f a && g a := by
  obtain ⟨t, p, h1, h2⟩ := hf
  obtain ⟨u, q, h3, h4⟩ := hg
  refine ⟨_, _, reads_and hU h1 h3, fun A a hA => ?_⟩
  show ((sem U A p).bind fun _ => (sem U A q).bind _).2 = _
  simp only [bind_result, h2 A a hA, h4 A a hA]
  cases f a <;> cases g a <;> rfl

theorem writes_or (hf : Writes U H f) (hg : Writes U H g) : Writes U H fun a => f a || g a := by
  obtain ⟨t, p, h1, h2⟩ := hf
  obtain ⟨u, q, h3, h4⟩ := hg
  refine ⟨_, _, reads_or hU h1 h3, fun A a hA => ?_⟩
  show ((sem U A p).bind fun _ => (sem U A q).bind _).2 = _
  simp only [bind_result, h2 A a hA, h4 A a hA]
  cases f a <;> cases g a <;> rfl

theorem writes_const (b : Bool) : Writes U H fun _ => b := by
  have ht : Writes U H fun _ => true := by
    refine ⟨_, _, reads_true hU, fun A a _ => ?_⟩
    have ht : litTri U ⟨.bool, 0, .str "TRUE".toList⟩ = .true := by
      simp only [litTri, hU.upper_ascii "TRUE".toList (by decide)]
      decide
    rw [sem, if_pos ht]
    rfl
  cases b with
  | true => exact ht
  | false => exact writes_not hU ht

theorem writes_case (hf : Writes U H f) (hg : Writes U H g) (hh : Writes U H h) : Writes U H fun a => if f a then g a else h a := by
  have := writes_or hU (writes_and hU hf hg) (writes_and hU (writes_not hU hf) hh)
  refine cast (congrArg _ (funext fun a => ?_)) this
  cases f a <;> simp

/-- So it is the text of a policy that evaluates to this truth value. -/
theorem writes_gives (hf : Writes U H f) {m : Int} (hm : 2 < m) :
    ∃ text p, PolicyOf U text p ∧ ∀ E, SymEnv.SetsOk E → ∀ a, H (attsOf U E) a → Gives U E (some m) text (triOf (f a)) := by
  obtain ⟨t, p, h1, h2⟩ := hf
  obtain ⟨q, h3, h4⟩ := reads_policy (reads_or hU h1 h1)
  refine ⟨_, q, h3, fun E hE a hA => ?_⟩
  rw [gives_value hU hE h3 (strip_no_lit h4 fun x h => by cases h), value_strip h4]
  refine value_of hm ?_
  show ((sem U _ p).bind fun _ => (sem U _ p).bind _).2 = _
  simp only [bind_result, h2 _ a hA]
  cases f a <;> rfl

/-! ### Comparisons with a literal -/

theorem reads_cmp {name w o : Str} (hn : name ≠ []) (hc : ∀ c ∈ name, IdChar U c) {ov : TVal} {ty : TokenType} {v : TVal}
    (ho : ∀ b : Str, Lexeme U o .op ov (' ' :: b).head?) (hw : Lexeme U w ty v none) (ha : AtomTok false ⟨ty, 0, v⟩) :
    Reads U (("user".toList ++ '.' :: name) ++ ' ' :: (o ++ ' ' :: (w ++ [])))
      (.cmp (.att ⟨.usrAtt, 0, .str name⟩) ⟨.op, 0, ov⟩ (.atom ⟨ty, 0, v⟩)) := by
  refine ⟨_, ?_, .term (.exp (.cmp (ts := [⟨.usrAtt, 0, .str name⟩]) (us := [⟨ty, 0, v⟩]) (.att (Or.inl rfl)) rfl (.atom ha)))⟩
  refine toks_cons (.att "user".toList name "user" .usrAtt _ (by decide) (by unfold Spells; decide) hn hc ?_)
    (toks_space hU (toks_cons (ho _) (toks_space hU (toks_cons (b := []) hw (toks_nil U)))))
  intro c h
  cases h
  exact (boundary_blank hU).2.2.2

omit hU in
theorem att_single {A : Atts} {name : Str} {ty : SymType} {x : Atom} (h : A .usrAtt name = some (ty, .sc (.atom x)))
    (hf : fits ty (.sc (.atom x)) = true) (hd : valueDen (.sc (.atom x)) = .single (.atom x)) :
    semAtt A ⟨.usrAtt, 0, .str name⟩ = ([], .ok (.single (.atom x))) := by
  have hname : attName ⟨.usrAtt, 0, .str name⟩ = name := rfl
  unfold semAtt
  dsimp only
  rw [hname, h]
  simp only [hf, hd, if_true]

/-- The user attribute is this number. -/
def IsNumber (name : Str) (A : Atts) (a : Int) : Prop := A .usrAtt name = some (.int, .sc (.atom (.int a)))

/-- The user attribute is this text. -/
def IsText (name : Str) (A : Atts) (a : Str) : Prop := A .usrAtt name = some (.string, .sc (.atom (.str a)))

variable {name : Str} (hn : name ≠ []) (hc : ∀ c ∈ name, IdChar U c)
include hn hc

/-- A threshold: `user.x > k`, or `user.x >= k + 1`, so that the number is not 0 and not too long. -/
theorem writes_above {d : Nat} (hd : 0 < d) (hl : ∀ l, U.intLimit = some l → d ≤ l) (k : Int) (hk : -10 ^ d ≤ k) (hk' : k < 10 ^ d) :
    Writes U (IsNumber name) fun a => decide (k < a) := by
  have lit : ∀ i : Int, i.natAbs < 10 ^ d → ∃ w, Lexeme U w .int (.int i) none := fun i hi =>
    printable_spelling U hU ⟨.int, 0, .int i⟩ (.inr (.inl ⟨rfl, i, rfl, d, hd, hi, hl⟩))
  have test : ∀ (i : Int) (A : Atts), i ≠ 0 → semOperand A (.atom ⟨.int, 0, .int i⟩) = Eff.pure (.const (.int i)) := fun i A hi => by
    have hconst : constOf ⟨.int, 0, .int i⟩ = some (.int i) := by
      simp [constOf, hi]
    unfold semOperand
    dsimp only
    rw [hconst]
  have h10 : 1 < 10 ^ d := Nat.one_lt_pow (by omega) (by omega)
  have hcast : ((10 ^ d : Nat) : Int) = 10 ^ d := by push_cast; rfl
  by_cases h0 : k ≤ 0 ∧ k ≠ -1
  · obtain ⟨w, hw⟩ := lit (k + 1) (by omega)
    refine ⟨_, _, reads_cmp hU hn hc (o := ">=".toList) (ov := .str ">=".toList) (fun b => .punct ">=" .op (some ">=") _ (by decide)) hw
      (.inl rfl), fun A a hA => ?_⟩
    show ((semAtt A ⟨.usrAtt, 0, .str name⟩).bind fun x => (semOperand A (.atom ⟨.int, 0, .int (k + 1)⟩)).bind fun y => semCmp _ x y).2 = _
    rw [att_single hA rfl rfl, test (k + 1) A (by omega)]
    show (semCmp _ (.single (.atom (.int a))) (.const (.int (k + 1)))).2 = _
    rw [ord_value (e := (">=", "gte_op", semOrd fun m n => decide (¬ numLt m n))) (by simp [operators]) rfl rfl]
    show Except.ok (Den.truth (triOf (decide ¬ ((a : Rat) < ((k + 1 : Int) : Rat))))) = _
    congr 3
    refine decide_eq_decide.mpr ?_
    rw [Int.cast_lt]
    omega
  · obtain ⟨w, hw⟩ := lit k (by omega)
    refine ⟨_, _, reads_cmp hU hn hc (o := ['>']) (ov := .str ['>']) (fun b => .gt _ (by simp)) hw (.inl rfl), fun A a hA => ?_⟩
    show ((semAtt A ⟨.usrAtt, 0, .str name⟩).bind fun x => (semOperand A (.atom ⟨.int, 0, .int k⟩)).bind fun y => semCmp _ x y).2 = _
    rw [att_single hA rfl rfl, test k A (by omega)]
    show (semCmp _ (.single (.atom (.int a))) (.const (.int k))).2 = _
    rw [ord_value (e := (">", "qt_op", semOrd fun m n => decide (numLt n m))) (by simp [operators]) rfl rfl]
    show Except.ok (Den.truth (triOf (decide ((k : Rat) < (a : Rat))))) = _
    congr 3
    exact decide_eq_decide.mpr Int.cast_lt

theorem writes_steps {d : Nat} (hd : 0 < d) (hl : ∀ l, U.intLimit = some l → d ≤ l) (K : Int) (n : Nat)
    (hk : -10 ^ d ≤ K) (hk' : K + n ≤ 10 ^ d) (P : Int → Bool) (h1 : ∀ a ≤ K, P a = P K) (h2 : ∀ a, K + n ≤ a → P a = P (K + n)) :
    Writes U (IsNumber name) P := by
  induction n generalizing P with
  | zero =>
    have : P = fun _ => P K := by
      funext a
      by_cases ha : a ≤ K
      · exact h1 a ha
      · have := h2 a (by omega)
        simpa using this
    rw [this]
    exact writes_const hU _
  | succ n ih =>
    have hi := ih (by push_cast at hk'; omega) (fun a => P (min a (K + n)))
      (fun a ha => by
        rw [min_eq_left (by omega), min_eq_left (by omega)]
        exact h1 a ha)
      (fun a ha => by
        rw [min_eq_right ha, min_self])
    have := writes_case hU (writes_above hU hn hc hd hl (K + n) (by omega) (by push_cast at hk'; omega)) (writes_const hU (P (K + (n + 1 : Nat)))) hi
    refine cast (congrArg _ (funext fun a => ?_)) this
    by_cases ha : K + n < a
    · rw [if_pos (decide_eq_true ha)]
      exact (h2 a (by push_cast; omega)).symm
    · rw [if_neg (by simpa using ha), min_eq_left (by omega)]

/-- **C166**: a decision on a number that is the same for all large and for all small numbers can be written, if numbers up to the bound
can be. -/
theorem settled_writable {m : Int} (hm : 2 < m) {d : Nat} (hd : 0 < d) (hl : ∀ l, U.intLimit = some l → d ≤ l) {N : Nat} (hN : N ≤ 10 ^ d)
    {P : Int → Bool} (hP : ∀ a b : Int, (N ≤ a ∧ N ≤ b) ∨ (a ≤ -N ∧ b ≤ -N) → P a = P b) :
    ∃ text p, PolicyOf U text p ∧ ∀ E, SymEnv.SetsOk E → ∀ a, attsOf U E .usrAtt name = some (.int, .sc (.atom (.int a))) →
      Gives U E (some m) text (if P a then .true else .false) := by
  have hcast : ((10 ^ d : Nat) : Int) = 10 ^ d := by push_cast; rfl
  refine writes_gives hU (H := IsNumber name) (writes_steps hU hn hc hd hl (-N) (2 * N) ?_ ?_ P (fun a ha => ?_) fun a ha => ?_) hm
  · omega
  · push_cast
    omega
  · exact hP _ _ (.inr ⟨ha, by omega⟩)
  · exact hP _ _ (.inl ⟨by push_cast at ha; omega, by push_cast; omega⟩)

end

/-- A table with one attribute. -/
def soleEnv (U : Uni) (name : Str) (ty : SymType) (x : Atom) : SymEnv :=
  ⟨⟨[(U.lower ("user.".toList ++ name), 0)]⟩, fun _ => ⟨ty, .usrAtt, .sc (.atom x), [], []⟩⟩

theorem soleEnv_sets (U : Uni) (name : Str) (ty : SymType) (x : Atom) : SymEnv.SetsOk (soleEnv U name ty x) := by
  intro r l h
  cases h

theorem soleEnv_atts (U : Uni) (name : Str) (ty : SymType) (x : Atom) (t : TokenType) (n : Str) : attsOf U (soleEnv U name ty x) t n =
    if U.lower (fullPrefix (some t) ++ n) = U.lower ("user.".toList ++ name) then some (ty, .sc (.atom x)) else none := by
  unfold attsOf SymTab.lookup SymTab.get soleEnv
  rw [← prefix_eq]
  dsimp only [List.find?]
  by_cases h1 : U.lower (fullPrefix (some t) ++ n) = U.lower ("user.".toList ++ name)
  · rw [if_pos h1, h1]
    simp
  · rw [if_neg h1, beq_eq_false_iff_ne.mpr (Ne.symm h1)]
    rfl

/-- **C166**: where the digits of numbers are not limited, the decisions on a number that can be written are exactly those that are the
same for all large and for all small numbers. -/
theorem number_decisions {U : Uni} (hU : U.Lawful) (hlim : U.intLimit = none) {name : Str} (hn : name ≠ []) (hc : ∀ c ∈ name, IdChar U c)
    {m : Int} (hm : 2 < m) (P : Int → Bool) :
    (∃ text p, PolicyOf U text p ∧ ∀ E, SymEnv.SetsOk E → ∀ a, attsOf U E .usrAtt name = some (.int, .sc (.atom (.int a))) →
      Gives U E (some m) text (if P a then .true else .false)) ↔
    ∃ N : Nat, ∀ a b : Int, (N ≤ a ∧ N ≤ b) ∨ (a ≤ -N ∧ b ≤ -N) → P a = P b := by
  constructor
  · rintro ⟨text, p, hp, h⟩
    have hE := fun a : Int => soleEnv_sets U name .int (.int a)
    have hown : ∀ a : Int, attsOf U (soleEnv U name .int (.int a)) .usrAtt name = some (.int, .sc (.atom (.int a))) := fun a => by
      rw [soleEnv_atts]
      exact if_pos rfl
    obtain ⟨N, hN⟩ := numbers_settle (E := fun a => soleEnv U name .int (.int a)) (key := U.lower ("user.".toList ++ name)) hU hE
      (fun a b t n hne => by rw [soleEnv_atts, soleEnv_atts, if_neg hne, if_neg hne])
      (fun a t ht => by
        have ht : U.lower (fullPrefix (some t.type) ++ attName t) = U.lower ("user.".toList ++ name) := ht
        rw [soleEnv_atts, if_pos ht]) hp hm
    refine ⟨N.toNat, fun a b hab => ?_⟩
    have h1 := (hN a b (by omega) _).mp (h _ (hE a) a (hown a))
    have h2 := gives_unique hU (hE b) hm hp h1 (h _ (hE b) b (hown b))
    revert h2
    cases P a <;> cases P b <;> simp
  · rintro ⟨N, hP⟩
    exact settled_writable hU hn hc hm (d := N + 1) (by omega) (fun l h => by rw [hlim] at h; cases h)
      (le_of_lt (lt_trans (Nat.lt_succ_self N) (Nat.lt_pow_self (by omega)))) hP

/-! ### Texts -/

section
variable {U : Uni} (hU : U.Lawful) {name : Str} (hn : name ≠ []) (hc : ∀ c ∈ name, IdChar U c)
include hU hn hc

theorem writes_is {s : Str} (hs : s ≠ []) (hsc : ∀ c ∈ s, StrChar c) : Writes U (IsText name) fun a => decide (a = s) := by
  refine ⟨_, _, reads_cmp hU hn hc (o := "=".toList) (ov := .str "=".toList) (fun b => .punct "=" .op (some "=") _ (by decide))
    (.string s none hsc) (.inr (.inr (.inl rfl))), fun A a hA => ?_⟩
  have hconst : constOf ⟨.string, 0, .str s⟩ = some (.str s) := by
    simp [constOf, hs]
  show ((semAtt A ⟨.usrAtt, 0, .str name⟩).bind fun x => (semOperand A (.atom ⟨.string, 0, .str s⟩)).bind fun y => semCmp _ x y).2 = _
  rw [att_single hA rfl rfl]
  have hop : semOperand A (.atom ⟨.string, 0, .str s⟩) = Eff.pure (.const (.str s)) := by
    unfold semOperand
    dsimp only
    rw [hconst]
  rw [hop]
  show (semCmp ⟨.op, 0, .str "=".toList⟩ (.single (.atom (.str a))) (.const (.str s))).2 = _
  show (answerOut "eq_op" (.ok (some (decide (a = s))))).2 = Except.ok (Den.truth (triOf (decide (a = s))))
  cases decide (a = s) <;> rfl

/-- **C167**: a decision on a text can be written if it is the same for all texts that are not among finitely many non-empty ones in
printable characters other than quotes. -/
theorem listed_writable {m : Int} (hm : 2 < m) {l : List Str} (hl : ∀ s ∈ l, s ≠ [] ∧ ∀ c ∈ s, StrChar c) {P : Str → Bool}
    (hP : ∀ a b, a ∉ l → b ∉ l → P a = P b) :
    ∃ text p, PolicyOf U text p ∧ ∀ E, SymEnv.SetsOk E → ∀ a, attsOf U E .usrAtt name = some (.string, .sc (.atom (.str a))) →
      Gives U E (some m) text (if P a then .true else .false) := by
  have key : ∀ (l : List Str), (∀ s ∈ l, s ≠ [] ∧ ∀ c ∈ s, StrChar c) → ∀ P : Str → Bool, (∀ a b, a ∉ l → b ∉ l → P a = P b) →
      Writes U (IsText name) P := by
    intro l
    induction l with
    | nil =>
      intro _ P hP
      have : P = fun _ => P [] := funext fun a => hP a [] (by simp) (by simp)
      rw [this]
      exact writes_const hU _
    | cons s l ih =>
      intro hl P hP
      obtain ⟨h1, h2⟩ := hl s List.mem_cons_self
      -- off `s`, any decision that is the same outside `l`
      by_cases hx : ∃ b, b ∉ s :: l
      · obtain ⟨b, hb⟩ := hx
        have hi := ih (fun t ht => hl t (List.mem_cons_of_mem _ ht)) (fun a => if a = s then P b else P a) fun a a' ha ha' => by
          have : ∀ a, a ∉ l → (if a = s then P b else P a) = P b := fun a ha => by
            by_cases has : a = s
            · rw [if_pos has]
            · rw [if_neg has]
              exact hP a b (by simp [has, ha]) hb
          rw [this a ha, this a' ha']
        have := writes_case hU (writes_is hU hn hc h1 h2) (writes_const hU (P s)) hi
        refine cast (congrArg _ (funext fun a => ?_)) this
        by_cases has : a = s
        · rw [if_pos (decide_eq_true has), has]
        · rw [if_neg (by simpa using has), if_neg has]
      · exfalso
        exact hx ⟨[], fun h => (hl [] h).1 rfl⟩
  exact writes_gives hU (H := IsText name) (key l hl P hP) hm

end

/-- A text that can be written as a literal that evaluation accepts. -/
def Writable (s : Str) : Prop := s ≠ [] ∧ ∀ c ∈ s, StrChar c

/-- All texts but finitely many that can be written. -/
def lateListed : Late Str where
  κ := { l : List Str // ∀ s ∈ l, Writable s }
  is l a := a ∉ l.1
  any := ⟨[], fun s h => by cases h⟩
  meet l m := ⟨l.1 ++ m.1, fun s h => (List.mem_append.mp h).elim (l.2 s) (m.2 s)⟩
  both h := by simpa using h

theorem settles_listed {α : Type} {f : Str → α} {c : α} {y : Scalar} (hy : ∀ s, y = textual s → Writable s)
    (h : ∀ a, textual a ≠ y → f a = c) : Settles lateListed f := by
  by_cases hx : ∃ t, y = textual t
  · obtain ⟨t, rfl⟩ := hx
    have : ∀ a, a ∉ [t] → f a = c := fun a ha => h a fun e => ha (by cases e; exact List.mem_singleton.mpr rfl)
    refine ⟨⟨[t], fun s hs => ?_⟩, fun a b ha hb => (this a ha).trans (this b hb).symm⟩
    rw [List.mem_singleton.mp hs]
    exact hy t rfl
  · have : ∀ a, f a = c := fun a => h a fun e => hx ⟨a, e.symm⟩
    exact ⟨lateListed.any, fun a b _ _ => (this a).trans (this b).symm⟩

theorem smooth_listed : Smooth lateListed textual fun y => ∀ s, y = textual s → Writable s where
  eq y hy := by
    constructor
    · refine settles_listed (c := false) hy fun a ha => ?_
      unfold Scalar.pyEq
      cases y.num with
      | none => exact decide_eq_false ha
      | some q => rfl
    · refine settles_listed (c := false) hy fun a ha => ?_
      unfold Scalar.pyEq
      cases y.num with
      | none => exact decide_eq_false (Ne.symm ha)
      | some q => rfl
  kind y hy := by
    rcases y with _ | _ | _ | (_ | _ | t | _) | _
    case atom.str =>
      constructor
      · refine settles_listed (c := some false) hy fun a ha => congrArg some (decide_eq_false fun e => ha ?_)
        rw [e]
        rfl
      · refine settles_listed (c := some false) hy fun a ha => congrArg some (decide_eq_false fun e => ha ?_)
        rw [e]
        rfl
    all_goals exact ⟨settles_const none, settles_const none⟩
  self a := decide_eq_true rfl
  lt _ _ _ _ := ⟨settles_const none, settles_const none⟩
  lt_self := settles_const none

/-- The literal is a text that can be written, up to emptiness. -/
def TextOk (t : Token) : Prop := ValOk t ∧ (t.type = .string → ∀ s, t.value = .str s → ∀ c ∈ s, StrChar c)

theorem lexeme_textOk {U : Uni} {w : Str} {ty : TokenType} {v : TVal} {nx : Option Char} (h : Lexeme U w ty v nx) (pos : Int) :
    TextOk ⟨ty, pos, v⟩ := by
  refine ⟨lexeme_valOk _ h, fun ht s hs => ?_⟩
  cases h with
  | string body nx h =>
    cases hs
    exact h
  | punct w ty v nx h =>
    have ht : ty = .string := ht
    subst ht
    simp [punctuation] at h
  | att pre ident kw ty nx hc =>
    have ht : ty = .string := ht
    subst ht
    simp [attClasses] at hc
  | keyword w kw ty v nx hk =>
    have ht : ty = .string := ht
    subst ht
    simp [keywords] at hk
  | _ => cases ht

theorem tokenizes_textOk {U : Uni} {text : Str} {pos : Nat} {ts : List Token} (h : Tokenizes U text pos ts) : ∀ t ∈ ts, TextOk t := by
  induction h with
  | done ws pos h =>
    intro t ht
    rw [List.mem_singleton.mp ht]
    exact ⟨by simp [ValOk], fun h => (by cases h)⟩
  | tok ws w rest pos ty v toks h hw hr ih =>
    intro t ht
    rcases List.mem_cons.mp ht with rfl | ht
    · exact lexeme_textOk hw _
    · exact ih t ht

theorem policyOf_textOk {U : Uni} {text : Str} {p : Policy} (h : PolicyOf U text p) : ∀ t ∈ p.tokens, TextOk t := by
  obtain ⟨ts, e, h1, h2⟩ := h
  intro t hm
  rw [← dpolicy_tokens h2, List.mem_filter] at hm
  exact tokenizes_textOk h1 t (by simp [hm.1])

theorem const_writable {t : Token} (ha : AtomTok false t) (ht : TextOk t) {c : Atom} (hc : constOf t = some c) {s : Str}
    (hs : Scalar.atom c = textual s) : Writable s := by
  cases hs
  obtain ⟨h1, h2⟩ := ht
  unfold constOf at hc
  by_cases hn : t.type = .null
  · rw [if_pos hn] at hc
    cases hc
  · rw [if_neg hn] at hc
    cases hv : t.value with
    | none => rw [hv] at hc; cases hc
    | int i => rw [hv] at hc; dsimp only at hc; split at hc <;> cases hc
    | flt f => rw [hv] at hc; dsimp only at hc; split at hc <;> cases hc
    | str u =>
      rw [hv] at hc
      dsimp only at hc
      split at hc
      · cases hc
      · next hne =>
        cases hc
        refine ⟨hne, h2 ?_ s hv⟩
        unfold ValOk at h1
        rcases ha with h | h | h | h | ⟨h, _⟩
        · rw [hv] at h1; simp [h] at h1
        · rw [hv] at h1; simp [h] at h1
        · exact h
        · exact absurd h hn
        · cases h

theorem elems_const {es : List Token} {m : List Atom} (h : semElems es = .ok m) : ∀ c ∈ m, ∃ t ∈ es, constOf t = some c := by
  induction es generalizing m with
  | nil => cases h; intro c hc; cases hc
  | cons t ts ih =>
    unfold semElems at h
    cases ht : constOf t with
    | none => rw [ht] at h; cases h
    | some a =>
      rw [ht] at h
      cases hs : semElems ts with
      | error e => rw [hs] at h; cases h
      | ok l =>
        rw [hs] at h
        cases h
        intro c hc
        rcases List.mem_cons.mp hc with rfl | hc
        · exact ⟨t, List.mem_cons_self, ht⟩
        · obtain ⟨u, hu, hc⟩ := ih hs c hc
          exact ⟨u, List.mem_cons_of_mem _ hu, hc⟩

/-- **C167**: exactly these decisions on a text can be written. -/
theorem text_decisions {U : Uni} (hU : U.Lawful) {name : Str} (hn : name ≠ []) (hc : ∀ c ∈ name, IdChar U c) {m : Int} (hm : 2 < m)
    (P : Str → Bool) :
    (∃ text p, PolicyOf U text p ∧ ∀ E, SymEnv.SetsOk E → ∀ a, attsOf U E .usrAtt name = some (.string, .sc (.atom (.str a))) →
      Gives U E (some m) text (if P a then .true else .false)) ↔
    ∃ l : List Str, (∀ s ∈ l, s ≠ [] ∧ ∀ c ∈ s, StrChar c) ∧ ∀ a b, a ∉ l → b ∉ l → P a = P b := by
  constructor
  · rintro ⟨text, p, hp, h⟩
    have hE := fun a : Str => soleEnv_sets U name .string (.str a)
    have hown : ∀ a : Str, attsOf U (soleEnv U name .string (.str a)) .usrAtt name = some (.string, .sc (.atom (.str a))) := fun a => by
      rw [soleEnv_atts]
      exact if_pos rfl
    have hw : p.WF := by
      obtain ⟨ts, e, -, h2⟩ := hp
      exact dpolicy_wf h2
    obtain ⟨⟨l, hl⟩, hs⟩ := gives_settles (L := lateListed) (x := textual) (E := fun a => soleEnv U name .string (.str a))
      (key := U.lower ("user.".toList ++ name)) hU hE
      (fun a b t n hne => by rw [soleEnv_atts, soleEnv_atts, if_neg hne, if_neg hne])
      (fun a t ht => by
        have ht : U.lower (fullPrefix (some t.type) ++ attName t) = U.lower ("user.".toList ++ name) := ht
        rw [soleEnv_atts, if_pos ht]
        rfl) hp hm smooth_listed (fun _ => ⟨rfl, fun h => (by cases h), rfl⟩) []
      (G := fun z => z.WF ∧ ∀ t ∈ z.tokens, TextOk t) (fun z hz hi d hd => by
        obtain ⟨hz, ht⟩ := hz
        cases z with
        | att t =>
          have hi : semAtt (attsOf U (soleEnv U name .string (.str []))) t = semAtt (attsOf U (soleEnv U name .string (.str ['a']))) t := hi [] ['a']
          have hd : (semAtt (attsOf U (soleEnv U name .string (.str []))) t).2 = .ok d := hd
          unfold semAtt at hi hd
          rw [soleEnv_atts] at hi hd
          rw [soleEnv_atts] at hi
          by_cases hk : U.lower (fullPrefix (some t.type) ++ attName t) = U.lower ("user.".toList ++ name)
          · rw [if_pos hk, if_pos hk] at hi
            cases hi
          · rw [if_neg hk] at hd
            cases hd
            trivial
        | atom t =>
          have hd : (semOperand (attsOf U (soleEnv U name .string (.str []))) (.atom t)).2 = .ok d := hd
          unfold semOperand at hd
          dsimp only at hd
          cases hco : constOf t with
          | none => rw [hco] at hd; cases hd
          | some c =>
            rw [hco] at hd
            cases hd
            exact fun s hs => const_writable hz (ht t List.mem_cons_self) hco hs
        | set b es =>
          have hd : (semElems es).map Den.lit = .ok d := hd
          cases hse : semElems es with
          | error e => rw [hse] at hd; cases hd
          | ok k =>
            rw [hse] at hd
            cases hd
            intro y hy s hs
            obtain ⟨c, hc, rfl⟩ := List.mem_map.mp hy
            obtain ⟨t, h1, h2⟩ := elems_const hse c hc
            exact const_writable (hz.2 t h1) (ht t (List.mem_cons_of_mem _ h1)) h2 hs)
      (fun c hc => by
        obtain ⟨h1, h2, h3, h4⟩ := cmp_parts hw hc
        exact ⟨⟨h1, fun t ht => policyOf_textOk hp t (h3 t ht)⟩, ⟨h2, fun t ht => policyOf_textOk hp t (h4 t ht)⟩⟩)
    refine ⟨l, hl, fun a b ha hb => ?_⟩
    have h1 := (Set.ext_iff.mp (hs a b ha hb) _).mp (h _ (hE a) a (hown a))
    have h2 := gives_unique hU (hE b) hm hp h1 (h _ (hE b) b (hown b))
    revert h2
    cases P a <;> cases P b <;> simp
  · rintro ⟨l, hl, hP⟩
    exact listed_writable hU hn hc hm hl hP

/-- **C167**: so no policy tells the empty text from all others. -/
theorem empty_untestable {U : Uni} (hU : U.Lawful) {name : Str} (hn : name ≠ []) (hc : ∀ c ∈ name, IdChar U c) {m : Int} (hm : 2 < m) :
    ¬ ∃ text p, PolicyOf U text p ∧ ∀ E, SymEnv.SetsOk E → ∀ a, attsOf U E .usrAtt name = some (.string, .sc (.atom (.str a))) →
      Gives U E (some m) text (if decide (a = []) then .true else .false) := by
  intro h
  obtain ⟨l, hl, hP⟩ := (text_decisions hU hn hc hm fun a => decide (a = [])).mp h
  have := decide_eq_decide.mp (hP [] ['"'] (fun h => (hl _ h).1 rfl) fun h => (hl _ h).2 '"' List.mem_cons_self |>.2.2 rfl)
  exact absurd (this.mp rfl) (by decide)

/-! ### Concrete cases -/

theorem name_a {U : Uni} (hU : U.Lawful) : "a".toList ≠ [] ∧ ∀ c ∈ "a".toList, IdChar U c := (names_exist hU).some 0 |> fun h =>
  ⟨h, (names_exist hU).chars 0⟩

/-- Being 3 or at least 10 can be written. -/
example : ∃ text p, PolicyOf asciiUni text p ∧ ∀ E, SymEnv.SetsOk E → ∀ a, attsOf asciiUni E .usrAtt "a".toList = some (.int, .sc (.atom (.int a))) →
    Gives asciiUni E (some 3) text (if decide (a = 3 ∨ 10 ≤ a) then .true else .false) := by
  refine (number_decisions asciiUni_lawful rfl (name_a asciiUni_lawful).1 (name_a asciiUni_lawful).2 (by decide)
    fun a => decide (a = 3 ∨ 10 ≤ a)).mpr ⟨10, fun a b h => decide_eq_decide.mpr ?_⟩
  omega

/-- Being a multiple of 3 cannot. -/
example : ¬ ∃ text p, PolicyOf asciiUni text p ∧ ∀ E, SymEnv.SetsOk E → ∀ a, attsOf asciiUni E .usrAtt "a".toList = some (.int, .sc (.atom (.int a))) →
    Gives asciiUni E (some 3) text (if decide (a % 3 = 0) then .true else .false) := by
  intro h
  obtain ⟨N, hN⟩ := (number_decisions asciiUni_lawful rfl (name_a asciiUni_lawful).1 (name_a asciiUni_lawful).2 (by decide)
    fun a => decide (a % 3 = 0)).mp h
  have := decide_eq_decide.mp (hN (3 * N) (3 * N + 1) (.inl (by omega)))
  omega

/-- Being one of two names can be written. -/
example : ∃ text p, PolicyOf asciiUni text p ∧ ∀ E, SymEnv.SetsOk E → ∀ a, attsOf asciiUni E .usrAtt "a".toList = some (.string, .sc (.atom (.str a))) →
    Gives asciiUni E (some 3) text (if decide (a ∈ ["alice".toList, "bob".toList]) then .true else .false) := by
  refine listed_writable asciiUni_lawful (name_a asciiUni_lawful).1 (name_a asciiUni_lawful).2 (by decide)
    (l := ["alice".toList, "bob".toList]) ?_ (P := fun a => decide (a ∈ ["alice".toList, "bob".toList])) fun a b ha hb => ?_
  · unfold StrChar
    decide
  · rw [decide_eq_false ha, decide_eq_false hb]

end Verif.Props
