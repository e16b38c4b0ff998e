import Verif.Spec.Numbers
import Verif.Proofs.Float64
import Verif.Proofs.Ascii
import Verif.Props.Interpreter
import Verif.Props.Lexer
/-!
# Numbers in policies
-/

namespace Verif.Props
open Verif Spec Proofs

/-! ### What is written and what is read -/

theorem resultDen_tri {E : SymEnv} {x : Res} {t : Tri} (h : resultDen E x = some (.truth t)) : x = .tri t := by
  cases x with
  | none => cases h
  | tri s => simp only [resultDen, Option.some.injEq, Den.truth.injEq] at h; rw [h]
  | atom a => simp [resultDen] at h
  | list l => simp [resultDen] at h
  | sym r =>
    simp only [resultDen] at h
    cases hv : (E.heap r).value with
    | sc y =>
      rw [hv] at h
      cases y <;> simp [valueDen] at h
    | set l => rw [hv] at h; simp [valueDen] at h
    | list l =>
      rw [hv] at h
      simp only [valueDen, Option.some.injEq] at h
      split at h <;> cases h

theorem digit_isDigit {U : Uni} (hU : U.Lawful) {c : Char} (h : Digit c) :
    U.isDigit c = true ∧ U.digitVal c = some (c.toNat - '0'.toNat) := by
  have h1 : isAscii c = true := by
    have := h.2
    simp only [isAscii, decide_eq_true_eq]
    have e : '9'.toNat = 57 := by decide
    omega
  have e0 : '0'.toNat = 48 := by decide
  have e9 : '9'.toNat = 57 := by decide
  have h2 : asciiDigit c = true := by
    have := h.1; have := h.2
    simp only [asciiDigit, decide_eq_true_eq, Bool.and_eq_true]
    omega
  exact ⟨by rw [hU.digit_ascii c h1, h2], by rw [hU.digitVal_ascii c h1 h2, e0]⟩

theorem foldl_digits (s : Str) (a : ℕ) : s.foldl (fun n c => 10 * n + (c.toNat - '0'.toNat)) a = a * 10 ^ s.length + decimalValue s := by
  induction s generalizing a with
  | nil => simp [decimalValue]
  | cons c s ih =>
    unfold decimalValue
    rw [List.foldl_cons, List.foldl_cons, ih, ih (10 * 0 + _), List.length_cons, pow_succ]
    ring

theorem decVal_digits {U : Uni} (hU : U.Lawful) (s : Str) (h : ∀ c ∈ s, Digit c) : decVal U s = some (decimalValue s) := by
  induction s with
  | nil => rfl
  | cons c s ih =>
    rw [decVal, (digit_isDigit hU (h c (by simp))).2, ih fun d hd => h d (by simp [hd])]
    show some _ = some _
    have e : decimalValue (c :: s) = s.foldl (fun n c => 10 * n + (c.toNat - '0'.toNat)) (10 * 0 + (c.toNat - '0'.toNat)) := rfl
    rw [e, foldl_digits, Nat.mul_zero, Nat.zero_add]

/-- The token of a numeral. -/
def numToken (U : Uni) (n : Numeral) (pos : Nat) : Token :=
  match n.fp with
  | none => ⟨.int, pos, .int (if n.neg then -(decimalValue n.ip : Int) else decimalValue n.ip)⟩
  | some _ => ⟨.float, pos, .flt (U.roundF n.value)⟩

theorem numeral_lexeme {U : Uni} (hU : U.Lawful) {n : Numeral} (hn : n.WF) (hl : ∀ m, U.intLimit = some m → n.ip.length ≤ m)
    {nx : Option Char} (hx : ∀ c, nx = some c → U.isDigit c = false ∧ c ≠ '.') (pos : Nat) :
    Lexeme U n.text (numToken U n pos).type (numToken U n pos).value nx := by
  obtain ⟨neg, ip, fp⟩ := n
  obtain ⟨h1, h2, h3⟩ := hn
  cases fp with
  | none =>
    have := Lexeme.int (U := U) neg ip _ nx h1 (fun c hc => (digit_isDigit hU (h2 c hc)).1) (decVal_digits hU ip h2) hl hx
    simpa [Numeral.text, numToken] using this
  | some s =>
    obtain ⟨h4, h5⟩ := h3 s rfl
    have := Lexeme.float (U := U) neg ip s _ _ nx h1 h4 (fun c hc => (digit_isDigit hU (h2 c hc)).1)
      (fun c hc => (digit_isDigit hU (h5 c hc)).1) (decVal_digits hU ip h2) (decVal_digits hU s h5) hx
    simpa [Numeral.text, numToken, Numeral.value] using this

theorem comparisons_op {o : String} {f : ℚ → ℚ → Bool} (h : (o, f) ∈ comparisons) :
    (∀ nx : Option Char, nx ≠ some '=' → ∀ U : Uni, Lexeme U o.toList .op (.str o.toList) nx) ∧
    ∀ c, o.toList.head? = some c → c = '=' ∨ c = '!' ∨ c = '<' ∨ c = '>' := by
  simp only [comparisons, List.mem_cons, Prod.mk.injEq, List.not_mem_nil, or_false] at h
  rcases h with ⟨rfl, _⟩ | ⟨rfl, _⟩ | ⟨rfl, _⟩ | ⟨rfl, _⟩ | ⟨rfl, _⟩ | ⟨rfl, _⟩
  · exact ⟨fun nx _ U => .punct "=" .op (some "=") nx (by decide), fun c hc => Option.some.inj (show some '=' = some c from hc) ▸ by decide⟩
  · exact ⟨fun nx _ U => .punct "!=" .op (some "!=") nx (by decide), fun c hc => Option.some.inj (show some '!' = some c from hc) ▸ by decide⟩
  · exact ⟨fun nx hx U => .lt nx hx, fun c hc => Option.some.inj (show some '<' = some c from hc) ▸ by decide⟩
  · exact ⟨fun nx hx U => .gt nx hx, fun c hc => Option.some.inj (show some '>' = some c from hc) ▸ by decide⟩
  · exact ⟨fun nx _ U => .punct "<=" .op (some "<=") nx (by decide), fun c hc => Option.some.inj (show some '<' = some c from hc) ▸ by decide⟩
  · exact ⟨fun nx _ U => .punct ">=" .op (some ">=") nx (by decide), fun c hc => Option.some.inj (show some '>' = some c from hc) ▸ by decide⟩

theorem space_ends {U : Uni} (hU : U.Lawful) {c : Char} (h : U.isSpace c = true) :
    U.isDigit c = false ∧ c ≠ '.' ∧ c ≠ '=' := by
  refine ⟨?_, ?_, ?_⟩
  · by_contra hc
    rw [Bool.not_eq_false] at hc
    rw [hU.digit_not_space c hc] at h
    cases h
  · rintro rfl
    rw [hU.space_ascii _ (by decide)] at h
    exact absurd h (by decide)
  · rintro rfl
    rw [hU.space_ascii _ (by decide)] at h
    exact absurd h (by decide)

theorem numToken_pos (U : Uni) (n : Numeral) (pos : Nat) : numToken U n pos = ⟨(numToken U n pos).type, pos, (numToken U n pos).value⟩ := by
  obtain ⟨neg, ip, fp⟩ := n
  cases fp <;> rfl

theorem numeral_head {n : Numeral} (hn : n.WF) {c : Char} {rest : Str} (h : (n.text ++ rest).head? = some c) : c = '-' ∨ Digit c := by
  obtain ⟨neg, ip, fp⟩ := n
  obtain ⟨h1, h2, _⟩ := hn
  cases neg with
  | true => left; simp [Numeral.text] at h; exact h.symm
  | false =>
    cases ip with
    | nil => exact absurd rfl h1
    | cons d ds =>
      right
      simp [Numeral.text] at h
      exact h ▸ h2 d (by simp)

theorem head_append {s t : Str} {c : Char} (h : (s ++ t).head? = some c) : c ∈ s ∨ t.head? = some c := by
  cases s with
  | nil => exact .inr h
  | cons d s => left; simp at h; simp [h]

/-- The text of a comparison is a policy. -/
theorem comparison_policy {U : Uni} (hU : U.Lawful) (c : Comparison U) :
    ∃ p1 p2 p3 : Nat, PolicyOf U c.text
      (.cmp (.atom (numToken U c.left p1)) ⟨.op, p2, .str c.op.toList⟩ (.atom (numToken U c.right p3))) := by
  obtain ⟨l, r, op, f, hop, s1, s2, s3, s4, hs, hl, hr, hlim⟩ := c
  obtain ⟨ho, ho'⟩ := comparisons_op hop
  simp only [Comparison.text]
  have atom : ∀ (n : Numeral) (p : Nat), AtomTok false (numToken U n p) := by
    intro n p
    obtain ⟨neg, ip, fp⟩ := n
    cases fp with
    | none => exact .inl rfl
    | some s => exact .inr (.inl rfl)
  have hne : op.toList ≠ [] := by
    simp only [comparisons, List.mem_cons, Prod.mk.injEq, List.not_mem_nil, or_false] at hop
    rcases hop with ⟨rfl, _⟩ | ⟨rfl, _⟩ | ⟨rfl, _⟩ | ⟨rfl, _⟩ | ⟨rfl, _⟩ | ⟨rfl, _⟩ <;> decide
  have t4 := Tokenizes.done (U := U) s4 (0 + s1.length + l.text.length + s2.length + op.toList.length + s3.length + r.text.length)
    (fun c hc => hs c (by simp [hc]))
  have t3 := Tokenizes.tok s3 r.text s4 (0 + s1.length + l.text.length + s2.length + op.toList.length) _ _ _
    (fun c hc => hs c (by simp [hc]))
    (numeral_lexeme hU hr (fun m hm => (hlim m hm).2) (fun c hc => by
      have := space_ends hU (hs c (by simp [List.mem_of_mem_head? hc]))
      exact ⟨this.1, this.2.1⟩) (0 + s1.length + l.text.length + s2.length + op.toList.length + s3.length)) t4
  have t2 := Tokenizes.tok s2 op.toList (s3 ++ r.text ++ s4) (0 + s1.length + l.text.length) .op (.str op.toList) _
    (fun c hc => hs c (by simp [hc]))
    (ho _ (fun h => by
      rw [List.append_assoc] at h
      rcases head_append h with h | h
      · exact (space_ends hU (hs _ (by simp [h]))).2.2 rfl
      · rcases numeral_head hr h with h | h
        · exact absurd h (by decide)
        · exact absurd h (by decide)) U) t3
  have t1 := Tokenizes.tok s1 l.text (s2 ++ op.toList ++ (s3 ++ r.text ++ s4)) 0 _ _ _
    (fun c hc => hs c (by simp [hc]))
    (numeral_lexeme hU hl (fun m hm => (hlim m hm).1) (fun c hc => by
      rw [List.append_assoc] at hc
      rcases head_append hc with h | h
      · have := space_ends hU (hs c (by simp [h]))
        exact ⟨this.1, this.2.1⟩
      · have h' : op.toList.head? = some c := by
          cases h0 : op.toList with
          | nil => exact absurd h0 hne
          | cons a b => rw [h0] at h; simpa using h
        have hd : ∀ d : Char, isAscii d = true → asciiDigit d = false → U.isDigit d = false :=
          fun d h1 h2 => by rw [hU.digit_ascii d h1, h2]
        rcases ho' c h' with rfl | rfl | rfl | rfl <;> exact ⟨hd _ (by decide) (by decide), by decide⟩) (0 + s1.length)) t2
  rw [← numToken_pos, ← numToken_pos] at t1
  have e : s1 ++ l.text ++ s2 ++ op.toList ++ s3 ++ r.text ++ s4 = s1 ++ l.text ++ (s2 ++ op.toList ++ (s3 ++ r.text ++ s4)) := by
    simp only [List.append_assoc]
  rw [← e] at t1
  exact ⟨_, _, _, [_, _, _], _, t1, .term (.exp (.cmp (ts := [_]) (us := [_]) (.atom (atom _ _)) rfl (.atom (atom _ _))))⟩

/-- The constant of a numeral. -/
theorem numeral_const {U : Uni} (hR : U.roundF = f64) {n : Numeral} {f : PyFloat} (h : n.Read f) (pos : Nat) :
    if f = .fin 0 then constOf (numToken U n pos) = none
    else ∃ a, constOf (numToken U n pos) = some a ∧ (Den.const a).number = some f := by
  obtain ⟨neg, ip, fp⟩ := n
  cases fp with
  | none =>
    simp only [Numeral.Read, Numeral.value, add_zero] at h
    simp only [numToken, constOf, reduceCtorEq, if_false]
    generalize decimalValue ip = d at h
    have hv : f = .fin (((if neg then -(d : Int) else d : Int)) : ℚ) := by
      rw [h]; cases neg <;> simp
    generalize (if neg then -(d : Int) else d : Int) = i at hv
    subst hv
    by_cases h0 : i = 0
    · subst h0; simp
    · rw [if_neg (by simpa using h0), if_neg h0]
      exact ⟨.int i, rfl, rfl⟩
  | some s =>
    simp only [Numeral.Read] at h
    rw [reads64_iff] at h
    simp only [numToken, constOf, reduceCtorEq, if_false, hR, ← h]
    by_cases h0 : f = .fin 0
    · simp [h0]
    · rw [if_neg h0, if_neg h0]
      exact ⟨.flt f, rfl, rfl⟩

theorem eq_numbers {a b : Den} {f g : PyFloat} (ha : a.number = some f) (hb : b.number = some g) :
    semEq a b = .ok (some (decide (f = g))) := by
  have h1 : ∀ x y : Scalar, x.num = some f → y.num = some g → sameKindEq x y = some (decide (f = g)) := by
    intro x y hx hy
    cases x with
    | atom a =>
      cases y with
      | atom b => cases a <;> cases b <;> simp_all [Scalar.num, sameKindEq]
      | bool b => cases a <;> simp_all [Scalar.num, sameKindEq]
      | _ => simp_all [Scalar.num]
    | bool a =>
      cases y with
      | atom b => cases b <;> simp_all [Scalar.num, sameKindEq]
      | bool b => simp_all [Scalar.num, sameKindEq]
      | _ => simp_all [Scalar.num]
    | _ => simp_all [Scalar.num]
  have h2 : ∀ x y : Scalar, x.num = some f → y.num = some g → x.pyEq y = decide (f = g) := by
    intro x y hx hy
    simp only [Scalar.pyEq, hx, hy]
  cases a with
  | const a =>
    cases b with
    | const b => simp only [semEq, h1 _ _ ha hb]
    | single y => simp only [semEq, h1 _ _ ha hb]
    | _ => cases hb
  | single x =>
    cases b with
    | const b => simp only [semEq, h1 _ _ ha hb]
    | single y => simp only [semEq, h2 _ _ ha hb]
    | _ => cases hb
  | _ => cases ha

/-- The operators on operands that are numbers. -/
theorem semCmp_numbers {o : Token} {op : String} {h : ℚ → ℚ → Bool} (hop : (op, h) ∈ comparisons) (ho : o.value = .str op.toList)
    {a b : Den} {f g : PyFloat} (ha : a.number = some f) (hb : b.number = some g) :
    semCmp o a b = ([], .ok (.truth (truthOf (extended h f g)))) := by
  have out : ∀ (rule : String) (x : Bool), answerOut rule (.ok (some x)) = ([], .ok (.truth (truthOf x))) := by
    intro rule x; cases x <;> rfl
  have key : ∀ (rule : String) (F : Den → Den → Answer) (x : Bool),
      operators.find? (fun e => TVal.str op.toList = .str e.1.toList) = some (op, rule, F) →
      F a b = .ok (some x) → extended h f g = x →
      semCmp o a b = ([], .ok (.truth (truthOf (extended h f g)))) := by
    intro rule F x h1 h2 h3
    rw [h3]
    unfold semCmp
    rw [if_neg (by rintro (rfl | rfl); · cases ha
                   · cases hb), ho, h1]
    simp only [h2, out]
  have eqv := eq_numbers ha hb
  simp only [comparisons, List.mem_cons, Prod.mk.injEq, List.not_mem_nil, or_false] at hop
  rcases hop with ⟨rfl, rfl⟩ | ⟨rfl, rfl⟩ | ⟨rfl, rfl⟩ | ⟨rfl, rfl⟩ | ⟨rfl, rfl⟩ | ⟨rfl, rfl⟩
  · refine key "eq_op" semEq (decide (f = g)) (by rfl) eqv ?_
    rcases f with q | m <;> rcases g with r | n <;> simp [extended] <;> (try cases m) <;> (try cases n) <;> (try simp)
  · refine key "eq_op" _ (!decide (f = g)) (by rfl) (by simp [eqv, Answer.neg, Except.map]) ?_
    rcases f with q | m <;> rcases g with r | n <;> simp [extended] <;> (try cases m) <;> (try cases n) <;> (try simp)
  · refine key "lt_op" _ (decide (numLt f g)) (by rfl) (by simp [semOrd, ha, hb]) ?_
    rcases f with q | m <;> rcases g with r | n <;> simp [numLt, extended] <;> (try cases m) <;> (try cases n) <;> simp
  · refine key "qt_op" _ (decide (numLt g f)) (by rfl) (by simp [semOrd, ha, hb]) ?_
    rcases f with q | m <;> rcases g with r | n <;> simp [numLt, extended] <;> (try cases m) <;> (try cases n) <;> simp
  · refine key "lte_op" _ (decide (¬ numLt g f)) (by rfl) (by simp [semOrd, ha, hb]) ?_
    rcases f with q | m <;> rcases g with r | n <;> simp [numLt, extended] <;> (try cases m) <;> (try cases n) <;> simp
  · refine key "gte_op" _ (decide (¬ numLt f g)) (by rfl) (by simp [semOrd, ha, hb]) ?_
    rcases f with q | m <;> rcases g with r | n <;> simp [numLt, extended] <;> (try cases m) <;> (try cases n) <;> simp

/-! ### Comparing numbers (C136) -/

/-- C136: a policy that compares two numbers answers by what they are read as, without warnings; a number read as 0 is
refused. -/
theorem numbers_compared {U : Uni} (hU : U.Lawful) (hR : U.roundF = f64) (E : SymEnv) (hE : SymEnv.SetsOk E) (level : Option Int)
    (k : Nat) (c : Comparison U) {f g : PyFloat} (hf : c.left.Read f) (hg : c.right.Read g) :
    ∃ s r, evaluateText U E level k c.text = .ok (s, r) ∧ s.warnings = [] ∧
      if f = .fin 0 ∨ g = .fin 0 then ∃ pos, r = .error (.interpreterError pos "evaluate_node")
      else r = .ok (.tri (truthOf (extended c.holds f g))) := by
  obtain ⟨p1, p2, p3, hp⟩ := comparison_policy hU c
  obtain ⟨s, r, h1, h2, h3⟩ := (evaluate_refines U hU E hE level k c.text).2 _ hp
  refine ⟨s, r, h1, ?_⟩
  have hl := numeral_const hR hf p1
  have hr := numeral_const hR hg p3
  simp only [semPolicy, sem, semOperand] at h2 h3
  have err : ∀ {e : PyExc}, r.map (resultDen E) = .error e → r = .error e := by
    intro e h
    cases r with
    | error x => simpa [Except.map] using h
    | ok x => cases h
  by_cases hf0 : f = .fin 0
  · rw [if_pos hf0] at hl
    rw [if_pos (.inl hf0)]
    simp only [hl, Eff.fail, Eff.bind, outcome] at h2 h3
    exact ⟨h2, _, err h3⟩
  rw [if_neg hf0] at hl
  obtain ⟨a, ha, hna⟩ := hl
  by_cases hg0 : g = .fin 0
  · rw [if_pos hg0] at hr
    rw [if_pos (.inr hg0)]
    simp only [ha, hr, Eff.fail, Eff.pure, Eff.bind, outcome, List.nil_append] at h2 h3
    exact ⟨h2, _, err h3⟩
  rw [if_neg hg0] at hr
  obtain ⟨b, hb, hnb⟩ := hr
  rw [if_neg (by simp [hf0, hg0])]
  simp only [ha, hb, Eff.pure, Eff.bind, List.nil_append, semCmp_numbers c.listed (o := ⟨.op, p2, .str c.op.toList⟩) rfl hna hnb] at h2 h3
  refine ⟨h2, ?_⟩
  cases r with
  | error x => cases h3
  | ok x =>
    simp only [Except.map, outcome, Except.ok.injEq] at h3
    rw [resultDen_tri h3]

theorem read_exists (n : Numeral) : ∃ f, n.Read f := by
  unfold Numeral.Read
  cases n.fp with
  | none => exact ⟨_, rfl⟩
  | some s => exact ⟨_, f64_reads _⟩

theorem integer_value {n : Numeral} (h : n.fp = none) : ∃ i : ℤ, n.value = i := by
  refine ⟨if n.neg then -(decimalValue n.ip : ℤ) else decimalValue n.ip, ?_⟩
  unfold Numeral.value
  rw [h]
  cases n.neg <;> simp

theorem tame_read {n : Numeral} (h : n.Tame) {f : PyFloat} (hf : n.Read f) : f = f64 n.value := by
  unfold Numeral.Read at hf
  cases hp : n.fp with
  | none =>
    rw [hp] at hf
    have h1 := h hp
    obtain ⟨i, hi⟩ := integer_value hp
    rw [hi] at h1 hf ⊢
    rw [hf, f64_exact (binary64_int (by exact_mod_cast h1))]
  | some s =>
    rw [hp] at hf
    exact reads64_iff.1 hf

/-- What verdicts about numbers read tell about the numbers. -/
theorem verdict_sound {op : String} {h : ℚ → ℚ → Bool} (hop : (op, h) ∈ comparisons) {q r : ℚ} :
    (op ∈ ["<", ">", "!="] → extended h (f64 q) (f64 r) = true → h q r = true) ∧
    (op ∈ ["=", "<=", ">="] → extended h (f64 q) (f64 r) = false → h q r = false) := by
  have lt : ∀ a b : ℚ, extended (fun a b => decide (a < b)) (f64 a) (f64 b) = true → a < b := by
    intro a b hab
    by_contra hc
    have := f64_mono (not_lt.1 hc)
    generalize f64 a = f at *
    generalize f64 b = g at *
    rcases f with q | m <;> rcases g with r | n <;> simp_all [numLt, extended] <;> (try cases m) <;> (try cases n) <;> simp_all <;> linarith
  have flip : ∀ f g, extended (fun a b => decide (a > b)) f g = extended (fun a b => decide (a < b)) g f := by
    intro f g
    rcases f with q | m <;> rcases g with r | n <;> simp [extended] <;> (try cases m) <;> (try cases n) <;> (try simp)
  have le : ∀ f g, extended (fun a b => decide (a ≤ b)) f g = !extended (fun a b => decide (a < b)) g f := by
    intro f g
    rcases f with q | m <;> rcases g with r | n <;> simp [extended] <;> (try cases m) <;> (try cases n) <;> (try simp) <;> (rw [← decide_not]; simp)
  have ge : ∀ f g, extended (fun a b => decide (a ≥ b)) f g = !extended (fun a b => decide (a < b)) f g := by
    intro f g
    rcases f with q | m <;> rcases g with r | n <;> simp [extended] <;> (try cases m) <;> (try cases n) <;> (try simp) <;> (rw [← decide_not]; simp)
  have same : ∀ f, extended (fun a b => decide (a = b)) f f = true := by
    intro f; cases f <;> simp [extended]
  have ne : ∀ f g, extended (fun a b => decide (a ≠ b)) f g = !extended (fun a b => decide (a = b)) f g := by
    intro f g
    rcases f with q | m <;> rcases g with r | n <;> simp [extended] <;> (try cases m) <;> (try cases n) <;> (try simp)
  simp only [comparisons, List.mem_cons, Prod.mk.injEq, List.not_mem_nil, or_false] at hop
  rcases hop with ⟨rfl, rfl⟩ | ⟨rfl, rfl⟩ | ⟨rfl, rfl⟩ | ⟨rfl, rfl⟩ | ⟨rfl, rfl⟩ | ⟨rfl, rfl⟩
  · refine ⟨fun h => absurd h (by decide), fun _ h => ?_⟩
    rw [decide_eq_false_iff_not]
    rintro rfl
    rw [same] at h; cases h
  · refine ⟨fun _ h => ?_, fun h => absurd h (by decide)⟩
    rw [decide_eq_true_eq]
    rintro rfl
    rw [ne, same] at h; cases h
  · exact ⟨fun _ h => decide_eq_true (lt _ _ h), fun h => absurd h (by decide)⟩
  · refine ⟨fun _ h => ?_, fun h => absurd h (by decide)⟩
    rw [flip] at h
    exact decide_eq_true (lt _ _ h)
  · refine ⟨fun h => absurd h (by decide), fun _ h => ?_⟩
    rw [le, Bool.not_eq_false'] at h
    exact decide_eq_false (not_le.2 (lt _ _ h))
  · refine ⟨fun h => absurd h (by decide), fun _ h => ?_⟩
    rw [ge, Bool.not_eq_false'] at h
    exact decide_eq_false (not_le.2 (lt _ _ h))

/-- Fifteen digits are enough for all verdicts to be right. -/
theorem verdict_exact {op : String} {h : ℚ → ℚ → Bool} (hop : (op, h) ∈ comparisons) {q r : ℚ} (hq : FifteenDigits q)
    (hr : FifteenDigits r) (hq' : |q| < overflow64) (hr' : |r| < overflow64) : extended h (f64 q) (f64 r) = h q r := by
  have hfin : ∀ x : ℚ, |x| < overflow64 → ∃ y, f64 x = .fin y := by
    intro x hx
    have := f64_reads x
    rw [abs_lt] at hx
    generalize f64 x = f at this
    cases this with
    | near _ _ => exact ⟨_, rfl⟩
    | high g => linarith
    | low g => linarith
  obtain ⟨y, hy⟩ := hfin q hq'
  obtain ⟨z, hz⟩ := hfin r hr'
  have h1 : y = z → q = r := by
    rintro rfl
    exact f64_apart hq hr hq' hr' (hy.trans hz.symm)
  have h2 : q = r → y = z := by
    rintro rfl
    rw [hy] at hz; cases hz; rfl
  have h3 : q ≤ r → y ≤ z := by
    intro h
    have := f64_mono h
    rw [hy, hz] at this
    simpa [numLt] using this
  have h4 : r ≤ q → z ≤ y := by
    intro h
    have := f64_mono h
    rw [hy, hz] at this
    simpa [numLt] using this
  have e1 : y = z ↔ q = r := ⟨h1, h2⟩
  have e2 : y ≤ z ↔ q ≤ r := by
    refine ⟨fun h => ?_, h3⟩
    by_contra hc
    have := h4 (not_le.1 hc).le
    have := h1 (le_antisymm h this)
    exact hc this.le
  have e3 : z ≤ y ↔ r ≤ q := by
    refine ⟨fun h => ?_, h4⟩
    by_contra hc
    have := h3 (not_le.1 hc).le
    have := h1 (le_antisymm this h)
    exact hc this.ge
  rw [hy, hz]
  simp only [extended]
  simp only [comparisons, List.mem_cons, Prod.mk.injEq, List.not_mem_nil, or_false] at hop
  rcases hop with ⟨_, rfl⟩ | ⟨_, rfl⟩ | ⟨_, rfl⟩ | ⟨_, rfl⟩ | ⟨_, rfl⟩ | ⟨_, rfl⟩
  · simp only [e1]
  · simp only [ne_eq, e1]
  · simp only [← not_le, e3]
  · simp only [gt_iff_lt, ← not_le, e2]
  · simp only [e2]
  · simp only [ge_iff_le, e3]

/-- C136: strict verdicts about decimal numbers, and integers of at most 2^53, are right: rounding can make numbers equal but not swap
them. -/
theorem numbers_sound {U : Uni} (hU : U.Lawful) (hR : U.roundF = f64) (E : SymEnv) (hE : SymEnv.SetsOk E) (level : Option Int)
    (k : Nat) (c : Comparison U) (hl : c.left.Tame) (hr : c.right.Tame) {s : Interp} {t : Tri}
    (h : evaluateText U E level k c.text = .ok (s, .ok (.tri t))) :
    (c.op ∈ ["<", ">", "!="] → t = .true → c.holds c.left.value c.right.value = true) ∧
    (c.op ∈ ["=", "<=", ">="] → t = .false → c.holds c.left.value c.right.value = false) := by
  obtain ⟨f, hf⟩ := read_exists c.left
  obtain ⟨g, hg⟩ := read_exists c.right
  obtain ⟨s', r, h1, _, h3⟩ := numbers_compared hU hR E hE level k c hf hg
  rw [h] at h1
  cases h1
  by_cases h0 : f = .fin 0 ∨ g = .fin 0
  · rw [if_pos h0] at h3
    obtain ⟨_, h3⟩ := h3
    cases h3
  rw [if_neg h0] at h3
  simp only [Except.ok.injEq, Res.tri.injEq] at h3
  rw [tame_read hl hf, tame_read hr hg] at h3
  subst h3
  have hv := verdict_sound c.listed (q := c.left.value) (r := c.right.value)
  refine ⟨fun ho ht => hv.1 ho ?_, fun ho ht => hv.2 ho ?_⟩
  · cases hx : extended c.holds (f64 c.left.value) (f64 c.right.value) with
    | true => rfl
    | false => rw [hx] at ht; cases ht
  · cases hx : extended c.holds (f64 c.left.value) (f64 c.right.value) with
    | false => rfl
    | true => rw [hx] at ht; cases ht

theorem fifteen_zero : FifteenDigits 0 := ⟨⟨0, 0, by norm_num, by norm_num⟩, .inl rfl⟩

/-- C136: all verdicts about numbers of at most fifteen significant digits are right. -/
theorem numbers_exact {U : Uni} (hU : U.Lawful) (hR : U.roundF = f64) (E : SymEnv) (hE : SymEnv.SetsOk E) (level : Option Int)
    (k : Nat) (c : Comparison U) (hl : c.left.Tame) (hr : c.right.Tame) (hl0 : c.left.value ≠ 0) (hr0 : c.right.value ≠ 0)
    (hl15 : FifteenDigits c.left.value) (hr15 : FifteenDigits c.right.value)
    (hlo : |c.left.value| < overflow64) (hro : |c.right.value| < overflow64) :
    ∃ s, evaluateText U E level k c.text = .ok (s, .ok (.tri (truthOf (c.holds c.left.value c.right.value)))) ∧ s.warnings = [] := by
  obtain ⟨f, hf⟩ := read_exists c.left
  obtain ⟨g, hg⟩ := read_exists c.right
  obtain ⟨s', r, h1, h2, h3⟩ := numbers_compared hU hR E hE level k c hf hg
  rw [tame_read hl hf, tame_read hr hg] at h3
  have z0 : f64 0 = .fin 0 := by rw [f64, if_pos rfl]
  have h0 : ¬ (f64 c.left.value = .fin 0 ∨ f64 c.right.value = .fin 0) := by
    rintro (h | h)
    · exact hl0 (f64_apart hl15 fifteen_zero hlo (by rw [abs_zero]; exact overflow64_pos) (h.trans z0.symm))
    · exact hr0 (f64_apart hr15 fifteen_zero hro (by rw [abs_zero]; exact overflow64_pos) (h.trans z0.symm))
  rw [if_neg h0, verdict_exact c.listed hl15 hr15 hlo hro] at h3
  exact ⟨s', h3 ▸ h1, h2⟩

/-- The number of digits written. -/
def numeralDigits (n : Numeral) : ℕ := n.ip.length + (n.fp.getD []).length

theorem decimalValue_lt (s : Str) (h : ∀ c ∈ s, Digit c) : decimalValue s < 10 ^ s.length := by
  induction s with
  | nil => simp [decimalValue]
  | cons c s ih =>
    have e : decimalValue (c :: s) = s.foldl (fun n c => 10 * n + (c.toNat - '0'.toNat)) (10 * 0 + (c.toNat - '0'.toNat)) := rfl
    have h1 := ih fun d hd => h d (by simp [hd])
    have h2 := (h c (by simp)).2
    have e0 : '0'.toNat = 48 := by decide
    have e9 : '9'.toNat = 57 := by decide
    rw [e, foldl_digits, Nat.mul_zero, Nat.zero_add, List.length_cons, pow_succ]
    have : c.toNat - '0'.toNat ≤ 9 := by omega
    nlinarith [Nat.mul_le_mul_right (10 ^ s.length) this]

theorem short_fifteen {n : Numeral} (hn : n.WF) (h : numeralDigits n ≤ 15) :
    n.Tame ∧ FifteenDigits n.value ∧ |n.value| < overflow64 := by
  obtain ⟨neg, ip, fp⟩ := n
  obtain ⟨h1, h2, h3⟩ := hn
  simp only [numeralDigits] at h
  have key : ∃ (m : ℕ) (j : ℕ), m < 10 ^ 15 ∧ j ≤ 15 ∧ |(Numeral.mk neg ip fp).value| = m / 10 ^ j ∧
      (Numeral.mk neg ip fp).value = ((if neg then -(m : ℤ) else m : ℤ) : ℚ) * 10 ^ (-(j : ℤ)) := by
    have hp := decimalValue_lt ip h2
    have sgn : ∀ x : ℚ, 0 ≤ x → |(if neg then -1 else 1) * x| = x := by
      intro x hx; cases neg <;> simp [abs_of_nonneg hx]
    cases fp with
    | none =>
      simp only [Option.getD_none, List.length_nil, Nat.add_zero] at h
      refine ⟨decimalValue ip, 0, lt_of_lt_of_le hp (Nat.pow_le_pow_right (by norm_num) h), by norm_num, ?_, ?_⟩
      · simp only [Numeral.value, add_zero, pow_zero, div_one]
        exact sgn _ (by positivity)
      · simp only [Numeral.value, add_zero]
        cases neg <;> simp
    | some s =>
      simp only [Option.getD_some] at h
      obtain ⟨_, h5⟩ := h3 s rfl
      have hs := decimalValue_lt s h5
      have e10 : (0 : ℚ) < 10 ^ s.length := by positivity
      refine ⟨decimalValue ip * 10 ^ s.length + decimalValue s, s.length, ?_, by omega, ?_, ?_⟩
      · have : 10 ^ (ip.length + s.length) ≤ 10 ^ 15 := Nat.pow_le_pow_right (by norm_num) h
        rw [pow_add] at this
        have : (decimalValue ip + 1) * 10 ^ s.length ≤ 10 ^ ip.length * 10 ^ s.length := Nat.mul_le_mul_right _ hp
        linarith
      · simp only [Numeral.value]
        rw [sgn _ (by positivity)]
        push_cast
        field_simp
      · simp only [Numeral.value, zpow_neg, zpow_natCast]
        cases neg <;> simp <;> field_simp <;> ring
  obtain ⟨m, j, hm, hj, ha, hv⟩ := key
  have hm' : (m : ℚ) < 10 ^ 15 := by exact_mod_cast hm
  have hlt : |(Numeral.mk neg ip fp).value| < 10 ^ 15 := by
    rw [ha]
    exact lt_of_le_of_lt (div_le_self (by positivity) (one_le_pow₀ (by norm_num))) hm'
  refine ⟨fun _ => ?_, ⟨⟨_, _, ?_, hv⟩, ?_⟩, ?_⟩
  · have : (10 : ℚ) ^ 15 ≤ 2 ^ 53 := by norm_num
    linarith
  · cases neg <;> simp <;> exact_mod_cast hm
  · by_cases h0 : m = 0
    · left
      rw [hv, h0]; cases neg <;> simp
    · right
      rw [ha]
      have h1 : (1 : ℚ) ≤ m := by exact_mod_cast Nat.one_le_iff_ne_zero.2 h0
      calc (1 : ℚ) / 2 ^ 1022 ≤ 1 / 10 ^ 15 := by
            apply one_div_le_one_div_of_le (by positivity)
            calc (10 : ℚ) ^ 15 ≤ 2 ^ 53 := by norm_num
              _ ≤ 2 ^ 1022 := pow_le_pow_right₀ (by norm_num) (by norm_num)
        _ ≤ 1 / 10 ^ j := by
            apply one_div_le_one_div_of_le (by positivity)
            exact pow_le_pow_right₀ (by norm_num) hj
        _ ≤ m / 10 ^ j := by gcongr
  · refine lt_trans hlt ?_
    unfold overflow64
    calc (10 : ℚ) ^ 15 ≤ 2 ^ 54 - 1 := by norm_num
      _ = (2 ^ 54 - 1) * 1 := by ring
      _ < (2 ^ 54 - 1) * 2 ^ 970 := by
          apply mul_lt_mul_of_pos_left (one_lt_pow₀ (by norm_num) (by norm_num)) (by norm_num)

/-- C136: a policy that compares two numbers, other than zero, of at most fifteen digits answers as the numbers compare. -/
theorem short_numbers {U : Uni} (hU : U.Lawful) (hR : U.roundF = f64) (E : SymEnv) (hE : SymEnv.SetsOk E) (level : Option Int)
    (k : Nat) (c : Comparison U) (hl : numeralDigits c.left ≤ 15) (hr : numeralDigits c.right ≤ 15)
    (hl0 : c.left.value ≠ 0) (hr0 : c.right.value ≠ 0) :
    ∃ s, evaluateText U E level k c.text = .ok (s, .ok (.tri (truthOf (c.holds c.left.value c.right.value)))) ∧ s.warnings = [] := by
  obtain ⟨a1, a2, a3⟩ := short_fifteen c.leftOk hl
  obtain ⟨b1, b2, b3⟩ := short_fifteen c.rightOk hr
  exact numbers_exact hU hR E hE level k c a1 b1 hl0 hr0 a2 b2 a3 b3

/-- C136: verdicts about integers, other than zero, are right, however large. -/
theorem integers_exact {U : Uni} (hU : U.Lawful) (hR : U.roundF = f64) (E : SymEnv) (hE : SymEnv.SetsOk E) (level : Option Int)
    (k : Nat) (c : Comparison U) (hl : c.left.fp = none) (hr : c.right.fp = none) (hl0 : c.left.value ≠ 0) (hr0 : c.right.value ≠ 0) :
    ∃ s, evaluateText U E level k c.text = .ok (s, .ok (.tri (truthOf (c.holds c.left.value c.right.value)))) ∧ s.warnings = [] := by
  obtain ⟨s', r, h1, h2, h3⟩ := numbers_compared hU hR E hE level k c (f := .fin c.left.value) (g := .fin c.right.value)
    (by unfold Numeral.Read; rw [hl]) (by unfold Numeral.Read; rw [hr])
  rw [if_neg (by simp [hl0, hr0])] at h3
  simp only [extended] at h3
  exact ⟨s', h3 ▸ h1, h2⟩

/-! ### Attributes and numbers -/

theorem stands_number {A : Atts} {v : Operand} {q : ℚ} (h : Stands A v q) :
    ∃ d, semOperand A v = ([], .ok d) ∧ d.number = some (f64 q) := by
  cases h with
  | int h1 h2 h3 h4 =>
    rename_i t i
    refine ⟨.const (.int i), ?_, ?_⟩
    · simp only [semOperand, constOf, h1, h2, reduceCtorEq, if_false, h3, Eff.pure]
    · simp only [Den.number, Scalar.num, f64_exact (binary64_int h4)]
  | float h1 h2 h3 h4 =>
    rename_i t f
    refine ⟨.const (.flt f), ?_, ?_⟩
    · simp only [semOperand, constOf, h1, h2, reduceCtorEq, if_false, h3, Eff.pure]
    · simp only [Den.number, Scalar.num, reads64_iff.1 h4]
  | att h1 h2 h3 h4 =>
    rename_i t ty x f
    rw [reads64_iff] at h4
    subst h4
    have hd : valueDen (.sc x) = .single x := by
      cases x <;> first | rfl | cases h3
    refine ⟨.single x, ?_, h3⟩
    simp only [semOperand, semAtt, h1]
    cases x <;> first | cases h3 | (simp only [h2, if_true, hd])

/-- C136: the same with attributes: if each operand is the reading of a number, the answer is TRUE or FALSE without
warnings, strict verdicts are right, and all are if the numbers have at most fifteen significant digits. -/
theorem operands_compared {U : Uni} (hU : U.Lawful) (E : SymEnv) (hE : SymEnv.SetsOk E) (level : Option Int) (k : Nat) {text : Str}
    {v w : Operand} {o : Token} {op : String} {h : ℚ → ℚ → Bool} (hp : PolicyOf U text (.cmp v o w)) (hop : (op, h) ∈ comparisons)
    (ho : o.value = .str op.toList) {q r : ℚ} (hv : Stands (attsOf U E) v q) (hw : Stands (attsOf U E) w r) :
    ∃ s b, evaluateText U E level k text = .ok (s, .ok (.tri (truthOf b))) ∧ s.warnings = [] ∧
      (op ∈ ["<", ">", "!="] → b = true → h q r = true) ∧ (op ∈ ["=", "<=", ">="] → b = false → h q r = false) ∧
      (FifteenDigits q → FifteenDigits r → |q| < overflow64 → |r| < overflow64 → b = h q r) := by
  obtain ⟨s, x, h1, h2, h3⟩ := (evaluate_refines U hU E hE level k text).2 _ hp
  obtain ⟨a, ha, hna⟩ := stands_number hv
  obtain ⟨b, hb, hnb⟩ := stands_number hw
  simp only [semPolicy, sem, ha, hb, Eff.bind, List.nil_append, semCmp_numbers hop ho hna hnb] at h2 h3
  have hvs := verdict_sound hop (q := q) (r := r)
  refine ⟨s, extended h (f64 q) (f64 r), ?_, h2, hvs.1, hvs.2, fun a b c d => verdict_exact hop a b c d⟩
  rw [h1]
  cases x with
  | error e => cases h3
  | ok y =>
    simp only [Except.map, outcome, Except.ok.injEq] at h3
    rw [resultDen_tri h3]

/-! ### Cases -/

theorem cpythonUni_lawful : cpythonUni.Lawful := { asciiUni_lawful with }

/-- No attributes. -/
def bareEnv : SymEnv := ⟨{}, fun _ => Symbol.new cpythonUni [] none none (.sc .none)⟩

/-- The verdict on a policy. -/
def verdict (text : Str) : Option Res :=
  match evaluateText cpythonUni bareEnv none 0 text with
  | .ok (_, .ok r) => some r
  | _ => none

/-- Distinct decimal numbers can be read as the same number. -/
theorem read_alike : verdict "0.1 = 0.10000000000000001".toList = some (.tri .true) ∧
    verdict "9007199254740992.0 >= 9007199254740993.0".toList = some (.tri .true) := by decide +kernel

/-- An integer above 2^53 can be told larger than a larger decimal number, and different from an equal one. -/
theorem integer_swapped : verdict "18014398509481985 > 18014398509481985.5".toList = some (.tri .true) ∧
    verdict "9007199254740993 != 9007199254740993.0".toList = some (.tri .true) := by decide +kernel

/-- A number too small is read as zero, which is refused; two too large are equal. -/
theorem read_extremes : verdict ("0.".toList ++ List.replicate 324 '0' ++ "1 > -1".toList) = none ∧
    verdict (List.replicate 310 '9' ++ ".0 = 1".toList ++ List.replicate 309 '0' ++ ".5".toList) = some (.tri .true) := by decide +kernel

/-- `-2.50<19.99`, with the white space of Python strings. -/
def sampleComparison : Comparison cpythonUni where
  left := ⟨true, ['2'], some ['5', '0']⟩
  right := ⟨false, ['1', '9'], some ['9', '9']⟩
  op := "<"
  holds := fun a b => decide (a < b)
  listed := by simp [comparisons]
  s1 := []
  s2 := []
  s3 := []
  s4 := ['\n']
  spaces := by decide
  leftOk := ⟨by simp, by decide, fun s h => by cases h; decide⟩
  rightOk := ⟨by simp, by decide, fun s h => by cases h; decide⟩
  limit := fun m h => by
    have : m = 4300 := by
      simp only [cpythonUni, Option.some.injEq] at h
      omega
    subst this
    decide

/-- `short_numbers`, and with it `numbers_exact` and `numbers_compared`: a comparison. -/
example : verdict sampleComparison.text = some (.tri .true) := by
  have hl : sampleComparison.left.value = -5 / 2 := by decide +kernel
  have hr : sampleComparison.right.value = 1999 / 100 := by decide +kernel
  obtain ⟨s, h, _⟩ := short_numbers cpythonUni_lawful rfl bareEnv (fun r l h => by cases h) none 0 sampleComparison (by decide) (by decide)
    (by rw [hl]; norm_num) (by rw [hr]; norm_num)
  rw [hl, hr, show truthOf (sampleComparison.holds (-5 / 2) (1999 / 100)) = .true by decide +kernel] at h
  unfold verdict
  rw [h]

example : sampleComparison.text = "-2.50<19.99\n".toList := by decide

/-- `operands_compared`: `user.cost >= 0.10` about a cost written as 0.1. -/
def costEnv : SymEnv :=
  ⟨⟨[("user.cost".toList, 0)]⟩, fun _ => Symbol.new cpythonUni "cost".toList none (some .float) (.sc (.atom (.flt (f64 (1 / 10)))))⟩

def costToken : Token := ⟨.usrAtt, 0, .str "cost".toList⟩
def costOp : Token := ⟨.op, 10, .str ">=".toList⟩
def costLimit : Token := ⟨.float, 13, .flt (f64 (1 / 10))⟩

theorem cost_policyOf : PolicyOf cpythonUni "user.cost >= 0.10".toList (.cmp (.att costToken) costOp (.atom costLimit)) := by
  have h : lexTokens cpythonUni "user.cost >= 0.10".toList = .ok (⟨.start, 0, .none⟩ :: (([costToken] ++ costOp :: [costLimit]) ++
      [⟨.«end», 17, .none⟩])) := by decide +kernel
  obtain ⟨ts, h1, h2⟩ := (lexer_refines_grammar cpythonUni cpythonUni_lawful _ _).1 h
  simp only [List.cons.injEq, true_and] at h1
  subst h1
  exact ⟨_, _, h2, .term (.exp (.cmp (.att (by decide)) rfl (.atom (by decide))))⟩

example : Stands (attsOf cpythonUni costEnv) (.att costToken) (1 / 10) ∧ Stands (attsOf cpythonUni costEnv) (.atom costLimit) (1 / 10) ∧
    FifteenDigits (1 / 10) ∧ |(1 / 10 : ℚ)| < overflow64 := by
  refine ⟨.att (ty := .float) (x := .atom (.flt (f64 (1 / 10)))) (by decide +kernel) (by rfl) rfl (f64_reads _),
    .float rfl rfl (by decide +kernel) (f64_reads _),
    ⟨⟨1, -1, by norm_num, by norm_num⟩, .inr ?_⟩, ?_⟩
  · rw [abs_of_pos (by norm_num)]
    apply one_div_le_one_div_of_le (by norm_num)
    calc (10 : ℚ) ≤ 2 ^ 4 := by norm_num
      _ ≤ 2 ^ 1022 := pow_le_pow_right₀ (by norm_num) (by norm_num)
  · rw [abs_of_pos (by norm_num)]
    unfold overflow64
    calc (1 / 10 : ℚ) < (2 ^ 54 - 1) * 1 := by norm_num
      _ ≤ (2 ^ 54 - 1) * 2 ^ 970 := mul_le_mul_of_nonneg_left (one_le_pow₀ (by norm_num)) (by norm_num)

end Verif.Props
