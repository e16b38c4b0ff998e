import Verif.Spec.NodeCount
import Verif.Proofs.NodeCount
import Verif.Props.AST
import Verif.Props.Encoder
import Verif.Props.Lexer
import Verif.Proofs.InterpText
/-!
# Node ids over the life of a process
-/

namespace Verif.Props
open Verif Spec Proofs

/-! ### Parsing -/

theorem lexeme_length {U : Uni} {w : Str} {ty : TokenType} {v : TVal} {nx : Option Char} (h : Lexeme U w ty v nx) : 0 < w.length := by
  rw [List.length_pos_iff]
  cases h with
  | punct w ty v nx h =>
    simp only [punctuation, List.mem_cons, Prod.mk.injEq, List.not_mem_nil, or_false] at h
    rcases h with ⟨rfl, _⟩ | ⟨rfl, _⟩ | ⟨rfl, _⟩ | ⟨rfl, _⟩ | ⟨rfl, _⟩ | ⟨rfl, _⟩ | ⟨rfl, _⟩ | ⟨rfl, _⟩ | ⟨rfl, _⟩ <;> decide
  | gt nx h => simp
  | lt nx h => simp
  | string body nx h => simp
  | int neg ds n nx hne hd hv hl hx => simp [hne]
  | float neg ip fp a b nx hi hf hdi hdf ha hb hx => simp
  | att pre ident kw ty nx hc hp hne hid hx => simp
  | keyword w kw ty v nx hk hw hx =>
    rintro rfl
    simp only [keywords, List.mem_cons, Prod.mk.injEq, List.not_mem_nil, or_false] at hk
    rcases hk with ⟨rfl, _⟩ | ⟨rfl, _⟩ | ⟨rfl, _⟩ | ⟨rfl, _⟩ | ⟨rfl, _⟩ | ⟨rfl, _⟩ | ⟨rfl, _⟩ | ⟨rfl, _⟩ | ⟨rfl, _⟩ <;>
      exact absurd hw (by unfold Spells; decide)

theorem tokenizes_length {U : Uni} {text : Str} {pos : Nat} {ts : List Token} (h : Tokenizes U text pos ts) :
    (ts.filter realTok).length ≤ text.length := by
  induction h with
  | done ws pos h => simp [realTok]
  | tok ws w rest pos ty v toks h hw hr ih =>
    have := lexeme_length hw
    rw [List.filter_cons]
    split <;> simp only [List.length_cons, List.length_append] <;> omega

/-- The outcome of a parse that is counted: with `none` for exceptions of which the counter is forgotten. -/
def uncounted {α : Type} : Counted α → Except PyExc α
  | .ok a => .ok a
  | .error (e, _) => .error e

/-- C137: parsing with the counter has the outcome of parsing; the counter never falls, and grows by at most the number of characters
of the text, also when parsing fails. -/
theorem parse_counted {U : Uni} (hU : U.Lawful) (k : Nat) (text : Str) :
    uncounted (parseTextC U k text) = parseText U k text ∧ k ≤ (parseTextC U k text).next ∧
    (parseTextC U k text).next ≤ k + text.length := by
  unfold parseTextC parseText
  cases hl : lexTokens U text with
  | error e => exact ⟨rfl, Nat.le_refl _, Nat.le_add_right _ _⟩
  | ok toks =>
    obtain ⟨ts, rfl, ht⟩ := (lexer_refines_grammar U hU text toks).1 hl
    show uncounted (parseTokensC U k (⟨.start, 0, .none⟩ :: ts)) = parseTokens U k (⟨.start, 0, .none⟩ :: ts) ∧
      k ≤ (parseTokensC U k (⟨.start, 0, .none⟩ :: ts)).next ∧ (parseTokensC U k (⟨.start, 0, .none⟩ :: ts)).next ≤ k + text.length
    unfold parseTokensC parseTokens
    have hp : potential ⟨⟨.start, 0, .none⟩ :: ts, k⟩ ≤ k + text.length := by
      have := tokenizes_length ht
      unfold potential
      rw [List.filter_cons]
      simpa [realTok] using this
    have hA := countAgrees_parse U ⟨⟨.start, 0, .none⟩ :: ts, k⟩
    dsimp only at hA ⊢
    generalize PState.parseC U ⟨⟨.start, 0, .none⟩ :: ts, k⟩ = x at hA ⊢
    generalize PState.parse U ⟨⟨.start, 0, .none⟩ :: ts, k⟩ = y at hA ⊢
    cases x with
    | ok p =>
      cases y with
      | error e => exact absurd hA id
      | ok q =>
        obtain ⟨rfl, h2, h3⟩ := hA
        have := le_potential p.2
        exact ⟨rfl, h2, show p.2.nextId ≤ _ by omega⟩
    | error p =>
      cases y with
      | ok q => exact absurd hA id
      | error e =>
        obtain ⟨rfl, h2, h3⟩ := hA
        exact ⟨rfl, h2, show p.2 ≤ _ by omega⟩

/-! ### Decoding -/

theorem uncounted_bind {α β : Type} {k : Nat} {x : Except PyExc α} {f : α → Counted β} {g : α → Except PyExc β}
    (h : ∀ a, x = .ok a → uncounted (f a) = g a) : uncounted (counted k x >>= f) = (x >>= g) := by
  cases x with
  | error e => rfl
  | ok a => exact h a rfl

/-- What a record costs: a node that is made takes ten bytes of the input at least. -/
def RecCost (k : Nat) (bs : Bytes) : Counted ((Nat × GNode) × Bytes) → Prop
  | .ok (_, r) => r.length + 10 ≤ bs.length
  | .error (_, j) => j = k ∨ j = k + 1 ∧ 10 ≤ bs.length

theorem recCost_bind {α : Type} {k : Nat} {bs : Bytes} {x : Except PyExc α} {f : α → Counted ((Nat × GNode) × Bytes)}
    (h : ∀ a, x = .ok a → RecCost k bs (f a)) : RecCost k bs (counted k x >>= f) := by
  cases x with
  | error e => exact Or.inl rfl
  | ok a => exact h a rfl

theorem getU_length {k : Nat} {bs r : Bytes} {n : Nat} (h : getU k bs = .ok (n, r)) : bs.length = k + r.length := by
  rw [(getU_ok.1 h).1, List.length_append, packLE_length]

theorem decodeTval_length {nan : PyFloat} {ty size : Nat} {bs r : Bytes} {v : TVal} (h : decodeTval nan ty size bs = .ok (v, r)) :
    r.length ≤ bs.length := by
  unfold decodeTval at h
  dsimp only at h
  have hd : (bs.drop size).length ≤ bs.length := by rw [List.length_drop]; omega
  split at h
  · split at h
    · split at h
      · cases h; exact hd
      · cases h
    · split at h
      · split at h
        · cases h; exact hd
        · cases h
      · split at h
        · split at h
          · cases h; exact hd
          · cases h
        · cases h
  · cases h; exact Nat.le_refl _

theorem decodeIds_length {n : Nat} {bs r : Bytes} {is : List Nat} (h : decodeIds n bs = .ok (is, r)) : r.length ≤ bs.length := by
  obtain ⟨_, _, rfl⟩ := decodeIds_ok.1 h
  simp

theorem decodeRec_counted (U : Uni) (nan : PyFloat) (k : Nat) (bs : Bytes) :
    uncounted (decodeRecC U nan k bs) = decodeRec U nan bs ∧ RecCost k bs (decodeRecC U nan k bs) := by
  unfold decodeRecC decodeRec
  constructor
  · iterate 11 refine uncounted_bind fun a _ => ?_
    rfl
  · refine recCost_bind fun ⟨a1, r1⟩ h1 => ?_
    refine recCost_bind fun ⟨a2, r2⟩ h2 => ?_
    refine recCost_bind fun ⟨a3, r3⟩ h3 => ?_
    refine recCost_bind fun ⟨a4, r4⟩ h4 => ?_
    refine recCost_bind fun ⟨a5, r5⟩ h5 => ?_
    refine recCost_bind fun ⟨a6, r6⟩ h6 => ?_
    refine recCost_bind fun ⟨a7, r7⟩ h7 => ?_
    refine recCost_bind fun ⟨a8, r8⟩ h8 => ?_
    refine recCost_bind fun ty _ => ?_
    refine recCost_bind fun kind _ => ?_
    have h := getU_length h1
    have := getU_length h2
    have := getU_length h3
    have := getU_length h4
    have := getU_length h5
    have := getU_length h6
    have := decodeTval_length h7
    have := decodeIds_length h8
    dsimp only
    cases initRes U kind ⟨ty, a4, a7⟩ with
    | error e => exact Or.inr ⟨rfl, by omega⟩
    | ok res => show r8.length + 10 ≤ bs.length; omega

theorem decodeRecs_counted (U : Uni) (nan : PyFloat) (n k : Nat) (bs : Bytes) (d : IdDict) :
    match decodeRecsC U nan n k bs d with
    | .ok (d', k') => decodeRecs U nan n bs d = .ok d' ∧ k' = k + n ∧ 10 * n ≤ bs.length
    | .error (e, j) => decodeRecs U nan n bs d = .error e ∧ k ≤ j ∧ j ≤ k + n ∧ 10 * (j - k) ≤ bs.length := by
  induction n generalizing k bs d with
  | zero => exact ⟨rfl, rfl, by omega⟩
  | succ n ih =>
    have h := decodeRec_counted U nan k bs
    rw [decodeRecsC, decodeRecs]
    cases hx : decodeRecC U nan k bs with
    | error p =>
      obtain ⟨e, j⟩ := p
      rw [hx] at h
      rw [← h.1]
      refine ⟨rfl, ?_⟩
      rcases h.2 with rfl | ⟨rfl, h3⟩ <;> omega
    | ok p =>
      obtain ⟨⟨i, x⟩, r⟩ := p
      rw [hx] at h
      rw [← h.1]
      have h2 : r.length + 10 ≤ bs.length := h.2
      have h3 := ih (k + 1) r (d.put i x)
      show match decodeRecsC U nan n (k + 1) r (d.put i x) with
        | .ok (d', k') => decodeRecs U nan n r (d.put i x) = .ok d' ∧ k' = k + (n + 1) ∧ 10 * (n + 1) ≤ bs.length
        | .error (e, j) => decodeRecs U nan n r (d.put i x) = .error e ∧ k ≤ j ∧ j ≤ k + (n + 1) ∧ 10 * (j - k) ≤ bs.length
      cases hy : decodeRecsC U nan n (k + 1) r (d.put i x) with
      | error p => rw [hy] at h3; obtain ⟨a, b, c, e⟩ := h3; exact ⟨a, by omega, by omega, by omega⟩
      | ok p => rw [hy] at h3; obtain ⟨a, b, c⟩ := h3; exact ⟨a, by omega, by omega⟩

theorem recordCount_header {bs r1 r2 : Bytes} {v num : Nat} (h1 : getU 1 bs = .ok (v, r1)) (h2 : getU 2 r1 = .ok (num, r2)) :
    recordCount bs = num := by
  obtain ⟨rfl, f1⟩ := getU_ok.1 h1
  obtain ⟨rfl, f2⟩ := getU_ok.1 h2
  simp [packLE, recordCount]
  omega

theorem decodePlain_counted (U : Uni) (nan : PyFloat) (k : Nat) (raw : Bytes) :
    (uncounted (astDecodeC U nan k raw false)).map Prod.fst = astDecodeRaw U nan raw ∧
    k ≤ (astDecodeC U nan k raw false).next ∧ (astDecodeC U nan k raw false).next ≤ k + raw.length / 10 ∧
    ∀ g k', astDecodeC U nan k raw false = .ok (g, k') → k' = k + recordCount raw := by
  have he : astDecodeC U nan k raw false = (do
      let (_, r1) ← counted k (getU 1 raw)
      let (num, r2) ← counted k (getU 2 r1)
      let (root, r3) ← counted k (getU 2 r2)
      let (d, k') ← decodeRecsC U nan num k r3 []
      if d.all (fun e => e.2.cids.all (fun c => (d.get c).isSome)) then
        if (d.get root).isSome then return (⟨d, root⟩, k') else .error (.exception "", k')
      else .error (.exception "", k')) := rfl
  rw [he]
  unfold astDecodeRaw
  cases h1 : getU 1 raw with
  | error e => exact ⟨rfl, Nat.le_refl _, Nat.le_add_right _ _, nofun⟩
  | ok p1 =>
  obtain ⟨v, r1⟩ := p1
  dsimp only [counted, Bind.bind, Except.bind]
  cases h2 : getU 2 r1 with
  | error e => exact ⟨rfl, Nat.le_refl _, Nat.le_add_right _ _, nofun⟩
  | ok p2 =>
  obtain ⟨num, r2⟩ := p2
  dsimp only [counted, Bind.bind, Except.bind]
  cases h3 : getU 2 r2 with
  | error e => exact ⟨rfl, Nat.le_refl _, Nat.le_add_right _ _, nofun⟩
  | ok p3 =>
  obtain ⟨root, r3⟩ := p3
  dsimp only [counted, Bind.bind, Except.bind]
  have hc := recordCount_header h1 h2
  have hl1 := getU_length h1
  have hl2 := getU_length h2
  have hl3 := getU_length h3
  have h4 := decodeRecs_counted U nan num k r3 []
  cases hy : decodeRecsC U nan num k r3 [] with
  | error p =>
    obtain ⟨e, j⟩ := p
    rw [hy] at h4
    obtain ⟨h5, h6, h7, h8⟩ := h4
    rw [h5]
    exact ⟨rfl, h6, show j ≤ _ by omega, nofun⟩
  | ok p =>
    obtain ⟨d, k'⟩ := p
    rw [hy] at h4
    obtain ⟨h5, h6, h7⟩ := h4
    rw [h5]
    have hb : k ≤ k' ∧ k' ≤ k + raw.length / 10 := by omega
    dsimp only
    by_cases hd : d.all (fun e => e.2.cids.all (fun c => (d.get c).isSome)) = true
    · rw [if_pos hd, if_pos hd]
      by_cases hr : (d.get root).isSome = true
      · rw [if_pos hr, if_pos hr]
        refine ⟨rfl, hb.1, hb.2, ?_⟩
        intro g j hj
        injection hj with hj
        injection hj with _ hj
        omega
      · rw [if_neg hr, if_neg hr]
        exact ⟨rfl, hb.1, hb.2, nofun⟩
    · rw [if_neg hd, if_neg hd]
      exact ⟨rfl, hb.1, hb.2, nofun⟩

/-- C137: decoding with the counter has the outcome of decoding; every node made takes ten bytes of the input at least; a decoding that
succeeds has made as many nodes as the header of the input announces. -/
theorem decode_counted (U : Uni) (nan : PyFloat) (k : Nat) (bs : Bytes) (b : Bool) :
    (uncounted (astDecodeC U nan k bs b)).map Prod.fst = astDecode U nan bs b ∧
    k ≤ (astDecodeC U nan k bs b).next ∧ (astDecodeC U nan k bs b).next ≤ k + nodeBound (.decode bs b) ∧
    ∀ g k', astDecodeC U nan k bs b = .ok (g, k') → ∃ raw, rawOf bs b = some raw ∧ k' = k + recordCount raw := by
  cases b with
  | false =>
    obtain ⟨h1, h2, h3, h4⟩ := decodePlain_counted U nan k bs
    exact ⟨h1, h2, h3, fun g k' h => ⟨bs, rfl, h4 g k' h⟩⟩
  | true =>
    cases hr : b64decode bs with
    | error e =>
      have e1 : astDecodeC U nan k bs true = .error (e, k) := by unfold astDecodeC; dsimp only; rw [if_pos rfl, hr]; rfl
      have e2 : astDecode U nan bs true = .error e := by unfold astDecode; dsimp only; rw [if_pos rfl, hr]; rfl
      rw [e1, e2]
      exact ⟨rfl, Nat.le_refl _, Nat.le_add_right _ _, nofun⟩
    | ok raw =>
      have e1 : astDecodeC U nan k bs true = astDecodeC U nan k raw false := by
        unfold astDecodeC; dsimp only; rw [if_pos rfl, hr]; rfl
      have e2 : astDecode U nan bs true = astDecodeRaw U nan raw := by unfold astDecode; dsimp only; rw [if_pos rfl, hr]; rfl
      have e3 : rawOf bs true = some raw := by unfold rawOf; dsimp only; rw [hr]
      unfold nodeBound
      dsimp only
      rw [e1, e2, e3]
      obtain ⟨h1, h2, h3, h4⟩ := decodePlain_counted U nan k raw
      exact ⟨h1, h2, h3, fun g k' h => ⟨raw, rfl, h4 g k' h⟩⟩

/-! ### A process -/

/-- The nodes calls can make at most. -/
def totalBound (cs : List NodeCall) : Nat := (cs.map nodeBound).sum

theorem call_next {U : Uni} (hU : U.Lawful) (nan : PyFloat) (k : Nat) (c : NodeCall) :
    k ≤ c.next U nan k ∧ c.next U nan k ≤ k + nodeBound c := by
  cases c with
  | parse text => exact (parse_counted hU k text).2
  | decode bs b => obtain ⟨_, h1, h2, _⟩ := decode_counted U nan k bs b; exact ⟨h1, h2⟩

/-- C137: whatever calls a process makes, succeeding or failing, the counter never falls and grows by no more than what the calls can
make. -/
theorem counter_bounds {U : Uni} (hU : U.Lawful) (nan : PyFloat) (k : Nat) (cs : List NodeCall) :
    k ≤ counterAfter U nan k cs ∧ counterAfter U nan k cs ≤ k + totalBound cs := by
  induction cs generalizing k with
  | nil => exact ⟨Nat.le_refl _, Nat.le_add_right _ _⟩
  | cons c cs ih =>
    have h1 := call_next hU nan k c
    have h2 := ih (c.next U nan k)
    have h3 : totalBound (c :: cs) = nodeBound c + totalBound cs := by simp [totalBound]
    rw [counterAfter, h3]
    omega

/-! ### Encoding -/

theorem lexeme_sized {U : Uni} {w : Str} {ty : TokenType} {v : TVal} {nx : Option Char} (p : Int) (h : Lexeme U w ty v nx) :
    ∃ n, tvalSize ⟨ty, p, v⟩ = .ok n := by
  cases h with
  | punct w ty v nx h =>
    simp only [punctuation, List.mem_cons, Prod.mk.injEq, List.not_mem_nil, or_false] at h
    rcases h with ⟨_, rfl, rfl⟩ | ⟨_, rfl, rfl⟩ | ⟨_, rfl, rfl⟩ | ⟨_, rfl, rfl⟩ | ⟨_, rfl, rfl⟩ | ⟨_, rfl, rfl⟩ | ⟨_, rfl, rfl⟩ |
      ⟨_, rfl, rfl⟩ | ⟨_, rfl, rfl⟩ <;> exact ⟨_, rfl⟩
  | gt nx h => exact ⟨_, rfl⟩
  | lt nx h => exact ⟨_, rfl⟩
  | string body nx h => exact ⟨_, rfl⟩
  | int neg ds n nx hne hd hv hl hx => exact ⟨_, rfl⟩
  | float neg ip fp a b nx hi hf hdi hdf ha hb hx => exact ⟨_, rfl⟩
  | att pre ident kw ty nx hc hp hne hid hx =>
    cases ty <;> exact ⟨_, rfl⟩
  | keyword w kw ty v nx hk hw hx =>
    cases ty <;> exact ⟨_, rfl⟩

/-- Every node of the tree of a text comes from a lexeme of the text. -/
theorem tree_lexemes {U : Uni} (hU : U.Lawful) {k k' : Nat} {text : Str} {n m : Node} (h : parseText U k text = .ok (n, k'))
    (hm : m ∈ preorder n) : ∃ w rest, Lexeme U w m.tok.type m.tok.value rest := by
  unfold parseText at h
  cases hl : lexTokens U text with
  | error e => rw [hl] at h; cases h
  | ok toks =>
    rw [hl] at h
    obtain ⟨mid, h1, h2, -⟩ := token_positions U hU text toks hl
    obtain ⟨mid', h1', h2'⟩ := tokens_bracketed U hU text toks hl
    have hmid : mid' = mid := by
      rw [h1] at h1'
      simp only [List.cons_append, List.cons.injEq, true_and] at h1'
      exact (List.append_cancel_right h1').symm
    subst hmid
    have h' : parseTokens U k toks = .ok (n, k') := h
    rw [h1] at h'
    have htok := parse_tokens U k k' _ _ mid' n rfl rfl (fun t h => (h2' t h).2) h'
    have := (preorder_toks n).mem_iff.1 (List.mem_map_of_mem (f := Node.tok) hm)
    rw [htok, List.mem_filter] at this
    obtain ⟨i, _, _, w, rest, _, hw⟩ := h2 m.tok this.1
    exact ⟨w, _, hw⟩

theorem parseText_ids {U : Uni} {k k' : Nat} {text : Str} {n : Node} (h : parseText U k text = .ok (n, k')) :
    k < k' ∧ postIds n = List.range' k (k' - k) ∧ n.id = k' - 1 := by
  unfold parseText at h
  cases hl : lexTokens U text with
  | error e => rw [hl] at h; cases h
  | ok toks => rw [hl] at h; exact parse_ids U k k' toks n h

/-- C137: a tree one of whose ids has no room in sixteen bits is not encoded: `struct.error`. -/
theorem worn_out {U : Uni} (hU : U.Lawful) {k k' : Nat} {text : Str} {n : Node} (h : parseText U k text = .ok (n, k'))
    (hk : idRoom < k') (b : Bool) : astEncode U n b = .error .structError := by
  obtain ⟨h1, h2, h3⟩ := parseText_ids h
  obtain ⟨w, rest, hw⟩ := tree_lexemes hU h (self_mem_preorder n)
  obtain ⟨sz, hs⟩ := lexeme_sized n.tok.pos hw
  obtain ⟨kd, t, i, r, cs⟩ := n
  have hid : ¬ (0 ≤ (i : Int) ∧ (i : Int) < (256 : Int) ^ 2) := by
    unfold idRoom at hk
    have : i = k' - 1 := h3
    omega
  have hp : packU 2 (i : Int) = .error .structError := by unfold packU; rw [if_neg hid]
  have hs' : tvalSize t = .ok sz := hs
  unfold astEncode
  rw [encodeNode, encodeRec, hs', hp]
  rfl

/-- C137: a process whose counter has reached 65536 encodes no policy it parses any more, whatever it has done in between. -/
theorem never_again {U : Uni} (hU : U.Lawful) (nan : PyFloat) {k : Nat} (hk : idRoom ≤ k) (cs : List NodeCall) (text : Str) (n : Node)
    (k' : Nat) (h : parseText U (counterAfter U nan k cs) text = .ok (n, k')) (b : Bool) :
    astEncode U n b = .error .structError := by
  have h1 := (counter_bounds hU nan k cs).1
  have h2 := (parseText_ids h).1
  exact worn_out hU h (by omega) b

/-- C137: as long as the calls of a process cannot have made 65536 nodes, ids are no obstacle: a policy text survives encoding and decoding
exactly if its literals and names do. -/
theorem still_room {U : Uni} (hU : U.Lawful) (nan : PyFloat) {k : Nat} (cs : List NodeCall) (text : Str)
    (hr : k + totalBound cs + text.length < idRoom) (toks : List Token) (n : Node) (k' : Nat) (hl : lexTokens U text = .ok toks)
    (h : parseText U (counterAfter U nan k cs) text = .ok (n, k')) :
    (∃ bs g, astEncode U n = .ok bs ∧ astDecode U nan bs = .ok g ∧ g.root = n.id ∧ Unfolds g n) ↔ ∀ t ∈ toks, Portable t := by
  have h1 := (counter_bounds hU nan k cs).2
  obtain ⟨h2, _, h3⟩ := parse_counted hU (counterAfter U nan k cs) text
  have hn : (parseTextC U (counterAfter U nan k cs) text).next = k' := by
    rw [h] at h2
    cases hx : parseTextC U (counterAfter U nan k cs) text with
    | error p => rw [hx] at h2; cases h2
    | ok p => rw [hx] at h2; injection h2 with h2; subst h2; rfl
  unfold idRoom at hr
  exact text_round_trip U hU nan _ k' text toks n hl h (by omega) (by omega)

/-- C137: the ids of a decoded tree are those of its encoding, not those of the counter: decoding twice, at whatever values of the counter,
gives trees with the same ids. -/
theorem decoded_ids_repeat (U : Uni) (nan : PyFloat) (k j : Nat) (bs : Bytes) (b : Bool) (g : Graph) (k' : Nat)
    (h : astDecodeC U nan k bs b = .ok (g, k')) : ∃ j', astDecodeC U nan j bs b = .ok (g, j') ∧ k' + j = k + j' := by
  obtain ⟨h1, _, _, h2⟩ := decode_counted U nan k bs b
  obtain ⟨h3, _, _, h4⟩ := decode_counted U nan j bs b
  rw [h] at h1
  rw [← h1] at h3
  cases hx : astDecodeC U nan j bs b with
  | error p => rw [hx] at h3; cases h3
  | ok p =>
    obtain ⟨g', j'⟩ := p
    rw [hx] at h3
    injection h3 with h3
    obtain ⟨raw, e1, e2⟩ := h2 g k' h
    obtain ⟨raw', e3, e4⟩ := h4 g' j' hx
    rw [e1] at e3
    injection e3 with e3
    subst e3
    subst h3
    exact ⟨j', rfl, by omega⟩

/-! ### Concrete cases -/

/-- A policy that is cut off still uses up ids: three for the comparison. -/
theorem failed_parse_counts : (parseTextC asciiUni 7 "user.a = 1 AND".toList).isOk = false ∧
    (parseTextC asciiUni 7 "user.a = 1 AND".toList).next = 10 := by decide +kernel

/-- Nothing is used up if the lexer fails. -/
example : (parseTextC asciiUni 7 "user.a = 1 AND $".toList).next = 7 := by decide +kernel

/-- A process that parses, decodes what it has encoded and parses again. -/
def sampleProcess : List NodeCall := [.parse "user.a = 1".toList, .parse "user.a = 1 AND".toList, .decode exampleBytes false]

example : counterAfter asciiUni (.fin 0) 0 sampleProcess = 3 + 3 + recordCount exampleBytes := by decide +kernel
example : totalBound sampleProcess < idRoom := by decide +kernel

/-- The last tree that can be encoded, and the first that can not. -/
example : ((parseText asciiUni 65533 "user.a = 1".toList).map (fun p => (astEncode asciiUni p.1).isOk)) = .ok true := by decide +kernel
example : ((parseText asciiUni 65534 "user.a = 1".toList).map (fun p => astEncode asciiUni p.1)) = .ok (.error .structError) := by decide +kernel

end Verif.Props
