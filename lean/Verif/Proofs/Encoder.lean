import Verif.Model.Encoder
import Verif.Spec.Encoding
import Verif.Proofs.Float32
/-!
# `ASTEncoder` and its format
-/

namespace Verif.Proofs
open Verif Verif.Spec

/-! ### Numbers of types and classes -/

theorem typeNumber_iff (n : Nat) (t : TokenType) : (n, t) ∈ typeNumber ↔ t.value = n := by
  cases t <;> simp [typeNumber, TokenType.value] <;> exact eq_comm

theorem kindNumber_iff (n : Nat) (k : Kind) : (n, k) ∈ kindNumber ↔ k.value = n := by
  cases k <;> simp [kindNumber, Kind.value] <;> exact eq_comm

theorem typeValue_inj {a b : TokenType} (h : a.value = b.value) : a = b := by
  revert h; cases a <;> cases b <;> decide

theorem kindValue_inj {a b : Kind} (h : a.value = b.value) : a = b := by
  revert h; cases a <;> cases b <;> decide

theorem typeValue_lt (t : TokenType) : t.value < 256 := by cases t <;> decide
theorem kindValue_lt (k : Kind) : k.value < 256 := by cases k <;> decide

theorem ofValue_type (n : Nat) (t : TokenType) : TokenType.ofValue n = .ok t ↔ t.value = n := by
  unfold TokenType.ofValue
  constructor
  · intro h
    split at h
    · rename_i u hu
      injection h with h
      subst h
      have := List.find?_some hu
      simpa using this
    · cases h
  · intro h
    cases hf : TokenType.all.find? (fun t => t.value == n) with
    | none =>
      have := List.find?_eq_none.1 hf t (by cases t <;> decide)
      simp [h] at this
    | some u =>
      have := List.find?_some hf
      have e : u.value = n := by simpa using this
      rw [typeValue_inj (h.trans e.symm)]

theorem ofValue_kind (n : Nat) (k : Kind) : Kind.ofValue n = .ok k ↔ k.value = n := by
  unfold Kind.ofValue
  constructor
  · intro h
    split at h
    · rename_i u hu
      injection h with h
      subst h
      have := List.find?_some hu
      simpa using this
    · split at h
      · cases h
      · split at h <;> cases h
  · intro h
    cases hf : Kind.all.find? (fun t => t.value == n) with
    | none =>
      have := List.find?_eq_none.1 hf k (by cases k <;> decide)
      simp [h] at this
    | some u =>
      have := List.find?_some hf
      have e : u.value = n := by simpa using this
      rw [kindValue_inj (h.trans e.symm)]

/-! ### Encoding -/

theorem forall2_append_split {α β : Type} {R : α → β → Prop} {a b : List α} {l : List β}
    (h : List.Forall₂ R (a ++ b) l) : ∃ x y, List.Forall₂ R a x ∧ List.Forall₂ R b y ∧ l = x ++ y := by
  induction a generalizing l with
  | nil => exact ⟨[], l, .nil, h, rfl⟩
  | cons c a ih =>
    cases h with
    | cons h1 h2 =>
      obtain ⟨x, y, hx, hy, rfl⟩ := ih h2
      exact ⟨_ :: x, y, .cons h1 hx, hy, rfl⟩

theorem packIds_ok {is : List Nat} {bs : Bytes} :
    packIds is = .ok bs ↔ (∀ i ∈ is, i < 65536) ∧ bs = is.flatMap (packLE 2) := by
  induction is generalizing bs with
  | nil => simp [packIds, eq_comm]
  | cons i is ih =>
    simp only [packIds, except_bind_ok, except_pure_ok, packU_ok, ih]
    constructor
    · rintro ⟨a, ⟨n, hn, h1, rfl⟩, b, ⟨h2, rfl⟩, rfl⟩
      have : i = n := by omega
      subst this
      exact ⟨by simpa using ⟨h1, h2⟩, by simp⟩
    · rintro ⟨h1, rfl⟩
      have h1' := List.forall_mem_cons.1 h1
      exact ⟨_, ⟨i, rfl, h1'.1, rfl⟩, _, ⟨h1'.2, rfl⟩, by simp⟩

theorem packI32_ok {i : Int} {bs : Bytes} :
    packI32 i = .ok bs ↔ -2 ^ 31 ≤ i ∧ i < 2 ^ 31 ∧ bs.length = 4 ∧ unpackI32 bs = i := by
  constructor
  · intro h
    have h2 := unpackI32_packI32 h
    unfold packI32 at h
    split at h
    · rename_i hv; exact ⟨hv.1, hv.2, h2⟩
    · cases h
  · rintro ⟨h1, h2, h3, h4⟩
    unfold packI32
    rw [if_pos ⟨h1, h2⟩]
    congr 1
    have hl := unpackLE_lt bs
    have hp := packLE_unpackLE bs
    rw [h3] at hl hp
    rw [← hp]
    congr 1
    unfold unpackI32 at h4
    dsimp only at h4
    split at h4 <;> omega

/-- The value of a node is stored as the format says. -/
theorem tval_ok {U : Uni} {t : Token} {size : Nat} {bs : Bytes} :
    (tvalSize t = .ok size ∧ packTval U t size = .ok bs) ↔ ValStored U t.type t.value bs ∧ size = bs.length := by
  obtain ⟨ty, pos, v⟩ := t
  dsimp only
  by_cases hi : ty = .int
  · subst hi
    simp only [tvalSize, Except.ok.injEq]
    constructor
    · rintro ⟨rfl, h⟩
      cases v with
      | int i =>
        have h' : packI32 i = .ok bs := h
        obtain ⟨h1, h2, h3, h4⟩ := packI32_ok.1 h'
        exact ⟨.int h1 h2 h3 h4, h3.symm⟩
      | _ => cases h
    · rintro ⟨h, rfl⟩
      cases h with
      | int h1 h2 h3 h4 =>
        refine ⟨h3.symm, ?_⟩
        rw [h3]
        exact packI32_ok.2 ⟨h1, h2, h3, h4⟩
      | none h => exact absurd rfl h
      | str s h => exact absurd rfl h
  · by_cases hf : ty = .float
    · subst hf
      simp only [tvalSize, Except.ok.injEq]
      constructor
      · rintro ⟨rfl, h⟩
        cases v with
        | flt f =>
          have h' : packF32 f = .ok bs := h
          exact ⟨.float h', (packF32_length h').symm⟩
        | int i =>
          have h' : (match U.roundF i with
            | .fin q => packF32 (.fin q)
            | .inf _ => .error .structError) = .ok bs := h
          split at h'
          · rename_i q hq; exact ⟨.floatInt hq h', (packF32_length h').symm⟩
          · cases h'
        | _ => cases h
      · rintro ⟨h, rfl⟩
        cases h with
        | float h1 =>
          refine ⟨(packF32_length h1).symm, ?_⟩
          rw [packF32_length h1]
          exact h1
        | floatInt h1 h2 =>
          refine ⟨(packF32_length h2).symm, ?_⟩
          rw [packF32_length h2]
          show (match U.roundF _ with
            | .fin q => packF32 (.fin q)
            | .inf _ => .error .structError) = _
          rw [h1]
          exact h2
        | none _ h => exact absurd rfl h
        | str s _ h => exact absurd rfl h
    · have hs : tvalSize ⟨ty, pos, v⟩ = (match v with
          | .none => .ok 0
          | .str s => .ok s.length
          | _ => .error (.exception "")) := by
        unfold tvalSize; cases ty <;> first | rfl | exact absurd rfl hi | exact absurd rfl hf
      have hp : packTval U ⟨ty, pos, v⟩ size = (if 0 < size then (match v with
          | .str s => .ok ((utf8 s).take size)
          | _ => .ok []) else .ok []) := by
        unfold packTval
        cases ty <;> first | exact absurd rfl hi | exact absurd rfl hf | (cases v <;> rfl)
      rw [hs, hp]
      constructor
      · rintro ⟨h1, h2⟩
        cases v with
        | none =>
          injection h1 with h1; subst h1
          simp at h2; subst h2
          exact ⟨.none hi hf, rfl⟩
        | str s =>
          injection h1 with h1; subst h1
          have hb : bs = (utf8 s).take s.length := by
            by_cases h0 : 0 < s.length
            · rw [if_pos h0] at h2; injection h2 with h2; exact h2.symm
            · rw [if_neg h0] at h2; injection h2 with h2
              have : s = [] := by cases s with | nil => rfl | cons => simp at h0
              subst this; exact h2.symm
          subst hb
          exact ⟨.str s hi hf, by rw [List.length_take]; have := utf8_length s; omega⟩
        | int i => cases h1
        | flt i => cases h1
      · rintro ⟨h, rfl⟩
        cases h with
        | none => exact ⟨rfl, by simp⟩
        | str s =>
          have hl : ((utf8 s).take s.length).length = s.length := by
            rw [List.length_take]; have := utf8_length s; omega
          rw [hl]
          refine ⟨rfl, ?_⟩
          by_cases h0 : 0 < s.length
          · rw [if_pos h0]
          · rw [if_neg h0]
            have : s = [] := by cases s with | nil => rfl | cons => simp at h0
            subst this; rfl
        | int => exact absurd rfl hi
        | float => exact absurd rfl hf
        | floatInt => exact absurd rfl hf

theorem encodeRec_ok {U : Uni} {k : Kind} {t : Token} {i : Nat} {r : Res} {cs : List Node} {bs : Bytes} :
    encodeRec U k t i (cs.map Node.id) = .ok bs ↔
      ∃ rec : Rec, RecOf U (.mk k t i r cs) rec ∧ rec.Fits ∧ bs = rec.bytes := by
  simp only [encodeRec, except_bind_ok, except_pure_ok, packU_ok, packIds_ok]
  constructor
  · rintro ⟨size, hsz, _, ⟨i', hi, fi, rfl⟩, _, ⟨k', hk, fk, rfl⟩, _, ⟨t', ht, ft, rfl⟩, _, ⟨p, hp, fp, rfl⟩, _,
      ⟨s', hs, fs, rfl⟩, _, ⟨n', hn, fn, rfl⟩, v, hv, _, ⟨fc, rfl⟩, rfl⟩
    obtain ⟨h1, h2⟩ := tval_ok.1 ⟨hsz, hv⟩
    have e1 : i' = i := by omega
    have e2 : k' = k.value := by omega
    have e3 : t' = t.type.value := by omega
    have e4 : s' = size := by omega
    have e5 : n' = (cs.map Node.id).length := by omega
    subst e1 e2 e3 e4 e5
    exact ⟨⟨i', k.value, t.type.value, p, s', v, cs.map Node.id⟩,
      ⟨rfl, (kindNumber_iff _ _).2 rfl, (typeNumber_iff _ _).2 rfl, hp, h1, h2, rfl⟩, ⟨fi, fk, ft, fp, fs, fn, fc⟩, rfl⟩
  · rintro ⟨rec, ho, hf, rfl⟩
    obtain ⟨a1, a2, a3, a4, a5, a6, a7⟩ := rec
    obtain ⟨o1, o2, o3, o4, o5, o6, o7⟩ := ho
    dsimp only [Node.id, Node.kind, Node.tok, Node.children] at o1 o2 o3 o4 o5 o6 o7
    rw [kindNumber_iff] at o2
    rw [typeNumber_iff] at o3
    subst o1 o2 o3 o6 o7
    obtain ⟨f1, f2, f3, f4, f5, f6, f7⟩ := hf
    obtain ⟨h1, h2⟩ := tval_ok.2 ⟨o5, rfl⟩
    exact ⟨a6.length, h1, _, ⟨_, rfl, f1, rfl⟩, _, ⟨_, rfl, f2, rfl⟩, _, ⟨_, rfl, f3, rfl⟩, _, ⟨_, o4, f4, rfl⟩, _,
      ⟨_, rfl, f5, rfl⟩, _, ⟨_, rfl, f6, rfl⟩, _, h2, _, ⟨f7, rfl⟩, rfl⟩

mutual
theorem encodeNode_ok {U : Uni} (n : Node) {bss : List Bytes} :
    encodeNode U n = .ok bss ↔
      ∃ recs, List.Forall₂ (RecOf U) (preorder n) recs ∧ (∀ r ∈ recs, r.Fits) ∧ bss = recs.map Rec.bytes := by
  obtain ⟨k, t, i, r, cs⟩ := n
  rw [encodeNode, preorder]
  simp only [except_bind_ok, except_pure_ok]
  constructor
  · rintro ⟨a, ha, b, hb, rfl⟩
    obtain ⟨rec, h1, h2, rfl⟩ := (encodeRec_ok (r := r)).1 ha
    obtain ⟨recs, h3, h4, rfl⟩ := (encodeNodes_ok cs).1 hb
    exact ⟨rec :: recs, .cons h1 h3, by simpa using ⟨h2, h4⟩, rfl⟩
  · rintro ⟨recs, h1, h2, rfl⟩
    cases h1 with
    | cons h1 h3 =>
      have h2' := List.forall_mem_cons.1 h2
      exact ⟨_, encodeRec_ok.2 ⟨_, h1, h2'.1, rfl⟩, _, (encodeNodes_ok cs).2 ⟨_, h3, h2'.2, rfl⟩, rfl⟩
theorem encodeNodes_ok {U : Uni} (ns : List Node) {bss : List Bytes} :
    encodeNodes U ns = .ok bss ↔
      ∃ recs, List.Forall₂ (RecOf U) (preorderList ns) recs ∧ (∀ r ∈ recs, r.Fits) ∧ bss = recs.map Rec.bytes := by
  match ns with
  | [] =>
    rw [encodeNodes, preorderList]
    constructor
    · intro h; injection h with h; subst h; exact ⟨[], .nil, by simp, rfl⟩
    · rintro ⟨recs, h1, -, rfl⟩; cases h1; rfl
  | c :: cs =>
    rw [encodeNodes, preorderList]
    simp only [except_bind_ok, except_pure_ok]
    constructor
    · rintro ⟨a, ha, b, hb, rfl⟩
      obtain ⟨ra, h1, h2, rfl⟩ := (encodeNode_ok c).1 ha
      obtain ⟨rb, h3, h4, rfl⟩ := (encodeNodes_ok cs).1 hb
      refine ⟨ra ++ rb, List.rel_append h1 h3, ?_, by simp⟩
      intro r hr
      rcases List.mem_append.1 hr with hr | hr
      · exact h2 r hr
      · exact h4 r hr
    · rintro ⟨recs, h1, h2, rfl⟩
      obtain ⟨ra, rb, ha, hb, rfl⟩ : ∃ ra rb, List.Forall₂ (RecOf U) (preorder c) ra ∧
          List.Forall₂ (RecOf U) (preorderList cs) rb ∧ recs = ra ++ rb :=
        forall2_append_split h1
      exact ⟨_, (encodeNode_ok c).2 ⟨ra, ha, fun r hr => h2 r (by simp [hr]), rfl⟩, _,
        (encodeNodes_ok cs).2 ⟨rb, hb, fun r hr => h2 r (by simp [hr]), rfl⟩, by simp⟩
end

theorem astEncode_ok {U : Uni} {n : Node} {bs : Bytes} :
    astEncode U n = .ok bs ↔
      ∃ recs, List.Forall₂ (RecOf U) (preorder n) recs ∧ (∀ r ∈ recs, r.Fits) ∧ recs.length < 65536 ∧
        bs = fileBytes 1 recs.length n.id (recs.map Rec.bytes).flatten := by
  simp only [astEncode, except_bind_ok, except_pure_ok, packU_ok, encodeNode_ok]
  constructor
  · rintro ⟨_, ⟨recs, h1, h2, rfl⟩, _, ⟨a, ha, fa, rfl⟩, _, ⟨b, hb, fb, rfl⟩, _, ⟨c, hc, fc, rfl⟩, rfl⟩
    rw [List.length_map] at hb
    have e1 : a = 1 := by omega
    have e2 : b = recs.length := by omega
    have e3 : c = n.id := by omega
    subst e1 e2 e3
    exact ⟨recs, h1, h2, fb, by simp [fileBytes]⟩
  · rintro ⟨recs, h1, h2, h3, rfl⟩
    have hid : n.id < 65536 := by
      obtain ⟨k, t, i, r, cs⟩ := n
      rw [preorder] at h1
      cases h1 with
      | cons h1 _ =>
        have := (h2 _ (List.mem_cons_self ..)).id
        rw [h1.id] at this
        exact this
    exact ⟨_, ⟨recs, h1, h2, rfl⟩, _, ⟨1, rfl, by decide, rfl⟩, _, ⟨recs.length, by simp, h3, rfl⟩, _,
      ⟨n.id, rfl, hid, rfl⟩, by simp [fileBytes]⟩

/-! ### Decoding -/

theorem decodeIds_ok {n : Nat} {bs r : Bytes} {is : List Nat} :
    decodeIds n bs = .ok (is, r) ↔ is.length = n ∧ (∀ i ∈ is, i < 65536) ∧ bs = is.flatMap (packLE 2) ++ r := by
  induction n generalizing bs is with
  | zero =>
    simp only [decodeIds, Except.ok.injEq, Prod.mk.injEq]
    constructor
    · rintro ⟨rfl, rfl⟩; simp
    · rintro ⟨h1, -, rfl⟩
      have : is = [] := List.length_eq_zero_iff.1 h1
      subst this; simp
  | succ n ih =>
    simp only [decodeIds, except_bind_ok, except_pure_ok, Prod.exists, getU_ok, Prod.mk.injEq]
    constructor
    · rintro ⟨i, r1, ⟨rfl, h1⟩, is', r2, h, rfl, rfl⟩
      obtain ⟨rfl, h2, rfl⟩ := ih.1 h
      exact ⟨rfl, by simpa using ⟨h1, h2⟩, by simp⟩
    · rintro ⟨h1, h2, rfl⟩
      cases is with
      | nil => simp at h1
      | cons i is =>
        have h2' := List.forall_mem_cons.1 h2
        exact ⟨i, is.flatMap (packLE 2) ++ r, ⟨by simp, h2'.1⟩, is, r, ih.2 ⟨by simpa using h1, h2'.2, rfl⟩, rfl, rfl⟩

theorem utf8_ne_nil {s : Str} : utf8 s = [] ↔ s = [] := by
  constructor
  · intro h
    have := utf8_length s
    rw [h] at this
    exact List.length_eq_zero_iff.1 (by simpa using this)
  · rintro rfl; rfl

/-- Reading a value, with the short read of a number at the end of the input. -/
theorem decodeTval_ok {nan : PyFloat} {ty : TokenType} {size : Nat} {bs rest : Bytes} {v : TVal} :
    decodeTval nan ty.value size bs = .ok (v, rest) ↔ ∃ val, ValMeans nan ty val v ∧
      ((size = val.length ∧ bs = val ++ rest) ∨
        ((ty = .int ∨ ty = .float) ∧ val.length = 4 ∧ 4 < size ∧ bs = val ∧ rest = [])) := by
  have tv : ∀ a b : TokenType, a.value = b.value ↔ a = b := fun a b => ⟨typeValue_inj, fun h => by rw [h]⟩
  have cut4 : ∀ val : Bytes, (bs.take size = val ∧ val.length = 4 ∧ bs.drop size = rest) ↔
      val.length = 4 ∧ ((size = val.length ∧ bs = val ++ rest) ∨ (4 < size ∧ bs = val ∧ rest = [])) := by
    intro val
    constructor
    · rintro ⟨rfl, h, rfl⟩
      refine ⟨h, ?_⟩
      rw [List.length_take] at h
      by_cases h4 : size = 4
      · left; exact ⟨by rw [List.length_take]; omega, (List.take_append_drop _ _).symm⟩
      · right
        have hs : bs.length ≤ size := by omega
        exact ⟨by omega, (List.take_of_length_le hs).symm, List.drop_of_length_le hs⟩
    · rintro ⟨h, ⟨rfl, rfl⟩ | ⟨h4, rfl, rfl⟩⟩
      · exact ⟨List.take_left, h, List.drop_left⟩
      · exact ⟨List.take_of_length_le (by omega), h, List.drop_of_length_le (by omega)⟩
  unfold decodeTval
  dsimp only
  by_cases h0 : 0 < size
  · rw [if_pos h0]
    by_cases hi : ty = .int
    · subst hi
      rw [if_pos rfl]
      constructor
      · intro h
        split at h
        · rename_i hl
          injection h with h
          obtain ⟨rfl, rfl⟩ := Prod.mk.inj h
          obtain ⟨h1, h2⟩ := (cut4 _).1 ⟨rfl, hl, rfl⟩
          refine ⟨_, .int h1, ?_⟩
          rcases h2 with h2 | h2
          · exact Or.inl h2
          · exact Or.inr ⟨Or.inl rfl, h1, h2⟩
        · cases h
      · rintro ⟨val, hv, hb⟩
        have h4 : val.length = 4 := by
          cases hv with
          | none =>
            rcases hb with ⟨rfl, -⟩ | ⟨-, h, -⟩
            · simp at h0
            · simp at h
          | int h => exact h
          | str h => exact absurd rfl h
        have hb' : (size = val.length ∧ bs = val ++ rest) ∨ (4 < size ∧ bs = val ∧ rest = []) := by
          rcases hb with h | ⟨-, -, h⟩
          · exact Or.inl h
          · exact Or.inr h
        obtain ⟨h1, h2, h3⟩ := (cut4 val).2 ⟨h4, hb'⟩
        rw [h1, if_pos h4, h3]
        cases hv with
        | none => simp at h4
        | int h => rfl
        | str h => exact absurd rfl h
    · rw [if_neg (by rw [tv]; exact hi)]
      by_cases hf : ty = .float
      · subst hf
        rw [if_pos rfl]
        constructor
        · intro h
          split at h
          · rename_i hl
            injection h with h
            obtain ⟨rfl, rfl⟩ := Prod.mk.inj h
            obtain ⟨h1, h2⟩ := (cut4 _).1 ⟨rfl, hl, rfl⟩
            refine ⟨_, .float h1, ?_⟩
            rcases h2 with h2 | h2
            · exact Or.inl h2
            · exact Or.inr ⟨Or.inr rfl, h1, h2⟩
          · cases h
        · rintro ⟨val, hv, hb⟩
          have h4 : val.length = 4 := by
            cases hv with
            | none =>
              rcases hb with ⟨rfl, -⟩ | ⟨-, h, -⟩
              · simp at h0
              · simp at h
            | float h => exact h
            | str _ h => exact absurd rfl h
          have hb' : (size = val.length ∧ bs = val ++ rest) ∨ (4 < size ∧ bs = val ∧ rest = []) := by
            rcases hb with h | ⟨-, -, h⟩
            · exact Or.inl h
            · exact Or.inr h
          obtain ⟨h1, h2, h3⟩ := (cut4 val).2 ⟨h4, hb'⟩
          rw [h1, if_pos h4, h3]
          cases hv with
          | none => simp at h4
          | float h => rfl
          | str _ h => exact absurd rfl h
      · rw [if_neg (by rw [tv]; exact hf)]
        constructor
        · intro h
          split at h
          · rename_i hl
            cases hd : utf8Decode (bs.take size) with
            | error e => rw [hd] at h; cases h
            | ok s =>
              rw [hd] at h
              injection h with h
              obtain ⟨rfl, rfl⟩ := Prod.mk.inj h
              have hs := utf8Decode_ok.1 hd
              refine ⟨utf8 s, .str hi hf ?_, Or.inl ⟨by rw [← hs, hl], by rw [← hs]; exact (List.take_append_drop _ _).symm⟩⟩
              rintro rfl
              rw [hs] at hl
              simp [utf8] at hl
              omega
          · cases h
        · rintro ⟨val, hv, ⟨rfl, rfl⟩ | ⟨h, -⟩⟩
          · rw [List.take_left, if_pos rfl, List.drop_left]
            cases hv with
            | none => simp at h0
            | str _ _ h => rw [utf8Decode_utf8]
            | int => exact absurd rfl hi
            | float => exact absurd rfl hf
          · rcases h with h | h
            · exact absurd h hi
            · exact absurd h hf
  · rw [if_neg h0]
    have h0' : size = 0 := by omega
    subst h0'
    constructor
    · intro h
      injection h with h
      obtain ⟨rfl, rfl⟩ := Prod.mk.inj h
      exact ⟨[], .none ty, Or.inl ⟨rfl, rfl⟩⟩
    · rintro ⟨val, hv, ⟨h, rfl⟩ | ⟨-, -, h, -⟩⟩
      · have : val = [] := List.length_eq_zero_iff.1 h.symm
        subst this
        generalize hb : ([] : Bytes) = b at hv
        cases hv with
        | none => rfl
        | str _ _ h => exact absurd (utf8_ne_nil.1 hb.symm) h
        | int h => rw [← hb] at h; simp at h
        | float h => rw [← hb] at h; simp at h
      · omega

/-- A record and the dictionary entry made of it. -/
structure RecEntry (U : Uni) (nan : PyFloat) (r : Rec) (e : Nat × GNode) : Prop where
  id : e.1 = r.id
  cids : e.2.cids = r.cids
  means : r.Means nan e.2.kind e.2.tok
  res : initRes U e.2.kind e.2.tok = .ok e.2.res

/-- A number at the end of the input that claims to be longer than it is. -/
def CutRec (r : Rec) : Prop := r.numeric ∧ r.val.length = 4 ∧ 4 < r.size ∧ r.cids = []

theorem decodeRec_ok {U : Uni} {nan : PyFloat} {bs rest : Bytes} {e : Nat × GNode} :
    decodeRec U nan bs = .ok (e, rest) ↔ ∃ r : Rec, r.Fits ∧ RecEntry U nan r e ∧
      ((r.size = r.val.length ∧ bs = r.bytes ++ rest) ∨ (CutRec r ∧ bs = r.bytes ∧ rest = [])) := by
  simp only [decodeRec, except_bind_ok, except_pure_ok, Prod.exists, getU_ok, decodeIds_ok, ofValue_type, ofValue_kind]
  constructor
  · rintro ⟨i, _, ⟨rfl, f1⟩, nt, _, ⟨rfl, f2⟩, tt, _, ⟨rfl, f3⟩, pos, _, ⟨rfl, f4⟩, size, _, ⟨rfl, f5⟩, num, r6,
      ⟨rfl, f6⟩, v, r7, hv, cids, r8, ⟨hl, f7, rfl⟩, ty, rfl, k, rfl, res, hres, h⟩
    obtain ⟨rfl, rfl⟩ := Prod.mk.inj h
    obtain ⟨val, hm, hb⟩ := decodeTval_ok.1 hv
    refine ⟨⟨i, k.value, ty.value, pos, size, val, cids⟩, ⟨f1, f2, f3, f4, f5, by rw [hl]; exact f6, f7⟩,
      ⟨rfl, rfl, ⟨(kindNumber_iff _ _).2 rfl, (typeNumber_iff _ _).2 rfl, rfl, hm⟩, hres⟩, ?_⟩
    rcases hb with ⟨h1, rfl⟩ | ⟨h1, h2, h3, rfl, h5⟩
    · exact Or.inl ⟨h1, by simp [Rec.bytes, hl]⟩
    · right
      obtain ⟨h6, h7⟩ := List.append_eq_nil_iff.1 h5
      have hc : cids = [] := by
        cases cids with
        | nil => rfl
        | cons c cs => simp [packLE] at h6
      subst hc
      refine ⟨⟨?_, h2, h3, rfl⟩, by simp [Rec.bytes, ← hl], h7⟩
      rcases h1 with rfl | rfl
      · exact Or.inl rfl
      · exact Or.inr rfl
  · rintro ⟨⟨i, nt, tt, pos, size, val, cids⟩, ⟨f1, f2, f3, f4, f5, f6, f7⟩, he, hb⟩
    obtain ⟨i', ⟨k, ⟨ty, p, v⟩, res, cids'⟩⟩ := e
    obtain ⟨e1, e2, ⟨m1, m2, m3, m4⟩, e4⟩ := he
    dsimp only at e1 e2 m1 m2 m3 m4 e4 f1 f2 f3 f4 f5 f6 f7 hb
    rw [kindNumber_iff] at m1
    rw [typeNumber_iff] at m2
    subst e1 e2 m1 m2 m3
    rcases hb with ⟨h1, rfl⟩ | ⟨⟨h1, h2, h3, h4⟩, rfl, rfl⟩
    · refine ⟨i', _, ⟨by simp only [Rec.bytes, List.append_assoc], f1⟩, k.value, _, ⟨rfl, f2⟩, ty.value, _, ⟨rfl, f3⟩, pos, _,
        ⟨rfl, f4⟩, size, _, ⟨rfl, f5⟩, cids'.length, _, ⟨rfl, f6⟩, v, _,
        decodeTval_ok.2 ⟨val, m4, Or.inl ⟨h1, rfl⟩⟩, cids', rest, ⟨rfl, f7, rfl⟩, ty, rfl, k, rfl, res, e4, rfl⟩
    · dsimp only at h1 h2 h3 h4
      subst h4
      have hty : ty = .int ∨ ty = .float := by
        rcases h1 with h1 | h1
        · exact Or.inl (typeValue_inj h1)
        · exact Or.inr (typeValue_inj h1)
      refine ⟨i', _, ⟨by simp only [Rec.bytes, List.append_assoc]; rfl, f1⟩, k.value, _, ⟨rfl, f2⟩, ty.value, _, ⟨rfl, f3⟩, pos, _,
        ⟨rfl, f4⟩, size, _, ⟨rfl, f5⟩, 0, _, ⟨rfl, f6⟩, v, [],
        decodeTval_ok.2 ⟨val, m4, Or.inr ⟨hty, h2, h3, by simp, rfl⟩⟩, [], [], ⟨rfl, f7, rfl⟩, ty, rfl, k, rfl, res, e4,
        rfl⟩

theorem decodeRecs_ok {U : Uni} {nan : PyFloat} {n : Nat} {bs : Bytes} {d d' : IdDict} :
    decodeRecs U nan n bs d = .ok d' ↔ ∃ recs es rest, recs.length = n ∧ Stored bs recs rest ∧
      List.Forall₂ (RecEntry U nan) recs es ∧ d' = es.foldl (fun d e => d.put e.1 e.2) d := by
  induction n generalizing bs d with
  | zero =>
    rw [decodeRecs]
    constructor
    · intro h; injection h with h; exact ⟨[], [], bs, rfl, .nil bs, .nil, h.symm⟩
    · rintro ⟨recs, es, rest, h1, -, h3, rfl⟩
      have : recs = [] := List.length_eq_zero_iff.1 h1
      subst this
      cases h3
      rfl
  | succ n ih =>
    rw [decodeRecs]
    simp only [except_bind_ok]
    constructor
    · rintro ⟨⟨e, r⟩, h1, h2⟩
      obtain ⟨rec, hf, he, hb⟩ := decodeRec_ok.1 h1
      obtain ⟨recs, es, rest, h3, h4, h5, h6⟩ := ih.1 h2
      rcases hb with ⟨h7, rfl⟩ | ⟨⟨c1, c2, c3, c4⟩, rfl, rfl⟩
      · exact ⟨rec :: recs, e :: es, rest, by simp [h3], .cons hf h7 h4, .cons he h5, h6⟩
      · have hnil : recs = [] ∧ rest = [] := by
          generalize hb : ([] : Bytes) = b at h4
          cases h4 with
          | nil => exact ⟨rfl, rfl⟩
          | cons => simp [Rec.bytes, packLE] at hb
          | cut => simp [Rec.bytes, packLE] at hb
        obtain ⟨rfl, -⟩ := hnil
        cases h5
        exact ⟨[rec], [e], [], by simpa using h3.symm, .cut hf c1 c2 c3 c4, .cons he .nil, h6⟩
    · rintro ⟨recs, es, rest, h1, h2, h3, rfl⟩
      cases h2 with
      | nil => simp at h1
      | @cons r bs' recs' _ hf hs h4 =>
        cases h3 with
        | @cons _ e _ es' he h5 =>
          exact ⟨(e, bs'), decodeRec_ok.2 ⟨r, hf, he, Or.inl ⟨hs, rfl⟩⟩,
            ih.2 ⟨recs', es', rest, by simpa using h1, h4, h5, rfl⟩⟩
      | @cut r hf c1 c2 c3 c4 =>
        cases h3 with
        | @cons _ e _ es' he h5 =>
          cases h5
          exact ⟨(e, []), decodeRec_ok.2 ⟨r, hf, he, Or.inr ⟨⟨c1, c2, c3, c4⟩, rfl, rfl⟩⟩,
            ih.2 ⟨[], [], [], by simp at h1; simp [h1], .nil [], .nil, rfl⟩⟩

/-! ### The dictionary -/

theorem idDict_get_put (d : IdDict) (i j : Nat) (x : GNode) :
    (d.put i x).get j = if i = j then some x else d.get j := by
  induction d with
  | nil =>
    simp only [IdDict.put, IdDict.get, List.find?_cons, List.find?_nil]
    by_cases h : i = j
    · simp [h]
    · simp [h, beq_eq_false_iff_ne.2 h]
  | cons e d ih =>
    simp only [IdDict.put]
    by_cases he : e.1 == i
    · rw [if_pos he]
      have he' : e.1 = i := by simpa using he
      by_cases h : i = j
      · simp [IdDict.get, h]
      · simp [IdDict.get, h, he']
    · rw [if_neg he]
      have he' : e.1 ≠ i := by simpa using he
      by_cases hj : e.1 = j
      · subst hj
        simp [IdDict.get, Ne.symm he']
      · have e1 : IdDict.get (e :: IdDict.put d i x) j = IdDict.get (IdDict.put d i x) j := by
          simp [IdDict.get, hj]
        have e2 : IdDict.get (e :: d) j = IdDict.get d j := by simp [IdDict.get, hj]
        rw [e1, e2, ih]

/-- The last entry for `i`. -/
def lastEntry (es : List (Nat × GNode)) (i : Nat) : Option GNode := (es.reverse.find? (fun e => e.1 == i)).map Prod.snd

theorem lastEntry_cons (e : Nat × GNode) (es : List (Nat × GNode)) (i : Nat) :
    lastEntry (e :: es) i = (lastEntry es i).or (if e.1 = i then some e.2 else none) := by
  unfold lastEntry
  rw [List.reverse_cons, List.find?_append]
  cases h : es.reverse.find? (fun e => e.1 == i) with
  | some x => rfl
  | none =>
    by_cases he : e.1 = i
    · simp [he]
    · simp [he]

theorem get_foldl_put (es : List (Nat × GNode)) (d : IdDict) (i : Nat) :
    (es.foldl (fun d e => d.put e.1 e.2) d).get i = (lastEntry es i).or (d.get i) := by
  induction es generalizing d with
  | nil => rfl
  | cons e es ih =>
    rw [List.foldl_cons, ih, idDict_get_put, lastEntry_cons]
    cases lastEntry es i with
    | some x => rfl
    | none =>
      by_cases h : e.1 = i
      · simp [h]
      · simp [h]

theorem mem_put {d : IdDict} {i : Nat} {x : GNode} {e : Nat × GNode} (h : e ∈ d.put i x) : e = (i, x) ∨ e ∈ d := by
  induction d with
  | nil => simpa [IdDict.put] using h
  | cons f d ih =>
    rw [IdDict.put] at h
    split at h
    · rcases List.mem_cons.1 h with h | h
      · exact Or.inl h
      · exact Or.inr (List.mem_cons_of_mem _ h)
    · rcases List.mem_cons.1 h with h | h
      · exact Or.inr (h ▸ List.mem_cons_self ..)
      · rcases ih h with h | h
        · exact Or.inl h
        · exact Or.inr (List.mem_cons_of_mem _ h)

theorem mem_foldl_put {es : List (Nat × GNode)} {d : IdDict} {e : Nat × GNode}
    (h : e ∈ es.foldl (fun d e => d.put e.1 e.2) d) : e ∈ es ∨ e ∈ d := by
  induction es generalizing d with
  | nil => exact Or.inr h
  | cons f es ih =>
    rcases ih h with h | h
    · exact Or.inl (List.mem_cons_of_mem _ h)
    · rcases mem_put h with h | h
      · exact Or.inl (by rw [h]; exact List.mem_cons_self ..)
      · exact Or.inr h

/-- Keys occur once. -/
theorem put_keys (d : IdDict) (i : Nat) (x : GNode) (h : (d.map Prod.fst).Nodup) :
    ((d.put i x).map Prod.fst).Nodup ∧ ∀ j, j ∈ (d.put i x).map Prod.fst ↔ j = i ∨ j ∈ d.map Prod.fst := by
  induction d with
  | nil => simp [IdDict.put]
  | cons f d ih =>
    obtain ⟨h1, h2⟩ := List.nodup_cons.1 h
    obtain ⟨i1, i2⟩ := ih h2
    rw [IdDict.put]
    by_cases hf : f.1 == i
    · rw [if_pos hf]
      have hf' : f.1 = i := by simpa using hf
      subst hf'
      exact ⟨by simpa using h, by intro j; simp⟩
    · rw [if_neg hf]
      have hf' : f.1 ≠ i := by simpa using hf
      constructor
      · rw [List.map_cons, List.nodup_cons]
        refine ⟨?_, i1⟩
        rw [i2]
        rintro (h | h)
        · exact hf' h
        · exact h1 h
      · intro j
        rw [List.map_cons, List.mem_cons, i2, List.map_cons, List.mem_cons]
        constructor
        · rintro (h | h | h)
          · exact Or.inr (Or.inl h)
          · exact Or.inl h
          · exact Or.inr (Or.inr h)
        · rintro (h | h | h)
          · exact Or.inr (Or.inl h)
          · exact Or.inl h
          · exact Or.inr (Or.inr h)

theorem foldl_put_keys (es : List (Nat × GNode)) (d : IdDict) (h : (d.map Prod.fst).Nodup) :
    ((es.foldl (fun d e => d.put e.1 e.2) d).map Prod.fst).Nodup := by
  induction es generalizing d with
  | nil => exact h
  | cons e es ih => exact ih _ (put_keys d e.1 e.2 h).1

theorem mem_iff_get {d : IdDict} (h : (d.map Prod.fst).Nodup) (i : Nat) (x : GNode) :
    (i, x) ∈ d ↔ d.get i = some x := by
  induction d with
  | nil => simp [IdDict.get]
  | cons f d ih =>
    obtain ⟨h1, h2⟩ := List.nodup_cons.1 h
    rw [List.mem_cons]
    by_cases hf : f.1 = i
    · subst hf
      have : IdDict.get (f :: d) f.1 = some f.2 := by simp [IdDict.get]
      rw [this]
      constructor
      · rintro (h | h)
        · rw [← h]
        · exact absurd (List.mem_map_of_mem (f := Prod.fst) h) h1
      · intro h; injection h with h; left; rw [← h]
    · have : IdDict.get (f :: d) i = IdDict.get d i := by simp [IdDict.get, hf]
      rw [this, ← ih h2]
      constructor
      · rintro (h | h)
        · exact absurd (by rw [← h]) hf
        · exact h
      · exact Or.inr

end Verif.Proofs
