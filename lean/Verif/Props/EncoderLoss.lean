import Verif.Props.Encoder
import Verif.Proofs.Float32Nearest
/-!
# What encoding and decoding makes of the values of an AST (C72)
-/

namespace Verif.Props
open Verif Verif.Spec Verif.Proofs

theorem utf8_eq_nil {s : Str} : utf8 s = [] ↔ s = [] := by
  constructor
  · intro h
    have := utf8_length s
    rw [h] at this
    exact List.length_eq_zero_iff.1 (by simpa using this)
  · rintro rfl; rfl

theorem packF32_length_pos {f : PyFloat} {bs : Bytes} (h : packF32 f = .ok bs) : bs ≠ [] := by
  have := packF32_length h
  rintro rfl
  simp at this

/-- How a stored value is read. -/
theorem returns_of {U : Uni} {nan : PyFloat} {ty : TokenType} {v w : TVal} {val : Bytes} (h1 : ValStored U ty v val)
    (h2 : ValMeans nan ty val w) : Returns U ty v w := by
  cases h1 with
  | none hi hf =>
    generalize hb : ([] : Bytes) = b at h2
    cases h2 with
    | none => exact .none hi hf
    | int => exact absurd rfl hi
    | float => exact absurd rfl hf
    | str _ _ h => exact absurd (utf8_eq_nil.1 hb.symm) h
  | str s hi hf =>
    generalize hb : (utf8 s).take s.length = b at h2
    cases h2 with
    | none =>
      have hs : s = [] := by
        have h := congrArg List.length hb
        have := utf8_length s
        rw [List.length_take] at h
        exact List.length_eq_zero_iff.1 (by rw [List.length_nil] at h; omega)
      subst hs
      exact .empty hi hf
    | int => exact absurd rfl hi
    | float => exact absurd rfl hf
    | @str _ t _ _ h =>
      refine .str hi hf ?_ hb.symm
      rintro rfl
      exact h (utf8_eq_nil.1 (by simpa [utf8] using hb.symm))
  | @int i bs a b c d =>
    cases h2 with
    | none => simp at c
    | int => rw [d]; exact .int i
    | str h => exact absurd rfl h
  | @float f bs hp =>
    cases h2 with
    | none => exact absurd rfl (packF32_length_pos hp)
    | str _ h => exact absurd rfl h
    | float =>
      cases f with
      | fin q =>
        obtain ⟨y, e, hr⟩ := packF32_rounds nan hp
        rw [e]; exact .fin hr
      | inf neg =>
        obtain ⟨bs', e1, _, e2⟩ := unpackF32_packF32 nan (.inf neg) trivial
        rw [hp] at e1
        injection e1 with e1
        subst e1
        rw [e2]; exact .inf neg
  | @floatInt i q bs hr hp =>
    cases h2 with
    | none => exact absurd rfl (packF32_length_pos hp)
    | str _ h => exact absurd rfl h
    | float =>
      obtain ⟨y, e, hy⟩ := packF32_rounds nan hp
      rw [e]; exact .floatInt hr hy

/-- C72: whenever a tree with distinct ids can be encoded and the bytes decoded, every node comes back with its class, the
type and position of its token and its children, and its value is the old one as far as the format keeps it: the same int,
the nearest binary32 number (ties to even), the beginning of the text. -/
theorem decoded_values (U : Uni) (nan : PyFloat) (n : Node) (hd : ((preorder n).map Node.id).Nodup) {bs : Bytes} {g : Graph}
    (h1 : astEncode U n = .ok bs) (h2 : astDecode U nan bs = .ok g) :
    g.root = n.id ∧ ∀ m ∈ preorder n, ∃ x, g.nodes.get m.id = some x ∧ x.kind = m.kind ∧ x.tok.type = m.tok.type ∧
      x.tok.pos = m.tok.pos ∧ x.cids = m.children.map Node.id ∧ Returns U m.tok.type m.tok.value x.tok.value := by
  obtain ⟨recs, a1, a2, a3, rfl⟩ := astEncode_ok.1 h1
  obtain ⟨v, recs', es, body, tail, b1, b2, b3, b4, b5, b6, b7, -⟩ := (decode_iff U nan _ g).1 h2
  have hroot : n.id < 65536 := by
    obtain ⟨r, hr⟩ : ∃ r, r ∈ recs ∧ r.id = n.id := by
      obtain ⟨k, t, i, rs, cs⟩ := n
      rw [preorder] at a1
      cases a1 with
      | cons h _ => exact ⟨_, List.mem_cons_self .., h.id⟩
    rw [← hr.2]; exact (a2 r hr.1).id
  unfold fileBytes at b4
  simp only [List.append_assoc] at b4
  obtain ⟨-, b4⟩ := packLE_append_inj (by norm_num) b1 b4
  obtain ⟨hlen, b4⟩ := packLE_append_inj a3 b2 b4
  obtain ⟨hr, b4⟩ := packLE_append_inj hroot b3 b4
  have hst := stored_nil recs a2 (recOf_size a1) []
  rw [List.append_nil, b4] at hst
  obtain ⟨rfl, -⟩ := stored_unique hst b5 hlen
  have hkeys := entries_keys a1 b6
  refine ⟨hr.symm, fun m hm => ?_⟩
  obtain ⟨r, e, q1, q2, q3⟩ := entries_of a1 b6 m hm
  refine ⟨e.2, ?_, ?_, ?_, ?_, ?_, ?_⟩
  · rw [b7, get_foldl_put, show m.id = e.1 by rw [q2.id, q1.id], lastEntry_nodup es (by rw [hkeys]; exact hd) e q3]
    rfl
  · have x1 := (kindNumber_iff _ _).1 q1.kind
    have x2 := (kindNumber_iff _ _).1 q2.means.kind
    exact kindValue_inj (x2.trans x1.symm)
  · have x1 := (typeNumber_iff _ _).1 q1.type
    have x2 := (typeNumber_iff _ _).1 q2.means.type
    exact typeValue_inj (x2.trans x1.symm)
  · rw [q2.means.pos, q1.pos]
  · rw [q2.cids, q1.cids]
  · have ht : e.2.tok.type = m.tok.type := by
      have x1 := (typeNumber_iff _ _).1 q1.type
      have x2 := (typeNumber_iff _ _).1 q2.means.type
      exact typeValue_inj (x2.trans x1.symm)
    have hv := q2.means.value
    rw [ht] at hv
    exact returns_of q1.value hv

/-- C72: a finite float cannot be encoded exactly from the middle between the largest binary32 number and `2^128` on. -/
theorem float_overflow (U : Uni) (p : Int) (q : ℚ) (i : Nat) (hi : i < 65536) (hp : 0 ≤ p ∧ p < 65536) :
    (∃ bs, astEncode U (.mk .floatVal ⟨.float, p, .flt (.fin q)⟩ i .none []) = .ok bs) ↔ |q| < (2 ^ 25 - 1) * 2 ^ 103 := by
  have hov := packF32_overflow q
  constructor
  · rintro ⟨bs, h⟩
    obtain ⟨recs, a1, -⟩ := astEncode_ok.1 h
    rw [preorder] at a1
    cases a1 with
    | cons h _ =>
      have hv := h.value
      cases hv with
      | float hp =>
        by_contra hc
        rw [hov.2 (not_lt.1 hc)] at hp
        cases hp
  · intro h
    obtain ⟨bs, hb⟩ : ∃ bs, packF32 (.fin q) = .ok bs := by
      cases hpk : packF32 (.fin q) with
      | ok bs => exact ⟨bs, rfl⟩
      | error e =>
        exfalso
        have he : packF32 (.fin q) = .error .overflowError := by
          unfold packF32 at hpk ⊢
          dsimp only at hpk ⊢
          by_cases c1 : q = 0
          · rw [if_pos c1] at hpk; cases hpk
          · rw [if_neg c1] at hpk ⊢
            by_cases c2 : f32Bits (if q < 0 then -q else q) < 255 * 2 ^ 23
            · rw [if_pos c2] at hpk; cases hpk
            · rw [if_neg c2]
        exact absurd h (not_lt.2 (hov.1 he))
    obtain ⟨pn, rfl⟩ : ∃ pn : Nat, p = pn := ⟨p.toNat, by omega⟩
    have hl := packF32_length hb
    refine ⟨_, astEncode_ok.2 ⟨[⟨i, 32, 14, pn, 4, bs, []⟩],
      .cons ⟨rfl, (kindNumber_iff _ _).2 rfl, (typeNumber_iff _ _).2 rfl, rfl, .float hb, hl.symm, rfl⟩ .nil,
      ?_, by simp, rfl⟩⟩
    intro r hr
    rw [List.mem_singleton] at hr
    subst hr
    exact ⟨hi, by dsimp only; omega, by dsimp only; omega, by dsimp only; omega, by dsimp only; omega, by simp, by simp⟩

/-! Ties: `16777217 = 2^24 + 1` lies between `2^24` and `2^24 + 2`, and `2^24 + 3` between `2^24 + 2` and `2^24 + 4`; the
largest binary32 number is still encoded, as is everything up to the middle. -/
example : packF32 (.fin 16777217) = .ok [0, 0, 128, 75] ∧ unpackF32 (.fin 0) [0, 0, 128, 75] = .fin 16777216 ∧
    packF32 (.fin 16777219) = .ok [2, 0, 128, 75] ∧ unpackF32 (.fin 0) [2, 0, 128, 75] = .fin 16777220 := by
  decide +kernel
example : packF32 (.fin ((2 ^ 25 - 1) * 2 ^ 103)) = .error .overflowError ∧
    packF32 (.fin ((2 ^ 25 - 1) * 2 ^ 103 - 1)) = .ok [255, 255, 127, 127] := by decide +kernel

end Verif.Props
