import Verif.Proofs.Encoder
import Verif.Props.AST
/-!
# Properties of the AST encoder (C33-C35)
-/

namespace Verif.Props
open Verif Verif.Spec Verif.Proofs

/-! ### Trees and graphs of decoded nodes -/

mutual
/-- The node a graph holds under the id of `n` is the root of exactly the tree `n`: same classes, tokens, ids and results,
and the same children in the same order, all the way down. -/
def Unfolds (g : Graph) : Node → Prop
  | .mk k t i r cs => g.nodes.get i = some ⟨k, t, r, cs.map Node.id⟩ ∧ UnfoldsList g cs
/-- The same for several nodes. -/
def UnfoldsList (g : Graph) : List Node → Prop
  | [] => True
  | n :: ns => Unfolds g n ∧ UnfoldsList g ns
end

mutual
/-- The tree with all results as the constructors leave them: evaluation results are not stored. -/
def freshNode (U : Uni) : Node → Node
  | .mk k t i _ cs => .mk k t i (match initRes U k t with | .ok r => r | .error _ => .none) (freshNodes U cs)
/-- The same for several trees. -/
def freshNodes (U : Uni) : List Node → List Node
  | [] => []
  | n :: ns => freshNode U n :: freshNodes U ns
end

/-- The constructor of the class accepts the token; true of every node that exists. -/
def Constructible (U : Uni) (n : Node) : Prop := ∃ r, initRes U n.kind n.tok = .ok r

/-- The numbers of a node fit their fields. -/
structure NodeFits (n : Node) : Prop where
  id : n.id < 65536
  pos : 0 ≤ n.tok.pos ∧ n.tok.pos < 65536
  children : n.children.length < 65536
  len : ∀ s, n.tok.value = .str s → s.length < 65536

theorem freshNodes_ids (U : Uni) (ns : List Node) : (freshNodes U ns).map Node.id = ns.map Node.id := by
  induction ns with
  | nil => rfl
  | cons n ns ih => obtain ⟨k, t, i, r, cs⟩ := n; simp only [freshNodes, freshNode, List.map_cons, ih, Node.id]

mutual
theorem treeOf_fresh (U : Uni) (n : Node) : treeOf (freshNode U n) = treeOf n := by
  obtain ⟨k, t, i, r, cs⟩ := n
  simp only [freshNode, treeOf]
  rw [treesOf_fresh U cs]
theorem treesOf_fresh (U : Uni) (ns : List Node) : treesOf (freshNodes U ns) = treesOf ns := by
  match ns with
  | [] => rfl
  | n :: ns => simp only [freshNodes, treesOf]; rw [treeOf_fresh U n, treesOf_fresh U ns]
end

/-- `==` does not see the difference. -/
theorem fresh_eq (U : Uni) (n : Node) : (freshNode U n).eq n = true := (ast_eq_structural _ _).2 (treeOf_fresh U n)

mutual
/-- A graph determines the tree below an id. -/
theorem unfolds_unique (g : Graph) (n m : Node) (h1 : Unfolds g n) (h2 : Unfolds g m) (h : n.id = m.id) : n = m := by
  obtain ⟨k, t, i, r, cs⟩ := n
  obtain ⟨k', t', i', r', cs'⟩ := m
  rw [Unfolds] at h1 h2
  have hi : i = i' := h
  subst hi
  have e := h1.1.symm.trans h2.1
  simp only [Option.some.injEq, GNode.mk.injEq] at e
  obtain ⟨rfl, rfl, rfl, e⟩ := e
  rw [unfoldsList_unique g cs cs' h1.2 h2.2 e]
theorem unfoldsList_unique (g : Graph) (ns ms : List Node) (h1 : UnfoldsList g ns) (h2 : UnfoldsList g ms)
    (h : ns.map Node.id = ms.map Node.id) : ns = ms := by
  match ns, ms with
  | [], [] => rfl
  | [], _ :: _ => simp at h
  | _ :: _, [] => simp at h
  | n :: ns, m :: ms =>
    simp only [List.map_cons, List.cons.injEq] at h
    rw [UnfoldsList] at h1 h2
    rw [unfolds_unique g n m h1.1 h2.1 h.1, unfoldsList_unique g ns ms h1.2 h2.2 h.2]
end

/-- The dictionary entry for a node. -/
def entryOf (U : Uni) (n : Node) : Nat × GNode :=
  (n.id, ⟨n.kind, n.tok, match initRes U n.kind n.tok with | .ok r => r | .error _ => .none, n.children.map Node.id⟩)

mutual
theorem unfolds_fresh_iff (U : Uni) (g : Graph) (n : Node) :
    Unfolds g (freshNode U n) ↔ ∀ m ∈ preorder n, g.nodes.get m.id = some (entryOf U m).2 := by
  obtain ⟨k, t, i, r, cs⟩ := n
  rw [freshNode, Unfolds, preorder, List.forall_mem_cons, unfoldsList_fresh_iff U g cs, freshNodes_ids]
  exact Iff.rfl
theorem unfoldsList_fresh_iff (U : Uni) (g : Graph) (ns : List Node) :
    UnfoldsList g (freshNodes U ns) ↔ ∀ m ∈ preorderList ns, g.nodes.get m.id = some (entryOf U m).2 := by
  match ns with
  | [] => simp [freshNodes, UnfoldsList, preorderList]
  | n :: ns =>
    rw [freshNodes, UnfoldsList, preorderList, List.forall_mem_append, unfolds_fresh_iff U g n,
      unfoldsList_fresh_iff U g ns]
end

mutual
/-- Children are nodes of the tree. -/
theorem child_ids_mem (n m : Node) (h : m ∈ preorder n) : ∀ c ∈ m.children, c ∈ preorder n := by
  obtain ⟨k, t, i, r, cs⟩ := n
  rw [preorder] at h ⊢
  intro c hc
  rcases List.mem_cons.1 h with rfl | h
  · exact List.mem_cons_of_mem _ (mem_preorderList hc)
  · exact List.mem_cons_of_mem _ (child_ids_memList cs m h c hc)
theorem child_ids_memList (ns : List Node) (m : Node) (h : m ∈ preorderList ns) :
    ∀ c ∈ m.children, c ∈ preorderList ns := by
  match ns with
  | [] => simp [preorderList] at h
  | n :: ns =>
    rw [preorderList] at h ⊢
    intro c hc
    rcases List.mem_append.1 h with h | h
    · exact List.mem_append_left _ (child_ids_mem n m h c hc)
    · exact List.mem_append_right _ (child_ids_memList ns m h c hc)
theorem mem_preorderList {ns : List Node} {c : Node} (h : c ∈ ns) : c ∈ preorderList ns := by
  match ns with
  | [] => simp at h
  | n :: ns =>
    rw [preorderList]
    rcases List.mem_cons.1 h with rfl | h
    · refine List.mem_append_left _ ?_
      obtain ⟨k, t, i, r, cs⟩ := c
      rw [preorder]; exact List.mem_cons_self ..
    · exact List.mem_append_right _ (mem_preorderList h)
end

theorem self_mem_preorder (n : Node) : n ∈ preorder n := by
  obtain ⟨k, t, i, r, cs⟩ := n; rw [preorder]; exact List.mem_cons_self ..

/-! ### The format -/

/-- C33: `encode` writes exactly the records of the nodes, parents first, and fails if and only if some node has no
record. -/
theorem encode_format (U : Uni) (n : Node) (bs : Bytes) :
    astEncode U n = .ok bs ↔
      ∃ recs, List.Forall₂ (RecOf U) (preorder n) recs ∧ (∀ r ∈ recs, r.Fits) ∧ recs.length < 65536 ∧
        bs = fileBytes 1 recs.length n.id (recs.map Rec.bytes).flatten := astEncode_ok

/-- Every child of every node, and the root, is a node. -/
def Closed (g : Graph) : Prop :=
  (∃ x, g.nodes.get g.root = some x) ∧
    ∀ i x, g.nodes.get i = some x → ∀ c ∈ x.cids, ∃ y, g.nodes.get c = some y

/-- C35: exactly which byte strings decode, and to what: a header, as many records as it announces, all of them
meaningful, closed under children; the version and all bytes after the records are ignored. For a repeated id the last
record counts. -/
theorem decode_iff (U : Uni) (nan : PyFloat) (bs : Bytes) (g : Graph) :
    astDecode U nan bs = .ok g ↔
      ∃ version recs es body tail, version < 256 ∧ recs.length < 65536 ∧ g.root < 65536 ∧
        bs = fileBytes version recs.length g.root body ∧ Stored body recs tail ∧
        List.Forall₂ (RecEntry U nan) recs es ∧ g.nodes = es.foldl (fun d e => IdDict.put d e.1 e.2) [] ∧ Closed g := by
  have hcl : ∀ (es : List (Nat × GNode)) (root : Nat), let d := es.foldl (fun d e => IdDict.put d e.1 e.2) []
      ((d.all (fun e => e.2.cids.all (fun c => (d.get c).isSome)) = true) ∧ (d.get root).isSome = true) ↔
        Closed ⟨d, root⟩ := by
    intro es root d
    have hn : (d.map Prod.fst).Nodup := foldl_put_keys es [] (by simp)
    simp only [List.all_eq_true, Option.isSome_iff_exists, Closed]
    constructor
    · rintro ⟨h1, h2⟩
      exact ⟨h2, fun i x hx c hc => h1 (i, x) ((mem_iff_get hn i x).2 hx) c hc⟩
    · rintro ⟨h1, h2⟩
      exact ⟨fun e he c hc => h2 e.1 e.2 ((mem_iff_get hn e.1 e.2).1 he) c hc, h1⟩
  have hraw : astDecode U nan bs = astDecodeRaw U nan bs := rfl
  rw [hraw]
  simp only [astDecodeRaw, except_bind_ok, Prod.exists, getU_ok, decodeRecs_ok]
  constructor
  · rintro ⟨v, _, ⟨rfl, hv⟩, num, _, ⟨rfl, hnum⟩, root, body, ⟨rfl, hroot⟩, d, ⟨recs, es, rest, rfl, hs, he, rfl⟩, h⟩
    by_cases h1 : (es.foldl (fun d e => IdDict.put d e.1 e.2) []).all (fun e => e.2.cids.all (fun c =>
        ((es.foldl (fun d e => IdDict.put d e.1 e.2) []).get c).isSome)) = true
    · rw [if_pos h1] at h
      by_cases h2 : ((es.foldl (fun d e => IdDict.put d e.1 e.2) []).get root).isSome = true
      · rw [if_pos h2, except_pure_ok] at h
        subst h
        exact ⟨v, recs, es, body, rest, hv, hnum, hroot, by simp [fileBytes], hs, he, rfl, (hcl es root).1 ⟨h1, h2⟩⟩
      · rw [if_neg h2] at h; cases h
    · rw [if_neg h1] at h; cases h
  · rintro ⟨v, recs, es, body, rest, hv, hnum, hroot, rfl, hs, he, hg, hc⟩
    obtain ⟨d, root⟩ := g
    dsimp only at hg hroot
    subst hg
    obtain ⟨h1, h2⟩ := (hcl es root).2 hc
    refine ⟨v, _, ⟨by simp only [fileBytes, List.append_assoc], hv⟩, recs.length, _, ⟨rfl, hnum⟩, root, body, ⟨rfl, hroot⟩, _,
      ⟨recs, es, rest, rfl, hs, he, rfl⟩, ?_⟩
    rw [if_pos h1, if_pos h2]
    rfl

/-- C35: a decoded graph has no dangling references. -/
theorem decode_closed (U : Uni) (nan : PyFloat) (bs : Bytes) (b64 : Bool) (g : Graph)
    (h : astDecode U nan bs b64 = .ok g) : Closed g := by
  cases b64 with
  | false =>
    obtain ⟨_, _, _, _, _, _, _, _, _, _, _, _, h⟩ := (decode_iff U nan bs g).1 h
    exact h
  | true =>
    have h' : (do let raw ← b64decode bs; astDecodeRaw U nan raw) = .ok g := h
    rw [except_bind_ok] at h'
    obtain ⟨raw, -, h2⟩ := h'
    obtain ⟨_, _, _, _, _, _, _, _, _, _, _, _, h⟩ := (decode_iff U nan raw g).1 h2
    exact h

/-- C35: every node of a decoded graph comes from the last record with its id in the same byte string. -/
theorem decode_nodes (U : Uni) (nan : PyFloat) (bs : Bytes) (g : Graph) (h : astDecode U nan bs = .ok g) :
    ∃ recs es body tail, Stored body recs tail ∧ body <:+ bs ∧ List.Forall₂ (RecEntry U nan) recs es ∧
      ∀ i, g.nodes.get i = lastEntry es i := by
  obtain ⟨v, recs, es, body, tail, _, _, _, rfl, h5, h6, h7, _⟩ := (decode_iff U nan bs g).1 h
  refine ⟨recs, es, body, tail, h5, ⟨_, rfl⟩, h6, ?_⟩
  intro i
  rw [h7, get_foldl_put]
  cases lastEntry es i <;> rfl

theorem stored_append {bs rest t : Bytes} {recs : List Rec} (h : Stored bs recs rest)
    (hr : ∀ r ∈ recs, r.size = r.val.length) : Stored (bs ++ t) recs (rest ++ t) := by
  induction h with
  | nil => exact .nil _
  | cons hf hs _ ih =>
    rw [List.append_assoc]
    exact .cons hf hs (ih (fun r h => hr r (List.mem_cons_of_mem _ h)))
  | cut _ _ h1 h2 =>
    have := hr _ (List.mem_singleton_self _)
    omega

theorem stored_nil (recs : List Rec) (hf : ∀ r ∈ recs, r.Fits) (hs : ∀ r ∈ recs, r.size = r.val.length)
    (rest : Bytes) : Stored ((recs.map Rec.bytes).flatten ++ rest) recs rest := by
  induction recs with
  | nil => exact .nil rest
  | cons r recs ih =>
    have hf' := List.forall_mem_cons.1 hf
    have hs' := List.forall_mem_cons.1 hs
    rw [List.map_cons, List.flatten_cons, List.append_assoc]
    exact .cons hf'.1 hs'.1 (ih hf'.2 hs'.2)

/-- C35: neither the version nor anything after the records matters (unless the last record is a number that claims more
bytes than there are). -/
theorem decode_ignores (U : Uni) (nan : PyFloat) (v v' : UInt8) (bs t : Bytes) (g : Graph)
    (h : astDecode U nan (v :: bs) = .ok g) :
    astDecode U nan (v' :: bs) = .ok g ∧
      (astDecode U nan (v' :: bs ++ t) = .ok g ∨
        ∃ recs body, Stored body recs [] ∧ body <:+ bs ∧ ∃ r ∈ recs, r.size ≠ r.val.length) := by
  obtain ⟨w, recs, es, body, tail, h1, h2, h3, h4, h5, h6, h7, h8⟩ := (decode_iff U nan _ g).1 h
  have e : bs = packLE 2 recs.length ++ packLE 2 g.root ++ body := by
    simp only [fileBytes, packLE, List.cons_append, List.nil_append, List.cons.injEq] at h4
    simp only [packLE, List.cons_append, List.nil_append]
    exact h4.2
  have ev : packLE 1 v'.toNat = [v'] := by simp [packLE]
  refine ⟨(decode_iff U nan _ g).2 ⟨v'.toNat, recs, es, body, tail, v'.toNat_lt, h2, h3, ?_, h5, h6, h7, h8⟩, ?_⟩
  · rw [e, fileBytes, ev]; simp
  · by_cases hr : ∀ r ∈ recs, r.size = r.val.length
    · left
      refine (decode_iff U nan _ g).2 ⟨v'.toNat, recs, es, body ++ t, tail ++ t, v'.toNat_lt, h2, h3, ?_,
        stored_append h5 hr, h6, h7, h8⟩
      rw [e, fileBytes, ev]; simp
    · right
      have ht : tail = [] := by
        clear h1 h2 h3 h4 h6 h7 h8 e ev h
        induction h5 with
        | nil => simp at hr
        | cons hf hs _ ih =>
          refine ih ?_
          intro h'
          exact hr (List.forall_mem_cons.2 ⟨hs, h'⟩)
        | cut => rfl
      subst ht
      refine ⟨recs, body, h5, ⟨_, e.symm⟩, ?_⟩
      simpa using hr

/-! ### The round trip -/

theorem forall2_map_left {α β γ : Type} {R : γ → β → Prop} (f : α → γ) (l : List α) (l' : List β) :
    List.Forall₂ R (l.map f) l' ↔ List.Forall₂ (fun a b => R (f a) b) l l' := List.forall₂_map_left_iff

theorem rec_survives (U : Uni) (nan : PyFloat) (n : Node) (hf : NodeFits n) (hc : Constructible U n)
    (hs : Survives n.tok) (hid : ∀ c ∈ n.children, c.id < 65536) :
    ∃ r : Rec, RecOf U n r ∧ r.Fits ∧ RecEntry U nan r (entryOf U n) := by
  obtain ⟨k, ⟨ty, p, v⟩, i, rs, cs⟩ := n
  obtain ⟨f1, ⟨f2, f3⟩, f4, f5⟩ := hf
  obtain ⟨res, hres⟩ := hc
  dsimp only [Node.id, Node.kind, Node.tok, Node.children] at *
  obtain ⟨pn, rfl⟩ : ∃ pn : Nat, p = pn := ⟨p.toNat, by omega⟩
  have key : ∃ val, ValStored U ty v val ∧ ValMeans nan ty val v ∧ val.length < 65536 := by
    unfold Survives at hs
    by_cases hi : ty = .int
    · subst hi
      cases v with
      | int a =>
        obtain ⟨bs, hb⟩ : ∃ bs, packI32 a = .ok bs := by
          unfold packI32; rw [if_pos hs]; exact ⟨_, rfl⟩
        obtain ⟨h1, h2, h3, h4⟩ := packI32_ok.1 hb
        refine ⟨bs, .int h1 h2 h3 h4, ?_, by omega⟩
        have := ValMeans.int (nan := nan) h3
        rw [h4] at this
        exact this
      | _ => exact absurd hs (by simp)
    · by_cases hfl : ty = .float
      · subst hfl
        cases v with
        | flt f =>
          obtain ⟨bs, hb, hl, hu⟩ := unpackF32_packF32 nan f hs
          refine ⟨bs, .float hb, ?_, by omega⟩
          have := ValMeans.float (nan := nan) hl
          rw [hu] at this
          exact this
        | _ => exact absurd hs (by simp)
      · cases v with
        | none => exact ⟨[], .none hi hfl, .none ty, by simp⟩
        | str s =>
          have hs' : s ≠ [] ∧ s.all isAscii = true := by
            cases ty <;> first | exact hs | exact absurd rfl hi | exact absurd rfl hfl
          have hlen := (utf8_length_eq s).2 hs'.2
          have ht : (utf8 s).take s.length = utf8 s := by rw [← hlen]; exact List.take_length
          refine ⟨utf8 s, ?_, .str hi hfl hs'.1, by rw [hlen]; exact f5 s rfl⟩
          have := ValStored.str (U := U) s hi hfl
          rw [ht] at this
          exact this
        | int a => exfalso; revert hs; cases ty <;> first | exact absurd rfl hi | exact absurd rfl hfl | simp
        | flt a => exfalso; revert hs; cases ty <;> first | exact absurd rfl hi | exact absurd rfl hfl | simp
  obtain ⟨val, h1, h2, h3⟩ := key
  refine ⟨⟨i, k.value, ty.value, pn, val.length, val, cs.map Node.id⟩,
    ⟨rfl, (kindNumber_iff _ _).2 rfl, (typeNumber_iff _ _).2 rfl, rfl, h1, rfl, rfl⟩,
    ⟨f1, kindValue_lt k, typeValue_lt ty, by dsimp only; omega, h3, by simpa using f4, ?_⟩,
    ⟨rfl, rfl, ⟨(kindNumber_iff _ _).2 rfl, (typeNumber_iff _ _).2 rfl, rfl, h2⟩, ?_⟩⟩
  · intro c hc
    obtain ⟨m, hm, rfl⟩ := List.mem_map.1 hc
    exact hid m hm
  · simp only [entryOf, Node.kind, Node.tok]
    rw [hres]

theorem recs_survive (U : Uni) (nan : PyFloat) (ms : List Node) (hf : ∀ m ∈ ms, NodeFits m)
    (hc : ∀ m ∈ ms, Constructible U m) (hs : ∀ m ∈ ms, Survives m.tok)
    (hid : ∀ m ∈ ms, ∀ c ∈ m.children, c.id < 65536) :
    ∃ recs, List.Forall₂ (RecOf U) ms recs ∧ (∀ r ∈ recs, r.Fits) ∧
      List.Forall₂ (RecEntry U nan) recs (ms.map (entryOf U)) := by
  induction ms with
  | nil => exact ⟨[], .nil, by simp, .nil⟩
  | cons m ms ih =>
    rw [List.forall_mem_cons] at hf hc hs hid
    obtain ⟨r, h1, h2, h3⟩ := rec_survives U nan m hf.1 hc.1 hs.1 hid.1
    obtain ⟨recs, h4, h5, h6⟩ := ih hf.2 hc.2 hs.2 hid.2
    exact ⟨r :: recs, .cons h1 h4, List.forall_mem_cons.2 ⟨h2, h5⟩, .cons h3 h6⟩

theorem lastEntry_nodup (es : List (Nat × GNode)) (h : (es.map Prod.fst).Nodup) (e : Nat × GNode) (he : e ∈ es) :
    lastEntry es e.1 = some e.2 := by
  induction es with
  | nil => simp at he
  | cons f es ih =>
    obtain ⟨h1, h2⟩ := List.nodup_cons.1 h
    rw [lastEntry_cons]
    rcases List.mem_cons.1 he with rfl | he
    · have : lastEntry es e.1 = none := by
        unfold lastEntry
        rw [Option.map_eq_none_iff, List.find?_eq_none]
        intro x hx
        rw [List.mem_reverse] at hx
        simp only [beq_iff_eq]
        intro hxe
        exact h1 (hxe ▸ List.mem_map_of_mem (f := Prod.fst) hx)
      rw [this]; simp
    · rw [ih h2 he]; rfl

theorem recOf_size {U : Uni} {ms : List Node} {recs : List Rec} (h : List.Forall₂ (RecOf U) ms recs) :
    ∀ r ∈ recs, r.size = r.val.length := by
  induction h with
  | nil => simp
  | cons h1 _ ih => exact List.forall_mem_cons.2 ⟨h1.size, ih⟩

/-- C33: if the ids are distinct and all numbers fit, and all values survive, the decoded graph is the encoded tree. -/
theorem encode_decode (U : Uni) (nan : PyFloat) (n : Node) (hd : ((preorder n).map Node.id).Nodup)
    (hn : (preorder n).length < 65536) (hf : ∀ m ∈ preorder n, NodeFits m) (hc : ∀ m ∈ preorder n, Constructible U m)
    (hs : ∀ m ∈ preorder n, Survives m.tok) :
    ∃ bs g, astEncode U n = .ok bs ∧ astDecode U nan bs = .ok g ∧ g.root = n.id ∧ Unfolds g (freshNode U n) := by
  obtain ⟨recs, h1, h2, h3⟩ := recs_survive U nan (preorder n) hf hc hs
    (fun m hm c hcm => (hf c (child_ids_mem n m hm c hcm)).id)
  have hl : recs.length = (preorder n).length := h1.length_eq.symm
  have hgets : ∀ m ∈ preorder n, (((preorder n).map (entryOf U)).foldl (fun d e => IdDict.put d e.1 e.2) []).get m.id =
      some (entryOf U m).2 := by
    intro m hm
    rw [get_foldl_put, show m.id = (entryOf U m).1 from rfl, lastEntry_nodup _ ?_ _ (List.mem_map_of_mem hm)]
    · rfl
    · rw [List.map_map]; exact hd
  refine ⟨fileBytes 1 recs.length n.id (recs.map Rec.bytes).flatten,
    ⟨((preorder n).map (entryOf U)).foldl (fun d e => IdDict.put d e.1 e.2) [], n.id⟩,
    astEncode_ok.2 ⟨recs, h1, h2, by omega, rfl⟩, ?_, rfl, ?_⟩
  · refine (decode_iff U nan _ _).2 ⟨1, recs, _, _, [], by omega, by omega, (hf n (self_mem_preorder n)).id, rfl, ?_, h3, rfl,
      ⟨_, hgets n (self_mem_preorder n)⟩, ?_⟩
    · have := stored_nil recs h2 (recOf_size h1) []
      rwa [List.append_nil] at this
    · intro i x hx c hcx
      dsimp only at hx ⊢
      rw [get_foldl_put] at hx
      have : ∃ e ∈ (preorder n).map (entryOf U), e.2 = x := by
        unfold lastEntry at hx
        rw [show IdDict.get [] i = none from rfl, Option.or_none, Option.map_eq_some_iff] at hx
        obtain ⟨e, he, rfl⟩ := hx
        exact ⟨e, List.mem_reverse.1 (List.mem_of_find?_eq_some he), rfl⟩
      obtain ⟨e, he, rfl⟩ := this
      obtain ⟨m, hm, rfl⟩ := List.mem_map.1 he
      obtain ⟨m', hm', rfl⟩ := List.mem_map.1 hcx
      exact ⟨_, hgets m' (child_ids_mem n m hm m' hm')⟩
  · exact (unfolds_fresh_iff U _ n).2 hgets

theorem packLE_append_inj {k a b : Nat} {x y : Bytes} (ha : a < 256 ^ k) (hb : b < 256 ^ k)
    (h : packLE k a ++ x = packLE k b ++ y) : a = b ∧ x = y := by
  obtain ⟨h1, h2⟩ := List.append_inj h (by simp)
  exact ⟨packLE_inj ha hb h1, h2⟩

theorem flatMap_pack_inj {is js : List Nat} {x y : Bytes} (hl : is.length = js.length) (hi : ∀ i ∈ is, i < 65536)
    (hj : ∀ i ∈ js, i < 65536) (h : is.flatMap (packLE 2) ++ x = js.flatMap (packLE 2) ++ y) : is = js ∧ x = y := by
  induction is generalizing js with
  | nil => cases js with
    | nil => exact ⟨rfl, by simpa using h⟩
    | cons => simp at hl
  | cons i is ih => cases js with
    | nil => simp at hl
    | cons j js =>
      rw [List.forall_mem_cons] at hi hj
      simp only [List.flatMap_cons, List.append_assoc] at h
      obtain ⟨rfl, h'⟩ := packLE_append_inj hi.1 hj.1 h
      obtain ⟨rfl, h''⟩ := ih (by simpa using hl) hi.2 hj.2 h'
      exact ⟨rfl, h''⟩

theorem rec_head_inj {r r' : Rec} {x y : Bytes} (hf : r.Fits) (hf' : r'.Fits) (h : r.bytes ++ x = r'.bytes ++ y) :
    r.id = r'.id ∧ r.ntype = r'.ntype ∧ r.ttype = r'.ttype ∧ r.pos = r'.pos ∧ r.size = r'.size ∧
      r.cids.length = r'.cids.length ∧
      r.val ++ (r.cids.flatMap (packLE 2) ++ x) = r'.val ++ (r'.cids.flatMap (packLE 2) ++ y) := by
  simp only [Rec.bytes, List.append_assoc] at h
  obtain ⟨e1, h⟩ := packLE_append_inj hf.id hf'.id h
  obtain ⟨e2, h⟩ := packLE_append_inj hf.ntype hf'.ntype h
  obtain ⟨e3, h⟩ := packLE_append_inj hf.ttype hf'.ttype h
  obtain ⟨e4, h⟩ := packLE_append_inj hf.pos hf'.pos h
  obtain ⟨e5, h⟩ := packLE_append_inj hf.size hf'.size h
  obtain ⟨e6, h⟩ := packLE_append_inj hf.num hf'.num h
  exact ⟨e1, e2, e3, e4, e5, e6, h⟩

/-- C35: the format is unambiguous: a byte string holds one list of records of a given length. -/
theorem stored_unique {bs rest rest' : Bytes} {recs recs' : List Rec} (h : Stored bs recs rest)
    (h' : Stored bs recs' rest') (hl : recs.length = recs'.length) : recs = recs' ∧ rest = rest' := by
  induction h generalizing recs' with
  | nil =>
    cases h' with
    | nil => exact ⟨rfl, rfl⟩
    | cons => simp at hl
    | cut => simp at hl
  | @cons r bs recs rest hf hs hr ih =>
    generalize hb : r.bytes ++ bs = b at h'
    cases h' with
    | nil => simp at hl
    | @cons r' bs' recs'' _ hf' hs' hr' =>
      obtain ⟨e1, e2, e3, e4, e5, e6, e7⟩ := rec_head_inj hf hf' hb
      obtain ⟨e8, e9⟩ := List.append_inj e7 (by omega)
      obtain ⟨e10, rfl⟩ := flatMap_pack_inj e6 hf.cids hf'.cids e9
      obtain ⟨rfl, rfl⟩ := ih hr' (by simpa using hl)
      obtain ⟨a1, a2, a3, a4, a5, a6, a7⟩ := r
      obtain ⟨b1, b2, b3, b4, b5, b6, b7⟩ := r'
      dsimp only at e1 e2 e3 e4 e5 e8 e10
      subst e1 e2 e3 e4 e5 e8 e10
      exact ⟨rfl, rfl⟩
    | @cut r' hf' c1 c2 c3 c4 =>
      have hb' : r.bytes ++ bs = r'.bytes ++ [] := by rw [hb, List.append_nil]
      obtain ⟨e1, e2, e3, e4, e5, e6, e7⟩ := rec_head_inj hf hf' hb'
      have := congrArg List.length e7
      rw [c4] at this
      simp only [List.length_append, List.flatMap_nil, List.length_nil] at this
      omega
  | @cut r hf c1 c2 c3 c4 =>
    generalize hb : r.bytes = b at h'
    cases h' with
    | nil => simp at hl
    | @cons r' bs' recs'' _ hf' hs' hr' =>
      have hb' : r.bytes ++ [] = r'.bytes ++ bs' := by rw [← hb, List.append_nil]
      obtain ⟨e1, e2, e3, e4, e5, e6, e7⟩ := rec_head_inj hf hf' hb'
      have := congrArg List.length e7
      rw [c4] at this
      simp only [List.length_append, List.flatMap_nil, List.length_nil] at this
      omega
    | @cut r' hf' d1 d2 d3 d4 =>
      have hb' : r.bytes ++ [] = r'.bytes ++ [] := by rw [hb]
      obtain ⟨e1, e2, e3, e4, e5, e6, e7⟩ := rec_head_inj hf hf' hb'
      rw [c4, d4] at e7
      simp only [List.flatMap_nil, List.append_nil] at e7
      obtain ⟨a1, a2, a3, a4, a5, a6, a7⟩ := r
      obtain ⟨b1, b2, b3, b4, b5, b6, b7⟩ := r'
      dsimp only at e1 e2 e3 e4 e5 e7 c4 d4
      subst e1 e2 e3 e4 e5 e7 c4 d4
      exact ⟨rfl, rfl⟩

theorem unpackLE_packF32 {f : PyFloat} {bs : Bytes} (h : packF32 f = .ok bs) :
    unpackLE bs % 2 ^ 31 ≤ 255 * 2 ^ 23 := by
  unfold packF32 at h
  cases f with
  | inf neg =>
    injection h with h
    rw [← h, unpackLE_packLE (by cases neg <;> simp)]
    cases neg <;> simp
  | fin q =>
    dsimp only at h
    by_cases h0 : q = 0
    · rw [if_pos h0] at h
      injection h with h
      rw [← h, unpackLE_packLE (by norm_num)]
      norm_num
    · rw [if_neg h0] at h
      generalize f32Bits (if q < 0 then -q else q) = b at h
      by_cases hb : b < 255 * 2 ^ 23
      · rw [if_pos hb] at h
        injection h with h
        have hc : (if q < 0 then 2 ^ 31 else 0) = 2 ^ 31 ∨ (if q < 0 then 2 ^ 31 else 0) = 0 := by
          by_cases hq : q < 0
          · left; rw [if_pos hq]
          · right; rw [if_neg hq]
        generalize (if q < 0 then 2 ^ 31 else 0) = c at h hc
        rw [← h, unpackLE_packLE (by rcases hc with rfl | rfl <;> omega)]
        rcases hc with rfl | rfl <;> omega
      · rw [if_neg hb] at h; cases h

/-- A value that is stored and read back unchanged survives in the sense of the specification. -/
theorem survives_of {U : Uni} {nan : PyFloat} {ty : TokenType} {p : Int} {v : TVal} {val : Bytes} (h1 : ValStored U ty v val)
    (h2 : ValMeans nan ty val v) : Survives ⟨ty, p, v⟩ := by
  cases h1 with
  | none hi hf => unfold Survives; cases ty <;> first | exact absurd rfl hi | exact absurd rfl hf | trivial
  | str s hi hf =>
    have key : s ≠ [] ∧ s.all isAscii = true := by
      generalize hv : (TVal.str s) = v at h2
      generalize hb : (utf8 s).take s.length = b at h2
      cases h2 with
      | none => cases hv
      | int => exact absurd rfl hi
      | float => exact absurd rfl hf
      | str _ _ h =>
        injection hv with hv
        subst hv
        refine ⟨h, (utf8_length_eq s).1 ?_⟩
        have := congrArg List.length hb
        rw [List.length_take] at this
        have := utf8_length s
        omega
    unfold Survives; cases ty <;> first | exact key | exact absurd rfl hi | exact absurd rfl hf
  | int a b => exact ⟨a, b⟩
  | @float f bs hp =>
    generalize hv : (TVal.flt f) = v at h2
    cases h2 with
    | none => cases hv
    | float h =>
      injection hv with hv
      subst hv
      exact unpackF32_isF32 nan val (unpackLE_packF32 hp)
    | str _ h => exact absurd rfl h
  | @floatInt i q bs hr hp =>
    generalize hv : (TVal.int i) = v at h2
    cases h2 with
    | none => cases hv
    | float h => cases hv
    | str _ h => exact absurd rfl h

theorem entries_keys {U : Uni} {nan : PyFloat} {ms : List Node} {recs : List Rec} {es : List (Nat × GNode)}
    (h1 : List.Forall₂ (RecOf U) ms recs) (h2 : List.Forall₂ (RecEntry U nan) recs es) :
    es.map Prod.fst = ms.map Node.id := by
  induction h1 generalizing es with
  | nil => cases h2; rfl
  | cons h _ ih =>
    cases h2 with
    | cons h' h2 => simp [h'.id, h.id, ih h2]

theorem entries_of {U : Uni} {nan : PyFloat} {ms : List Node} {recs : List Rec} {es : List (Nat × GNode)}
    (h1 : List.Forall₂ (RecOf U) ms recs) (h2 : List.Forall₂ (RecEntry U nan) recs es) :
    ∀ m ∈ ms, ∃ r e, RecOf U m r ∧ RecEntry U nan r e ∧ e ∈ es := by
  induction h1 generalizing es with
  | nil => simp
  | cons h _ ih =>
    cases h2 with
    | cons h' h2 =>
      intro x hx
      rcases List.mem_cons.1 hx with rfl | hx
      · exact ⟨_, _, h, h', List.mem_cons_self ..⟩
      · obtain ⟨r, e, q1, q2, q3⟩ := ih h2 x hx
        exact ⟨r, e, q1, q2, List.mem_cons_of_mem _ q3⟩

/-- C33/C34: for every tree with distinct ids and numbers in range, encoding followed by decoding gives the same tree back
if and only if all token values survive: 32 bit ints, binary32 floats, non-empty ASCII strings, `None`. -/
theorem encode_decode_iff (U : Uni) (nan : PyFloat) (n : Node) (hd : ((preorder n).map Node.id).Nodup)
    (hn : (preorder n).length < 65536) (hf : ∀ m ∈ preorder n, NodeFits m)
    (hc : ∀ m ∈ preorder n, Constructible U m) :
    (∃ bs g, astEncode U n = .ok bs ∧ astDecode U nan bs = .ok g ∧ g.root = n.id ∧ Unfolds g (freshNode U n)) ↔
      ∀ m ∈ preorder n, Survives m.tok := by
  constructor
  · rintro ⟨bs, g, h1, h2, -, h4⟩ m hm
    obtain ⟨recs, a1, a2, a3, rfl⟩ := astEncode_ok.1 h1
    obtain ⟨v, recs', es, body, tail, b1, b2, b3, b4, b5, b6, b7, -⟩ := (decode_iff U nan _ g).1 h2
    unfold fileBytes at b4
    simp only [List.append_assoc] at b4
    obtain ⟨-, b4⟩ := packLE_append_inj (by norm_num) b1 b4
    obtain ⟨hlen, b4⟩ := packLE_append_inj a3 b2 b4
    obtain ⟨-, b4⟩ := packLE_append_inj (hf n (self_mem_preorder n)).id b3 b4
    have hst := stored_nil recs a2 (recOf_size a1) []
    rw [List.append_nil, b4] at hst
    obtain ⟨rfl, -⟩ := stored_unique hst b5 hlen
    have hkeys := entries_keys a1 b6
    have hget := (unfolds_fresh_iff U g n).1 h4
    have hent := entries_of a1 b6
    obtain ⟨r, e, q1, q2, q3⟩ := hent m hm
    have hg := hget m hm
    rw [b7, get_foldl_put, show m.id = e.1 by rw [q2.id, q1.id], lastEntry_nodup es (by rw [hkeys]; exact hd) e q3] at hg
    injection hg with hg
    have ht : e.2.tok = m.tok := by rw [hg]; rfl
    have hv := q2.means.value
    rw [ht] at hv
    exact survives_of q1.value hv
  · exact encode_decode U nan n hd hn hf hc

/-- C33: base64 changes nothing. -/
theorem base64_transparent (U : Uni) (nan : PyFloat) (n : Node) (bs : Bytes) :
    (astEncode U n = .ok bs ↔ astEncode U n true = .ok (b64encode bs)) ∧
      astDecode U nan (b64encode bs) true = astDecode U nan bs := by
  constructor
  · simp only [astEncode, except_bind_ok, except_pure_ok]
    constructor
    · rintro ⟨a, ha, b, hb, c, hc, d, hd, rfl⟩
      exact ⟨a, ha, b, hb, c, hc, d, hd, rfl⟩
    · rintro ⟨a, ha, b, hb, c, hc, d, hd, h⟩
      exact ⟨a, ha, b, hb, c, hc, d, hd, b64encode_inj h⟩
  · show (do let raw ← b64decode (b64encode bs); astDecodeRaw U nan raw) = _
    rw [b64decode_b64encode]
    rfl

/-! ### Parsed ASTs -/

/-- Results are as the constructors left them, in the whole tree. -/
def FreshTree (U : Uni) (n : Node) : Prop := ∀ m ∈ preorder n, initRes U m.kind m.tok = .ok m.res

mutual
theorem fresh_self (U : Uni) (n : Node) (h : FreshTree U n) : freshNode U n = n := by
  obtain ⟨k, t, i, r, cs⟩ := n
  unfold FreshTree at h
  rw [preorder, List.forall_mem_cons] at h
  have h1 : initRes U k t = .ok r := h.1
  rw [freshNode, h1, fresh_selfs U cs h.2]
theorem fresh_selfs (U : Uni) (ns : List Node) (h : ∀ m ∈ preorderList ns, initRes U m.kind m.tok = .ok m.res) :
    freshNodes U ns = ns := by
  match ns with
  | [] => rfl
  | n :: ns =>
    rw [preorderList, List.forall_mem_append] at h
    rw [freshNodes, fresh_self U n h.1, fresh_selfs U ns h.2]
end

theorem fresh_atom (U : Uni) (t : Token) (k : Nat) (h : AtomTok false t) : FreshTree U (atomNode t k) := by
  obtain ⟨ty, p, v⟩ := t
  simp only [AtomTok, Bool.false_eq_true, false_and, or_false] at h
  simp only [FreshTree, atomNode, preorder, preorderList, List.mem_singleton, forall_eq, Node.kind, Node.tok, Node.res]
  rcases h with rfl | rfl | rfl | rfl
  · cases v <;> rfl
  · cases v <;> rfl
  · cases v <;> rfl
  · rfl

theorem fresh_att (U : Uni) (t : Token) (k : Nat) (h : AttTok t) : FreshTree U (attNode t k) := by
  obtain ⟨ty, p, v⟩ := t
  unfold AttTok at h
  simp only at h
  simp only [FreshTree, attNode, preorder, preorderList, List.mem_singleton, forall_eq, Node.kind, Node.tok, Node.res]
  rcases h with rfl | rfl | rfl | rfl | rfl <;> rfl

theorem fresh_atoms (U : Uni) (es : List Token) (k : Nat) (h : ∀ t ∈ es, AtomTok false t) :
    ∀ m ∈ preorderList (atomNodes es k), initRes U m.kind m.tok = .ok m.res := by
  induction es generalizing k with
  | nil => simp [atomNodes, preorderList]
  | cons e es ih =>
    rw [atomNodes, preorderList, List.forall_mem_append]
    rw [List.forall_mem_cons] at h
    exact ⟨fresh_atom U e k h.1, ih (k + 1) h.2⟩

theorem fresh_operand (U : Uni) (v : Operand) (k : Nat) (h : v.WF) : FreshTree U (v.build k).1 := by
  cases v with
  | att t => exact fresh_att U t k h
  | atom t => exact fresh_atom U t k h
  | set l es =>
    simp only [FreshTree, Operand.build, preorder, List.forall_mem_cons]
    exact ⟨rfl, fresh_atoms U es k h.2⟩

theorem fresh_build (U : Uni) (p : Policy) (k : Nat) (h : p.WF) : FreshTree U (p.build U k).1 := by
  induction p generalizing k with
  | cmp l o r =>
    simp only [FreshTree, Policy.build, preorder, preorderList, List.forall_mem_cons, List.forall_mem_append]
    exact ⟨rfl, fresh_operand U l k h.1, fresh_operand U r _ h.2.2, by simp⟩
  | lit t =>
    obtain ⟨ty, pos, v⟩ := t
    obtain ⟨h1, s, h2⟩ := h
    dsimp only at h1 h2
    subst h1 h2
    simp only [FreshTree, Policy.build, preorder, preorderList, List.mem_singleton, forall_eq, Node.kind, Node.tok, Node.res,
      initRes, litTri]
    split
    · rfl
    · split <;> rfl
  | att t => exact fresh_att U t k h
  | not n p ih =>
    simp only [FreshTree, Policy.build, preorder, preorderList, List.forall_mem_cons, List.forall_mem_append]
    exact ⟨rfl, ih k h.2, by simp⟩
  | bin o p q ihp ihq =>
    simp only [FreshTree, Policy.build, preorder, preorderList, List.forall_mem_cons, List.forall_mem_append]
    exact ⟨rfl, ihp k h.2.1, ihq _ h.2.2, by simp⟩

mutual
theorem preorder_ids (n : Node) : List.Perm ((preorder n).map Node.id) (postIds n) := by
  obtain ⟨k, t, i, r, cs⟩ := n
  rw [preorder, postIds, List.map_cons]
  exact (List.Perm.cons _ (preorderList_ids cs)).trans (List.perm_append_singleton _ _).symm
theorem preorderList_ids (ns : List Node) : List.Perm ((preorderList ns).map Node.id) (postIdsList ns) := by
  match ns with
  | [] => rw [preorderList, postIdsList]; exact List.Perm.nil
  | n :: ns =>
    rw [preorderList, postIdsList, List.map_append]
    exact (preorder_ids n).append (preorderList_ids ns)
end

mutual
theorem preorder_toks (n : Node) : List.Perm ((preorder n).map Node.tok) (inorder n) := by
  obtain ⟨k, t, i, r, cs⟩ := n
  have hcs := preorderList_toks cs
  rw [preorder, List.map_cons]
  have hd : List.Perm (t :: (preorderList cs).map Node.tok) (t :: inorderList cs) := hcs.cons _
  unfold inorder
  split
  · rename_i l cs' heq
    cases heq
    refine hd.trans ?_
    rw [inorderList]
    exact List.perm_middle.symm
  · rename_i l cs' heq
    cases heq
    refine hd.trans ?_
    rw [inorderList]
    exact List.perm_middle.symm
  · rename_i heq
    cases heq
    exact hd
theorem preorderList_toks (ns : List Node) : List.Perm ((preorderList ns).map Node.tok) (inorderList ns) := by
  match ns with
  | [] => rw [preorderList, inorderList]; exact List.Perm.nil
  | n :: ns =>
    rw [preorderList, inorderList, List.map_append]
    exact (preorder_toks n).append (preorderList_toks ns)
end

theorem length_le_preorderList (ns : List Node) : ns.length ≤ (preorderList ns).length := by
  induction ns with
  | nil => simp
  | cons n ns ih =>
    have := List.length_pos_of_mem (self_mem_preorder n)
    rw [preorderList, List.length_append, List.length_cons]
    omega

mutual
theorem children_lt (n m : Node) (h : m ∈ preorder n) : m.children.length < (preorder n).length := by
  obtain ⟨k, t, i, r, cs⟩ := n
  rw [preorder] at h ⊢
  rw [List.length_cons]
  rcases List.mem_cons.1 h with rfl | h
  · have := length_le_preorderList cs
    simp only [Node.children]
    omega
  · have := children_ltList cs m h
    omega
theorem children_ltList (ns : List Node) (m : Node) (h : m ∈ preorderList ns) :
    m.children.length < (preorderList ns).length := by
  match ns with
  | [] => simp [preorderList] at h
  | n :: ns =>
    rw [preorderList] at h ⊢
    rw [List.length_append]
    rcases List.mem_append.1 h with h | h
    · have := children_lt n m h; omega
    · have := children_ltList ns m h; omega
end

/-- C34: an AST the parser returns, while ids, positions and text lengths are below 2^16, survives the round trip unchanged
if and only if every token that leaves a trace in it carries a surviving value. (Every AST surviving is false: see the
witnesses below.) -/
theorem parsed_round_trip (U : Uni) (nan : PyFloat) (k k' : Nat) (b e : Token) (ts : List Token) (n : Node)
    (hb : b.type = .start) (he : e.type = .«end») (hts : ∀ t ∈ ts, t.type ≠ .«end»)
    (h : parseTokens U k (b :: (ts ++ [e])) = .ok (n, k')) (hk : k' < 65536)
    (hp : ∀ t ∈ ts, (0 ≤ t.pos ∧ t.pos < 65536) ∧ ∀ s, t.value = .str s → s.length < 65536) :
    (∃ bs g, astEncode U n = .ok bs ∧ astDecode U nan bs = .ok g ∧ g.root = n.id ∧ Unfolds g n) ↔
      ∀ t ∈ ts, Punct t = false → Survives t := by
  obtain ⟨p, hwf, hbuild⟩ := parse_tree U k k' _ n h
  obtain ⟨h1, h2, -⟩ := parse_ids U k k' _ n h
  have hfresh : FreshTree U n := by have := fresh_build U p k hwf; rwa [hbuild] at this
  have htok := parse_tokens U k k' b e ts n hb he hts h
  have hperm := preorder_ids n
  rw [h2] at hperm
  have hmem : ∀ m ∈ preorder n, m.tok ∈ ts ∧ Punct m.tok = false := by
    intro m hm
    have := (preorder_toks n).mem_iff.1 (List.mem_map_of_mem (f := Node.tok) hm)
    rw [htok, List.mem_filter] at this
    exact ⟨this.1, by simpa using this.2⟩
  have hlen : (preorder n).length = k' - k := by
    have := hperm.length_eq
    simpa using this
  have key := encode_decode_iff U nan n (hperm.nodup_iff.2 (List.nodup_range' ..)) (by omega)
    (fun m hm => ⟨by
        have := hperm.mem_iff.1 (List.mem_map_of_mem (f := Node.id) hm)
        rw [List.mem_range'_1] at this
        omega, (hp _ (hmem m hm).1).1, by have := children_lt n m hm; omega, (hp _ (hmem m hm).1).2⟩)
    (fun m hm => ⟨_, hfresh m hm⟩)
  rw [fresh_self U n hfresh] at key
  rw [key]
  constructor
  · intro hs t ht hpt
    have : t ∈ inorder n := by rw [htok, List.mem_filter]; exact ⟨ht, by simpa using hpt⟩
    obtain ⟨m, hm, rfl⟩ := List.mem_map.1 ((preorder_toks n).mem_iff.2 this)
    exact hs m hm
  · intro hs m hm
    exact hs _ (hmem m hm).1 (hmem m hm).2

/-- The literals and names of a policy text that survive: ints of 32 bits, binary32 floats, non-empty strings and ASCII
attribute names. -/
def Portable (t : Token) : Prop :=
  (∀ i, t.type = .int → t.value = .int i → -2 ^ 31 ≤ i ∧ i < 2 ^ 31) ∧
  (∀ f, t.type = .float → t.value = .flt f → IsF32 f) ∧
  (t.type = .string → t.value ≠ .str []) ∧
  (∀ s, IsAtt t.type → t.value = .str s → s.all isAscii = true)

theorem strChar_ascii {c : Char} (h : StrChar c) : isAscii c = true := by
  obtain ⟨_, h, _⟩ := h
  simp only [isAscii, decide_eq_true_eq]
  omega

/-- For tokens made by the lexer, surviving is about these four cases only. -/
theorem lexeme_portable {U : Uni} {w : Str} {ty : TokenType} {v : TVal} {nx : Option Char} (h : Lexeme U w ty v nx)
    (p : Int) : Survives ⟨ty, p, v⟩ ↔ Portable ⟨ty, p, v⟩ := by
  cases h with
  | punct w ty v nx h =>
    simp only [punctuation, List.mem_cons, Prod.mk.injEq, List.not_mem_nil, or_false] at h
    rcases h with ⟨_, rfl, rfl⟩ | ⟨_, rfl, rfl⟩ | ⟨_, rfl, rfl⟩ | ⟨_, rfl, rfl⟩ | ⟨_, rfl, rfl⟩ |
      ⟨_, rfl, rfl⟩ | ⟨_, rfl, rfl⟩ | ⟨_, rfl, rfl⟩ | ⟨_, rfl, rfl⟩ <;>
      simp [Survives, Portable, IsAtt, attClasses, optVal, isAscii]
  | gt => simp [Survives, Portable, IsAtt, attClasses, isAscii]
  | lt => simp [Survives, Portable, IsAtt, attClasses, isAscii]
  | string body nx h =>
    simp only [Survives, Portable, reduceCtorEq, false_imp_iff, implies_true, true_and, ne_eq, TVal.str.injEq, IsAtt, attClasses]
    simp only [List.mem_cons, Prod.mk.injEq, reduceCtorEq, and_false, List.not_mem_nil, or_false, exists_false,
      false_imp_iff, implies_true, and_true, forall_const]
    constructor
    · exact fun h => h.1
    · exact fun h' => ⟨h', List.all_eq_true.2 (fun c hc => strChar_ascii (h c hc))⟩
  | int => simp [Survives, Portable, IsAtt, attClasses]
  | float => simp [Survives, Portable, IsAtt, attClasses]
  | att pre ident kw ty nx hc hp hne hid hx =>
    have ha : IsAtt ty := ⟨kw, hc⟩
    have e1 : Survives ⟨ty, p, .str ident⟩ ↔ (ident ≠ [] ∧ ident.all isAscii = true) := by
      simp only [attClasses, List.mem_cons, Prod.mk.injEq, List.not_mem_nil, or_false] at hc
      rcases hc with ⟨_, rfl⟩ | ⟨_, rfl⟩ | ⟨_, rfl⟩ | ⟨_, rfl⟩ | ⟨_, rfl⟩ <;> exact Iff.rfl
    have e2 : ty ≠ .string := by
      simp only [attClasses, List.mem_cons, Prod.mk.injEq, List.not_mem_nil, or_false] at hc
      rcases hc with ⟨_, rfl⟩ | ⟨_, rfl⟩ | ⟨_, rfl⟩ | ⟨_, rfl⟩ | ⟨_, rfl⟩ <;> simp
    rw [e1]
    constructor
    · rintro ⟨_, h⟩
      exact ⟨fun i _ h => by simp at h, fun f _ h => by simp at h, fun h => absurd h e2,
        fun s _ h' => by injection h' with h'; rw [← h']; exact h⟩
    · intro h
      exact ⟨hne, h.2.2.2 ident ha rfl⟩
  | keyword w kw ty v nx hk =>
    simp only [keywords, List.mem_cons, Prod.mk.injEq, List.not_mem_nil, or_false] at hk
    rcases hk with ⟨_, rfl, rfl⟩ | ⟨_, rfl, rfl⟩ | ⟨_, rfl, rfl⟩ | ⟨_, rfl, rfl⟩ | ⟨_, rfl, rfl⟩ |
      ⟨_, rfl, rfl⟩ | ⟨_, rfl, rfl⟩ | ⟨_, rfl, rfl⟩ | ⟨_, rfl, rfl⟩ <;>
      simp [Survives, Portable, IsAtt, attClasses, isAscii]

/-- Values are not longer than their lexemes. -/
theorem lexeme_value_length {U : Uni} {w : Str} {ty : TokenType} {v : TVal} {nx : Option Char} (h : Lexeme U w ty v nx)
    (s : Str) (hv : v = .str s) : s.length ≤ w.length := by
  cases h with
  | punct w ty v nx h =>
    simp only [punctuation, List.mem_cons, Prod.mk.injEq, List.not_mem_nil, or_false] at h
    rcases h with ⟨rfl, _, rfl⟩ | ⟨rfl, _, rfl⟩ | ⟨rfl, _, rfl⟩ | ⟨rfl, _, rfl⟩ | ⟨rfl, _, rfl⟩ |
      ⟨rfl, _, rfl⟩ | ⟨rfl, _, rfl⟩ | ⟨rfl, _, rfl⟩ | ⟨rfl, _, rfl⟩ <;>
      simp only [optVal, reduceCtorEq, TVal.str.injEq] at hv <;> subst hv <;> decide
  | gt => injection hv with hv; subst hv; simp
  | lt => injection hv with hv; subst hv; simp
  | string body nx h => injection hv with hv; subst hv; simp; omega
  | int => simp at hv
  | float => simp at hv
  | att pre ident => injection hv with hv; subst hv; simp; omega
  | keyword w kw ty v nx hk hw =>
    injection hv with hv
    subst hv
    have hl : w.length = kw.toList.length := by rw [← hw, List.length_map]
    rw [hl]
    simp only [keywords, List.mem_cons, Prod.mk.injEq, List.not_mem_nil, or_false] at hk
    rcases hk with ⟨rfl, _, rfl⟩ | ⟨rfl, _, rfl⟩ | ⟨rfl, _, rfl⟩ | ⟨rfl, _, rfl⟩ | ⟨rfl, _, rfl⟩ |
      ⟨rfl, _, rfl⟩ | ⟨rfl, _, rfl⟩ | ⟨rfl, _, rfl⟩ | ⟨rfl, _, rfl⟩ <;> decide

/-- C34: the AST of a policy text shorter than 2^16, with ids below 2^16, survives encoding and decoding unchanged if and
only if its ints have 32 bits, its floats are binary32, no string literal is empty and attribute names are ASCII. -/
theorem text_round_trip (U : Uni) (hU : U.Lawful) (nan : PyFloat) (k k' : Nat) (text : Str) (toks : List Token) (n : Node)
    (hl : lexTokens U text = .ok toks) (h : parseText U k text = .ok (n, k')) (hk : k' < 65536)
    (ht : text.length < 65536) :
    (∃ bs g, astEncode U n = .ok bs ∧ astDecode U nan bs = .ok g ∧ g.root = n.id ∧ Unfolds g n) ↔
      ∀ t ∈ toks, Portable t := by
  obtain ⟨mid, h1, h2, -⟩ := token_positions U hU text toks hl
  obtain ⟨mid', h1', h2'⟩ := tokens_bracketed U hU text toks hl
  have hmid : mid' = mid := by
    rw [h1] at h1'
    simp only [List.cons_append, List.cons.injEq, true_and] at h1'
    exact (List.append_cancel_right h1').symm
  subst hmid
  have hp : parseTokens U k (⟨.start, 0, .none⟩ :: (mid' ++ [⟨.«end», text.length, .none⟩])) = .ok (n, k') := by
    unfold parseText at h
    rw [hl, h1] at h
    exact h
  rw [parsed_round_trip U nan k k' _ _ mid' n rfl rfl (fun t h => (h2' t h).2) hp hk ?_]
  · rw [h1]
    constructor
    · intro hs t htm
      rcases List.mem_append.1 htm with htm | htm
      · rcases List.mem_cons.1 htm with rfl | htm
        · simp [Portable, IsAtt, attClasses]
        · obtain ⟨i, _, _, w, rest, _, hw⟩ := h2 t htm
          by_cases hpu : Punct t = true
          · refine (lexeme_portable hw t.pos).1 ?_
            obtain ⟨ty, p, v⟩ := t
            simp only [Punct, Bool.or_eq_true, beq_iff_eq] at hpu
            cases hw with
            | punct w ty v nx hq =>
              simp only [punctuation, List.mem_cons, Prod.mk.injEq, List.not_mem_nil, or_false] at hq
              rcases hq with ⟨_, rfl, rfl⟩ | ⟨_, rfl, rfl⟩ | ⟨_, rfl, rfl⟩ | ⟨_, rfl, rfl⟩ | ⟨_, rfl, rfl⟩ |
                ⟨_, rfl, rfl⟩ | ⟨_, rfl, rfl⟩ | ⟨_, rfl, rfl⟩ | ⟨_, rfl, rfl⟩ <;>
                simp [Survives, isAscii]
            | gt => simp at hpu
            | lt => simp at hpu
            | string => simp at hpu
            | int => simp at hpu
            | float => simp at hpu
            | att pre ident kw ty nx hc =>
              simp only [attClasses, List.mem_cons, Prod.mk.injEq, List.not_mem_nil, or_false] at hc
              rcases hc with ⟨_, rfl⟩ | ⟨_, rfl⟩ | ⟨_, rfl⟩ | ⟨_, rfl⟩ | ⟨_, rfl⟩ <;> simp at hpu
            | keyword w kw ty v nx hk =>
              simp only [keywords, List.mem_cons, Prod.mk.injEq, List.not_mem_nil, or_false] at hk
              rcases hk with ⟨_, rfl, _⟩ | ⟨_, rfl, _⟩ | ⟨_, rfl, _⟩ | ⟨_, rfl, _⟩ | ⟨_, rfl, _⟩ |
                ⟨_, rfl, _⟩ | ⟨_, rfl, _⟩ | ⟨_, rfl, _⟩ | ⟨_, rfl, _⟩ <;> simp at hpu
          · exact (lexeme_portable hw t.pos).1 (hs t htm (by simpa using hpu))
      · rw [List.mem_singleton] at htm
        subst htm
        simp [Portable, IsAtt, attClasses]
    · intro hs t htm _
      obtain ⟨i, _, _, w, rest, _, hw⟩ := h2 t htm
      exact (lexeme_portable hw t.pos).2 (hs t (by simp [htm]))
  · intro t htm
    obtain ⟨i, hpos, hi, w, rest, hw, hx⟩ := h2 t htm
    refine ⟨by omega, ?_⟩
    intro s hs
    have a := lexeme_value_length hx s hs
    have b := congrArg List.length hw
    simp only [List.length_drop, List.length_append] at b
    omega

/-! ### Concrete cases -/

/-- The bytes for a policy text. -/
def textBytes (k : Nat) (text : String) : Except PyExc Bytes := do
  let (n, _) ← parseText asciiUni k text.toList
  astEncode asciiUni n

/-- The bytes of a policy with a set. -/
def exampleBytes : Bytes :=
  [1, 5, 0, 4, 0, 4, 0, 11, 1, 7, 0, 2, 0, 2, 0, 73, 78, 0, 0, 3, 0, 0, 0, 51, 4, 0, 0, 1, 0, 0, 0, 97, 3, 0, 41, 16, 10, 0, 0,
   0, 2, 0, 1, 0, 2, 0, 1, 0, 31, 13, 11, 0, 4, 0, 0, 0, 1, 0, 0, 0, 2, 0, 33, 15, 14, 0, 1, 0, 0, 0, 120]

/-- What they decode to. -/
def exampleGraph : Graph := ⟨[
  (4, ⟨.op, ⟨.op, 7, .str "IN".toList⟩, .none, [0, 3]⟩),
  (0, ⟨.usrAtt, ⟨.usrAtt, 0, .str "a".toList⟩, .none, []⟩),
  (3, ⟨.set, ⟨.lset, 10, .none⟩, .none, [1, 2]⟩),
  (1, ⟨.intVal, ⟨.int, 11, .int 1⟩, .atom (.int 1), []⟩),
  (2, ⟨.stringVal, ⟨.string, 14, .str "x".toList⟩, .atom (.str "x".toList), []⟩)], 4⟩

example : textBytes 0 "user.a IN {1, \"x\"}" = .ok exampleBytes := by decide +kernel
example : astDecode asciiUni (.fin 0) exampleBytes = .ok exampleGraph := by decide +kernel
/-- Another version and trailing bytes. -/
example : astDecode asciiUni (.fin 0) (77 :: exampleBytes.tail ++ [1, 2, 3]) = .ok exampleGraph := by decide +kernel
/-- A byte less. -/
example : astDecode asciiUni (.fin 0) exampleBytes.dropLast = .error .structError := by decide +kernel

/-- C34 fails: the empty string literal comes back as `None`. -/
theorem empty_string_lost :
    textBytes 0 "user.a = \"\"" = .ok [1, 3, 0, 2, 0, 2, 0, 11, 1, 7, 0, 1, 0, 2, 0, 61, 0, 0, 1, 0, 0, 0, 51, 4, 0, 0, 1, 0, 0, 0,
      97, 1, 0, 33, 15, 9, 0, 0, 0, 0, 0] ∧
    astDecode asciiUni (.fin 0) [1, 3, 0, 2, 0, 2, 0, 11, 1, 7, 0, 1, 0, 2, 0, 61, 0, 0, 1, 0, 0, 0, 51, 4, 0, 0, 1, 0, 0, 0,
      97, 1, 0, 33, 15, 9, 0, 0, 0, 0, 0] = .ok ⟨[
        (2, ⟨.op, ⟨.op, 7, .str "=".toList⟩, .none, [0, 1]⟩),
        (0, ⟨.usrAtt, ⟨.usrAtt, 0, .str "a".toList⟩, .none, []⟩),
        (1, ⟨.stringVal, ⟨.string, 9, .none⟩, .none, []⟩)], 2⟩ := by decide +kernel

/-- C34 fails: `0.1` comes back as the nearest binary32 number. -/
theorem float_rounded :
    textBytes 0 "0.1 = 1" = .ok [1, 3, 0, 2, 0, 2, 0, 11, 1, 4, 0, 1, 0, 2, 0, 61, 0, 0, 1, 0, 0, 0, 32, 14, 0, 0, 4, 0, 0, 0, 205,
      204, 204, 61, 1, 0, 31, 13, 6, 0, 4, 0, 0, 0, 1, 0, 0, 0] ∧
    astDecode asciiUni (.fin 0) [1, 3, 0, 2, 0, 2, 0, 11, 1, 4, 0, 1, 0, 2, 0, 61, 0, 0, 1, 0, 0, 0, 32, 14, 0, 0, 4, 0, 0, 0, 205,
      204, 204, 61, 1, 0, 31, 13, 6, 0, 4, 0, 0, 0, 1, 0, 0, 0] = .ok ⟨[
        (2, ⟨.op, ⟨.op, 4, .str "=".toList⟩, .none, [0, 1]⟩),
        (0, ⟨.floatVal, ⟨.float, 0, .flt (.fin (13421773 / 134217728))⟩, .atom (.flt (.fin (13421773 / 134217728))), []⟩),
        (1, ⟨.intVal, ⟨.int, 6, .int 1⟩, .atom (.int 1), []⟩)], 2⟩ := by decide +kernel

/-- C34 fails: ints of more than 32 bits and ids of more than 16 bits do not encode at all. -/
theorem encode_fails :
    textBytes 0 "user.a = 2147483648" = .error .structError ∧
    textBytes 65534 "user.a = 1" = .error .structError ∧
    textBytes 65533 "user.a = 1" ≠ .error .structError := by decide +kernel

/-- C34 fails: a non-ASCII attribute name (here `é`, two bytes) loses its end, which makes it undecodable. -/
theorem non_ascii_lost :
    astEncode asciiUni (.mk .usrAtt ⟨.usrAtt, 0, .str ['é']⟩ 0 .none []) =
      .ok [1, 1, 0, 0, 0, 0, 0, 51, 4, 0, 0, 1, 0, 0, 0, 195] ∧
    astDecode asciiUni (.fin 0) [1, 1, 0, 0, 0, 0, 0, 51, 4, 0, 0, 1, 0, 0, 0, 195] = .error .unicodeError := by
  decide +kernel

/-- C35: closed graphs need not be trees: a NOT node that is its own child. -/
theorem decode_cycle :
    astDecode asciiUni (.fin 0) [1, 1, 0, 0, 0, 0, 0, 13, 3, 0, 0, 0, 0, 1, 0, 0, 0] =
      .ok ⟨[(0, ⟨.not, ⟨.notOp, 0, .none⟩, .none, [0]⟩)], 0⟩ := by decide +kernel

/-- C35: such a graph is no tree. -/
theorem cycle_no_tree (n : Node) (hid : n.id = 0) :
    ¬ Unfolds ⟨[(0, ⟨.not, ⟨.notOp, 0, .none⟩, .none, [0]⟩)], 0⟩ n := by
  obtain ⟨k, t, i, r, cs⟩ := n
  have key : ∀ (s : Nat) (n : Node), sizeOf n ≤ s → n.id = 0 →
      ¬ Unfolds ⟨[(0, ⟨.not, ⟨.notOp, 0, .none⟩, .none, [0]⟩)], 0⟩ n := by
    intro s
    induction s with
    | zero => intro n hs; obtain ⟨k, t, i, r, cs⟩ := n; simp at hs
    | succ s ih =>
      intro n hs hid h
      obtain ⟨k, t, i, r, cs⟩ := n
      have hi : i = 0 := hid
      subst hi
      rw [Unfolds] at h
      have h1 : some (GNode.mk .not ⟨.notOp, 0, .none⟩ .none [0]) = some ⟨k, t, r, cs.map Node.id⟩ := h.1
      injection h1 with h1
      injection h1 with _ _ _ h1
      match cs, h1, h.2, hs with
      | [], h1, _, _ => simp at h1
      | [c], h1, h2, hs =>
        simp only [List.map_cons, List.map_nil, List.cons.injEq, and_true] at h1
        rw [UnfoldsList] at h2
        refine ih c ?_ h1.symm h2.1
        simp at hs
        omega
      | _ :: _ :: _, h1, _, _ => simp at h1
  exact key _ _ (Nat.le_refl _) hid

/-- C35: an INT at the end that claims nine bytes is accepted with four. -/
example : astDecode asciiUni (.fin 0) [1, 1, 0, 0, 0, 0, 0, 31, 13, 0, 0, 9, 0, 0, 0, 5, 0, 0, 0] =
    .ok ⟨[(0, ⟨.intVal, ⟨.int, 0, .int 5⟩, .atom (.int 5), []⟩)], 0⟩ := by decide +kernel
/-- Missing child, missing root, unknown classes and types. -/
example : astDecode asciiUni (.fin 0) [1, 1, 0, 0, 0, 0, 0, 13, 3, 0, 0, 0, 0, 1, 0, 1, 0] = .error (.exception "") ∧
    astDecode asciiUni (.fin 0) [1, 1, 0, 7, 0, 0, 0, 13, 3, 0, 0, 0, 0, 0, 0] = .error (.exception "") ∧
    astDecode asciiUni (.fin 0) [1, 1, 0, 0, 0, 0, 0, 34, 3, 0, 0, 0, 0, 0, 0] = .error .typeError ∧
    astDecode asciiUni (.fin 0) [1, 1, 0, 0, 0, 0, 0, 255, 3, 0, 0, 0, 0, 0, 0] = .error .attributeError ∧
    astDecode asciiUni (.fin 0) [1, 1, 0, 0, 0, 0, 0, 14, 3, 0, 0, 0, 0, 0, 0] = .error .valueError ∧
    astDecode asciiUni (.fin 0) [1, 1, 0, 0, 0, 0, 0, 13, 23, 0, 0, 0, 0, 0, 0] = .error .valueError ∧
    astDecode asciiUni (.fin 0) [1, 1, 0, 0, 0, 0, 0, 21, 12, 0, 0, 0, 0, 0, 0] = .error .attributeError := by
  decide +kernel
/-- The hypotheses of the round trip hold for the example. -/
example : Survives ⟨.string, 14, .str "x".toList⟩ ∧ Survives ⟨.int, 11, .int (-2147483648)⟩ ∧
    Survives ⟨.lset, 10, .none⟩ ∧ Survives ⟨.float, 3, .flt (.inf true)⟩ ∧ ¬ Survives ⟨.int, 11, .int 2147483648⟩ := by
  simp [Survives, isAscii, IsF32]
/-- `3/2` is a binary32 number. -/
example : IsF32 (.fin (3 / 2)) := ⟨false, 0x3fc00000, by decide, by decide +kernel⟩

/-! ### What `decode` can raise -/

theorem getU_exc {k : Nat} {bs : Bytes} {e : PyExc} (h : getU k bs = .error e) : e = .structError := (getU_error h).1

theorem decodeTval_exc {nan : PyFloat} {ty size : Nat} {bs : Bytes} {e : PyExc}
    (h : decodeTval nan ty size bs = .error e) : e = .structError ∨ e = .unicodeError := by
  unfold decodeTval at h
  dsimp only at h
  split at h
  · split at h
    · split at h
      · cases h
      · injection h with h; exact Or.inl h.symm
    · split at h
      · split at h
        · cases h
        · injection h with h; exact Or.inl h.symm
      · split at h
        · unfold utf8Decode at h
          cases hd : utf8DecodeAux (bs.take size).length (bs.take size) with
          | none => rw [hd] at h; injection h with h; exact Or.inr h.symm
          | some s => rw [hd] at h; cases h
        · injection h with h; exact Or.inl h.symm
  · cases h

theorem except_bind_error {α β : Type} {x : Except PyExc α} {f : α → Except PyExc β} {e : PyExc}
    (h : (x >>= f) = .error e) : x = .error e ∨ ∃ a, x = .ok a ∧ f a = .error e := by
  cases x with
  | error e' => left; injection h with h; rw [h]
  | ok a => exact Or.inr ⟨a, rfl, h⟩

theorem decodeIds_exc {n : Nat} {bs : Bytes} {e : PyExc} (h : decodeIds n bs = .error e) : e = .structError := by
  induction n generalizing bs with
  | zero => cases h
  | succ n ih =>
    rw [decodeIds] at h
    rcases except_bind_error h with h | ⟨⟨i, r⟩, -, h⟩
    · exact getU_exc h
    · rcases except_bind_error h with h | ⟨⟨is, r'⟩, -, h⟩
      · exact ih h
      · cases h

/-- The exceptions of `decode`: no other can leave it. -/
def DecodeExc (e : PyExc) : Prop :=
  e = .structError ∨ e = .unicodeError ∨ e = .valueError ∨ e = .typeError ∨ e = .attributeError ∨ e = .exception ""

theorem decodeRec_exc {U : Uni} {nan : PyFloat} {bs : Bytes} {e : PyExc} (h : decodeRec U nan bs = .error e) :
    DecodeExc e := by
  unfold decodeRec at h
  rcases except_bind_error h with h | ⟨⟨_, _⟩, -, h⟩
  · exact Or.inl (getU_exc h)
  rcases except_bind_error h with h | ⟨⟨_, _⟩, -, h⟩
  · exact Or.inl (getU_exc h)
  rcases except_bind_error h with h | ⟨⟨_, _⟩, -, h⟩
  · exact Or.inl (getU_exc h)
  rcases except_bind_error h with h | ⟨⟨_, _⟩, -, h⟩
  · exact Or.inl (getU_exc h)
  rcases except_bind_error h with h | ⟨⟨_, _⟩, -, h⟩
  · exact Or.inl (getU_exc h)
  rcases except_bind_error h with h | ⟨⟨_, _⟩, -, h⟩
  · exact Or.inl (getU_exc h)
  rcases except_bind_error h with h | ⟨⟨_, _⟩, -, h⟩
  · rcases decodeTval_exc h with h | h
    · exact Or.inl h
    · exact Or.inr (Or.inl h)
  rcases except_bind_error h with h | ⟨⟨_, _⟩, -, h⟩
  · exact Or.inl (decodeIds_exc h)
  rcases except_bind_error h with h | ⟨ty, -, h⟩
  · unfold TokenType.ofValue at h
    split at h
    · cases h
    · injection h with h; subst h; simp [DecodeExc]
  rcases except_bind_error h with h | ⟨k, -, h⟩
  · unfold Kind.ofValue at h
    split at h
    · cases h
    · split at h
      · injection h with h; subst h; simp [DecodeExc]
      · split at h
        · injection h with h; subst h; simp [DecodeExc]
        · injection h with h; subst h; simp [DecodeExc]
  rcases except_bind_error h with h | ⟨r, -, h⟩
  · unfold initRes at h
    cases k <;> dsimp only at h <;> first | cases h | skip
    split at h
    · split at h
      · cases h
      · split at h <;> cases h
    · injection h with h; subst h; simp [DecodeExc]
  · cases h

theorem decodeRecs_exc {U : Uni} {nan : PyFloat} {n : Nat} {bs : Bytes} {d : IdDict} {e : PyExc}
    (h : decodeRecs U nan n bs d = .error e) : DecodeExc e := by
  induction n generalizing bs d with
  | zero => cases h
  | succ n ih =>
    rw [decodeRecs] at h
    rcases except_bind_error h with h | ⟨⟨⟨i, x⟩, r⟩, -, h⟩
    · exact decodeRec_exc h
    · exact ih h

/-- C35: `decode` returns on every input, with a graph or one of these exceptions. -/
theorem decode_failures (U : Uni) (nan : PyFloat) (bs : Bytes) (b64 : Bool) (e : PyExc)
    (h : astDecode U nan bs b64 = .error e) : DecodeExc e := by
  have raw : ∀ bs, astDecodeRaw U nan bs = .error e → DecodeExc e := by
    intro bs h
    unfold astDecodeRaw at h
    rcases except_bind_error h with h | ⟨⟨_, _⟩, -, h⟩
    · exact Or.inl (getU_exc h)
    rcases except_bind_error h with h | ⟨⟨_, _⟩, -, h⟩
    · exact Or.inl (getU_exc h)
    rcases except_bind_error h with h | ⟨⟨_, _⟩, -, h⟩
    · exact Or.inl (getU_exc h)
    rcases except_bind_error h with h | ⟨d, -, h⟩
    · exact decodeRecs_exc h
    split at h
    · split at h
      · cases h
      · injection h with h; subst h; simp [DecodeExc]
    · injection h with h; subst h; simp [DecodeExc]
  cases b64 with
  | false => exact raw bs h
  | true =>
    have h' : (do let raw ← b64decode bs; astDecodeRaw U nan raw) = .error e := h
    rcases except_bind_error h' with h' | ⟨r, -, h'⟩
    · unfold b64decode at h'
      split at h'
      · cases h'
      · injection h' with h'; subst h'; simp [DecodeExc]
    · exact raw r h'

end Verif.Props
