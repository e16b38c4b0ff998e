import Verif.Spec.NodeRace
import Verif.Props.Encoder
import Verif.Props.NodeCount
/-!
# C139: threads that parse at the same time can get equal ids
-/

namespace Verif.Props
open Verif Verif.Spec Verif.Proofs

/-- The state after some steps from a counter. -/
def raced (k : Nat) (l : List RaceStep) : Race := Race.run { next := k } l

theorem raced_snoc (k : Nat) (l : List RaceStep) (e : RaceStep) : raced k (l ++ [e]) = (raced k l).step e := by
  simp [raced, Race.run, List.foldl_append]

theorem step_store_none {s : Race} {i : Nat} (h : s.held i = none) : s.step (.store i) = s := by
  unfold Race.step
  dsimp only
  rw [h]

theorem step_store_some {s : Race} {i v : Nat} (h : s.held i = some v) :
    s.step (.store i) = ⟨v + 1, fun j => if j = i then none else s.held j, s.made ++ [(i, v)]⟩ := by
  unfold Race.step
  dsimp only
  rw [h]

/-- What a thread has read and not yet written is the counter at its last step. -/
theorem held_iff (k : Nat) (l : List RaceStep) (i v : Nat) :
    (raced k l).held i = some v ↔ ∃ c d, l = c ++ .load i :: d ∧ (∀ x ∈ d, x.thread ≠ i) ∧ v = (raced k c).next := by
  induction l using List.reverseRecOn with
  | nil => simp [raced, Race.run]
  | append_singleton l e ih =>
    rw [raced_snoc]
    have other : e.thread ≠ i → ((∃ c d, l ++ [e] = c ++ .load i :: d ∧ (∀ x ∈ d, x.thread ≠ i) ∧ v = (raced k c).next) ↔
        ∃ c d, l = c ++ .load i :: d ∧ (∀ x ∈ d, x.thread ≠ i) ∧ v = (raced k c).next) := by
      intro he
      constructor
      · rintro ⟨c, d, h1, h2, h3⟩
        rcases List.eq_nil_or_concat' d with rfl | ⟨d', y, rfl⟩
        · obtain ⟨_, h⟩ := List.append_inj' (t₁ := [e]) h1 rfl
          injection h with h; subst h; exact absurd rfl he
        · have h1' : l ++ [e] = (c ++ .load i :: d') ++ [y] := by rw [h1]; simp
          obtain ⟨h, _⟩ := List.append_inj' h1' rfl
          exact ⟨c, d', h, fun x hx => h2 x (by simp [hx]), h3⟩
      · rintro ⟨c, d, rfl, h2, h3⟩
        refine ⟨c, d ++ [e], by simp, fun x hx => ?_, h3⟩
        rcases List.mem_append.1 hx with hx | hx
        · exact h2 x hx
        · rw [List.mem_singleton.1 hx]; exact he
    cases e with
    | load j =>
      by_cases hj : i = j
      · subst hj
        simp only [Race.step, if_true, Option.some.injEq]
        constructor
        · intro h; exact ⟨l, [], rfl, by simp, h.symm⟩
        · rintro ⟨c, d, h1, h2, h3⟩
          rcases List.eq_nil_or_concat' d with rfl | ⟨d', y, rfl⟩
          · obtain ⟨h, _⟩ := List.append_inj' (t₁ := [RaceStep.load i]) h1 rfl
            rw [h3, h]
          · have h1' : l ++ [.load i] = (c ++ .load i :: d') ++ [y] := by rw [h1]; simp
            obtain ⟨_, h⟩ := List.append_inj' h1' rfl
            injection h with h
            exact absurd rfl (h2 (.load i) (by simp [h]))
      · rw [other (fun h => hj h.symm), ← ih]
        simp [Race.step, hj]
    | store j =>
      by_cases hj : i = j
      · subst hj
        have hn : ((raced k l).step (.store i)).held i = none := by
          cases h : (raced k l).held i with
          | none => rw [step_store_none h]; exact h
          | some w => rw [step_store_some h]; simp
        rw [hn]
        constructor
        · intro h; cases h
        · rintro ⟨c, d, h1, h2, h3⟩
          rcases List.eq_nil_or_concat' d with rfl | ⟨d', y, rfl⟩
          · obtain ⟨_, h⟩ := List.append_inj' (t₁ := [RaceStep.store i]) h1 rfl
            injection h with h; cases h
          · have h1' : l ++ [.store i] = (c ++ .load i :: d') ++ [y] := by rw [h1]; simp
            obtain ⟨_, h⟩ := List.append_inj' h1' rfl
            injection h with h
            exact absurd rfl (h2 (.store i) (by simp [h]))
      · rw [other (fun h => hj h.symm), ← ih]
        cases h : (raced k l).held j with
        | none => rw [step_store_none h]
        | some w => rw [step_store_some h]; simp [hj]

/-- The number of nodes made. -/
def writesIn (l : List RaceStep) : Nat := l.countP RaceStep.writes

/-- Every write so far wrote what the counter still was. -/
def FreshWrites (k : Nat) (l : List RaceStep) : Prop :=
  ∀ a i b, l = a ++ .store i :: b → (raced k a).held i = some (raced k a).next

theorem freshWrites_snoc (k : Nat) (l : List RaceStep) (e : RaceStep) :
    FreshWrites k (l ++ [e]) ↔ FreshWrites k l ∧ ∀ i, e = .store i → (raced k l).held i = some (raced k l).next := by
  constructor
  · intro h
    refine ⟨fun a i b hl => h a i (b ++ [e]) (by rw [hl]; simp), fun i he => h l i [] (by rw [he])⟩
  · rintro ⟨h1, h2⟩ a i b hl
    rcases List.eq_nil_or_concat' b with rfl | ⟨b', y, rfl⟩
    · obtain ⟨h, h'⟩ := List.append_inj' (t₁ := [e]) hl rfl
      injection h' with h'
      rw [← h]; exact h2 i h'
    · have hl' : l ++ [e] = (a ++ .store i :: b') ++ [y] := by rw [hl]; simp
      obtain ⟨h, _⟩ := List.append_inj' hl' rfl
      exact h1 a i b' h

theorem freshWrites_state {k : Nat} {l : List RaceStep} (h : FreshWrites k l) :
    (raced k l).next = k + writesIn l ∧ (raced k l).made.map Prod.snd = List.range' k (writesIn l) := by
  induction l using List.reverseRecOn with
  | nil => exact ⟨rfl, rfl⟩
  | append_singleton l e ih =>
    obtain ⟨h1, h2⟩ := (freshWrites_snoc k l e).1 h
    obtain ⟨e1, e2⟩ := ih h1
    rw [raced_snoc]
    cases e with
    | load i => simpa [Race.step, writesIn, RaceStep.writes] using ⟨e1, e2⟩
    | store i =>
      have hw : writesIn (l ++ [.store i]) = writesIn l + 1 := by simp [writesIn, RaceStep.writes]
      rw [hw]
      rw [step_store_some (h2 i rfl)]
      refine ⟨by dsimp only; omega, ?_⟩
      dsimp only
      rw [List.map_append, e2, List.range'_concat, e1]
      simp

theorem made_snoc (k : Nat) (l : List RaceStep) (e : RaceStep) : (raced k l).made <+: (raced k (l ++ [e])).made := by
  rw [raced_snoc]
  cases e with
  | load i => exact List.prefix_rfl
  | store i =>
    cases h : (raced k l).held i with
    | none => rw [step_store_none h]
    | some v => rw [step_store_some h]; exact List.prefix_append ..

theorem writesIn_append (a b : List RaceStep) : writesIn (a ++ b) = writesIn a + writesIn b := List.countP_append ..

theorem turns_snoc {l : List RaceStep} {e : RaceStep} (h : Turns (l ++ [e])) : Turns l :=
  fun a x b hl => h a x (b ++ [e]) (by rw [hl]; simp)

/-- Either all writes were fresh, or two nodes have the same id. -/
theorem fresh_or_repeated {k : Nat} {l : List RaceStep} (h : Turns l) :
    FreshWrites k l ∨ ¬ ((raced k l).made.map Prod.snd).Nodup := by
  induction l using List.reverseRecOn with
  | nil => exact .inl (fun a i b h => by simp at h)
  | append_singleton l e ih =>
    rcases ih (turns_snoc h) with hf | hf
    · cases e with
      | load i => exact .inl ((freshWrites_snoc ..).2 ⟨hf, fun j hj => by cases hj⟩)
      | store i =>
        obtain ⟨c, d, e0, hd⟩ := (h l (.store i) [] rfl).1 rfl
        change l = c ++ .load i :: d at e0
        subst e0
        have hh := (held_iff k (c ++ .load i :: d) i (raced k c).next).2 ⟨c, d, rfl, hd, rfl⟩
        by_cases hv : (raced k c).next = (raced k (c ++ .load i :: d)).next
        · refine .inl ((freshWrites_snoc ..).2 ⟨hf, fun j hj => ?_⟩)
          cases hj
          rw [hh, hv]
        · right
          rw [raced_snoc, step_store_some hh]
          dsimp only
          obtain ⟨e1, e2⟩ := freshWrites_state hf
          have hc : FreshWrites k c := fun a j b hl => hf a j (b ++ .load i :: d) (by rw [hl]; simp)
          obtain ⟨f1, _⟩ := freshWrites_state hc
          rw [e1, f1, writesIn_append] at hv
          rw [List.map_append, e2, f1, List.nodup_append]
          rintro ⟨_, _, h3⟩
          refine h3 (k + writesIn c) ?_ _ (by simp) rfl
          rw [List.mem_range'_1, writesIn_append]
          omega
    · right
      intro hn
      exact hf (hn.sublist ((made_snoc k l e).sublist.map _))

theorem undisturbed_fresh {k : Nat} {l : List RaceStep} (ht : Turns l) (h : Undisturbed l) : FreshWrites k l := by
  intro a i b hl
  obtain ⟨c, d, e0, hd⟩ := (ht a (.store i) b hl).1 rfl
  change a = c ++ .load i :: d at e0
  subst e0
  rw [(held_iff k (c ++ .load i :: d) i (raced k c).next).2 ⟨c, d, rfl, hd, rfl⟩, Option.some.injEq]
  have hq := h c i d b (by rw [hl]; simp) hd
  clear hl hd
  have : ∀ d : List RaceStep, (∀ x ∈ d, x.writes = false) → (raced k (c ++ .load i :: d)).next = (raced k c).next := by
    intro d
    induction d using List.reverseRecOn with
    | nil => intro _; rw [raced_snoc]; rfl
    | append_singleton d x ih =>
      intro hx
      rw [show c ++ RaceStep.load i :: (d ++ [x]) = (c ++ .load i :: d) ++ [x] by simp, raced_snoc]
      rw [← ih (fun y hy => hx y (by simp [hy]))]
      have := hx x (by simp)
      cases x with
      | load j => rfl
      | store j => cases this
  exact (this d hq).symm

theorem fresh_undisturbed {k : Nat} {l : List RaceStep} (h : FreshWrites k l) : Undisturbed l := by
  intro a i m b hl hm
  have h1 := h (a ++ .load i :: m) i b (by rw [hl]; simp)
  have hc : FreshWrites k (a ++ .load i :: m) := fun x j y hx => h x j (y ++ .store i :: b) (by rw [hl, ← List.cons_append, ← List.append_assoc, hx]; simp)
  have ha : FreshWrites k a := fun x j y hx => hc x j (y ++ .load i :: m) (by rw [hx]; simp)
  rw [(held_iff k (a ++ .load i :: m) i (raced k a).next).2 ⟨a, m, rfl, hm, rfl⟩, Option.some.injEq, (freshWrites_state hc).1,
    (freshWrites_state ha).1, writesIn_append] at h1
  have : writesIn (.load i :: m) = 0 := by omega
  intro x hx
  have h0 := List.countP_eq_zero.1 this x (by simp [hx])
  simpa using h0

/-- C139: the nodes all threads make get distinct ids exactly if no thread writes the counter between the read and the write of another. -/
theorem ids_distinct_iff {k : Nat} {l : List RaceStep} (h : Turns l) :
    ((raced k l).made.map Prod.snd).Nodup ↔ Undisturbed l := by
  constructor
  · intro hn
    rcases fresh_or_repeated (k := k) h with hf | hf
    · exact fresh_undisturbed hf
    · exact absurd hn hf
  · intro hu
    rw [(freshWrites_state (undisturbed_fresh (k := k) h hu)).2]
    exact List.nodup_range' ..

/-! ### Trees with repeated ids -/

mutual
theorem preorder_renumber (f : Nat → Nat) (n : Node) : preorder (n.renumber f) = (preorder n).map (Node.renumber f) := by
  obtain ⟨k, t, i, r, cs⟩ := n
  rw [Node.renumber, preorder, preorder, preorderList_renumber f cs, List.map_cons, Node.renumber]
theorem preorderList_renumber (f : Nat → Nat) (ns : List Node) :
    preorderList (Node.renumbers f ns) = (preorderList ns).map (Node.renumber f) := by
  match ns with
  | [] => rfl
  | n :: ns => rw [Node.renumbers, preorderList, preorderList, preorder_renumber f n, preorderList_renumber f ns, List.map_append]
end

theorem renumber_parts (f : Nat → Nat) (n : Node) : (n.renumber f).kind = n.kind ∧ (n.renumber f).tok = n.tok ∧
    (n.renumber f).id = f n.id ∧ (n.renumber f).res = n.res ∧ (n.renumber f).children.length = n.children.length := by
  obtain ⟨k, t, i, r, cs⟩ := n
  rw [Node.renumber]
  refine ⟨rfl, rfl, rfl, rfl, ?_⟩
  show (Node.renumbers f cs).length = cs.length
  induction cs with
  | nil => rfl
  | cons c cs ih => rw [Node.renumbers, List.length_cons, ih, List.length_cons]

theorem lastEntry_append (es fs : List (Nat × GNode)) (i : Nat) : lastEntry (es ++ fs) i = (lastEntry fs i).or (lastEntry es i) := by
  unfold lastEntry
  rw [List.reverse_append, List.find?_append]
  cases List.find? (fun e => e.1 == i) fs.reverse <;> rfl

theorem lastEntry_isSome {es : List (Nat × GNode)} {i : Nat} (h : i ∈ es.map Prod.fst) : (lastEntry es i).isSome := by
  obtain ⟨e, he, rfl⟩ := List.mem_map.1 h
  unfold lastEntry
  rw [Option.isSome_map, List.find?_isSome]
  exact ⟨e, List.mem_reverse.2 he, by simp⟩

/-- Decoding what was encoded, whether or not ids repeat: the last node with an id is kept. -/
theorem encode_decode_any (U : Uni) (nan : PyFloat) (n : Node) (hn : (preorder n).length < 65536) (hf : ∀ m ∈ preorder n, NodeFits m)
    (hc : ∀ m ∈ preorder n, Constructible U m) (hs : ∀ m ∈ preorder n, Survives m.tok) :
    ∃ bs g, astEncode U n = .ok bs ∧ astDecode U nan bs = .ok g ∧ g.root = n.id ∧
      ∀ i, g.nodes.get i = lastEntry ((preorder n).map (entryOf U)) i := by
  obtain ⟨recs, h1, h2, h3⟩ := recs_survive U nan (preorder n) hf hc hs
    (fun m hm c hcm => (hf c (child_ids_mem n m hm c hcm)).id)
  have hl : recs.length = (preorder n).length := h1.length_eq.symm
  have hget : ∀ i, (((preorder n).map (entryOf U)).foldl (fun d e => IdDict.put d e.1 e.2) []).get i =
      lastEntry ((preorder n).map (entryOf U)) i := by
    intro i
    rw [get_foldl_put, show IdDict.get [] i = none from rfl, Option.or_none]
  have hsome : ∀ m ∈ preorder n, ∃ x, lastEntry ((preorder n).map (entryOf U)) m.id = some x := by
    intro m hm
    refine Option.isSome_iff_exists.1 (lastEntry_isSome ?_)
    rw [List.map_map]
    exact List.mem_map_of_mem (f := Prod.fst ∘ entryOf U) hm
  refine ⟨fileBytes 1 recs.length n.id (recs.map Rec.bytes).flatten,
    ⟨((preorder n).map (entryOf U)).foldl (fun d e => IdDict.put d e.1 e.2) [], n.id⟩,
    astEncode_ok.2 ⟨recs, h1, h2, by omega, rfl⟩, ?_, rfl, hget⟩
  refine (decode_iff U nan _ _).2 ⟨1, recs, _, _, [], by omega, by omega, (hf n (self_mem_preorder n)).id, rfl, ?_, h3, rfl,
      ?_, ?_⟩
  · have := stored_nil recs h2 (recOf_size h1) []
    rwa [List.append_nil] at this
  · obtain ⟨x, hx⟩ := hsome n (self_mem_preorder n)
    exact ⟨x, by rw [hget, hx]⟩
  · intro i x hx c hcx
    dsimp only at hx ⊢
    rw [hget] at hx ⊢
    have : ∃ e ∈ (preorder n).map (entryOf U), e.2 = x := by
      unfold lastEntry at hx
      rw [Option.map_eq_some_iff] at hx
      obtain ⟨e, he, rfl⟩ := hx
      exact ⟨e, List.mem_reverse.1 (List.mem_of_find?_eq_some he), rfl⟩
    obtain ⟨e, he, rfl⟩ := this
    obtain ⟨m, hm, rfl⟩ := List.mem_map.1 he
    obtain ⟨m', hm', rfl⟩ := List.mem_map.1 hcx
    exact hsome m' (child_ids_mem n m hm m' hm')

/-- What is known of the nodes of a short text. -/
theorem text_nodes {U : Uni} (hU : U.Lawful) {text : Str} {toks : List Token} {p : Policy} (hl : lexTokens U text = .ok toks)
    (hp : PolicyOf U text p) (ht : text.length < 65536) (hs : ∀ t ∈ toks, Portable t) (k : Nat) :
    (∀ m ∈ preorder (p.build U k).1, (0 ≤ m.tok.pos ∧ m.tok.pos < 65536) ∧ (∀ s, m.tok.value = .str s → s.length < 65536) ∧
      initRes U m.kind m.tok = .ok m.res ∧ Survives m.tok) ∧
    ((preorder (p.build U k).1).map fun m => m.tok.pos).Nodup := by
  have hparse := (parseText_iff hU k (p.build U k).2 text (p.build U k).1).2 ⟨p, hp, rfl⟩
  obtain ⟨mid, h1, h2, h3⟩ := token_positions U hU text toks hl
  obtain ⟨mid', h1', h2'⟩ := tokens_bracketed U hU text toks hl
  have hmid : mid' = mid := by
    rw [h1] at h1'
    simp only [List.cons_append, List.cons.injEq, true_and] at h1'
    exact (List.append_cancel_right h1').symm
  subst hmid
  have hpt : parseTokens U k (⟨.start, 0, .none⟩ :: (mid' ++ [⟨.«end», text.length, .none⟩])) = .ok ((p.build U k).1, (p.build U k).2) := by
    unfold parseText at hparse
    rw [hl, h1] at hparse
    exact hparse
  obtain ⟨p', hwf, hbuild⟩ := parse_tree U k (p.build U k).2 _ _ hpt
  have hfresh : FreshTree U (p.build U k).1 := by have := fresh_build U p' k hwf; rwa [hbuild] at this
  have htok := parse_tokens U k (p.build U k).2 _ _ mid' _ rfl rfl (fun t h => (h2' t h).2) hpt
  constructor
  · intro m hm
    have hmem := (preorder_toks (p.build U k).1).mem_iff.1 (List.mem_map_of_mem (f := Node.tok) hm)
    rw [htok, List.mem_filter] at hmem
    obtain ⟨i, hpos, hi, w, rest, hw, hx⟩ := h2 _ hmem.1
    refine ⟨by omega, ?_, hfresh m hm, (lexeme_portable hx m.tok.pos).2 (hs _ (by rw [h1]; simp [hmem.1]))⟩
    intro s hs'
    have a := lexeme_value_length hx s hs'
    have b := congrArg List.length hw
    rw [List.length_drop, List.length_append] at b
    omega
  · have hperm := (preorder_toks (p.build U k).1).map (fun t : Token => t.pos)
    rw [List.map_map] at hperm
    refine hperm.nodup_iff.2 ?_
    rw [htok]
    refine List.Nodup.sublist (List.filter_sublist.map _) ?_
    rw [List.nodup_iff_pairwise_ne, List.pairwise_map]
    exact h3.imp (fun h => by omega)

/-- The number of nodes of a policy. -/
def nodesOf (U : Uni) (p : Policy) : Nat := (p.build U 0).2

theorem postIds_nodes (U : Uni) (p : Policy) : postIds (p.build U 0).1 = List.range (nodesOf U p) := by
  rw [(postIds_build U p 0).2, List.range_eq_range', Nat.sub_zero, nodesOf]

theorem nodesOf_le {U : Uni} (hU : U.Lawful) {text : Str} {p : Policy} (hp : PolicyOf U text p) : nodesOf U p ≤ text.length := by
  have hparse := (parseText_iff hU 0 (p.build U 0).2 text (p.build U 0).1).2 ⟨p, hp, rfl⟩
  obtain ⟨h1, _, h3⟩ := parse_counted hU 0 text
  rw [hparse] at h1
  cases hc : parseTextC U 0 text with
  | error x => rw [hc] at h1; cases h1
  | ok x =>
    rw [hc] at h1 h3
    have e : x = ((p.build U 0).1, (p.build U 0).2) := by injection h1
    subst e
    have h3' : (p.build U 0).2 ≤ 0 + text.length := h3
    unfold nodesOf
    omega

/-- C139: a policy parsed with given ids below 2^16 is what is decoded from its encoding exactly if the ids are distinct. -/
theorem taken_round_trip {U : Uni} (hU : U.Lawful) (nan : PyFloat) {text : Str} {toks : List Token} {p : Policy}
    (hl : lexTokens U text = .ok toks) (hp : PolicyOf U text p) (ht : text.length < 65536) (hs : ∀ t ∈ toks, Portable t)
    {ids : List Nat} (hi : ids.length = nodesOf U p) (hk : ∀ i ∈ ids, i < 65536) :
    ∃ n bs g, parseTaking U ids text = .ok n ∧ astEncode U n = .ok bs ∧ astDecode U nan bs = .ok g ∧ g.root = n.id ∧
      (Unfolds g n ↔ ids.Nodup) := by
  have hn := nodesOf_le hU hp
  obtain ⟨hnode, hpos⟩ := text_nodes hU hl hp ht hs 0
  have hparse := (parseText_iff hU 0 (p.build U 0).2 text (p.build U 0).1).2 ⟨p, hp, rfl⟩
  have hperm := preorder_ids (p.build U 0).1
  rw [postIds_nodes] at hperm
  have hlen : (preorder (p.build U 0).1).length = nodesOf U p := by simpa using hperm.length_eq
  have hin : ∀ m ∈ preorder (p.build U 0).1, m.id < ids.length := by
    intro m hm
    have := hperm.mem_iff.1 (List.mem_map_of_mem (f := Node.id) hm)
    rw [hi]; simpa using this
  generalize hn0 : (p.build U 0).1 = n0 at hnode hpos hparse hperm hlen hin
  have hids : ((preorder (n0.renumber fun i => ids.getD i 0)).map Node.id).Perm ids := by
    rw [preorder_renumber, List.map_map]
    have e1 : (preorder n0).map (Node.id ∘ Node.renumber fun i => ids.getD i 0) = ((preorder n0).map Node.id).map fun i => ids.getD i 0 := by
      rw [List.map_map]
      exact List.map_congr_left fun m _ => (renumber_parts _ m).2.2.1
    rw [e1]
    refine (hperm.map _).trans ?_
    rw [← hi]
    refine List.Perm.of_eq (List.ext_getElem (by simp) ?_)
    intro j h1 h2
    simp [h2]
  have hall : ∀ m ∈ preorder (n0.renumber fun i => ids.getD i 0), NodeFits m ∧ initRes U m.kind m.tok = .ok m.res ∧ Survives m.tok := by
    intro m hm
    have hid := hids.mem_iff.1 (List.mem_map_of_mem (f := Node.id) hm)
    rw [preorder_renumber] at hm
    obtain ⟨m0, hm0, rfl⟩ := List.mem_map.1 hm
    obtain ⟨e1, e2, e3, e4, e5⟩ := renumber_parts (fun i => ids.getD i 0) m0
    obtain ⟨a1, a2, a3, a4⟩ := hnode m0 hm0
    refine ⟨⟨hk _ hid, by rw [e2]; exact a1, ?_, by rw [e2]; exact a2⟩, by rw [e1, e2, e4]; exact a3, by rw [e2]; exact a4⟩
    rw [e5]
    have := children_lt n0 m0 hm0
    omega
  obtain ⟨bs, g, g1, g2, g3, g4⟩ := encode_decode_any U nan (n0.renumber fun i => ids.getD i 0)
    (by rw [preorder_renumber, List.length_map]; omega) (fun m hm => (hall m hm).1) (fun m hm => ⟨_, (hall m hm).2.1⟩) (fun m hm => (hall m hm).2.2)
  refine ⟨_, bs, g, by unfold parseTaking; rw [hparse]; rfl, g1, g2, g3, ?_⟩
  have hfr : freshNode U (n0.renumber fun i => ids.getD i 0) = n0.renumber fun i => ids.getD i 0 := fresh_self U _ fun m hm => (hall m hm).2.1
  have key := unfolds_fresh_iff U g (n0.renumber fun i => ids.getD i 0)
  rw [hfr] at key
  rw [key, ← hids.nodup_iff]
  constructor
  · intro h
    have hq : ((preorder (n0.renumber fun i => ids.getD i 0)).map fun m => m.tok.pos).Nodup := by
      rw [preorder_renumber, List.map_map]
      have : ((fun m : Node => m.tok.pos) ∘ Node.renumber fun i => ids.getD i 0) = fun m => m.tok.pos := by
        funext m; show (Node.renumber _ m).tok.pos = _; rw [(renumber_parts _ m).2.1]
      rw [this]; exact hpos
    rw [List.nodup_iff_pairwise_ne, List.pairwise_map] at hq ⊢
    refine List.Pairwise.imp_of_mem ?_ hq
    intro a b ha hb hab e
    have h1 := h a ha
    rw [e, h b hb] at h1
    injection h1 with h1
    have h2 : b.tok = a.tok := congrArg GNode.tok h1
    exact hab (by rw [h2])
  · intro hd m hm
    rw [g4, show m.id = (entryOf U m).1 from rfl, lastEntry_nodup _ ?_ _ (List.mem_map_of_mem hm)]
    rw [List.map_map]
    exact hd

/-! ### A policy that forgets one of its conditions -/

theorem renumber_comp (f g : Nat → Nat) : (∀ n : Node, (n.renumber g).renumber f = n.renumber (f ∘ g)) ∧
    ∀ ns : List Node, Node.renumbers f (Node.renumbers g ns) = Node.renumbers (f ∘ g) ns := by
  have hl : ∀ ns : List Node, (∀ n ∈ ns, (n.renumber g).renumber f = n.renumber (f ∘ g)) →
      Node.renumbers f (Node.renumbers g ns) = Node.renumbers (f ∘ g) ns := by
    intro ns
    induction ns with
    | nil => intro _; rfl
    | cons n ns ih =>
      intro h
      rw [Node.renumbers, Node.renumbers, Node.renumbers, h n (by simp), ih fun m hm => h m (by simp [hm])]
  have hn : ∀ n : Node, (n.renumber g).renumber f = n.renumber (f ∘ g) := by
    intro n
    induction n using Node.rec (motive_2 := fun ns => ∀ n ∈ ns, (Node.renumber g n).renumber f = n.renumber (f ∘ g)) with
    | mk k t i r cs ih => rw [Node.renumber, Node.renumber, Node.renumber, hl cs ih]; rfl
    | nil => rename_i n hn; cases hn
    | cons n ns h1 h2 =>
      rename_i m hm
      rcases List.mem_cons.1 hm with rfl | hm
      · exact h1
      · exact h2 m hm
  exact ⟨hn, fun ns => hl ns fun n _ => hn n⟩

mutual
theorem renumber_congr {f g : Nat → Nat} (n : Node) (h : ∀ m ∈ preorder n, f m.id = g m.id) : n.renumber f = n.renumber g := by
  obtain ⟨k, t, i, r, cs⟩ := n
  rw [preorder, List.forall_mem_cons] at h
  rw [Node.renumber, Node.renumber, renumbers_congr cs h.2, show f i = g i from h.1]
theorem renumbers_congr {f g : Nat → Nat} (ns : List Node) (h : ∀ m ∈ preorderList ns, f m.id = g m.id) :
    Node.renumbers f ns = Node.renumbers g ns := by
  match ns with
  | [] => rfl
  | n :: ns =>
    rw [preorderList, List.forall_mem_append] at h
    rw [Node.renumbers, Node.renumbers, renumber_congr n h.1, renumbers_congr ns h.2]
end

mutual
theorem treeOf_renumber (f : Nat → Nat) (n : Node) : treeOf (n.renumber f) = treeOf n := by
  obtain ⟨k, t, i, r, cs⟩ := n
  rw [Node.renumber, treeOf, treeOf, treesOf_renumber f cs]
theorem treesOf_renumber (f : Nat → Nat) (ns : List Node) : treesOf (Node.renumbers f ns) = treesOf ns := by
  match ns with
  | [] => rfl
  | n :: ns => rw [Node.renumbers, treesOf, treesOf, treeOf_renumber f n, treesOf_renumber f ns]
end

theorem atomNodes_shift (es : List Token) (j k : Nat) : atomNodes es (j + k) = Node.renumbers (· + k) (atomNodes es j) := by
  induction es generalizing j with
  | nil => rfl
  | cons t es ih =>
    rw [atomNodes, atomNodes, Node.renumbers, show j + k + 1 = j + 1 + k by omega, ih]
    rfl

theorem operand_shift (v : Operand) (j k : Nat) : v.build (j + k) = ((v.build j).1.renumber (· + k), (v.build j).2 + k) := by
  cases v with
  | att t => simp only [Operand.build, attNode, Node.renumber, Node.renumbers]; rw [show j + k + 1 = j + 1 + k by omega]
  | atom t => simp only [Operand.build, atomNode, Node.renumber, Node.renumbers]; rw [show j + k + 1 = j + 1 + k by omega]
  | set l es =>
    simp only [Operand.build, Node.renumber, atomNodes_shift]
    rw [show j + k + es.length = j + es.length + k by omega, show j + es.length + k + 1 = j + es.length + 1 + k by omega]

theorem build_shift (U : Uni) (p : Policy) (j k : Nat) : p.build U (j + k) = ((p.build U j).1.renumber (· + k), (p.build U j).2 + k) := by
  induction p generalizing j with
  | cmp l o r =>
    simp only [Policy.build, operand_shift, Node.renumber, Node.renumbers]
    rw [Nat.add_right_comm]
  | lit t => simp only [Policy.build, Node.renumber, Node.renumbers]; rw [show j + k + 1 = j + 1 + k by omega]
  | att t => simp only [Policy.build, attNode, Node.renumber, Node.renumbers]; rw [show j + k + 1 = j + 1 + k by omega]
  | not n p ih => simp only [Policy.build, ih, Node.renumber, Node.renumbers]; rw [Nat.add_right_comm]
  | bin o p q ihp ihq => simp only [Policy.build, ihp, ihq, Node.renumber, Node.renumbers]; rw [Nat.add_right_comm]

theorem build_next (U : Uni) (p : Policy) (k : Nat) : (p.build U k).2 = k + nodesOf U p := by
  have := build_shift U p 0 k
  rw [Nat.zero_add] at this
  rw [this, nodesOf]; dsimp only; omega

theorem build_root (U : Uni) (p : Policy) (k : Nat) : (p.build U k).1.id + 1 = (p.build U k).2 := by
  cases p <;> rfl

theorem build_ids (U : Uni) (p : Policy) (k : Nat) :
    ((preorder (p.build U k).1).map Node.id).Perm (List.range' k (nodesOf U p)) := by
  have h := preorder_ids (p.build U k).1
  rw [(postIds_build U p k).2, build_next, Nat.add_sub_cancel_left] at h
  exact h

/-- The ids of a thread that is set back to its first id after so many nodes. -/
def setBack (k s : Nat) : List Nat := List.range' k s ++ List.range' k (s + 1)

theorem setBack_tree (U : Uni) (o : Token) (p q : Policy) (hs : nodesOf U p = nodesOf U q) (k : Nat) :
    ((Policy.bin o p q).build U 0).1.renumber (fun i => (setBack k (nodesOf U p)).getD i 0) =
      .mk .boolOp o (k + nodesOf U p) .none [(p.build U k).1, (q.build U k).1] := by
  have get : ∀ i, i < nodesOf U p → (setBack k (nodesOf U p)).getD i 0 = i + k := by
    intro i hi
    unfold setBack
    rw [List.getD_eq_getElem?_getD, List.getElem?_append_left (by simpa using hi), List.getElem?_range' hi]
    simp; omega
  have get' : ∀ i, i ≤ nodesOf U p → (setBack k (nodesOf U p)).getD (i + nodesOf U p) 0 = i + k := by
    intro i hi
    unfold setBack
    rw [List.getD_eq_getElem?_getD, List.getElem?_append_right (by simp), List.length_range', Nat.add_sub_cancel,
      List.getElem?_range' (by omega)]
    simp; omega
  simp only [Policy.build, Node.renumber, Node.renumbers]
  have e1 : (p.build U 0).2 = nodesOf U p := rfl
  have e2 : (q.build U (nodesOf U p)).2 = nodesOf U p + nodesOf U p := by rw [build_next, ← hs]
  rw [e1, e2, get' _ (Nat.le_refl _), Nat.add_comm]
  have e3 : Node.renumber (fun i => (setBack k (nodesOf U p)).getD i 0) (p.build U 0).1 = (p.build U k).1 := by
    have := build_shift U p 0 k
    rw [Nat.zero_add] at this
    rw [this]
    refine renumber_congr _ fun m hm => get _ ?_
    have := (build_ids U p 0).mem_iff.1 (List.mem_map_of_mem (f := Node.id) hm)
    rw [List.mem_range'_1] at this
    omega
  have e4 : Node.renumber (fun i => (setBack k (nodesOf U p)).getD i 0) (q.build U (nodesOf U p)).1 = (q.build U k).1 := by
    have h1 := build_shift U q 0 k
    have h2 := build_shift U q 0 (nodesOf U p)
    rw [Nat.zero_add] at h1 h2
    rw [h1, h2]
    dsimp only
    rw [(renumber_comp _ _).1]
    refine renumber_congr _ fun m hm => get' _ ?_
    have := (build_ids U q 0).mem_iff.1 (List.mem_map_of_mem (f := Node.id) hm)
    rw [List.mem_range'_1] at this
    omega
  rw [e3, e4]

/-- C139: the encoding of a policy `P AND Q` or `P OR Q` with as many nodes in `P` as in `Q`, parsed by a thread that is set back when it has
read `P`, is decoded as `Q AND Q` or `Q OR Q`. -/
theorem forgets_left {U : Uni} (hU : U.Lawful) (nan : PyFloat) {text : Str} {toks : List Token} {o : Token} {p q : Policy}
    (hl : lexTokens U text = .ok toks) (hp : PolicyOf U text (.bin o p q)) (ht : text.length < 65536) (hs : ∀ t ∈ toks, Portable t)
    (hpq : nodesOf U p = nodesOf U q) {k : Nat} (hk : k + nodesOf U p < 65536) :
    ∃ n bs g m, parseTaking U (setBack k (nodesOf U p)) text = .ok n ∧ astEncode U n = .ok bs ∧ astDecode U nan bs = .ok g ∧
      g.root = m.id ∧ Unfolds g m ∧ treeOf m = treeOf ((Policy.bin o q q).build U 0).1 := by
  have hparse := (parseText_iff hU 0 ((Policy.bin o p q).build U 0).2 text ((Policy.bin o p q).build U 0).1).2 ⟨_, hp, rfl⟩
  have hn := nodesOf_le hU hp
  have hsum : nodesOf U (.bin o p q) = nodesOf U p + nodesOf U p + 1 := by
    show (q.build U (p.build U 0).2).2 + 1 = _
    rw [build_next, ← hpq]; rfl
  obtain ⟨hnode, -⟩ := text_nodes hU hl hp ht hs 0
  have htree := setBack_tree U o p q hpq k
  have hall : ∀ m ∈ preorder (Node.mk .boolOp o (k + nodesOf U p) .none [(p.build U k).1, (q.build U k).1]),
      NodeFits m ∧ initRes U m.kind m.tok = .ok m.res ∧ Survives m.tok := by
    intro m hm
    have hid : m.id < 65536 := by
      rw [preorder, preorderList, preorderList, preorderList, List.append_nil] at hm
      rcases List.mem_cons.1 hm with rfl | hm
      · exact hk
      · rcases List.mem_append.1 hm with hm | hm
        · have := (build_ids U p k).mem_iff.1 (List.mem_map_of_mem (f := Node.id) hm)
          rw [List.mem_range'_1] at this
          omega
        · have := (build_ids U q k).mem_iff.1 (List.mem_map_of_mem (f := Node.id) hm)
          rw [List.mem_range'_1] at this
          omega
    rw [← htree, preorder_renumber] at hm
    obtain ⟨m0, hm0, rfl⟩ := List.mem_map.1 hm
    obtain ⟨e1, e2, e3, e4, e5⟩ := renumber_parts (fun i => (setBack k (nodesOf U p)).getD i 0) m0
    obtain ⟨a1, a2, a3, a4⟩ := hnode m0 hm0
    refine ⟨⟨hid, by rw [e2]; exact a1, ?_, by rw [e2]; exact a2⟩, by rw [e1, e2, e4]; exact a3, by rw [e2]; exact a4⟩
    rw [e5]
    have h1 := children_lt _ m0 hm0
    have h2 := (build_ids U (.bin o p q) 0).length_eq
    rw [List.length_map, List.length_range'] at h2
    omega
  have hlen : (preorder (Node.mk .boolOp o (k + nodesOf U p) .none [(p.build U k).1, (q.build U k).1])).length < 65536 := by
    rw [← htree, preorder_renumber, List.length_map]
    have h2 := (build_ids U (.bin o p q) 0).length_eq
    rw [List.length_map, List.length_range'] at h2
    omega
  obtain ⟨bs, g, g1, g2, g3, g4⟩ := encode_decode_any U nan _ hlen (fun m hm => (hall m hm).1) (fun m hm => ⟨_, (hall m hm).2.1⟩)
    (fun m hm => (hall m hm).2.2)
  refine ⟨_, bs, g, .mk .boolOp o (k + nodesOf U p) .none [(q.build U k).1, (q.build U k).1],
    by unfold parseTaking; rw [hparse]; exact congrArg Except.ok htree, g1, g2, g3, ?_, ?_⟩
  · have hq : ∀ m ∈ preorder (q.build U k).1, g.nodes.get m.id = some (entryOf U m).2 := by
      intro m hm
      rw [g4, preorder, preorderList, preorderList, preorderList, List.append_nil, ← List.cons_append, List.map_append, lastEntry_append,
        show m.id = (entryOf U m).1 from rfl, lastEntry_nodup _ ?_ _ (List.mem_map_of_mem hm)]
      · rfl
      · rw [List.map_map]
        exact (build_ids U q k).nodup_iff.2 (List.nodup_range' ..)
    have hfr : freshNode U (q.build U k).1 = (q.build U k).1 := by
      refine fresh_self U _ fun m hm => (hall m ?_).2.1
      rw [preorder, preorderList, preorderList]
      simp [hm]
    have hQ : Unfolds g (q.build U k).1 := by
      have := (unfolds_fresh_iff U g (q.build U k).1).2 hq
      rwa [hfr] at this
    rw [Unfolds, UnfoldsList, UnfoldsList, UnfoldsList]
    refine ⟨?_, hQ, hQ, trivial⟩
    have hroot : lastEntry ((preorderList [(p.build U k).1, (q.build U k).1]).map (entryOf U)) (k + nodesOf U p) = none := by
      unfold lastEntry
      rw [Option.map_eq_none_iff, List.find?_eq_none]
      intro x hx
      rw [List.mem_reverse] at hx
      obtain ⟨m, hm, rfl⟩ := List.mem_map.1 hx
      rw [preorderList, preorderList, preorderList, List.append_nil] at hm
      have : m.id < k + nodesOf U p := by
        rcases List.mem_append.1 hm with hm | hm
        · have := (build_ids U p k).mem_iff.1 (List.mem_map_of_mem (f := Node.id) hm)
          rw [List.mem_range'_1] at this
          exact this.2
        · have := (build_ids U q k).mem_iff.1 (List.mem_map_of_mem (f := Node.id) hm)
          rw [List.mem_range'_1] at this
          omega
      simp only [entryOf, beq_iff_eq]
      omega
    have hid : (p.build U k).1.id = (q.build U k).1.id := by
      have h1 := build_root U p k
      have h2 := build_root U q k
      rw [build_next] at h1 h2
      omega
    rw [g4, preorder, List.map_cons, lastEntry_cons, hroot]
    simp [entryOf, Node.id, Node.kind, Node.tok, Node.children, initRes]
    exact hid
  · have e1 : ∀ j, treeOf (q.build U j).1 = treeOf (q.build U 0).1 := by
      intro j
      have := build_shift U q 0 j
      rw [Nat.zero_add] at this
      rw [this, treeOf_renumber]
    simp only [Policy.build, treeOf, treesOf, e1]

/-! ### A schedule that sets a thread back -/

/-- A thread makes some nodes without being disturbed. -/
def makes (i : Nat) : Nat → List RaceStep
  | 0 => []
  | s + 1 => .load i :: .store i :: makes i s

/-- Thread 1 reads the counter, thread 2 makes a node, thread 0 makes some nodes, thread 1 writes what it has read, and thread 0 goes on. -/
def setBackSteps (s : Nat) : List RaceStep :=
  [.load 1, .load 2, .store 2] ++ (makes 0 s ++ (.store 1 :: makes 0 (s + 1)))

theorem race_append (s : Race) (a b : List RaceStep) : s.run (a ++ b) = (s.run a).run b := List.foldl_append ..

theorem run_makes (s : Race) (i m : Nat) (h : s.held i = none) :
    s.run (makes i m) = ⟨s.next + m, s.held, s.made ++ (List.range' s.next m).map fun v => (i, v)⟩ := by
  induction m generalizing s with
  | zero => simp [makes, Race.run]
  | succ m ih =>
    have e : (s.step (.load i)).step (.store i) = ⟨s.next + 1, s.held, s.made ++ [(i, s.next)]⟩ := by
      rw [step_store_some (v := s.next) (by simp [Race.step])]
      simp only [Race.step, Race.mk.injEq, true_and, and_true]
      funext j
      by_cases hj : j = i
      · rw [if_pos hj, hj, h]
      · rw [if_neg hj, if_neg hj]
    show ((s.step (.load i)).step (.store i)).run (makes i m) = _
    rw [e, ih ⟨s.next + 1, s.held, s.made ++ [(i, s.next)]⟩ h]
    simp only [Race.mk.injEq, true_and, List.range'_succ, List.map_cons, List.append_assoc, List.singleton_append, and_true]
    omega

/-- The threads take turns, and thread 0 gets its first ids twice. -/
theorem setBack_ids (k s : Nat) : (raced k (setBackSteps s)).idsOf 0 = setBack (k + 1) s := by
  have e : raced k (setBackSteps s) = (((raced k [.load 1, .load 2, .store 2]).run (makes 0 s)).step (.store 1)).run (makes 0 (s + 1)) := by
    unfold raced setBackSteps
    rw [race_append, race_append]
    rfl
  have e1 : raced k [.load 1, .load 2, .store 2] = ⟨k + 1, fun j => if j = 2 then none else if j = 2 then some k else if j = 1 then some k else none, [(2, k)]⟩ := rfl
  rw [e, e1, run_makes _ 0 s rfl, step_store_some (v := k) rfl, run_makes _ 0 (s + 1) rfl]
  have f : ∀ l : List Nat, ((l.map fun v => (0, v)).filter fun e : Nat × Nat => e.1 == 0) = l.map fun v => (0, v) := by
    intro l
    rw [List.filter_eq_self]
    intro x hx
    obtain ⟨v, _, rfl⟩ := List.mem_map.1 hx
    rfl
  unfold Race.idsOf setBack
  dsimp only
  rw [List.filter_append, List.filter_append, List.filter_append, f, f]
  have g : ∀ l : List Nat, ((l.map fun v => (0, v)).map Prod.snd) = l := by
    intro l; rw [List.map_map]; exact List.map_id' l
  simp only [List.map_append]
  rw [g, g]
  simp

/-- Taking turns, along a run. -/
def TurnsFrom (s : Race) : List RaceStep → Prop
  | [] => True
  | e :: l => e.writes = (s.held e.thread).isSome ∧ TurnsFrom (s.step e) l

theorem turns_iff (k : Nat) (l : List RaceStep) : Turns l ↔ TurnsFrom { next := k } l := by
  have gen : ∀ (l a : List RaceStep), (∀ b e c, l = b ++ e :: c →
      (e.writes = true ↔ ∃ c d, a ++ b = c ++ .load e.thread :: d ∧ ∀ x ∈ d, x.thread ≠ e.thread)) ↔ TurnsFrom (raced k a) l := by
    intro l
    induction l with
    | nil => intro a; simp [TurnsFrom]
    | cons e l ih =>
      intro a
      have he : (e.writes = true ↔ ∃ c d, a = c ++ .load e.thread :: d ∧ ∀ x ∈ d, x.thread ≠ e.thread) ↔
          e.writes = ((raced k a).held e.thread).isSome := by
        have : ((raced k a).held e.thread).isSome = true ↔ ∃ c d, a = c ++ .load e.thread :: d ∧ ∀ x ∈ d, x.thread ≠ e.thread := by
          rw [Option.isSome_iff_exists]
          constructor
          · rintro ⟨v, hv⟩
            obtain ⟨c, d, h1, h2, _⟩ := (held_iff k a e.thread v).1 hv
            exact ⟨c, d, h1, h2⟩
          · rintro ⟨c, d, h1, h2⟩
            exact ⟨_, (held_iff k a e.thread _).2 ⟨c, d, h1, h2, rfl⟩⟩
        rw [← this]
        exact Bool.eq_iff_iff.symm
      rw [TurnsFrom, ← raced_snoc, ← ih (a ++ [e]), ← he]
      constructor
      · intro h
        refine ⟨by simpa using h [] e l rfl, fun b x c hl => ?_⟩
        have := h (e :: b) x c (by rw [hl]; rfl)
        rwa [List.append_assoc]
      · rintro ⟨h1, h2⟩ b x c hl
        cases b with
        | nil =>
          rw [List.nil_append] at hl
          injection hl with hl1 hl2
          subst hl1
          simpa using h1
        | cons y b =>
          rw [List.cons_append] at hl
          injection hl with hl1 hl2
          subst hl1
          have := h2 b x c hl2
          rwa [List.append_assoc] at this
  exact gen l []

theorem turnsFrom_append (s : Race) (a b : List RaceStep) : TurnsFrom s (a ++ b) ↔ TurnsFrom s a ∧ TurnsFrom (s.run a) b := by
  induction a generalizing s with
  | nil => simp [TurnsFrom, Race.run]
  | cons e a ih =>
    rw [List.cons_append, TurnsFrom, TurnsFrom, ih, and_assoc]
    exact Iff.rfl

theorem turnsFrom_makes (s : Race) (i m : Nat) (h : s.held i = none) : TurnsFrom s (makes i m) := by
  induction m generalizing s with
  | zero => trivial
  | succ m ih =>
    refine ⟨by simp [RaceStep.writes, RaceStep.thread, h], by simp [RaceStep.writes, RaceStep.thread, Race.step], ih _ ?_⟩
    rw [step_store_some (v := s.next) (by simp [Race.step])]
    simp

theorem setBack_turns (s : Nat) : Turns (setBackSteps s) := by
  rw [turns_iff 0, setBackSteps, turnsFrom_append, turnsFrom_append]
  refine ⟨⟨rfl, rfl, rfl, trivial⟩, turnsFrom_makes _ _ _ rfl, ?_⟩
  have e1 : Race.run { next := 0 } [.load 1, .load 2, .store 2] =
      ⟨1, fun j => if j = 2 then none else if j = 2 then some 0 else if j = 1 then some 0 else none, [(2, 0)]⟩ := rfl
  rw [e1, run_makes _ _ _ rfl]
  refine ⟨rfl, turnsFrom_makes _ _ _ ?_⟩
  rw [step_store_some (v := 0) rfl]
  rfl

/-- C139: three threads, taking turns, can parse a policy `P AND Q` so that its encoding is decoded as `Q AND Q`: the condition `P` is gone. -/
theorem race_forgets {U : Uni} (hU : U.Lawful) (nan : PyFloat) {text : Str} {toks : List Token} {o : Token} {p q : Policy}
    (hl : lexTokens U text = .ok toks) (hp : PolicyOf U text (.bin o p q)) (ht : text.length < 65536) (hs : ∀ t ∈ toks, Portable t)
    (hpq : nodesOf U p = nodesOf U q) {k : Nat} (hk : k + 1 + nodesOf U p < 65536) :
    ∃ l n bs g m, Turns l ∧ parseTaking U ((raced k l).idsOf 0) text = .ok n ∧ astEncode U n = .ok bs ∧ astDecode U nan bs = .ok g ∧
      g.root = m.id ∧ Unfolds g m ∧ treeOf m = treeOf ((Policy.bin o q q).build U 0).1 := by
  obtain ⟨n, bs, g, m, h⟩ := forgets_left hU nan hl hp ht hs hpq hk
  exact ⟨setBackSteps (nodesOf U p), n, bs, g, m, setBack_turns _, by rw [setBack_ids]; exact h⟩

/-- C139: if no thread disturbs another, every thread gets ids that are as good as its own. -/
theorem calm_round_trip {U : Uni} (hU : U.Lawful) (nan : PyFloat) {text : Str} {toks : List Token} {p : Policy}
    (hl : lexTokens U text = .ok toks) (hp : PolicyOf U text p) (ht : text.length < 65536) (hs : ∀ t ∈ toks, Portable t)
    {k : Nat} {l : List RaceStep} (h : Turns l) (hu : Undisturbed l) (hk : k + writesIn l ≤ 65536) {i : Nat}
    (hi : ((raced k l).idsOf i).length = nodesOf U p) :
    ∃ n bs g, parseTaking U ((raced k l).idsOf i) text = .ok n ∧ astEncode U n = .ok bs ∧ astDecode U nan bs = .ok g ∧ g.root = n.id ∧
      Unfolds g n := by
  have hsub : ((raced k l).idsOf i).Sublist ((raced k l).made.map Prod.snd) := List.filter_sublist.map _
  have hmade := (freshWrites_state (undisturbed_fresh (k := k) h hu)).2
  obtain ⟨n, bs, g, h1, h2, h3, h4, h5⟩ := taken_round_trip hU nan hl hp ht hs hi (fun j hj => by
    have := hsub.subset hj
    rw [hmade, List.mem_range'_1] at this
    omega)
  exact ⟨n, bs, g, h1, h2, h3, h4, h5.2 (((ids_distinct_iff h).2 hu).sublist hsub)⟩

/-! ### Concrete cases -/

/-- A policy of two conditions. -/
def twoConditions : Str := "user.a = 1 AND user.b = 2".toList

example : (raced 0 (setBackSteps 3)).idsOf 0 = [1, 2, 3, 1, 2, 3, 4] := by decide +kernel
example : (raced 0 (makes 0 3 ++ makes 1 2)).made = [(0, 0), (0, 1), (0, 2), (1, 3), (1, 4)] := by decide +kernel

/-- The graph decoded after the threads have met. -/
def metGraph : Except PyExc Graph :=
  (parseTaking asciiUni ((raced 0 (setBackSteps 3)).idsOf 0) twoConditions).bind fun n => (astEncode asciiUni n).bind fun bs => astDecode asciiUni (.fin 0) bs

/-- Both operands of AND are the comparison of `user.b` with 2, and `user.a` is gone. -/
example : metGraph = .ok ⟨[
    (4, ⟨.boolOp, ⟨.boolOp, 11, .str "AND".toList⟩, .none, [3, 3]⟩),
    (3, ⟨.op, ⟨.op, 22, .str "=".toList⟩, .none, [1, 2]⟩),
    (1, ⟨.usrAtt, ⟨.usrAtt, 15, .str "b".toList⟩, .none, []⟩),
    (2, ⟨.intVal, ⟨.int, 24, .int 2⟩, .atom (.int 2), []⟩)], 4⟩ := by
  decide +kernel

/-- The hypotheses of `race_forgets` are met by it. -/
example : ∃ toks o p q, lexTokens asciiUni twoConditions = .ok toks ∧ PolicyOf asciiUni twoConditions (.bin o p q) ∧
    (∀ t ∈ toks, Portable t) ∧ nodesOf asciiUni p = nodesOf asciiUni q := by
  have hl : lexTokens asciiUni twoConditions = .ok [⟨.start, 0, .none⟩, ⟨.usrAtt, 0, .str "a".toList⟩, ⟨.op, 7, .str "=".toList⟩,
      ⟨.int, 9, .int 1⟩, ⟨.boolOp, 11, .str "AND".toList⟩, ⟨.usrAtt, 15, .str "b".toList⟩, ⟨.op, 22, .str "=".toList⟩, ⟨.int, 24, .int 2⟩,
      ⟨.«end», 25, .none⟩] := by decide +kernel
  obtain ⟨p, h1, h2⟩ := (parseText_iff asciiUni_lawful 0 7 twoConditions _).1 (show parseText asciiUni 0 twoConditions = .ok
      (.mk .boolOp ⟨.boolOp, 11, .str "AND".toList⟩ 6 .none [
        .mk .op ⟨.op, 7, .str "=".toList⟩ 2 .none [.mk .usrAtt ⟨.usrAtt, 0, .str "a".toList⟩ 0 .none [],
          .mk .intVal ⟨.int, 9, .int 1⟩ 1 (.atom (.int 1)) []],
        .mk .op ⟨.op, 22, .str "=".toList⟩ 5 .none [.mk .usrAtt ⟨.usrAtt, 15, .str "b".toList⟩ 3 .none [],
          .mk .intVal ⟨.int, 24, .int 2⟩ 4 (.atom (.int 2)) []]], 7) by decide +kernel)
  cases p with
  | bin o p q =>
    refine ⟨_, o, p, q, hl, h1, ?_, ?_⟩
    · intro t ht
      simp only [List.mem_cons, List.not_mem_nil, or_false] at ht
      rcases ht with rfl | rfl | rfl | rfl | rfl | rfl | rfl | rfl | rfl <;> simp [Portable, IsAtt, attClasses, isAscii]
    · have e1 := congrArg (fun r : Node × Nat => r.2) h2
      have e2 := congrArg (fun r : Node × Nat => (r.1.children.map Node.id)) h2
      simp only [Policy.build, Node.children, List.map_cons, List.map_nil, List.cons.injEq, Node.id] at e1 e2
      have r := build_root asciiUni p 0
      have e3 : (p.build asciiUni 0).1.id = 2 := e2.1
      rw [build_next] at e1 r
      rw [build_next] at e1
      omega
  | cmp l o r => simp [Policy.build] at h2
  | lit t => simp [Policy.build] at h2
  | att t => simp [Policy.build, attNode] at h2
  | not n p => simp [Policy.build] at h2

end Verif.Props
