import Verif.Props.Expressive
import Verif.Props.Polarity

/-!
# Which decisions can be written so that attributes speak for them (C163)

The condition of C160 on texts loses nothing: decisions that are not lowered by raising attributes can be written such that all mentions of
the attributes speak for the policy.
-/

namespace Verif.Props

open Verif.Spec Proofs

/-- All attributes are under an even number of negations, or an odd one, and not in comparisons. -/
def Policy.Forward : Bool → Policy → Prop
  | _, .cmp l _ r => l.atts ++ r.atts = []
  | _, .lit _ => True
  | up, .att _ => up = true
  | up, .not _ p => Policy.Forward (!up) p
  | up, .bin _ p q => Policy.Forward up p ∧ Policy.Forward up q

theorem atts_strip (l : Operand) : l.strip.atts = l.atts.map Token.strip := by
  cases l <;> rfl

theorem forward_strip (p : Policy) (up : Bool) : Policy.Forward up p.strip ↔ Policy.Forward up p := by
  induction p generalizing up with
  | cmp l o r =>
    show l.strip.atts ++ r.strip.atts = [] ↔ l.atts ++ r.atts = []
    rw [atts_strip, atts_strip, ← List.map_append, List.map_eq_nil_iff]
  | not n p ih => exact ih _
  | bin o p q ihp ihq => exact and_congr (ihp _) (ihq _)
  | _ => exact Iff.rfl

theorem forward_polar {U : Uni} {key : Str} (p : Policy) {up : Bool} (h : Policy.Forward up p) : p.Polar U key up := by
  induction p generalizing up with
  | cmp l o r => exact .inl fun t ht => by rw [show l.atts ++ r.atts = [] from h] at ht; cases ht
  | lit t => trivial
  | att t => exact .inr h
  | not n p ih => exact ih h
  | bin o p q ihp ihq => exact ⟨ihp h.1, ihq h.2⟩

/-- The places other than the first two are under an even number of negations, or an odd one. -/
def forwardT : Bool → Template → Prop
  | up, .place i => i < 2 ∨ up = true
  | up, .neg f => forwardT (!up) f
  | up, .conj f g => forwardT up f ∧ forwardT up g
  | up, .disj f g => forwardT up f ∧ forwardT up g

theorem forward_instance {name : Nat → Str} {P : Nat → Policy} (hP : ∀ i, (P i).strip = (placePolicy name i).strip) (f : Template)
    {up : Bool} (h : forwardT up f) : Policy.Forward up (instanceOf P f) := by
  induction f generalizing up with
  | place i =>
    show Policy.Forward up (P i)
    rw [← forward_strip, hP i, forward_strip]
    match i, h with
    | 0, _ => trivial
    | 1, _ => rfl
    | i + 2, h => exact h.resolve_left (by omega)
  | neg f ih => exact ih h
  | conj f g ih1 ih2 => exact ⟨ih1 h.1, ih2 h.2⟩
  | disj f g ih1 ih2 => exact ⟨ih1 h.1, ih2 h.2⟩

theorem fixAt_rising {n : Nat} {f : (Nat → Tri) → Tri} (h : Rising (n + 1) f) (v : Tri) : Rising n (fixAt f n v) := by
  intro ρ i hi w hw
  have := h (fun j => if j = n then v else ρ j) i (by omega) w (by rw [if_neg (by omega)]; exact hw)
  unfold fixAt
  rw [show (fun j => if j = n then v else if j = i then w else ρ j) = fun j => if j = i then w else if j = n then v else ρ j from by
    funext j
    by_cases h1 : j = n <;> by_cases h2 : j = i <;> simp [h1, h2]
    all_goals
      intro _
      omega]
  exact this

theorem fixAt_le {n : Nat} {f : (Nat → Tri) → Tri} (h : Rising (n + 1) f) {v w : Tri} (hvw : TruthLe v w) (ρ : Nat → Tri) :
    TruthLe (fixAt f n v ρ) (fixAt f n w ρ) := by
  have := h (fun j => if j = n then v else ρ j) n (by omega) w (by rw [if_pos rfl]; exact hvw)
  unfold fixAt
  rw [show (fun j => if j = n then w else ρ j) = fun j => if j = n then w else if j = n then v else ρ j from by
    funext j
    by_cases h1 : j = n <;> simp [h1]]
  exact this

/-- The decision by cases for rising decisions. -/
theorem case_rising (x : Tri) {a b c : Tri} (h1 : InfoLe c a) (h2 : InfoLe c b) (h3 : TruthLe b c) (h4 : TruthLe c a) :
    max (min (rank x) (rank a)) (rank b) = rank (match x with | .true => a | .false => b | .undef => c) := by
  revert h1 h2 h3 h4
  cases x <;> cases a <;> cases b <;> cases c <;> simp [InfoLe, TruthLe, rank]

/-- Every steady and rising function is that of a template with the attributes under even numbers of negations. -/
theorem rising_template (n : Nat) {f : (Nat → Tri) → Tri} (h : Steady n f) (hr : Rising n f) :
    ∃ g : Template, (∀ i ∈ g.places, i < n + 2) ∧ forwardT true g ∧ ∀ ρ, g.truth (placed ρ) = rank (f ρ) := by
  induction n generalizing f with
  | zero =>
    have hc : ∀ ρ, f ρ = f fun _ => .undef := fun ρ => steady_local h fun i hi => absurd hi (Nat.not_lt_zero i)
    cases hv : f fun _ => .undef with
    | true => exact ⟨.place 0, by simp [Template.places], .inr rfl, fun ρ => by rw [hc, hv]; rfl⟩
    | false => exact ⟨.neg (.place 0), by simp [Template.places], .inl (by decide), fun ρ => by rw [hc, hv]; rfl⟩
    | undef => exact ⟨.place 1, by simp [Template.places], .inr rfl, fun ρ => by rw [hc, hv]; rfl⟩
  | succ n ih =>
    obtain ⟨t, pt, qt, ht⟩ := ih (fixAt_steady h .true) (fixAt_rising hr .true)
    obtain ⟨e, pe, qe, he⟩ := ih (fixAt_steady h .false) (fixAt_rising hr .false)
    refine ⟨.disj (.conj (.place (n + 2)) t) e, ?_, ⟨⟨.inr rfl, qt⟩, qe⟩, fun ρ => ?_⟩
    · intro i hi
      simp only [Template.places, List.mem_append, List.mem_singleton] at hi
      rcases hi with (hi | hi) | hi
      · omega
      · exact Nat.lt_succ_of_lt (pt i hi)
      · exact Nat.lt_succ_of_lt (pe i hi)
    · have hself : f ρ = fixAt f n (ρ n) ρ := steady_local h fun i _ => by
        by_cases hi : i = n
        · rw [if_pos hi, hi]
        · rw [if_neg hi]
      have hle : ∀ v, InfoLe (fixAt f n .undef ρ) (fixAt f n v ρ) := fun v => h _ _ fun i _ => by
        by_cases hi : i = n
        · rw [if_pos hi]; exact .inl rfl
        · rw [if_neg hi, if_neg hi]; exact .inr rfl
      simp only [Template.truth, ht, he]
      rw [hself]
      show max (min (rank (ρ n)) _) _ = _
      rw [case_rising (ρ n) (hle .true) (hle .false) (fixAt_le hr (.inl rfl) ρ) (fixAt_le hr (.inr (.inl rfl)) ρ)]
      cases ρ n <;> rfl

/-! ### Tables that differ in one attribute -/

theorem tableOf_at {U : Uni} {name : Nat → Str} (hn : UserNames U name) {n : Nat} {ρ : Nat → Tri} {ty : TokenType} {x : Str} {i : Nat}
    (hi : i < n) (hk : U.lower ("user.".toList ++ name i) = U.lower (attTypePrefix (some ty) ++ x)) :
    attsOf U (tableOf U name n ρ) ty x = if ρ i = .undef then none else some (.bool, .sc (.tri (ρ i))) := by
  by_cases hu : ρ i = .undef
  · rw [if_pos hu]
    cases h : attsOf U (tableOf U name n ρ) ty x with
    | none => rfl
    | some v =>
      obtain ⟨j, _, h2, h3, _⟩ := tableOf_some h
      rw [hn.apart j i (h3.trans hk.symm)] at h2
      exact absurd hu h2
  · rw [if_neg hu, tableOf_has hn hi hu hk]

theorem tableOf_differ {U : Uni} {name : Nat → Str} (hn : UserNames U name) (n : Nat) (ρ : Nat → Tri) {i : Nat} (v : Tri) :
    DifferOnly U (U.lower ("user.".toList ++ name i)) (attsOf U (tableOf U name n ρ))
      (attsOf U (tableOf U name n fun j => if j = i then v else ρ j)) := by
  intro ty x hx
  rw [prefix_eq] at hx
  have step : ∀ ρ σ : Nat → Tri, (∀ j, j ≠ i → ρ j = σ j) → ∀ w, attsOf U (tableOf U name n ρ) ty x = some w →
      attsOf U (tableOf U name n σ) ty x = some w := by
    intro ρ σ he w h
    obtain ⟨j, hj, h2, h3, rfl⟩ := tableOf_some h
    have : j ≠ i := fun hji => hx (by rw [← h3, hji])
    rw [he j this] at h2 ⊢
    exact tableOf_has hn hj h2 h3
  have s1 := step ρ (fun j => if j = i then v else ρ j) fun j hj => by simp [hj]
  have s2 := step (fun j => if j = i then v else ρ j) ρ fun j hj => by simp [hj]
  cases h : attsOf U (tableOf U name n ρ) ty x with
  | some w => exact (s1 w h).symm
  | none =>
    cases h' : attsOf U (tableOf U name n fun j => if j = i then v else ρ j) ty x with
    | none => rfl
    | some w =>
      rw [s2 w h'] at h
      cases h

/-- **C163**: a table of decisions can be written such that the attributes speak for the policy exactly if it is steady and no decision is
lowered by raising an attribute. -/
theorem rising_expressible_iff {U : Uni} (hU : U.Lawful) {name : Nat → Str} (hn : UserNames U name) (n : Nat) {m : Int} (hm : 2 < m)
    (f : (Nat → Tri) → Tri) :
    (∃ text p, PolicyOf U text p ∧ (∀ i < n, p.Polar U (U.lower ("user.".toList ++ name i)) true) ∧
      ∀ E, SymEnv.SetsOk E → ∀ ρ, Holds U name n E ρ → Gives U E (some m) text (f ρ)) ↔ Steady n f ∧ Rising n f := by
  constructor
  · rintro ⟨text, p, hp, hk, h⟩
    refine ⟨(expressible_iff hU hn n hm f).mp ⟨text, p, hp, h⟩, fun ρ i hi v hv => ?_⟩
    have h1 := h _ (tableOf_sets U name n ρ) ρ (tableOf_holds hn n ρ)
    have h2 := h _ (tableOf_sets U name n _) _ (tableOf_holds hn n fun j => if j = i then v else ρ j)
    obtain ⟨w, h3, h4⟩ := raised_for hU (tableOf_sets U name n ρ) (tableOf_sets U name n _) (tableOf_differ hn n ρ v) (fun t ht => by
      have ht : U.lower ("user.".toList ++ name i) = U.lower (attTypePrefix (some t.type) ++ attName t) := by
        rw [← prefix_eq]
        exact ht.symm
      rw [tableOf_at hn hi ht, tableOf_at hn hi ht]
      simp only [if_true]
      revert hv
      cases ρ i <;> cases v <;> intro hv <;> first
        | exact .same _
        | exact .given
        | exact .taken
        | exact .truth hv
        | (rcases hv with hv | hv | hv <;> cases hv)) hp hm (hk i hi) h1
    by_cases hl : ∃ x, p = .lit x
    · obtain ⟨x, rfl⟩ := hl
      exact absurd h1 (lit_gives hU (tableOf_sets U name n ρ) hp)
    · have hl : ∀ x, p ≠ .lit x := fun x hx => hl ⟨x, hx⟩
      have h5 := (gives_sem hU (tableOf_sets U name n _) hm hp hl _).mp h2
      have h6 := (gives_sem hU (tableOf_sets U name n _) hm hp hl _).mp h3
      have : w = f fun j => if j = i then v else ρ j := by
        have := h6.symm.trans h5
        injection this with this
        injection this
      rw [← this]
      exact h4
  · rintro ⟨hf, hr⟩
    obtain ⟨g, hg, hgf, ht⟩ := rising_template n hf hr
    have hP : ∀ i, ∃ q, PolicyOf U (placeText name i) q ∧ q.strip = (placePolicy name i).strip := fun i => reads_policy (place_reads hU hn i)
    choose P hP hS using hP
    obtain ⟨q, hq, hs⟩ := reads_policy (reads_fill hU (.neg (.neg g)) fun i _ => policy_reads (hP i))
    refine ⟨(Template.neg (.neg g)).fill (placeText name), q, hq, fun i hi => forward_polar q ?_, fun E hE ρ hρ => ?_⟩
    · rw [← forward_strip, hs, forward_strip]
      exact forward_instance hS (.neg (.neg g)) (up := true) hgf
    refine (fill_value hU hE hP (f := .neg (.neg g)) trivial).mpr ⟨placed ρ, fun i hi => ?_, ?_⟩
    · exact (value_strip (hS i)).mpr (place_value hU hρ hm i (hg i hi))
    · show _ = 2 - (2 - g.truth (placed ρ))
      rw [ht]
      cases f ρ <;> rfl

/-- Two of three. -/
example : ∃ text p, PolicyOf asciiUni text p ∧
    (∀ i < 3, p.Polar asciiUni (asciiUni.lower ("user.".toList ++ List.replicate (i + 1) 'a')) true) ∧
    ∀ E, SymEnv.SetsOk E → ∀ ρ, Holds asciiUni (fun i => List.replicate (i + 1) 'a') 3 E ρ →
      Gives asciiUni E (some 3) text (if ρ 0 = ρ 1 ∨ ρ 0 = ρ 2 then ρ 0 else if ρ 1 = ρ 2 then ρ 1 else .undef) := by
  refine (rising_expressible_iff asciiUni_lawful (names_exist asciiUni_lawful) 3 (by decide) _).mpr ⟨?_, ?_⟩
  · intro ρ σ h
    have h0 := h 0 (by decide)
    have h1 := h 1 (by decide)
    have h2 := h 2 (by decide)
    dsimp only
    revert h0 h1 h2
    generalize ρ 0 = a, ρ 1 = b, ρ 2 = c, σ 0 = x, σ 1 = y, σ 2 = z
    cases a <;> cases b <;> cases c <;> cases x <;> cases y <;> cases z <;> simp [InfoLe]
  · intro ρ i hi v hv
    have hi : i = 0 ∨ i = 1 ∨ i = 2 := by omega
    rcases hi with rfl | rfl | rfl <;> cases ha : ρ 0 <;> cases hb : ρ 1 <;> cases hc : ρ 2 <;> cases v <;> simp_all [TruthLe]

end Verif.Props
