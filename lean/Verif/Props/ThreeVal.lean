import Verif.Spec.Kleene
/-!
# C01, C02: the three-valued results
-/

namespace Verif.Props
open Verif Verif.Spec

/-- A formula evaluated with the connectives of `ASTResult`. -/
def evalTri (ρ : Nat → Tri) : Formula → Tri
  | .var i => ρ i
  | .const t => t
  | .not f => (evalTri ρ f).not
  | .and f g => (evalTri ρ f).and (evalTri ρ g)
  | .or f g => (evalTri ρ f).or (evalTri ρ g)

/-- C01: `&`, `|` and `tri_not` are minimum, maximum and order reversal. -/
theorem tri_ops_rank (a b : Tri) :
    rank (a.and b) = min (rank a) (rank b) ∧ rank (a.or b) = max (rank a) (rank b) ∧
      rank a.not = 2 - rank a := by
  cases a <;> cases b <;> decide

/-- `rank` loses nothing, so the previous theorem determines the connectives. -/
theorem rank_injective (a b : Tri) (h : rank a = rank b) : a = b := by
  cases a <;> cases b <;> simp_all [rank]

/-- C01 for every nesting: evaluating a formula gives the value of the rank semantics. -/
theorem evalTri_rank (ρ : Nat → Tri) (f : Formula) : rank (evalTri ρ f) = f.rank ρ := by
  induction f with
  | var i => rfl
  | const t => rfl
  | not f ih => simp [evalTri, Formula.rank, (tri_ops_rank _ .true).2.2, ih]
  | and f g ihf ihg => simp [evalTri, Formula.rank, (tri_ops_rank _ _).1, ihf, ihg]
  | or f g ihf ihg => simp [evalTri, Formula.rank, (tri_ops_rank _ _).2.1, ihf, ihg]

/-- C01: the lattice laws and De Morgan. -/
theorem tri_laws (a b c : Tri) :
    a.and b = b.and a ∧ a.or b = b.or a ∧
    (a.and b).and c = a.and (b.and c) ∧ (a.or b).or c = a.or (b.or c) ∧
    a.and a = a ∧ a.or a = a ∧
    a.and (a.or b) = a ∧ a.or (a.and b) = a ∧
    a.and (b.or c) = (a.and b).or (a.and c) ∧ a.or (b.and c) = (a.or b).and (a.or c) ∧
    (a.and b).not = a.not.or b.not ∧ (a.or b).not = a.not.and b.not ∧ a.not.not = a := by
  cases a <;> cases b <;> cases c <;> decide

/-- C01: refining `UNDEF` inputs never flips a definite result, at any nesting. -/
theorem evalTri_mono (ρ σ : Nat → Tri) (h : ∀ i, InfoLe (ρ i) (σ i)) (f : Formula) :
    InfoLe (evalTri ρ f) (evalTri σ f) := by
  have and_mono : ∀ a b c d : Tri, InfoLe a c → InfoLe b d → InfoLe (a.and b) (c.and d) := by
    intro a b c d h1 h2
    cases a <;> cases b <;> cases c <;> cases d <;> revert h1 h2 <;> unfold InfoLe <;> decide
  have or_mono : ∀ a b c d : Tri, InfoLe a c → InfoLe b d → InfoLe (a.or b) (c.or d) := by
    intro a b c d h1 h2
    cases a <;> cases b <;> cases c <;> cases d <;> revert h1 h2 <;> unfold InfoLe <;> decide
  have not_mono : ∀ a c : Tri, InfoLe a c → InfoLe a.not c.not := by
    intro a c h1
    cases a <;> cases c <;> revert h1 <;> unfold InfoLe <;> decide
  induction f with
  | var i => exact h i
  | const t => exact Or.inr rfl
  | not f ih => exact not_mono _ _ ih
  | and f g ihf ihg => exact and_mono _ _ _ _ ihf ihg
  | or f g ihf ihg => exact or_mono _ _ _ _ ihf ihg

/-- C01: on definite inputs the connectives are the boolean ones. -/
theorem evalTri_classical (ρ : Nat → Bool) (f : Formula) (b : Bool) (h : f.bool ρ = some b) :
    evalTri (fun i => Tri.fromBool (ρ i)) f = Tri.fromBool b := by
  have e1 : ∀ a b : Bool, (Tri.fromBool a).and (Tri.fromBool b) = Tri.fromBool (a && b) := by decide
  have e2 : ∀ a b : Bool, (Tri.fromBool a).or (Tri.fromBool b) = Tri.fromBool (a || b) := by decide
  have e3 : ∀ a : Bool, (Tri.fromBool a).not = Tri.fromBool (!a) := by decide
  induction f generalizing b with
  | var i => simp only [Formula.bool, Option.some.injEq] at h; simp [evalTri, h]
  | const t => cases t <;> simp [Formula.bool] at h <;> subst h <;> rfl
  | not f ih =>
    simp only [Formula.bool, Option.map_eq_some_iff] at h
    obtain ⟨x, hx, rfl⟩ := h
    rw [evalTri, ih x hx, e3]
  | and f g ihf ihg =>
    simp only [Formula.bool, Option.bind_eq_bind, Option.bind_eq_some_iff, Option.pure_def,
      Option.some.injEq] at h
    obtain ⟨x, hx, y, hy, rfl⟩ := h
    rw [evalTri, ihf x hx, ihg y hy, e1]
  | or f g ihf ihg =>
    simp only [Formula.bool, Option.bind_eq_bind, Option.bind_eq_some_iff, Option.pure_def,
      Option.some.injEq] at h
    obtain ⟨x, hx, y, hy, rfl⟩ := h
    rw [evalTri, ihf x hx, ihg y hy, e2]

/-- Non-vacuity: `a AND (b OR NOT a)` with `a` undefined refined to `FALSE`. -/
example : evalTri (fun i => if i = 0 then .undef else .true)
      (.and (.var 0) (.or (.var 1) (.not (.var 0)))) = .undef ∧
    evalTri (fun i => if i = 0 then .false else .true)
      (.and (.var 0) (.or (.var 1) (.not (.var 0)))) = .false ∧
    InfoLe .undef .false ∧ ¬ InfoLe .true .false := by
  refine ⟨rfl, rfl, Or.inl rfl, ?_⟩
  simp [InfoLe]

/-- C02: a result is truthy exactly when it is `TRUE`; in terms of ranks, when it is the maximum. -/
theorem truth_iff (r : Tri) : r.truth = true ↔ rank r = 2 := by cases r <;> decide

/-- C02: a policy combination with `&` grants iff both do; with `|` iff one does; a negation never grants on `UNDEF`. -/
theorem truth_ops (a b : Tri) :
    (a.and b).truth = (a.truth && b.truth) ∧ (a.or b).truth = (a.truth || b.truth) ∧
      (a.not.truth = true ↔ a = .false) := by
  cases a <;> cases b <;> decide

/-- Non-vacuity of C02: all three results occur. -/
example : Tri.true.truth = true ∧ Tri.undef.truth = false ∧ Tri.undef.not.truth = false ∧
    Tri.false.truth = false := by decide

end Verif.Props
