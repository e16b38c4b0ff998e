import Verif.Model.NodeRace
/-!
# When the steps of threads disturb each other

A thread reads the counter, then writes it, and so on. It is disturbed if another thread writes in between.
-/

namespace Verif.Spec
open Verif

/-- The thread of a step. -/
def _root_.Verif.RaceStep.thread : RaceStep → Nat
  | .load i => i
  | .store i => i

/-- The step is a write. -/
def _root_.Verif.RaceStep.writes : RaceStep → Bool
  | .load _ => false
  | .store _ => true

/-- Every thread reads and writes in turns. -/
def Turns (l : List RaceStep) : Prop :=
  ∀ a e b, l = a ++ e :: b →
    (e.writes = true ↔ ∃ c d, a = c ++ .load e.thread :: d ∧ ∀ x ∈ d, x.thread ≠ e.thread)

/-- Nobody writes between a read and the write that belongs to it. -/
def Undisturbed (l : List RaceStep) : Prop :=
  ∀ a i m b, l = a ++ .load i :: (m ++ .store i :: b) → (∀ x ∈ m, x.thread ≠ i) → ∀ x ∈ m, x.writes = false

end Verif.Spec
