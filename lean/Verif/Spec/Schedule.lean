import Mathlib.Algebra.Order.Field.Basic
import Mathlib.Algebra.BigOperators.Group.List.Basic
import Mathlib.Data.List.Chain
import Mathlib.Tactic.Linarith

/-!
# What a regular schedule is

Independent of the model: events at update numbers, with `T k` the time after `k` updates.
-/

namespace Verif.Spec

variable {K : Type*} [Field K] [LinearOrder K]

/-- After an event at update `a` the next event is at `b`: the first update at which at least `d` has
gone by. -/
def NextDue (d : K) (T : ℕ → K) (a b : ℕ) : Prop :=
  a < b ∧ d ≤ T b - T a ∧ ∀ k, a < k → k < b → T k - T a < d

/-- The update numbers `is` of the events among the first `n` updates are those of the schedule: one
at the beginning, then always the first update at which `d` has gone by since the last event. -/
structure OnSchedule (d : K) (T : ℕ → K) (n : ℕ) (is : List ℕ) : Prop where
  first : is.head? = some 0
  next : is.IsChain (NextDue d T)
  last : ∀ a ∈ is.getLast?, a ≤ n ∧ ∀ k, a < k → k ≤ n → T k - T a < d

/-- The time after `k` of the given steps. -/
def clock (t0 : K) (dts : List K) (k : ℕ) : K := t0 + (dts.take k).sum

end Verif.Spec
