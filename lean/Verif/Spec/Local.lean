import Verif.Spec.Budget
import Verif.Spec.Sediment

/-!
# Specification: where sediment parcels were
-/

namespace Verif.Spec

open Verif.Model

variable {K : Type*} [Field K] [LinearOrder K] {L W m : ℕ}

/-- Not more than `n` rows and `n` columns apart. -/
def Within (n : ℕ) (a b : Cell L W) : Prop :=
  |(a.1.val : ℤ) - b.1.val| ≤ n ∧ |(a.2.val : ℤ) - b.2.val| ≤ n

instance (n : ℕ) (a b : Cell L W) : Decidable (Within n a b) := by unfold Within; infer_instance

/-- A parcel was in the cell: it started there, left from there or came there. -/
def Visited (logs : List (SedLog L W K)) (c : Cell L W) : Prop :=
  ∃ l ∈ logs, (c.1.val = 0 ∧ l.start = c.2) ∨ ∃ r ∈ l.steps, r.from_ = c ∨ r.cell = c

/-- The parcels of an update stayed away from the cell: no sand parcel was in the cell or a neighbour of it, and no mud
parcel was in the cell. -/
def Untouched (l : StepLog L W K) (c : Cell L W) : Prop :=
  (∀ x, Within 1 c x → ¬ Visited l.sand x) ∧ ¬ Visited l.mud c

/-- The cell is too far from the inlet for the parcels: farther than `n` cells, and one more, from every cell of the
inlet. -/
def Beyond (n : ℕ) (inlet : Fin m → Fin W) (c : Cell L W) : Prop :=
  ∀ k, (n : ℤ) + 1 < c.1.val ∨ (n : ℤ) + 1 < |((inlet k).val : ℤ) - c.2.val|

end Verif.Spec
