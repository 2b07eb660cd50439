import Verif.Model.Sediment
import Verif.Model.Timestep

/-!
# Specification: the level from which elevations are measured

The same basin with elevations measured from a level that is lower by `k`: bed, stage and sea level are
higher by `k`, and nothing else changes.
-/

namespace Verif.Spec

open Verif.Model

variable {L W : ℕ} {K : Type*} [Add K]

/-- Elevations measured from a level that is lower by `k`. -/
def raise (k : K) (f : Grid L W K) : Grid L W K := fun c => f c + k

/-- The state with elevations measured from a level that is lower by `k`. -/
def raiseState (k : K) (S : State L W K) : State L W K :=
  { S with eta := raise k S.eta, stage := raise k S.stage, HSL := S.HSL + k }

/-- The record of one step of a sediment parcel. -/
def raiseRec (k : K) (r : SedRec L W K) : SedRec L W K :=
  { r with before := raiseState k r.before, after := raiseState k r.after }

/-- The record of a sediment parcel. -/
def raiseSed (k : K) (l : SedLog L W K) : SedLog L W K := { l with steps := l.steps.map (raiseRec k) }

/-- The record of a timestep. -/
def raiseLog (k : K) (l : StepLog L W K) : StepLog L W K :=
  { start := raiseState k l.start, watered := raiseState k l.watered, routed := raiseState k l.routed
    sand := l.sand.map (raiseSed k), mud := l.mud.map (raiseSed k) }

end Verif.Spec
