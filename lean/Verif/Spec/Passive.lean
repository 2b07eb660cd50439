import Verif.Model.Timestep

/-!
# Specification: a model without composition

What is left of settings, fields and records if sand fractions are not looked at.
-/

namespace Verif.Spec

open Verif.Model

variable {L W m : ℕ} {K : Type*} [Field K]

/-- The fields without the composition of the bed. -/
def plainState (S : State L W K) : State L W K :=
  { S with sandFrac := fun _ => 0, activeLayer := fun _ => 0 }

/-- The settings without those of the composition of the bed. -/
def plainParams (P : Params L W m K) : Params L W m K := { P with actThick := 0, sandFracBc := 0 }

/-- The record of one step of a sediment parcel. -/
def plainRec (r : SedRec L W K) : SedRec L W K :=
  { r with before := plainState r.before, after := plainState r.after }

/-- The record of a sediment parcel. -/
def plainSed (l : SedLog L W K) : SedLog L W K := { l with steps := l.steps.map plainRec }

/-- The record of a timestep. -/
def plainLog (l : StepLog L W K) : StepLog L W K :=
  { start := plainState l.start, watered := plainState l.watered, routed := plainState l.routed
    sand := l.sand.map plainSed, mud := l.mud.map plainSed }

/-- The result of a run. -/
def plainRun {σ : Type*} (x : State L W K × List (StepLog L W K) × σ) :
    State L W K × List (StepLog L W K) × σ := (plainState x.1, x.2.1.map plainLog, x.2.2)

end Verif.Spec
