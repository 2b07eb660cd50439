import Verif.Model.Timestep
import Verif.Model.Setup

/-!
# C126: what the inlet supplies

The volume that enters is read off the parcels: what each carries at its first step.
-/

namespace Verif.Spec

open Verif.Model

variable {K : Type*} [Field K] {L W : ℕ}

/-- The volume that a parcel carries at its first step. -/
def entering (l : SedLog L W K) : K :=
  match l.steps with
  | [] => 0
  | r :: _ => r.res

/-- The volume that enters with the parcels of some timesteps: sand, mud. -/
def enteredSand (ls : List (StepLog L W K)) : K := (ls.map fun l => (l.sand.map entering).sum).sum
def enteredMud (ls : List (StepLog L W K)) : K := (ls.map fun l => (l.mud.map entering).sum).sum

/-- The sediment discharge of a configuration with an inlet of `m` cells: speed times depth times width times
concentration. -/
def sedimentDischarge (I : Input K) (m : ℕ) : K := I.u0 * I.h0 * (m * I.dx) * (I.C0pct / 100)

end Verif.Spec
