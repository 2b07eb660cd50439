import Mathlib.Algebra.BigOperators.Group.Finset.Basic
import Verif.Model.Timestep

/-!
# Specification: the sediment budget of a run

Where the sediment of a run is, in terms of beds and of what the parcels did. Cells of the inlet are left out
because their bed is set anew in each timestep.
-/

namespace Verif.Spec

open Verif.Model

variable {K : Type*} [Field K] [LinearOrder K] {L W m : ℕ}

/-- A cell that is not one of the inlet: not in the first row or not in a column of the inlet. -/
def Outside (inlet : Fin m → Fin W) (c : Cell L W) : Prop := ¬ (c.1.val = 0 ∧ ∃ k, inlet k = c.2)

instance (inlet : Fin m → Fin W) (c : Cell L W) : Decidable (Outside inlet c) := by
  unfold Outside; infer_instance

/-- The volume of the bed outside of the inlet. -/
def outsideVolume (dx : K) (inlet : Fin m → Fin W) (S : State L W K) : K :=
  ∑ c with Outside inlet c, S.eta c * (dx * dx)

/-- The volume that the steps of the parcels left in a cell, less what they took from it. -/
def movedTo (logs : List (SedLog L W K)) (c : Cell L W) : K :=
  (logs.map fun l => (l.steps.map fun r => if r.cell = c then r.change else 0).sum).sum

/-- The volume that the parcels left in the cells of the inlet, less what they took from there. -/
def movedToInlet (inlet : Fin m → Fin W) (logs : List (SedLog L W K)) : K :=
  (logs.map fun l => (l.steps.map fun r => if Outside inlet r.cell then 0 else r.change).sum).sum

/-- The volume that the parcels still had when they ended. -/
def carriedOut (logs : List (SedLog L W K)) : K := (logs.map fun l => l.left).sum

/-- The thickness by which a cell subsides in a timestep that starts at `time`. -/
def sinks (P : Params L W m K) (time : K) (c : Cell L W) : K :=
  if P.toggleSub = true ∧ P.startSub ≤ time then P.sigma c else 0

end Verif.Spec
