import Verif.Model.Hooks

/-!
# Where hooks are called, and the documented order of the steps
-/

namespace Verif.Spec

open Verif.Model

/-- The steps that have a hook called after them (pyDeltaRCM/hook_tools.py). -/
def HasAfter (s : Step) : Prop :=
  s = .createDomain ∨ s = .routeWater ∨ s = .routeSediment ∨ s = .finalizeTimestep

/-- Two calls that follow each other: a step is entered right after its own hook and a hook is
followed by its step; a hook after a step comes right at the end of that step. -/
structure Fits (a b : Ev) : Prop where
  enter : ∀ s, b = .enter s → a = .hook s
  hook : ∀ s, a = .hook s → b = .enter s
  after : ∀ s, b = .hookAfter s → a = .exit s
  exit : ∀ s, HasAfter s → a = .exit s → b = .hookAfter s

/-- Every step in a list of calls has its hook right before it (and after it, if there is one), and no
hook is called in any other place. -/
structure HooksInPlace (l : List Ev) : Prop where
  first : ∀ s, l.head? ≠ some (.enter s) ∧ l.head? ≠ some (.hookAfter s)
  next : l.IsChain Fits
  last : ∀ s, l.getLast? ≠ some (.hook s) ∧ (HasAfter s → l.getLast? ≠ some (.exit s))

/-- The steps entered. -/
def entered (l : List Ev) : List Step :=
  l.filterMap (fun e => match e with | .enter s => some s | _ => none)

/-- The hooks called before steps. -/
def hooked (l : List Ev) : List Step :=
  l.filterMap (fun e => match e with | .hook s => some s | _ => none)

/-- Every step ends before the step it was called from: the open steps, innermost first, after the
calls `l`. -/
def openAfter : List Ev → List Step → Option (List Step)
  | [], st => some st
  | .enter s :: l, st => openAfter l (s :: st)
  | .exit s :: l, t :: st => if s = t then openAfter l st else none
  | .exit _ :: _, [] => none
  | _ :: l, st => openAfter l st

/-- The documented order of the steps of an update (docs: `update`, `solve_water_and_sediment_timestep`,
`route_water`, `route_sediment`, `finalize_timestep`). -/
def documented (itermax : ℕ) : List Step :=
  [.solveWaterAndSediment, .routeWater] ++
  ((List.range itermax).map fun i => [Step.initWaterIteration, .runWaterIteration,
    .computeFreeSurface, .finalizeWaterIteration i]).flatten ++
  [.routeSediment, .initSedimentIteration, .routeAllSandParcels, .topoDiffusion,
   .routeAllMudParcels, .applySubsidence, .finalizeTimestep, .computeSandFrac, .outputData,
   .outputCheckpoint]

end Verif.Spec
