import Verif.Model.Custom

/-!
# Methods called one by one

A user may call the methods that make up an update in any order, beside `update` itself. A method that is called from outside
does not run its own hook; those of the methods that it calls run as always.

Not modelled: calls of the parts of a water iteration from outside (`init_water_iteration` to `finalize_water_iteration`), for which
see `Model/WaterParts`; the warnings of the two old names.
-/

namespace Verif.Model

variable {K : Type*} [Field K] [LinearOrder K] [FloorRing K] {α σ : Type*} {L W m : ℕ}

/-- The methods. -/
inductive MethodCall
  | update
  | solve
  | runOneTimestep
  | routeWater
  | routeSediment
  | sedRoute
  | initSediment
  | routeParcels (k : Sed)
  | diffusion
  | subsidence
  | finalizeTimestep
  | sandFrac
  deriving DecidableEq

/-- A method of a class: its own version, or that of `DeltaModel`. -/
def UserClass.method (U : UserClass L W m K α σ) (s : Step) (body : Doing L W m K α σ) : Doing L W m K α σ := (U.own s).getD body

/-- A call: `update` (pyDeltaRCM/model.py 148-215), `solve_water_and_sediment_timestep` (pyDeltaRCM/iteration_tools.py 23-46), its old
name `run_one_timestep` (48-59), `route_water` (pyDeltaRCM/water_tools.py 11-41), `route_sediment` (pyDeltaRCM/sed_tools.py 18-49), its
old name `sed_route` (51-61), and the methods that these call. -/
def callMethod [NeZero L] [NeZero W] (U : UserClass L W m K α σ) (g : Rng K σ) : MethodCall → Doing L W m K α σ
  | .update => customStep U g
  | .solve => U.method .solveWaterAndSediment (solveAct U g)
  | .runOneTimestep => U.method .solveWaterAndSediment (solveAct U g)
  | .routeWater => U.method .routeWater (routeWaterAct U g)
  | .routeSediment => U.method .routeSediment (routeSedimentAct U g)
  | .sedRoute => U.method .routeSediment (routeSedimentAct U g)
  | .initSediment => U.method .initSedimentIteration initSedimentAct
  | .routeParcels .sand => U.method .routeAllSandParcels (routeParcelsAct g .sand)
  | .routeParcels .mud => U.method .routeAllMudParcels (routeParcelsAct g .mud)
  | .diffusion => U.method .topoDiffusion diffusionAct
  | .subsidence => U.method .applySubsidence subsidenceAct
  | .finalizeTimestep => U.method .finalizeTimestep (finalizeAct U)
  | .sandFrac => U.method .computeSandFrac sandFracAct

/-- One call after the other, up to an error. -/
def callMethods [NeZero L] [NeZero W] (U : UserClass L W m K α σ) (g : Rng K σ) : List MethodCall → Doing L W m K α σ
  | [] => .ok
  | a :: l => Doing.andThen (callMethod U g a) (callMethods U g l)

end Verif.Model
