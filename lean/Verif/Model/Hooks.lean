import Mathlib.Data.List.Chain
import Mathlib.Data.List.Range

/-!
# The calls made in `__init__` and `update`, with their hooks

The sequence of calls of steps and hooks as a list of events. What the steps do is modelled elsewhere
(`Verif.Model.Timestep`, `Verif.Model.Output`); exceptions, which end the sequence, are not part of
this list. Calls that have no hook and no hook inside are left out.
-/

namespace Verif.Model

/-- The steps with a hook (pyDeltaRCM/hook_tools.py 33-215). -/
inductive Step
  | importFiles
  | processInputToModel
  | createOtherVariables
  | createDomain
  | loadCheckpoint
  | initOutputFile
  | outputData
  | outputCheckpoint
  | solveWaterAndSediment
  | applySubsidence
  | finalizeTimestep
  | routeWater
  | initWaterIteration
  | runWaterIteration
  | computeFreeSurface
  | finalizeWaterIteration (iteration : ℕ)
  | routeSediment
  | initSedimentIteration
  | routeAllSandParcels
  | topoDiffusion
  | routeAllMudParcels
  | computeSandFrac
deriving DecidableEq

/-- A call of a hook, a hook called after a step (pyDeltaRCM/hook_tools.py 253-290), and the start and
the end of a step. -/
inductive Ev
  | hook (s : Step)
  | hookAfter (s : Step)
  | enter (s : Step)
  | exit (s : Step)
deriving DecidableEq

/-- One pass of the loop in `route_water` (pyDeltaRCM/water_tools.py 26-41). -/
def waterIterationEvents (i : ℕ) : List Ev :=
  [.hook .initWaterIteration, .enter .initWaterIteration, .exit .initWaterIteration,
   .hook .runWaterIteration, .enter .runWaterIteration, .exit .runWaterIteration,
   .hook .computeFreeSurface, .enter .computeFreeSurface, .exit .computeFreeSurface,
   .hook (.finalizeWaterIteration i), .enter (.finalizeWaterIteration i),
   .exit (.finalizeWaterIteration i)]

/-- `route_water` (pyDeltaRCM/water_tools.py 11-41) with `itermax` iterations. -/
def routeWaterEvents (itermax : ℕ) : List Ev := (List.range itermax).flatMap waterIterationEvents

/-- `route_sediment` (pyDeltaRCM/sed_tools.py 18-49). -/
def routeSedimentEvents : List Ev :=
  [.hook .initSedimentIteration, .enter .initSedimentIteration, .exit .initSedimentIteration,
   .hook .routeAllSandParcels, .enter .routeAllSandParcels, .exit .routeAllSandParcels,
   .hook .topoDiffusion, .enter .topoDiffusion, .exit .topoDiffusion,
   .hook .routeAllMudParcels, .enter .routeAllMudParcels, .exit .routeAllMudParcels]

/-- `solve_water_and_sediment_timestep` (pyDeltaRCM/iteration_tools.py 23-46). -/
def solveEvents (itermax : ℕ) : List Ev :=
  [.hook .routeWater, .enter .routeWater] ++ routeWaterEvents itermax ++
  [.exit .routeWater, .hookAfter .routeWater,
   .hook .routeSediment, .enter .routeSediment] ++ routeSedimentEvents ++
  [.exit .routeSediment, .hookAfter .routeSediment]

/-- `finalize_timestep` (pyDeltaRCM/iteration_tools.py 87-115). -/
def finalizeTimestepEvents : List Ev :=
  [.hook .computeSandFrac, .enter .computeSandFrac, .exit .computeSandFrac]

/-- `update` (pyDeltaRCM/model.py 188-215). -/
def updateEvents (itermax : ℕ) : List Ev :=
  [.hook .solveWaterAndSediment, .enter .solveWaterAndSediment] ++ solveEvents itermax ++
  [.exit .solveWaterAndSediment,
   .hook .applySubsidence, .enter .applySubsidence, .exit .applySubsidence,
   .hook .finalizeTimestep, .enter .finalizeTimestep] ++ finalizeTimestepEvents ++
  [.exit .finalizeTimestep, .hookAfter .finalizeTimestep,
   .hook .outputData, .enter .outputData, .exit .outputData,
   .hook .outputCheckpoint, .enter .outputCheckpoint, .exit .outputCheckpoint]

/-- `init_output_file` and the first output (pyDeltaRCM/model.py 134-143 and
pyDeltaRCM/preprocessor.py 889-896). -/
def firstOutputEvents : List Ev :=
  [.hook .initOutputFile, .enter .initOutputFile, .exit .initOutputFile,
   .hook .outputData, .enter .outputData, .exit .outputData,
   .hook .outputCheckpoint, .enter .outputCheckpoint, .exit .outputCheckpoint]

/-- `load_checkpoint` (pyDeltaRCM/init_tools.py 914-930): a new output file is made if none is
found. -/
def loadCheckpointEvents (newFile : Bool) : List Ev :=
  if newFile then [.hook .initOutputFile, .enter .initOutputFile, .exit .initOutputFile] else []

/-- `__init__` (pyDeltaRCM/model.py 37-147). `newFile`: on resuming an output file is expected but
missing. -/
def initEvents (resume deferOutput newFile : Bool) : List Ev :=
  [.hook .importFiles, .enter .importFiles, .exit .importFiles,
   .hook .processInputToModel, .enter .processInputToModel, .exit .processInputToModel,
   .hook .createOtherVariables, .enter .createOtherVariables, .exit .createOtherVariables,
   .hook .createDomain, .enter .createDomain, .exit .createDomain, .hookAfter .createDomain] ++
  (if resume then
    [.hook .loadCheckpoint, .enter .loadCheckpoint] ++
      loadCheckpointEvents (newFile && !deferOutput) ++ [.exit .loadCheckpoint]
  else if deferOutput then [] else firstOutputEvents)

/-- What `_ParallelJob.run` does before the updates (pyDeltaRCM/preprocessor.py 880-896). The model is
made with `defer_output`. -/
def parallelStartEvents (resume newFile : Bool) : List Ev :=
  if resume then [.enter .loadCheckpoint] ++ loadCheckpointEvents newFile ++ [.exit .loadCheckpoint]
  else firstOutputEvents

/-- The life of a model made by the user: `n` updates with their numbers of iterations. -/
def lifeEvents (resume newFile : Bool) (iters : List ℕ) : List Ev :=
  initEvents resume false newFile ++ iters.flatMap updateEvents

/-- The name of the hook of a step (pyDeltaRCM/hook_tools.py 33-215). -/
def Step.hookName : Step → String
  | .importFiles => "hook_import_files"
  | .processInputToModel => "hook_process_input_to_model"
  | .createOtherVariables => "hook_create_other_variables"
  | .createDomain => "hook_create_domain"
  | .loadCheckpoint => "hook_load_checkpoint"
  | .initOutputFile => "hook_init_output_file"
  | .outputData => "hook_output_data"
  | .outputCheckpoint => "hook_output_checkpoint"
  | .solveWaterAndSediment => "hook_solve_water_and_sediment_timestep"
  | .applySubsidence => "hook_apply_subsidence"
  | .finalizeTimestep => "hook_finalize_timestep"
  | .routeWater => "hook_route_water"
  | .initWaterIteration => "hook_init_water_iteration"
  | .runWaterIteration => "hook_run_water_iteration"
  | .computeFreeSurface => "hook_compute_free_surface"
  | .finalizeWaterIteration _ => "hook_finalize_water_iteration"
  | .routeSediment => "hook_route_sediment"
  | .initSedimentIteration => "hook_init_sediment_iteration"
  | .routeAllSandParcels => "hook_route_all_sand_parcels"
  | .topoDiffusion => "hook_topo_diffusion"
  | .routeAllMudParcels => "hook_route_all_mud_parcels"
  | .computeSandFrac => "hook_compute_sand_frac"

/-- `_deprecated_list` (pyDeltaRCM/hook_tools.py 22-25). -/
def deprecatedHooks : List (String × String) :=
  [("hook_sed_route", "hook_route_sediment"),
   ("hook_run_one_timestep", "hook_solve_water_and_sediment_timestep")]

/-- `_check_deprecated_hooks` (pyDeltaRCM/hook_tools.py 11-31) for a model with the given attributes; the exception names
the old hook and the new one. It is called before the input is read (pyDeltaRCM/model.py 94). -/
def checkDeprecated (attrs : List String) : List (String × String) → Except (String × String) Unit
  | [] => .ok ()
  | (old, new) :: l => if old ∈ attrs then .error (old, new) else checkDeprecated attrs l

end Verif.Model
