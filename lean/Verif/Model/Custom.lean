import Verif.Model.Assign
import Verif.Model.Hooks

/-!
# Customised models

Model of a timestep of a class derived from `DeltaModel` that defines hooks and its own versions of methods
(pyDeltaRCM/hook_tools.py, docs/source/guides/developer_guide.rst, docs/source/examples). A hook or an own method is any
function on what the model holds, and may raise an error.

Not modelled: hooks that change the size of the domain or of the inlet; the record of walks between
`init_water_iteration` and `run_water_iteration` (here it is empty then; in the code it has a row of zeros for each parcel,
and what a hook writes into the discharge there is added to); attributes of the model that no method reads (`Hnew`, `sfc_visit`, `cf`,
the padded fields); the number of rows of the record of walks and a missing field `sigma` (see `Model/Assign`); output.
-/

namespace Verif.Model

variable {K : Type*} [Field K] [LinearOrder K] [FloorRing K] {α σ : Type*} {L W m : ℕ}

/-- What a model holds: what its methods read, what the routers hold, the fields, the bed at the beginning of the timestep
(`eta0`, pyDeltaRCM/iteration_tools.py 36), the discharge (`qxn`, `qyn`, `qwn`) and the walks of the present water iteration, the
attributes that the derived class adds, and the random number generator. -/
structure Custom (L W m : ℕ) (K α σ : Type*) where
  P : Params L W m K
  R : Params L W m K
  S : State L W K
  eta0 : Grid L W K
  flux : Flux L W K
  parcels : List WParcel
  extra : α
  rng : σ

/-- What a method does. -/
abbrev Doing (L W m : ℕ) (K α σ : Type*) := Custom L W m K α σ → Except Err (Custom L W m K α σ)

/-- One after the other. -/
def Doing.andThen (f g : Doing L W m K α σ) : Doing L W m K α σ := fun c =>
  match f c with
  | .error e => .error e
  | .ok c1 => g c1

/-- A derived class: its hooks before (pyDeltaRCM/hook_tools.py 33-252) and after steps (253-290), and the methods that it
defines itself. -/
structure UserClass (L W m : ℕ) (K α σ : Type*) where
  hook : Step → Doing L W m K α σ
  after : Step → Doing L W m K α σ
  own : Step → Option (Doing L W m K α σ)

/-- `self.hook_step()` and `self.step()`. -/
def invoke (U : UserClass L W m K α σ) (s : Step) (body : Doing L W m K α σ) : Doing L W m K α σ :=
  Doing.andThen (U.hook s) ((U.own s).getD body)

/-- `init_water_iteration` (pyDeltaRCM/water_tools.py 43-59). -/
def initWaterAct : Doing L W m K α σ := fun c =>
  .ok { c with flux := ⟨fun _ => 0, fun _ => 0, fun _ => 0⟩, parcels := [] }

/-- `run_water_iteration` (pyDeltaRCM/water_tools.py 76-201). -/
def runWaterAct [NeZero L] [NeZero W] (g : Rng K σ) : Doing L W m K α σ := fun c =>
  match waterWeightArray c.P c.S with
  | .error e => .error e
  | .ok w =>
    match runWaterIteration g (waterEnv c.P c.S w) (fun k => ((c.P.inlet k).val : ℤ)) c.P.NpWater c.S.ncols c.rng with
    | .error e => .error e
    | .ok (wst, _, _, s1) =>
      .ok { c with S := { c.S with ncols := wst.ncols }, flux := wst.flux, parcels := wst.parcels, rng := s1 }

/-- `compute_free_surface` (pyDeltaRCM/water_tools.py 203-324). -/
def freeSurfaceAct [NeZero L] [NeZero W] : Doing L W m K α σ := fun c =>
  match computeFreeSurface c.P c.S c.parcels with
  | .error e => .error e
  | .ok stage => .ok { c with S := { c.S with stage := stage } }

/-- `finalize_water_iteration` (pyDeltaRCM/water_tools.py 326-343). -/
def finalizeWaterAct (iteration : ℕ) : Doing L W m K α σ := fun c =>
  .ok { c with S := finalizeWaterIteration c.P c.S iteration c.S.stage c.flux }

/-- One pass of the loop of `route_water` (pyDeltaRCM/water_tools.py 26-41). -/
def waterPass [NeZero L] [NeZero W] (U : UserClass L W m K α σ) (g : Rng K σ) (iteration : ℕ) : Doing L W m K α σ :=
  Doing.andThen (invoke U .initWaterIteration initWaterAct) <|
  Doing.andThen (invoke U .runWaterIteration (runWaterAct g)) <|
  Doing.andThen (invoke U .computeFreeSurface freeSurfaceAct) <|
  invoke U (.finalizeWaterIteration iteration) (finalizeWaterAct iteration)

/-- The passes from `iteration` on. -/
def waterPasses [NeZero L] [NeZero W] (U : UserClass L W m K α σ) (g : Rng K σ) : ℕ → ℕ → Doing L W m K α σ
  | _, 0 => .ok
  | iteration, n + 1 => Doing.andThen (waterPass U g iteration) (waterPasses U g (iteration + 1) n)

/-- `route_water` (pyDeltaRCM/water_tools.py 11-41). The number of passes is read before the first. -/
def routeWaterAct [NeZero L] [NeZero W] (U : UserClass L W m K α σ) (g : Rng K σ) : Doing L W m K α σ := fun c =>
  waterPasses U g 0 c.P.itermax c

/-- `init_sediment_iteration` (pyDeltaRCM/sed_tools.py 63-77). -/
def initSedimentAct : Doing L W m K α σ := fun c => .ok { c with S := initSediment c.S }

/-- `route_all_sand_parcels` and `route_all_mud_parcels` (pyDeltaRCM/sed_tools.py 96-228). -/
def routeParcelsAct [NeZero L] [NeZero W] (g : Rng K σ) (k : Sed) : Doing L W m K α σ := fun c =>
  match routeParcels g k (sedParams c.P c.R) c.S c.rng with
  | .error e => .error e
  | .ok (S1, _, s1) => .ok { c with S := S1, rng := s1 }

/-- `topo_diffusion` (pyDeltaRCM/sed_tools.py 230-247). -/
def diffusionAct : Doing L W m K α σ := fun c =>
  .ok { c with S := { c.S with eta := topoDiffusion c.P.cellType c.P.diffMult c.S.qs c.P.Ncross c.S.eta } }

/-- `route_sediment` (pyDeltaRCM/sed_tools.py 18-49). -/
def routeSedimentAct [NeZero L] [NeZero W] (U : UserClass L W m K α σ) (g : Rng K σ) : Doing L W m K α σ :=
  Doing.andThen (invoke U .initSedimentIteration initSedimentAct) <|
  Doing.andThen (invoke U .routeAllSandParcels (routeParcelsAct g .sand)) <|
  Doing.andThen (invoke U .topoDiffusion diffusionAct) <|
  invoke U .routeAllMudParcels (routeParcelsAct g .mud)

/-- The first line of `solve_water_and_sediment_timestep` (pyDeltaRCM/iteration_tools.py 36). -/
def keepBedAct : Doing L W m K α σ := fun c => .ok { c with eta0 := c.S.eta }

/-- `solve_water_and_sediment_timestep` (pyDeltaRCM/iteration_tools.py 23-46). -/
def solveAct [NeZero L] [NeZero W] (U : UserClass L W m K α σ) (g : Rng K σ) : Doing L W m K α σ :=
  Doing.andThen keepBedAct <|
  Doing.andThen (invoke U .routeWater (routeWaterAct U g)) <|
  Doing.andThen (U.after .routeWater) <|
  Doing.andThen (invoke U .routeSediment (routeSedimentAct U g)) <|
  U.after .routeSediment

/-- `apply_subsidence` (pyDeltaRCM/iteration_tools.py 61-85). -/
def subsidenceAct : Doing L W m K α σ := fun c => .ok { c with S := applySubsidence c.P c.S }

/-- `finalize_timestep` up to the hook (pyDeltaRCM/iteration_tools.py 105-110). -/
def settleAct [NeZero L] [NeZero W] : Doing L W m K α σ := fun c =>
  let stage1 := floodingCorrection c.S.eta c.S.depth c.S.stage c.P.dryDepth
  let stage2 : Grid L W K := fun x => max (stage1 x) c.S.HSL
  let depth1 : Grid L W K := fun x => max (stage2 x - c.S.eta x) 0
  let eta1 := assign c.S.eta (isInlet c.P.inlet) (fun x => stage2 x - c.P.h0)
  let depth2 := assign depth1 (isInlet c.P.inlet) (fun _ => c.P.h0)
  .ok { c with S := { c.S with stage := stage2, depth := depth2, eta := eta1 } }

/-- `compute_sand_frac` (pyDeltaRCM/iteration_tools.py 184-230). -/
def sandFracAct : Doing L W m K α σ := fun c => .ok { c with S := computeSandFrac c.P c.eta0 c.S }

/-- The end of `finalize_timestep` (pyDeltaRCM/iteration_tools.py 115). -/
def seaLevelAct : Doing L W m K α σ := fun c => .ok { c with S := { c.S with HSL := c.S.HSL + c.P.SLR * c.P.dt } }

/-- `finalize_timestep` (pyDeltaRCM/iteration_tools.py 87-115). -/
def finalizeAct [NeZero L] [NeZero W] (U : UserClass L W m K α σ) : Doing L W m K α σ :=
  Doing.andThen settleAct (Doing.andThen (invoke U .computeSandFrac sandFracAct) seaLevelAct)

/-- The clock (pyDeltaRCM/model.py 203-206). -/
def clockAct : Doing L W m K α σ := fun c =>
  .ok { c with S := { c.S with time := c.S.time + c.P.dt, timeIter := c.S.timeIter + 1 } }

/-- `update` before output (pyDeltaRCM/model.py 188-208). -/
def customStep [NeZero L] [NeZero W] (U : UserClass L W m K α σ) (g : Rng K σ) : Doing L W m K α σ :=
  Doing.andThen (invoke U .solveWaterAndSediment (solveAct U g)) <|
  Doing.andThen (invoke U .applySubsidence subsidenceAct) <|
  Doing.andThen (invoke U .finalizeTimestep (finalizeAct U)) <|
  Doing.andThen (U.after .finalizeTimestep) clockAct

/-- A number of updates. -/
def customRun [NeZero L] [NeZero W] (U : UserClass L W m K α σ) (g : Rng K σ) : ℕ → Doing L W m K α σ
  | 0 => .ok
  | n + 1 => Doing.andThen (customStep U g) (customRun U g n)

/-- A class with no hooks and no own methods: the hooks of `DeltaModel` do nothing (pyDeltaRCM/hook_tools.py 33-290). -/
def plainClass : UserClass L W m K α σ := ⟨fun _ => .ok, fun _ => .ok, fun _ => none⟩

end Verif.Model
