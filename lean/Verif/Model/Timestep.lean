import Verif.Model.WaterIteration
import Verif.Model.Sediment

/-!
# One timestep

Model of `solve_water_and_sediment_timestep`, `apply_subsidence`, `finalize_timestep`,
`compute_sand_frac` (`pyDeltaRCM/iteration_tools.py`) and of the part of `DeltaModel.update`
(`pyDeltaRCM/model.py`) that changes the state of the model. Hooks, logging and output are not part
of this file.
-/

namespace Verif.Model

variable {K : Type*} [Field K] [LinearOrder K] {σ : Type*} {L W m : ℕ}

/-- `apply_subsidence` (pyDeltaRCM/iteration_tools.py 61-85). -/
def applySubsidence (P : Params L W m K) (S : State L W K) : State L W K :=
  if P.toggleSub = true then
    if P.startSub ≤ S.time then { S with eta := fun c => S.eta c - P.sigma c } else S
  else S

/-- `np.any(mask)` on a grid. -/
def anyCell (mask : Cell L W → Bool) : Bool := (allCells L W).any mask

/-- `compute_sand_frac` (pyDeltaRCM/iteration_tools.py 184-230); `eta0` is the bed at the beginning of
the timestep. -/
def computeSandFrac (P : Params L W m K) (eta0 : Grid L W K) (S : State L W K) : State L W K :=
  let bot : Grid L W K := fun c => eta0 c - P.actThick
  let deg : Cell L W → Bool := fun c => decide (S.eta c - eta0 c < 0)
  let frac1 : Grid L W K :=
    if anyCell deg then
      let f := assign S.sandFrac (fun c => decide (S.eta c < bot c)) (fun _ => P.sandFracBc)
      assign f (fun c => deg c && decide (S.eta c ≥ bot c)) S.activeLayer
    else S.sandFrac
  let agg : Cell L W → Bool := fun c =>
    decide (S.depSand c > 0) || decide (S.depMud c > 1 / 1000000)
  let mixture : Grid L W K := fun c => S.depSand c / (S.depMud c + S.depSand c)
  { S with
    sandFrac := if anyCell agg then assign frac1 agg mixture else frac1
    activeLayer := if anyCell agg then assign S.activeLayer agg mixture else S.activeLayer }

/-- `finalize_timestep` (pyDeltaRCM/iteration_tools.py 87-115). -/
def finalizeTimestep [NeZero L] [NeZero W] (P : Params L W m K) (eta0 : Grid L W K)
    (S : State L W K) : State L W K :=
  let stage1 := floodingCorrection S.eta S.depth S.stage P.dryDepth
  let stage2 : Grid L W K := fun c => max (stage1 c) S.HSL
  let depth1 : Grid L W K := fun c => max (stage2 c - S.eta c) 0
  let eta1 := assign S.eta (isInlet P.inlet) (fun c => stage2 c - P.h0)
  let depth2 := assign depth1 (isInlet P.inlet) (fun _ => P.h0)
  let S1 := computeSandFrac P eta0 { S with stage := stage2, depth := depth2, eta := eta1 }
  { S1 with HSL := S1.HSL + P.SLR * P.dt }

/-- What happened in a timestep: the state at the beginning, after the water routing and after the
sediment routing, and the parcels. Ghost information. -/
structure StepLog (L W : ℕ) (K : Type*) where
  start : State L W K
  watered : State L W K
  routed : State L W K
  sand : List (SedLog L W K)
  mud : List (SedLog L W K)

/-- The part of `update` before output (pyDeltaRCM/model.py 192-208), with
`solve_water_and_sediment_timestep` (pyDeltaRCM/iteration_tools.py 23-46) in line. -/
def timestep [NeZero L] [NeZero W] [FloorRing K] (g : Rng K σ) (P : Params L W m K)
    (S : State L W K) (s : σ) : Except Err (State L W K × StepLog L W K × σ) :=
  match routeWater g P S s with
  | .error e => .error e
  | .ok (S1, s1) =>
    match routeSediment g P S1 s1 with
    | .error e => .error e
    | .ok (S2, sand, mud, s2) =>
      let S3 := finalizeTimestep P S.eta (applySubsidence P S2)
      .ok ({ S3 with time := S3.time + P.dt, timeIter := S3.timeIter + 1 },
        ⟨S, S1, S2, sand, mud⟩, s2)

/-- A run: one timestep after the other. The settings may change between timesteps (BMI setters,
pyDeltaRCM/model.py 1429-1501), so there is one `Params` for each. -/
def timesteps [NeZero L] [NeZero W] [FloorRing K] (g : Rng K σ) :
    List (Params L W m K) → State L W K → σ → Except Err (State L W K × List (StepLog L W K) × σ)
  | [], S, s => .ok (S, [], s)
  | P :: Ps, S, s =>
    match timestep g P S s with
    | .error e => .error e
    | .ok (S1, l, s1) =>
      match timesteps g Ps S1 s1 with
      | .error e => .error e
      | .ok (S2, ls, s2) => .ok (S2, l :: ls, s2)

end Verif.Model
