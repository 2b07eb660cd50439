import Verif.Model.Timestep

/-!
# Custom weights of the inlet cells

`get_inlet_weights_water` and `get_inlet_weights_sediment` may be reimplemented in a derived class (pyDeltaRCM/water_tools.py
61-74, pyDeltaRCM/sed_tools.py 79-94). Here they are any functions of parameters and fields. The functions below are those of
`Verif.Model.WaterWalk`, `WaterIteration`, `Sediment` and `Timestep` with these weights in the place of ones. For weights
with a total of zero the code divides by zero (pyDeltaRCM/shared_tools.py 200); this case is not covered.
-/

namespace Verif.Model

variable {K : Type*} [Field K] [LinearOrder K] {L W m : ℕ} {σ : Type*}

/-- The methods `get_inlet_weights_water` (pyDeltaRCM/water_tools.py 61-74) and `get_inlet_weights_sediment`
(pyDeltaRCM/sed_tools.py 79-94) of a derived class. The second is told the kind of parcel. -/
structure InletRule (L W m : ℕ) (K : Type*) where
  water : Params L W m K → State L W K → Fin m → K
  sediment : Sed → Params L W m K → State L W K → Fin m → K

/-- `run_water_iteration` (pyDeltaRCM/water_tools.py 76-201) with weights `iw` of the inlet cells (line 95). -/
def runWaterIterationC [FloorRing K] (g : Rng K σ) (E : WEnv L W K) (inlet : Fin m → ℤ) (iw : Fin m → K) (np : ℕ)
    (ncols : ℕ) (s : σ) : Except Err (WState L W K × List (List StepRec) × ℕ × σ) :=
  let (draws, s1) := drawN g np s
  match getStartIndices inlet iw draws with
  | none => .error .index
  | some starts =>
    match waterStart E ncols starts with
    | .error e => .error e
    | .ok st => waterLoop g E 0 st s1

/-- One pass of the loop of `route_water` (pyDeltaRCM/water_tools.py 25-41). -/
def waterIterationC [NeZero L] [NeZero W] [FloorRing K] (g : Rng K σ) (R : InletRule L W m K) (P : Params L W m K)
    (iteration : ℕ) (S : State L W K) (s : σ) : Except Err (State L W K × σ) :=
  match waterWeightArray P S with
  | .error e => .error e
  | .ok w =>
    match runWaterIterationC g (waterEnv P S w) (fun k => ((P.inlet k).val : ℤ)) (R.water P S) P.NpWater S.ncols s with
    | .error e => .error e
    | .ok (wst, _, _, s1) =>
      match computeFreeSurface P S wst.parcels with
      | .error e => .error e
      | .ok stage =>
        .ok ({ finalizeWaterIteration P S iteration stage wst.flux with ncols := wst.ncols }, s1)

/-- The loop of `route_water` (pyDeltaRCM/water_tools.py 25-41) from `iteration` on, `n` passes. -/
def routeWaterFromC [NeZero L] [NeZero W] [FloorRing K] (g : Rng K σ) (R : InletRule L W m K) (P : Params L W m K) :
    ℕ → ℕ → State L W K → σ → Except Err (State L W K × σ)
  | _, 0, S, s => .ok (S, s)
  | iteration, n + 1, S, s =>
    match waterIterationC g R P iteration S s with
    | .error e => .error e
    | .ok (S1, s1) => routeWaterFromC g R P (iteration + 1) n S1 s1

/-- `route_all_sand_parcels` and `route_all_mud_parcels` (pyDeltaRCM/sed_tools.py 96-228), weights from lines 122 and 190. -/
def routeParcelsC [NeZero L] [NeZero W] [FloorRing K] (g : Rng K σ) (R : InletRule L W m K) (k : Sed)
    (P : Params L W m K) (S : State L W K) (s : σ) : Except Err (State L W K × List (SedLog L W K) × σ) :=
  let (draws, s1) := drawN g (numStarts k P) s
  match getStartIndices (fun i => ((P.inlet i).val : ℤ)) (R.sediment k P S) draws with
  | none => .error .index
  | some starts =>
    match sedParcels g k P starts ⟨S, customPad S.depth⟩ s1 with
    | .error e => .error e
    | .ok (st, logs, s2) => .ok (st.S, logs, s2)

/-- `route_sediment` (pyDeltaRCM/sed_tools.py 18-49). -/
def routeSedimentC [NeZero L] [NeZero W] [FloorRing K] (g : Rng K σ) (R : InletRule L W m K) (P : Params L W m K)
    (S : State L W K) (s : σ) : Except Err (State L W K × List (SedLog L W K) × List (SedLog L W K) × σ) :=
  match routeParcelsC g R .sand P (initSediment S) s with
  | .error e => .error e
  | .ok (S1, sand, s1) =>
    let S2 := { S1 with eta := topoDiffusion P.cellType P.diffMult S1.qs P.Ncross S1.eta }
    match routeParcelsC g R .mud P S2 s1 with
    | .error e => .error e
    | .ok (S3, mud, s2) => .ok (S3, sand, mud, s2)

/-- The part of `update` before output (pyDeltaRCM/model.py 192-208), as `timestep`. -/
def timestepC [NeZero L] [NeZero W] [FloorRing K] (g : Rng K σ) (R : InletRule L W m K) (P : Params L W m K)
    (S : State L W K) (s : σ) : Except Err (State L W K × StepLog L W K × σ) :=
  match routeWaterFromC g R P 0 P.itermax S s with
  | .error e => .error e
  | .ok (S1, s1) =>
    match routeSedimentC g R P S1 s1 with
    | .error e => .error e
    | .ok (S2, sand, mud, s2) =>
      let S3 := finalizeTimestep P S.eta (applySubsidence P S2)
      .ok ({ S3 with time := S3.time + P.dt, timeIter := S3.timeIter + 1 },
        ⟨S, S1, S2, sand, mud⟩, s2)

/-- A run, as `timesteps`. -/
def timestepsC [NeZero L] [NeZero W] [FloorRing K] (g : Rng K σ) (R : InletRule L W m K) :
    List (Params L W m K) → State L W K → σ → Except Err (State L W K × List (StepLog L W K) × σ)
  | [], S, s => .ok (S, [], s)
  | P :: Ps, S, s =>
    match timestepC g R P S s with
    | .error e => .error e
    | .ok (S1, l, s1) =>
      match timestepsC g R Ps S1 s1 with
      | .error e => .error e
      | .ok (S2, ls, s2) => .ok (S2, l :: ls, s2)

end Verif.Model
