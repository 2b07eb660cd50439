import Verif.Model.State
import Verif.Model.Flow
import Verif.Model.FreeSurface

/-!
# One water iteration and `route_water`

Model of `get_water_weight_array`, `compute_free_surface`, `finalize_water_iteration` and
`route_water` (`pyDeltaRCM/water_tools.py`), put together from the parts.
-/

namespace Verif.Model

variable {K : Type*} [Field K] [LinearOrder K] {σ : Type*} {L W m : ℕ}

/-- The first error raised while looping over cells, if any. -/
def firstErr {α : Type*} (f : Cell L W → Except Err α) : List (Cell L W) → Option Err
  | [] => none
  | c :: cs =>
    match f c with
    | .error e => some e
    | .ok _ => firstErr f cs

/-- The cells in the order `for i in range(L): for j in range(W)`
(e.g. pyDeltaRCM/water_tools.py 751-752). -/
def allCells (L W : ℕ) : List (Cell L W) :=
  (List.finRange L).flatMap (fun i => (List.finRange W).map (fun j => (i, j)))

/-- `_get_water_weight_array` (pyDeltaRCM/water_tools.py 711-782) on the model state: the weights
of all cells, or the first error. -/
def waterWeightArray [NeZero L] [NeZero W] (P : Params L W m K) (S : State L W K) :
    Except Err (Grid L W (Fin 9 → K)) :=
  let f := waterWeights S.depth S.stage P.modWater P.cellType S.qx S.qy P.s2 P.s05 P.dryDepth
    P.gamma P.pwWater
  match firstErr f (allCells L W) with
  | some e => .error e
  | none => .ok (fun c => match f c with
      | .ok w => w
      | .error _ => fun _ => 0)

/-- The values used while stepping water parcels (pyDeltaRCM/water_tools.py 112-189). -/
def waterEnv (P : Params L W m K) (S : State L W K) (w : Grid L W (Fin 9 → K)) : WEnv L W K where
  weights := w
  cellType := P.cellType
  stageAboveSL := fun c => S.stage c - S.HSL
  L0 := P.L0
  CTR := P.CTR
  stepmax := P.stepmax
  Qp := P.QpWater
  dx := P.dx
  s2 := P.s2
  nrm := P.nrm

/-- The values passed to `_accumulate_free_surface_walks` (pyDeltaRCM/water_tools.py 265-278). -/
def sfcEnv (P : Params L W m K) (S : State L W K) : SfcEnv L W K where
  cellType := P.cellType
  uw := S.uw
  ux := S.ux
  uy := S.uy
  depth := S.depth
  dx := P.dx
  u0 := P.u0
  h0 := P.h0
  HSL := S.HSL
  S0 := P.S0

/-- `compute_free_surface` with `finalize_free_surface` (pyDeltaRCM/water_tools.py 203-324): the new
stage. -/
def computeFreeSurface [NeZero L] [NeZero W] (P : Params L W m K) (S : State L W K)
    (parcels : List WParcel) : Except Err (Grid L W K) :=
  match accumulateFreeSurface (sfcEnv P S) (parcels.map (fun p => (p.walk, p.flag))) with
  | .error e => .error e
  | .ok a =>
    .ok (finalizeFreeSurface P.cellType P.Nsmooth P.Csmooth P.omegaSfc S.timeIter S.eta S.depth
      S.stage (computeHnew S.eta S.depth a S.HSL) P.dryDepth)

/-- `finalize_water_iteration` (pyDeltaRCM/water_tools.py 326-343), given the stage after
`compute_free_surface` and the flux fields of the routing. -/
def finalizeWaterIteration (P : Params L W m K) (S : State L W K) (iteration : ℕ)
    (stage : Grid L W K) (f : Flux L W K) : State L W K :=
  let stage1 := stageAboveSea stage S.HSL
  let depth1 := depthOf stage1 S.eta
  let q := updateFlow P.nrm P.omegaFlow P.omegaFlowIter P.qw0 P.inlet S.timeIter iteration S.qx S.qy f
  let v := updateVelocity P.uMax P.dryDepth depth1 q
  { S with
    stage := stage1, depth := depth1, qx := q.qx, qy := q.qy, qw := q.qw
    ux := v.ux, uy := v.uy, uw := v.uw }

/-- One pass of the loop of `route_water` (pyDeltaRCM/water_tools.py 25-41): `init`, `run`,
`compute_free_surface`, `finalize`. The weights are computed after the start cells are drawn in
the code; here first, which changes only the order of two independent computations. -/
def waterIteration [NeZero L] [NeZero W] [FloorRing K] (g : Rng K σ) (P : Params L W m K)
    (iteration : ℕ) (S : State L W K) (s : σ) : Except Err (State L W K × σ) :=
  match waterWeightArray P S with
  | .error e => .error e
  | .ok w =>
    match runWaterIteration g (waterEnv P S w) (fun k => ((P.inlet k).val : ℤ)) P.NpWater S.ncols s with
    | .error e => .error e
    | .ok (wst, _, _, s1) =>
      match computeFreeSurface P S wst.parcels with
      | .error e => .error e
      | .ok stage =>
        .ok ({ finalizeWaterIteration P S iteration stage wst.flux with ncols := wst.ncols }, s1)

/-- The loop of `route_water` (pyDeltaRCM/water_tools.py 25-41) from `iteration` on, `n` passes. -/
def routeWaterFrom [NeZero L] [NeZero W] [FloorRing K] (g : Rng K σ) (P : Params L W m K) :
    ℕ → ℕ → State L W K → σ → Except Err (State L W K × σ)
  | _, 0, S, s => .ok (S, s)
  | iteration, n + 1, S, s =>
    match waterIteration g P iteration S s with
    | .error e => .error e
    | .ok (S1, s1) => routeWaterFrom g P (iteration + 1) n S1 s1

/-- `route_water` (pyDeltaRCM/water_tools.py 11-41). -/
def routeWater [NeZero L] [NeZero W] [FloorRing K] (g : Rng K σ) (P : Params L W m K)
    (S : State L W K) (s : σ) : Except Err (State L W K × σ) :=
  routeWaterFrom g P 0 P.itermax S s

end Verif.Model
