import Verif.Model.Weights
import Verif.Model.Rng
import Verif.Model.Round

/-!
# Random walks of water parcels

Model of `run_water_iteration`, `check_size_of_indices_matrix`, `update_Q`, `check_for_boundary`,
`_choose_next_directions`, `_check_for_loops`, `_update_dirQfield`, `_update_absQfield`
(`pyDeltaRCM/water_tools.py`).

Parcels are the entries of a list, in the order of the code's arrays; each carries its entry of
`current_inds`, of `free_surf_flag`, and its row of `free_surf_walk_inds`.
Errors abort the step; where several parcels would raise errors, which one is reported first is
not modelled.
-/

namespace Verif.Model

variable {K : Type*} [Field K] [LinearOrder K] {σ : Type*}

/-- The fields `qxn`, `qyn`, `qwn` accumulated while routing (pyDeltaRCM/init_tools.py 309-311). -/
structure Flux (L W : ℕ) (K : Type*) where
  qx : Grid L W K
  qy : Grid L W K
  qw : Grid L W K

/-- `free_surf_flag`, `free_surf_walk_inds`, `current_inds` of one parcel. -/
structure WParcel where
  /-- entry of `current_inds`; 0 means the parcel is finished -/
  ind : ℤ
  /-- entry of `free_surf_flag` is 1 -/
  flag : Bool
  /-- row of `free_surf_walk_inds` -/
  walk : List ℤ
  deriving DecidableEq, Repr

/-- What one parcel did in one step. Ghost information: used only to state properties. -/
structure StepRec where
  /-- flat index before the step -/
  cur : ℤ
  /-- direction chosen -/
  dir : Fin 9
  /-- flat index after the step, before loop handling -/
  new1 : ℤ
  /-- flat index after loop handling -/
  new2 : ℤ
  /-- disqualified in this step -/
  looped : Bool
  /-- reached an edge cell -/
  bnd : Bool
  deriving DecidableEq, Repr

/-- State of the parcel loop. -/
structure WState (L W : ℕ) (K : Type*) where
  flux : Flux L W K
  parcels : List WParcel
  /-- number of columns of `free_surf_walk_inds` -/
  ncols : ℕ

/-- The values that do not change while parcels are stepped. -/
structure WEnv (L W : ℕ) (K : Type*) where
  weights : Grid L W (Fin 9 → K)
  cellType : Grid L W ℤ
  /-- `self.stage - self.H_SL` -/
  stageAboveSL : Grid L W K
  L0 : ℤ
  CTR : ℤ
  stepmax : ℕ
  Qp : K
  dx : K
  s2 : K
  /-- stands for `np.sqrt(x**2 + y**2)` -/
  nrm : K → K → K

/-- `dist` of `get_steps` (pyDeltaRCM/shared_tools.py 208-220):
`np.sqrt(istep * istep + jstep * jstep)`, with `s2` for the square root of two. -/
def stepDist (s2 : K) (d : Fin 9) : K :=
  if iwalk d = 0 ∧ jwalk d = 0 then 0 else if iwalk d = 0 ∨ jwalk d = 0 then 1 else s2

/-- `_choose_next_directions` (pyDeltaRCM/water_tools.py 785-824): parcels with index 0 get
direction 4 and use no random number. -/
def chooseDirs {L W : ℕ} (g : Rng K σ) (weights : Grid L W (Fin 9 → K)) :
    List ℤ → σ → Except Err (List (Fin 9) × σ)
  | [], s => .ok ([], s)
  | ind :: inds, s =>
    if ind ≠ 0 then
      match flatCell L W ind with
      | none => .error .index
      | some c =>
        let (r, s1) := g.next s
        match randomPick (weights c) r with
        | none => .error .index
        | some d =>
          match chooseDirs g weights inds s1 with
          | .error e => .error e
          | .ok (ds, s2) => .ok (d :: ds, s2)
    else
      match chooseDirs g weights inds s with
      | .error e => .error e
      | .ok (ds, s2) => .ok (4 :: ds, s2)

/-- One parcel in `_update_dirQfield` and `_update_absQfield` (pyDeltaRCM/water_tools.py 998-1013)
for the three fields of `update_Q` (413-450): nothing happens if the parcel did not move.
The code loops over the parcels once per field; here the three fields are updated together. -/
def addFlux {L W : ℕ} (E : WEnv L W K) (f : Flux L W K) (ind : ℤ) (d : Fin 9) :
    Except Err (Flux L W K) :=
  if d ≠ 4 then
    match flatCell L W ind with
    | none => .error .index
    | some c => .ok {
        qx := Function.update f.qx c (f.qx c + (jwalk d : K) / stepDist E.s2 d)
        qy := Function.update f.qy c (f.qy c + (iwalk d : K) / stepDist E.s2 d)
        qw := Function.update f.qw c (f.qw c + E.Qp / E.dx / 2) }
  else .ok f

/-- `update_Q` over all parcels (pyDeltaRCM/water_tools.py 413-450), at the indices selected by
`sel` and for the parcels selected by `p`. -/
def addFluxes {L W : ℕ} (E : WEnv L W K) (sel : StepRec → ℤ) (p : StepRec → Bool) :
    List StepRec → Flux L W K → Except Err (Flux L W K)
  | [], f => .ok f
  | r :: rs, f =>
    if p r then
      match addFlux E f (sel r) r.dir with
      | .error e => .error e
      | .ok f1 => addFluxes E sel p rs f1
    else addFluxes E sel p rs f

/-- The loop handling of one parcel in `_check_for_loops` (pyDeltaRCM/water_tools.py 939-995).
Returns the new index and whether the parcel is disqualified. In the code `px`, `py` keep a value
of an earlier parcel, or are unset, when `Fw == 0`: here that is the error `unbound`. -/
def checkLoop {L W : ℕ} [FloorRing K] (E : WEnv L W K) (step : ℕ) (walk : List ℤ) (newInd : ℤ) :
    Except Err (ℤ × Bool) :=
  let domainMinX : ℤ := (L : ℤ) - 2
  let domainMinY : ℤ := (W : ℤ) - 2
  let cut : ℤ := E.L0 * W - 1
  if (step : ℤ) > E.L0 then
    let nonz := walk.filter (fun i => decide (i > 0))
    let relv := nonz.filter (fun i => decide (i > cut))
    if newInd > 0 then
      if newInd ∈ relv then
        match customUnravel newInd ((L : ℤ), (W : ℤ)) with
        | .error _ => .error .index
        | .ok (px0, py0) =>
          let Fx : K := (px0 : K) - 1
          let Fy : K := (py0 : K) - (E.CTR : K)
          let Fw : K := E.nrm Fx Fy
          if Fw ≠ 0 then
            let px := px0 + roundHalfEven (Fx / Fw * 5)
            let py := py0 + roundHalfEven (Fy / Fw * 5)
            let px := min domainMinX (max px E.L0)
            let py := min domainMinY (max 1 py)
            match customRavel (px, py) ((L : ℤ), (W : ℤ)), pyCell L W px0 py0 with
            | .ok nind, some c0 =>
              .ok (nind, !decide (|E.stageAboveSL c0| < 1 / 10))
            | _, _ => .error .index
          else .error .unbound
      else .ok (newInd, false)
    else .ok (newInd, false)
  else .ok (newInd, false)

/-- `check_for_boundary` for one parcel (pyDeltaRCM/water_tools.py 452-469). -/
def isBoundary {L W : ℕ} (E : WEnv L W K) (ind : ℤ) : Except Err Bool :=
  match flatCell L W ind with
  | none => .error .index
  | some c => .ok (decide (E.cellType c = -1))

/-- One parcel in one pass of the loop of `run_water_iteration`
(pyDeltaRCM/water_tools.py 125-189), after its direction is chosen. -/
def parcelStep {L W : ℕ} [FloorRing K] (E : WEnv L W K) (step : ℕ) (p : WParcel) (d : Fin 9) :
    Except Err (WParcel × StepRec) :=
  let new1 := calcNewInd W p.ind d
  match checkLoop E step p.walk new1 with
  | .error e => .error e
  | .ok (new2, looped) =>
    -- current_inds[:] = new_inds[:]; free_surf_flag[looped] = 0
    match isBoundary E new2 with
    | .error e => .error e
    | .ok bnd =>
      let cur1 := if looped && bnd then 0 else new2
      -- free_surf_walk_inds[:, _step] = current_inds
      let walk1 := p.walk.set step cur1
      let cur2 := if bnd then 0 else cur1
      .ok (⟨cur2, p.flag && !looped, walk1⟩, ⟨p.ind, d, new1, new2, looped, bnd⟩)

/-- All parcels in one pass of the loop. -/
def parcelSteps {L W : ℕ} [FloorRing K] (E : WEnv L W K) (step : ℕ) :
    List WParcel → List (Fin 9) → Except Err (List WParcel × List StepRec)
  | [], [] => .ok ([], [])
  | p :: ps, d :: ds =>
    match parcelStep E step p d with
    | .error e => .error e
    | .ok (p1, r1) =>
      match parcelSteps E step ps ds with
      | .error e => .error e
      | .ok (ps1, rs1) => .ok (p1 :: ps1, r1 :: rs1)
  | _, _ => .error .index

/-- `check_size_of_indices_matrix` (pyDeltaRCM/water_tools.py 345-365). -/
def checkSize {L W : ℕ} (stepmax : ℕ) (it : ℕ) (st : WState L W K) : WState L W K :=
  if it ≥ st.ncols then
    { st with
      ncols := st.ncols + stepmax / 4
      parcels := st.parcels.map (fun p => { p with walk := p.walk ++ List.replicate (stepmax / 4) 0 }) }
  else st

/-- One pass of the loop of `run_water_iteration` (pyDeltaRCM/water_tools.py 117-201) with step
number `step`. -/
def waterStep {L W : ℕ} [FloorRing K] (g : Rng K σ) (E : WEnv L W K) (step : ℕ)
    (st : WState L W K) (s : σ) : Except Err (WState L W K × List StepRec × σ) :=
  let st1 := checkSize E.stepmax step st
  if step < st1.ncols then
    match chooseDirs g E.weights (st1.parcels.map (·.ind)) s with
    | .error e => .error e
    | .ok (ds, s1) =>
      match parcelSteps E step st1.parcels ds with
      | .error e => .error e
      | .ok (ps, recs) =>
        -- flux out of the old cells, into the new cells, and once more into edge cells
        match addFluxes E (·.cur) (fun _ => true) recs st1.flux with
        | .error e => .error e
        | .ok f1 =>
          match addFluxes E (·.new1) (fun _ => true) recs f1 with
          | .error e => .error e
          | .ok f2 =>
            match addFluxes E (·.new2) (·.bnd) recs f2 with
            | .error e => .error e
            | .ok f3 => .ok (⟨f3, ps, st1.ncols⟩, recs, s1)
  else .error .index

/-- The loop of `run_water_iteration` (pyDeltaRCM/water_tools.py 117-201). The list of records is
ghost information. -/
def waterLoop {L W : ℕ} [FloorRing K] (g : Rng K σ) (E : WEnv L W K) (step : ℕ)
    (st : WState L W K) (s : σ) : Except Err (WState L W K × List (List StepRec) × ℕ × σ) :=
  if (st.parcels.map (·.ind)).sum > 0 ∧ step < E.stepmax then
    match waterStep g E (step + 1) st s with
    | .error e => .error e
    | .ok (st1, recs, s1) =>
      match waterLoop g E (step + 1) st1 s1 with
      | .error e => .error e
      | .ok (st2, log, n, s2) => .ok (st2, recs :: log, n, s2)
  else .ok (st, [], step, s)
  termination_by E.stepmax - step

/-- `arr.flat[inds] += v` with an index array: an index occurring several times is increased only
once (numpy buffered in-place addition, pyDeltaRCM/water_tools.py 103-106). Indices here are valid
start cells. -/
def fancyAdd {L W : ℕ} (g : Grid L W K) (inds : List ℤ) (v : K) : Grid L W K :=
  fun c => if inds.any (fun i => decide (flatCell L W i = some c)) then g c + v else g c

/-- The state at the start of the loop (pyDeltaRCM/water_tools.py 43-54, 92-110): fields zeroed,
ghost-node flux added, walks cleared and the start indices recorded in column 0. -/
def waterStart {L W : ℕ} (E : WEnv L W K) (ncols : ℕ) (starts : List ℤ) :
    Except Err (WState L W K) :=
  if starts.all (fun i => (flatCell L W i).isSome) ∧ 0 < ncols then
    .ok {
      flux := {
        qx := fancyAdd (fun _ => 0) starts 1
        qy := fancyAdd (fun _ => 0) starts 0
        qw := fancyAdd (fun _ => 0) starts (E.Qp / E.dx / 2) }
      parcels := starts.map (fun i => ⟨i, true, (List.replicate ncols 0).set 0 i⟩)
      ncols := ncols }
  else .error .index

/-- `run_water_iteration` (pyDeltaRCM/water_tools.py 76-201): draw the start cells, then step the
parcels. `inlet` are the inlet columns (flat indices in row 0). -/
def runWaterIteration {L W m : ℕ} [FloorRing K] (g : Rng K σ) (E : WEnv L W K)
    (inlet : Fin m → ℤ) (np : ℕ) (ncols : ℕ) (s : σ) :
    Except Err (WState L W K × List (List StepRec) × ℕ × σ) :=
  let (draws, s1) := drawN g np s
  match getStartIndices inlet (getInletWeights inlet : Fin m → K) draws with
  | none => .error .index
  | some starts =>
    match waterStart E ncols starts with
    | .error e => .error e
    | .ok st => waterLoop g E 0 st s1

end Verif.Model
