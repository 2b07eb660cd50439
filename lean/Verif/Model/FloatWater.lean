import Verif.Model.FloatSediment
import Verif.Model.WaterIteration

/-!
# Water routing in rounded arithmetic

As `Model/WaterWalk`, `Model/FreeSurface`, `Model/Flow` and `Model/WaterIteration`, with a rounding after
each operation. The fields have 32 bits (pyDeltaRCM/init_tools.py 495-515): an operation on two fields, or
on a field and a Python number outside of compiled functions, is rounded by `F`. In compiled functions an
operation on a field and a Python number, and all that is computed from the result, is rounded by `D`. A
number is rounded by `F` when it is stored in a field. `P.pwWater` is the power and `P.nrm` is
`sqrt(x ** 2 + y ** 2)` as the program computes them; their results are rounded when stored. Comparisons
are exact; outside of compiled functions a Python number is rounded by `F` before it is compared with a
field.
-/

namespace Verif.Model

variable {K : Type*} [Field K] [LinearOrder K] {σ : Type*} {L W m : ℕ}

/-- `weight_sfc` of `get_weight_sfc_int` (pyDeltaRCM/shared_tools.py 428). -/
def weightSfcR (F : Rounding K) (stage : K) (stageN : Fin 9 → K) (s2 : K) : Fin 9 → K := fun d =>
  max 0 (F.fl (F.fl (stage - stageN d) / distances s2 d))

/-- The body of `_get_water_weight_array` (pyDeltaRCM/water_tools.py 748-780) for one cell. The arrays of
distances and unit vectors have 32 bits, and so has the product of two fields whose power is taken. -/
def waterWeightsR [NeZero L] [NeZero W] (F D : Rounding K) (depth stage modW : Grid L W K)
    (cellType : Grid L W ℤ) (qx qy : Grid L W K) (s2 s05 dryDepth gamma : K) (pw : K → K) (c : Cell L W) :
    Except Err (Fin 9 → K) :=
  waterWeightAtCellR D (decide (c.1.val = 0)) (weightSfcR F (stage c) (nbrs stage c) (F.fl s2))
    (weightIntR F (qx c) (qy c) (F.fl s05) (F.fl s2)) (nbrs depth c) (nbrs modW c) (nbrs cellType c)
    dryDepth gamma (fun x => pw (F.fl x))

/-- `_get_water_weight_array` (pyDeltaRCM/water_tools.py 711-782): all cells, or the first error. -/
def waterWeightArrayR [NeZero L] [NeZero W] (F D : Rounding K) (P : Params L W m K) (S : State L W K) :
    Except Err (Grid L W (Fin 9 → K)) :=
  let f := waterWeightsR F D S.depth S.stage P.modWater P.cellType S.qx S.qy P.s2 P.s05 P.dryDepth
    P.gamma P.pwWater
  match firstErr f (allCells L W) with
  | some e => .error e
  | none => .ok (fun c => match f c with
      | .ok w => w
      | .error _ => fun _ => 0)

/-- `_choose_next_directions` (pyDeltaRCM/water_tools.py 785-824); the weights are doubles. -/
def chooseDirsR (D : Rounding K) (g : Rng K σ) (weights : Grid L W (Fin 9 → K)) :
    List ℤ → σ → Except Err (List (Fin 9) × σ)
  | [], s => .ok ([], s)
  | ind :: inds, s =>
    if ind ≠ 0 then
      match flatCell L W ind with
      | none => .error .index
      | some c =>
        let (r, s1) := g.next s
        match randomPickR D D (weights c) r with
        | none => .error .index
        | some d =>
          match chooseDirsR D g weights inds s1 with
          | .error e => .error e
          | .ok (ds, s2) => .ok (d :: ds, s2)
    else
      match chooseDirsR D g weights inds s with
      | .error e => .error e
      | .ok (ds, s2) => .ok (4 :: ds, s2)

/-- `Qp_water / dx / 2` (pyDeltaRCM/water_tools.py 106, 1012). -/
def halfShareR (D : Rounding K) (E : WEnv L W K) : K := D.fl (D.fl (E.Qp / E.dx) / 2)

/-- One parcel in `_update_dirQfield` and `_update_absQfield` (pyDeltaRCM/water_tools.py 998-1013); the
lengths of steps are doubles, the fields have 32 bits. -/
def addFluxR (F D : Rounding K) (E : WEnv L W K) (f : Flux L W K) (ind : ℤ) (d : Fin 9) :
    Except Err (Flux L W K) :=
  if d ≠ 4 then
    match flatCell L W ind with
    | none => .error .index
    | some c => .ok {
        qx := Function.update f.qx c
          (F.fl (D.fl (f.qx c + D.fl ((jwalk d : K) / stepDist (D.fl E.s2) d))))
        qy := Function.update f.qy c
          (F.fl (D.fl (f.qy c + D.fl ((iwalk d : K) / stepDist (D.fl E.s2) d))))
        qw := Function.update f.qw c (F.fl (D.fl (f.qw c + halfShareR D E))) }
  else .ok f

/-- `update_Q` over all parcels (pyDeltaRCM/water_tools.py 413-450), at the indices selected by `sel`
and for the parcels selected by `p`. -/
def addFluxesR (F D : Rounding K) (E : WEnv L W K) (sel : StepRec → ℤ) (p : StepRec → Bool) :
    List StepRec → Flux L W K → Except Err (Flux L W K)
  | [], f => .ok f
  | r :: rs, f =>
    if p r then
      match addFluxR F D E f (sel r) r.dir with
      | .error e => .error e
      | .ok f1 => addFluxesR F D E sel p rs f1
    else addFluxesR F D E sel p rs f

/-- The loop handling of one parcel in `_check_for_loops` (pyDeltaRCM/water_tools.py 939-995). Indices
are integers, the direction to the new place is computed with doubles. -/
def checkLoopR [FloorRing K] (D : Rounding K) (E : WEnv L W K) (step : ℕ) (walk : List ℤ) (newInd : ℤ) :
    Except Err (ℤ × Bool) :=
  let domainMinX : ℤ := (L : ℤ) - 2
  let domainMinY : ℤ := (W : ℤ) - 2
  let cut : ℤ := E.L0 * W - 1
  if (step : ℤ) > E.L0 then
    let nonz := walk.filter (fun i => decide (i > 0))
    let relv := nonz.filter (fun i => decide (i > cut))
    if newInd > 0 then
      if newInd ∈ relv then
        match customUnravel newInd ((L : ℤ), (W : ℤ)) with
        | .error _ => .error .index
        | .ok (px0, py0) =>
          let Fx : K := (px0 : K) - 1
          let Fy : K := (py0 : K) - (E.CTR : K)
          let Fw : K := D.fl (E.nrm Fx Fy)
          if Fw ≠ 0 then
            let px := px0 + roundHalfEven (D.fl (D.fl (Fx / Fw) * 5))
            let py := py0 + roundHalfEven (D.fl (D.fl (Fy / Fw) * 5))
            let px := min domainMinX (max px E.L0)
            let py := min domainMinY (max 1 py)
            match customRavel (px, py) ((L : ℤ), (W : ℤ)), pyCell L W px0 py0 with
            | .ok nind, some c0 =>
              .ok (nind, !decide (|E.stageAboveSL c0| < D.fl (1 / 10)))
            | _, _ => .error .index
          else .error .unbound
      else .ok (newInd, false)
    else .ok (newInd, false)
  else .ok (newInd, false)

/-- One parcel in one pass of the loop of `run_water_iteration`
(pyDeltaRCM/water_tools.py 125-189), after its direction is chosen. -/
def parcelStepR [FloorRing K] (D : Rounding K) (E : WEnv L W K) (step : ℕ) (p : WParcel) (d : Fin 9) :
    Except Err (WParcel × StepRec) :=
  let new1 := calcNewInd W p.ind d
  match checkLoopR D E step p.walk new1 with
  | .error e => .error e
  | .ok (new2, looped) =>
    match isBoundary E new2 with
    | .error e => .error e
    | .ok bnd =>
      let cur1 := if looped && bnd then 0 else new2
      let walk1 := p.walk.set step cur1
      let cur2 := if bnd then 0 else cur1
      .ok (⟨cur2, p.flag && !looped, walk1⟩, ⟨p.ind, d, new1, new2, looped, bnd⟩)

/-- All parcels in one pass of the loop. -/
def parcelStepsR [FloorRing K] (D : Rounding K) (E : WEnv L W K) (step : ℕ) :
    List WParcel → List (Fin 9) → Except Err (List WParcel × List StepRec)
  | [], [] => .ok ([], [])
  | p :: ps, d :: ds =>
    match parcelStepR D E step p d with
    | .error e => .error e
    | .ok (p1, r1) =>
      match parcelStepsR D E step ps ds with
      | .error e => .error e
      | .ok (ps1, rs1) => .ok (p1 :: ps1, r1 :: rs1)
  | _, _ => .error .index

/-- One pass of the loop of `run_water_iteration` (pyDeltaRCM/water_tools.py 117-201) with step
number `step`. -/
def waterStepR [FloorRing K] (F D : Rounding K) (g : Rng K σ) (E : WEnv L W K) (step : ℕ)
    (st : WState L W K) (s : σ) : Except Err (WState L W K × List StepRec × σ) :=
  let st1 := checkSize E.stepmax step st
  if step < st1.ncols then
    match chooseDirsR D g E.weights (st1.parcels.map (·.ind)) s with
    | .error e => .error e
    | .ok (ds, s1) =>
      match parcelStepsR D E step st1.parcels ds with
      | .error e => .error e
      | .ok (ps, recs) =>
        match addFluxesR F D E (·.cur) (fun _ => true) recs st1.flux with
        | .error e => .error e
        | .ok f1 =>
          match addFluxesR F D E (·.new1) (fun _ => true) recs f1 with
          | .error e => .error e
          | .ok f2 =>
            match addFluxesR F D E (·.new2) (·.bnd) recs f2 with
            | .error e => .error e
            | .ok f3 => .ok (⟨f3, ps, st1.ncols⟩, recs, s1)
  else .error .index

/-- The loop of `run_water_iteration` (pyDeltaRCM/water_tools.py 117-201). The list of records is
ghost information. -/
def waterLoopR [FloorRing K] (F D : Rounding K) (g : Rng K σ) (E : WEnv L W K) (step : ℕ)
    (st : WState L W K) (s : σ) : Except Err (WState L W K × List (List StepRec) × ℕ × σ) :=
  if (st.parcels.map (·.ind)).sum > 0 ∧ step < E.stepmax then
    match waterStepR F D g E (step + 1) st s with
    | .error e => .error e
    | .ok (st1, recs, s1) =>
      match waterLoopR F D g E (step + 1) st1 s1 with
      | .error e => .error e
      | .ok (st2, log, n, s2) => .ok (st2, recs :: log, n, s2)
  else .ok (st, [], step, s)
  termination_by E.stepmax - step

/-- `arr.flat[inds] += v` with an index array (pyDeltaRCM/water_tools.py 103-106); the Python number `v`
is rounded to the type of the field. -/
def fancyAddR (F : Rounding K) (g : Grid L W K) (inds : List ℤ) (v : K) : Grid L W K :=
  fun c => if inds.any (fun i => decide (flatCell L W i = some c)) then F.fl (g c + F.fl v) else g c

/-- The state at the start of the loop (pyDeltaRCM/water_tools.py 43-54, 92-110). -/
def waterStartR (F D : Rounding K) (E : WEnv L W K) (ncols : ℕ) (starts : List ℤ) :
    Except Err (WState L W K) :=
  if starts.all (fun i => (flatCell L W i).isSome) ∧ 0 < ncols then
    .ok {
      flux := {
        qx := fancyAddR F (fun _ => 0) starts 1
        qy := fancyAddR F (fun _ => 0) starts 0
        qw := fancyAddR F (fun _ => 0) starts (halfShareR D E) }
      parcels := starts.map (fun i => ⟨i, true, (List.replicate ncols 0).set 0 i⟩)
      ncols := ncols }
  else .error .index

/-- `run_water_iteration` (pyDeltaRCM/water_tools.py 76-201). -/
def runWaterIterationR [FloorRing K] (F D : Rounding K) (g : Rng K σ) (E : WEnv L W K)
    (inlet : Fin m → ℤ) (np : ℕ) (ncols : ℕ) (s : σ) :
    Except Err (WState L W K × List (List StepRec) × ℕ × σ) :=
  let (draws, s1) := drawN g np s
  match getStartIndicesR D inlet (getInletWeights inlet : Fin m → K) draws with
  | none => .error .index
  | some starts =>
    match waterStartR F D E ncols starts with
    | .error e => .error e
    | .ok st => waterLoopR F D g E 0 st s1

/-- The body of the backward loop of `_accumulate_free_surface_walks`
(pyDeltaRCM/water_tools.py 1087-1118); all numbers are doubles. -/
def backStepR (D : Rounding K) (E : SfcEnv L W K) (nx c : Cell L W) (s : SfcState L W K) :
    SfcState L W K :=
  let s1 : SfcState L W K :=
    if c.1 ≠ nx.1 ∨ c.2 ≠ nx.2 then
      if s.inOcean then
        if E.uw c > D.fl (E.u0 * (1 / 2)) ∨ E.depth c < D.fl (D.fl (1 / 10) * E.h0) then
          { s with inOcean := false }
        else s
      else if E.uw c = 0 then { s with dH := 0 }
      else { s with
        dH := D.fl (D.fl (E.S0 * D.fl (D.fl (D.fl (E.ux c * ((nx.1.val : K) - (c.1.val : K))) * E.dx)
                + D.fl (D.fl (E.uy c * ((nx.2.val : K) - (c.2.val : K))) * E.dx))) / E.uw c) }
    else s
  let h := D.fl (s1.hnew nx + s1.dH)
  { s1 with
    hnew := Function.update s1.hnew c h
    acc := {
      visit := Function.update s1.acc.visit c (D.fl (s1.acc.visit c + 1))
      sum := Function.update s1.acc.sum c (D.fl (s1.acc.sum c + h)) } }

/-- The backward loop (pyDeltaRCM/water_tools.py 1087-1118). -/
def backWalkR (D : Rounding K) (E : SfcEnv L W K) (nx : Cell L W) :
    List (Cell L W) → SfcState L W K → SfcState L W K
  | [], s => s
  | c :: cs, s => backWalkR D E c cs (backStepR D E nx c s)

/-- One parcel of `_accumulate_free_surface_walks` (pyDeltaRCM/water_tools.py 1069-1118). -/
def sfcParcelR (D : Rounding K) (E : SfcEnv L W K) (walk : List ℤ) (flag : Bool) (a : SfcAcc L W K) :
    Except Err (SfcAcc L W K) :=
  match walkCells L W walk with
  | .error e => .error e
  | .ok cs =>
    match cs.reverse with
    | [] => .error .index
    | last :: rest =>
      if E.cellType last = -1 ∧ flag = true then
        .ok (backWalkR D E last rest
          ⟨Function.update (fun _ => 0) last E.HSL, true, 0, a⟩).acc
      else .ok a

/-- `_accumulate_free_surface_walks` (pyDeltaRCM/water_tools.py 1016-1120). -/
def sfcParcelsR (D : Rounding K) (E : SfcEnv L W K) :
    List (List ℤ × Bool) → SfcAcc L W K → Except Err (SfcAcc L W K)
  | [], a => .ok a
  | (walk, flag) :: ps, a =>
    match sfcParcelR D E walk flag a with
    | .error e => .error e
    | .ok a1 => sfcParcelsR D E ps a1

/-- `Hnew` of `compute_free_surface` (pyDeltaRCM/water_tools.py 281-295). -/
def computeHnewR (F D : Rounding K) (eta depth : Grid L W K) (a : SfcAcc L W K) (HSL : K) : Grid L W K :=
  fun c =>
    let h0 := F.fl (eta c + depth c)
    let h1 := if a.visit c > 0 then F.fl (D.fl (a.sum c / a.visit c)) else h0
    let h2 := if h1 < F.fl HSL then F.fl HSL else h1
    if h2 < eta c then eta c else h2

/-- One pass of `_smooth_free_surface` (pyDeltaRCM/water_tools.py 1156-1191); the sum over the
neighbours has the type of the field. -/
def smoothPassR [NeZero L] [NeZero W] (F D : Rounding K) (cellType : Grid L W ℤ) (C : K)
    (H : Grid L W K) : Grid L W K :=
  fun c =>
    if cellType c ≠ -1 then
      let invalid : Fin 9 → Bool := fun d => decide (nbrs cellType c d = -2) || decide (d = 4)
      let hn : Fin 9 → K := fun d => if invalid d then 0 else nbrs H c d
      let sumH := sumR F (List.ofFn hn)
      let nbcount : ℕ := (Finset.univ.filter (fun d => (!invalid d) = true)).card
      if nbcount > 0 then
        F.fl (D.fl (D.fl (C * H c) + D.fl (D.fl (1 - C) * D.fl (sumH / (nbcount : K)))))
      else H c
    else H c

/-- `_smooth_free_surface` (pyDeltaRCM/water_tools.py 1123-1195): `n` passes. -/
def smoothR [NeZero L] [NeZero W] (F D : Rounding K) (cellType : Grid L W ℤ) (C : K) :
    ℕ → Grid L W K → Grid L W K
  | 0, H => H
  | n + 1, H => smoothR F D cellType C n (smoothPassR F D cellType C H)

/-- `finalize_free_surface` (pyDeltaRCM/water_tools.py 300-324). `flooding_correction` compares and
copies numbers of the fields, which needs no rounding. -/
def finalizeFreeSurfaceR [NeZero L] [NeZero W] (F D : Rounding K) (cellType : Grid L W ℤ)
    (Nsmooth : ℕ) (Csmooth omegaSfc : K) (timeIter : ℕ) (eta depth stage Hnew : Grid L W K)
    (dryDepth : K) : Grid L W K :=
  let Hsmth := smoothR F D cellType Csmooth Nsmooth Hnew
  let stage1 : Grid L W K :=
    if timeIter > 0 then fun c =>
      F.fl (F.fl (F.fl (D.fl (1 - omegaSfc)) * stage c) + F.fl (F.fl omegaSfc * Hsmth c)) else stage
  floodingCorrection eta depth stage1 (F.fl dryDepth)

/-- `compute_free_surface` with `finalize_free_surface` (pyDeltaRCM/water_tools.py 203-324): the new
stage. -/
def computeFreeSurfaceR [NeZero L] [NeZero W] (F D : Rounding K) (P : Params L W m K) (S : State L W K)
    (parcels : List WParcel) : Except Err (Grid L W K) :=
  match sfcParcelsR D (sfcEnv P S) (parcels.map (fun p => (p.walk, p.flag))) ⟨fun _ => 0, fun _ => 0⟩ with
  | .error e => .error e
  | .ok a =>
    .ok (finalizeFreeSurfaceR F D P.cellType P.Nsmooth P.Csmooth P.omegaSfc S.timeIter S.eta S.depth
      S.stage (computeHnewR F D S.eta S.depth a S.HSL) P.dryDepth)

/-- `qwn_div` of `update_flow_field` (pyDeltaRCM/water_tools.py 480-483). -/
def qwnDivR (F : Rounding K) (nrm : K → K → K) (f : Flux L W K) : Grid L W K := fun c =>
  let dloc := F.fl (nrm (f.qx c) (f.qy c))
  if dloc > 0 then F.fl (f.qw c / dloc) else 1

/-- `update_flow_field` (pyDeltaRCM/water_tools.py 471-504). The array `qwn_div` has 64 bits. -/
def updateFlowR (F D : Rounding K) (nrm : K → K → K) (omegaFlow omegaFlowIter qw0 : K)
    (inlet : Fin m → Fin W) (timeIter iteration : ℕ) (qx qy : Grid L W K) (f : Flux L W K) :
    Flux L W K :=
  let div := qwnDivR F nrm f
  let qxn : Grid L W K := fun c => F.fl (D.fl (f.qx c * div c))
  let qyn : Grid L W K := fun c => F.fl (D.fl (f.qy c * div c))
  let omega := if iteration = 0 then omegaFlow else omegaFlowIter
  let qx1 : Grid L W K :=
    if timeIter > 0 then fun c =>
      F.fl (F.fl (qxn c * F.fl omega) + F.fl (qx c * F.fl (D.fl (1 - omega)))) else qxn
  let qy1 : Grid L W K :=
    if timeIter > 0 then fun c =>
      F.fl (F.fl (qyn c * F.fl omega) + F.fl (qy c * F.fl (D.fl (1 - omega)))) else qyn
  let qw1 : Grid L W K := fun c => F.fl (nrm (qx1 c) (qy1 c))
  { qx := assign qx1 (isInlet inlet) (fun _ => F.fl qw0)
    qy := assign qy1 (isInlet inlet) (fun _ => 0)
    qw := assign qw1 (isInlet inlet) (fun _ => F.fl qw0) }

/-- `update_velocity_field` (pyDeltaRCM/water_tools.py 506-523). -/
def updateVelocityR (F : Rounding K) (uMax dryDepth : K) (depth : Grid L W K) (q : Flux L W K) :
    Vel L W K :=
  let mask : Cell L W → Bool := fun c => decide (depth c > F.fl dryDepth) && decide (q.qw c > 0)
  let uw1 : Grid L W K := fun c => min (F.fl uMax) (F.fl (q.qw c / depth c))
  { uw := fun c => if mask c then uw1 c else 0
    ux := fun c => if mask c then F.fl (F.fl (uw1 c * q.qx c) / q.qw c) else 0
    uy := fun c => if mask c then F.fl (F.fl (uw1 c * q.qy c) / q.qw c) else 0 }

/-- `finalize_water_iteration` (pyDeltaRCM/water_tools.py 326-343). -/
def finalizeWaterIterationR (F D : Rounding K) (P : Params L W m K) (S : State L W K) (iteration : ℕ)
    (stage : Grid L W K) (f : Flux L W K) : State L W K :=
  let stage1 := stageAboveSea stage (F.fl S.HSL)
  let depth1 : Grid L W K := fun c => max (F.fl (stage1 c - S.eta c)) 0
  let q := updateFlowR F D P.nrm P.omegaFlow P.omegaFlowIter P.qw0 P.inlet S.timeIter iteration S.qx S.qy f
  let v := updateVelocityR F P.uMax P.dryDepth depth1 q
  { S with
    stage := stage1, depth := depth1, qx := q.qx, qy := q.qy, qw := q.qw
    ux := v.ux, uy := v.uy, uw := v.uw }

/-- The values used while stepping water parcels (pyDeltaRCM/water_tools.py 112-189). -/
def waterEnvR (F : Rounding K) (P : Params L W m K) (S : State L W K) (w : Grid L W (Fin 9 → K)) :
    WEnv L W K :=
  { waterEnv P S w with stageAboveSL := fun c => F.fl (S.stage c - F.fl S.HSL) }

/-- One pass of the loop of `route_water` (pyDeltaRCM/water_tools.py 25-41). -/
def waterIterationR [NeZero L] [NeZero W] [FloorRing K] (F D : Rounding K) (g : Rng K σ)
    (P : Params L W m K) (iteration : ℕ) (S : State L W K) (s : σ) : Except Err (State L W K × σ) :=
  match waterWeightArrayR F D P S with
  | .error e => .error e
  | .ok w =>
    match runWaterIterationR F D g (waterEnvR F P S w) (fun k => ((P.inlet k).val : ℤ)) P.NpWater
        S.ncols s with
    | .error e => .error e
    | .ok (wst, _, _, s1) =>
      match computeFreeSurfaceR F D P S wst.parcels with
      | .error e => .error e
      | .ok stage =>
        .ok ({ finalizeWaterIterationR F D P S iteration stage wst.flux with ncols := wst.ncols }, s1)

/-- The loop of `route_water` (pyDeltaRCM/water_tools.py 25-41) from `iteration` on, `n` passes. -/
def routeWaterFromR [NeZero L] [NeZero W] [FloorRing K] (F D : Rounding K) (g : Rng K σ)
    (P : Params L W m K) : ℕ → ℕ → State L W K → σ → Except Err (State L W K × σ)
  | _, 0, S, s => .ok (S, s)
  | iteration, n + 1, S, s =>
    match waterIterationR F D g P iteration S s with
    | .error e => .error e
    | .ok (S1, s1) => routeWaterFromR F D g P (iteration + 1) n S1 s1

/-- `route_water` (pyDeltaRCM/water_tools.py 11-41). -/
def routeWaterR [NeZero L] [NeZero W] [FloorRing K] (F D : Rounding K) (g : Rng K σ)
    (P : Params L W m K) (S : State L W K) (s : σ) : Except Err (State L W K × σ) :=
  routeWaterFromR F D g P 0 P.itermax S s

end Verif.Model
