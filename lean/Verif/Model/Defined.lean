import Verif.Model.Timestep

/-!
# Timesteps with checked arithmetic

In exact arithmetic of `Model/Timestep` and the files before, a division by zero gives zero and a power
may have any base. In the code the first raises `ZeroDivisionError` (compiled functions) or gives an
infinity or NaN (arrays), the second gives NaN. Here the functions of a timestep are written once more
with every division and every power checked when it is executed: if it is not defined, the timestep
ends with `undefined`. Operations of an array expression under a mask are executed for the cells of the
mask only. Divisions by literals are not checked. Roots are taken of sums of squares only and are always
defined.
-/

namespace Verif.Model

variable {K : Type} [Field K] [LinearOrder K] {σ : Type} {L W m : ℕ}

/-- What may end a timestep: an operation without result, or an exception of the code. -/
inductive Fault
  /-- division by zero, or power of a negative number -/
  | undefined
  /-- an exception as in `Model/Err` -/
  | raised (e : Err)
  deriving DecidableEq, Repr

/-- The outcome of a function that checks nothing. -/
def ofErr {α : Type*} : Except Err α → Except Fault α
  | .ok a => .ok a
  | .error e => .error (.raised e)

/-- `a / b`. -/
def divD (a b : K) : Except Fault K := if b = 0 then .error .undefined else .ok (a / b)

/-- `x ** e`, where `pw` gives the power for bases that are not negative. -/
def powD (pw : K → K) (x : K) : Except Fault K := if x < 0 then .error .undefined else .ok (pw x)

/-- An array expression: the values of all entries, if all are defined. -/
def allD {ι : Type*} [Fintype ι] (f : ι → Except Fault K) : Except Fault (ι → K) :=
  if ∀ i, (f i).isOk = true then .ok (fun i => (f i).toOption.getD 0) else .error .undefined

/-- `weight_sfc` of `get_weight_sfc_int` (pyDeltaRCM/shared_tools.py 428). -/
def weightSfcD (stage : K) (stageN : Fin 9 → K) (s2 : K) : Except Fault (Fin 9 → K) :=
  allD fun d => do
    let q ← divD (stage - stageN d) (distances s2 d)
    pure (max 0 q)

/-- `weight_int` of `get_weight_sfc_int` (pyDeltaRCM/shared_tools.py 429). -/
def weightIntD (qx qy : K) (s05 s2 : K) : Except Fault (Fin 9 → K) :=
  allD fun d => do
    let q ← divD (qx * jvec s05 d + qy * ivec s05 d) (distances s2 d)
    pure (max 0 q)

/-- `w / np.sum(w)`. -/
def normD (w : Fin 9 → K) : Except Fault (Fin 9 → K) := allD fun d => divD (w d) (∑ e, w e)

/-- `if np.sum(w) > 0: w = w / np.sum(w)` (pyDeltaRCM/water_tools.py 654-657). -/
def rebalanceD (w : Fin 9 → K) : Except Fault (Fin 9 → K) := if 0 < ∑ d, w d then normD w else .ok w

/-- `_get_weight_at_cell_water` (pyDeltaRCM/water_tools.py 614-708). -/
def waterWeightAtCellD (row0 : Bool) (wSfc wInt depthN modN : Fin 9 → K) (ctN : Fin 9 → ℤ)
    (dryDepth gamma : K) (pw : K → K) : Except Fault (Fin 9 → K) := do
  let dry : Fin 9 → Bool := fun d => decide (depthN d < dryDepth)
  let wall : Fin 9 → Bool := fun d => decide (ctN d = -2)
  let ctr : Fin 9 → Bool := fun d => decide (d = 4)
  let drywall : Fin 9 → Bool := fun d => dry d || wall d
  let invalid : Fin 9 → Bool := fun d => (wall d || ctr d) || (row0 && decide (d.val < 3))
  let sfc1 : Fin 9 → K := fun d => if ctr d then 0 else if drywall d then 0 else wSfc d
  let int1 : Fin 9 → K := fun d => if ctr d then 0 else if drywall d then 0 else wInt d
  let sfc2 ← rebalanceD sfc1
  let int2 ← rebalanceD int1
  let weight1 : Fin 9 → K := fun d => gamma * sfc2 d + (1 - gamma) * int2 d
  let power ← allD fun d => powD pw (depthN d * modN d)
  let weight2 : Fin 9 → K := fun d => power d * weight1 d
  let weight : Fin 9 → K := fun d => if ctr d then 0 else weight2 d
  if 0 < ∑ d, weight d then normD weight
  else if ∑ d, weight d = 0 then
    if wall 4 then .ok (fun _ => 0)
    else
      let wetvalid : Fin 9 → Bool := fun d => !dry d && !invalid d
      let nwetvalid : ℕ := (Finset.univ.filter (fun d => wetvalid d = true)).card
      if 0 < nwetvalid then do
        let share ← divD 1 (nwetvalid : K)
        normD (fun d => if wetvalid d then share else 0)
      else
        let nnotwall : ℕ := (Finset.univ.filter (fun d => (!wall d) = true)).card
        if 0 < nnotwall then do
          let share ← divD 1 (nnotwall : K)
          normD (fun d => if !wall d then share else 0)
        else .error (.raised .waterNoNonWall)
  else .error (.raised .waterNegativeSum)

/-- `_get_weight_at_cell_sediment` (pyDeltaRCM/sed_tools.py 249-312). -/
def sedWeightAtCellD (wInt depthN modN : Fin 9 → K) (ctN : Fin 9 → ℤ) (dryDepth : K)
    (pw : K → K) (dist : Fin 9 → K) : Except Fault (Fin 9 → K) := do
  let dry : Fin 9 → Bool := fun d => decide (depthN d ≤ dryDepth)
  let wall : Fin 9 → Bool := fun d => decide (ctN d = -2)
  let ctr : Fin 9 → Bool := fun d => decide (d = 4)
  let drywall : Fin 9 → Bool := fun d => dry d || wall d
  let int1 : Fin 9 → K := fun d => if ctr d then 0 else wInt d
  let power ← allD fun d => powD pw (depthN d * modN d)
  let weight1 : Fin 9 → K := fun d => power d * int1 d
  let weight2 : Fin 9 → K := fun d => if drywall d then 0 else if ctr d then 0 else weight1 d
  let weight3 ← if ∑ d, weight2 d = 0 then do
      let inv ← allD fun d => divD 1 (dist d)
      pure (fun d => if wall d then 0 else inv d)
    else pure weight2
  let weight : Fin 9 → K := fun d => if ctr d then 0 else weight3 d
  if ∑ d, weight d = 0 then .error (.raised .sedNoWeights) else normD weight

/-- One cell of `_get_water_weight_array` (pyDeltaRCM/water_tools.py 711-782). -/
def waterWeightsD [NeZero L] [NeZero W] (depth stage modW : Grid L W K)
    (cellType : Grid L W ℤ) (qx qy : Grid L W K) (s2 s05 dryDepth gamma : K) (pw : K → K)
    (c : Cell L W) : Except Fault (Fin 9 → K) := do
  let sfc ← weightSfcD (stage c) (nbrs stage c) s2
  let int ← weightIntD (qx c) (qy c) s05 s2
  waterWeightAtCellD (decide (c.1.val = 0)) sfc int (nbrs depth c) (nbrs modW c) (nbrs cellType c)
    dryDepth gamma pw

/-- The weights computed in `_choose_next_location` (pyDeltaRCM/sed_tools.py 396-420). -/
def sedWeightsD (padDepth padModS : Grid (L + 2) (W + 2) K)
    (padCellType : Grid (L + 2) (W + 2) ℤ) (qx qy : Grid L W K) (s2 s05 dryDepth : K) (pw : K → K)
    (c : Cell L W) : Except Fault (Fin 9 → K) := do
  let int ← weightIntD (qx c) (qy c) s05 s2
  sedWeightAtCellD int (padSlice padDepth c) (padSlice padModS c) (padSlice padCellType c) dryDepth pw
    (distances s2)

/-- The first fault while looping over cells, if any. -/
def firstFault {α : Type*} (f : Cell L W → Except Fault α) : List (Cell L W) → Option Fault
  | [] => none
  | c :: cs =>
    match f c with
    | .error e => some e
    | .ok _ => firstFault f cs

/-- `_get_water_weight_array` (pyDeltaRCM/water_tools.py 711-782): all cells, or the first fault. -/
def waterWeightArrayD [NeZero L] [NeZero W] (P : Params L W m K) (S : State L W K) :
    Except Fault (Grid L W (Fin 9 → K)) :=
  let f := waterWeightsD S.depth S.stage P.modWater P.cellType S.qx S.qy P.s2 P.s05 P.dryDepth
    P.gamma P.pwWater
  match firstFault f (allCells L W) with
  | some e => .error e
  | none => .ok (fun c => match f c with
      | .ok w => w
      | .error _ => fun _ => 0)

/-- `get_start_indices` (pyDeltaRCM/shared_tools.py 173-205). -/
def getStartIndicesD (inlet : Fin m → ℤ) (w : Fin m → K) (draws : List K) : Except Fault (List ℤ) := do
  let norm ← allD fun k => divD (w k) (List.ofFn w).sum
  match startLoop inlet norm draws with
  | none => .error (.raised .index)
  | some starts => .ok starts

/-- `_update_dirQfield` and `_update_absQfield` for one parcel (pyDeltaRCM/water_tools.py 998-1013). -/
def addFluxD (E : WEnv L W K) (f : Flux L W K) (ind : ℤ) (d : Fin 9) : Except Fault (Flux L W K) :=
  if d ≠ 4 then
    match flatCell L W ind with
    | none => .error (.raised .index)
    | some c => do
      let x ← divD (jwalk d : K) (stepDist E.s2 d)
      let y ← divD (iwalk d : K) (stepDist E.s2 d)
      let q ← divD E.Qp E.dx
      pure {
        qx := Function.update f.qx c (f.qx c + x)
        qy := Function.update f.qy c (f.qy c + y)
        qw := Function.update f.qw c (f.qw c + q / 2) }
  else .ok f

/-- `update_Q` over all parcels (pyDeltaRCM/water_tools.py 413-450). -/
def addFluxesD (E : WEnv L W K) (sel : StepRec → ℤ) (p : StepRec → Bool) :
    List StepRec → Flux L W K → Except Fault (Flux L W K)
  | [], f => .ok f
  | r :: rs, f =>
    if p r then do
      let f1 ← addFluxD E f (sel r) r.dir
      addFluxesD E sel p rs f1
    else addFluxesD E sel p rs f

/-- The loop handling of one parcel in `_check_for_loops` (pyDeltaRCM/water_tools.py 939-995). -/
def checkLoopD [FloorRing K] (E : WEnv L W K) (step : ℕ) (walk : List ℤ) (newInd : ℤ) :
    Except Fault (ℤ × Bool) :=
  let domainMinX : ℤ := (L : ℤ) - 2
  let domainMinY : ℤ := (W : ℤ) - 2
  let cut : ℤ := E.L0 * W - 1
  if (step : ℤ) > E.L0 then
    let nonz := walk.filter (fun i => decide (i > 0))
    let relv := nonz.filter (fun i => decide (i > cut))
    if newInd > 0 then
      if newInd ∈ relv then
        match customUnravel newInd ((L : ℤ), (W : ℤ)) with
        | .error _ => .error (.raised .index)
        | .ok (px0, py0) =>
          let Fx : K := (px0 : K) - 1
          let Fy : K := (py0 : K) - (E.CTR : K)
          let Fw : K := E.nrm Fx Fy
          if Fw ≠ 0 then do
            let ax ← divD Fx Fw
            let ay ← divD Fy Fw
            let px := px0 + roundHalfEven (ax * 5)
            let py := py0 + roundHalfEven (ay * 5)
            let px := min domainMinX (max px E.L0)
            let py := min domainMinY (max 1 py)
            match customRavel (px, py) ((L : ℤ), (W : ℤ)), pyCell L W px0 py0 with
            | .ok nind, some c0 =>
              .ok (nind, !decide (|E.stageAboveSL c0| < 1 / 10))
            | _, _ => .error (.raised .index)
          else .error (.raised .unbound)
      else .ok (newInd, false)
    else .ok (newInd, false)
  else .ok (newInd, false)

/-- One parcel in one pass of the loop of `run_water_iteration`
(pyDeltaRCM/water_tools.py 125-189), after its direction is chosen. -/
def parcelStepD [FloorRing K] (E : WEnv L W K) (step : ℕ) (p : WParcel) (d : Fin 9) :
    Except Fault (WParcel × StepRec) := do
  let new1 := calcNewInd W p.ind d
  let (new2, looped) ← checkLoopD E step p.walk new1
  let bnd ← ofErr (isBoundary E new2)
  let cur1 := if looped && bnd then 0 else new2
  let walk1 := p.walk.set step cur1
  let cur2 := if bnd then 0 else cur1
  pure (⟨cur2, p.flag && !looped, walk1⟩, ⟨p.ind, d, new1, new2, looped, bnd⟩)

/-- All parcels in one pass of the loop. -/
def parcelStepsD [FloorRing K] (E : WEnv L W K) (step : ℕ) :
    List WParcel → List (Fin 9) → Except Fault (List WParcel × List StepRec)
  | [], [] => .ok ([], [])
  | p :: ps, d :: ds => do
    let (p1, r1) ← parcelStepD E step p d
    let (ps1, rs1) ← parcelStepsD E step ps ds
    pure (p1 :: ps1, r1 :: rs1)
  | _, _ => .error (.raised .index)

/-- One pass of the loop of `run_water_iteration` (pyDeltaRCM/water_tools.py 117-201) with step
number `step`. -/
def waterStepD [FloorRing K] (g : Rng K σ) (E : WEnv L W K) (step : ℕ) (st : WState L W K) (s : σ) :
    Except Fault (WState L W K × List StepRec × σ) :=
  let st1 := checkSize E.stepmax step st
  if step < st1.ncols then do
    let (ds, s1) ← ofErr (chooseDirs g E.weights (st1.parcels.map (·.ind)) s)
    let (ps, recs) ← parcelStepsD E step st1.parcels ds
    let f1 ← addFluxesD E (·.cur) (fun _ => true) recs st1.flux
    let f2 ← addFluxesD E (·.new1) (fun _ => true) recs f1
    let f3 ← addFluxesD E (·.new2) (·.bnd) recs f2
    pure (⟨f3, ps, st1.ncols⟩, recs, s1)
  else .error (.raised .index)

/-- The loop of `run_water_iteration` (pyDeltaRCM/water_tools.py 117-201). -/
def waterLoopD [FloorRing K] (g : Rng K σ) (E : WEnv L W K) (step : ℕ) (st : WState L W K) (s : σ) :
    Except Fault (WState L W K × List (List StepRec) × ℕ × σ) :=
  if (st.parcels.map (·.ind)).sum > 0 ∧ step < E.stepmax then
    match waterStepD g E (step + 1) st s with
    | .error e => .error e
    | .ok (st1, recs, s1) =>
      match waterLoopD g E (step + 1) st1 s1 with
      | .error e => .error e
      | .ok (st2, log, n, s2) => .ok (st2, recs :: log, n, s2)
  else .ok (st, [], step, s)
  termination_by E.stepmax - step

/-- The state at the start of the loop (pyDeltaRCM/water_tools.py 43-54, 92-110). -/
def waterStartD (E : WEnv L W K) (ncols : ℕ) (starts : List ℤ) : Except Fault (WState L W K) := do
  let q ← divD E.Qp E.dx
  if starts.all (fun i => (flatCell L W i).isSome) ∧ 0 < ncols then
    .ok {
      flux := {
        qx := fancyAdd (fun _ => 0) starts 1
        qy := fancyAdd (fun _ => 0) starts 0
        qw := fancyAdd (fun _ => 0) starts (q / 2) }
      parcels := starts.map (fun i => ⟨i, true, (List.replicate ncols 0).set 0 i⟩)
      ncols := ncols }
  else .error (.raised .index)

/-- `run_water_iteration` (pyDeltaRCM/water_tools.py 76-201). -/
def runWaterIterationD [FloorRing K] (g : Rng K σ) (E : WEnv L W K) (inlet : Fin m → ℤ) (np : ℕ)
    (ncols : ℕ) (s : σ) : Except Fault (WState L W K × List (List StepRec) × ℕ × σ) := do
  let starts ← getStartIndicesD inlet (getInletWeights inlet : Fin m → K) (drawN g np s).1
  let st ← waterStartD E ncols starts
  waterLoopD g E 0 st (drawN g np s).2

/-- The body of the backward loop (pyDeltaRCM/water_tools.py 1087-1118). -/
def backStepD (E : SfcEnv L W K) (nx c : Cell L W) (s : SfcState L W K) :
    Except Fault (SfcState L W K) := do
  let s1 : SfcState L W K ←
    if c.1 ≠ nx.1 ∨ c.2 ≠ nx.2 then
      if s.inOcean then
        if E.uw c > E.u0 * (1 / 2) ∨ E.depth c < (1 / 10) * E.h0 then
          pure { s with inOcean := false }
        else pure s
      else if E.uw c = 0 then pure { s with dH := 0 }
      else do
        let dH ← divD (E.S0 * (E.ux c * ((nx.1.val : K) - (c.1.val : K)) * E.dx
                + E.uy c * ((nx.2.val : K) - (c.2.val : K)) * E.dx)) (E.uw c)
        pure { s with dH := dH }
    else pure s
  let h := s1.hnew nx + s1.dH
  pure { s1 with
    hnew := Function.update s1.hnew c h
    acc := {
      visit := Function.update s1.acc.visit c (s1.acc.visit c + 1)
      sum := Function.update s1.acc.sum c (s1.acc.sum c + h) } }

/-- The backward loop (pyDeltaRCM/water_tools.py 1087-1118). -/
def backWalkD (E : SfcEnv L W K) (nx : Cell L W) :
    List (Cell L W) → SfcState L W K → Except Fault (SfcState L W K)
  | [], s => .ok s
  | c :: cs, s => do
    let s1 ← backStepD E nx c s
    backWalkD E c cs s1

/-- One parcel of `_accumulate_free_surface_walks` (pyDeltaRCM/water_tools.py 1069-1118). -/
def sfcParcelD (E : SfcEnv L W K) (walk : List ℤ) (flag : Bool) (a : SfcAcc L W K) :
    Except Fault (SfcAcc L W K) := do
  let cs ← ofErr (walkCells L W walk)
  match cs.reverse with
  | [] => .error (.raised .index)
  | last :: rest =>
    if E.cellType last = -1 ∧ flag = true then do
      let r ← backWalkD E last rest ⟨Function.update (fun _ => 0) last E.HSL, true, 0, a⟩
      pure r.acc
    else pure a

/-- `_accumulate_free_surface_walks` (pyDeltaRCM/water_tools.py 1016-1120). -/
def sfcParcelsD (E : SfcEnv L W K) :
    List (List ℤ × Bool) → SfcAcc L W K → Except Fault (SfcAcc L W K)
  | [], a => .ok a
  | (walk, flag) :: ps, a => do
    let a1 ← sfcParcelD E walk flag a
    sfcParcelsD E ps a1

/-- `Hnew` of `compute_free_surface` (pyDeltaRCM/water_tools.py 281-295); the division is masked. -/
def computeHnewD (eta depth : Grid L W K) (a : SfcAcc L W K) (HSL : K) : Except Fault (Grid L W K) :=
  allD fun c => do
    let h0 := eta c + depth c
    let h1 ← if a.visit c > 0 then divD (a.sum c) (a.visit c) else pure h0
    let h2 := if h1 < HSL then HSL else h1
    pure (if h2 < eta c then eta c else h2)

/-- One pass of `_smooth_free_surface` (pyDeltaRCM/water_tools.py 1156-1191). -/
def smoothPassD [NeZero L] [NeZero W] (cellType : Grid L W ℤ) (C : K) (H : Grid L W K) :
    Except Fault (Grid L W K) :=
  allD fun c =>
    if cellType c ≠ -1 then
      let invalid : Fin 9 → Bool := fun d => decide (nbrs cellType c d = -2) || decide (d = 4)
      let hn : Fin 9 → K := fun d => if invalid d then 0 else nbrs H c d
      let sumH := ∑ d, hn d
      let nbcount : ℕ := (Finset.univ.filter (fun d => (!invalid d) = true)).card
      if nbcount > 0 then do
        let mean ← divD sumH (nbcount : K)
        pure (C * H c + (1 - C) * mean)
      else pure (H c)
    else pure (H c)

/-- `_smooth_free_surface` (pyDeltaRCM/water_tools.py 1123-1195): `n` passes. -/
def smoothD [NeZero L] [NeZero W] (cellType : Grid L W ℤ) (C : K) :
    ℕ → Grid L W K → Except Fault (Grid L W K)
  | 0, H => .ok H
  | n + 1, H => do
    let H1 ← smoothPassD cellType C H
    smoothD cellType C n H1

/-- `compute_free_surface` with `finalize_free_surface` (pyDeltaRCM/water_tools.py 203-324). -/
def computeFreeSurfaceD [NeZero L] [NeZero W] (P : Params L W m K) (S : State L W K)
    (parcels : List WParcel) : Except Fault (Grid L W K) := do
  let a ← sfcParcelsD (sfcEnv P S) (parcels.map (fun p => (p.walk, p.flag))) ⟨fun _ => 0, fun _ => 0⟩
  let Hnew ← computeHnewD S.eta S.depth a S.HSL
  let Hsmth ← smoothD P.cellType P.Csmooth P.Nsmooth Hnew
  let stage1 : Grid L W K :=
    if S.timeIter > 0 then fun c => (1 - P.omegaSfc) * S.stage c + P.omegaSfc * Hsmth c else S.stage
  pure (floodingCorrection S.eta S.depth stage1 P.dryDepth)

/-- `qwn_div` of `update_flow_field` (pyDeltaRCM/water_tools.py 480-483); the division is masked. -/
def qwnDivD (nrm : K → K → K) (f : Flux L W K) : Except Fault (Grid L W K) :=
  allD fun c =>
    let dloc := nrm (f.qx c) (f.qy c)
    if dloc > 0 then divD (f.qw c) dloc else pure 1

/-- `update_flow_field` (pyDeltaRCM/water_tools.py 471-504). -/
def updateFlowD (nrm : K → K → K) (omegaFlow omegaFlowIter qw0 : K) (inlet : Fin m → Fin W)
    (timeIter iteration : ℕ) (qx qy : Grid L W K) (f : Flux L W K) : Except Fault (Flux L W K) := do
  let div ← qwnDivD nrm f
  let qxn : Grid L W K := fun c => f.qx c * div c
  let qyn : Grid L W K := fun c => f.qy c * div c
  let omega := if iteration = 0 then omegaFlow else omegaFlowIter
  let qx1 : Grid L W K :=
    if timeIter > 0 then fun c => qxn c * omega + qx c * (1 - omega) else qxn
  let qy1 : Grid L W K :=
    if timeIter > 0 then fun c => qyn c * omega + qy c * (1 - omega) else qyn
  let qw1 : Grid L W K := fun c => nrm (qx1 c) (qy1 c)
  pure {
    qx := assign qx1 (isInlet inlet) (fun _ => qw0)
    qy := assign qy1 (isInlet inlet) (fun _ => 0)
    qw := assign qw1 (isInlet inlet) (fun _ => qw0) }

/-- `update_velocity_field` (pyDeltaRCM/water_tools.py 506-523); the divisions are masked. -/
def updateVelocityD (uMax dryDepth : K) (depth : Grid L W K) (q : Flux L W K) :
    Except Fault (Vel L W K) := do
  let mask : Cell L W → Bool := fun c => decide (depth c > dryDepth) && decide (q.qw c > 0)
  let uw ← allD fun c =>
    if mask c then do
      let u ← divD (q.qw c) (depth c)
      pure (min uMax u)
    else pure 0
  let ux ← allD fun c => if mask c then divD (uw c * q.qx c) (q.qw c) else pure 0
  let uy ← allD fun c => if mask c then divD (uw c * q.qy c) (q.qw c) else pure 0
  pure ⟨uw, ux, uy⟩

/-- `finalize_water_iteration` (pyDeltaRCM/water_tools.py 326-343). -/
def finalizeWaterIterationD (P : Params L W m K) (S : State L W K) (iteration : ℕ)
    (stage : Grid L W K) (f : Flux L W K) : Except Fault (State L W K) := do
  let stage1 := stageAboveSea stage S.HSL
  let depth1 := depthOf stage1 S.eta
  let q ← updateFlowD P.nrm P.omegaFlow P.omegaFlowIter P.qw0 P.inlet S.timeIter iteration S.qx S.qy f
  let v ← updateVelocityD P.uMax P.dryDepth depth1 q
  pure { S with
    stage := stage1, depth := depth1, qx := q.qx, qy := q.qy, qw := q.qw
    ux := v.ux, uy := v.uy, uw := v.uw }

/-- One pass of the loop of `route_water` (pyDeltaRCM/water_tools.py 25-41). -/
def waterIterationD [NeZero L] [NeZero W] [FloorRing K] (g : Rng K σ) (P : Params L W m K)
    (iteration : ℕ) (S : State L W K) (s : σ) : Except Fault (State L W K × σ) := do
  let w ← waterWeightArrayD P S
  let (wst, _, _, s1) ←
    runWaterIterationD g (waterEnv P S w) (fun k => ((P.inlet k).val : ℤ)) P.NpWater S.ncols s
  let stage ← computeFreeSurfaceD P S wst.parcels
  let S1 ← finalizeWaterIterationD P S iteration stage wst.flux
  pure ({ S1 with ncols := wst.ncols }, s1)

/-- The loop of `route_water` (pyDeltaRCM/water_tools.py 25-41) from `iteration` on, `n` passes. -/
def routeWaterFromD [NeZero L] [NeZero W] [FloorRing K] (g : Rng K σ) (P : Params L W m K) :
    ℕ → ℕ → State L W K → σ → Except Fault (State L W K × σ)
  | _, 0, S, s => .ok (S, s)
  | iteration, n + 1, S, s => do
    let (S1, s1) ← waterIterationD g P iteration S s
    routeWaterFromD g P (iteration + 1) n S1 s1

/-- `_compute_Vp_ero` (pyDeltaRCM/sed_tools.py 508-542). -/
def eroVolumeD (pw : K → K) (Vp U Uero modEro : K) : Except Fault K := do
  let a ← powD pw U
  let b ← powD pw Uero
  divD (modEro * Vp * (a - b)) b

/-- `Vp_change` of `SandRouter._deposit_or_erode` (pyDeltaRCM/sed_tools.py 781-808). -/
def sandChangeD (P : Params L W m K) (S : State L W K) (c : Cell L W) (res : K) : Except Fault K := do
  let U := S.uw c
  let p0 ← powD P.pwBeta P.u0
  let unit ← divD (P.qs0 * P.fCap) p0
  let pu ← powD P.pwBeta U
  let qsCap := unit * pu
  let qsLoc := S.qs c
  if qsLoc > qsCap then pure (limitChange res (S.stage c) (S.eta c) P.dx false)
  else if U > P.UeroSand ∧ qsLoc < qsCap then do
    let v ← eroVolumeD P.pwBeta P.VpSed U P.UeroSand (P.modErosion c)
    pure (limitChange v (S.stage c) (S.eta c) P.dx true * -1)
  else pure 0

/-- `Vp_change` of `MudRouter._deposit_or_erode` (pyDeltaRCM/sed_tools.py 952-975). -/
def mudChangeD (P : Params L W m K) (S : State L W K) (c : Cell L W) (res : K) : Except Fault K := do
  let U := S.uw c
  let v1 ←
    if U < P.UdepMud then do
      let a ← powD P.pwBeta P.UdepMud
      let b ← powD P.pwBeta U
      let v ← divD (P.lam * res * (a - b)) a
      pure (limitChange v (S.stage c) (S.eta c) P.dx false)
    else pure 0
  if U > P.UeroMud then do
    let v ← eroVolumeD P.pwBeta P.VpSed U P.UeroMud (P.modErosion c)
    pure (limitChange v (S.stage c) (S.eta c) P.dx true * -1)
  else pure v1

/-- `Vp_change` of `_deposit_or_erode` for both kinds. -/
def volumeChangeD (k : Sed) (P : Params L W m K) (S : State L W K) (c : Cell L W) (res : K) :
    Except Fault K :=
  match k with
  | .sand => sandChangeD P S c res
  | .mud => mudChangeD P S c res

/-- `_update_fields` on the model fields (pyDeltaRCM/sed_tools.py 480-506). -/
def updateFieldsD (P : Params L W m K) (S : State L W K) (c : Cell L W) (v : K) :
    Except Fault (State L W K) := do
  let rise ← divD v (P.dx * P.dx)
  let eta := S.eta c + rise
  let depth := max 0 (S.stage c - eta)
  let uw ←
    if depth > 0 then do
      let u ← divD (S.qw c) depth
      pure (min P.uMax u)
    else pure (S.uw c)
  let ux ← if S.qw c > 0 then divD (uw * S.qx c) (S.qw c) else pure 0
  let uy ← if S.qw c > 0 then divD (uw * S.qy c) (S.qw c) else pure 0
  pure { S with
    eta := Function.update S.eta c eta
    depth := Function.update S.depth c depth
    uw := Function.update S.uw c uw
    ux := Function.update S.ux c ux
    uy := Function.update S.uy c uy }

/-- Half of the flux of a parcel, `Vp_res / 2.0 / dt / dx` (pyDeltaRCM/sed_tools.py 700, 759). -/
def halfFluxD (P : Params L W m K) (res : K) : Except Fault K := do
  let a ← divD (res / 2) P.dt
  divD a P.dx

/-- `_partition_sediment` (pyDeltaRCM/sed_tools.py 755-762), sand only. -/
def partitionSandD (P : Params L W m K) (S : State L W K) (c0 c : Cell L W) (d : Fin 9) (res : K) :
    Except Fault (State L W K) := do
  let part ← halfFluxD P res
  if stepDist P.s2 d > 0 then
    let qs1 := Function.update S.qs c0 (S.qs c0 + part)
    pure { S with qs := Function.update qs1 c (qs1 c + part) }
  else pure S

/-- The fields when the volume is determined (pyDeltaRCM/sed_tools.py 741 against 925-943). -/
def fieldsAtD (k : Sed) (P : Params L W m K) (S : State L W K) (c0 c : Cell L W) (d : Fin 9)
    (res : K) : Except Fault (State L W K) :=
  match k with
  | .sand => partitionSandD P S c0 c d res
  | .mud => pure S

/-- `_choose_next_location` (pyDeltaRCM/sed_tools.py 390-430): the direction. -/
def chooseNextD [NeZero L] [NeZero W] (g : Rng K σ) (k : Sed) (P : Params L W m K) (st : SedSt L W K)
    (px py : ℤ) (s : σ) : Except Fault (Cell L W × Fin 9 × σ) :=
  match cellAt L W px py with
  | none => .error (.raised .index)
  | some c => do
    let w ← sedWeightsD st.padDepth (customPad P.modSed) (customPad P.cellType) st.S.qx st.S.qy P.s2
        P.s05 P.dryDepth (P.pwSed k) c
    let (r, s1) := g.next s
    match randomPick w r with
    | none => .error (.raised .index)
    | some d => pure (c, d, s1)

/-- One pass of the loop of `_route_one_parcel` (pyDeltaRCM/sed_tools.py 733-746, 930-937). -/
def sedStepD [NeZero L] [NeZero W] (g : Rng K σ) (k : Sed) (P : Params L W m K) (st : SedSt L W K)
    (px py : ℤ) (res : K) (s : σ) : Except Fault (SedSt L W K × K × SedRec L W K × σ) := do
  let (c0, d, s1) ← chooseNextD g k P st px py s
  let px1 := px + jwalk d
  let py1 := py + iwalk d
  match pyCell L W px1 py1, pyCell (L + 2) (W + 2) (px1 + 1) (py1 + 1) with
  | some c, some cp => do
    let S1 ← fieldsAtD k P st.S c0 c d res
    let v ← volumeChangeD k P S1 c res
    let S2 := recordDeposit k S1 c v
    let S3 ← updateFieldsD P S2 c v
    pure (⟨S3, Function.update st.padDepth cp (S3.depth c)⟩, res - v,
      ⟨(px, py), d, (px1, py1), c0, c, res, v, S1, S3⟩, s1)
  | _, _ => .error (.raised .index)

/-- The loop of `_route_one_parcel` (pyDeltaRCM/sed_tools.py 730-753, 925-943) with `n` steps left. -/
def sedLoopD [NeZero L] [NeZero W] (g : Rng K σ) (k : Sed) (P : Params L W m K) :
    ℕ → SedSt L W K → ℤ → ℤ → K → σ → Except Fault (SedSt L W K × K × List (SedRec L W K) × σ)
  | 0, _, _, _, _, _ => .error (.raised .diverge)
  | n + 1, st, px, py, res, s => do
    let (st1, res1, r, s1) ← sedStepD g k P st px py res s
    if P.cellType r.cell = -1 ∨ n = 0 then pure (st1, res1, [r], s1)
    else do
      let (st2, res2, rs, s2) ← sedLoopD g k P n st1 r.new.1 r.new.2 res1 s1
      pure (st2, res2, r :: rs, s2)

/-- The state in which a parcel begins (pyDeltaRCM/sed_tools.py 695-701, 916-921). -/
def enterStateD (k : Sed) (P : Params L W m K) (st : SedSt L W K) (c : Cell L W) :
    Except Fault (SedSt L W K) :=
  match k with
  | .sand => do
    let half ← halfFluxD P P.VpSed
    pure { st with S := { st.S with qs := Function.update st.S.qs c (st.S.qs c + half) } }
  | .mud => pure st

/-- The loop over parcels of `run` (pyDeltaRCM/sed_tools.py 692-703, 915-923). -/
def sedParcelsD [NeZero L] [NeZero W] (g : Rng K σ) (k : Sed) (P : Params L W m K) :
    List ℤ → SedSt L W K → σ → Except Fault (SedSt L W K × List (SedLog L W K) × σ)
  | [], st, s => .ok (st, [], s)
  | py :: pys, st, s =>
    match pyCell L W 0 py with
    | none => .error (.raised .index)
    | some c => do
      let st1 ← enterStateD k P st c
      let (st2, res, rs, s1) ← sedLoopD g k P P.stepmax st1 0 py P.VpSed s
      let (st3, logs, s2) ← sedParcelsD g k P pys st2 s1
      pure (st3, ⟨c.2, rs, res⟩ :: logs, s2)

/-- `route_all_sand_parcels` and `route_all_mud_parcels` (pyDeltaRCM/sed_tools.py 96-228). -/
def routeParcelsD [NeZero L] [NeZero W] [FloorRing K] (g : Rng K σ) (k : Sed) (P : Params L W m K)
    (S : State L W K) (s : σ) : Except Fault (State L W K × List (SedLog L W K) × σ) := do
  let inlet : Fin m → ℤ := fun i => ((P.inlet i).val : ℤ)
  let starts ← getStartIndicesD inlet (getInletWeights inlet : Fin m → K) (drawN g (numStarts k P) s).1
  let (st, logs, s2) ← sedParcelsD g k P starts ⟨S, customPad S.depth⟩ (drawN g (numStarts k P) s).2
  pure (st.S, logs, s2)

/-- `route_sediment` (pyDeltaRCM/sed_tools.py 18-49). `topo_diffusion` has no division. -/
def routeSedimentD [NeZero L] [NeZero W] [FloorRing K] (g : Rng K σ) (P : Params L W m K)
    (S : State L W K) (s : σ) :
    Except Fault (State L W K × List (SedLog L W K) × List (SedLog L W K) × σ) := do
  let (S1, sand, s1) ← routeParcelsD g .sand P (initSediment S) s
  let S2 := { S1 with eta := topoDiffusion P.cellType P.diffMult S1.qs P.Ncross S1.eta }
  let (S3, mud, s2) ← routeParcelsD g .mud P S2 s1
  pure (S3, sand, mud, s2)

/-- `compute_sand_frac` (pyDeltaRCM/iteration_tools.py 184-230); the division is masked. -/
def computeSandFracD (P : Params L W m K) (eta0 : Grid L W K) (S : State L W K) :
    Except Fault (State L W K) := do
  let bot : Grid L W K := fun c => eta0 c - P.actThick
  let deg : Cell L W → Bool := fun c => decide (S.eta c - eta0 c < 0)
  let frac1 : Grid L W K :=
    if anyCell deg then
      let f := assign S.sandFrac (fun c => decide (S.eta c < bot c)) (fun _ => P.sandFracBc)
      assign f (fun c => deg c && decide (S.eta c ≥ bot c)) S.activeLayer
    else S.sandFrac
  let agg : Cell L W → Bool := fun c =>
    decide (S.depSand c > 0) || decide (S.depMud c > 1 / 1000000)
  let mixture ← allD fun c => if agg c then divD (S.depSand c) (S.depMud c + S.depSand c) else pure 0
  pure { S with
    sandFrac := if anyCell agg then assign frac1 agg mixture else frac1
    activeLayer := if anyCell agg then assign S.activeLayer agg mixture else S.activeLayer }

/-- `finalize_timestep` (pyDeltaRCM/iteration_tools.py 87-115). -/
def finalizeTimestepD [NeZero L] [NeZero W] (P : Params L W m K) (eta0 : Grid L W K)
    (S : State L W K) : Except Fault (State L W K) := do
  let stage1 := floodingCorrection S.eta S.depth S.stage P.dryDepth
  let stage2 : Grid L W K := fun c => max (stage1 c) S.HSL
  let depth1 : Grid L W K := fun c => max (stage2 c - S.eta c) 0
  let eta1 := assign S.eta (isInlet P.inlet) (fun c => stage2 c - P.h0)
  let depth2 := assign depth1 (isInlet P.inlet) (fun _ => P.h0)
  let S1 ← computeSandFracD P eta0 { S with stage := stage2, depth := depth2, eta := eta1 }
  pure { S1 with HSL := S1.HSL + P.SLR * P.dt }

/-- The part of `update` before output (pyDeltaRCM/model.py 192-208), with
`solve_water_and_sediment_timestep` (pyDeltaRCM/iteration_tools.py 23-46) in line. -/
def timestepD [NeZero L] [NeZero W] [FloorRing K] (g : Rng K σ) (P : Params L W m K)
    (S : State L W K) (s : σ) : Except Fault (State L W K × StepLog L W K × σ) := do
  let (S1, s1) ← routeWaterFromD g P 0 P.itermax S s
  let (S2, sand, mud, s2) ← routeSedimentD g P S1 s1
  let S3 ← finalizeTimestepD P S.eta (applySubsidence P S2)
  pure ({ S3 with time := S3.time + P.dt, timeIter := S3.timeIter + 1 }, ⟨S, S1, S2, sand, mud⟩, s2)

/-- A run: one timestep after the other. -/
def timestepsD [NeZero L] [NeZero W] [FloorRing K] (g : Rng K σ) :
    List (Params L W m K) → State L W K → σ →
      Except Fault (State L W K × List (StepLog L W K) × σ)
  | [], S, s => .ok (S, [], s)
  | P :: Ps, S, s => do
    let (S1, l, s1) ← timestepD g P S s
    let (S2, ls, s2) ← timestepsD g Ps S1 s1
    pure (S2, l :: ls, s2)

end Verif.Model
