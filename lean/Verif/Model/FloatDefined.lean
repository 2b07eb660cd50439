import Verif.Model.Defined
import Verif.Model.FloatTimestep

/-!
# Rounded timesteps with checked arithmetic

The functions of `Model/FloatTimestep` and the files before, written once more with every division and every
power checked when it is executed, as in `Model/Defined`: the divisor that is checked is the rounded one. A
division that is not defined raises `ZeroDivisionError` in compiled functions and gives an infinity or NaN in
arrays, a power of a negative number gives NaN. Overflow and underflow are left out, as in `Model/Float`.
-/

namespace Verif.Model

variable {K : Type} [Field K] [LinearOrder K] {σ : Type} {L W m : ℕ}

/-- `weight_sfc` of `get_weight_sfc_int` (pyDeltaRCM/shared_tools.py 428). -/
def weightSfcRD (F : Rounding K) (stage : K) (stageN : Fin 9 → K) (s2 : K) : Except Fault (Fin 9 → K) :=
  allD fun d => do
    let q ← divD (F.fl (stage - stageN d)) (distances s2 d)
    pure (max 0 (F.fl q))

/-- `weight_int` of `get_weight_sfc_int` (pyDeltaRCM/shared_tools.py 429). -/
def weightIntRD (F : Rounding K) (qx qy : K) (s05 s2 : K) : Except Fault (Fin 9 → K) :=
  allD fun d => do
    let q ← divD (F.fl (F.fl (qx * jvec s05 d) + F.fl (qy * ivec s05 d))) (distances s2 d)
    pure (max 0 (F.fl q))

/-- `w / np.sum(w)`. -/
def normRD (R : Rounding K) (w : Fin 9 → K) : Except Fault (Fin 9 → K) :=
  allD fun d => do
    let q ← divD (w d) (sumR R (List.ofFn w))
    pure (R.fl q)

/-- `if np.sum(w) > 0: w = w / np.sum(w)` (pyDeltaRCM/water_tools.py 654-657). -/
def rebalanceRD (R : Rounding K) (w : Fin 9 → K) : Except Fault (Fin 9 → K) :=
  if 0 < sumR R (List.ofFn w) then normRD R w else .ok w

/-- `_get_weight_at_cell_water` (pyDeltaRCM/water_tools.py 614-708); `pw` gives checked powers. -/
def waterWeightAtCellRD (R : Rounding K) (row0 : Bool) (wSfc wInt depthN modN : Fin 9 → K)
    (ctN : Fin 9 → ℤ) (dryDepth gamma : K) (pw : K → Except Fault K) : Except Fault (Fin 9 → K) := do
  let dry : Fin 9 → Bool := fun d => decide (depthN d < dryDepth)
  let wall : Fin 9 → Bool := fun d => decide (ctN d = -2)
  let ctr : Fin 9 → Bool := fun d => decide (d = 4)
  let drywall : Fin 9 → Bool := fun d => dry d || wall d
  let invalid : Fin 9 → Bool := fun d => (wall d || ctr d) || (row0 && decide (d.val < 3))
  let sfc1 : Fin 9 → K := fun d => if ctr d then 0 else if drywall d then 0 else wSfc d
  let int1 : Fin 9 → K := fun d => if ctr d then 0 else if drywall d then 0 else wInt d
  let sfc2 ← rebalanceRD R sfc1
  let int2 ← rebalanceRD R int1
  let weight1 : Fin 9 → K := fun d =>
    R.fl (R.fl (gamma * sfc2 d) + R.fl (R.fl (1 - gamma) * int2 d))
  let power ← allD fun d => pw (R.fl (depthN d * modN d))
  let weight2 : Fin 9 → K := fun d => R.fl (power d * weight1 d)
  let weight : Fin 9 → K := fun d => if ctr d then 0 else weight2 d
  if 0 < sumR R (List.ofFn weight) then normRD R weight
  else if sumR R (List.ofFn weight) = 0 then
    if wall 4 then .ok (fun _ => 0)
    else
      let wetvalid : Fin 9 → Bool := fun d => !dry d && !invalid d
      let nwetvalid : ℕ := (Finset.univ.filter (fun d => wetvalid d = true)).card
      if 0 < nwetvalid then do
        let share ← divD 1 (nwetvalid : K)
        normRD R (fun d => if wetvalid d then R.fl share else 0)
      else
        let nnotwall : ℕ := (Finset.univ.filter (fun d => (!wall d) = true)).card
        if 0 < nnotwall then do
          let share ← divD 1 (nnotwall : K)
          normRD R (fun d => if !wall d then R.fl share else 0)
        else .error (.raised .waterNoNonWall)
  else .error (.raised .waterNegativeSum)

/-- `_get_weight_at_cell_sediment` (pyDeltaRCM/sed_tools.py 249-312). -/
def sedWeightAtCellRD (R : Rounding K) (wInt depthN modN : Fin 9 → K) (ctN : Fin 9 → ℤ) (dryDepth : K)
    (pw : K → Except Fault K) (dist : Fin 9 → K) : Except Fault (Fin 9 → K) := do
  let dry : Fin 9 → Bool := fun d => decide (depthN d ≤ dryDepth)
  let wall : Fin 9 → Bool := fun d => decide (ctN d = -2)
  let ctr : Fin 9 → Bool := fun d => decide (d = 4)
  let drywall : Fin 9 → Bool := fun d => dry d || wall d
  let int1 : Fin 9 → K := fun d => if ctr d then 0 else wInt d
  let power ← allD fun d => pw (R.fl (depthN d * modN d))
  let weight1 : Fin 9 → K := fun d => R.fl (power d * int1 d)
  let weight2 : Fin 9 → K := fun d => if drywall d then 0 else if ctr d then 0 else weight1 d
  let weight3 ← if sumR R (List.ofFn weight2) = 0 then do
      let inv ← allD fun d => divD 1 (dist d)
      pure (fun d => if wall d then 0 else R.fl (inv d))
    else pure weight2
  let weight : Fin 9 → K := fun d => if ctr d then 0 else weight3 d
  if sumR R (List.ofFn weight) = 0 then .error (.raised .sedNoWeights) else normRD R weight

/-- One cell of `_get_water_weight_array` (pyDeltaRCM/water_tools.py 711-782). -/
def waterWeightsRD [NeZero L] [NeZero W] (F D : Rounding K) (depth stage modW : Grid L W K)
    (cellType : Grid L W ℤ) (qx qy : Grid L W K) (s2 s05 dryDepth gamma : K) (pw : K → K)
    (c : Cell L W) : Except Fault (Fin 9 → K) := do
  let sfc ← weightSfcRD F (stage c) (nbrs stage c) (F.fl s2)
  let int ← weightIntRD F (qx c) (qy c) (F.fl s05) (F.fl s2)
  waterWeightAtCellRD D (decide (c.1.val = 0)) sfc int (nbrs depth c) (nbrs modW c) (nbrs cellType c)
    dryDepth gamma (fun x => powD pw (F.fl x))

/-- The weights computed in `_choose_next_location` (pyDeltaRCM/sed_tools.py 396-420). -/
def sedWeightsRD (F : Rounding K) (padDepth padModS : Grid (L + 2) (W + 2) K)
    (padCellType : Grid (L + 2) (W + 2) ℤ) (qx qy : Grid L W K) (s2 s05 dryDepth : K) (pw : K → K)
    (c : Cell L W) : Except Fault (Fin 9 → K) := do
  let int ← weightIntRD F (qx c) (qy c) s05 s2
  sedWeightAtCellRD F int (padSlice padDepth c) (padSlice padModS c) (padSlice padCellType c) dryDepth
    (powD pw) (distances s2)

/-- `_get_water_weight_array` (pyDeltaRCM/water_tools.py 711-782): all cells, or the first fault. -/
def waterWeightArrayRD [NeZero L] [NeZero W] (F D : Rounding K) (P : Params L W m K) (S : State L W K) :
    Except Fault (Grid L W (Fin 9 → K)) :=
  let f := waterWeightsRD F D S.depth S.stage P.modWater P.cellType S.qx S.qy P.s2 P.s05 P.dryDepth
    P.gamma P.pwWater
  match firstFault f (allCells L W) with
  | some e => .error e
  | none => .ok (fun c => match f c with
      | .ok w => w
      | .error _ => fun _ => 0)

/-- `get_start_indices` (pyDeltaRCM/shared_tools.py 173-205). -/
def getStartIndicesRD (D : Rounding K) (inlet : Fin m → ℤ) (w : Fin m → K) (draws : List K) :
    Except Fault (List ℤ) := do
  let norm ← allD fun k => divD (w k) (sumR D (List.ofFn w))
  match startLoopR D inlet (fun k => D.fl (norm k)) draws with
  | none => .error (.raised .index)
  | some starts => .ok starts

/-- `Qp_water / dx / 2` (pyDeltaRCM/water_tools.py 106, 1012). -/
def halfShareRD (D : Rounding K) (E : WEnv L W K) : Except Fault K := do
  let q ← divD E.Qp E.dx
  pure (D.fl (D.fl q / 2))

/-- `_update_dirQfield` and `_update_absQfield` for one parcel (pyDeltaRCM/water_tools.py 998-1013). -/
def addFluxRD (F D : Rounding K) (E : WEnv L W K) (f : Flux L W K) (ind : ℤ) (d : Fin 9) :
    Except Fault (Flux L W K) :=
  if d ≠ 4 then
    match flatCell L W ind with
    | none => .error (.raised .index)
    | some c => do
      let x ← divD (jwalk d : K) (stepDist (D.fl E.s2) d)
      let y ← divD (iwalk d : K) (stepDist (D.fl E.s2) d)
      let q ← halfShareRD D E
      pure {
        qx := Function.update f.qx c (F.fl (D.fl (f.qx c + D.fl x)))
        qy := Function.update f.qy c (F.fl (D.fl (f.qy c + D.fl y)))
        qw := Function.update f.qw c (F.fl (D.fl (f.qw c + q))) }
  else .ok f

/-- `update_Q` over all parcels (pyDeltaRCM/water_tools.py 413-450). -/
def addFluxesRD (F D : Rounding K) (E : WEnv L W K) (sel : StepRec → ℤ) (p : StepRec → Bool) :
    List StepRec → Flux L W K → Except Fault (Flux L W K)
  | [], f => .ok f
  | r :: rs, f =>
    if p r then do
      let f1 ← addFluxRD F D E f (sel r) r.dir
      addFluxesRD F D E sel p rs f1
    else addFluxesRD F D E sel p rs f

/-- The loop handling of one parcel in `_check_for_loops` (pyDeltaRCM/water_tools.py 939-995). -/
def checkLoopRD [FloorRing K] (D : Rounding K) (E : WEnv L W K) (step : ℕ) (walk : List ℤ) (newInd : ℤ) :
    Except Fault (ℤ × Bool) :=
  let domainMinX : ℤ := (L : ℤ) - 2
  let domainMinY : ℤ := (W : ℤ) - 2
  let cut : ℤ := E.L0 * W - 1
  if (step : ℤ) > E.L0 then
    let nonz := walk.filter (fun i => decide (i > 0))
    let relv := nonz.filter (fun i => decide (i > cut))
    if newInd > 0 then
      if newInd ∈ relv then
        match customUnravel newInd ((L : ℤ), (W : ℤ)) with
        | .error _ => .error (.raised .index)
        | .ok (px0, py0) =>
          let Fx : K := (px0 : K) - 1
          let Fy : K := (py0 : K) - (E.CTR : K)
          let Fw : K := D.fl (E.nrm Fx Fy)
          if Fw ≠ 0 then do
            let ax ← divD Fx Fw
            let ay ← divD Fy Fw
            let px := px0 + roundHalfEven (D.fl (D.fl ax * 5))
            let py := py0 + roundHalfEven (D.fl (D.fl ay * 5))
            let px := min domainMinX (max px E.L0)
            let py := min domainMinY (max 1 py)
            match customRavel (px, py) ((L : ℤ), (W : ℤ)), pyCell L W px0 py0 with
            | .ok nind, some c0 =>
              .ok (nind, !decide (|E.stageAboveSL c0| < D.fl (1 / 10)))
            | _, _ => .error (.raised .index)
          else .error (.raised .unbound)
      else .ok (newInd, false)
    else .ok (newInd, false)
  else .ok (newInd, false)

/-- One parcel in one pass of the loop of `run_water_iteration`
(pyDeltaRCM/water_tools.py 125-189), after its direction is chosen. -/
def parcelStepRD [FloorRing K] (D : Rounding K) (E : WEnv L W K) (step : ℕ) (p : WParcel) (d : Fin 9) :
    Except Fault (WParcel × StepRec) := do
  let new1 := calcNewInd W p.ind d
  let (new2, looped) ← checkLoopRD D E step p.walk new1
  let bnd ← ofErr (isBoundary E new2)
  let cur1 := if looped && bnd then 0 else new2
  let walk1 := p.walk.set step cur1
  let cur2 := if bnd then 0 else cur1
  pure (⟨cur2, p.flag && !looped, walk1⟩, ⟨p.ind, d, new1, new2, looped, bnd⟩)

/-- All parcels in one pass of the loop. -/
def parcelStepsRD [FloorRing K] (D : Rounding K) (E : WEnv L W K) (step : ℕ) :
    List WParcel → List (Fin 9) → Except Fault (List WParcel × List StepRec)
  | [], [] => .ok ([], [])
  | p :: ps, d :: ds => do
    let (p1, r1) ← parcelStepRD D E step p d
    let (ps1, rs1) ← parcelStepsRD D E step ps ds
    pure (p1 :: ps1, r1 :: rs1)
  | _, _ => .error (.raised .index)

/-- One pass of the loop of `run_water_iteration` (pyDeltaRCM/water_tools.py 117-201) with step
number `step`. -/
def waterStepRD [FloorRing K] (F D : Rounding K) (g : Rng K σ) (E : WEnv L W K) (step : ℕ)
    (st : WState L W K) (s : σ) : Except Fault (WState L W K × List StepRec × σ) :=
  let st1 := checkSize E.stepmax step st
  if step < st1.ncols then do
    let (ds, s1) ← ofErr (chooseDirsR D g E.weights (st1.parcels.map (·.ind)) s)
    let (ps, recs) ← parcelStepsRD D E step st1.parcels ds
    let f1 ← addFluxesRD F D E (·.cur) (fun _ => true) recs st1.flux
    let f2 ← addFluxesRD F D E (·.new1) (fun _ => true) recs f1
    let f3 ← addFluxesRD F D E (·.new2) (·.bnd) recs f2
    pure (⟨f3, ps, st1.ncols⟩, recs, s1)
  else .error (.raised .index)

/-- The loop of `run_water_iteration` (pyDeltaRCM/water_tools.py 117-201). -/
def waterLoopRD [FloorRing K] (F D : Rounding K) (g : Rng K σ) (E : WEnv L W K) (step : ℕ)
    (st : WState L W K) (s : σ) : Except Fault (WState L W K × List (List StepRec) × ℕ × σ) :=
  if (st.parcels.map (·.ind)).sum > 0 ∧ step < E.stepmax then
    match waterStepRD F D g E (step + 1) st s with
    | .error e => .error e
    | .ok (st1, recs, s1) =>
      match waterLoopRD F D g E (step + 1) st1 s1 with
      | .error e => .error e
      | .ok (st2, log, n, s2) => .ok (st2, recs :: log, n, s2)
  else .ok (st, [], step, s)
  termination_by E.stepmax - step

/-- The state at the start of the loop (pyDeltaRCM/water_tools.py 43-54, 92-110). -/
def waterStartRD (F D : Rounding K) (E : WEnv L W K) (ncols : ℕ) (starts : List ℤ) :
    Except Fault (WState L W K) := do
  let q ← halfShareRD D E
  if starts.all (fun i => (flatCell L W i).isSome) ∧ 0 < ncols then
    .ok {
      flux := {
        qx := fancyAddR F (fun _ => 0) starts 1
        qy := fancyAddR F (fun _ => 0) starts 0
        qw := fancyAddR F (fun _ => 0) starts q }
      parcels := starts.map (fun i => ⟨i, true, (List.replicate ncols 0).set 0 i⟩)
      ncols := ncols }
  else .error (.raised .index)

/-- `run_water_iteration` (pyDeltaRCM/water_tools.py 76-201). -/
def runWaterIterationRD [FloorRing K] (F D : Rounding K) (g : Rng K σ) (E : WEnv L W K)
    (inlet : Fin m → ℤ) (np : ℕ) (ncols : ℕ) (s : σ) :
    Except Fault (WState L W K × List (List StepRec) × ℕ × σ) := do
  let starts ← getStartIndicesRD D inlet (getInletWeights inlet : Fin m → K) (drawN g np s).1
  let st ← waterStartRD F D E ncols starts
  waterLoopRD F D g E 0 st (drawN g np s).2

/-- The body of the backward loop (pyDeltaRCM/water_tools.py 1087-1118). -/
def backStepRD (D : Rounding K) (E : SfcEnv L W K) (nx c : Cell L W) (s : SfcState L W K) :
    Except Fault (SfcState L W K) := do
  let s1 : SfcState L W K ←
    if c.1 ≠ nx.1 ∨ c.2 ≠ nx.2 then
      if s.inOcean then
        if E.uw c > D.fl (E.u0 * (1 / 2)) ∨ E.depth c < D.fl (D.fl (1 / 10) * E.h0) then
          pure { s with inOcean := false }
        else pure s
      else if E.uw c = 0 then pure { s with dH := 0 }
      else do
        let dH ← divD (D.fl (E.S0 * D.fl (D.fl (D.fl (E.ux c * ((nx.1.val : K) - (c.1.val : K))) * E.dx)
                + D.fl (D.fl (E.uy c * ((nx.2.val : K) - (c.2.val : K))) * E.dx)))) (E.uw c)
        pure { s with dH := D.fl dH }
    else pure s
  let h := D.fl (s1.hnew nx + s1.dH)
  pure { s1 with
    hnew := Function.update s1.hnew c h
    acc := {
      visit := Function.update s1.acc.visit c (D.fl (s1.acc.visit c + 1))
      sum := Function.update s1.acc.sum c (D.fl (s1.acc.sum c + h)) } }

/-- The backward loop (pyDeltaRCM/water_tools.py 1087-1118). -/
def backWalkRD (D : Rounding K) (E : SfcEnv L W K) (nx : Cell L W) :
    List (Cell L W) → SfcState L W K → Except Fault (SfcState L W K)
  | [], s => .ok s
  | c :: cs, s => do
    let s1 ← backStepRD D E nx c s
    backWalkRD D E c cs s1

/-- One parcel of `_accumulate_free_surface_walks` (pyDeltaRCM/water_tools.py 1069-1118). -/
def sfcParcelRD (D : Rounding K) (E : SfcEnv L W K) (walk : List ℤ) (flag : Bool) (a : SfcAcc L W K) :
    Except Fault (SfcAcc L W K) := do
  let cs ← ofErr (walkCells L W walk)
  match cs.reverse with
  | [] => .error (.raised .index)
  | last :: rest =>
    if E.cellType last = -1 ∧ flag = true then do
      let r ← backWalkRD D E last rest ⟨Function.update (fun _ => 0) last E.HSL, true, 0, a⟩
      pure r.acc
    else pure a

/-- `_accumulate_free_surface_walks` (pyDeltaRCM/water_tools.py 1016-1120). -/
def sfcParcelsRD (D : Rounding K) (E : SfcEnv L W K) :
    List (List ℤ × Bool) → SfcAcc L W K → Except Fault (SfcAcc L W K)
  | [], a => .ok a
  | (walk, flag) :: ps, a => do
    let a1 ← sfcParcelRD D E walk flag a
    sfcParcelsRD D E ps a1

/-- `Hnew` of `compute_free_surface` (pyDeltaRCM/water_tools.py 281-295); the division is masked. -/
def computeHnewRD (F D : Rounding K) (eta depth : Grid L W K) (a : SfcAcc L W K) (HSL : K) :
    Except Fault (Grid L W K) :=
  allD fun c => do
    let h0 := F.fl (eta c + depth c)
    let h1 ← if a.visit c > 0 then do
        let q ← divD (a.sum c) (a.visit c)
        pure (F.fl (D.fl q))
      else pure h0
    let h2 := if h1 < F.fl HSL then F.fl HSL else h1
    pure (if h2 < eta c then eta c else h2)

/-- One pass of `_smooth_free_surface` (pyDeltaRCM/water_tools.py 1156-1191). -/
def smoothPassRD [NeZero L] [NeZero W] (F D : Rounding K) (cellType : Grid L W ℤ) (C : K)
    (H : Grid L W K) : Except Fault (Grid L W K) :=
  allD fun c =>
    if cellType c ≠ -1 then
      let invalid : Fin 9 → Bool := fun d => decide (nbrs cellType c d = -2) || decide (d = 4)
      let hn : Fin 9 → K := fun d => if invalid d then 0 else nbrs H c d
      let sumH := sumR F (List.ofFn hn)
      let nbcount : ℕ := (Finset.univ.filter (fun d => (!invalid d) = true)).card
      if nbcount > 0 then do
        let mean ← divD sumH (nbcount : K)
        pure (F.fl (D.fl (D.fl (C * H c) + D.fl (D.fl (1 - C) * D.fl mean))))
      else pure (H c)
    else pure (H c)

/-- `_smooth_free_surface` (pyDeltaRCM/water_tools.py 1123-1195): `n` passes. -/
def smoothRD [NeZero L] [NeZero W] (F D : Rounding K) (cellType : Grid L W ℤ) (C : K) :
    ℕ → Grid L W K → Except Fault (Grid L W K)
  | 0, H => .ok H
  | n + 1, H => do
    let H1 ← smoothPassRD F D cellType C H
    smoothRD F D cellType C n H1

/-- `compute_free_surface` with `finalize_free_surface` (pyDeltaRCM/water_tools.py 203-324). -/
def computeFreeSurfaceRD [NeZero L] [NeZero W] (F D : Rounding K) (P : Params L W m K) (S : State L W K)
    (parcels : List WParcel) : Except Fault (Grid L W K) := do
  let a ← sfcParcelsRD D (sfcEnv P S) (parcels.map (fun p => (p.walk, p.flag))) ⟨fun _ => 0, fun _ => 0⟩
  let Hnew ← computeHnewRD F D S.eta S.depth a S.HSL
  let Hsmth ← smoothRD F D P.cellType P.Csmooth P.Nsmooth Hnew
  let stage1 : Grid L W K :=
    if S.timeIter > 0 then fun c =>
      F.fl (F.fl (F.fl (D.fl (1 - P.omegaSfc)) * S.stage c) + F.fl (F.fl P.omegaSfc * Hsmth c)) else S.stage
  pure (floodingCorrection S.eta S.depth stage1 (F.fl P.dryDepth))

/-- `qwn_div` of `update_flow_field` (pyDeltaRCM/water_tools.py 480-483); the division is masked. -/
def qwnDivRD (F : Rounding K) (nrm : K → K → K) (f : Flux L W K) : Except Fault (Grid L W K) :=
  allD fun c =>
    let dloc := F.fl (nrm (f.qx c) (f.qy c))
    if dloc > 0 then do
      let q ← divD (f.qw c) dloc
      pure (F.fl q)
    else pure 1

/-- `update_flow_field` (pyDeltaRCM/water_tools.py 471-504). -/
def updateFlowRD (F D : Rounding K) (nrm : K → K → K) (omegaFlow omegaFlowIter qw0 : K)
    (inlet : Fin m → Fin W) (timeIter iteration : ℕ) (qx qy : Grid L W K) (f : Flux L W K) :
    Except Fault (Flux L W K) := do
  let div ← qwnDivRD F nrm f
  let qxn : Grid L W K := fun c => F.fl (D.fl (f.qx c * div c))
  let qyn : Grid L W K := fun c => F.fl (D.fl (f.qy c * div c))
  let omega := if iteration = 0 then omegaFlow else omegaFlowIter
  let qx1 : Grid L W K :=
    if timeIter > 0 then fun c =>
      F.fl (F.fl (qxn c * F.fl omega) + F.fl (qx c * F.fl (D.fl (1 - omega)))) else qxn
  let qy1 : Grid L W K :=
    if timeIter > 0 then fun c =>
      F.fl (F.fl (qyn c * F.fl omega) + F.fl (qy c * F.fl (D.fl (1 - omega)))) else qyn
  let qw1 : Grid L W K := fun c => F.fl (nrm (qx1 c) (qy1 c))
  pure {
    qx := assign qx1 (isInlet inlet) (fun _ => F.fl qw0)
    qy := assign qy1 (isInlet inlet) (fun _ => 0)
    qw := assign qw1 (isInlet inlet) (fun _ => F.fl qw0) }

/-- `update_velocity_field` (pyDeltaRCM/water_tools.py 506-523); the divisions are masked. -/
def updateVelocityRD (F : Rounding K) (uMax dryDepth : K) (depth : Grid L W K) (q : Flux L W K) :
    Except Fault (Vel L W K) := do
  let mask : Cell L W → Bool := fun c => decide (depth c > F.fl dryDepth) && decide (q.qw c > 0)
  let uw ← allD fun c =>
    if mask c then do
      let u ← divD (q.qw c) (depth c)
      pure (min (F.fl uMax) (F.fl u))
    else pure 0
  let ux ← allD fun c => if mask c then do
      let x ← divD (F.fl (uw c * q.qx c)) (q.qw c)
      pure (F.fl x)
    else pure 0
  let uy ← allD fun c => if mask c then do
      let y ← divD (F.fl (uw c * q.qy c)) (q.qw c)
      pure (F.fl y)
    else pure 0
  pure ⟨uw, ux, uy⟩

/-- `finalize_water_iteration` (pyDeltaRCM/water_tools.py 326-343). -/
def finalizeWaterIterationRD (F D : Rounding K) (P : Params L W m K) (S : State L W K) (iteration : ℕ)
    (stage : Grid L W K) (f : Flux L W K) : Except Fault (State L W K) := do
  let stage1 := stageAboveSea stage (F.fl S.HSL)
  let depth1 : Grid L W K := fun c => max (F.fl (stage1 c - S.eta c)) 0
  let q ← updateFlowRD F D P.nrm P.omegaFlow P.omegaFlowIter P.qw0 P.inlet S.timeIter iteration S.qx S.qy f
  let v ← updateVelocityRD F P.uMax P.dryDepth depth1 q
  pure { S with
    stage := stage1, depth := depth1, qx := q.qx, qy := q.qy, qw := q.qw
    ux := v.ux, uy := v.uy, uw := v.uw }

/-- One pass of the loop of `route_water` (pyDeltaRCM/water_tools.py 25-41). -/
def waterIterationRD [NeZero L] [NeZero W] [FloorRing K] (F D : Rounding K) (g : Rng K σ)
    (P : Params L W m K) (iteration : ℕ) (S : State L W K) (s : σ) : Except Fault (State L W K × σ) := do
  let w ← waterWeightArrayRD F D P S
  let (wst, _, _, s1) ←
    runWaterIterationRD F D g (waterEnvR F P S w) (fun k => ((P.inlet k).val : ℤ)) P.NpWater S.ncols s
  let stage ← computeFreeSurfaceRD F D P S wst.parcels
  let S1 ← finalizeWaterIterationRD F D P S iteration stage wst.flux
  pure ({ S1 with ncols := wst.ncols }, s1)

/-- The loop of `route_water` (pyDeltaRCM/water_tools.py 25-41) from `iteration` on, `n` passes. -/
def routeWaterFromRD [NeZero L] [NeZero W] [FloorRing K] (F D : Rounding K) (g : Rng K σ)
    (P : Params L W m K) : ℕ → ℕ → State L W K → σ → Except Fault (State L W K × σ)
  | _, 0, S, s => .ok (S, s)
  | iteration, n + 1, S, s => do
    let (S1, s1) ← waterIterationRD F D g P iteration S s
    routeWaterFromRD F D g P (iteration + 1) n S1 s1

/-- `_compute_Vp_ero` (pyDeltaRCM/sed_tools.py 508-542). -/
def eroVolumeRD (F : Rounding K) (pw : K → K) (Vp U Uero modEro : K) : Except Fault K := do
  let a ← powD pw U
  let b ← powD pw Uero
  let q ← divD (F.fl (F.fl (modEro * Vp) * F.fl (a - b))) b
  pure (F.fl q)

/-- `Vp_change` of `SandRouter._deposit_or_erode` (pyDeltaRCM/sed_tools.py 781-808). -/
def sandChangeRD (F D : Rounding K) (P : Params L W m K) (S : State L W K) (c : Cell L W) (res : K) :
    Except Fault K := do
  let U := S.uw c
  let p0 ← powD P.pwBeta P.u0
  let unit ← divD (F.fl (P.qs0 * P.fCap)) p0
  let pu ← powD P.pwBeta U
  let qsCap := F.fl (F.fl unit * pu)
  let qsLoc := S.qs c
  if qsLoc > qsCap then pure (limitChangeR F D res (S.stage c) (S.eta c) P.dx false)
  else if U > P.UeroSand ∧ qsLoc < qsCap then do
    let v ← eroVolumeRD F P.pwBeta P.VpSed U P.UeroSand (P.modErosion c)
    pure (limitChangeR F D v (S.stage c) (S.eta c) P.dx true * -1)
  else pure 0

/-- `Vp_change` of `MudRouter._deposit_or_erode` (pyDeltaRCM/sed_tools.py 952-975). -/
def mudChangeRD (F D : Rounding K) (P : Params L W m K) (S : State L W K) (c : Cell L W) (res : K) :
    Except Fault K := do
  let U := S.uw c
  let v1 ←
    if U < P.UdepMud then do
      let a ← powD P.pwBeta P.UdepMud
      let b ← powD P.pwBeta U
      let v ← divD (F.fl (F.fl (P.lam * res) * F.fl (a - b))) a
      pure (limitChangeR F D (F.fl v) (S.stage c) (S.eta c) P.dx false)
    else pure 0
  if U > P.UeroMud then do
    let v ← eroVolumeRD F P.pwBeta P.VpSed U P.UeroMud (P.modErosion c)
    pure (limitChangeR F D v (S.stage c) (S.eta c) P.dx true * -1)
  else pure v1

/-- `Vp_change` of `_deposit_or_erode` for both kinds. -/
def volumeChangeRD (F D : Rounding K) (k : Sed) (P : Params L W m K) (S : State L W K) (c : Cell L W)
    (res : K) : Except Fault K :=
  match k with
  | .sand => sandChangeRD F D P S c res
  | .mud => mudChangeRD F D P S c res

/-- `_update_fields` on the model fields (pyDeltaRCM/sed_tools.py 480-506). -/
def updateFieldsRD (F D : Rounding K) (P : Params L W m K) (S : State L W K) (c : Cell L W) (v : K) :
    Except Fault (State L W K) := do
  let rise ← divD v (F.fl (P.dx * P.dx))
  let eta := D.fl (S.eta c + D.fl rise)
  let depth := max 0 (D.fl (S.stage c - eta))
  let uw ←
    if depth > 0 then do
      let u ← divD (S.qw c) depth
      pure (min P.uMax (D.fl u))
    else pure (S.uw c)
  let ux ← if S.qw c > 0 then do
      let x ← divD (D.fl (uw * S.qx c)) (S.qw c)
      pure (F.fl (D.fl x))
    else pure 0
  let uy ← if S.qw c > 0 then do
      let y ← divD (D.fl (uw * S.qy c)) (S.qw c)
      pure (F.fl (D.fl y))
    else pure 0
  pure { S with
    eta := Function.update S.eta c (F.fl eta)
    depth := Function.update S.depth c (F.fl depth)
    uw := Function.update S.uw c (F.fl uw)
    ux := Function.update S.ux c ux
    uy := Function.update S.uy c uy }

/-- `self.Vp_res / 2.0 / self._dt / self._dx` (pyDeltaRCM/sed_tools.py 700, 759). -/
def halfRateRD (D : Rounding K) (P : Params L W m K) (res : K) : Except Fault K := do
  let a ← divD (D.fl (res / 2)) P.dt
  let b ← divD (D.fl a) P.dx
  pure (D.fl b)

/-- `_partition_sediment` (pyDeltaRCM/sed_tools.py 755-762), sand only. -/
def partitionSandRD (F D : Rounding K) (P : Params L W m K) (S : State L W K) (c0 c : Cell L W)
    (d : Fin 9) (res : K) : Except Fault (State L W K) := do
  let part ← halfRateRD D P res
  if stepDist P.s2 d > 0 then
    let qs1 := Function.update S.qs c0 (F.fl (D.fl (S.qs c0 + part)))
    pure { S with qs := Function.update qs1 c (F.fl (D.fl (qs1 c + part))) }
  else pure S

/-- The fields when the volume is determined (pyDeltaRCM/sed_tools.py 741 against 925-943). -/
def fieldsAtRD (F D : Rounding K) (k : Sed) (P : Params L W m K) (S : State L W K) (c0 c : Cell L W)
    (d : Fin 9) (res : K) : Except Fault (State L W K) :=
  match k with
  | .sand => partitionSandRD F D P S c0 c d res
  | .mud => pure S

/-- `_choose_next_location` (pyDeltaRCM/sed_tools.py 390-430): the direction. -/
def chooseNextRD [NeZero L] [NeZero W] (F D : Rounding K) (g : Rng K σ) (k : Sed) (P : Params L W m K)
    (st : SedSt L W K) (px py : ℤ) (s : σ) : Except Fault (Cell L W × Fin 9 × σ) :=
  match cellAt L W px py with
  | none => .error (.raised .index)
  | some c => do
    let w ← sedWeightsRD F st.padDepth (customPad P.modSed) (customPad P.cellType) st.S.qx st.S.qy P.s2
        P.s05 P.dryDepth (P.pwSed k) c
    let (r, s1) := g.next s
    match randomPickR F D w r with
    | none => .error (.raised .index)
    | some d => pure (c, d, s1)

/-- One pass of the loop of `_route_one_parcel` (pyDeltaRCM/sed_tools.py 733-746, 930-937). -/
def sedStepRD [NeZero L] [NeZero W] (F D : Rounding K) (g : Rng K σ) (k : Sed) (P : Params L W m K)
    (st : SedSt L W K) (px py : ℤ) (res : K) (s : σ) :
    Except Fault (SedSt L W K × K × SedRec L W K × σ) := do
  let (c0, d, s1) ← chooseNextRD F D g k P st px py s
  let px1 := px + jwalk d
  let py1 := py + iwalk d
  match pyCell L W px1 py1, pyCell (L + 2) (W + 2) (px1 + 1) (py1 + 1) with
  | some c, some cp => do
    let S1 ← fieldsAtRD F D k P st.S c0 c d res
    let v ← volumeChangeRD F D k P S1 c res
    let S2 := recordDepositR F D k S1 c v
    let S3 ← updateFieldsRD F D P S2 c v
    pure (⟨S3, Function.update st.padDepth cp (S3.depth c)⟩, F.fl (D.fl (res - v)),
      ⟨(px, py), d, (px1, py1), c0, c, res, v, S1, S3⟩, s1)
  | _, _ => .error (.raised .index)

/-- The loop of `_route_one_parcel` (pyDeltaRCM/sed_tools.py 730-753, 925-943) with `n` steps left. -/
def sedLoopRD [NeZero L] [NeZero W] (F D : Rounding K) (g : Rng K σ) (k : Sed) (P : Params L W m K) :
    ℕ → SedSt L W K → ℤ → ℤ → K → σ → Except Fault (SedSt L W K × K × List (SedRec L W K) × σ)
  | 0, _, _, _, _, _ => .error (.raised .diverge)
  | n + 1, st, px, py, res, s => do
    let (st1, res1, r, s1) ← sedStepRD F D g k P st px py res s
    if P.cellType r.cell = -1 ∨ n = 0 then pure (st1, res1, [r], s1)
    else do
      let (st2, res2, rs, s2) ← sedLoopRD F D g k P n st1 r.new.1 r.new.2 res1 s1
      pure (st2, res2, r :: rs, s2)

/-- The state in which a parcel begins (pyDeltaRCM/sed_tools.py 695-701, 916-921). -/
def enterStateRD (F D : Rounding K) (k : Sed) (P : Params L W m K) (st : SedSt L W K) (c : Cell L W) :
    Except Fault (SedSt L W K) :=
  match k with
  | .sand => do
    let half ← halfRateRD D P P.VpSed
    pure { st with S := { st.S with qs := Function.update st.S.qs c (F.fl (D.fl (st.S.qs c + half))) } }
  | .mud => pure st

/-- The loop over parcels of `run` (pyDeltaRCM/sed_tools.py 692-703, 915-923). -/
def sedParcelsRD [NeZero L] [NeZero W] (F D : Rounding K) (g : Rng K σ) (k : Sed) (P : Params L W m K) :
    List ℤ → SedSt L W K → σ → Except Fault (SedSt L W K × List (SedLog L W K) × σ)
  | [], st, s => .ok (st, [], s)
  | py :: pys, st, s =>
    match pyCell L W 0 py with
    | none => .error (.raised .index)
    | some c => do
      let st1 ← enterStateRD F D k P st c
      let (st2, res, rs, s1) ← sedLoopRD F D g k P P.stepmax st1 0 py P.VpSed s
      let (st3, logs, s2) ← sedParcelsRD F D g k P pys st2 s1
      pure (st3, ⟨c.2, rs, res⟩ :: logs, s2)

/-- `route_all_sand_parcels` and `route_all_mud_parcels` (pyDeltaRCM/sed_tools.py 96-228). -/
def routeParcelsRD [NeZero L] [NeZero W] [FloorRing K] (F D : Rounding K) (g : Rng K σ) (k : Sed)
    (P : Params L W m K) (S : State L W K) (s : σ) :
    Except Fault (State L W K × List (SedLog L W K) × σ) := do
  let inlet : Fin m → ℤ := fun i => ((P.inlet i).val : ℤ)
  let starts ← getStartIndicesRD D inlet (getInletWeights inlet : Fin m → K)
    (drawN g (numStartsR D k P) s).1
  let (st, logs, s2) ←
    sedParcelsRD F D g k P starts ⟨S, customPad S.depth⟩ (drawN g (numStartsR D k P) s).2
  pure (st.S, logs, s2)

/-- `route_sediment` (pyDeltaRCM/sed_tools.py 18-49). `topo_diffusion` has no division. -/
def routeSedimentRD [NeZero L] [NeZero W] [FloorRing K] (F D : Rounding K) (g : Rng K σ)
    (P : Params L W m K) (S : State L W K) (s : σ) :
    Except Fault (State L W K × List (SedLog L W K) × List (SedLog L W K) × σ) := do
  let (S1, sand, s1) ← routeParcelsRD F D g .sand (routerParams F P) (initSediment S) s
  let S2 := { S1 with eta := topoDiffusionR F D P.cellType P.diffMult S1.qs P.Ncross S1.eta }
  let (S3, mud, s2) ← routeParcelsRD F D g .mud (routerParams F P) S2 s1
  pure (S3, sand, mud, s2)

/-- `compute_sand_frac` (pyDeltaRCM/iteration_tools.py 184-230); the division is masked. -/
def computeSandFracRD (F : Rounding K) (P : Params L W m K) (eta0 : Grid L W K) (S : State L W K) :
    Except Fault (State L W K) := do
  let bot : Grid L W K := fun c => F.fl (eta0 c - F.fl P.actThick)
  let deg : Cell L W → Bool := fun c => decide (F.fl (S.eta c - eta0 c) < 0)
  let frac1 : Grid L W K :=
    if anyCell deg then
      let f := assign S.sandFrac (fun c => decide (S.eta c < bot c)) (fun _ => F.fl P.sandFracBc)
      assign f (fun c => deg c && decide (S.eta c ≥ bot c)) S.activeLayer
    else S.sandFrac
  let agg : Cell L W → Bool := fun c =>
    decide (S.depSand c > 0) || decide (S.depMud c > F.fl (1 / 1000000))
  let mixture ← allD fun c => if agg c then do
      let q ← divD (S.depSand c) (F.fl (S.depMud c + S.depSand c))
      pure (F.fl q)
    else pure 0
  pure { S with
    sandFrac := if anyCell agg then assign frac1 agg mixture else frac1
    activeLayer := if anyCell agg then assign S.activeLayer agg mixture else S.activeLayer }

/-- `finalize_timestep` (pyDeltaRCM/iteration_tools.py 87-115). -/
def finalizeTimestepRD [NeZero L] [NeZero W] (F D : Rounding K) (P : Params L W m K) (eta0 : Grid L W K)
    (S : State L W K) : Except Fault (State L W K) := do
  let stage1 := floodingCorrection S.eta S.depth S.stage (F.fl P.dryDepth)
  let stage2 : Grid L W K := fun c => max (stage1 c) (F.fl S.HSL)
  let depth1 : Grid L W K := fun c => max (F.fl (stage2 c - S.eta c)) 0
  let eta1 := assign S.eta (isInlet P.inlet) (fun c => F.fl (stage2 c - F.fl P.h0))
  let depth2 := assign depth1 (isInlet P.inlet) (fun _ => F.fl P.h0)
  let S1 ← computeSandFracRD F P eta0 { S with stage := stage2, depth := depth2, eta := eta1 }
  pure { S1 with HSL := D.fl (S1.HSL + D.fl (P.SLR * P.dt)) }

/-- The part of `update` before output (pyDeltaRCM/model.py 192-208), with
`solve_water_and_sediment_timestep` (pyDeltaRCM/iteration_tools.py 23-46) in line. -/
def timestepRD [NeZero L] [NeZero W] [FloorRing K] (F D : Rounding K) (g : Rng K σ) (P : Params L W m K)
    (S : State L W K) (s : σ) : Except Fault (State L W K × StepLog L W K × σ) := do
  let (S1, s1) ← routeWaterFromRD F D g P 0 P.itermax S s
  let (S2, sand, mud, s2) ← routeSedimentRD F D g P S1 s1
  let S3 ← finalizeTimestepRD F D P S.eta (applySubsidenceR F D P S2)
  pure ({ S3 with time := D.fl (S3.time + P.dt), timeIter := S3.timeIter + 1 }, ⟨S, S1, S2, sand, mud⟩, s2)

/-- A run: one timestep after the other. -/
def timestepsRD [NeZero L] [NeZero W] [FloorRing K] (F D : Rounding K) (g : Rng K σ) :
    List (Params L W m K) → State L W K → σ →
      Except Fault (State L W K × List (StepLog L W K) × σ)
  | [], S, s => .ok (S, [], s)
  | P :: Ps, S, s => do
    let (S1, l, s1) ← timestepRD F D g P S s
    let (S2, ls, s2) ← timestepsRD F D g Ps S1 s1
    pure (S2, l :: ls, s2)

end Verif.Model
