import Verif.Model.State
import Verif.Model.WaterWalk

/-!
# Routing of sand and mud parcels

Model of the routers of `pyDeltaRCM/sed_tools.py` and of `route_all_sand_parcels`,
`route_all_mud_parcels`. The arrays of the routers are the arrays of the model (they are passed by
reference), so the routers work on the `State`; only `pad_depth` is their own.

Exact numbers replace 32-bit floats. `x ** beta` is `pwBeta`. A division by zero gives 0 here (an
error or an infinity in the code); theorems assume positive denominators where it matters.
-/

namespace Verif.Model

variable {K : Type*} [Field K] [LinearOrder K] {σ : Type*} {L W m : ℕ}

/-- The state of a router: model fields and `pad_depth`. -/
structure SedSt (L W : ℕ) (K : Type*) where
  S : State L W K
  padDepth : Grid (L + 2) (W + 2) K

/-- `_limit_Vp_change` (pyDeltaRCM/sed_tools.py 544-561); `ero` is `dep_ero == 1`. -/
def limitChange (Vp stage eta dx : K) (ero : Bool) : K :=
  let depth := stage - eta
  if depth < 0 then
    if ero then min Vp (|depth| / 4 * (dx * dx)) else 0
  else min Vp (depth / 4 * (dx * dx))

/-- `_compute_Vp_ero` (pyDeltaRCM/sed_tools.py 508-542). -/
def eroVolume (pw : K → K) (Vp U Uero modEro : K) : K := modEro * Vp * (pw U - pw Uero) / pw Uero

/-- `Vp_change` of `SandRouter._deposit_or_erode` (pyDeltaRCM/sed_tools.py 781-808). -/
def sandChange (P : Params L W m K) (S : State L W K) (c : Cell L W) (res : K) : K :=
  let U := S.uw c
  let qsCap := P.qs0 * P.fCap / P.pwBeta P.u0 * P.pwBeta U
  let qsLoc := S.qs c
  if qsLoc > qsCap then limitChange res (S.stage c) (S.eta c) P.dx false
  else if U > P.UeroSand ∧ qsLoc < qsCap then
    limitChange (eroVolume P.pwBeta P.VpSed U P.UeroSand (P.modErosion c)) (S.stage c) (S.eta c)
      P.dx true * -1
  else 0

/-- `Vp_change` of `MudRouter._deposit_or_erode` (pyDeltaRCM/sed_tools.py 952-975). -/
def mudChange (P : Params L W m K) (S : State L W K) (c : Cell L W) (res : K) : K :=
  let U := S.uw c
  let v1 : K :=
    if U < P.UdepMud then
      limitChange (P.lam * res * (P.pwBeta P.UdepMud - P.pwBeta U) / P.pwBeta P.UdepMud)
        (S.stage c) (S.eta c) P.dx false
    else 0
  if U > P.UeroMud then
    limitChange (eroVolume P.pwBeta P.VpSed U P.UeroMud (P.modErosion c)) (S.stage c) (S.eta c)
      P.dx true * -1
  else v1

/-- `Vp_change` of `_deposit_or_erode` for both kinds. -/
def volumeChange (k : Sed) (P : Params L W m K) (S : State L W K) (c : Cell L W) (res : K) : K :=
  match k with
  | .sand => sandChange P S c res
  | .mud => mudChange P S c res

/-- The deposit records after `_deposit_or_erode` (pyDeltaRCM/sed_tools.py 810-811, 977-978). -/
def recordDeposit (k : Sed) (S : State L W K) (c : Cell L W) (v : K) : State L W K :=
  if v > 0 then
    match k with
    | .sand => { S with depSand := Function.update S.depSand c (S.depSand c + v) }
    | .mud => { S with depMud := Function.update S.depMud c (S.depMud c + v) }
  else S

/-- `_update_fields` on the model fields (pyDeltaRCM/sed_tools.py 480-506). -/
def updateFields (P : Params L W m K) (S : State L W K) (c : Cell L W) (v : K) : State L W K :=
  let eta := S.eta c + v / (P.dx * P.dx)
  let depth := max 0 (S.stage c - eta)
  let uw := if depth > 0 then min P.uMax (S.qw c / depth) else S.uw c
  { S with
    eta := Function.update S.eta c eta
    depth := Function.update S.depth c depth
    uw := Function.update S.uw c uw
    ux := Function.update S.ux c (if S.qw c > 0 then uw * S.qx c / S.qw c else 0)
    uy := Function.update S.uy c (if S.qw c > 0 then uw * S.qy c / S.qw c else 0) }

/-- `_partition_sediment` (pyDeltaRCM/sed_tools.py 755-762), sand only. -/
def partitionSand (P : Params L W m K) (S : State L W K) (c0 c : Cell L W) (d : Fin 9) (res : K) :
    State L W K :=
  let part := res / 2 / P.dt / P.dx
  if stepDist P.s2 d > 0 then
    let qs1 := Function.update S.qs c0 (S.qs c0 + part)
    { S with qs := Function.update qs1 c (qs1 c + part) }
  else S

/-- The fields when the volume is determined: only sand is partitioned between the cells
(pyDeltaRCM/sed_tools.py 741 against 925-943). -/
def fieldsAt (k : Sed) (P : Params L W m K) (S : State L W K) (c0 c : Cell L W) (d : Fin 9)
    (res : K) : State L W K :=
  match k with
  | .sand => partitionSand P S c0 c d res
  | .mud => S

/-- An index pair inside the array, without wrapping. -/
def cellAt (L W : ℕ) (px py : ℤ) : Option (Cell L W) :=
  if h : (0 ≤ px ∧ px < L) ∧ (0 ≤ py ∧ py < W) then
    some (⟨px.toNat, by omega⟩, ⟨py.toNat, by omega⟩)
  else none

/-- What one parcel did in one step. Ghost information: used only to state properties. -/
structure SedRec (L W : ℕ) (K : Type*) where
  /-- index pair before the step -/
  old : ℤ × ℤ
  /-- direction chosen -/
  dir : Fin 9
  /-- index pair after the step -/
  new : ℤ × ℤ
  /-- cell addressed by the index pair before the step -/
  from_ : Cell L W
  /-- cell addressed by the index pair after the step -/
  cell : Cell L W
  /-- volume carried before the step -/
  res : K
  /-- volume deposited (positive) or eroded (negative) -/
  change : K
  /-- the fields when the volume was determined -/
  before : State L W K
  /-- the fields after the step -/
  after : State L W K

/-- `_choose_next_location` (pyDeltaRCM/sed_tools.py 390-430): the direction. A choice from an
index pair outside of the array (where the slices of the code are not 3 × 3) is an error. -/
def chooseNext [NeZero L] [NeZero W] (g : Rng K σ) (k : Sed) (P : Params L W m K) (st : SedSt L W K)
    (px py : ℤ) (s : σ) : Except Err (Cell L W × Fin 9 × σ) :=
  match cellAt L W px py with
  | none => .error .index
  | some c =>
    match sedWeights st.padDepth (customPad P.modSed) (customPad P.cellType) st.S.qx st.S.qy P.s2
        P.s05 P.dryDepth (P.pwSed k) c with
    | .error e => .error e
    | .ok w =>
      let (r, s1) := g.next s
      match randomPick w r with
      | none => .error .index
      | some d => .ok (c, d, s1)

/-- One pass of the loop of `_route_one_parcel` (pyDeltaRCM/sed_tools.py 733-746, 930-937). -/
def sedStep [NeZero L] [NeZero W] (g : Rng K σ) (k : Sed) (P : Params L W m K) (st : SedSt L W K)
    (px py : ℤ) (res : K) (s : σ) : Except Err (SedSt L W K × K × SedRec L W K × σ) :=
  match chooseNext g k P st px py s with
  | .error e => .error e
  | .ok (c0, d, s1) =>
    let px1 := px + jwalk d
    let py1 := py + iwalk d
    match pyCell L W px1 py1, pyCell (L + 2) (W + 2) (px1 + 1) (py1 + 1) with
    | some c, some cp =>
      let S1 := fieldsAt k P st.S c0 c d res
      let v := volumeChange k P S1 c res
      let S2 := recordDeposit k S1 c v
      let S3 := updateFields P S2 c v
      .ok (⟨S3, Function.update st.padDepth cp (S3.depth c)⟩, res - v,
        ⟨(px, py), d, (px1, py1), c0, c, res, v, S1, S3⟩, s1)
    | _, _ => .error .index

/-- The loop of `_route_one_parcel` (pyDeltaRCM/sed_tools.py 730-753, 925-943) with `n` steps left
before `it == stepmax`. With no steps left at the start the counter of the code never meets
`stepmax`: the error `diverge`. -/
def sedLoop [NeZero L] [NeZero W] (g : Rng K σ) (k : Sed) (P : Params L W m K) :
    ℕ → SedSt L W K → ℤ → ℤ → K → σ → Except Err (SedSt L W K × K × List (SedRec L W K) × σ)
  | 0, _, _, _, _, _ => .error .diverge
  | n + 1, st, px, py, res, s =>
    match sedStep g k P st px py res s with
    | .error e => .error e
    | .ok (st1, res1, r, s1) =>
      if P.cellType r.cell = -1 ∨ n = 0 then .ok (st1, res1, [r], s1)
      else
        match sedLoop g k P n st1 r.new.1 r.new.2 res1 s1 with
        | .error e => .error e
        | .ok (st2, res2, rs, s2) => .ok (st2, res2, r :: rs, s2)

/-- The sand flux that enters with a parcel (pyDeltaRCM/sed_tools.py 700). -/
def enterSand (P : Params L W m K) (S : State L W K) (c : Cell L W) : State L W K :=
  { S with qs := Function.update S.qs c (S.qs c + P.VpSed / 2 / P.dt / P.dx) }

/-- The state in which a parcel begins (pyDeltaRCM/sed_tools.py 695-701, 916-921). -/
def enterState (k : Sed) (P : Params L W m K) (st : SedSt L W K) (c : Cell L W) : SedSt L W K :=
  match k with
  | .sand => { st with S := enterSand P st.S c }
  | .mud => st

/-- What a parcel did, from entry to end. Ghost information. -/
structure SedLog (L W : ℕ) (K : Type*) where
  start : Fin W
  steps : List (SedRec L W K)
  /-- volume carried at the end -/
  left : K

/-- The loop over parcels of `run` (pyDeltaRCM/sed_tools.py 692-703, 915-923). -/
def sedParcels [NeZero L] [NeZero W] (g : Rng K σ) (k : Sed) (P : Params L W m K) :
    List ℤ → SedSt L W K → σ → Except Err (SedSt L W K × List (SedLog L W K) × σ)
  | [], st, s => .ok (st, [], s)
  | py :: pys, st, s =>
    match pyCell L W 0 py with
    | none => .error .index
    | some c =>
      match sedLoop g k P P.stepmax (enterState k P st c) 0 py P.VpSed s with
      | .error e => .error e
      | .ok (st2, res, rs, s1) =>
        match sedParcels g k P pys st2 s1 with
        | .error e => .error e
        | .ok (st3, logs, s2) => .ok (st3, ⟨c.2, rs, res⟩ :: logs, s2)

/-- The number of parcels of a kind (pyDeltaRCM/sed_tools.py 118, 187). -/
def numStarts [FloorRing K] (k : Sed) (P : Params L W m K) : ℕ :=
  match k with
  | .sand => (truncInt ((P.NpSed : K) * P.fBedload)).toNat
  | .mud => (truncInt ((P.NpSed : K) * (1 - P.fBedload))).toNat

/-- `route_all_sand_parcels` and `route_all_mud_parcels` (pyDeltaRCM/sed_tools.py 96-228). A
negative number of parcels (an error of `np.zeros`) is treated as none. -/
def routeParcels [NeZero L] [NeZero W] [FloorRing K] (g : Rng K σ) (k : Sed) (P : Params L W m K)
    (S : State L W K) (s : σ) : Except Err (State L W K × List (SedLog L W K) × σ) :=
  let inlet : Fin m → ℤ := fun i => ((P.inlet i).val : ℤ)
  let (draws, s1) := drawN g (numStarts k P) s
  match getStartIndices inlet (getInletWeights inlet : Fin m → K) draws with
  | none => .error .index
  | some starts =>
    match sedParcels g k P starts ⟨S, customPad S.depth⟩ s1 with
    | .error e => .error e
    | .ok (st, logs, s2) => .ok (st.S, logs, s2)

/-- `arr[i, j]` with zero outside (`mode="constant"`). -/
def at0 (arr : Grid L W K) (i j : ℤ) : K :=
  match cellAt L W i j with
  | some c => arr c
  | none => 0

/-- `ndimage.convolve(arr, kernel, mode="constant")` for a 3 × 3 kernel given row by row. -/
def convolve (kernel : Fin 9 → K) (arr : Grid L W K) : Grid L W K := fun c =>
  ∑ d : Fin 9, kernel d * at0 arr ((c.1.val : ℤ) - ((d.val / 3 : ℕ) - 1))
    ((c.2.val : ℤ) - ((d.val % 3 : ℕ) - 1))

/-- `kernel1` (pyDeltaRCM/init_tools.py 388). -/
def kernel1 : Fin 9 → K := ![1, 1, 1, 1, -8, 1, 1, 1, 1]

/-- `kernel2` (pyDeltaRCM/init_tools.py 390). -/
def kernel2 : Fin 9 → K := ![1, 1, 1, 1, 0, 1, 1, 1, 1]

/-- `cf` of one pass of `topo_diffusion` (pyDeltaRCM/sed_tools.py 236-244). -/
def diffusionChange (cellType : Grid L W ℤ) (mult : K) (qs eta : Grid L W K) : Grid L W K :=
  let a := convolve kernel1 eta
  let b := convolve kernel2 qs
  let c := convolve kernel2 (fun x => qs x * eta x)
  let cf : Grid L W K := fun x => mult * (qs x * a x - eta x * b x + c x)
  let cf1 := assign cf (fun x => decide (cellType x = -2)) (fun _ => 0)
  assign cf1 (fun x => decide (x.1.val = 0)) (fun _ => 0)

/-- `topo_diffusion` (pyDeltaRCM/sed_tools.py 230-246), `n` passes. -/
def topoDiffusion (cellType : Grid L W ℤ) (mult : K) (qs : Grid L W K) :
    ℕ → Grid L W K → Grid L W K
  | 0, eta => eta
  | n + 1, eta =>
    topoDiffusion cellType mult qs n (fun x => eta x + diffusionChange cellType mult qs eta x)

/-- `init_sediment_iteration` (pyDeltaRCM/sed_tools.py 63-77). The field `pad_depth` set there is
not read before the routers replace it. -/
def initSediment (S : State L W K) : State L W K :=
  { S with qs := fun _ => 0, depSand := fun _ => 0, depMud := fun _ => 0 }

/-- `route_sediment` (pyDeltaRCM/sed_tools.py 18-49): sand, diffusion, mud. The logs of the sand and
the mud parcels are ghost information. -/
def routeSediment [NeZero L] [NeZero W] [FloorRing K] (g : Rng K σ) (P : Params L W m K)
    (S : State L W K) (s : σ) :
    Except Err (State L W K × List (SedLog L W K) × List (SedLog L W K) × σ) :=
  match routeParcels g .sand P (initSediment S) s with
  | .error e => .error e
  | .ok (S1, sand, s1) =>
    let S2 := { S1 with eta := topoDiffusion P.cellType P.diffMult S1.qs P.Ncross S1.eta }
    match routeParcels g .mud P S2 s1 with
    | .error e => .error e
    | .ok (S3, mud, s2) => .ok (S3, sand, mud, s2)

end Verif.Model
