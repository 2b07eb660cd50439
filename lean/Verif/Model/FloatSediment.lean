import Verif.Model.FloatWeights
import Verif.Model.Sediment

/-!
# Routing of sand and mud parcels in rounded arithmetic

As `Model/Sediment`, with a rounding after each operation. The routers are compiled with fields of 32
bits (`r_spec`, pyDeltaRCM/sed_tools.py 315-360): an operation on two such numbers is rounded by `F`;
a division by the integer 4 or by the literal `2.0`, and all that is computed from the result, by `D`;
a number is rounded by `F` when it is stored in a field. `P.pwBeta` and `P.pwSed` are the powers as the
program computes them.
-/

namespace Verif.Model

variable {K : Type*} [Field K] [LinearOrder K] {σ : Type*} {L W m : ℕ}

/-- `weight_int` of `get_weight_sfc_int` (pyDeltaRCM/shared_tools.py 429). -/
def weightIntR (F : Rounding K) (qx qy : K) (s05 s2 : K) : Fin 9 → K := fun d =>
  max 0 (F.fl (F.fl (F.fl (qx * jvec s05 d) + F.fl (qy * ivec s05 d)) / distances s2 d))

/-- The weights computed in `_choose_next_location` (pyDeltaRCM/sed_tools.py 396-420). -/
def sedWeightsR (F : Rounding K) (padDepth padModS : Grid (L + 2) (W + 2) K)
    (padCellType : Grid (L + 2) (W + 2) ℤ) (qx qy : Grid L W K) (s2 s05 dryDepth : K) (pw : K → K)
    (c : Cell L W) : Except Err (Fin 9 → K) :=
  sedWeightAtCellR F (weightIntR F (qx c) (qy c) s05 s2) (padSlice padDepth c) (padSlice padModS c)
    (padSlice padCellType c) dryDepth pw (distances s2)

/-- `_limit_Vp_change` (pyDeltaRCM/sed_tools.py 544-561). -/
def limitChangeR (F D : Rounding K) (Vp stage eta dx : K) (ero : Bool) : K :=
  let depth := F.fl (stage - eta)
  if depth < 0 then
    if ero then min Vp (D.fl (D.fl (|depth| / 4) * F.fl (dx * dx))) else 0
  else min Vp (D.fl (D.fl (depth / 4) * F.fl (dx * dx)))

/-- `_compute_Vp_ero` (pyDeltaRCM/sed_tools.py 508-542). -/
def eroVolumeR (F : Rounding K) (pw : K → K) (Vp U Uero modEro : K) : K :=
  F.fl (F.fl (F.fl (modEro * Vp) * F.fl (pw U - pw Uero)) / pw Uero)

/-- `Vp_change` of `SandRouter._deposit_or_erode` (pyDeltaRCM/sed_tools.py 781-808). -/
def sandChangeR (F D : Rounding K) (P : Params L W m K) (S : State L W K) (c : Cell L W) (res : K) : K :=
  let U := S.uw c
  let qsCap := F.fl (F.fl (F.fl (P.qs0 * P.fCap) / P.pwBeta P.u0) * P.pwBeta U)
  let qsLoc := S.qs c
  if qsLoc > qsCap then limitChangeR F D res (S.stage c) (S.eta c) P.dx false
  else if U > P.UeroSand ∧ qsLoc < qsCap then
    limitChangeR F D (eroVolumeR F P.pwBeta P.VpSed U P.UeroSand (P.modErosion c)) (S.stage c) (S.eta c)
      P.dx true * -1
  else 0

/-- `Vp_change` of `MudRouter._deposit_or_erode` (pyDeltaRCM/sed_tools.py 952-975). -/
def mudChangeR (F D : Rounding K) (P : Params L W m K) (S : State L W K) (c : Cell L W) (res : K) : K :=
  let U := S.uw c
  let v1 : K :=
    if U < P.UdepMud then
      limitChangeR F D
        (F.fl (F.fl (F.fl (P.lam * res) * F.fl (P.pwBeta P.UdepMud - P.pwBeta U)) / P.pwBeta P.UdepMud))
        (S.stage c) (S.eta c) P.dx false
    else 0
  if U > P.UeroMud then
    limitChangeR F D (eroVolumeR F P.pwBeta P.VpSed U P.UeroMud (P.modErosion c)) (S.stage c) (S.eta c)
      P.dx true * -1
  else v1

/-- `Vp_change` of `_deposit_or_erode` for both kinds. -/
def volumeChangeR (F D : Rounding K) (k : Sed) (P : Params L W m K) (S : State L W K) (c : Cell L W)
    (res : K) : K :=
  match k with
  | .sand => sandChangeR F D P S c res
  | .mud => mudChangeR F D P S c res

/-- The deposit records after `_deposit_or_erode` (pyDeltaRCM/sed_tools.py 810-811, 977-978). -/
def recordDepositR (F D : Rounding K) (k : Sed) (S : State L W K) (c : Cell L W) (v : K) : State L W K :=
  if v > 0 then
    match k with
    | .sand => { S with depSand := Function.update S.depSand c (F.fl (D.fl (S.depSand c + v))) }
    | .mud => { S with depMud := Function.update S.depMud c (F.fl (D.fl (S.depMud c + v))) }
  else S

/-- `_update_fields` on the model fields (pyDeltaRCM/sed_tools.py 480-506). -/
def updateFieldsR (F D : Rounding K) (P : Params L W m K) (S : State L W K) (c : Cell L W) (v : K) :
    State L W K :=
  let eta := D.fl (S.eta c + D.fl (v / F.fl (P.dx * P.dx)))
  let depth := max 0 (D.fl (S.stage c - eta))
  let uw := if depth > 0 then min P.uMax (D.fl (S.qw c / depth)) else S.uw c
  { S with
    eta := Function.update S.eta c (F.fl eta)
    depth := Function.update S.depth c (F.fl depth)
    uw := Function.update S.uw c (F.fl uw)
    ux := Function.update S.ux c (if S.qw c > 0 then F.fl (D.fl (D.fl (uw * S.qx c) / S.qw c)) else 0)
    uy := Function.update S.uy c (if S.qw c > 0 then F.fl (D.fl (D.fl (uw * S.qy c) / S.qw c)) else 0) }

/-- `self.Vp_res / 2.0 / self._dt / self._dx` (pyDeltaRCM/sed_tools.py 700, 759). -/
def halfRateR (D : Rounding K) (P : Params L W m K) (res : K) : K :=
  D.fl (D.fl (D.fl (res / 2) / P.dt) / P.dx)

/-- `_partition_sediment` (pyDeltaRCM/sed_tools.py 755-762), sand only. -/
def partitionSandR (F D : Rounding K) (P : Params L W m K) (S : State L W K) (c0 c : Cell L W) (d : Fin 9)
    (res : K) : State L W K :=
  let part := halfRateR D P res
  if stepDist P.s2 d > 0 then
    let qs1 := Function.update S.qs c0 (F.fl (D.fl (S.qs c0 + part)))
    { S with qs := Function.update qs1 c (F.fl (D.fl (qs1 c + part))) }
  else S

/-- The fields when the volume is determined (pyDeltaRCM/sed_tools.py 741 against 925-943). -/
def fieldsAtR (F D : Rounding K) (k : Sed) (P : Params L W m K) (S : State L W K) (c0 c : Cell L W)
    (d : Fin 9) (res : K) : State L W K :=
  match k with
  | .sand => partitionSandR F D P S c0 c d res
  | .mud => S

/-- `_choose_next_location` (pyDeltaRCM/sed_tools.py 390-430): the direction. -/
def chooseNextR [NeZero L] [NeZero W] (F D : Rounding K) (g : Rng K σ) (k : Sed) (P : Params L W m K)
    (st : SedSt L W K) (px py : ℤ) (s : σ) : Except Err (Cell L W × Fin 9 × σ) :=
  match cellAt L W px py with
  | none => .error .index
  | some c =>
    match sedWeightsR F st.padDepth (customPad P.modSed) (customPad P.cellType) st.S.qx st.S.qy P.s2
        P.s05 P.dryDepth (P.pwSed k) c with
    | .error e => .error e
    | .ok w =>
      let (r, s1) := g.next s
      match randomPickR F D w r with
      | none => .error .index
      | some d => .ok (c, d, s1)

/-- One pass of the loop of `_route_one_parcel` (pyDeltaRCM/sed_tools.py 733-746, 930-937). -/
def sedStepR [NeZero L] [NeZero W] (F D : Rounding K) (g : Rng K σ) (k : Sed) (P : Params L W m K)
    (st : SedSt L W K) (px py : ℤ) (res : K) (s : σ) :
    Except Err (SedSt L W K × K × SedRec L W K × σ) :=
  match chooseNextR F D g k P st px py s with
  | .error e => .error e
  | .ok (c0, d, s1) =>
    let px1 := px + jwalk d
    let py1 := py + iwalk d
    match pyCell L W px1 py1, pyCell (L + 2) (W + 2) (px1 + 1) (py1 + 1) with
    | some c, some cp =>
      let S1 := fieldsAtR F D k P st.S c0 c d res
      let v := volumeChangeR F D k P S1 c res
      let S2 := recordDepositR F D k S1 c v
      let S3 := updateFieldsR F D P S2 c v
      .ok (⟨S3, Function.update st.padDepth cp (S3.depth c)⟩, F.fl (D.fl (res - v)),
        ⟨(px, py), d, (px1, py1), c0, c, res, v, S1, S3⟩, s1)
    | _, _ => .error .index

/-- The loop of `_route_one_parcel` (pyDeltaRCM/sed_tools.py 730-753, 925-943) with `n` steps left. -/
def sedLoopR [NeZero L] [NeZero W] (F D : Rounding K) (g : Rng K σ) (k : Sed) (P : Params L W m K) :
    ℕ → SedSt L W K → ℤ → ℤ → K → σ → Except Err (SedSt L W K × K × List (SedRec L W K) × σ)
  | 0, _, _, _, _, _ => .error .diverge
  | n + 1, st, px, py, res, s =>
    match sedStepR F D g k P st px py res s with
    | .error e => .error e
    | .ok (st1, res1, r, s1) =>
      if P.cellType r.cell = -1 ∨ n = 0 then .ok (st1, res1, [r], s1)
      else
        match sedLoopR F D g k P n st1 r.new.1 r.new.2 res1 s1 with
        | .error e => .error e
        | .ok (st2, res2, rs, s2) => .ok (st2, res2, r :: rs, s2)

/-- The sand flux that enters with a parcel (pyDeltaRCM/sed_tools.py 700). -/
def enterSandR (F D : Rounding K) (P : Params L W m K) (S : State L W K) (c : Cell L W) : State L W K :=
  { S with qs := Function.update S.qs c (F.fl (D.fl (S.qs c + halfRateR D P P.VpSed))) }

/-- The state in which a parcel begins (pyDeltaRCM/sed_tools.py 695-701, 916-921). -/
def enterStateR (F D : Rounding K) (k : Sed) (P : Params L W m K) (st : SedSt L W K) (c : Cell L W) :
    SedSt L W K :=
  match k with
  | .sand => { st with S := enterSandR F D P st.S c }
  | .mud => st

/-- The loop over parcels of `run` (pyDeltaRCM/sed_tools.py 692-703, 915-923). -/
def sedParcelsR [NeZero L] [NeZero W] (F D : Rounding K) (g : Rng K σ) (k : Sed) (P : Params L W m K) :
    List ℤ → SedSt L W K → σ → Except Err (SedSt L W K × List (SedLog L W K) × σ)
  | [], st, s => .ok (st, [], s)
  | py :: pys, st, s =>
    match pyCell L W 0 py with
    | none => .error .index
    | some c =>
      match sedLoopR F D g k P P.stepmax (enterStateR F D k P st c) 0 py P.VpSed s with
      | .error e => .error e
      | .ok (st2, res, rs, s1) =>
        match sedParcelsR F D g k P pys st2 s1 with
        | .error e => .error e
        | .ok (st3, logs, s2) => .ok (st3, ⟨c.2, rs, res⟩ :: logs, s2)

/-- The loop of `get_start_indices` (pyDeltaRCM/shared_tools.py 200-205); the weights are doubles. -/
def startLoopR (D : Rounding K) {n : ℕ} (inlet : Fin n → ℤ) (normW : Fin n → K) : List K → Option (List ℤ)
  | [] => some []
  | r :: rs =>
    match randomPickR D D normW r, startLoopR D inlet normW rs with
    | some k, some ks => some (inlet k :: ks)
    | _, _ => none

/-- `get_start_indices` (pyDeltaRCM/shared_tools.py 173-205), for the draws `draws`. -/
def getStartIndicesR (D : Rounding K) {n : ℕ} (inlet : Fin n → ℤ) (w : Fin n → K) (draws : List K) :
    Option (List ℤ) :=
  startLoopR D inlet (fun k => D.fl (w k / sumR D (List.ofFn w))) draws

/-- The number of parcels of a kind (pyDeltaRCM/sed_tools.py 118, 187). -/
def numStartsR [FloorRing K] (D : Rounding K) (k : Sed) (P : Params L W m K) : ℕ :=
  match k with
  | .sand => (truncInt (D.fl ((P.NpSed : K) * P.fBedload))).toNat
  | .mud => (truncInt (D.fl ((P.NpSed : K) * D.fl (1 - P.fBedload)))).toNat

/-- `route_all_sand_parcels` and `route_all_mud_parcels` (pyDeltaRCM/sed_tools.py 96-228). -/
def routeParcelsR [NeZero L] [NeZero W] [FloorRing K] (F D : Rounding K) (g : Rng K σ) (k : Sed)
    (P : Params L W m K) (S : State L W K) (s : σ) :
    Except Err (State L W K × List (SedLog L W K) × σ) :=
  let inlet : Fin m → ℤ := fun i => ((P.inlet i).val : ℤ)
  let (draws, s1) := drawN g (numStartsR D k P) s
  match getStartIndicesR D inlet (getInletWeights inlet : Fin m → K) draws with
  | none => .error .index
  | some starts =>
    match sedParcelsR F D g k P starts ⟨S, customPad S.depth⟩ s1 with
    | .error e => .error e
    | .ok (st, logs, s2) => .ok (st.S, logs, s2)

end Verif.Model
