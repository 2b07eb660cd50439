import Verif.Model.Grid
import Verif.Model.Err

/-!
# Routing weights of water and sediment parcels

Model of `get_weight_sfc_int` (`pyDeltaRCM/shared_tools.py`), `_get_weight_at_cell_water`,
`_get_water_weight_array` (`pyDeltaRCM/water_tools.py`), `_get_weight_at_cell_sediment` and the
weight part of `_choose_next_location` (`pyDeltaRCM/sed_tools.py`).

`x ** theta` is the parameter `pw : K → K`. NaN checks are left out: exact arithmetic has no NaN.
-/

namespace Verif.Model

variable {K : Type*} [Field K] [LinearOrder K]

/-- `distances_flat` (pyDeltaRCM/init_tools.py 360-362, 379); `s2` stands for `np.sqrt(2)`. -/
def distances (s2 : K) : Fin 9 → K := ![s2, 1, s2, 1, 1, 1, s2, 1, s2]

/-- `ivec_flat` (pyDeltaRCM/init_tools.py 363-366, 380); `s05` stands for `np.sqrt(0.5)`. -/
def ivec (s05 : K) : Fin 9 → K := ![-s05, 0, s05, -1, 0, 1, -s05, 0, s05]

/-- `jvec_flat` (pyDeltaRCM/init_tools.py 367-370, 381). -/
def jvec (s05 : K) : Fin 9 → K := ![-s05, -1, -s05, 0, 0, 0, s05, 1, s05]

/-- `weight_sfc` of `get_weight_sfc_int` (pyDeltaRCM/shared_tools.py 428). -/
def weightSfc (stage : K) (stageN : Fin 9 → K) (s2 : K) : Fin 9 → K :=
  fun d => max 0 ((stage - stageN d) / distances s2 d)

/-- `weight_int` of `get_weight_sfc_int` (pyDeltaRCM/shared_tools.py 429). -/
def weightInt (qx qy : K) (s05 s2 : K) : Fin 9 → K :=
  fun d => max 0 ((qx * jvec s05 d + qy * ivec s05 d) / distances s2 d)

/-- `if np.sum(w) > 0: w = w / np.sum(w)` (pyDeltaRCM/water_tools.py 654-657). -/
def rebalance (w : Fin 9 → K) : Fin 9 → K :=
  if 0 < ∑ d, w d then fun d => w d / ∑ e, w e else w

/-- `_get_weight_at_cell_water` (pyDeltaRCM/water_tools.py 614-708). `row0` is `ind[0] == 0`.
The branches on `np.sum(weight)` are in the order of the code. -/
def waterWeightAtCell (row0 : Bool) (wSfc wInt depthN modN : Fin 9 → K) (ctN : Fin 9 → ℤ)
    (dryDepth gamma : K) (pw : K → K) : Except Err (Fin 9 → K) :=
  let dry : Fin 9 → Bool := fun d => decide (depthN d < dryDepth)
  let wall : Fin 9 → Bool := fun d => decide (ctN d = -2)
  let ctr : Fin 9 → Bool := fun d => decide (d = 4)
  let drywall : Fin 9 → Bool := fun d => dry d || wall d
  let invalid : Fin 9 → Bool := fun d => (wall d || ctr d) || (row0 && decide (d.val < 3))
  let sfc1 : Fin 9 → K := fun d => if ctr d then 0 else if drywall d then 0 else wSfc d
  let int1 : Fin 9 → K := fun d => if ctr d then 0 else if drywall d then 0 else wInt d
  let sfc2 := rebalance sfc1
  let int2 := rebalance int1
  let weight1 : Fin 9 → K := fun d => gamma * sfc2 d + (1 - gamma) * int2 d
  let weight2 : Fin 9 → K := fun d => pw (depthN d * modN d) * weight1 d
  let weight : Fin 9 → K := fun d => if ctr d then 0 else weight2 d
  if 0 < ∑ d, weight d then .ok (fun d => weight d / ∑ e, weight e)
  else if ∑ d, weight d = 0 then
    if wall 4 then .ok (fun _ => 0)
    else
      let wetvalid : Fin 9 → Bool := fun d => !dry d && !invalid d
      let nwetvalid : ℕ := (Finset.univ.filter (fun d => wetvalid d = true)).card
      if 0 < nwetvalid then
        let w : Fin 9 → K := fun d => if wetvalid d then 1 / (nwetvalid : K) else 0
        .ok (fun d => w d / ∑ e, w e)
      else
        let nnotwall : ℕ := (Finset.univ.filter (fun d => (!wall d) = true)).card
        if 0 < nnotwall then
          let w : Fin 9 → K := fun d => if !wall d then 1 / (nnotwall : K) else 0
          .ok (fun d => w d / ∑ e, w e)
        else .error .waterNoNonWall
  else .error .waterNegativeSum

/-- `_get_weight_at_cell_sediment` (pyDeltaRCM/sed_tools.py 249-312). -/
def sedWeightAtCell (wInt depthN modN : Fin 9 → K) (ctN : Fin 9 → ℤ) (dryDepth : K)
    (pw : K → K) (dist : Fin 9 → K) : Except Err (Fin 9 → K) :=
  let dry : Fin 9 → Bool := fun d => decide (depthN d ≤ dryDepth)
  let wall : Fin 9 → Bool := fun d => decide (ctN d = -2)
  let ctr : Fin 9 → Bool := fun d => decide (d = 4)
  let drywall : Fin 9 → Bool := fun d => dry d || wall d
  let int1 : Fin 9 → K := fun d => if ctr d then 0 else wInt d
  let weight1 : Fin 9 → K := fun d => pw (depthN d * modN d) * int1 d
  let weight2 : Fin 9 → K := fun d => if drywall d then 0 else if ctr d then 0 else weight1 d
  let weight3 : Fin 9 → K :=
    if ∑ d, weight2 d = 0 then fun d => if wall d then 0 else 1 / dist d else weight2
  let weight : Fin 9 → K := fun d => if ctr d then 0 else weight3 d
  if ∑ d, weight d = 0 then .error .sedNoWeights
  else .ok (fun d => weight d / ∑ e, weight e)

/-- One cell of `_get_water_weight_array` (pyDeltaRCM/water_tools.py 711-782): the padded
neighbourhoods and the two surfaces are passed to the cell function. -/
def waterWeights {L W : ℕ} [NeZero L] [NeZero W] (depth stage modW : Grid L W K)
    (cellType : Grid L W ℤ) (qx qy : Grid L W K) (s2 s05 dryDepth gamma : K) (pw : K → K)
    (c : Cell L W) : Except Err (Fin 9 → K) :=
  waterWeightAtCell (decide (c.1.val = 0)) (weightSfc (stage c) (nbrs stage c) s2)
    (weightInt (qx c) (qy c) s05 s2) (nbrs depth c) (nbrs modW c) (nbrs cellType c)
    dryDepth gamma pw

/-- The weights computed in `_choose_next_location` (pyDeltaRCM/sed_tools.py 396-420) from the
padded fields. -/
def sedWeights {L W : ℕ} (padDepth padModS : Grid (L + 2) (W + 2) K)
    (padCellType : Grid (L + 2) (W + 2) ℤ) (qx qy : Grid L W K) (s2 s05 dryDepth : K) (pw : K → K)
    (c : Cell L W) : Except Err (Fin 9 → K) :=
  sedWeightAtCell (weightInt (qx c) (qy c) s05 s2) (padSlice padDepth c) (padSlice padModS c)
    (padSlice padCellType c) dryDepth pw (distances s2)

end Verif.Model
