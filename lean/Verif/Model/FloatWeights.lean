import Verif.Model.Float
import Verif.Model.Pick
import Verif.Model.Weights

/-!
# Routing weights and random choice in rounded arithmetic

As `Model/Weights` and `Model/Pick`, with a rounding after each operation. Sums are taken from the
left.
-/

namespace Verif.Model

variable {K : Type*} [Field K] [LinearOrder K]

/-- `np.sum` of an array. -/
def sumR (R : Rounding K) (l : List K) : K := l.foldl (fun a x => R.fl (a + x)) 0

/-- `if np.sum(w) > 0: w = w / np.sum(w)` (pyDeltaRCM/water_tools.py 654-657). -/
def rebalanceR (R : Rounding K) (w : Fin 9 → K) : Fin 9 → K :=
  if 0 < sumR R (List.ofFn w) then fun d => R.fl (w d / sumR R (List.ofFn w)) else w

/-- `_get_weight_at_cell_water` (pyDeltaRCM/water_tools.py 614-708); `pw` gives rounded powers. -/
def waterWeightAtCellR (R : Rounding K) (row0 : Bool) (wSfc wInt depthN modN : Fin 9 → K)
    (ctN : Fin 9 → ℤ) (dryDepth gamma : K) (pw : K → K) : Except Err (Fin 9 → K) :=
  let dry : Fin 9 → Bool := fun d => decide (depthN d < dryDepth)
  let wall : Fin 9 → Bool := fun d => decide (ctN d = -2)
  let ctr : Fin 9 → Bool := fun d => decide (d = 4)
  let drywall : Fin 9 → Bool := fun d => dry d || wall d
  let invalid : Fin 9 → Bool := fun d => (wall d || ctr d) || (row0 && decide (d.val < 3))
  let sfc1 : Fin 9 → K := fun d => if ctr d then 0 else if drywall d then 0 else wSfc d
  let int1 : Fin 9 → K := fun d => if ctr d then 0 else if drywall d then 0 else wInt d
  let sfc2 := rebalanceR R sfc1
  let int2 := rebalanceR R int1
  let weight1 : Fin 9 → K := fun d =>
    R.fl (R.fl (gamma * sfc2 d) + R.fl (R.fl (1 - gamma) * int2 d))
  let weight2 : Fin 9 → K := fun d => R.fl (pw (R.fl (depthN d * modN d)) * weight1 d)
  let weight : Fin 9 → K := fun d => if ctr d then 0 else weight2 d
  if 0 < sumR R (List.ofFn weight) then .ok (fun d => R.fl (weight d / sumR R (List.ofFn weight)))
  else if sumR R (List.ofFn weight) = 0 then
    if wall 4 then .ok (fun _ => 0)
    else
      let wetvalid : Fin 9 → Bool := fun d => !dry d && !invalid d
      let nwetvalid : ℕ := (Finset.univ.filter (fun d => wetvalid d = true)).card
      if 0 < nwetvalid then
        let w : Fin 9 → K := fun d => if wetvalid d then R.fl (1 / (nwetvalid : K)) else 0
        .ok (fun d => R.fl (w d / sumR R (List.ofFn w)))
      else
        let nnotwall : ℕ := (Finset.univ.filter (fun d => (!wall d) = true)).card
        if 0 < nnotwall then
          let w : Fin 9 → K := fun d => if !wall d then R.fl (1 / (nnotwall : K)) else 0
          .ok (fun d => R.fl (w d / sumR R (List.ofFn w)))
        else .error .waterNoNonWall
  else .error .waterNegativeSum

/-- `_get_weight_at_cell_sediment` (pyDeltaRCM/sed_tools.py 249-312). -/
def sedWeightAtCellR (R : Rounding K) (wInt depthN modN : Fin 9 → K) (ctN : Fin 9 → ℤ) (dryDepth : K)
    (pw : K → K) (dist : Fin 9 → K) : Except Err (Fin 9 → K) :=
  let dry : Fin 9 → Bool := fun d => decide (depthN d ≤ dryDepth)
  let wall : Fin 9 → Bool := fun d => decide (ctN d = -2)
  let ctr : Fin 9 → Bool := fun d => decide (d = 4)
  let drywall : Fin 9 → Bool := fun d => dry d || wall d
  let int1 : Fin 9 → K := fun d => if ctr d then 0 else wInt d
  let weight1 : Fin 9 → K := fun d => R.fl (pw (R.fl (depthN d * modN d)) * int1 d)
  let weight2 : Fin 9 → K := fun d => if drywall d then 0 else if ctr d then 0 else weight1 d
  let weight3 : Fin 9 → K :=
    if sumR R (List.ofFn weight2) = 0 then fun d => if wall d then 0 else R.fl (1 / dist d) else weight2
  let weight : Fin 9 → K := fun d => if ctr d then 0 else weight3 d
  if sumR R (List.ofFn weight) = 0 then .error .sedNoWeights
  else .ok (fun d => R.fl (weight d / sumR R (List.ofFn weight)))

/-- `np.cumsum` with a starting value. -/
def cumsumFromR (R : Rounding K) (acc : K) : List K → List K
  | [] => []
  | x :: xs => R.fl (acc + x) :: cumsumFromR R (R.fl (acc + x)) xs

/-- `random_pick` (pyDeltaRCM/shared_tools.py 223-240) with generator output `r`. The sums are rounded
as the weights are (`R`), the draw is a double (`D`): numbers of sediment weights have 24 digits. -/
def randomPickR (R D : Rounding K) {n : ℕ} (prob : Fin n → K) (r : K) : Option (Fin n) :=
  let cumprob := cumsumFromR R 0 (List.ofFn prob)
  match cumprob.getLast? with
  | none => none
  | some tot =>
    let k := searchsortedLeft cumprob (D.fl (0 + D.fl (D.fl (tot - 0) * r)))
    if h : k < n then some ⟨k, h⟩ else none

end Verif.Model
