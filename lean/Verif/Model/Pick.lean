import Verif.Model.Grid

/-!
# Weighted random choice and parcel start cells
-/

namespace Verif.Model

variable {K : Type*} [Field K] [LinearOrder K]

/-- `np.cumsum` with a starting value. -/
def cumsumFrom (acc : K) : List K → List K
  | [] => []
  | x :: xs => (acc + x) :: cumsumFrom (acc + x) xs

/-- `np.searchsorted(a, v)` (side left): the number of leading entries smaller than `v`.
For a sorted array this is the first position whose entry is at least `v`. -/
def searchsortedLeft (a : List K) (v : K) : ℕ := (a.takeWhile (fun x => decide (x < v))).length

/-- `get_random_uniform(limit)` (pyDeltaRCM/shared_tools.py 107-146): the generator gives
`r ∈ [0, 1)` and the result is `0 + (limit - 0) * r`. -/
def getRandomUniform (limit r : K) : K := 0 + (limit - 0) * r

/-- `random_pick` (pyDeltaRCM/shared_tools.py 223-240) with generator output `r`.
`none` is the out-of-range read `arr[len(prob)]` (or an empty array). -/
def randomPick {n : ℕ} (prob : Fin n → K) (r : K) : Option (Fin n) :=
  let cumprob := cumsumFrom 0 (List.ofFn prob)
  match cumprob.getLast? with
  | none => none
  | some tot =>
    let k := searchsortedLeft cumprob (getRandomUniform tot r)
    if h : k < n then some ⟨k, h⟩ else none

/-- `get_inlet_weights` (pyDeltaRCM/shared_tools.py 149-170): ones. -/
def getInletWeights {m : ℕ} (_inlet : Fin m → ℤ) : Fin m → K := fun _ => 1

/-- The loop of `get_start_indices` (pyDeltaRCM/shared_tools.py 200-205): one pick per draw. -/
def startLoop {m : ℕ} (inlet : Fin m → ℤ) (normW : Fin m → K) : List K → Option (List ℤ)
  | [] => some []
  | r :: rs =>
    match randomPick normW r, startLoop inlet normW rs with
    | some k, some ks => some (inlet k :: ks)
    | _, _ => none

/-- `get_start_indices` (pyDeltaRCM/shared_tools.py 173-205). `draws` holds the generator
outputs, `num_starts = draws.length`. -/
def getStartIndices {m : ℕ} (inlet : Fin m → ℤ) (w : Fin m → K) (draws : List K) :
    Option (List ℤ) :=
  let total := (List.ofFn w).sum
  startLoop inlet (fun k => w k / total) draws

end Verif.Model
