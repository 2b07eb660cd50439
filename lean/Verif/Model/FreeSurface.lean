import Verif.Model.Grid
import Verif.Model.Err

/-!
# The water surface

Model of `_accumulate_free_surface_walks`, `compute_free_surface`, `_smooth_free_surface`,
`finalize_free_surface`, `build_weight_array`, `get_wet_mask_nh`, `flooding_correction` and the
surface part of `finalize_water_iteration` (`pyDeltaRCM/water_tools.py`).
-/

namespace Verif.Model

variable {K : Type*} [Field K] [LinearOrder K]

/-- The arguments of `_accumulate_free_surface_walks` that do not change
(pyDeltaRCM/water_tools.py 1017-1030). -/
structure SfcEnv (L W : ℕ) (K : Type*) where
  cellType : Grid L W ℤ
  uw : Grid L W K
  ux : Grid L W K
  uy : Grid L W K
  depth : Grid L W K
  dx : K
  u0 : K
  h0 : K
  HSL : K
  S0 : K

/-- `sfc_visit` and `sfc_sum` (pyDeltaRCM/water_tools.py 1064-1065). -/
structure SfcAcc (L W : ℕ) (K : Type*) where
  visit : Grid L W K
  sum : Grid L W K

/-- The variables of the loop over one walk: `Hnew`, `in_ocean`, `dH` and the accumulators. -/
structure SfcState (L W : ℕ) (K : Type*) where
  hnew : Grid L W K
  inOcean : Bool
  dH : K
  acc : SfcAcc L W K

/-- The positions of one walk (pyDeltaRCM/water_tools.py 1071-1075): the entries above zero,
unravelled. Cell reads outside of the arrays (which numba does not check) are the error `index`. -/
def walkCells (L W : ℕ) : List ℤ → Except Err (List (Cell L W))
  | [] => .ok []
  | i :: is =>
    if i > 0 then
      match customUnravel i ((L : ℤ), (W : ℤ)) with
      | .error _ => .error .index
      | .ok (x, y) =>
        match pyCell L W x y, walkCells L W is with
        | some c, .ok cs => .ok (c :: cs)
        | _, _ => .error .index
    else walkCells L W is

/-- The body of the backward loop (pyDeltaRCM/water_tools.py 1087-1118) for the cell `c` with the
cell `nx` after it on the walk. -/
def backStep {L W : ℕ} (E : SfcEnv L W K) (nx c : Cell L W) (s : SfcState L W K) :
    SfcState L W K :=
  let s1 : SfcState L W K :=
    if c.1 ≠ nx.1 ∨ c.2 ≠ nx.2 then
      if s.inOcean then
        if E.uw c > E.u0 * (1 / 2) ∨ E.depth c < (1 / 10) * E.h0 then { s with inOcean := false }
        else s
      else if E.uw c = 0 then { s with dH := 0 }
      else { s with
        dH := E.S0 * (E.ux c * ((nx.1.val : K) - (c.1.val : K)) * E.dx
                + E.uy c * ((nx.2.val : K) - (c.2.val : K)) * E.dx) / E.uw c }
    else s
  let h := s1.hnew nx + s1.dH
  { s1 with
    hnew := Function.update s1.hnew c h
    acc := {
      visit := Function.update s1.acc.visit c (s1.acc.visit c + 1)
      sum := Function.update s1.acc.sum c (s1.acc.sum c + h) } }

/-- The backward loop (pyDeltaRCM/water_tools.py 1087-1118). The list holds the cells before `nx`,
last one first. -/
def backWalk {L W : ℕ} (E : SfcEnv L W K) (nx : Cell L W) :
    List (Cell L W) → SfcState L W K → SfcState L W K
  | [], s => s
  | c :: cs, s => backWalk E c cs (backStep E nx c s)

/-- One parcel of `_accumulate_free_surface_walks` (pyDeltaRCM/water_tools.py 1069-1118). A walk
without entries gives the error `index` (the code reads `xs[-1]` of an empty array). -/
def sfcParcel {L W : ℕ} (E : SfcEnv L W K) (walk : List ℤ) (flag : Bool) (a : SfcAcc L W K) :
    Except Err (SfcAcc L W K) :=
  match walkCells L W walk with
  | .error e => .error e
  | .ok cs =>
    match cs.reverse with
    | [] => .error .index
    | last :: rest =>
      if E.cellType last = -1 ∧ flag = true then
        .ok (backWalk E last rest
          ⟨Function.update (fun _ => 0) last E.HSL, true, 0, a⟩).acc
      else .ok a

/-- `_accumulate_free_surface_walks` (pyDeltaRCM/water_tools.py 1016-1120): all parcels in order,
each given by its walk and its flag. -/
def sfcParcels {L W : ℕ} (E : SfcEnv L W K) :
    List (List ℤ × Bool) → SfcAcc L W K → Except Err (SfcAcc L W K)
  | [], a => .ok a
  | (walk, flag) :: ps, a =>
    match sfcParcel E walk flag a with
    | .error e => .error e
    | .ok a1 => sfcParcels E ps a1

/-- `_accumulate_free_surface_walks` from zero arrays (pyDeltaRCM/water_tools.py 1063-1066). -/
def accumulateFreeSurface {L W : ℕ} (E : SfcEnv L W K) (ps : List (List ℤ × Bool)) :
    Except Err (SfcAcc L W K) :=
  sfcParcels E ps ⟨fun _ => 0, fun _ => 0⟩

/-- `Hnew` of `compute_free_surface` (pyDeltaRCM/water_tools.py 281-295), pointwise and in the
order of the code. -/
def computeHnew {L W : ℕ} (eta depth : Grid L W K) (a : SfcAcc L W K) (HSL : K) : Grid L W K :=
  fun c =>
    let h0 := eta c + depth c
    let h1 := if a.visit c > 0 then a.sum c / a.visit c else h0
    let h2 := if h1 < HSL then HSL else h1
    if h2 < eta c then eta c else h2

/-- One pass of `_smooth_free_surface` (pyDeltaRCM/water_tools.py 1156-1191). The code writes into
`Htemp` and reads only from the copies made before the pass, so the loop over cells is pointwise. -/
def smoothPass {L W : ℕ} [NeZero L] [NeZero W] (cellType : Grid L W ℤ) (C : K) (H : Grid L W K) :
    Grid L W K :=
  fun c =>
    if cellType c ≠ -1 then
      let invalid : Fin 9 → Bool := fun d => decide (nbrs cellType c d = -2) || decide (d = 4)
      let hn : Fin 9 → K := fun d => if invalid d then 0 else nbrs H c d
      let sumH := ∑ d, hn d
      let nbcount : ℕ := (Finset.univ.filter (fun d => (!invalid d) = true)).card
      if nbcount > 0 then C * H c + (1 - C) * (sumH / (nbcount : K)) else H c
    else H c

/-- `_smooth_free_surface` (pyDeltaRCM/water_tools.py 1123-1195): `n` passes. -/
def smooth {L W : ℕ} [NeZero L] [NeZero W] (cellType : Grid L W ℤ) (C : K) :
    ℕ → Grid L W K → Grid L W K
  | 0, H => H
  | n + 1, H => smooth cellType C n (smoothPass cellType C H)

/-- `build_weight_array` (pyDeltaRCM/water_tools.py 571-611) without normalisation (no caller
asks for it): eight shifted copies in the order E, NE, N, NW, W, SW, S, SE, zero where the
neighbour is outside, then the edge fixes in the order of the code. The arrays have at least two
rows and columns (otherwise the index `-2` raises an error). -/
def buildWeightArray {L W : ℕ} [NeZero L] [NeZero W] (arr : Grid L W K) (fixEdges : Bool) :
    Fin 8 → Grid L W K :=
  let notRow0 : Cell L W → Bool := fun c => decide (1 ≤ c.1.val)
  let notRowN : Cell L W → Bool := fun c => decide (c.1.val + 1 < L)
  let notCol0 : Cell L W → Bool := fun c => decide (1 ≤ c.2.val)
  let notColN : Cell L W → Bool := fun c => decide (c.2.val + 1 < W)
  let row0 : Cell L W → Bool := fun c => decide (c.1.val = 0)
  let rowN : Cell L W → Bool := fun c => decide (c.1.val + 1 = L)
  let col0 : Cell L W → Bool := fun c => decide (c.2.val = 0)
  let colN : Cell L W → Bool := fun c => decide (c.2.val + 1 = W)
  let up : Cell L W → Fin L := fun c => axis L (c.1.val - 1)
  let down : Cell L W → Fin L := fun c => axis L (c.1.val + 1)
  let left : Cell L W → Fin W := fun c => axis W (c.2.val - 1)
  let right : Cell L W → Fin W := fun c => axis W (c.2.val + 1)
  let z : Grid L W K := fun _ => 0
  let w0 := assign z notColN (fun c => arr (c.1, right c))
  let w1 := assign z (fun c => notRow0 c && notColN c) (fun c => arr (up c, right c))
  let w2 := assign z notRow0 (fun c => arr (up c, c.2))
  let w3 := assign z (fun c => notRow0 c && notCol0 c) (fun c => arr (up c, left c))
  let w4 := assign z notCol0 (fun c => arr (c.1, left c))
  let w5 := assign z (fun c => notRowN c && notCol0 c) (fun c => arr (down c, left c))
  let w6 := assign z notRowN (fun c => arr (down c, c.2))
  let w7 := assign z (fun c => notRowN c && notColN c) (fun c => arr (down c, right c))
  if fixEdges then
    let fixColN : Grid L W K → Grid L W K :=
      fun w => assign w colN (fun c => w (c.1, axis W (W - 2)))
    let fixRow0 : Grid L W K → Grid L W K := fun w => assign w row0 (fun c => w (axis L 1, c.2))
    let fixCol0 : Grid L W K → Grid L W K := fun w => assign w col0 (fun c => w (c.1, axis W 1))
    let fixRowN : Grid L W K → Grid L W K :=
      fun w => assign w rowN (fun c => w (axis L (L - 2), c.2))
    ![fixColN w0, fixRow0 (fixColN w1), fixRow0 w2, fixCol0 (fixRow0 w3), fixCol0 w4,
      fixRowN (fixCol0 w5), fixRowN w6, fixRowN (fixColN w7)]
  else ![w0, w1, w2, w3, w4, w5, w6, w7]

/-- `get_wet_mask_nh` (pyDeltaRCM/water_tools.py 560-569): 1 for wet neighbours, 0 for dry. -/
def wetMaskNh {L W : ℕ} [NeZero L] [NeZero W] (depth : Grid L W K) (dryDepth : K) :
    Fin 8 → Grid L W K :=
  buildWeightArray (fun c => if depth c > dryDepth then 1 else 0) true

/-- `flooding_correction` (pyDeltaRCM/water_tools.py 525-558). `stage_nhs` is built before the
loop over shore cells, so the loop is pointwise. `max(stage_nh)` is the maximum of the eight
products. -/
def floodingCorrection {L W : ℕ} [NeZero L] [NeZero W] (eta depth stage : Grid L W K)
    (dryDepth : K) : Grid L W K :=
  let wetNh := wetMaskNh depth dryDepth
  let stageNhs := buildWeightArray stage false
  fun c =>
    let nwet := if depth c > dryDepth then 0 else ∑ k, wetNh k c
    if nwet > 0 then
      let stageNh : Fin 8 → K := fun k => wetNh k c * stageNhs k c
      if ∃ k, stageNh k > eta c then Finset.univ.sup' Finset.univ_nonempty stageNh else stage c
    else stage c

/-- `finalize_free_surface` (pyDeltaRCM/water_tools.py 300-324). -/
def finalizeFreeSurface {L W : ℕ} [NeZero L] [NeZero W] (cellType : Grid L W ℤ)
    (Nsmooth : ℕ) (Csmooth omegaSfc : K) (timeIter : ℕ) (eta depth stage Hnew : Grid L W K)
    (dryDepth : K) : Grid L W K :=
  let Hsmth := smooth cellType Csmooth Nsmooth Hnew
  let stage1 : Grid L W K :=
    if timeIter > 0 then fun c => (1 - omegaSfc) * stage c + omegaSfc * Hsmth c else stage
  floodingCorrection eta depth stage1 dryDepth

/-- The stage after `finalize_water_iteration` (pyDeltaRCM/water_tools.py 336). -/
def stageAboveSea {L W : ℕ} (stage : Grid L W K) (HSL : K) : Grid L W K :=
  fun c => max (stage c) HSL

/-- The depth after `finalize_water_iteration` (pyDeltaRCM/water_tools.py 339). -/
def depthOf {L W : ℕ} (stage eta : Grid L W K) : Grid L W K := fun c => max (stage c - eta c) 0

end Verif.Model
