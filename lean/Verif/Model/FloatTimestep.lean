import Verif.Model.FloatWater
import Verif.Model.Timestep

/-!
# One timestep in rounded arithmetic

As `Model/Timestep`, with a rounding after each operation (see `Model/FloatWater`).
-/

namespace Verif.Model

variable {K : Type*} [Field K] [LinearOrder K] {σ : Type*} {L W m : ℕ}

/-- The numbers that the sediment routers hold (`r_spec`, pyDeltaRCM/sed_tools.py 315-360): copies of 32
bits. The numbers of parcels are computed outside of the routers, from `fBedload`. -/
def routerParams (F : Rounding K) (P : Params L W m K) : Params L W m K :=
  { P with
    modSed := fun c => F.fl (P.modSed c), modErosion := fun c => F.fl (P.modErosion c)
    dx := F.fl P.dx, u0 := F.fl P.u0, dt := F.fl P.dt, uMax := F.fl P.uMax
    dryDepth := F.fl P.dryDepth, VpSed := F.fl P.VpSed, qs0 := F.fl P.qs0, fCap := F.fl P.fCap
    UeroSand := F.fl P.UeroSand, UeroMud := F.fl P.UeroMud, UdepMud := F.fl P.UdepMud
    lam := F.fl P.lam, s2 := F.fl P.s2, s05 := F.fl P.s05 }

/-- `ndimage.convolve(arr, kernel, mode="constant")` for a 3 × 3 kernel: summed with doubles, stored
with the type of the field. -/
def convolveR (F D : Rounding K) (kernel : Fin 9 → K) (arr : Grid L W K) : Grid L W K := fun c =>
  F.fl (sumR D (List.ofFn fun d : Fin 9 => D.fl (kernel d * at0 arr ((c.1.val : ℤ) - ((d.val / 3 : ℕ) - 1))
    ((c.2.val : ℤ) - ((d.val % 3 : ℕ) - 1)))))

/-- `cf` of one pass of `topo_diffusion` (pyDeltaRCM/sed_tools.py 236-244). -/
def diffusionChangeR (F D : Rounding K) (cellType : Grid L W ℤ) (mult : K) (qs eta : Grid L W K) :
    Grid L W K :=
  let a := convolveR F D kernel1 eta
  let b := convolveR F D kernel2 qs
  let c := convolveR F D kernel2 (fun x => F.fl (qs x * eta x))
  let cf : Grid L W K := fun x =>
    F.fl (F.fl mult * F.fl (F.fl (F.fl (qs x * a x) - F.fl (eta x * b x)) + c x))
  let cf1 := assign cf (fun x => decide (cellType x = -2)) (fun _ => 0)
  assign cf1 (fun x => decide (x.1.val = 0)) (fun _ => 0)

/-- `topo_diffusion` (pyDeltaRCM/sed_tools.py 230-246), `n` passes. -/
def topoDiffusionR (F D : Rounding K) (cellType : Grid L W ℤ) (mult : K) (qs : Grid L W K) :
    ℕ → Grid L W K → Grid L W K
  | 0, eta => eta
  | n + 1, eta =>
    topoDiffusionR F D cellType mult qs n
      (fun x => F.fl (eta x + diffusionChangeR F D cellType mult qs eta x))

/-- `route_sediment` (pyDeltaRCM/sed_tools.py 18-49): sand, diffusion, mud. -/
def routeSedimentR [NeZero L] [NeZero W] [FloorRing K] (F D : Rounding K) (g : Rng K σ)
    (P : Params L W m K) (S : State L W K) (s : σ) :
    Except Err (State L W K × List (SedLog L W K) × List (SedLog L W K) × σ) :=
  match routeParcelsR F D g .sand (routerParams F P) (initSediment S) s with
  | .error e => .error e
  | .ok (S1, sand, s1) =>
    let S2 := { S1 with eta := topoDiffusionR F D P.cellType P.diffMult S1.qs P.Ncross S1.eta }
    match routeParcelsR F D g .mud (routerParams F P) S2 s1 with
    | .error e => .error e
    | .ok (S3, mud, s2) => .ok (S3, sand, mud, s2)

/-- `apply_subsidence` (pyDeltaRCM/iteration_tools.py 61-85); the rates are doubles
(pyDeltaRCM/init_tools.py 779). -/
def applySubsidenceR (F D : Rounding K) (P : Params L W m K) (S : State L W K) : State L W K :=
  if P.toggleSub = true then
    if P.startSub ≤ S.time then { S with eta := fun c => F.fl (D.fl (S.eta c - P.sigma c)) } else S
  else S

/-- `compute_sand_frac` (pyDeltaRCM/iteration_tools.py 184-230). -/
def computeSandFracR (F : Rounding K) (P : Params L W m K) (eta0 : Grid L W K) (S : State L W K) :
    State L W K :=
  let bot : Grid L W K := fun c => F.fl (eta0 c - F.fl P.actThick)
  let deg : Cell L W → Bool := fun c => decide (F.fl (S.eta c - eta0 c) < 0)
  let frac1 : Grid L W K :=
    if anyCell deg then
      let f := assign S.sandFrac (fun c => decide (S.eta c < bot c)) (fun _ => F.fl P.sandFracBc)
      assign f (fun c => deg c && decide (S.eta c ≥ bot c)) S.activeLayer
    else S.sandFrac
  let agg : Cell L W → Bool := fun c =>
    decide (S.depSand c > 0) || decide (S.depMud c > F.fl (1 / 1000000))
  let mixture : Grid L W K := fun c => F.fl (S.depSand c / F.fl (S.depMud c + S.depSand c))
  { S with
    sandFrac := if anyCell agg then assign frac1 agg mixture else frac1
    activeLayer := if anyCell agg then assign S.activeLayer agg mixture else S.activeLayer }

/-- `finalize_timestep` (pyDeltaRCM/iteration_tools.py 87-115). -/
def finalizeTimestepR [NeZero L] [NeZero W] (F D : Rounding K) (P : Params L W m K) (eta0 : Grid L W K)
    (S : State L W K) : State L W K :=
  let stage1 := floodingCorrection S.eta S.depth S.stage (F.fl P.dryDepth)
  let stage2 : Grid L W K := fun c => max (stage1 c) (F.fl S.HSL)
  let depth1 : Grid L W K := fun c => max (F.fl (stage2 c - S.eta c)) 0
  let eta1 := assign S.eta (isInlet P.inlet) (fun c => F.fl (stage2 c - F.fl P.h0))
  let depth2 := assign depth1 (isInlet P.inlet) (fun _ => F.fl P.h0)
  let S1 := computeSandFracR F P eta0 { S with stage := stage2, depth := depth2, eta := eta1 }
  { S1 with HSL := D.fl (S1.HSL + D.fl (P.SLR * P.dt)) }

/-- The part of `update` before output (pyDeltaRCM/model.py 192-208), with
`solve_water_and_sediment_timestep` (pyDeltaRCM/iteration_tools.py 23-46) in line. -/
def timestepR [NeZero L] [NeZero W] [FloorRing K] (F D : Rounding K) (g : Rng K σ) (P : Params L W m K)
    (S : State L W K) (s : σ) : Except Err (State L W K × StepLog L W K × σ) :=
  match routeWaterR F D g P S s with
  | .error e => .error e
  | .ok (S1, s1) =>
    match routeSedimentR F D g P S1 s1 with
    | .error e => .error e
    | .ok (S2, sand, mud, s2) =>
      let S3 := finalizeTimestepR F D P S.eta (applySubsidenceR F D P S2)
      .ok ({ S3 with time := D.fl (S3.time + P.dt), timeIter := S3.timeIter + 1 },
        ⟨S, S1, S2, sand, mud⟩, s2)

/-- A run: one timestep after the other, with one `Params` for each. -/
def timestepsR [NeZero L] [NeZero W] [FloorRing K] (F D : Rounding K) (g : Rng K σ) :
    List (Params L W m K) → State L W K → σ → Except Err (State L W K × List (StepLog L W K) × σ)
  | [], S, s => .ok (S, [], s)
  | P :: Ps, S, s =>
    match timestepR F D g P S s with
    | .error e => .error e
    | .ok (S1, l, s1) =>
      match timestepsR F D g Ps S1 s1 with
      | .error e => .error e
      | .ok (S2, ls, s2) => .ok (S2, l :: ls, s2)

end Verif.Model
