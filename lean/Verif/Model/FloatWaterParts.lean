import Verif.Model.WaterParts
import Verif.Model.FloatWater

/-!
# The parts of a water iteration, called one by one, in rounded arithmetic

As `Model/WaterParts`, with the roundings of `Model/FloatWater`.
-/

namespace Verif.Model

variable {K : Type*} [Field K] [LinearOrder K] {σ : Type*} {L W m : ℕ}

/-- What the loop of `run_water_iteration` starts from (pyDeltaRCM/water_tools.py 92-110). -/
def startWaterPartR (F D : Rounding K) (E : WEnv L W K) (ncols : ℕ) (f : Flux L W K) (rows : List WParcel) (starts : List ℤ) :
    Except Err (WState L W K) :=
  if starts.all (fun i => (flatCell L W i).isSome) ∧ 0 < ncols ∧ starts.length = rows.length then
    .ok {
      flux := {
        qx := fancyAddR F f.qx starts 1
        qy := fancyAddR F f.qy starts 0
        qw := fancyAddR F f.qw starts (halfShareR D E) }
      parcels := List.zipWith (fun i p => ⟨i, p.flag, p.walk.set 0 i⟩) starts rows
      ncols := ncols }
  else .error .index

/-- `run_water_iteration` (pyDeltaRCM/water_tools.py 76-201). -/
def runWaterPartR [NeZero L] [NeZero W] [FloorRing K] (F D : Rounding K) (g : Rng K σ) (P : Params L W m K) (h : WaterHold L W K)
    (s : σ) : Except Err (WaterHold L W K × σ) :=
  match waterWeightArrayR F D P h.S with
  | .error e => .error e
  | .ok w =>
    let (draws, s1) := drawN g P.NpWater s
    let inlet : Fin m → ℤ := fun k => ((P.inlet k).val : ℤ)
    match getStartIndicesR D inlet (getInletWeights inlet : Fin m → K) draws with
    | none => .error .index
    | some starts =>
      match startWaterPartR F D (waterEnvR F P h.S w) h.S.ncols h.flux h.rows starts with
      | .error e => .error e
      | .ok st0 =>
        match waterLoopR F D g (waterEnvR F P h.S w) 0 st0 s1 with
        | .error e => .error e
        | .ok (st, _, _, s2) => .ok (⟨{ h.S with ncols := st.ncols }, st.flux, st.parcels⟩, s2)

/-- `compute_free_surface` (pyDeltaRCM/water_tools.py 203-324). -/
def surfacePartR [NeZero L] [NeZero W] (F D : Rounding K) (P : Params L W m K) (h : WaterHold L W K) : Except Err (WaterHold L W K) :=
  match computeFreeSurfaceR F D P h.S h.rows with
  | .error e => .error e
  | .ok stage => .ok { h with S := { h.S with stage := stage } }

/-- `finalize_water_iteration` (pyDeltaRCM/water_tools.py 326-343). The components of the discharge are scaled in place
(pyDeltaRCM/water_tools.py 485-486). -/
def finalizePartR (F D : Rounding K) (P : Params L W m K) (iteration : ℕ) (h : WaterHold L W K) : WaterHold L W K :=
  { h with
    S := finalizeWaterIterationR F D P h.S iteration h.S.stage h.flux
    flux := { h.flux with
      qx := fun c => F.fl (D.fl (h.flux.qx c * qwnDivR F P.nrm h.flux c))
      qy := fun c => F.fl (D.fl (h.flux.qy c * qwnDivR F P.nrm h.flux c)) } }

/-- A call of a part. -/
def callPartR [NeZero L] [NeZero W] [FloorRing K] (F D : Rounding K) (g : Rng K σ) (P : Params L W m K) :
    WaterCall → WaterHold L W K → σ → Except Err (WaterHold L W K × σ)
  | .init, h, s => .ok (initWaterPart h, s)
  | .run, h, s => runWaterPartR F D g P h s
  | .surface, h, s =>
    match surfacePartR F D P h with
    | .error e => .error e
    | .ok h1 => .ok (h1, s)
  | .finalize i, h, s => .ok (finalizePartR F D P i h, s)

/-- One call after the other, up to an error. -/
def callPartsR [NeZero L] [NeZero W] [FloorRing K] (F D : Rounding K) (g : Rng K σ) (P : Params L W m K) :
    List WaterCall → WaterHold L W K → σ → Except Err (WaterHold L W K × σ)
  | [], h, s => .ok (h, s)
  | a :: l, h, s =>
    match callPartR F D g P a h s with
    | .error e => .error e
    | .ok (h1, s1) => callPartsR F D g P l h1 s1

end Verif.Model
