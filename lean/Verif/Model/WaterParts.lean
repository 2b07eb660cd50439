import Verif.Model.WaterIteration

/-!
# The parts of a water iteration, called one by one

Model of `init_water_iteration`, `run_water_iteration`, `compute_free_surface` and `finalize_water_iteration`
(`pyDeltaRCM/water_tools.py`) as methods that may be called in any order. Between the calls the model holds the discharge and the
record of the walks. A routing adds to the discharge that is there and writes over the beginning of the walks that are there.

The weights are computed before the start cells are drawn (see `waterIteration`). A number of start cells that is not the number of
rows is the error `index` (`ValueError` in the code).
-/

namespace Verif.Model

variable {K : Type*} [Field K] [LinearOrder K] {σ : Type*} {L W m : ℕ}

/-- The fields of the model, the discharge (`qxn`, `qyn`, `qwn`) and the rows of `free_surf_walk_inds` with the entries of
`free_surf_flag`. The entries `ind` are local to `run_water_iteration`; no other part reads them. -/
structure WaterHold (L W : ℕ) (K : Type*) where
  S : State L W K
  flux : Flux L W K
  rows : List WParcel

/-- What a new model holds (pyDeltaRCM/init_tools.py 501-503, 518-521). -/
def newWaterHold (P : Params L W m K) (S : State L W K) : WaterHold L W K where
  S := S
  flux := ⟨fun _ => 0, fun _ => 0, fun _ => 0⟩
  rows := List.replicate P.NpWater ⟨0, false, List.replicate S.ncols 0⟩

/-- `init_water_iteration` (pyDeltaRCM/water_tools.py 43-59). The padded fields are copies that no method reads. -/
def initWaterPart (h : WaterHold L W K) : WaterHold L W K :=
  { h with
    flux := ⟨fun _ => 0, fun _ => 0, fun _ => 0⟩
    rows := h.rows.map fun p => { p with flag := true, walk := p.walk.map fun _ => 0 } }

/-- What the loop of `run_water_iteration` starts from (pyDeltaRCM/water_tools.py 92-110): the flux of the ghost node is added to the
discharge, and the start cells are written into the first column of the record. -/
def startWaterPart (E : WEnv L W K) (ncols : ℕ) (f : Flux L W K) (rows : List WParcel) (starts : List ℤ) :
    Except Err (WState L W K) :=
  if starts.all (fun i => (flatCell L W i).isSome) ∧ 0 < ncols ∧ starts.length = rows.length then
    .ok {
      flux := {
        qx := fancyAdd f.qx starts 1
        qy := fancyAdd f.qy starts 0
        qw := fancyAdd f.qw starts (E.Qp / E.dx / 2) }
      parcels := List.zipWith (fun i p => ⟨i, p.flag, p.walk.set 0 i⟩) starts rows
      ncols := ncols }
  else .error .index

/-- `run_water_iteration` (pyDeltaRCM/water_tools.py 76-201). -/
def runWaterPart [NeZero L] [NeZero W] [FloorRing K] (g : Rng K σ) (P : Params L W m K) (h : WaterHold L W K) (s : σ) :
    Except Err (WaterHold L W K × σ) :=
  match waterWeightArray P h.S with
  | .error e => .error e
  | .ok w =>
    let (draws, s1) := drawN g P.NpWater s
    let inlet : Fin m → ℤ := fun k => ((P.inlet k).val : ℤ)
    match getStartIndices inlet (getInletWeights inlet : Fin m → K) draws with
    | none => .error .index
    | some starts =>
      match startWaterPart (waterEnv P h.S w) h.S.ncols h.flux h.rows starts with
      | .error e => .error e
      | .ok st0 =>
        match waterLoop g (waterEnv P h.S w) 0 st0 s1 with
        | .error e => .error e
        | .ok (st, _, _, s2) => .ok (⟨{ h.S with ncols := st.ncols }, st.flux, st.parcels⟩, s2)

/-- `compute_free_surface` (pyDeltaRCM/water_tools.py 203-324). -/
def surfacePart [NeZero L] [NeZero W] (P : Params L W m K) (h : WaterHold L W K) : Except Err (WaterHold L W K) :=
  match computeFreeSurface P h.S h.rows with
  | .error e => .error e
  | .ok stage => .ok { h with S := { h.S with stage := stage } }

/-- `finalize_water_iteration` (pyDeltaRCM/water_tools.py 326-343). The components of the discharge are scaled in place
(pyDeltaRCM/water_tools.py 485-486). -/
def finalizePart (P : Params L W m K) (iteration : ℕ) (h : WaterHold L W K) : WaterHold L W K :=
  { h with
    S := finalizeWaterIteration P h.S iteration h.S.stage h.flux
    flux := { h.flux with
      qx := fun c => h.flux.qx c * qwnDiv P.nrm h.flux c
      qy := fun c => h.flux.qy c * qwnDiv P.nrm h.flux c } }

/-- The parts. -/
inductive WaterCall
  | init
  | run
  | surface
  | finalize (iteration : ℕ)
  deriving DecidableEq

/-- A call of a part. -/
def callPart [NeZero L] [NeZero W] [FloorRing K] (g : Rng K σ) (P : Params L W m K) :
    WaterCall → WaterHold L W K → σ → Except Err (WaterHold L W K × σ)
  | .init, h, s => .ok (initWaterPart h, s)
  | .run, h, s => runWaterPart g P h s
  | .surface, h, s =>
    match surfacePart P h with
    | .error e => .error e
    | .ok h1 => .ok (h1, s)
  | .finalize i, h, s => .ok (finalizePart P i h, s)

/-- One call after the other, up to an error. -/
def callParts [NeZero L] [NeZero W] [FloorRing K] (g : Rng K σ) (P : Params L W m K) :
    List WaterCall → WaterHold L W K → σ → Except Err (WaterHold L W K × σ)
  | [], h, s => .ok (h, s)
  | a :: l, h, s =>
    match callPart g P a h s with
    | .error e => .error e
    | .ok (h1, s1) => callParts g P l h1 s1

end Verif.Model
