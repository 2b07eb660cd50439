import Verif.Model.WaterWalk

/-!
# Discharge and velocity fields

Model of `update_flow_field` and `update_velocity_field` (`pyDeltaRCM/water_tools.py`).
-/

namespace Verif.Model

variable {K : Type*} [Field K] [LinearOrder K] {L W m : ℕ}

/-- Cells `[0, inlet]` of an index assignment (e.g. pyDeltaRCM/water_tools.py 502-504): row 0 and
a column of the inlet. -/
def isInlet (inlet : Fin m → Fin W) (c : Cell L W) : Bool :=
  decide (c.1.val = 0) && (List.finRange m).any (fun k => decide (inlet k = c.2))

/-- `qwn_div` of `update_flow_field` (pyDeltaRCM/water_tools.py 480-483); `nrm` stands for
`(x**2 + y**2)**0.5`. -/
def qwnDiv (nrm : K → K → K) (f : Flux L W K) : Grid L W K := fun c =>
  let dloc := nrm (f.qx c) (f.qy c)
  if dloc > 0 then f.qw c / dloc else 1

/-- `update_flow_field` (pyDeltaRCM/water_tools.py 471-504). Returns `qx`, `qy`, `qw` (the fields of
a `Flux`). -/
def updateFlow (nrm : K → K → K) (omegaFlow omegaFlowIter qw0 : K) (inlet : Fin m → Fin W)
    (timeIter iteration : ℕ) (qx qy : Grid L W K) (f : Flux L W K) : Flux L W K :=
  let div := qwnDiv nrm f
  let qxn : Grid L W K := fun c => f.qx c * div c
  let qyn : Grid L W K := fun c => f.qy c * div c
  let omega := if iteration = 0 then omegaFlow else omegaFlowIter
  let qx1 : Grid L W K :=
    if timeIter > 0 then fun c => qxn c * omega + qx c * (1 - omega) else qxn
  let qy1 : Grid L W K :=
    if timeIter > 0 then fun c => qyn c * omega + qy c * (1 - omega) else qyn
  let qw1 : Grid L W K := fun c => nrm (qx1 c) (qy1 c)
  { qx := assign qx1 (isInlet inlet) (fun _ => qw0)
    qy := assign qy1 (isInlet inlet) (fun _ => 0)
    qw := assign qw1 (isInlet inlet) (fun _ => qw0) }

/-- The velocity fields `uw`, `ux`, `uy`. -/
structure Vel (L W : ℕ) (K : Type*) where
  uw : Grid L W K
  ux : Grid L W K
  uy : Grid L W K

/-- `update_velocity_field` (pyDeltaRCM/water_tools.py 506-523). -/
def updateVelocity (uMax dryDepth : K) (depth : Grid L W K) (q : Flux L W K) : Vel L W K :=
  let mask : Cell L W → Bool := fun c => decide (depth c > dryDepth) && decide (q.qw c > 0)
  let uw1 : Grid L W K := fun c => min uMax (q.qw c / depth c)
  { uw := fun c => if mask c then uw1 c else 0
    ux := fun c => if mask c then uw1 c * q.qx c / q.qw c else 0
    uy := fun c => if mask c then uw1 c * q.qy c / q.qw c else 0 }

end Verif.Model
