import Verif.Model.Timestep
import Verif.Model.Setup

/-!
# Specification: similar basins

A basin that is `a` times as long and as wide, with water that is `v` times as fast and carries `c` times
as much sediment per volume of water. Depths and elevations are the same. A parcel of sediment then has
`a²` times the volume, and time passes `a / (v c)` times as fast.
-/

namespace Verif.Spec

open Verif.Model

variable {L W m : ℕ} {K : Type*} [Field K]

/-- The factors between two similar basins. -/
structure Factors (K : Type*) where
  /-- horizontal distances -/
  a : K
  /-- velocities -/
  v : K
  /-- concentration of sediment in the inflow -/
  c : K

/-- The factor between times. -/
def Factors.time (z : Factors K) : K := z.a / (z.v * z.c)

/-- A field times a number. -/
def times (k : K) (f : Grid L W K) : Grid L W K := fun c => k * f c

/-- The fields of the similar basin. -/
def simState (z : Factors K) (S : State L W K) : State L W K :=
  { S with
    qx := times z.v S.qx, qy := times z.v S.qy, qw := times z.v S.qw
    ux := times z.v S.ux, uy := times z.v S.uy, uw := times z.v S.uw
    qs := times (z.v * z.c) S.qs
    depSand := times (z.a * z.a) S.depSand, depMud := times (z.a * z.a) S.depMud
    time := z.time * S.time }

/-- The settings of the similar basin: rates are per time and slopes per distance. -/
def simParams (z : Factors K) (P : Params L W m K) : Params L W m K :=
  { P with
    dx := z.a * P.dx
    u0 := z.v * P.u0, uMax := z.v * P.uMax
    UeroSand := z.v * P.UeroSand, UeroMud := z.v * P.UeroMud, UdepMud := z.v * P.UdepMud
    S0 := P.S0 / z.a
    qw0 := z.v * P.qw0, QpWater := z.v * z.a * P.QpWater
    VpSed := z.a * z.a * P.VpSed, qs0 := z.v * z.c * P.qs0
    dt := z.time * P.dt, SLR := P.SLR / z.time, startSub := z.time * P.startSub
    diffMult := P.diffMult / (z.v * z.c) }

/-- The record of one step of a sediment parcel. -/
def simRec (z : Factors K) (r : SedRec L W K) : SedRec L W K :=
  { r with
    res := z.a * z.a * r.res, change := z.a * z.a * r.change
    before := simState z r.before, after := simState z r.after }

/-- The record of a sediment parcel. -/
def simSed (z : Factors K) (l : SedLog L W K) : SedLog L W K :=
  { l with steps := l.steps.map (simRec z), left := z.a * z.a * l.left }

/-- The record of a timestep. -/
def simLog (z : Factors K) (l : StepLog L W K) : StepLog L W K :=
  { start := simState z l.start, watered := simState z l.watered, routed := simState z l.routed
    sand := l.sand.map (simSed z), mud := l.mud.map (simSed z) }

/-- The configuration of the similar basin. The coefficient of the diffusion along the bed is a length. -/
def simInput (z : Factors K) (I : Input K) : Input K :=
  { I with
    Length := z.a * I.Length, Width := z.a * I.Width, dx := z.a * I.dx
    L0m := z.a * I.L0m, N0m := z.a * I.N0m, alpha := z.a * I.alpha
    S0 := I.S0 / z.a, u0 := z.v * I.u0, C0pct := z.c * I.C0pct
    SLR := I.SLR / z.time, subRate := I.subRate / z.time, startSub := z.time * I.startSub }

end Verif.Spec
