import Verif.Model.Setup
import Verif.Model.Timestep

/-!
# Writing boundary conditions through named properties

Model of the properties of pyDeltaRCM/model.py 1378-1502, between updates of a created model.
Warnings are not modelled. What is left behind by a write that raises an error is not modelled.
-/

namespace Verif.Model

variable {K : Type*} [Field K] [LinearOrder K] [FloorRing K] {σ : Type*} {L W m : ℕ}

/-- A model object: attributes with configuration values, attributes set by
`create_boundary_conditions`, everything that `update` reads, and the fields. The sea level is in `S`. -/
structure Live (L W m : ℕ) (K : Type*) where
  I : Input K
  D : Derived K
  P : Params L W m K
  S : State L W K

/-- The attributes after `create_boundary_conditions` and `init_sediment_routers`
(pyDeltaRCM/init_tools.py 392-463, 577-631) with values `I`. Not set by them: the grids, the
thresholds of velocity (set in `create_other_variables`, 302-304), the subsidence per step, and the
number of columns of the walk matrix. -/
def afterBc (P : Params L W m K) (I : Input K) (D : Derived K) : Params L W m K :=
  { P with
    L0 := D.L0
    stepmax := D.stepmax.toNat
    Ncross := D.Ncross.toNat
    u0 := I.u0
    h0 := I.h0
    dt := D.dt
    qw0 := D.qw0
    QpWater := D.QpWater
    uMax := D.uMax
    dryDepth := D.dryDepth
    gamma := D.gamma
    omegaFlowIter := D.omegaFlowIter
    VpSed := D.VpSed
    qs0 := D.qs0
    fCap := I.fBedload
    lam := D.lam
    diffMult := D.diffMult }

/-- `create_boundary_conditions` and `init_sediment_routers` after an attribute was set. -/
def rebound (M : Live L W m K) (I : Input K) : Except SetupErr (Live L W m K) :=
  match boundaryConditions I L W with
  | .error e => .error e
  | .ok D => .ok { I := I, D := D, P := afterBc M.P I D, S := M.S }

/-- A write to a named property. -/
inductive SetOp (K : Type*)
  /-- `channel_flow_velocity` -/
  | velocity (x : K)
  /-- `channel_width` -/
  | width (x : K)
  /-- `channel_flow_depth` -/
  | depth (x : K)
  /-- `influx_sediment_concentration` -/
  | conc (x : K)
  /-- `sea_surface_mean_elevation` -/
  | seaLevel (x : K)
  /-- `sea_surface_elevation_change` -/
  | slr (x : K)
  /-- `bedload_fraction` -/
  | bedload (x : K)
  /-- `time_step` -/
  | timeStep (x : K)

/-- The setters (pyDeltaRCM/model.py 1383-1395, 1430-1434, 1441-1453, 1460-1464, 1471-1473, 1480-1482,
1489-1491, 1498-1502), with the checks of `N0_meters` (435-439), `f_bedload` (549-555) and
`C0_percent` (592-596). -/
def write (M : Live L W m K) : SetOp K → Except SetupErr (Live L W m K)
  | .velocity x => rebound M { M.I with u0 := x }
  | .width x =>
    if x ≤ 0 then .error (.invalid "N0_meters") else rebound M { M.I with N0m := x }
  | .depth x => rebound M { M.I with h0 := x }
  | .conc x =>
    if x * 100 < 0 then .error (.invalid "C0_percent") else rebound M { M.I with C0pct := x * 100 }
  | .seaLevel x => .ok { M with S := { M.S with HSL := x } }
  | .slr x => .ok { M with I := { M.I with SLR := x }, P := { M.P with SLR := x } }
  | .bedload x =>
    if x < 0 ∨ 1 < x then .error (.invalid "f_bedload")
    else .ok { M with I := { M.I with fBedload := x }, P := { M.P with fBedload := x } }
  | .timeStep x =>
    .ok { M with
      D := { M.D with dt := x }
      P := { M.P with
        sigma := if M.P.toggleSub then fun c => M.P.sigma c / M.P.dt * x else M.P.sigma
        dt := x
        fCap := M.I.fBedload } }

/-- The getters (pyDeltaRCM/model.py 1378-1381, 1425-1428, 1436-1439, 1455-1458, 1466-1469, 1475-1478,
1484-1487, 1493-1496). -/
def readVelocity (M : Live L W m K) : K := M.I.u0
/-- see `readVelocity` -/
def readWidth (M : Live L W m K) : K := (M.D.N0 : K) * M.I.dx
/-- see `readVelocity` -/
def readDepth (M : Live L W m K) : K := M.I.h0
/-- see `readVelocity` -/
def readConc (M : Live L W m K) : K := M.I.C0pct
/-- see `readVelocity` -/
def readSeaLevel (M : Live L W m K) : K := M.S.HSL
/-- see `readVelocity` -/
def readSlr (M : Live L W m K) : K := M.I.SLR
/-- see `readVelocity` -/
def readBedload (M : Live L W m K) : K := M.I.fBedload
/-- see `readVelocity` -/
def readTimeStep (M : Live L W m K) : K := M.P.dt

/-- What a user does with a model: write a property or update. -/
inductive Act (K : Type*)
  | set (op : SetOp K)
  | update

/-- What a session may raise. -/
inductive SessionErr
  | setup (e : SetupErr)
  | step (e : Err)

/-- One action. -/
def act [NeZero L] [NeZero W] (g : Rng K σ) (M : Live L W m K) (s : σ) :
    Act K → Except SessionErr (Live L W m K × σ)
  | .set op =>
    match write M op with
    | .error e => .error (.setup e)
    | .ok M1 => .ok (M1, s)
  | .update =>
    match timestep g M.P M.S s with
    | .error e => .error (.step e)
    | .ok (S1, _, s1) => .ok ({ M with S := S1 }, s1)

/-- Any sequence of writes and updates, up to the first error. -/
def session [NeZero L] [NeZero W] (g : Rng K σ) :
    List (Act K) → Live L W m K → σ → Except SessionErr (Live L W m K × σ)
  | [], M, s => .ok (M, s)
  | a :: as, M, s =>
    match act g M s a with
    | .error e => .error e
    | .ok (M1, s1) => session g as M1 s1

end Verif.Model
