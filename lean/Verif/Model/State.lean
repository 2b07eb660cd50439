import Verif.Basic
import Verif.Model.Grid

/-!
# Parameters and state of the model

Model of the attributes of `DeltaModel` that the timestep reads and writes.
-/

namespace Verif.Model

/-- The two kinds of parcels: `SandRouter` and `MudRouter`. -/
inductive Sed
  | sand
  | mud
  deriving DecidableEq, Repr

/-- The attributes that `update` only reads (pyDeltaRCM/init_tools.py 277-463 and 465-631 create
them). Hooks and user code that change them are not modelled. -/
structure Params (L W m : ℕ) (K : Type*) where
  cellType : Grid L W ℤ
  inlet : Fin m → Fin W
  modWater : Grid L W K
  modSed : Grid L W K
  modErosion : Grid L W K
  sigma : Grid L W K
  L0 : ℤ
  CTR : ℤ
  stepmax : ℕ
  NpWater : ℕ
  NpSed : ℕ
  itermax : ℕ
  Nsmooth : ℕ
  Ncross : ℕ
  dx : K
  u0 : K
  h0 : K
  S0 : K
  SLR : K
  dt : K
  qw0 : K
  QpWater : K
  uMax : K
  dryDepth : K
  gamma : K
  Csmooth : K
  omegaSfc : K
  omegaFlow : K
  omegaFlowIter : K
  VpSed : K
  qs0 : K
  fBedload : K
  /-- the `f_bedload` that the sand router holds -/
  fCap : K
  UeroSand : K
  UeroMud : K
  UdepMud : K
  lam : K
  diffMult : K
  actThick : K
  sandFracBc : K
  toggleSub : Bool
  startSub : K
  /-- stands for `np.sqrt(2)` -/
  s2 : K
  /-- stands for `np.sqrt(0.5)` -/
  s05 : K
  /-- stands for `np.sqrt(x**2 + y**2)` -/
  nrm : K → K → K
  /-- `x ** theta_water` -/
  pwWater : K → K
  /-- `x ** theta_sed` of the two routers: `theta_sand` and `theta_mud` -/
  pwSed : Sed → K → K
  /-- `x ** beta` -/
  pwBeta : K → K

/-- The attributes that `update` changes (pyDeltaRCM/init_tools.py 296-332, 465-575;
pyDeltaRCM/model.py 149-215). -/
structure State (L W : ℕ) (K : Type*) where
  eta : Grid L W K
  stage : Grid L W K
  depth : Grid L W K
  qx : Grid L W K
  qy : Grid L W K
  qw : Grid L W K
  ux : Grid L W K
  uy : Grid L W K
  uw : Grid L W K
  qs : Grid L W K
  depSand : Grid L W K
  depMud : Grid L W K
  sandFrac : Grid L W K
  activeLayer : Grid L W K
  HSL : K
  time : K
  timeIter : ℕ
  /-- number of columns of `free_surf_walk_inds` -/
  ncols : ℕ

end Verif.Model
