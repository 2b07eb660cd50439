import Verif.Model.State
import Verif.Model.Round

/-!
# From a configuration to a model: validation, derived quantities, domain, initial state

Model of the setters of pyDeltaRCM/model.py 296-660 and 1018-1300 and of
pyDeltaRCM/init_tools.py 232-258, 277-332, 392-575, 759-779.
-/

namespace Verif.Model

variable {K : Type*} [Field K] [LinearOrder K] [FloorRing K]

/-- The configuration values that the model physics depends on, with the types that
pyDeltaRCM/default.yml admits (`none` for null). Saving options are in `OutCfg`. -/
structure Input (K : Type*) where
  Length : K
  Width : K
  dx : K
  L0m : K
  S0 : K
  itermax : ℤ
  NpWater : ℤ
  u0 : K
  N0m : K
  h0 : K
  hb : Option K
  HSL : K
  SLR : K
  NpSed : ℤ
  fBedload : K
  actThick : Option K
  C0pct : K
  Csmooth : K
  toggleSub : Bool
  subRate : K
  startSub : K
  saveDt : ℤ
  ckptDt : Option ℤ
  omegaSfc : K
  omegaFlow : K
  Nsmooth : ℤ
  thetaWater : K
  coeffThetaSand : K
  coeffThetaMud : K
  beta : K
  sedLag : K
  coeffUdepMud : K
  coeffUeroMud : K
  coeffUeroSand : K
  alpha : K
  stepmax : Option K
  sandFracBc : K

/-- What the construction of a model may raise. -/
inductive SetupErr
  /-- `ValueError` of the setter of a parameter -/
  | invalid (name : String)
  /-- `ZeroDivisionError` -/
  | zeroDivision
  /-- `ValueError` of `np.zeros` for a negative length -/
  | negativeDim
  deriving DecidableEq, Repr

/-- `raise ValueError` of the setter of `name` if the value is bad. -/
def reject (bad : Bool) (name : String) : Except SetupErr Unit :=
  if bad then .error (.invalid name) else .ok ()

/-- The check of the `active_layer_thickness` setter (pyDeltaRCM/model.py 573-579). -/
def badThick : Option K → Bool
  | none => false
  | some t => decide (t < 0)

/-- The setters with a check, in the order of pyDeltaRCM/default.yml in which
`process_input_to_model` (pyDeltaRCM/init_tools.py 251-252) calls them:
pyDeltaRCM/model.py 304-307, 321-324, 338-345, 358-361, 386-389, 403-406, 435-438, 531-534, 549-555,
571-580, 592-595, 605-608. -/
def validate (I : Input K) : Except SetupErr Unit := do
  reject (decide (I.Length ≤ 0)) "Length"
  reject (decide (I.Width ≤ 0)) "Width"
  reject (decide (I.dx ≤ 0) || decide (I.Length < I.dx) || decide (I.Width < I.dx)) "dx"
  reject (decide (I.L0m < 0)) "L0_meters"
  reject (decide (I.itermax < 0)) "itermax"
  reject (decide (I.NpWater ≤ 0)) "Np_water"
  reject (decide (I.N0m ≤ 0)) "N0_meters"
  reject (decide (I.NpSed ≤ 0)) "Np_sed"
  reject (decide (I.fBedload < 0) || decide (1 < I.fBedload)) "f_bedload"
  reject (badThick I.actThick) "active_layer_thickness"
  reject (decide (I.C0pct < 0)) "C0_percent"
  reject (decide (I.Csmooth < 0)) "Csmooth"

/-- `active_layer_thickness` setter (pyDeltaRCM/model.py 571-580); `h0` is set before. -/
def resolveActThick (I : Input K) : K :=
  match I.actThick with
  | none => I.h0 / 2
  | some t => t

/-- `checkpoint_dt` setter (pyDeltaRCM/model.py 1036-1040); `save_dt` is set before. -/
def resolveCkptDt (I : Input K) : ℤ :=
  match I.ckptDt with
  | none => I.saveDt
  | some t => t

/-- `self._hb = self.hb or self.h0` (pyDeltaRCM/init_tools.py 482): a value of zero counts as
unset. -/
def resolveHb (I : Input K) : K :=
  match I.hb with
  | none => I.h0
  | some b => if b = 0 then I.h0 else b

/-- `resume_checkpoint` setter (pyDeltaRCM/model.py 1067-1074): whether to resume and the folder;
`.inl` is a boolean, `.inr` a string. -/
def resolveResume {D : Type*} (prefix_ : D) : Bool ⊕ D → Bool × D
  | .inl b => (b, prefix_)
  | .inr folder => (true, folder)

/-- `self.L`, `self.W` (pyDeltaRCM/init_tools.py 306-307). -/
def cellsAlong (len dx : K) : ℤ := roundHalfEven (len / dx)

/-- `self.CTR` (pyDeltaRCM/init_tools.py 310-312). -/
def centre (W : ℤ) : ℤ := if W / 2 - 1 ≤ 1 then W / 2 else W / 2 - 1

/-- The quantities of `create_boundary_conditions`. -/
structure Derived (K : Type*) where
  L0 : ℤ
  N0 : ℤ
  uMax : K
  C0 : K
  dryDepth : K
  gamma : K
  V0 : K
  Qw0 : K
  qw0 : K
  QpWater : K
  qs0 : K
  dVs : K
  Qs0 : K
  VpSed : K
  stepmax : ℤ
  sizeInd : ℤ
  dt : K
  omegaFlowIter : K
  Ncross : ℤ
  lam : K
  diffMult : K

/-- `create_boundary_conditions` (pyDeltaRCM/init_tools.py 392-463) for a grid of `L × W` cells.
Divisions by quantities that validation makes positive are written as they are; the others are
checked, in any order since they raise the same error. -/
def boundaryConditions (I : Input K) (L W : ℤ) : Except SetupErr (Derived K) :=
  let L0 := max 1 (min (roundHalfEven (I.L0m / I.dx)) (L / 4))
  let N0 := max 3 (min (roundHalfEven (I.N0m / I.dx)) (W / 4))
  let uMax := 2 * I.u0
  let C0 := I.C0pct * 1 / 100
  let dryDepth := min (1 / 10) (1 / 10 * I.h0)
  let gamma := 981 / 100 * I.S0 * I.dx / (I.u0 * I.u0)
  let V0 := I.h0 * (I.dx * I.dx)
  let Qw0 := I.u0 * I.h0 * (N0 : K) * I.dx
  let qw0 := I.u0 * I.h0
  let QpWater := Qw0 / (I.NpWater : K)
  let qs0 := qw0 * C0
  let dVs := 1 / 10 * ((N0 : K) * (N0 : K)) * V0
  let Qs0 := Qw0 * C0
  let VpSed := dVs / (I.NpSed : K)
  let stepmax := match I.stepmax with
    | none => 2 * (L + W)
    | some x => truncInt x
  let sizeInd := Int.tdiv stepmax 2
  let dt := dVs / Qs0
  let Ncross := roundHalfEven (dVs / V0)
  if I.u0 = 0 ∨ Qs0 = 0 ∨ I.itermax = 0 ∨ V0 = 0 ∨ Ncross = 0 then .error .zeroDivision
  else .ok
    { L0, N0, uMax, C0, dryDepth, gamma, V0, Qw0, qw0, QpWater, qs0, dVs, Qs0, VpSed, stepmax,
      sizeInd, dt, omegaFlowIter := 2 / (I.itermax : K), Ncross, lam := I.sedLag
      diffMult := dt / (Ncross : K) * I.alpha * (1 / 2) / (I.dx * I.dx) }

/-- Membership of an index in the Python slice `a:b` of an axis of length `n`: negative bounds count
from the end, bounds outside are clipped. -/
def inSlice (n : ℕ) (a b : ℤ) (j : ℕ) : Bool :=
  let clip : ℤ → ℤ := fun x => if x < 0 then max (x + n) 0 else min x n
  decide (clip a ≤ j) && decide ((j : ℤ) < clip b)

/-- `channel_inds` (pyDeltaRCM/init_tools.py 535). -/
def channelInds (CTR N0 : ℤ) : ℤ := CTR - roundHalfEven ((N0 : ℚ) / 2) + 1

variable (L W : ℕ) (CTR L0 N0 : ℤ)

/-- `[: self.L0, :]`. -/
def landRows (c : Cell L W) : Bool := inSlice L 0 L0 c.1.val

/-- `[: self.L0, channel_inds:y_channel_max]`. -/
def channelCells (c : Cell L W) : Bool :=
  landRows L W L0 c &&
    inSlice W (channelInds CTR N0) (channelInds CTR N0 + N0) c.2.val

/-- `cell_type` when the fields are initialised (pyDeltaRCM/init_tools.py 498, 533-537). -/
def cellType0 : Grid L W ℤ :=
  let t0 : Grid L W ℤ := fun _ => 0
  let t1 := assign t0 (landRows L W L0) (fun _ => -2)
  assign t1 (channelCells L W CTR L0 N0) (fun _ => 1)

/-- The cells with `bounds >= min(L - 5, W / 2 - 5)` (pyDeltaRCM/init_tools.py 561-568). With
`R` twice the right side: the square root of `x` is at least `R / 2` if and only if `R ≤ 0` or
`R² ≤ 4 x`. -/
def farCells (c : Cell L W) : Bool :=
  let R : ℤ := min (2 * (L - 5)) (W - 10)
  let i : ℤ := c.1.val
  let j : ℤ := c.2.val
  decide (R ≤ 0 ∨ R * R ≤ 4 * ((i - 3) * (i - 3) + (j - CTR) * (j - CTR)))

/-- `cell_type` at the end of `create_domain` (pyDeltaRCM/init_tools.py 555-571). -/
def cellTypes : Grid L W ℤ :=
  let t0 := cellType0 L W CTR L0 N0
  let t1 := assign t0 (fun c => decide (t0 c = -2)) (fun _ => -2)
  let t2 := assign t1 (fun c => decide (c.1.val + 1 = L)) (fun _ => -1)
  let t3 := assign t2 (fun c => decide (c.2.val = 0)) (fun _ => -1)
  let t4 := assign t3 (fun c => decide (c.2.val + 1 = W)) (fun _ => -1)
  let t5 := assign t4 (farCells L W CTR) (fun _ => -1)
  let t6 := assign t5 (landRows L W L0) (fun _ => -2)
  assign t6 (channelCells L W CTR L0 N0) (fun _ => 1)

variable {L W}

/-- `np.unique(np.where(self.cell_type == 1)[1])` (pyDeltaRCM/init_tools.py 573): the columns with an
inlet cell, in increasing order. -/
def inletCols (ct : Grid L W ℤ) : List (Fin W) :=
  (List.finRange W).filter (fun j => decide (∃ i : Fin L, ct (i, j) = 1))

/-- Functions that are not rational: square roots and powers. -/
structure Oracle (K : Type*) where
  /-- `np.sqrt(2)` -/
  s2 : K
  /-- `np.sqrt(0.5)` -/
  s05 : K
  /-- `np.sqrt(x**2 + y**2)` -/
  nrm : K → K → K
  /-- `x ** y` -/
  pow : K → K → K

variable (L W)

/-- The fields created by `create_domain` (pyDeltaRCM/init_tools.py 496-553, 574-575) and the counters
set in `DeltaModel.__init__` (pyDeltaRCM/model.py 78-82). -/
def initialState (O : Oracle K) (I : Input K) (D : Derived K) : State L W K :=
  let ct := cellType0 L W CTR D.L0 D.N0
  let ocean : Cell L W → Bool := fun c => decide (ct c = 0)
  let channel : Cell L W → Bool := fun c => decide (ct c = 1)
  let zero : Grid L W K := fun _ => 0
  let stage0 : Grid L W K := fun c => ((max 0 (D.L0 - c.1.val - 1) : ℤ) : K) * I.dx * I.S0
  let stage := assign stage0 ocean (fun _ => 0)
  let depth := assign (assign zero ocean (fun _ => resolveHb I)) channel (fun _ => I.h0)
  let qx := assign (assign zero channel (fun _ => D.qw0)) ocean (fun _ => D.qw0 / 5)
  let qy := zero
  let qw : Grid L W K := fun c => O.nrm (qx c) (qy c)
  let wet : Cell L W → Bool := fun c => decide (0 < depth c)
  { eta := fun c => stage c - depth c
    stage, depth, qx, qy, qw
    ux := assign zero wet (fun c => qx c / depth c)
    uy := assign zero wet (fun c => qy c / depth c)
    uw := assign zero wet (fun c => qw c / depth c)
    qs := zero
    depSand := zero
    depMud := zero
    sandFrac := fun _ => 0 + I.sandFracBc
    activeLayer := fun _ => 0 + I.sandFracBc
    HSL := I.HSL
    time := 0
    timeIter := 0
    ncols := D.sizeInd.toNat }

/-- `init_subsidence` (pyDeltaRCM/init_tools.py 759-779). Without subsidence there is no `sigma`; it is
not read then. -/
def initialSigma (I : Input K) (D : Derived K) : Grid L W K :=
  if I.toggleSub then
    let mask : Grid L W K := assign (fun _ => 1) (landRows L W D.L0) (fun _ => 0)
    fun c => mask c * I.subRate * D.dt
  else fun _ => 0

variable {L W}

/-- The attributes that `update` reads, after `create_other_variables`, `create_domain`,
`init_sediment_routers` and `init_subsidence` (pyDeltaRCM/init_tools.py 277-332, 465-631, 759-779).
Exponents of sediment: pyDeltaRCM/init_tools.py 299-300; thresholds: 302-304. A negative `stepmax`
is taken as zero. -/
def initialParams (ct : Grid L W ℤ) (O : Oracle K) (I : Input K) (D : Derived K) :
    Params L W (inletCols ct).length K where
  cellType := ct
  inlet := (inletCols ct).get
  modWater := fun _ => 1
  modSed := fun _ => 1
  modErosion := fun _ => 1
  sigma := initialSigma L W I D
  L0 := D.L0
  CTR := CTR
  stepmax := D.stepmax.toNat
  NpWater := I.NpWater.toNat
  NpSed := I.NpSed.toNat
  itermax := I.itermax.toNat
  Nsmooth := I.Nsmooth.toNat
  Ncross := D.Ncross.toNat
  dx := I.dx
  u0 := I.u0
  h0 := I.h0
  S0 := I.S0
  SLR := I.SLR
  dt := D.dt
  qw0 := D.qw0
  QpWater := D.QpWater
  uMax := D.uMax
  dryDepth := D.dryDepth
  gamma := D.gamma
  Csmooth := I.Csmooth
  omegaSfc := I.omegaSfc
  omegaFlow := I.omegaFlow
  omegaFlowIter := D.omegaFlowIter
  VpSed := D.VpSed
  qs0 := D.qs0
  fBedload := I.fBedload
  fCap := I.fBedload
  UeroSand := I.coeffUeroSand * I.u0
  UeroMud := I.coeffUeroMud * I.u0
  UdepMud := I.coeffUdepMud * I.u0
  lam := D.lam
  diffMult := D.diffMult
  actThick := resolveActThick I
  sandFracBc := I.sandFracBc
  toggleSub := I.toggleSub
  startSub := I.startSub
  s2 := O.s2
  s05 := O.s05
  nrm := O.nrm
  pwWater := fun x => O.pow x I.thetaWater
  pwSed := fun k x => match k with
    | .sand => O.pow x (I.coeffThetaSand * I.thetaWater)
    | .mud => O.pow x (I.coeffThetaMud * I.thetaWater)
  pwBeta := fun x => O.pow x I.beta

/-- A model as constructed: its size, its number of inlet columns, parameters and state. -/
structure Built (K : Type*) where
  L : ℕ
  W : ℕ
  m : ℕ
  P : Params L W m K
  S : State L W K

/-- The construction of a model from configuration values (pyDeltaRCM/model.py 103-123 calls
`process_input_to_model`, `create_other_variables`, `create_domain`, `init_sediment_routers`,
`init_subsidence`). -/
def create (O : Oracle K) (I : Input K) : Except SetupErr (Built K) :=
  match validate I with
  | .error e => .error e
  | .ok _ =>
    let L := cellsAlong I.Length I.dx
    let W := cellsAlong I.Width I.dx
    match boundaryConditions I L W with
    | .error e => .error e
    | .ok D =>
      if D.sizeInd < 0 then .error .negativeDim
      else
        let CTR := centre W
        let ct := cellTypes L.toNat W.toNat CTR D.L0 D.N0
        .ok ⟨L.toNat, W.toNat, (inletCols ct).length, initialParams CTR ct O I D,
          initialState L.toNat W.toNat CTR O I D⟩

end Verif.Model
