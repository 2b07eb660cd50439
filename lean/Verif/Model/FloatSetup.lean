import Verif.Model.Clock
import Verif.Model.FloatTimestep
import Verif.Model.Setup

/-!
# Creating a model in rounded arithmetic

As `Model/Setup`, with a rounding after each operation: `D` for Python floats, `F` when a number is stored
in a field. The numbers of the configuration are as read. Integers are exact (their sizes are far below the
range in which floats hold all integers), also where Python divides them by two. `O.nrm` and `O.pow` are
roots and powers as the program computes them; their results are rounded when stored.
-/

namespace Verif.Model

variable {K : Type*} [Field K] [LinearOrder K] [FloorRing K]

/-- `active_layer_thickness` setter (pyDeltaRCM/model.py 571-580). -/
def resolveActThickR (D : Rounding K) (I : Input K) : K :=
  match I.actThick with
  | none => D.fl (I.h0 / 2)
  | some t => t

/-- `self.L`, `self.W` (pyDeltaRCM/init_tools.py 306-307); also the quotients of lines 416-417. -/
def cellsAlongR (D : Rounding K) (len dx : K) : ℤ := roundHalfEven (D.fl (len / dx))

/-- `create_boundary_conditions` (pyDeltaRCM/init_tools.py 392-463), operations from the left. A square is
a product; `9.81`, `0.1` and `100.0` are literals. -/
def boundaryConditionsR (R : Rounding K) (I : Input K) (L W : ℤ) : Except SetupErr (Derived K) :=
  let L0 := max 1 (min (cellsAlongR R I.L0m I.dx) (L / 4))
  let N0 := max 3 (min (cellsAlongR R I.N0m I.dx) (W / 4))
  let uMax := R.fl (2 * I.u0)
  let C0 := R.fl (R.fl (I.C0pct * 1) / 100)
  let dryDepth := min (R.fl (1 / 10)) (R.fl (R.fl (1 / 10) * I.h0))
  let gamma := R.fl (R.fl (R.fl (R.fl (981 / 100) * I.S0) * I.dx) / R.fl (I.u0 * I.u0))
  let V0 := R.fl (I.h0 * R.fl (I.dx * I.dx))
  let Qw0 := R.fl (R.fl (R.fl (I.u0 * I.h0) * (N0 : K)) * I.dx)
  let qw0 := R.fl (I.u0 * I.h0)
  let QpWater := R.fl (Qw0 / (I.NpWater : K))
  let qs0 := R.fl (qw0 * C0)
  let dVs := R.fl (R.fl (R.fl (1 / 10) * R.fl ((N0 : K) * (N0 : K))) * V0)
  let Qs0 := R.fl (Qw0 * C0)
  let VpSed := R.fl (dVs / (I.NpSed : K))
  let stepmax := match I.stepmax with
    | none => 2 * (L + W)
    | some x => truncInt x
  let sizeInd := Int.tdiv stepmax 2
  let dt := R.fl (dVs / Qs0)
  let Ncross := roundHalfEven (R.fl (dVs / V0))
  if R.fl (I.u0 * I.u0) = 0 ∨ Qs0 = 0 ∨ I.itermax = 0 ∨ V0 = 0 ∨ Ncross = 0 then .error .zeroDivision
  else .ok
    { L0, N0, uMax, C0, dryDepth, gamma, V0, Qw0, qw0, QpWater, qs0, dVs, Qs0, VpSed, stepmax,
      sizeInd, dt, omegaFlowIter := R.fl (2 / (I.itermax : K)), Ncross, lam := I.sedLag
      diffMult :=
        R.fl (R.fl (R.fl (R.fl (dt / (Ncross : K)) * I.alpha) * (1 / 2)) / R.fl (I.dx * I.dx)) }

variable (L W : ℕ) (CTR L0 N0 : ℤ)

/-- The cells with `bounds >= min(L - 5, W / 2 - 5)` (pyDeltaRCM/init_tools.py 561-568). -/
def farCellsR (D : Rounding K) (nrm : K → K → K) (c : Cell L W) : Bool :=
  decide (min (((L : ℤ) - 5 : ℤ) : K) (D.fl (D.fl ((W : K) / 2) - 5)) ≤
    D.fl (nrm (((c.1.val : ℤ) - 3 : ℤ) : K) (((c.2.val : ℤ) - CTR : ℤ) : K)))

/-- `cell_type` at the end of `create_domain` (pyDeltaRCM/init_tools.py 555-571). -/
def cellTypesR (D : Rounding K) (nrm : K → K → K) : Grid L W ℤ :=
  let t0 := cellType0 L W CTR L0 N0
  let t1 := assign t0 (fun c => decide (t0 c = -2)) (fun _ => -2)
  let t2 := assign t1 (fun c => decide (c.1.val + 1 = L)) (fun _ => -1)
  let t3 := assign t2 (fun c => decide (c.2.val = 0)) (fun _ => -1)
  let t4 := assign t3 (fun c => decide (c.2.val + 1 = W)) (fun _ => -1)
  let t5 := assign t4 (farCellsR L W CTR D nrm) (fun _ => -1)
  let t6 := assign t5 (landRows L W L0) (fun _ => -2)
  assign t6 (channelCells L W CTR L0 N0) (fun _ => 1)

/-- The fields created by `create_domain` (pyDeltaRCM/init_tools.py 496-553, 574-575) and the counters
set in `DeltaModel.__init__` (pyDeltaRCM/model.py 78-82). The slope of the inlet is computed with doubles
and stored with the type of the field. -/
def initialStateR (F D : Rounding K) (O : Oracle K) (I : Input K) (B : Derived K) : State L W K :=
  let ct := cellType0 L W CTR B.L0 B.N0
  let ocean : Cell L W → Bool := fun c => decide (ct c = 0)
  let channel : Cell L W → Bool := fun c => decide (ct c = 1)
  let zero : Grid L W K := fun _ => 0
  let stage0 : Grid L W K := fun c =>
    F.fl (D.fl (D.fl (((max 0 (B.L0 - c.1.val - 1) : ℤ) : K) * I.dx) * I.S0))
  let stage := assign stage0 ocean (fun _ => 0)
  let depth := assign (assign zero ocean (fun _ => F.fl (resolveHb I))) channel (fun _ => F.fl I.h0)
  let qx := assign (assign zero channel (fun _ => F.fl B.qw0)) ocean (fun _ => F.fl (D.fl (B.qw0 / 5)))
  let qy := zero
  let qw : Grid L W K := fun c => F.fl (O.nrm (qx c) (qy c))
  let wet : Cell L W → Bool := fun c => decide (0 < depth c)
  { eta := fun c => F.fl (stage c - depth c)
    stage, depth, qx, qy, qw
    ux := assign zero wet (fun c => F.fl (qx c / depth c))
    uy := assign zero wet (fun c => F.fl (qy c / depth c))
    uw := assign zero wet (fun c => F.fl (qw c / depth c))
    qs := zero
    depSand := zero
    depMud := zero
    sandFrac := fun _ => F.fl (0 + F.fl I.sandFracBc)
    activeLayer := fun _ => F.fl (0 + F.fl I.sandFracBc)
    HSL := I.HSL
    time := 0
    timeIter := 0
    ncols := B.sizeInd.toNat }

/-- `init_subsidence` (pyDeltaRCM/init_tools.py 759-779). -/
def initialSigmaR (D : Rounding K) (I : Input K) (B : Derived K) : Grid L W K :=
  if I.toggleSub then
    let mask : Grid L W K := assign (fun _ => 1) (landRows L W B.L0) (fun _ => 0)
    fun c => D.fl (D.fl (mask c * I.subRate) * B.dt)
  else fun _ => 0

variable {L W}

/-- The attributes that `update` reads, as `initialParams` (pyDeltaRCM/init_tools.py 277-332, 465-631,
759-779): the exponents and the thresholds are products, too. The directions and distances are numbers of
the type of the fields (pyDeltaRCM/init_tools.py 353-369). -/
def initialParamsR (F D : Rounding K) (ct : Grid L W ℤ) (O : Oracle K) (I : Input K) (B : Derived K) :
    Params L W (inletCols ct).length K where
  cellType := ct
  inlet := (inletCols ct).get
  modWater := fun _ => 1
  modSed := fun _ => 1
  modErosion := fun _ => 1
  sigma := initialSigmaR L W D I B
  L0 := B.L0
  CTR := CTR
  stepmax := B.stepmax.toNat
  NpWater := I.NpWater.toNat
  NpSed := I.NpSed.toNat
  itermax := I.itermax.toNat
  Nsmooth := I.Nsmooth.toNat
  Ncross := B.Ncross.toNat
  dx := I.dx
  u0 := I.u0
  h0 := I.h0
  S0 := I.S0
  SLR := I.SLR
  dt := B.dt
  qw0 := B.qw0
  QpWater := B.QpWater
  uMax := B.uMax
  dryDepth := B.dryDepth
  gamma := B.gamma
  Csmooth := I.Csmooth
  omegaSfc := I.omegaSfc
  omegaFlow := I.omegaFlow
  omegaFlowIter := B.omegaFlowIter
  VpSed := B.VpSed
  qs0 := B.qs0
  fBedload := I.fBedload
  fCap := I.fBedload
  UeroSand := D.fl (I.coeffUeroSand * I.u0)
  UeroMud := D.fl (I.coeffUeroMud * I.u0)
  UdepMud := D.fl (I.coeffUdepMud * I.u0)
  lam := B.lam
  diffMult := B.diffMult
  actThick := resolveActThickR D I
  sandFracBc := I.sandFracBc
  toggleSub := I.toggleSub
  startSub := I.startSub
  s2 := F.fl (D.fl O.s2)
  s05 := F.fl (D.fl O.s05)
  nrm := O.nrm
  pwWater := fun x => O.pow x I.thetaWater
  pwSed := fun k x => match k with
    | .sand => O.pow x (D.fl (I.coeffThetaSand * I.thetaWater))
    | .mud => O.pow x (D.fl (I.coeffThetaMud * I.thetaWater))
  pwBeta := fun x => O.pow x I.beta

/-- The construction of a model from configuration values (pyDeltaRCM/model.py 103-123), as `create`. The
checks of the setters compare numbers as they are. -/
def createR (F D : Rounding K) (O : Oracle K) (I : Input K) : Except SetupErr (Built K) :=
  match validate I with
  | .error e => .error e
  | .ok _ =>
    let L := cellsAlongR D I.Length I.dx
    let W := cellsAlongR D I.Width I.dx
    match boundaryConditionsR D I L W with
    | .error e => .error e
    | .ok B =>
      if B.sizeInd < 0 then .error .negativeDim
      else
        let CTR := centre W
        let ct := cellTypesR L.toNat W.toNat CTR B.L0 B.N0 D O.nrm
        .ok ⟨L.toNat, W.toNat, (inletCols ct).length, initialParamsR CTR F D ct O I B,
          initialStateR L.toNat W.toNat CTR F D O I B⟩

end Verif.Model
