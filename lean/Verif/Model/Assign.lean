import Verif.Model.Setters

/-!
# Assigning parameters of a running model

Model of assignments to the parameters of a `DeltaModel` between updates (the setters of
pyDeltaRCM/model.py 295-1525), of calls of `create_boundary_conditions` and `init_sediment_routers` as
recommended in docs/source/examples/updating_boundary_conditions.rst, and of updates.

Unlike in `Model/Setters` the values that the sediment routers hold are kept apart from those that the model
holds: the routers are made once with copies (pyDeltaRCM/init_tools.py 577-631).

Not modelled: assignments to what concerns output; what is left behind by a call that raises an error; a new number of
water parcels of 1, for which `numpy` repeats one parcel; a new number of steps that is not a natural number. While
`stepmax` was not configured nor assigned, `I` has no value for it, the code the one made from `L` and `W`, which never
change.
-/

namespace Verif.Model

variable {K : Type*} [Field K] [LinearOrder K] [FloorRing K] {σ : Type*} {L W m : ℕ}

/-- An assignment to a parameter. -/
inductive Assign (K : Type*)
  | Length (x : K)
  | Width (x : K)
  | dx (x : K)
  | L0m (x : K)
  | S0 (x : K)
  | itermax (n : ℤ)
  | NpWater (n : ℤ)
  | u0 (x : K)
  | N0m (x : K)
  | h0 (x : K)
  | hb (x : Option K)
  | HSL (x : K)
  | SLR (x : K)
  | NpSed (n : ℤ)
  | fBedload (x : K)
  | actThick (x : Option K)
  | C0pct (x : K)
  | Csmooth (x : K)
  | toggleSub (b : Bool)
  | subRate (x : K)
  | startSub (x : K)
  | omegaSfc (x : K)
  | omegaFlow (x : K)
  | Nsmooth (n : ℤ)
  | thetaWater (x : K)
  | coeffThetaSand (x : K)
  | coeffThetaMud (x : K)
  | beta (x : K)
  | sedLag (x : K)
  | coeffUdepMud (x : K)
  | coeffUeroMud (x : K)
  | coeffUeroSand (x : K)
  | alpha (x : K)
  | sandFracBc (x : K)
  | stepmax (n : ℕ)

/-- The values of the parameters after an assignment: the attributes with a leading underscore (the setters in
pyDeltaRCM/model.py 295-1525). Without a value the thickness of the active layer is half the depth of the inlet (573-575). -/
def setInput (I : Input K) : Assign K → Input K
  | .Length x => { I with Length := x }
  | .Width x => { I with Width := x }
  | .dx x => { I with dx := x }
  | .L0m x => { I with L0m := x }
  | .S0 x => { I with S0 := x }
  | .itermax n => { I with itermax := n }
  | .NpWater n => { I with NpWater := n }
  | .u0 x => { I with u0 := x }
  | .N0m x => { I with N0m := x }
  | .h0 x => { I with h0 := x }
  | .hb x => { I with hb := x }
  | .HSL x => { I with HSL := x }
  | .SLR x => { I with SLR := x }
  | .NpSed n => { I with NpSed := n }
  | .fBedload x => { I with fBedload := x }
  | .actThick x => { I with actThick := some (x.getD (I.h0 / 2)) }
  | .C0pct x => { I with C0pct := x }
  | .Csmooth x => { I with Csmooth := x }
  | .toggleSub b => { I with toggleSub := b }
  | .subRate x => { I with subRate := x }
  | .startSub x => { I with startSub := x }
  | .omegaSfc x => { I with omegaSfc := x }
  | .omegaFlow x => { I with omegaFlow := x }
  | .Nsmooth n => { I with Nsmooth := n }
  | .thetaWater x => { I with thetaWater := x }
  | .coeffThetaSand x => { I with coeffThetaSand := x }
  | .coeffThetaMud x => { I with coeffThetaMud := x }
  | .beta x => { I with beta := x }
  | .sedLag x => { I with sedLag := x }
  | .coeffUdepMud x => { I with coeffUdepMud := x }
  | .coeffUeroMud x => { I with coeffUeroMud := x }
  | .coeffUeroSand x => { I with coeffUeroSand := x }
  | .alpha x => { I with alpha := x }
  | .sandFracBc x => { I with sandFracBc := x }
  | .stepmax n => { I with stepmax := some (n : K) }

/-- The checks of the setters (pyDeltaRCM/model.py 304-307, 321-324, 338-344, 358-361, 386-389, 403-406, 435-438, 531-534, 549-555, 571-580,
592-595, 605-608) of a model with the values `I`. -/
def badAssign (I : Input K) : Assign K → Bool
  | .Length x => decide (x ≤ 0)
  | .Width x => decide (x ≤ 0)
  | .dx x => decide (x ≤ 0) || decide (I.Length < x) || decide (I.Width < x)
  | .L0m x => decide (x < 0)
  | .itermax n => decide (n < 0)
  | .NpWater n => decide (n ≤ 0)
  | .N0m x => decide (x ≤ 0)
  | .NpSed n => decide (n ≤ 0)
  | .fBedload x => decide (x < 0) || decide (1 < x)
  | .actThick x => badThick x
  | .C0pct x => decide (x < 0)
  | .Csmooth x => decide (x < 0)
  | _ => false

/-- What the methods of the model read after an assignment. Read directly: pyDeltaRCM/water_tools.py 26, 101, 106, 117, 273-277,
314, 319-320, 360, 410, 439, 449, 491, pyDeltaRCM/sed_tools.py 121, 189, pyDeltaRCM/iteration_tools.py 80-81, 106-115, 198, 211.
The thickness of the active layer is resolved by its setter (pyDeltaRCM/model.py 573-575). All else is read only when
the model is made or by `create_boundary_conditions`. `fCap` and `pwBeta` are what `init_sediment_routers` would pass
on. -/
def paramsAfter (O : Oracle K) (P : Params L W m K) : Assign K → Params L W m K
  | .dx x => { P with dx := x }
  | .stepmax n => { P with stepmax := n }
  | .S0 x => { P with S0 := x }
  | .itermax n => { P with itermax := n.toNat }
  | .NpWater n => { P with NpWater := n.toNat }
  | .u0 x => { P with u0 := x }
  | .h0 x => { P with h0 := x }
  | .SLR x => { P with SLR := x }
  | .NpSed n => { P with NpSed := n.toNat }
  | .fBedload x => { P with fBedload := x, fCap := x }
  | .actThick x => { P with actThick := x.getD (P.h0 / 2) }
  | .Csmooth x => { P with Csmooth := x }
  | .toggleSub b => { P with toggleSub := b }
  | .startSub x => { P with startSub := x }
  | .omegaSfc x => { P with omegaSfc := x }
  | .omegaFlow x => { P with omegaFlow := x }
  | .Nsmooth n => { P with Nsmooth := n.toNat }
  | .thetaWater x => { P with pwWater := fun y => O.pow y x }
  | .beta x => { P with pwBeta := fun y => O.pow y x }
  | .sandFracBc x => { P with sandFracBc := x }
  | _ => P

/-- The sea level is a field of the state. -/
def stateAfter (S : State L W K) : Assign K → State L W K
  | .HSL x => { S with HSL := x }
  | _ => S

/-- A model object: the values of the parameters, what the methods of the model read, what the routers hold, the
fields, the number of rows of the record of walks, and whether there is a field `sigma`. -/
structure Obj (L W m : ℕ) (K : Type*) where
  I : Input K
  P : Params L W m K
  R : Params L W m K
  S : State L W K
  rows : ℕ
  hasSigma : Bool

/-- The object when it is made (pyDeltaRCM/init_tools.py 518-521, 577-631, 775-779, pyDeltaRCM/model.py 573-575). -/
def newObj (I : Input K) (P : Params L W m K) (S : State L W K) : Obj L W m K :=
  ⟨{ I with actThick := some (resolveActThick I) }, P, P, S, I.NpWater.toNat, I.toggleSub⟩

/-- What the sediment routing works with: values held by the routers (pyDeltaRCM/init_tools.py 591-631), the rest from
the model (pyDeltaRCM/sed_tools.py 96-228). -/
def sedParams (P R : Params L W m K) : Params L W m K :=
  { P with
    dt := R.dt
    dx := R.dx
    VpSed := R.VpSed
    uMax := R.uMax
    qs0 := R.qs0
    u0 := R.u0
    fCap := R.fCap
    UeroSand := R.UeroSand
    UeroMud := R.UeroMud
    UdepMud := R.UdepMud
    dryDepth := R.dryDepth
    lam := R.lam
    stepmax := R.stepmax
    pwSed := R.pwSed
    pwBeta := R.pwBeta }

/-- `route_sediment` (pyDeltaRCM/sed_tools.py 18-49) with the values of the routers apart. -/
def routeSediment2 [NeZero L] [NeZero W] (g : Rng K σ) (P R : Params L W m K)
    (S : State L W K) (s : σ) :
    Except Err (State L W K × List (SedLog L W K) × List (SedLog L W K) × σ) :=
  match routeParcels g .sand (sedParams P R) (initSediment S) s with
  | .error e => .error e
  | .ok (S1, sand, s1) =>
    let S2 := { S1 with eta := topoDiffusion P.cellType P.diffMult S1.qs P.Ncross S1.eta }
    match routeParcels g .mud (sedParams P R) S2 s1 with
    | .error e => .error e
    | .ok (S3, mud, s2) => .ok (S3, sand, mud, s2)

/-- `timestep` with the values of the routers apart. -/
def timestep2 [NeZero L] [NeZero W] (g : Rng K σ) (P R : Params L W m K) (S : State L W K) (s : σ) :
    Except Err (State L W K × StepLog L W K × σ) :=
  match routeWater g P S s with
  | .error e => .error e
  | .ok (S1, s1) =>
    match routeSediment2 g P R S1 s1 with
    | .error e => .error e
    | .ok (S2, sand, mud, s2) =>
      let S3 := finalizeTimestep P S.eta (applySubsidence P S2)
      .ok ({ S3 with time := S3.time + P.dt, timeIter := S3.timeIter + 1 },
        ⟨S, S1, S2, sand, mud⟩, s2)

/-- What a session with an object may raise. -/
inductive ObjErr
  | setup (e : SetupErr)
  | step (e : Err)
  /-- `ValueError`: the walks do not fit their record (pyDeltaRCM/water_tools.py 109) -/
  | shape
  /-- `AttributeError`: there is no field `sigma` (pyDeltaRCM/iteration_tools.py 82) -/
  | attribute

/-- What a user does. -/
inductive Deed (K : Type*)
  | assign (a : Assign K)
  | createBc
  | initRouters
  | update

/-- An assignment. -/
def objAssign (O : Oracle K) (X : Obj L W m K) (a : Assign K) : Except SetupErr (Obj L W m K) :=
  if badAssign X.I a then .error (.invalid "value")
  else .ok { X with I := setInput X.I a, P := paramsAfter O X.P a, S := stateAfter X.S a }

/-- `update`. -/
def objUpdate [NeZero L] [NeZero W] (g : Rng K σ) (X : Obj L W m K) (s : σ) : Except ObjErr (Obj L W m K × σ) :=
  if 0 < X.P.itermax ∧ X.P.NpWater ≠ X.rows then .error .shape
  else
    match timestep2 g X.P X.R X.S s with
    | .error e => .error (.step e)
    | .ok (S1, _, s1) =>
      if X.P.toggleSub = true ∧ X.hasSigma = false ∧ X.P.startSub ≤ X.S.time then .error .attribute
      else .ok ({ X with S := S1 }, s1)

/-- One deed. `create_boundary_conditions` (pyDeltaRCM/init_tools.py 392-463) sets what `afterBc` lists, and
`init_sediment_routers` (577-631) makes new routers. -/
def deed [NeZero L] [NeZero W] (O : Oracle K) (g : Rng K σ) (X : Obj L W m K) (s : σ) :
    Deed K → Except ObjErr (Obj L W m K × σ)
  | .assign a =>
    match objAssign O X a with
    | .error e => .error (.setup e)
    | .ok X1 => .ok (X1, s)
  | .createBc =>
    match boundaryConditions X.I L W with
    | .error e => .error (.setup e)
    | .ok D => .ok ({ X with P := afterBc X.P X.I D }, s)
  | .initRouters => .ok ({ X with R := X.P }, s)
  | .update => objUpdate g X s

/-- Any sequence of deeds, up to the first error. -/
def deeds [NeZero L] [NeZero W] (O : Oracle K) (g : Rng K σ) :
    List (Deed K) → Obj L W m K → σ → Except ObjErr (Obj L W m K × σ)
  | [], X, s => .ok (X, s)
  | a :: as, X, s =>
    match deed O g X s a with
    | .error e => .error e
    | .ok (X1, s1) => deeds O g as X1 s1

end Verif.Model
