import Verif.Model.NcFile

/-!
# What the output file is documented to hold

docs/source/info/outputfile.rst, and the table of `legacy_netcdf` (pyDeltaRCM/model.py 1299-1328).
-/

namespace Verif.Spec

open Verif.Model

variable {K : Type*} [Field K] [LinearOrder K] [FloorRing K] {L W m : ℕ}

/-- The variables that a flag asks for. -/
def askedFor : GridFlag → List String
  | .eta => ["eta"]
  | .stage => ["stage"]
  | .depth => ["depth"]
  | .discharge => ["discharge"]
  | .velocity => ["velocity"]
  | .sedflux => ["sedflux"]
  | .sandfrac => ["sandfrac"]
  | .dischargeComp => ["discharge_x", "discharge_y"]
  | .velocityComp => ["velocity_x", "velocity_y"]

/-- The variable that a figure shows. -/
def figureOf : FigFlag → String
  | .eta => "eta"
  | .stage => "stage"
  | .depth => "depth"
  | .discharge => "discharge"
  | .velocity => "velocity"
  | .sedflux => "sedflux"
  | .sandfrac => "sandfrac"

/-- The field that a variable stands for: bed and water surface elevation, depth, size and components of
discharge and velocity, sediment flux, fraction of sand. -/
def documentedGrid (S : State L W K) (name : String) : Option (Grid L W K) :=
  if name = "eta" then some S.eta
  else if name = "stage" then some S.stage
  else if name = "depth" then some S.depth
  else if name = "discharge" then some S.qw
  else if name = "velocity" then some S.uw
  else if name = "sedflux" then some S.qs
  else if name = "sandfrac" then some S.sandFrac
  else if name = "discharge_x" then some S.qx
  else if name = "discharge_y" then some S.qy
  else if name = "velocity_x" then some S.ux
  else if name = "velocity_y" then some S.uy
  else none

/-- The units of a variable. -/
def documentedUnits (name : String) : String :=
  if name ∈ ["eta", "stage", "depth"] then "meters"
  else if name ∈ ["velocity", "velocity_x", "velocity_y"] then "meters per second"
  else if name = "sandfrac" then "fraction"
  else "cubic meters per second"

/-- The values that follow the model: sea level, bedload fraction, concentration, inlet velocity. -/
structure VaryingOk (Ms : List (Live L W m K)) (d : Dict (NcVar K)) : Prop where
  sea : ∃ u, dget d "H_SL" = some ⟨u, fun i => (Ms[i]?).map (·.S.HSL)⟩
  bedload : ∃ u, dget d "f_bedload" = some ⟨u, fun i => (Ms[i]?).map (·.I.fBedload)⟩
  conc : ∃ u, dget d "C0_percent" = some ⟨u, fun i => (Ms[i]?).map (·.I.C0pct)⟩
  velocity : ∃ u, dget d "u0" = some ⟨u, fun i => (Ms[i]?).map (·.I.u0)⟩
  only : dkeys d = ["H_SL", "f_bedload", "C0_percent", "u0"]

/-- The values taken when the file is made. The time at which subsidence starts is cut to whole seconds. -/
structure FixedOk (M : Live L W m K) (d : Dict (Option String × MetaVal L W K)) : Prop where
  L0 : ∃ u, dget d "L0" = some (u, .int M.D.L0)
  N0 : ∃ u, dget d "N0" = some (u, .int M.D.N0)
  CTR : ∃ u, dget d "CTR" = some (u, .int M.P.CTR)
  dx : ∃ u, dget d "dx" = some (u, .num M.I.dx)
  h0 : ∃ u, dget d "h0" = some (u, .num M.I.h0)
  hb : ∃ u x, dget d "hb" = some (u, .num x) ∧ (M.I.hb = none → x = M.I.h0) ∧
    ∀ b, M.I.hb = some b → b ≠ 0 → x = b
  cells : ∃ u, dget d "cell_type" = some (u, .ints M.P.cellType)
  sigma : M.I.toggleSub = true → ∃ u, dget d "sigma" = some (u, .nums M.P.sigma)
  start : M.I.toggleSub = true → ∃ u n, dget d "start_subsidence" = some (u, .int n) ∧
    |(n : K)| ≤ |M.I.startSub| ∧ |M.I.startSub - n| < 1
  off : M.I.toggleSub = false → dget d "sigma" = none ∧ dget d "start_subsidence" = none

/-- The file of a model `M` when the file was made, with the model `Ms[i]` at save number `i`; `on` are
the flags that are true. -/
structure FileOk (legacy : Bool) (on : GridFlag → Prop) (M : Live L W m K) (Ms : List (Live L W m K))
    (f : NcFile L W K) : Prop where
  time : f.time.data = fun i => (Ms[i]?).map (·.S.time)
  /-- the grids asked for, and their records -/
  grids : ∀ g, on g → ∀ name ∈ askedFor g, ∃ u, dget f.vars name =
    some ⟨u, fun i => (Ms[i]?).bind fun M => documentedGrid M.S name⟩
  /-- no other variables -/
  only : ∀ name ∈ dkeys f.vars, ∃ g, on g ∧ name ∈ askedFor g
  /-- downstream and cross-stream distance in meters, or the legacy indices -/
  dims : f.dims = if legacy then [("length", some L), ("width", some W), ("total_time", none)]
    else [("x", some L), ("y", some W), ("time", none)]
  x : legacy = false → ∃ xs : List K, f.x.2 = .line xs ∧ xs.length = L ∧
    ∀ i < L, xs[i]? = some (i * M.I.dx)
  y : legacy = false → ∃ ys : List K, f.y.2 = .line ys ∧ ys.length = W ∧
    ∀ j < W, ys[j]? = some (j * M.I.dx)
  legacyX : legacy = true → f.x.2 = .cells fun c => (c.2.val : K)
  legacyY : legacy = true → f.y.2 = .cells fun c => (c.1.val : K)
  fixed : FixedOk M f.fixed
  varying : VaryingOk Ms f.varying

/-- Every variable has its units. -/
structure UnitsOk (f : NcFile L W K) : Prop where
  time : f.time.units = some "second"
  x : f.x.1 = some "meter"
  y : f.y.1 = some "meter"
  vars : ∀ name v, dget f.vars name = some v → v.units = some (documentedUnits name)
  fixed : ∀ name v, dget f.fixed name = some v → v.1.isSome = true
  varying : ∀ name v, dget f.varying name = some v → v.units.isSome = true

/-- The same contents apart from units. -/
structure SameContents (f f' : NcFile L W K) : Prop where
  dims : f'.dims = f.dims
  time : f'.time.data = f.time.data
  x : f'.x.2 = f.x.2
  y : f'.y.2 = f.y.2
  vars : ∀ name, (dget f'.vars name).map (·.data) = (dget f.vars name).map (·.data)
  fixed : ∀ name, (dget f'.fixed name).map (·.2) = (dget f.fixed name).map (·.2)
  varying : ∀ name, (dget f'.varying name).map (·.data) = (dget f.varying name).map (·.data)

end Verif.Spec
