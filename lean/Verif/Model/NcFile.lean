import Verif.Model.SaveFlags
import Verif.Model.Setters
import Verif.Model.Output

/-!
# The contents of the output file

Model of `init_output_file`, `init_metadata_list` (pyDeltaRCM/init_tools.py 633-757, 782-837), of the part
of `save_grids_and_figs` that writes to the file (pyDeltaRCM/iteration_tools.py 254-324) with `save_grids`
(412-440), and of the copy made by `load_checkpoint` (pyDeltaRCM/init_tools.py 931-990). The global
attributes (description, history, source) are not modelled; the rounding to single precision is the subject
of Verif/Model/NcSingle.lean.
A position along the unlimited dimension that was not written is `none`. The object is `Live` of
Verif/Model/Setters.lean. Variables added by a hook are the subject
of Verif/Model/CustomSave.lean.
-/

namespace Verif.Model

variable {K : Type*} [Field K] [LinearOrder K] [FloorRing K] {L W m : ℕ}

/-- `getattr(self, name)` for the fields that a flag can ask for (pyDeltaRCM/iteration_tools.py 265,
306). -/
def attrGrid (S : State L W K) : String → Option (Grid L W K)
  | "eta" => some S.eta
  | "stage" => some S.stage
  | "depth" => some S.depth
  | "qw" => some S.qw
  | "uw" => some S.uw
  | "qs" => some S.qs
  | "sand_frac" => some S.sandFrac
  | "qx" => some S.qx
  | "qy" => some S.qy
  | "ux" => some S.ux
  | "uy" => some S.uy
  | _ => none

/-- The second item of the entries of `_save_var_list` (pyDeltaRCM/model.py 814, 831, 851, 873, 897, 921,
946, 969, 976, 1000, 1007), by key. -/
def varUnits : String → String
  | "eta" => "meters"
  | "stage" => "meters"
  | "depth" => "meters"
  | "discharge" => "cubic meters per second"
  | "velocity" => "meters per second"
  | "sedflux" => "cubic meters per second"
  | "sandfrac" => "fraction"
  | "discharge_x" => "cubic meters per second"
  | "discharge_y" => "cubic meters per second"
  | "velocity_x" => "meters per second"
  | "velocity_y" => "meters per second"
  | _ => ""

/-- A variable along the unlimited dimension. `units` is `none` if the attribute is missing. -/
structure NcVar (A : Type*) where
  units : Option String
  data : ℕ → Option A

/-- The value of a fixed variable in the group "meta". -/
inductive MetaVal (L W : ℕ) (K : Type*)
  | int (n : ℤ)
  | num (x : K)
  | ints (g : Grid L W ℤ)
  | nums (g : Grid L W K)

/-- The values of the variables "x" and "y": one number for each row or column, or for each cell. -/
inductive Coord (L W : ℕ) (K : Type*)
  | line (xs : List K)
  | cells (g : Grid L W K)

/-- The output file. -/
structure NcFile (L W : ℕ) (K : Type*) where
  /-- `none` is an unlimited dimension -/
  dims : Dict (Option ℕ)
  time : NcVar K
  x : Option String × Coord L W K
  y : Option String × Coord L W K
  /-- the variables with a grid for each record -/
  vars : Dict (NcVar (Grid L W K))
  /-- the fixed variables of "meta" -/
  fixed : Dict (Option String × MetaVal L W K)
  /-- the variables of "meta" with a number for each record -/
  varying : Dict (NcVar K)

/-- What goes wrong with the file. -/
inductive NcErr
  /-- `FileExistsError` (pyDeltaRCM/init_tools.py 660-663) -/
  | fileExists
  /-- `Exception` of `save_grids`: no such variable in the file (pyDeltaRCM/iteration_tools.py 437-440) -/
  | noVariable (name : String)
  /-- `AttributeError` of `getattr` -/
  | noAttribute (name : String)
  /-- `IndexError`: no such variable in the group (pyDeltaRCM/iteration_tools.py 317) -/
  | noMeta (name : String)
  deriving DecidableEq

/-- Conversion of a float to the type "i8": towards zero. -/
def toI8 (x : K) : ℤ := if 0 ≤ x then ⌊x⌋ else ⌈x⌉

/-- The fixed entries of `_save_var_list["meta"]` (pyDeltaRCM/init_tools.py 787-812) with the value of their
attribute (748-754): name, units, value. -/
def fixedMeta (M : Live L W m K) : Dict (Option String × MetaVal L W K) :=
  [("L0", some "cells", .int M.D.L0), ("N0", some "cells", .int M.D.N0),
    ("CTR", some "cells", .int M.P.CTR), ("dx", some "meters", .num M.I.dx),
    ("h0", some "meters", .num M.I.h0), ("hb", some "meters", .num (resolveHb M.I)),
    ("cell_type", some "type", .ints M.P.cellType)] ++
  if M.I.toggleSub then
    [("start_subsidence", some "seconds", .int (toI8 M.I.startSub)),
      ("sigma", some "meters per timestep", .nums M.P.sigma)]
  else []

/-- The entries of `_save_var_list["meta"]` without attribute (pyDeltaRCM/init_tools.py 814-837): name and
units. -/
def varyingMeta : List (String × String) :=
  [("H_SL", "meters"), ("f_bedload", "fraction"), ("C0_percent", "percent"),
    ("u0", "meters per second")]

/-- `getattr(self, name)` for the metadata that vary (pyDeltaRCM/iteration_tools.py 317). -/
def attrNum (M : Live L W m K) : String → Option K
  | "H_SL" => some M.S.HSL
  | "f_bedload" => some M.I.fBedload
  | "C0_percent" => some M.I.C0pct
  | "u0" => some M.I.u0
  | _ => none

/-- What `save_grids_and_figs` looks at: `_save_any_grids` and `_save_metadata` as found when the model was
made, and the entries of `_save_var_list` other than "meta". -/
structure SaveSet where
  anyGrids : Bool
  metadata : Bool
  vars : Dict String

/-- The attribute of a flag, such as `_save_eta_grids`, after assignments; one that was not assigned counts
as false (the defaults of pyDeltaRCM/default.yml assign all). -/
def flagValue (ops : List (GridFlag × Bool)) (f : GridFlag) : Bool :=
  ops.foldl (fun b op => if op.1 = f then op.2 else b) false

/-- `_save_any_grids` (pyDeltaRCM/init_tools.py 318-328). -/
def anyGrids (ops : List (GridFlag × Bool)) : Bool :=
  flagValue ops .eta || flagValue ops .depth || flagValue ops .stage || flagValue ops .discharge ||
    flagValue ops .velocity || flagValue ops .sedflux || flagValue ops .sandfrac ||
    flagValue ops .dischargeComp || flagValue ops .velocityComp

/-- `_save_any_grids` and `_save_metadata` (pyDeltaRCM/init_tools.py 318-330), from the assignments of flags
during initialization and the value of `save_metadata`. -/
def saveSet (ops : List (GridFlag × Bool)) (metadata : Bool) : SaveSet where
  anyGrids := anyGrids ops
  metadata := metadata || anyGrids ops
  vars := gridsAfter ops

/-- The coordinates (pyDeltaRCM/init_tools.py 486-488, 690-708): `(x, y)`. -/
def coords (legacy : Bool) (dx : K) : Coord L W K × Coord L W K :=
  if legacy then (.cells fun c => (c.2.val : K), .cells fun c => (c.1.val : K))
  else (.line ((List.range L).map fun i : ℕ => (i : K) * dx),
    .line ((List.range W).map fun j : ℕ => (j : K) * dx))

/-- The dimensions (pyDeltaRCM/init_tools.py 227-230, 679-681). -/
def ncDims (L W : ℕ) (legacy : Bool) : Dict (Option ℕ) :=
  if legacy then [("length", some L), ("width", some W), ("total_time", none)]
  else [("x", some L), ("y", some W), ("time", none)]

/-- The file as made by `init_output_file` (pyDeltaRCM/init_tools.py 669-754). -/
def freshFile (legacy : Bool) (F : SaveSet) (M : Live L W m K) : NcFile L W K where
  dims := ncDims L W legacy
  time := ⟨some "second", fun _ => none⟩
  x := (some "meter", (coords legacy M.I.dx).1)
  y := (some "meter", (coords legacy M.I.dx).2)
  vars := F.vars.map fun e => (e.1, ⟨some (varUnits e.1), fun _ => none⟩)
  fixed := if F.metadata then fixedMeta M else []
  varying := if F.metadata then varyingMeta.map fun e => (e.1, ⟨some e.2, fun _ => none⟩) else []

/-- `init_output_file` (pyDeltaRCM/init_tools.py 633-757); `found` is the file there, `none` in the result
that no file is made. -/
def initFile (legacy clobber : Bool) (F : SaveSet) (M : Live L W m K) (found : Option (NcFile L W K)) :
    Except NcErr (Option (NcFile L W K)) :=
  if F.metadata || F.anyGrids then
    if found.isSome && !clobber then .error .fileExists
    else .ok (some (freshFile legacy F M))
  else .ok found

/-- A value written at an index. -/
def NcVar.write {A : Type*} (v : NcVar A) (i : ℕ) (a : A) : NcVar A :=
  { v with data := Function.update v.data i (some a) }

/-- The loop over the grids (pyDeltaRCM/iteration_tools.py 304-307) with `save_grids` (412-440). The file
keeps what was written before an error. -/
def writeGrids (S : State L W K) (i : ℕ) : List (String × String) → NcFile L W K →
    NcFile L W K × Option NcErr
  | [], f => (f, none)
  | (k, a) :: es, f =>
    match attrGrid S a with
    | none => (f, some (.noAttribute a))
    | some g =>
      match dget f.vars k with
      | none => (f, some (.noVariable k))
      | some v => writeGrids S i es { f with vars := dset f.vars k (v.write i g) }

/-- The loop over the metadata (pyDeltaRCM/iteration_tools.py 314-317). -/
def writeMeta (M : Live L W m K) (i : ℕ) : List (String × String) → NcFile L W K →
    NcFile L W K × Option NcErr
  | [], f => (f, none)
  | (k, _) :: es, f =>
    match attrNum M k with
    | none => (f, some (.noAttribute k))
    | some x =>
      match dget f.varying k with
      | none => (f, some (.noMeta k))
      | some v => writeMeta M i es { f with varying := dset f.varying k (v.write i x) }

/-- What `save_grids_and_figs` does to the file (pyDeltaRCM/iteration_tools.py 254-324). -/
def writeRecord (F : SaveSet) (M : Live L W m K) (i : ℕ) (f : NcFile L W K) :
    NcFile L W K × Option NcErr :=
  let f1 := if F.metadata || F.anyGrids then { f with time := f.time.write i M.S.time } else f
  match (if F.anyGrids then writeGrids M.S i F.vars f1 else (f1, none)) with
  | (f2, some e) => (f2, some e)
  | (f2, none) => if F.metadata then writeMeta M i varyingMeta f2 else (f2, none)

/-- Records of the object at several saves, with consecutive indices; it stops at an error. -/
def writeRecords (F : SaveSet) : List (Live L W m K) → ℕ → NcFile L W K → NcFile L W K × Option NcErr
  | [], _, f => (f, none)
  | M :: Ms, i, f =>
    match writeRecord F M i f with
    | (f1, some e) => (f1, some e)
    | (f1, none) => writeRecords F Ms (i + 1) f1

/-- The copy made when a run is resumed (pyDeltaRCM/init_tools.py 958-984): dimensions, and variables with
their values. The attributes of variables are not copied. -/
def copyFile (f : NcFile L W K) : NcFile L W K where
  dims := f.dims
  time := ⟨none, f.time.data⟩
  x := (none, f.x.2)
  y := (none, f.y.2)
  vars := f.vars.map fun e => (e.1, ⟨none, e.2.data⟩)
  fixed := f.fixed.map fun e => (e.1, none, e.2.2)
  varying := f.varying.map fun e => (e.1, ⟨none, e.2.data⟩)

end Verif.Model
