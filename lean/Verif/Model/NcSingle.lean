import Verif.Model.NcFile
import Verif.Model.Float

/-!
# The output file in single precision

As `Model/NcFile`, with the types of the variables: "f4" for the coordinates, the time, the grids and the
numbers of "meta", "i8" for its integers (pyDeltaRCM/init_tools.py 684-754, 787-837, pyDeltaRCM/model.py
814-1008). A number is rounded to the type of its variable when it is written. `F` rounds to single
precision, `D` is the rounding of the arithmetic of the program. The global attributes (description,
history, source) are not modelled.
-/

namespace Verif.Model

variable {K : Type*} [Field K] [LinearOrder K] [FloorRing K] {L W m : ℕ}

/-- The fixed entries of `_save_var_list["meta"]` with their types (pyDeltaRCM/init_tools.py 787-812). -/
def fixedMetaR (F : Rounding K) (M : Live L W m K) : Dict (Option String × MetaVal L W K) :=
  [("L0", some "cells", .int M.D.L0), ("N0", some "cells", .int M.D.N0),
    ("CTR", some "cells", .int M.P.CTR), ("dx", some "meters", .num (F.fl M.I.dx)),
    ("h0", some "meters", .num (F.fl M.I.h0)), ("hb", some "meters", .num (F.fl (resolveHb M.I))),
    ("cell_type", some "type", .ints M.P.cellType)] ++
  if M.I.toggleSub then
    [("start_subsidence", some "seconds", .int (toI8 M.I.startSub)),
      ("sigma", some "meters per timestep", .nums fun c => F.fl (M.P.sigma c))]
  else []

/-- The coordinates (pyDeltaRCM/init_tools.py 486-488, 690-708): products of integers and `_dx`, stored as
"f4"; `(x, y)`. -/
def coordsR (F D : Rounding K) (legacy : Bool) (dx : K) : Coord L W K × Coord L W K :=
  if legacy then (.cells fun c => F.fl (c.2.val : K), .cells fun c => F.fl (c.1.val : K))
  else (.line ((List.range L).map fun i : ℕ => F.fl (D.fl ((i : K) * dx))),
    .line ((List.range W).map fun j : ℕ => F.fl (D.fl ((j : K) * dx))))

/-- The file as made by `init_output_file` (pyDeltaRCM/init_tools.py 669-754). -/
def freshFileR (F D : Rounding K) (legacy : Bool) (A : SaveSet) (M : Live L W m K) : NcFile L W K where
  dims := ncDims L W legacy
  time := ⟨some "second", fun _ => none⟩
  x := (some "meter", (coordsR F D legacy M.I.dx).1)
  y := (some "meter", (coordsR F D legacy M.I.dx).2)
  vars := A.vars.map fun e => (e.1, ⟨some (varUnits e.1), fun _ => none⟩)
  fixed := if A.metadata then fixedMetaR F M else []
  varying := if A.metadata then varyingMeta.map fun e => (e.1, ⟨some e.2, fun _ => none⟩) else []

/-- `init_output_file` (pyDeltaRCM/init_tools.py 633-757); `found` is the file there, `none` in the result
that no file is made. -/
def initFileR (F D : Rounding K) (legacy clobber : Bool) (A : SaveSet) (M : Live L W m K)
    (found : Option (NcFile L W K)) : Except NcErr (Option (NcFile L W K)) :=
  if A.metadata || A.anyGrids then
    if found.isSome && !clobber then .error .fileExists
    else .ok (some (freshFileR F D legacy A M))
  else .ok found

/-- The loop over the grids (pyDeltaRCM/iteration_tools.py 304-307) with `save_grids` (412-440). -/
def writeGridsR (F : Rounding K) (S : State L W K) (i : ℕ) : List (String × String) → NcFile L W K →
    NcFile L W K × Option NcErr
  | [], f => (f, none)
  | (k, a) :: es, f =>
    match attrGrid S a with
    | none => (f, some (.noAttribute a))
    | some g =>
      match dget f.vars k with
      | none => (f, some (.noVariable k))
      | some v => writeGridsR F S i es { f with vars := dset f.vars k (v.write i fun c => F.fl (g c)) }

/-- The loop over the metadata (pyDeltaRCM/iteration_tools.py 314-317). -/
def writeMetaR (F : Rounding K) (M : Live L W m K) (i : ℕ) : List (String × String) → NcFile L W K →
    NcFile L W K × Option NcErr
  | [], f => (f, none)
  | (k, _) :: es, f =>
    match attrNum M k with
    | none => (f, some (.noAttribute k))
    | some x =>
      match dget f.varying k with
      | none => (f, some (.noMeta k))
      | some v => writeMetaR F M i es { f with varying := dset f.varying k (v.write i (F.fl x)) }

/-- What `save_grids_and_figs` does to the file (pyDeltaRCM/iteration_tools.py 254-324). -/
def writeRecordR (F : Rounding K) (A : SaveSet) (M : Live L W m K) (i : ℕ) (f : NcFile L W K) :
    NcFile L W K × Option NcErr :=
  let f1 := if A.metadata || A.anyGrids then { f with time := f.time.write i (F.fl M.S.time) } else f
  match (if A.anyGrids then writeGridsR F M.S i A.vars f1 else (f1, none)) with
  | (f2, some e) => (f2, some e)
  | (f2, none) => if A.metadata then writeMetaR F M i varyingMeta f2 else (f2, none)

/-- Records of the object at several saves, with consecutive indices; it stops at an error. -/
def writeRecordsR (F : Rounding K) (A : SaveSet) : List (Live L W m K) → ℕ → NcFile L W K →
    NcFile L W K × Option NcErr
  | [], _, f => (f, none)
  | M :: Ms, i, f =>
    match writeRecordR F A M i f with
    | (f1, some e) => (f1, some e)
    | (f1, none) => writeRecordsR F A Ms (i + 1) f1

/-- A fixed variable of "meta" that is read and written to one of the same type. -/
def MetaVal.again (F : Rounding K) : MetaVal L W K → MetaVal L W K
  | .int n => .int n
  | .num x => .num (F.fl x)
  | .ints g => .ints g
  | .nums g => .nums fun c => F.fl (g c)

/-- A coordinate that is read and written to a variable of the same type. -/
def Coord.again (F : Rounding K) : Coord L W K → Coord L W K
  | .line xs => .line (xs.map F.fl)
  | .cells g => .cells fun c => F.fl (g c)

/-- The copy made when a run is resumed (pyDeltaRCM/init_tools.py 958-984): each variable is made anew with
its type, `variable.datatype`, and its values are written. The attributes of variables are not copied. -/
def copyFileR (F : Rounding K) (f : NcFile L W K) : NcFile L W K where
  dims := f.dims
  time := ⟨none, fun i => (f.time.data i).map F.fl⟩
  x := (none, f.x.2.again F)
  y := (none, f.y.2.again F)
  vars := f.vars.map fun e => (e.1, ⟨none, fun i => (e.2.data i).map fun g c => F.fl (g c)⟩)
  fixed := f.fixed.map fun e => (e.1, none, e.2.2.again F)
  varying := f.varying.map fun e => (e.1, ⟨none, fun i => (e.2.data i).map F.fl⟩)

end Verif.Model
