import Verif.Model.NcFile
import Verif.Model.Expand

/-!
# Figures, grids and metadata that a hook adds to the output

Model of `hook_init_output_file` (pyDeltaRCM/hook_tools.py 215-250), which is called just before
`init_output_file` (pyDeltaRCM/model.py 136-137, pyDeltaRCM/init_tools.py 927-929) and adds entries to
`_save_fig_list`, `_save_var_list` and `_save_var_list["meta"]` (docs/source/examples/custom_saving.rst),
and of what becomes of these entries in `init_output_file` (pyDeltaRCM/init_tools.py 633-757) and
`save_grids_and_figs` (pyDeltaRCM/iteration_tools.py 250-324).

A hook is taken to add entries and nothing else; an attribute of a subclass is a number, an integer or an
array of the size of the domain. Simplified: the netCDF type of an entry is left out; a grid is written
only if its dimensions are the three of the file in their order (others of the same sizes might do); the
dimensions of metadata are taken to fit their values.
-/

namespace Verif.Model

variable {K : Type*} [Field K] [LinearOrder K] [FloorRing K] {L W m : ℕ}

/-- An entry of `_save_var_list`: attribute, units and dimensions. -/
structure GridEntry where
  attr : String
  units : String
  dims : List String
  deriving DecidableEq

/-- An entry of `_save_var_list["meta"]`: attribute, or `none` for metadata that vary, and units. -/
structure MetaEntry where
  attr : Option String
  units : String
  deriving DecidableEq

/-- The entries that `hook_init_output_file` sets (pyDeltaRCM/hook_tools.py 215-250), in their order. -/
structure OutHook where
  figs : Dict String
  grids : Dict GridEntry
  metas : Dict MetaEntry

/-- The object of a subclass, with its further attributes. -/
structure SubModel (L W m : ℕ) (K : Type*) where
  M : Live L W m K
  own : String → Option (MetaVal L W K)

/-- `getattr(self, name)` (pyDeltaRCM/init_tools.py 750, pyDeltaRCM/iteration_tools.py 265, 306, 317). -/
def SubModel.getAttr (X : SubModel L W m K) (a : String) : Option (MetaVal L W K) :=
  match attrGrid X.M.S a with
  | some g => some (.nums g)
  | none =>
    match attrNum X.M a with
    | some x => some (.num x)
    | none =>
      match dget (fixedMeta X.M) a with
      | some e => some e.2
      | none => X.own a

/-- `_save_fig_list` and `_save_var_list`. -/
structure OutLists where
  figs : Dict String
  grids : Dict GridEntry
  metas : Dict MetaEntry

/-- The dimensions of a grid, `_netcdf_coords` (pyDeltaRCM/init_tools.py 227-230). -/
def gridDims (legacy : Bool) : List String :=
  if legacy then ["total_time", "length", "width"] else ["time", "x", "y"]

/-- The lists after the save flags were assigned (pyDeltaRCM/init_tools.py 37-39, pyDeltaRCM/model.py
655-1012). -/
def flagLists (legacy : Bool) (figs : Dict String) (F : SaveSet) : OutLists where
  figs := figs
  grids := F.vars.map fun e => (e.1, ⟨e.2, varUnits e.1, gridDims legacy⟩)
  metas := []

/-- The lists after `hook_init_output_file` (pyDeltaRCM/hook_tools.py 215-250): its entries are assigned one
after the other. -/
def OutLists.hooked (l : OutLists) (h : OutHook) : OutLists where
  figs := dupdate l.figs h.figs
  grids := dupdate l.grids h.grids
  metas := dupdate l.metas h.metas

/-- The entries of `init_metadata_list` (pyDeltaRCM/init_tools.py 782-837). -/
def standardMeta (toggleSub : Bool) : Dict MetaEntry :=
  [("L0", ⟨some "L0", "cells"⟩), ("N0", ⟨some "N0", "cells"⟩), ("CTR", ⟨some "CTR", "cells"⟩),
    ("dx", ⟨some "dx", "meters"⟩), ("h0", ⟨some "h0", "meters"⟩), ("hb", ⟨some "hb", "meters"⟩),
    ("cell_type", ⟨some "cell_type", "type"⟩)] ++
  (if toggleSub then
    [("start_subsidence", ⟨some "start_subsidence", "seconds"⟩),
      ("sigma", ⟨some "sigma", "meters per timestep"⟩)]
  else []) ++
  [("H_SL", ⟨none, "meters"⟩), ("f_bedload", ⟨none, "fraction"⟩), ("C0_percent", ⟨none, "percent"⟩),
    ("u0", ⟨none, "meters per second"⟩)]

/-- `init_metadata_list` where metadata are saved (pyDeltaRCM/init_tools.py 647-648, 950-951). -/
def OutLists.withMeta (l : OutLists) (metadata toggleSub : Bool) : OutLists :=
  if metadata then { l with metas := dupdate l.metas (standardMeta toggleSub) } else l

/-- What goes wrong. -/
inductive CustomErr
  /-- `FileExistsError` (pyDeltaRCM/init_tools.py 660-663) -/
  | fileExists
  /-- `createVariable` for a name that the file has already (pyDeltaRCM/init_tools.py 712) -/
  | nameInUse (name : String)
  /-- `createVariable` with a dimension that the file has not (pyDeltaRCM/init_tools.py 712) -/
  | noDimension (name : String)
  /-- `AttributeError` of `getattr` -/
  | noAttribute (name : String)
  /-- `AttributeError` for a figure of something else than an array (pyDeltaRCM/iteration_tools.py 289-295) -/
  | notArray (name : String)
  /-- `Exception` of `save_grids` (pyDeltaRCM/iteration_tools.py 437-440) -/
  | gridFailed (name : String)
  /-- no such variable in the group "meta", or an array for one record (pyDeltaRCM/iteration_tools.py
  317) -/
  | metaFailed (name : String)
  deriving DecidableEq

/-- The loop that makes the variables (pyDeltaRCM/init_tools.py 715-723). -/
def makeGrids (legacy : Bool) : Dict GridEntry → Dict (NcVar (Grid L W K)) →
    Except CustomErr (Dict (NcVar (Grid L W K)))
  | [], d => .ok d
  | (k, e) :: es, d =>
    if k ∈ ["time", "x", "y"] ∨ k ∈ dkeys d then .error (.nameInUse k)
    else if ∃ a ∈ e.dims, a ∉ gridDims legacy then .error (.noDimension k)
    else makeGrids legacy es (d ++ [(k, ⟨some e.units, fun _ => none⟩)])

/-- The loop that makes the metadata (pyDeltaRCM/init_tools.py 737-754): those that are fixed and those that
vary. -/
def makeMetas (X : SubModel L W m K) : Dict MetaEntry →
    Except CustomErr (Dict (Option String × MetaVal L W K) × Dict (NcVar K))
  | [] => .ok ([], [])
  | (k, ⟨none, u⟩) :: es =>
    match makeMetas X es with
    | .error e => .error e
    | .ok (f, v) => .ok (f, (k, ⟨some u, fun _ => none⟩) :: v)
  | (k, ⟨some a, u⟩) :: es =>
    match X.getAttr a with
    | none => .error (.noAttribute a)
    | some x =>
      match makeMetas X es with
      | .error e => .error e
      | .ok (f, v) => .ok ((k, some u, x) :: f, v)

/-- `init_output_file` with the entries of the lists (pyDeltaRCM/init_tools.py 633-757): the lists, with the
standard metadata, and the file. -/
def openFile (legacy clobber : Bool) (F : SaveSet) (l : OutLists) (X : SubModel L W m K)
    (found : Option (NcFile L W K)) : Except CustomErr (OutLists × Option (NcFile L W K)) :=
  let l := l.withMeta F.metadata X.M.I.toggleSub
  if F.metadata || F.anyGrids then
    if found.isSome && !clobber then .error .fileExists
    else
      match makeGrids legacy l.grids [] with
      | .error e => .error e
      | .ok vars =>
        match makeMetas X l.metas with
        | .error e => .error e
        | .ok (fixed, varying) =>
          .ok (l, some
            { dims := ncDims L W legacy
              time := ⟨some "second", fun _ => none⟩
              x := (some "meter", (coords legacy X.M.I.dx).1)
              y := (some "meter", (coords legacy X.M.I.dx).2)
              vars := vars
              fixed := fixed
              varying := varying })
  else .ok (l, found)

/-- The array that is stored when a value is assigned to the cells of one record
(pyDeltaRCM/iteration_tools.py 436): a single number is repeated. -/
def MetaVal.asGrid : MetaVal L W K → Grid L W K
  | .int n => fun _ => (n : K)
  | .num x => fun _ => x
  | .ints g => fun c => (g c : K)
  | .nums g => g

/-- The number that is stored for one record (pyDeltaRCM/iteration_tools.py 317). -/
def MetaVal.asNum : MetaVal L W K → Option K
  | .int n => some (n : K)
  | .num x => some x
  | .ints _ => none
  | .nums _ => none

/-- `isinstance(_attr, np.ndarray)` (pyDeltaRCM/iteration_tools.py 266). -/
def MetaVal.isArray : MetaVal L W K → Bool
  | .ints _ => true
  | .nums _ => true
  | _ => false

/-- The loop over the figures (pyDeltaRCM/iteration_tools.py 264-295): the names of those made. -/
def drawFigs (X : SubModel L W m K) : Dict String → List String × Option CustomErr
  | [] => ([], none)
  | (k, a) :: es =>
    match X.getAttr a with
    | none => ([], some (.noAttribute a))
    | some v =>
      if v.isArray then ((k :: (drawFigs X es).1), (drawFigs X es).2)
      else ([], some (.notArray k))

/-- The loop over the grids (pyDeltaRCM/iteration_tools.py 302-307) with `save_grids` (412-440). -/
def saveGrids (legacy : Bool) (X : SubModel L W m K) (i : ℕ) : Dict GridEntry → NcFile L W K →
    NcFile L W K × Option CustomErr
  | [], f => (f, none)
  | (k, e) :: es, f =>
    match X.getAttr e.attr with
    | none => (f, some (.noAttribute e.attr))
    | some x =>
      match dget f.vars k with
      | none => (f, some (.gridFailed k))
      | some v =>
        if e.dims = gridDims legacy then
          saveGrids legacy X i es { f with vars := dset f.vars k (v.write i x.asGrid) }
        else (f, some (.gridFailed k))

/-- The loop over the metadata (pyDeltaRCM/iteration_tools.py 314-317). -/
def saveMetas (X : SubModel L W m K) (i : ℕ) : Dict MetaEntry → NcFile L W K →
    NcFile L W K × Option CustomErr
  | [], f => (f, none)
  | (_, ⟨some _, _⟩) :: es, f => saveMetas X i es f
  | (k, ⟨none, _⟩) :: es, f =>
    match X.getAttr k with
    | none => (f, some (.noAttribute k))
    | some x =>
      match dget f.varying k, x.asNum with
      | some v, some y => saveMetas X i es { f with varying := dset f.varying k (v.write i y) }
      | _, _ => (f, some (.metaFailed k))

/-- What is in the output folder: the file, and the figures, by name and index. -/
structure OutDir (L W : ℕ) (K : Type*) where
  file : Option (NcFile L W K)
  figures : List (String × ℕ)

/-- `save_grids_and_figs` (pyDeltaRCM/iteration_tools.py 250-324) at index `i`. Where metadata or grids are
to be saved there is a file; without one nothing is written to it here. -/
def saveOutput (legacy : Bool) (F : SaveSet) (l : OutLists) (X : SubModel L W m K) (i : ℕ)
    (d : OutDir L W K) : OutDir L W K × Option CustomErr :=
  let on := F.metadata || F.anyGrids
  let file1 := if on then d.file.map fun f => { f with time := f.time.write i X.M.S.time } else d.file
  let (made, e1) := drawFigs X l.figs
  let d1 : OutDir L W K := ⟨file1, d.figures ++ made.map fun k => (k, i)⟩
  match e1 with
  | some e => (d1, some e)
  | none =>
    match file1 with
    | none => (d1, none)
    | some f1 =>
      match (if F.anyGrids then saveGrids legacy X i l.grids f1 else (f1, none)) with
      | (f2, some e) => ({ d1 with file := some f2 }, some e)
      | (f2, none) =>
        match (if F.metadata then saveMetas X i l.metas f2 else (f2, none)) with
        | (f3, e) => ({ d1 with file := some f3 }, e)

/-- Saves of the object at several times, with consecutive indices; they stop at an error. -/
def saveOutputs (legacy : Bool) (F : SaveSet) (l : OutLists) : List (SubModel L W m K) → ℕ → OutDir L W K →
    OutDir L W K × Option CustomErr
  | [], _, d => (d, none)
  | X :: Xs, i, d =>
    match saveOutput legacy F l X i d with
    | (d1, some e) => (d1, some e)
    | (d1, none) => saveOutputs legacy F l Xs (i + 1) d1

/-- A new model (pyDeltaRCM/model.py 133-137): the hook, then the file. -/
def newOutput (legacy clobber : Bool) (figs : Dict String) (F : SaveSet) (h : OutHook) (X : SubModel L W m K)
    (found : Option (NcFile L W K)) : Except CustomErr (OutLists × Option (NcFile L W K)) :=
  openFile legacy clobber F ((flagLists legacy figs F).hooked h) X found

/-- The part of `load_checkpoint` on the output file (pyDeltaRCM/init_tools.py 913-990), where the saving of
something to a file is asked for: without a file the hook and a new file from index zero; with one the file
is copied, and the hook is not called. The result holds the lists, the file, and the index of the next
save. -/
def resumeOutput (legacy clobber : Bool) (figs : Dict String) (F : SaveSet) (h : OutHook)
    (X : SubModel L W m K) (saveIter : ℕ) (found : Option (NcFile L W K)) :
    Except CustomErr (OutLists × Option (NcFile L W K) × ℕ) :=
  let l := flagLists legacy figs F
  if F.metadata || F.anyGrids then
    match found with
    | none =>
      match openFile legacy clobber F (l.hooked h) X none with
      | .error e => .error e
      | .ok (l1, f) => .ok (l1, f, 0)
    | some f => .ok (l.withMeta F.metadata X.M.I.toggleSub, some (copyFile f), saveIter)
  else .ok (l, found, saveIter)

end Verif.Model
