import Verif.Model.Config

/-!
# The save flags

Model of the `save_*_figs`, `save_*_grids` and `save_*_components` setters (pyDeltaRCM/model.py
655-1012). Values other than `True` and `False` are not modelled, nor are units and netCDF types.
-/

namespace Verif.Model

/-- The flags for figures. -/
inductive FigFlag
  | eta | stage | depth | discharge | velocity | sedflux | sandfrac
  deriving DecidableEq

/-- The key and the attribute of the entry in `_save_fig_list` (pyDeltaRCM/model.py 658, 673, 688, 705,
722, 741, 759). -/
def FigFlag.entry : FigFlag → String × String
  | .eta => ("eta", "eta")
  | .stage => ("stage", "stage")
  | .depth => ("depth", "depth")
  | .discharge => ("discharge", "qw")
  | .velocity => ("velocity", "uw")
  | .sedflux => ("sedflux", "qs")
  | .sandfrac => ("sandfrac", "sand_frac")

/-- The key that is deleted when the flag is cleared: the one of the entry, except that
`save_velocity_figs` deletes "sedflux" (pyDeltaRCM/model.py 723-726). -/
def FigFlag.deleted : FigFlag → String
  | .velocity => "sedflux"
  | f => f.entry.1

/-- `KeyError` -/
inductive SaveErr
  | key (k : String)
  deriving DecidableEq

/-- A `save_*_figs` setter on `_save_fig_list` (pyDeltaRCM/model.py 655-762). After an error the
list is unchanged. -/
def setFig (l : Dict String) (f : FigFlag) (b : Bool) : Dict String × Option SaveErr :=
  if b = true ∧ f.entry.1 ∉ dkeys l then (dset l f.entry.1 f.entry.2, none)
  else if b = false ∧ f.entry.1 ∈ dkeys l then
    if f.deleted ∈ dkeys l then (ddel l f.deleted, none) else (l, some (.key f.deleted))
  else (l, none)

/-- The flags for grids. -/
inductive GridFlag
  | eta | stage | depth | discharge | velocity | sedflux | sandfrac | dischargeComp | velocityComp
  deriving DecidableEq

/-- The keys and attributes of the entries in `_save_var_list` (pyDeltaRCM/model.py 811-1012). -/
def GridFlag.entries : GridFlag → List (String × String)
  | .eta => [("eta", "eta")]
  | .stage => [("stage", "stage")]
  | .depth => [("depth", "depth")]
  | .discharge => [("discharge", "qw")]
  | .velocity => [("velocity", "uw")]
  | .sedflux => [("sedflux", "qs")]
  | .sandfrac => [("sandfrac", "sand_frac")]
  | .dischargeComp => [("discharge_x", "qx"), ("discharge_y", "qy")]
  | .velocityComp => [("velocity_x", "ux"), ("velocity_y", "uy")]

/-- One entry of `_save_var_list` set or deleted. -/
def setVar (b : Bool) (l : Dict String) (e : String × String) : Dict String :=
  if b = true ∧ e.1 ∉ dkeys l then dset l e.1 e.2
  else if b = false ∧ e.1 ∈ dkeys l then ddel l e.1
  else l

/-- A `save_*_grids` or `save_*_components` setter (pyDeltaRCM/model.py 811-1012). -/
def setGrid (l : Dict String) (f : GridFlag) (b : Bool) : Dict String :=
  f.entries.foldl (setVar b) l

/-- The list of figures after assignments of flags, from the empty list
(pyDeltaRCM/init_tools.py 37). -/
def figsAfter (ops : List (FigFlag × Bool)) : Dict String :=
  ops.foldl (fun l op => (setFig l op.1 op.2).1) []

/-- The list of variables after assignments of flags, from the empty list (pyDeltaRCM/init_tools.py
38-39). The entry "meta", which no flag touches, is left out. -/
def gridsAfter (ops : List (GridFlag × Bool)) : Dict String :=
  ops.foldl (fun l op => setGrid l op.1 op.2) []

end Verif.Model
