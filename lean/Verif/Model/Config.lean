import Mathlib.Data.List.Nodup
import Mathlib.Data.Rat.Defs

/-!
# Reading a configuration

Model of `import_files` (`pyDeltaRCM/init_tools.py` 76-230) and of `pyDeltaRCM/default.yml`. The model
starts from the loaded dictionary; `Model/YamlText` is about the text.
-/

namespace Verif.Model

/-- A Python dictionary: keys in the order of insertion. -/
abbrev Dict (V : Type*) := List (String × V)

/-- `d[k]` -/
def dget {V : Type*} : Dict V → String → Option V
  | [], _ => none
  | (a, v) :: d, k => if a = k then some v else dget d k

/-- `d[k] = v` -/
def dset {V : Type*} : Dict V → String → V → Dict V
  | [], k, v => [(k, v)]
  | (a, w) :: d, k, v => if a = k then (a, v) :: d else (a, w) :: dset d k v

/-- `d.keys()` -/
def dkeys {V : Type*} (d : Dict V) : List String := d.map (·.1)

/-- `d.pop(k)` or `del d[k]`, where the key is present or nothing is to be done. -/
def ddel {V : Type*} (d : Dict V) (k : String) : Dict V := d.filter (fun p => p.1 ≠ k)

/-- An entry of `default.yml` or of `subclass_parameters`. The types are evaluated: `none` stands for
the object `None`, which is not a type (`eval('None')`). -/
structure Entry (T V : Type*) where
  types : List (Option T)
  default : V

/-- What may be raised. -/
inductive CfgErr
  /-- an empty YAML file loads as `None`, in which no key can be looked up -/
  | emptyFile
  /-- `TypeError("Input for ... not of the right type")` -/
  | badType (k : String)
deriving DecidableEq

/-- The warnings. -/
inductive CfgWarn
  /-- a keyword is also in the YAML file -/
  | both (k : String)
  /-- a subclass parameter has the name of a parameter -/
  | shadowed (k : String)
  /-- keywords for the Preprocessor only -/
  | ppOnly (ks : List String)
  /-- other unused keys -/
  | unused (ks : List String)
deriving DecidableEq

variable {T V : Type*} [DecidableEq T]

/-- Keywords are put over the values of the file (pyDeltaRCM/init_tools.py 126-134). -/
def mergeKw : Dict V → Dict V → Dict V × List CfgWarn
  | user, [] => (user, [])
  | user, (k, v) :: kw =>
    let (u, ws) := mergeKw (dset user k v) kw
    (u, if k ∈ dkeys user then .both k :: ws else ws)

/-- The loop over the defaults (pyDeltaRCM/init_tools.py 138-152). -/
def populate (ty : V → T) (user : Dict V) : Dict (Entry T V) → Except CfgErr (Dict V)
  | [] => .ok []
  | (k, e) :: ds =>
    match dget user k with
    | some v =>
      if some (ty v) ∈ e.types then
        match populate ty user ds with
        | .ok vars => .ok ((k, v) :: vars)
        | .error er => .error er
      else .error (.badType k)
    | none =>
      match populate ty user ds with
      | .ok vars => .ok ((k, e.default) :: vars)
      | .error er => .error er

/-- The loop over the parameters of a subclass (pyDeltaRCM/init_tools.py 155-184). -/
def populateSub (ty : V → T) (user : Dict V) :
    Dict (Entry T V) → Dict V → Except CfgErr (Dict V × List CfgWarn)
  | [], vars => .ok (vars, [])
  | (k, e) :: ds, vars =>
    if k ∈ dkeys vars then
      match populateSub ty user ds vars with
      | .ok (vs, ws) => .ok (vs, .shadowed k :: ws)
      | .error er => .error er
    else
      match dget user k with
      | some v =>
        if some (ty v) ∈ e.types then populateSub ty user ds (dset vars k v)
        else .error (.badType k)
      | none => populateSub ty user ds (dset vars k e.default)

/-- `_no_list` (pyDeltaRCM/init_tools.py 193) -/
def noList : List String := ["timesteps", "time", "time_years", "config", "dryrun", "parallel"]

/-- `pp_only_kw` (pyDeltaRCM/init_tools.py 190) -/
def ppOnlyKw : List String := ["matrix", "ensemble", "set"]

/-- The report on unused keys (pyDeltaRCM/init_tools.py 190-220). -/
def unusedWarn (user vars : Dict V) : List CfgWarn :=
  let user' := noList.foldl ddel user
  let unusedKeys := (dkeys user').filter (fun k => k ∉ dkeys vars)
  if 0 < unusedKeys.length then
    let pp := unusedKeys.filter (fun k => k ∈ ppOnlyKw)
    if 0 < pp.length then [.ppOnly pp] else [.unused unusedKeys]
  else []

/-- `import_files` (pyDeltaRCM/init_tools.py 76-230). `file` is the loaded YAML file: `none` if there is
no input file, `some none` if it is empty. `kw` are the keyword arguments. The result are the values
and the warnings. -/
def importFiles (ty : V → T) (defaults sub : Dict (Entry T V)) (file : Option (Option (Dict V)))
    (kw : Dict V) : Except CfgErr (Dict V × List CfgWarn) :=
  match file with
  | some none => .error .emptyFile
  | _ =>
    let yaml := (file.getD none).getD []
    let (user, w1) := mergeKw yaml kw
    match populate ty user defaults with
    | .error e => .error e
    | .ok vars =>
      match populateSub ty user sub vars with
      | .error e => .error e
      | .ok (vars, w2) => .ok (vars, w1 ++ w2 ++ unusedWarn user vars)

/-- The types of values in a YAML file. -/
inductive PyType
  | str | int | float | bool | noneType | other
deriving DecidableEq

/-- Values in a YAML file; lists and dictionaries are not looked into. -/
inductive Val
  | str (s : String)
  | int (i : ℤ)
  | float (q : ℚ)
  | bool (b : Bool)
  | null
  | other
deriving DecidableEq

/-- `type(v)`; a boolean is not an `int` for this. -/
def Val.type : Val → PyType
  | .str _ => .str
  | .int _ => .int
  | .float _ => .float
  | .bool _ => .bool
  | .null => .noneType
  | .other => .other

/-- `default.yml` (pyDeltaRCM/default.yml). -/
def defaultTable : Dict (Entry PyType Val) :=
  [
   ("out_dir", ⟨[some .str], .str "deltaRCM_Output"⟩),
   ("verbose", ⟨[some .int], .int 0⟩),
   ("seed", ⟨[some .int, none], .null⟩),
   ("Length", ⟨[some .float, some .int], .float 5000⟩),
   ("Width", ⟨[some .float, some .int], .float 10000⟩),
   ("dx", ⟨[some .float, some .int], .float 50⟩),
   ("L0_meters", ⟨[some .float, some .int], .float 150⟩),
   ("S0", ⟨[some .float, some .int], .float (3 / 20000)⟩),
   ("itermax", ⟨[some .int], .int 3⟩),
   ("Np_water", ⟨[some .int], .int 2000⟩),
   ("u0", ⟨[some .float, some .int], .float 1⟩),
   ("N0_meters", ⟨[some .float, some .int], .float 250⟩),
   ("h0", ⟨[some .float, some .int], .float 5⟩),
   ("hb", ⟨[some .float, some .int, none], .null⟩),
   ("H_SL", ⟨[some .float, some .int], .float 0⟩),
   ("SLR", ⟨[some .float, some .int], .float 0⟩),
   ("Np_sed", ⟨[some .int], .int 2000⟩),
   ("f_bedload", ⟨[some .float, some .int], .float (1 / 2)⟩),
   ("active_layer_thickness", ⟨[some .float, some .int, none], .null⟩),
   ("C0_percent", ⟨[some .float, some .int], .float (1 / 10)⟩),
   ("Csmooth", ⟨[some .float, some .int], .float (9 / 10)⟩),
   ("toggle_subsidence", ⟨[some .bool], .bool false⟩),
   ("subsidence_rate", ⟨[some .float, some .int], .float (1 / 500000000)⟩),
   ("start_subsidence", ⟨[some .float, some .int], .int 216000⟩),
   ("save_eta_figs", ⟨[some .bool], .bool false⟩),
   ("save_stage_figs", ⟨[some .bool], .bool false⟩),
   ("save_depth_figs", ⟨[some .bool], .bool false⟩),
   ("save_discharge_figs", ⟨[some .bool], .bool false⟩),
   ("save_velocity_figs", ⟨[some .bool], .bool false⟩),
   ("save_sedflux_figs", ⟨[some .bool], .bool false⟩),
   ("save_sandfrac_figs", ⟨[some .bool], .bool false⟩),
   ("save_figs_sequential", ⟨[some .bool], .bool true⟩),
   ("save_metadata", ⟨[some .bool], .bool false⟩),
   ("save_eta_grids", ⟨[some .bool], .bool false⟩),
   ("save_stage_grids", ⟨[some .bool], .bool false⟩),
   ("save_depth_grids", ⟨[some .bool], .bool false⟩),
   ("save_discharge_grids", ⟨[some .bool], .bool false⟩),
   ("save_velocity_grids", ⟨[some .bool], .bool false⟩),
   ("save_sedflux_grids", ⟨[some .bool], .bool false⟩),
   ("save_sandfrac_grids", ⟨[some .bool], .bool false⟩),
   ("save_discharge_components", ⟨[some .bool], .bool false⟩),
   ("save_velocity_components", ⟨[some .bool], .bool false⟩),
   ("save_dt", ⟨[some .int], .int 86400⟩),
   ("checkpoint_dt", ⟨[some .int, none], .null⟩),
   ("save_checkpoint", ⟨[some .bool], .bool false⟩),
   ("resume_checkpoint", ⟨[some .bool, some .str], .bool false⟩),
   ("omega_sfc", ⟨[some .float, some .int], .float (1 / 10)⟩),
   ("omega_flow", ⟨[some .float, some .int], .float (9 / 10)⟩),
   ("Nsmooth", ⟨[some .int], .int 10⟩),
   ("theta_water", ⟨[some .float, some .int], .float 1⟩),
   ("coeff_theta_sand", ⟨[some .float, some .int], .float 2⟩),
   ("coeff_theta_mud", ⟨[some .float, some .int], .float 1⟩),
   ("beta", ⟨[some .int], .int 3⟩),
   ("sed_lag", ⟨[some .float, some .int], .float 1⟩),
   ("coeff_U_dep_mud", ⟨[some .float, some .int], .float (3 / 10)⟩),
   ("coeff_U_ero_mud", ⟨[some .float, some .int], .float (3 / 2)⟩),
   ("coeff_U_ero_sand", ⟨[some .float, some .int], .float (21 / 20)⟩),
   ("alpha", ⟨[some .float, some .int], .float (1 / 10)⟩),
   ("stepmax", ⟨[some .float, some .int, none], .null⟩),
   ("sand_frac_bc", ⟨[some .float, some .int], .int 0⟩),
   ("clobber_netcdf", ⟨[some .bool], .bool false⟩),
   ("legacy_netcdf", ⟨[some .bool], .bool false⟩)
  ]

end Verif.Model
