import Verif.Model.SimEngine
import Verif.Model.FromConfig
import Verif.Model.Process
import Verif.Model.Parallel
import Verif.Model.Branch
import Verif.Model.NcFile

/-!
# From a configuration file to the models of all jobs

The class `DeltaModel` as `run_jobs` uses it: it reads its file, checks and completes the values, seeds the
generator, makes the domain, and is then updated and finalized. The generators of `numba` and `numpy`
belong to the process.

Simplified: a model does not resume; a seed below zero counts as zero; an exception of `create_domain` for
a domain without cells is that of an index; exceptions are told apart only by their type.
-/

namespace Verif.Model

variable {K : Type*} [Field K] [LinearOrder K] [FloorRing K] {σ ν : Type*}

/-- A value as `import_files` sees it: it looks at the type only and not into lists or dictionaries
(pyDeltaRCM/init_tools.py 133-151). -/
def Yaml.val : Yaml → Val
  | .scalar v => v
  | .list _ => .other
  | .dict _ => .other

/-- The values of a loaded file. -/
def valuesOf (d : Dict Yaml) : Dict Val := d.map (fun p => (p.1, p.2.val))

/-- The value of a flag; all have a default (pyDeltaRCM/default.yml). -/
def flagOf (vars : Dict Val) (k : String) : Bool := (getBool vars k).getD false

/-- The assignments of the flags for figures by `process_input_to_model`
(pyDeltaRCM/init_tools.py 250-252, pyDeltaRCM/default.yml). -/
def figOps (vars : Dict Val) : List (FigFlag × Bool) :=
  [(.eta, flagOf vars "save_eta_figs"), (.stage, flagOf vars "save_stage_figs"),
   (.depth, flagOf vars "save_depth_figs"), (.discharge, flagOf vars "save_discharge_figs"),
   (.velocity, flagOf vars "save_velocity_figs"), (.sedflux, flagOf vars "save_sedflux_figs"),
   (.sandfrac, flagOf vars "save_sandfrac_figs")]

/-- The assignments of the flags for grids (pyDeltaRCM/init_tools.py 250-252, pyDeltaRCM/default.yml). -/
def gridOps (vars : Dict Val) : List (GridFlag × Bool) :=
  [(.eta, flagOf vars "save_eta_grids"), (.stage, flagOf vars "save_stage_grids"),
   (.depth, flagOf vars "save_depth_grids"), (.discharge, flagOf vars "save_discharge_grids"),
   (.velocity, flagOf vars "save_velocity_grids"), (.sedflux, flagOf vars "save_sedflux_grids"),
   (.sandfrac, flagOf vars "save_sandfrac_grids"),
   (.dischargeComp, flagOf vars "save_discharge_components"),
   (.velocityComp, flagOf vars "save_velocity_components")]

/-- The output settings (pyDeltaRCM/init_tools.py 250-252 and 318-330). -/
def outOf (vars : Dict Val) (I : Input K) : OutCfg K :=
  let F := saveSet (gridOps vars) (flagOf vars "save_metadata")
  outCfgOf I (flagOf vars "save_checkpoint") (F.metadata || F.anyGrids)
    ((dkeys (figsAfter (figOps vars))).map String.toList) (flagOf vars "save_figs_sequential")

/-- The attribute `seed` after `process_input_to_model` (pyDeltaRCM/model.py 289-291). -/
def seedOf (vars : Dict Val) : Option ℕ :=
  match dget vars "seed" with
  | some (.int n) => some n.toNat
  | _ => none

/-- The type of what `import_files` raises (pyDeltaRCM/init_tools.py 76-230). -/
def excCfg : CfgErr → Exc
  | .emptyFile => ⟨.typeError, "argument of type 'NoneType' is not iterable"⟩
  | .badType _ => ⟨.typeError, "Input not of the right type in yaml configuration file"⟩

/-- The type of what the setters and `create_other_variables` raise (see `Verif.Model.Setup`). -/
def excSetup : SetupErr → Exc
  | .invalid _ => ⟨.valueError, "value not allowed"⟩
  | .zeroDivision => ⟨.other, "ZeroDivisionError"⟩
  | .negativeDim => ⟨.valueError, "negative dimensions are not allowed"⟩

/-- The domain, the output settings and the generator (pyDeltaRCM/model.py 110-123). -/
def settingOf (out : OutCfg K) (seeded : σ) : Built K → Except Exc (Setting K σ)
  | ⟨L + 1, W + 1, m, P, S⟩ =>
    .ok ⟨L + 1, W + 1, m, ⟨by omega⟩, ⟨by omega⟩, P, out, S, seeded⟩
  | _ => .error ⟨.other, "IndexError"⟩

/-- `DeltaModel(input_file=...)` up to the output (pyDeltaRCM/model.py 78-123). -/
def makeDelta (O : Oracle K) (G : Gens K σ ν) (inp : Option (Dict Yaml)) (s : σ × ν) :
    Except Exc (Setting K σ) × σ × ν :=
  match importFiles Val.type defaultTable [] (inp.map (fun d => some (valuesOf d))) [] with
  | .error e => (.error (excCfg e), s)
  | .ok (vars, _) =>
    match inputOf vars with
    | none => (.error ⟨.typeError, "unsupported operand"⟩, s)
    | some I =>
      match validate I with
      | .error e => (.error (excSetup e), s)
      | .ok _ =>
        let r := determineSeed G s.2 (seedOf vars)
        match create O I with
        | .error e => (.error (excSetup e), G.seeded r.1, r.2)
        | .ok B => (settingOf (outOf vars I) (G.seeded r.1) B, G.seeded r.1, r.2)

/-- The class `DeltaModel` (pyDeltaRCM/model.py 56-246); with `defer_output` the first output is left to
the job (pyDeltaRCM/preprocessor.py 861-863, 887-896). -/
def deltaEngine (O : Oracle K) (G : Gens K σ ν) :
    Engine K (Option (Dict Yaml)) (AnyModel K σ) (σ × ν) where
  make inp s :=
    match makeDelta O G inp s with
    | (.error e, s1) => (.error e, s1)
    | (.ok c, s1) => (.ok (c.live (startSim c.out c.S s1.1)), s1)
  defer inp s :=
    match makeDelta O G inp s with
    | (.error e, s1) => (.error e, s1)
    | (.ok c, s1) => (.ok (c.live (newSim c.S s1.1)), s1)
  begin mo s :=
    let r := (simEngine G.draw).begin mo s.1
    (r.1, r.2.1, r.2.2, s.2)
  time := (simEngine G.draw).time
  dt := (simEngine G.draw).dt
  update mo s :=
    let r := (simEngine G.draw).update mo s.1
    (r.1, r.2.1, r.2.2, s.2)
  finalize mo s :=
    let r := (simEngine G.draw).finalize mo s.1
    (r.1, r.2.1, r.2.2, s.2)

end Verif.Model
