import Verif.Model.Output
import Verif.Model.SaveFlags

/-!
# Assigning settings of output to a running model

Model of assignments to what concerns output between updates (the setters of pyDeltaRCM/model.py 258-291, 655-801,
1023-1077, 1296-1298, 1337-1339), and of updates with the settings present then. The grids of the output file are in
`Model/NcFile` and never change here: `anyGrids` is what was found when the model was made. A record of the file is
that of `Model/Output`.

Not modelled: `verbose`; what is left behind by a call that raises an error; values other than `True` and `False` of a
flag; `defer_output`.
-/

namespace Verif.Model

variable {K : Type*} [Field K] [LinearOrder K] {σ : Type*} {L W m : ℕ}

/-- An assignment. -/
inductive OutAssign (K : Type*)
  | saveDt (x : K)
  /-- `none` is the value `None` -/
  | ckptDt (x : Option K)
  | saveCkpt (b : Bool)
  | sequential (b : Bool)
  | metadata (b : Bool)
  | fig (f : FigFlag) (b : Bool)
  | outDir (s : String)
  | seed (n : ℤ)
  /-- `resume_checkpoint`; `Sum.inl` is a folder -/
  | resume (x : String ⊕ Bool)
  | clobber (b : Bool)
  | legacy (b : Bool)

/-- The attributes with a leading underscore, and `_save_fig_list`. -/
structure OutSet (K : Type*) where
  saveDt : K
  ckptDt : K
  saveCkpt : Bool
  sequential : Bool
  /-- `_save_metadata`; switched on with the grids when the model is made (pyDeltaRCM/init_tools.py 329-330) -/
  metadata : Bool
  /-- `_save_any_grids` (pyDeltaRCM/init_tools.py 318-328) -/
  anyGrids : Bool
  figList : Dict String
  outDir : String
  seed : ℤ
  resume : Bool
  /-- `_checkpoint_folder` -/
  folder : String
  clobber : Bool
  legacy : Bool

/-- What a session may raise. -/
inductive OutErr
  /-- `KeyError` of a setter -/
  | key (e : SaveErr)
  /-- what `update` raises -/
  | call (e : CallErr)
  /-- `AttributeError`: there is no `output_netcdf` (pyDeltaRCM/iteration_tools.py 257) -/
  | noFile

/-- The setters (pyDeltaRCM/model.py 258-291, 655-762, 779-801, 1023-1077, 1296-1298, 1337-1339) of a model with the
folder `pre`. -/
def setOut (pre : String) (Z : OutSet K) : OutAssign K → Except OutErr (OutSet K)
  | .saveDt x => .ok { Z with saveDt := x }
  | .ckptDt x => .ok { Z with ckptDt := x.getD Z.saveDt }
  | .saveCkpt b => .ok { Z with saveCkpt := b }
  | .sequential b => .ok { Z with sequential := b }
  | .metadata b => .ok { Z with metadata := b }
  | .fig f b =>
    match setFig Z.figList f b with
    | (_, some e) => .error (.key e)
    | (l, none) => .ok { Z with figList := l }
  | .outDir s => .ok { Z with outDir := s }
  | .seed n => .ok { Z with seed := n }
  | .resume (.inl s) => .ok { Z with folder := s, resume := true }
  | .resume (.inr b) => .ok { Z with folder := pre, resume := b }
  | .clobber b => .ok { Z with clobber := b }
  | .legacy b => .ok { Z with legacy := b }

/-- What `output_data` and `output_checkpoint` read (pyDeltaRCM/iteration_tools.py 145-182, 256, 260-264, 396). -/
def OutSet.cfg (Z : OutSet K) : OutCfg K where
  saveDt := Z.saveDt
  ckptDt := Z.ckptDt
  saveCkpt := Z.saveCkpt
  saveNc := Z.metadata || Z.anyGrids
  figs := (dkeys Z.figList).map String.toList
  sequential := Z.sequential

/-- A model with its settings of output. -/
structure OutObj (L W : ℕ) (K σ : Type*) where
  set : OutSet K
  /-- `prefix`, where figures, checkpoints and the file are put -/
  pre : String
  /-- whether there is an `output_netcdf` -/
  hasFile : Bool
  M : Sim L W K σ

/-- The model when it is made (pyDeltaRCM/init_tools.py 30, 318-330, 651, pyDeltaRCM/model.py 130-143). -/
def startOut (Z : OutSet K) (S : State L W K) (s : σ) : OutObj L W K σ :=
  let Z' := { Z with metadata := Z.metadata || Z.anyGrids }
  { set := Z', pre := Z.outDir, hasFile := Z'.metadata || Z'.anyGrids, M := startSim Z'.cfg S s }

/-- What a user does. -/
inductive OutAct (L W m : ℕ) (K : Type*)
  | assign (a : OutAssign K)
  | update (P : Params L W m K)

/-- One act; `update` is that of `Model/Output` (pyDeltaRCM/model.py 149-215) with the present settings. -/
def outAct [NeZero L] [NeZero W] [FloorRing K] (g : Rng K σ) (X : OutObj L W K σ) :
    OutAct L W m K → Except OutErr (OutObj L W K σ)
  | .assign a =>
    match setOut X.pre X.set a with
    | .error e => .error e
    | .ok Z => .ok { X with set := Z }
  | .update P =>
    match update g X.set.cfg P X.M with
    | .error e => .error (.call e)
    | .ok M' =>
      if due X.set.saveDt (addSince P.dt X.M.saveSince) && X.set.cfg.saveNc && !X.hasFile then .error .noFile
      else .ok { X with M := M' }

/-- A session; it ends with the first error. -/
def outActs [NeZero L] [NeZero W] [FloorRing K] (g : Rng K σ) :
    List (OutAct L W m K) → OutObj L W K σ → Except OutErr (OutObj L W K σ)
  | [], X => .ok X
  | a :: as, X =>
    match outAct g X a with
    | .error e => .error e
    | .ok X1 => outActs g as X1

end Verif.Model
